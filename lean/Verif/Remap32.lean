import Verif.RemapCore
import Verif.CInt

/-!
# `setup` and `remap` of `Remap3d` / `Remap2d` with 32-bit integers

The functions of `RemapCore.lean` again, with the operations of `CInt.lean` for every expression of type
`int`; `none` now also stands for signed overflow.  As there, the parts that differ between 2d and 3d are
a parameter.  Line numbers refer to remap3d.cpp [remap2d.cpp].

Counters of ranks and of list entries (`nsend++`, `iproc++`, `ngroup++`) are at most `nprocs`, which is
an `int`; they need no check.
-/

namespace FftMpi

variable {α : Type}

/-- The parts in which `Remap2d` and `Remap3d` differ, with `int` arithmetic. -/
structure Dim32 (α E π : Type) where
  /-- the sizes `hi - lo + 1` of an extent can be computed, remap3d.cpp:192-212 [189-203] -/
  extent : E → Bool
  collide : E → E → Option (Option E)
  size : Int → E → Option Int
  sendOff : Int → E → E → Option Int
  sendPlan : Int → E → E → Option π
  recvOff : Int → Int → E → E → Option Int
  recvPlan : Int → Int → E → E → Option π
  packSel : Int → Option (CopyFn α π)
  unpackSel : Int → Int → Int → Option (CopyFn α π)

/-- The send loop, remap3d.cpp:255-274 [242-259]. -/
def sendEnts32 {E π : Type} (D : Dim32 α E π) (nqty : Int) (inb : E) (outs : Nat → E) :
    List Nat → Option (List (SEnt π))
  | [] => some []
  | p :: ps =>
    (D.collide inb (outs p)).bind fun c =>
    match c with
    | none => sendEnts32 D nqty inb outs ps
    | some ov =>
      (D.sendOff nqty inb ov).bind fun off =>
      (D.sendPlan nqty inb ov).bind fun plan =>
      (D.size nqty ov).bind fun size =>
      (sendEnts32 D nqty inb outs ps).map fun l =>
        { proc := p, off := off, size := size, plan := plan } :: l

/-- The receive loop, remap3d.cpp:347-396 [316-349]. -/
def recvEnts32 {E π : Type} (D : Dim32 α E π) (permute nqty : Int) (outb : E) (ins : Nat → E) :
    List Nat → Int → Option (List (REnt π))
  | [], _ => some []
  | p :: ps, ibuf =>
    (D.collide outb (ins p)).bind fun c =>
    match c with
    | none => recvEnts32 D permute nqty outb ins ps ibuf
    | some ov =>
      (D.recvOff permute nqty outb ov).bind fun off =>
      (D.recvPlan permute nqty outb ov).bind fun plan =>
      (D.size nqty ov).bind fun size =>
      (add32 ibuf size).bind fun ibuf' =>
      (recvEnts32 D permute nqty outb ins ps ibuf').map fun l =>
        { proc := p, off := off, size := size, bufloc := ibuf, plan := plan } :: l

/-- `s = 0; for (...) s += size[i]`, remap3d.cpp:513-516 [466-469]. -/
def sum32 : List Int → Int → Option Int
  | [], s => some s
  | x :: xs, s => (add32 s x).bind fun s => sum32 xs s

/-- The loops that fill the counts and displacements, remap3d.cpp:542-555, 561-574 [495-508, 514-527]. -/
def groupArgs32 (ents : List (Nat × Int)) : List Nat → Int → Option (List GEnt)
  | [], _ => some []
  | p :: ps, offset =>
    match ents.findIdx? (fun e => e.1 == p) with
    | none => (groupArgs32 ents ps offset).map fun l => ⟨p, 0, 0, none⟩ :: l
    | some i =>
      (add32 offset (ents.getD i (0, 0)).2).bind fun offset' =>
      (groupArgs32 ents ps offset').map fun l =>
        ⟨p, (ents.getD i (0, 0)).2, offset, some i⟩ :: l

/-- All pairs of extents can be compared. -/
def collideAll {E π : Type} (D : Dim32 α E π) (nprocs : Nat) (xs ys : Nat → E) : Bool :=
  (List.range nprocs).all fun i => (List.range nprocs).all fun j => (D.collide (xs i) (ys j)).isSome

/-- `setup`, remap3d.cpp:173-612 [170-565], on rank `me`.  The group closure (439-488 [391-441]) calls
`collide` for pairs of ranks; here all pairs are required to be harmless.  Lines 591-612 [545-565]
compute the memory usage; the products `3*nsend`, `4*nrecv`, `7*ngroup` are of type `int`. -/
def remapSetup32 {E π : Type} (D : Dim32 α E π) (nprocs me : Nat) (ins outs : Nat → E)
    (nqty permute packflag : Int) (collective : Bool) : Option (RemapObj α π) :=
  if D.extent (ins me) = true ∧ D.extent (outs me) = true then
    (sendEnts32 D nqty (ins me) outs (procLoop nprocs nprocs me)).bind fun sends =>
    (recvEnts32 D permute nqty (outs me) ins (procLoop nprocs nprocs me) 0).bind fun recvs =>
    let nsend := dropSelf (sends.map SEnt.proc) me collective
    let nrecv := dropSelf (recvs.map REnt.proc) me collective
    let pk := if sends = [] then none else D.packSel packflag
    let unpk := if recvs = [] then none else D.unpackSel packflag permute nqty
    let self := decide (nrecv ≠ recvs.length)
    (mul32 3 nsend).bind fun _ => (mul32 4 nrecv).bind fun _ =>
    if collective then
      if collideAll D nprocs ins outs = true ∧ collideAll D nprocs outs ins = true then
        (groupClosure (fun i j => ((D.collide (ins i) (outs j)).getD none).isSome)
            (fun i j => ((D.collide (outs i) (ins j)).getD none).isSome) nprocs
            (sends.map SEnt.proc) (recvs.map REnt.proc)).bind fun s =>
          let pgroup := sortedGroup nprocs s
          (sum32 (sends.map SEnt.size) 0).bind fun sendsize =>
          (sum32 (recvs.map REnt.size) 0).bind fun recvsize =>
          (groupArgs32 (sends.map fun e => (e.proc, e.size)) pgroup 0).bind fun sendg =>
          (groupArgs32 (recvs.map fun e => (e.proc, e.size)) pgroup 0).bind fun recvg =>
          (mul32 7 pgroup.length).map fun _ =>
            { sends, recvs, nsend, nrecv, self, pack := pk, unpack := unpk,
              coll := some { pgroup, newcomm := decide (me ∈ pgroup), sendg, recvg },
              sendsize, recvsize }
      else none
    else
      (D.size nqty (outs me)).map fun recvsize =>
        { sends, recvs, nsend, nrecv, self, pack := pk, unpack := unpk, coll := none,
          sendsize := ((sends.take nsend).map SEnt.size).foldl max 0, recvsize }
  else none

/-- The pack loop of the collective branch, remap3d.cpp:684-691 [637-644]. -/
def collPacks32 {π : Type} (pk : Option (CopyFn α π)) (sends : List (SEnt π)) (ai : Nat) :
    List GEnt → Int → List (LMem α → Option (LMem α))
  | [], _ => []
  | g :: gs, offset =>
    match g.map with
    | none => collPacks32 pk sends ai gs offset
    | some i =>
      match sends[i]? with
      | none => [fun _ => none]
      | some e =>
        packSb pk ai offset e ::
          match add32 offset e.size with
          | none => [fun _ => none]
          | some offset => collPacks32 pk sends ai gs offset

/-- The unpack loop of the collective branch, remap3d.cpp:702-709 [655-662]. -/
def collUnpacks32 {π : Type} (unpk : Option (CopyFn α π)) (recvs : List (REnt π)) (ao : Nat) :
    List GEnt → Int → List (LMem α → Option (LMem α))
  | [], _ => []
  | g :: gs, offset =>
    match g.map with
    | none => collUnpacks32 unpk recvs ao gs offset
    | some i =>
      match recvs[i]? with
      | none => [fun _ => none]
      | some e =>
        unpackRb unpk ao offset e ::
          match add32 offset e.size with
          | none => [fun _ => none]
          | some offset => collUnpacks32 unpk recvs ao gs offset

/-- `remap`, remap3d.cpp:641-710 [594-663], see `RemapObj.prog`. -/
def RemapObj.prog32 {π : Type} (o : RemapObj α π) (collective : Bool) (inst ai ao : Nat) :
    List (Instr α) :=
  if collective then
    match o.coll with
    | none => [.loc fun _ => none]
    | some ci => collProg inst ci.pgroup (collPacks32 o.pack o.sends ai ci.sendg 0)
        (collArgs ci ci.sendg) (collArgs ci ci.recvg) (collUnpacks32 o.unpack o.recvs ao ci.recvg 0)
  else p2pProg (o.p2pRecvs ao) (o.p2pSends ai) (o.p2pSelf ai ao)

end FftMpi
