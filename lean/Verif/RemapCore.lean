import Verif.RemapSem

/-!
# Model of `Remap3d` / `Remap2d`: setup and remap

`remap3d.cpp` and `remap2d.cpp` are textually the same except for the extent type, `collide`, the
pack plans, the offsets and the choice of pack routines.  The common text is modelled once, with
these parts as a parameter `D : Dim`; `Remap3d.lean` and `Remap2d.lean` supply the parameter.
Line numbers refer to remap3d.cpp; the same lines of remap2d.cpp are given in brackets.

Every function describes one rank.  Data exchanged by `MPI_Allgather` (remap3d.cpp:225, 283) is
an argument: `ins p`, `outs p` are the extents that rank `p` passed to `setup`.

Simplifications: `int` is `Int` without overflow (see property C48); memory allocation never fails;
arrays of C structs / parallel C arrays are lists of records.
-/

namespace FftMpi

variable {α : Type}

/-- Type of the pack/unpack routines: source array and offset, destination array and offset, plan.
The pack routines are called with `(data, buf)`, the unpack routines with `(buf, data)`
(remap3d.h:89-90). -/
abbrev CopyFn (α π : Type) := Mem α → Int → Mem α → Int → π → Option (Mem α)

/-- One entry of `send_proc, send_offset, send_size, packplan` (remap3d.h:57-60). -/
structure SEnt (π : Type) where
  proc : Nat
  off : Int
  size : Int
  plan : π

/-- One entry of `recv_proc, recv_offset, recv_size, recv_bufloc, unpackplan` (remap3d.h:61-66). -/
structure REnt (π : Type) where
  proc : Nat
  off : Int
  size : Int
  bufloc : Int
  plan : π

/-- One entry of `pgroup` with `sendcnts, senddispls, sendmap` or `recvcnts, recvdispls, recvmap`
(remap3d.h:70-79).  The map value `-1` is `none`. -/
structure GEnt where
  proc : Nat
  cnt : Int
  displ : Int
  map : Option Nat
deriving DecidableEq, Repr

/-- What setup computes for collective mode (remap3d.h:68-79).  `newcomm` is false for
`MPI_COMM_NULL`. -/
structure CollInfo where
  pgroup : List Nat
  newcomm : Bool
  sendg : List GEnt
  recvg : List GEnt
deriving DecidableEq, Repr

/-- A remap object after `setup` (remap3d.h:38-90).  `pack` and `unpack` are `none` while the
function pointers are unassigned, `coll` is `none` while the members for collective mode are
unassigned.  `sendsize` and `recvsize` are the values returned to the caller. -/
structure RemapObj (α π : Type) where
  sends : List (SEnt π)
  recvs : List (REnt π)
  nsend : Nat
  nrecv : Nat
  self : Bool
  pack : Option (CopyFn α π)
  unpack : Option (CopyFn α π)
  coll : Option CollInfo
  sendsize : Int
  recvsize : Int

/-! ## remap -/

/-- `pack(&in[e.off],&sendbuf[b],&e.plan)`, remap3d.cpp:655, 688 [608, 641]. -/
def packSb {π : Type} (pk : Option (CopyFn α π)) (ai : Nat) (b : Int) (e : SEnt π) (m : LMem α) :
    Option (LMem α) :=
  pk.bind fun f => (f (m.ub ai) e.off m.sb b e.plan).map fun sb => { m with sb := sb }

/-- `pack(&in[e.off],&recvbuf[b],&e.plan)`, remap3d.cpp:664 [617]. -/
def packRb {π : Type} (pk : Option (CopyFn α π)) (ai : Nat) (b : Int) (e : SEnt π) (m : LMem α) :
    Option (LMem α) :=
  pk.bind fun f => (f (m.ub ai) e.off m.rb b e.plan).map fun rb => { m with rb := rb }

/-- `unpack(&recvbuf[b],&out[e.off],&e.plan)`, remap3d.cpp:666, 674, 706 [619, 627, 659]. -/
def unpackRb {π : Type} (unpk : Option (CopyFn α π)) (ao : Nat) (b : Int) (e : REnt π)
    (m : LMem α) : Option (LMem α) :=
  unpk.bind fun f => (f m.rb b (m.ub ao) e.off e.plan).map fun o =>
    { m with ub := Function.update m.ub ao o }

/-- The receives posted by the point-to-point branch, remap3d.cpp:647-650, 672-676 [600-603,
625-629]. -/
def RemapObj.p2pRecvs {π : Type} (o : RemapObj α π) (ao : Nat) : List (PRecv α) :=
  (o.recvs.take o.nrecv).map fun e => ⟨e.proc, e.bufloc, e.size, unpackRb o.unpack ao e.bufloc e⟩

/-- The sends of the point-to-point branch, remap3d.cpp:654-658 [607-611]. -/
def RemapObj.p2pSends {π : Type} (o : RemapObj α π) (ai : Nat) : List (PSend α) :=
  (o.sends.take o.nsend).map fun e => ⟨e.proc, e.size, packSb o.pack ai 0 e⟩

/-- The copy to self, remap3d.cpp:662-668 [615-621].  The entries number `nsend` and `nrecv` must
exist. -/
def RemapObj.p2pSelf {π : Type} (o : RemapObj α π) (ai ao : Nat) :
    List (LMem α → Option (LMem α)) :=
  if o.self then
    [fun m => o.sends[o.nsend]?.bind fun s => o.recvs[o.nrecv]?.bind fun r =>
        packRb o.pack ai r.bufloc s m,
     fun m => o.recvs[o.nrecv]?.bind fun r => unpackRb o.unpack ao r.bufloc r m]
  else []

/-- The pack loop of the collective branch, remap3d.cpp:684-691 [637-644]. -/
def collPacks {π : Type} (pk : Option (CopyFn α π)) (sends : List (SEnt π)) (ai : Nat) :
    List GEnt → Int → List (LMem α → Option (LMem α))
  | [], _ => []
  | g :: gs, offset =>
    match g.map with
    | none => collPacks pk sends ai gs offset
    | some i =>
      match sends[i]? with
      | none => [fun _ => none]
      | some e => packSb pk ai offset e :: collPacks pk sends ai gs (offset + e.size)

/-- The unpack loop of the collective branch, remap3d.cpp:702-709 [655-662]. -/
def collUnpacks {π : Type} (unpk : Option (CopyFn α π)) (recvs : List (REnt π)) (ao : Nat) :
    List GEnt → Int → List (LMem α → Option (LMem α))
  | [], _ => []
  | g :: gs, offset =>
    match g.map with
    | none => collUnpacks unpk recvs ao gs offset
    | some i =>
      match recvs[i]? with
      | none => [fun _ => none]
      | some e => unpackRb unpk ao offset e :: collUnpacks unpk recvs ao gs (offset + e.size)

/-- `MPI_Alltoallv` arguments: (peer, displacement, count) for every member of `newcomm`, no call
when `newcomm` is `MPI_COMM_NULL`, remap3d.cpp:695-698 [648-651]. -/
def collArgs (ci : CollInfo) (gs : List GEnt) : List (Nat × Int × Int) :=
  if ci.newcomm then gs.map fun g => (g.proc, g.displ, g.cnt) else []

/-- `remap(in,out,...)`, remap3d.cpp:641-710 [594-663].  `in` is the user array number `ai`, `out`
the user array number `ao`; equal numbers mean `in == out`.  `collective` is the value of the
public member at the time of the call.  `inst` identifies the communicators created by the
`setup` call of this object.  The check of `setupflag` (line 634) is in `Lifecycle.lean`. -/
def RemapObj.prog {π : Type} (o : RemapObj α π) (collective : Bool) (inst ai ao : Nat) :
    List (Instr α) :=
  if collective then
    match o.coll with
    | none => [.loc fun _ => none]
    | some ci => collProg inst ci.pgroup (collPacks o.pack o.sends ai ci.sendg 0)
        (collArgs ci ci.sendg) (collArgs ci ci.recvg) (collUnpacks o.unpack o.recvs ao ci.recvg 0)
  else p2pProg (o.p2pRecvs ao) (o.p2pSends ai) (o.p2pSelf ai ao)

/-! ## setup -/

/-- The parts in which `Remap2d` and `Remap3d` differ: extents `E`, plans `π`. -/
structure Dim (α E π : Type) where
  /-- overlap of two extents, `none` when `collide` returns 0 -/
  collide : E → E → Option E
  /-- `nqty*isize*jsize*ksize` -/
  size : Int → E → Int
  /-- `send_offset` from nqty, in, overlap -/
  sendOff : Int → E → E → Int
  sendPlan : Int → E → E → π
  /-- `recv_offset` from permute, nqty, out, overlap -/
  recvOff : Int → Int → E → E → Int
  recvPlan : Int → Int → E → E → π
  /-- from packflag -/
  packSel : Int → Option (CopyFn α π)
  /-- from packflag, permute, nqty -/
  unpackSel : Int → Int → Int → Option (CopyFn α π)

/-- The values of `iproc` in the loops `iproc = me; for (i = 0; i < nprocs; i++) { iproc++;
if (iproc == nprocs) iproc = 0; ... }`, remap3d.cpp:231-234, 256-259, 289-292, 349-353. -/
def procLoop (nprocs : Nat) : Nat → Nat → List Nat
  | 0, _ => []
  | k+1, iproc =>
    let iproc := if iproc + 1 = nprocs then 0 else iproc + 1
    iproc :: procLoop nprocs k iproc

/-- The send loop, remap3d.cpp:255-274 [242-259]. -/
def sendEnts {E π : Type} (D : Dim α E π) (nprocs me : Nat) (nqty : Int) (inb : E)
    (outs : Nat → E) : List (SEnt π) :=
  (procLoop nprocs nprocs me).filterMap fun p => (D.collide inb (outs p)).map fun ov =>
    { proc := p, off := D.sendOff nqty inb ov, size := D.size nqty ov,
      plan := D.sendPlan nqty inb ov }

/-- The receive loop with its running buffer position, remap3d.cpp:347-396 [316-349]. -/
def recvEntsFrom {E π : Type} (D : Dim α E π) (permute nqty : Int) (outb : E) (ins : Nat → E) :
    List Nat → Int → List (REnt π)
  | [], _ => []
  | p :: ps, ibuf =>
    match D.collide outb (ins p) with
    | none => recvEntsFrom D permute nqty outb ins ps ibuf
    | some ov =>
      { proc := p, off := D.recvOff permute nqty outb ov, size := D.size nqty ov, bufloc := ibuf,
        plan := D.recvPlan permute nqty outb ov } ::
        recvEntsFrom D permute nqty outb ins ps (ibuf + D.size nqty ov)

/-- `recv_*` arrays, remap3d.cpp:347-396 [316-349]. -/
def recvEnts {E π : Type} (D : Dim α E π) (nprocs me : Nat) (permute nqty : Int) (outb : E)
    (ins : Nat → E) : List (REnt π) :=
  recvEntsFrom D permute nqty outb ins (procLoop nprocs nprocs me) 0

/-- `if (n && proc[n-1] == me && !collective) n--`, remap3d.cpp:279, 402 [264, 355]. -/
def dropSelf (procs : List Nat) (me : Nat) (collective : Bool) : Nat :=
  if procs ≠ [] ∧ procs[procs.length - 1]? = some me ∧ collective = false then procs.length - 1
  else procs.length

/-! ### Groups -/

/-- `pflag`, `pgroup[0..ngroup_extra)` and `active`, remap3d.cpp:438-466 [391-419]. -/
structure GrpSt where
  pflag : Nat → Bool
  pgroup : List Nat
  active : Bool

/-- `pflag[p] = 1; pgroup[n++] = p; active = 1`. -/
def GrpSt.add (s : GrpSt) (p : Nat) : GrpSt :=
  { pflag := Function.update s.pflag p true, pgroup := s.pgroup ++ [p], active := true }

/-- Add the ranks I send to and receive from, remap3d.cpp:446-456 [399-409]. -/
def addProcs (ps : List Nat) (s : GrpSt) : GrpSt :=
  ps.foldl (fun s p => if s.pflag p then s else s.add p) s

/-- Loop over `jproc` for one `iproc`, remap3d.cpp:472-485 [425-438].
`io i j`: input of `i` collides with output of `j`; `oi i j`: output of `i` with input of `j`. -/
def scanProcs (io oi : Nat → Nat → Bool) (nprocs iproc : Nat) (s : GrpSt) : GrpSt :=
  (List.range nprocs).foldl (fun s jproc =>
    if s.pflag jproc then s
    else if io iproc jproc then s.add jproc
    else if oi iproc jproc then s.add jproc
    else s) s

/-- One pass of the `while (active)` loop over the `ngroup` entries present at its start,
remap3d.cpp:468-487 [421-440]. -/
def groupPass (io oi : Nat → Nat → Bool) (nprocs : Nat) (s : GrpSt) : GrpSt :=
  s.pgroup.foldl (fun t iproc => scanProcs io oi nprocs iproc t) { s with active := false }

/-- The `while (active)` loop, remap3d.cpp:466-488 [419-441].  At most `fuel` passes are made;
`none` means that the loop is still running. -/
def groupLoop (io oi : Nat → Nat → Bool) (nprocs : Nat) : Nat → GrpSt → Option GrpSt
  | 0, _ => none
  | fuel+1, s =>
    let s := groupPass io oi nprocs s
    if s.active then groupLoop io oi nprocs fuel s else some s

/-- `pflag` and the unsorted `pgroup` after the closure, remap3d.cpp:438-488 [391-441]. -/
def groupClosure (io oi : Nat → Nat → Bool) (nprocs : Nat) (sendp recvp : List Nat) :
    Option GrpSt :=
  groupLoop io oi nprocs (nprocs + 1)
    (addProcs recvp (addProcs sendp { pflag := fun _ => false, pgroup := [], active := false }))

/-- The sorted `pgroup`, remap3d.cpp:493-497 [446-450]. -/
def sortedGroup (nprocs : Nat) (s : GrpSt) : List Nat := (List.range nprocs).filter s.pflag

/-- The loops that fill `sendcnts, senddispls, sendmap` (remap3d.cpp:542-555 [495-508]) and
`recvcnts, recvdispls, recvmap` (561-574 [514-527]); `ents` are the (proc, size) entries. -/
def groupArgs (ents : List (Nat × Int)) : List Nat → Int → List GEnt
  | [], _ => []
  | p :: ps, offset =>
    match ents.findIdx? (fun e => e.1 == p) with
    | none => ⟨p, 0, 0, none⟩ :: groupArgs ents ps offset
    | some i =>
      ⟨p, (ents.getD i (0, 0)).2, offset, some i⟩ ::
        groupArgs ents ps (offset + (ents.getD i (0, 0)).2)

/-- `setup`, remap3d.cpp:173-585 [170-538], on rank `me`.  `none`: setup does not return.

`MPI_Comm_create` gives `MPI_COMM_NULL` to ranks that are not in the group they pass. -/
def remapSetup {E π : Type} (D : Dim α E π) (nprocs me : Nat) (ins outs : Nat → E)
    (nqty permute packflag : Int) (collective : Bool) : Option (RemapObj α π) :=
  let sends := sendEnts D nprocs me nqty (ins me) outs
  let recvs := recvEnts D nprocs me permute nqty (outs me) ins
  let nsend := dropSelf (sends.map SEnt.proc) me collective
  let nrecv := dropSelf (recvs.map REnt.proc) me collective
  let pk := if sends = [] then none else D.packSel packflag
  let unpk := if recvs = [] then none else D.unpackSel packflag permute nqty
  let self := decide (nrecv ≠ recvs.length)
  if collective then
    (groupClosure (fun i j => (D.collide (ins i) (outs j)).isSome)
        (fun i j => (D.collide (outs i) (ins j)).isSome) nprocs
        (sends.map SEnt.proc) (recvs.map REnt.proc)).map fun s =>
      let pgroup := sortedGroup nprocs s
      { sends, recvs, nsend, nrecv, self, pack := pk, unpack := unpk,
        coll := some
          { pgroup, newcomm := decide (me ∈ pgroup),
            sendg := groupArgs (sends.map fun e => (e.proc, e.size)) pgroup 0,
            recvg := groupArgs (recvs.map fun e => (e.proc, e.size)) pgroup 0 },
        sendsize := (sends.map SEnt.size).sum, recvsize := (recvs.map REnt.size).sum }
  else
    some
      { sends, recvs, nsend, nrecv, self, pack := pk, unpack := unpk, coll := none,
        sendsize := ((sends.take nsend).map SEnt.size).foldl max 0,
        recvsize := D.size nqty (outs me) }

end FftMpi
