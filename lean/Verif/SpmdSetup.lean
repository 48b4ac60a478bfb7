import Verif.Fft2d
import Verif.Fft3d
import Verif.Spmd

/-!
# `setup` of the remap and FFT classes as the program of one rank

In `Remap3d.lean`, `Fft3dSetup.lean` and their 2d twins a rank's `setup` is a function of the arguments of all ranks.
Here a rank has its own arguments only (`Here3`, `Here2`) and learns about the others through collective calls.  The grid
size, `permute` and the settings are still called the same on all ranks in the theorems, but they are members of each rank.
Local code between the calls that needs no other rank is taken over from the other models.

Simplification: in collective mode the arrays that `Remap3d::setup` fills after `MPI_Comm_create` (remap3d.cpp:511-585) are
computed before it; only `newcomm` comes from the call.
-/

noncomputable section

namespace FftMpi

variable {α E π : Type}

namespace Spmd

/-- `MPI_Allreduce(&flag,&allflag,1,MPI_INT,MPI_MAX,world)` with a flag that is 0 or 1; the result is tested for zero. -/
def anyFlag (flag : Bool) : Spmd E Bool := .call (.max (if flag then 1 else 0)) fun x : Int => .ret (decide (x ≠ 0))

/-- `MPI_Allreduce(&n,&nall,1,MPI_FFT_BIGINT,MPI_SUM,world)`. -/
def total (n : Int) : Spmd E Int := .call (.sum n) fun x : Int => .ret x

/-- `MPI_Allgather`. -/
def allgather (e : E) : Spmd E (Nat → E) := .call (.gather e) fun f : Nat → E => .ret f

/-- `MPI_Comm_create`. -/
def create (g : List Nat) : Spmd E (Option (List Nat)) := .call (.create g) fun c : Option (List Nat) => .ret c

/-- `error->all(...)`, error.cpp:37-46: a barrier, then the program ends. -/
def fail {ρ : Type} (e : SetupErr) : Spmd E (Except SetupErr ρ) := .call .barrier fun _ => .ret (.error e)

end Spmd

open Spmd

/-- `Remap3d::setup`, remap3d.cpp:173-585, and `Remap2d::setup`, on rank `me` with boxes `inb` and `outb`: two calls of
`MPI_Allgather` (lines 225 and 283, [212 and 267]), and `MPI_Comm_create` (507 [460]) in collective mode. -/
def remapS (D : Dim α E π) (P me : Nat) (inb outb : E) (nqty permute packflag : Int) (collective : Bool) :
    Spmd E (RemapObj α π) := do
  let outs ← allgather outb
  let ins ← allgather inb
  let o ← lift (remapSetup D P me ins outs nqty permute packflag collective)
  match o.coll with
  | none => pure o
  | some ci => do
    let newcomm ← create ci.pgroup
    pure { o with coll := some { ci with newcomm := newcomm.isSome } }

/-! ## FFT3d -/

/-- What rank `me` of `P` has when it calls `FFT3d::setup`. -/
structure Here3 where
  P : Nat
  me : Nat
  nfast : Int
  nmid : Int
  nslow : Int
  inb : Box3
  outb : Box3
  permute : Int
  fp : ℝ → ℝ
  st : Settings

/-- The members of an `FFT3d` object that the remaps are made from. -/
structure Boxes3 where
  fast : Box3
  mid : Box3
  slow : Box3
  brick : Box3
  /-- `remap_preflag`, `remap_postflag` -/
  pre : Bool
  post : Bool

namespace Here3

variable (h : Here3)

def bp : Bool := collectiveBp h.st.collective
def pp : Bool := collectivePp h.st.collective

/-- fft3d.cpp:303-316: the same local code as in `setupGrids`. -/
def grids : Option Grids := do
  let nfast := h.nfast.toNat
  let nmid := h.nmid.toNat
  let nslow := h.nslow.toNat
  let fast ← procGrid h.fp h.P 1 nmid nslow
  let mid ← procGrid h.fp h.P nfast 1 nslow
  let slow ← procGrid h.fp h.P nfast nmid 1
  let brick ← if h.st.exchange ≠ 0 then procGrid h.fp h.P nfast nmid nslow else some (0, 0, 0)
  some { fast, mid, slow, brick }

/-- fft3d.cpp:326-342. -/
def fastBox (g : Grids) (allflag : Bool) : Box3 :=
  let ip := gridCoords g.fast h.me
  if allflag = false then h.inb
  else
    { ilo := 0, ihi := h.nfast - 1
      jlo := blockLo ip.2.1 h.nmid.toNat g.fast.2.1, jhi := blockHi ip.2.1 h.nmid.toNat g.fast.2.1
      klo := blockLo ip.2.2 h.nslow.toNat g.fast.2.2, khi := blockHi ip.2.2 h.nslow.toNat g.fast.2.2 }

/-- fft3d.cpp:348-353. -/
def midBox (g : Grids) : Box3 :=
  let ip := gridCoords g.mid h.me
  { ilo := blockLo ip.1 h.nfast.toNat g.mid.1, ihi := blockHi ip.1 h.nfast.toNat g.mid.1
    jlo := 0, jhi := h.nmid - 1
    klo := blockLo ip.2.2 h.nslow.toNat g.mid.2.2, khi := blockHi ip.2.2 h.nslow.toNat g.mid.2.2 }

/-- fft3d.cpp:364-378. -/
def slowBox (g : Grids) (allflag : Bool) : Box3 :=
  let ip := gridCoords g.slow h.me
  if allflag = false then h.outb
  else
    { ilo := blockLo ip.1 h.nfast.toNat g.slow.1, ihi := blockHi ip.1 h.nfast.toNat g.slow.1
      jlo := blockLo ip.2.1 h.nmid.toNat g.slow.2.1, jhi := blockHi ip.2.1 h.nmid.toNat g.slow.2.1
      klo := 0, khi := h.nslow - 1 }

/-- fft3d.cpp:397-404. -/
def brickBox (g : Grids) : Box3 :=
  let ip := gridCoords g.brick h.me
  { ilo := blockLo ip.1 h.nfast.toNat g.brick.1, ihi := blockHi ip.1 h.nfast.toNat g.brick.1
    jlo := blockLo ip.2.1 h.nmid.toNat g.brick.2.1, jhi := blockHi ip.2.1 h.nmid.toNat g.brick.2.1
    klo := blockLo ip.2.2 h.nslow.toNat g.brick.2.2, khi := blockHi ip.2.2 h.nslow.toNat g.brick.2.2 }

/-- fft3d.cpp:289-292. -/
def differs : Bool :=
  decide (h.inb.ilo ≠ h.outb.ilo ∨ h.inb.ihi ≠ h.outb.ihi ∨ h.inb.jlo ≠ h.outb.jlo ∨ h.inb.jhi ≠ h.outb.jhi ∨
    h.inb.klo ≠ h.outb.klo ∨ h.inb.khi ≠ h.outb.khi) || decide (h.permute ≠ 0)

/-- fft3d.cpp:322-323. -/
def notFast : Bool := !(decide (h.inb.ilo = 0) && decide (h.inb.ihi = h.nfast - 1))

/-- fft3d.cpp:360-361. -/
def notSlow : Bool :=
  !(decide (h.permute = 2) && decide (h.outb.klo = 0) && decide (h.outb.khi = h.nslow - 1))

/-- fft3d.cpp:384-388. -/
def notOut (s : Box3) : Bool :=
  !(decide (h.permute = 2) && decide (h.outb.ilo = s.ilo) && decide (h.outb.ihi = s.ihi) &&
    decide (h.outb.jlo = s.jlo) && decide (h.outb.jhi = s.jhi) && decide (h.outb.klo = s.klo) &&
    decide (h.outb.khi = s.khi))

/-- `new Remap3d(world)` and its `setup`. -/
def newRemap (inst : Nat) (collective : Bool) (inb outb : Box3) (permute : Int) : Spmd Box3 (Remap3 α) := do
  let o ← remapS dim3 h.P h.me inb outb 2 permute h.st.packflag collective
  pure { obj := o, collective, inst }

/-- `remap_prefast`, fft3d.cpp:1145-1158. -/
def prefast (b : Boxes3) (s : Int × Int) : Spmd Box3 (Option (RemapPair α) × (Int × Int)) :=
  if b.pre then do
    let r ← h.newRemap 0 h.bp h.inb b.fast 0
    pure (some { remap3d := r, extra := none }, bump s r)
  else pure (none, s)

/-- `remap_fastmid`, fft3d.cpp:1163-1195. -/
def fastmid (b : Boxes3) (s : Int × Int) : Spmd Box3 (RemapPair α × (Int × Int)) :=
  if h.st.exchange = 0 then do
    let r ← h.newRemap 1 h.pp b.fast b.mid 1
    pure ({ remap3d := r, extra := none }, bump s r)
  else do
    let r ← h.newRemap 1 h.bp b.fast b.brick 0
    let x ← h.newRemap 2 h.bp b.brick b.mid 1
    pure ({ remap3d := r, extra := some x }, bump (bump s r) x)

/-- `remap_midslow`, fft3d.cpp:1201-1233. -/
def midslow (b : Boxes3) (s : Int × Int) : Spmd Box3 (RemapPair α × (Int × Int)) :=
  if h.st.exchange = 0 then do
    let r ← h.newRemap 3 h.pp (jki b.mid) (jki b.slow) 1
    pure ({ remap3d := r, extra := none }, bump s r)
  else do
    let r ← h.newRemap 3 h.bp (jki b.mid) (jki b.brick) 0
    let x ← h.newRemap 4 h.bp (jki b.brick) (jki b.slow) 1
    pure ({ remap3d := r, extra := some x }, bump (bump s r) x)

/-- `remap_postslow`, fft3d.cpp:1238-1254. -/
def postslow (b : Boxes3) (s : Int × Int) : Spmd Box3 (Option (RemapPair α) × (Int × Int)) :=
  if b.post then do
    let np ← lift (newpermute h.permute)
    let r ← h.newRemap 5 h.bp (kij b.slow) (kij h.outb) np
    pure (some { remap3d := r, extra := none }, bump s r)
  else pure (none, s)

/-- `remap_forward_create`, fft3d.cpp:1139-1255. -/
def forward (b : Boxes3) (s : Int × Int) : Spmd Box3 (Forward α × (Int × Int)) := do
  let x ← h.prefast b s
  let y ← h.fastmid b x.2
  let z ← h.midslow b y.2
  let w ← h.postslow b z.2
  pure ({ prefast := x.1, fastmid := y.1, midslow := z.1, postslow := w.1 }, w.2)

/-- The remap of `remap_preslow`, fft3d.cpp:1271-1300. -/
def newPreslow (b : Boxes3) : Spmd Box3 (Remap3 α) :=
  if h.permute = 0 then h.newRemap 6 h.bp h.outb b.slow 2
  else if h.permute = 1 then h.newRemap 6 h.bp (jki h.outb) (jki b.slow) 1
  else if h.permute = 2 then h.newRemap 6 h.bp (kij h.outb) (kij b.slow) 0
  else .ub

/-- `remap_preslow`, fft3d.cpp:1269-1302. -/
def preslow (b : Boxes3) (s : Int × Int) : Spmd Box3 (Option (RemapPair α) × (Int × Int)) :=
  if b.post then do
    let r ← h.newPreslow b
    pure (some { remap3d := r, extra := none }, bump s r)
  else pure (none, s)

/-- `remap_slowmid`, fft3d.cpp:1309-1340. -/
def slowmid (b : Boxes3) (s : Int × Int) : Spmd Box3 (RemapPair α × (Int × Int)) :=
  if h.st.exchange = 0 then do
    let r ← h.newRemap 7 h.pp (kij b.slow) (kij b.mid) 2
    pure ({ remap3d := r, extra := none }, bump s r)
  else do
    let r ← h.newRemap 7 h.bp (kij b.slow) (kij b.brick) 0
    let x ← h.newRemap 8 h.bp (kij b.brick) (kij b.mid) 2
    pure ({ remap3d := r, extra := some x }, bump (bump s r) x)

/-- `remap_midfast`, fft3d.cpp:1346-1375; no `MAX` after the second remap. -/
def midfast (b : Boxes3) (s : Int × Int) : Spmd Box3 (RemapPair α × (Int × Int)) :=
  if h.st.exchange = 0 then do
    let r ← h.newRemap 9 h.pp (jki b.mid) (jki b.fast) 2
    pure ({ remap3d := r, extra := none }, bump s r)
  else do
    let r ← h.newRemap 9 h.bp (jki b.mid) (jki b.brick) 0
    let x ← h.newRemap 10 h.bp (jki b.brick) (jki b.fast) 2
    pure ({ remap3d := r, extra := some x }, bump s r)

/-- `remap_postfast`, fft3d.cpp:1379-1391. -/
def postfast (b : Boxes3) (s : Int × Int) : Spmd Box3 (Option (RemapPair α) × (Int × Int)) :=
  if b.pre then do
    let r ← h.newRemap 11 h.bp b.fast h.inb 0
    pure (some { remap3d := r, extra := none }, bump s r)
  else pure (none, s)

/-- `remap_inverse_create`, fft3d.cpp:1261-1392. -/
def inverse (b : Boxes3) (s : Int × Int) : Spmd Box3 (Inverse α × (Int × Int)) := do
  let x ← h.preslow b s
  let y ← h.slowmid b x.2
  let z ← h.midfast b y.2
  let w ← h.postfast b z.2
  pure ({ preslow := x.1, slowmid := y.1, midfast := z.1, postfast := w.1 }, w.2)

/-- `if (!inout_layout_same) remap_inverse_create(sendsize,recvsize)`, fft3d.cpp:412. -/
def back (b : Boxes3) (differ : Bool) (s : Int × Int) : Spmd Box3 (Option (Inverse α) × (Int × Int)) :=
  if differ = false then pure (none, s)
  else do
    let x ← h.inverse b s
    pure (some x.1, x.2)

/-- fft3d.cpp:418-437. -/
def fftSize (b : Boxes3) : Int :=
  let fftsize := max (boxSize h.inb) (boxSize h.outb)
  let fftsize := max fftsize (boxSize b.fast)
  let fftsize := max fftsize (boxSize b.mid)
  let fftsize := max fftsize (boxSize b.slow)
  if h.st.exchange ≠ 0 then max fftsize (boxSize b.brick) else fftsize

/-- fft3d.cpp:443-457 and `setup_ffts`, 1643-1668. -/
def plans (b : Boxes3) : Option (Fft1d × Fft1d × Fft1d) := do
  let fastF ← kissAlloc h.nfast.toNat false
  let fastB ← kissAlloc h.nfast.toNat true
  let (midF, midB) ←
    if h.nmid = h.nfast then some (fastF, fastB)
    else do
      let f ← kissAlloc h.nmid.toNat false
      let b ← kissAlloc h.nmid.toNat true
      some (f, b)
  let (slowF, slowB) ←
    if h.nslow = h.nfast then some (fastF, fastB)
    else if h.nslow = h.nmid then some (midF, midB)
    else do
      let f ← kissAlloc h.nslow.toNat false
      let b ← kissAlloc h.nslow.toNat true
      some (f, b)
  let n1 := (b.fast.jhi - b.fast.jlo + 1) * (b.fast.khi - b.fast.klo + 1)
  let n2 := (b.mid.ihi - b.mid.ilo + 1) * (b.mid.khi - b.mid.klo + 1)
  let n3 := (b.slow.ihi - b.slow.ilo + 1) * (b.slow.jhi - b.slow.jlo + 1)
  some ({ n := n1, length := h.nfast, total := n1 * h.nfast, planForward := fastF, planBackward := fastB },
    { n := n2, length := h.nmid, total := n2 * h.nmid, planForward := midF, planBackward := midB },
    { n := n3, length := h.nslow, total := n3 * h.nslow, planForward := slowF, planBackward := slowB })

/-- The end of `setup`, fft3d.cpp:410-463: remaps, sizes and plans. -/
def main (b : Boxes3) (differ : Bool) : Spmd Box3 (Fft3 α) := do
  let x ← h.forward b (0, 0)
  let y ← h.back b differ x.2
  let p ← lift (h.plans b)
  pure
    { same := !differ
      prefast := x.1.prefast, fastmid := some x.1.fastmid, midslow := some x.1.midslow, postslow := x.1.postslow
      preslow := y.1.bind Inverse.preslow, slowmid := y.1.map Inverse.slowmid
      midfast := y.1.map Inverse.midfast, postfast := y.1.bind Inverse.postfast
      insize := boxSize h.inb, outsize := boxSize h.outb
      fftsize := h.fftSize b, sendsize := y.2.1, recvsize := y.2.2
      fftFast := p.1, fftMid := p.2.1, fftSlow := p.2.2
      norm := 1 / (h.nfast * h.nmid * h.nslow : ℝ)
      normnum := boxSize h.outb }

/-- `FFT3d::setup`, fft3d.cpp:219-494, with the six calls of `MPI_Allreduce` in lines 264, 270, 293, 324, 362 and 389. -/
def setup : Spmd Box3 (Except SetupErr (Fft3 α)) :=
  if h.nfast < 2 ∨ h.nmid < 2 ∨ h.nslow < 2 then fail .dimension
  else if !primeFactorable h.nfast || !primeFactorable h.nmid || !primeFactorable h.nslow then fail .factorable
  else do
    let bad ← anyFlag (badIndices h.nfast h.nmid h.nslow h.inb)
    if bad then fail .indices
    else do
      let nall ← total (boxSize h.inb)
      if nall ≠ h.nfast * h.nmid * h.nslow then fail .tiling
      else do
        let differ ← anyFlag h.differs
        let g ← lift h.grids
        let pre ← anyFlag h.notFast
        let slowflag ← anyFlag h.notSlow
        let post ← anyFlag (h.notOut (h.slowBox g slowflag))
        let f ← h.main ⟨h.fastBox g pre, h.midBox g, h.slowBox g slowflag, h.brickBox g, pre, post⟩ differ
        pure (.ok f)

end Here3

/-- The arguments of rank `r`, if all ranks have the settings `st`. -/
def Args3.here (a : Args3) (st : Settings) (P r : Nat) : Here3 :=
  { P, me := r, nfast := a.nfast, nmid := a.nmid, nslow := a.nslow, inb := a.ins r, outb := a.outs r
    permute := a.permute, fp := a.fp, st }

/-! ## FFT2d -/

/-- What rank `me` of `P` has when it calls `FFT2d::setup`. -/
structure Here2 where
  w : Int
  P : Nat
  me : Nat
  nfast : Int
  nslow : Int
  inb : Box2
  outb : Box2
  permute : Int
  fp : ℝ → ℝ
  st : Settings

/-- The members of an `FFT2d` object that the remaps are made from. -/
structure Boxes2 where
  fast : Box2
  slow : Box2
  brick : Box2
  /-- `remap_preflag`, `remap_postflag` -/
  pre : Bool
  post : Bool

namespace Here2

variable (h : Here2)

def bp : Bool := collectiveBp h.st.collective
def pp : Bool := collectivePp h.st.collective

/-- fft2d.cpp:304-319: the same local code as in `setupBrick2`. -/
def grid : Option (Nat × Nat) :=
  if h.st.exchange ≠ 0 then procGrid2 h.fp h.P h.nfast.toNat h.nslow.toNat else some (0, 0)

/-- fft2d.cpp:330-342. -/
def fastBox (allflag : Bool) : Box2 :=
  if allflag = false then h.inb
  else { ilo := 0, ihi := h.nfast - 1, jlo := blockLo h.me h.nslow.toNat h.P, jhi := blockHi h.me h.nslow.toNat h.P }

/-- fft2d.cpp:353-363. -/
def slowBox (allflag : Bool) : Box2 :=
  if allflag = false then h.outb
  else { ilo := blockLo h.me h.nfast.toNat h.P, ihi := blockHi h.me h.nfast.toNat h.P, jlo := 0, jhi := h.nslow - 1 }

/-- fft2d.cpp:381-386. -/
def brickBox (g : Nat × Nat) : Box2 :=
  let ip := gridCoords2 g h.me
  { ilo := blockLo ip.1 h.nfast.toNat g.1, ihi := blockHi ip.1 h.nfast.toNat g.1
    jlo := blockLo ip.2 h.nslow.toNat g.2, jhi := blockHi ip.2 h.nslow.toNat g.2 }

/-- fft2d.cpp:291-294. -/
def differs : Bool :=
  decide (h.inb.ilo ≠ h.outb.ilo ∨ h.inb.ihi ≠ h.outb.ihi ∨ h.inb.jlo ≠ h.outb.jlo ∨ h.inb.jhi ≠ h.outb.jhi) ||
    decide (h.permute ≠ 0)

/-- fft2d.cpp:326-327. -/
def notFast : Bool := !(decide (h.inb.ilo = 0) && decide (h.inb.ihi = h.nfast - 1))

/-- fft2d.cpp:349-350. -/
def notSlow : Bool :=
  !(decide (h.permute = 1) && decide (h.outb.jlo = 0) && decide (h.outb.jhi = h.nslow - 1))

/-- fft2d.cpp:369-372. -/
def notOut (s : Box2) : Bool :=
  !(decide (h.permute = 1) && decide (h.outb.ilo = s.ilo) && decide (h.outb.ihi = s.ihi) &&
    decide (h.outb.jlo = s.jlo) && decide (h.outb.jhi = s.jhi))

/-- `new Remap2d(world)` and its `setup`. -/
def newRemap (inst : Nat) (collective : Bool) (inb outb : Box2) (permute : Int) : Spmd Box2 (Remap2 α) := do
  let o ← remapS (dim2 h.w) h.P h.me inb outb 2 permute h.st.packflag collective
  pure { obj := o, collective, inst }

/-- `remap_prefast`, fft2d.cpp:1084-1097. -/
def prefast (b : Boxes2) (s : Int × Int) : Spmd Box2 (Option (RemapPair2 α) × (Int × Int)) :=
  if b.pre then do
    let r ← h.newRemap 0 h.bp h.inb b.fast 0
    pure (some { remap2d := r, extra := none }, bump2 s r)
  else pure (none, s)

/-- `remap_fastslow`, fft2d.cpp:1103-1135. -/
def fastslow (b : Boxes2) (s : Int × Int) : Spmd Box2 (RemapPair2 α × (Int × Int)) :=
  if h.st.exchange = 0 then do
    let r ← h.newRemap 1 h.pp b.fast b.slow 1
    pure ({ remap2d := r, extra := none }, bump2 s r)
  else do
    let r ← h.newRemap 1 h.bp b.fast b.brick 0
    let x ← h.newRemap 2 h.bp b.brick b.slow 1
    pure ({ remap2d := r, extra := some x }, bump2 (bump2 s r) x)

/-- `remap_postslow`, fft2d.cpp:1140-1154. -/
def postslow (b : Boxes2) (s : Int × Int) : Spmd Box2 (Option (RemapPair2 α) × (Int × Int)) :=
  if b.post then do
    let np ← lift (newpermute2 h.permute)
    let r ← h.newRemap 3 h.bp (ji b.slow) (ji h.outb) np
    pure (some { remap2d := r, extra := none }, bump2 s r)
  else pure (none, s)

/-- `remap_forward_create`, fft2d.cpp:1078-1155. -/
def forward (b : Boxes2) (s : Int × Int) : Spmd Box2 (Forward2 α × (Int × Int)) := do
  let x ← h.prefast b s
  let y ← h.fastslow b x.2
  let w ← h.postslow b y.2
  pure ({ prefast := x.1, fastslow := y.1, postslow := w.1 }, w.2)

/-- The remap of `remap_preslow`, fft2d.cpp:1170-1190. -/
def newPreslow (b : Boxes2) : Spmd Box2 (Remap2 α) :=
  if h.permute = 0 then h.newRemap 4 h.bp h.outb b.slow 1
  else if h.permute = 1 then h.newRemap 4 h.bp (ji h.outb) (ji b.slow) 0
  else .ub

/-- `remap_preslow`, fft2d.cpp:1168-1192. -/
def preslow (b : Boxes2) (s : Int × Int) : Spmd Box2 (Option (RemapPair2 α) × (Int × Int)) :=
  if b.post then do
    let r ← h.newPreslow b
    pure (some { remap2d := r, extra := none }, bump2 s r)
  else pure (none, s)

/-- `remap_slowfast`, fft2d.cpp:1198-1230. -/
def slowfast (b : Boxes2) (s : Int × Int) : Spmd Box2 (RemapPair2 α × (Int × Int)) :=
  if h.st.exchange = 0 then do
    let r ← h.newRemap 5 h.pp (ji b.slow) (ji b.fast) 1
    pure ({ remap2d := r, extra := none }, bump2 s r)
  else do
    let r ← h.newRemap 5 h.bp (ji b.slow) (ji b.brick) 0
    let x ← h.newRemap 6 h.bp (ji b.brick) (ji b.fast) 1
    pure ({ remap2d := r, extra := some x }, bump2 (bump2 s r) x)

/-- `remap_postfast`, fft2d.cpp:1234-1246. -/
def postfast (b : Boxes2) (s : Int × Int) : Spmd Box2 (Option (RemapPair2 α) × (Int × Int)) :=
  if b.pre then do
    let r ← h.newRemap 7 h.bp b.fast h.inb 0
    pure (some { remap2d := r, extra := none }, bump2 s r)
  else pure (none, s)

/-- `remap_inverse_create`, fft2d.cpp:1161-1247. -/
def inverse (b : Boxes2) (s : Int × Int) : Spmd Box2 (Inverse2 α × (Int × Int)) := do
  let x ← h.preslow b s
  let y ← h.slowfast b x.2
  let w ← h.postfast b y.2
  pure ({ preslow := x.1, slowfast := y.1, postfast := w.1 }, w.2)

/-- `if (!inout_layout_same) remap_inverse_create(sendsize,recvsize)`, fft2d.cpp:394. -/
def back (b : Boxes2) (differ : Bool) (s : Int × Int) : Spmd Box2 (Option (Inverse2 α) × (Int × Int)) :=
  if differ = false then pure (none, s)
  else do
    let x ← h.inverse b s
    pure (some x.1, x.2)

/-- fft2d.cpp:400-411. -/
def fftSize (b : Boxes2) : Int :=
  let fftsize := max (boxSize2 h.inb) (boxSize2 h.outb)
  let fftsize := max fftsize (boxSize2 b.fast)
  let fftsize := max fftsize (boxSize2 b.slow)
  if h.st.exchange ≠ 0 then max fftsize (boxSize2 b.brick) else fftsize

/-- The plans, as in `setupFfts2`. -/
def plans (b : Boxes2) : Option (Fft1d × Fft1d) := do
  let fastF ← kissAlloc h.nfast.toNat false
  let fastB ← kissAlloc h.nfast.toNat true
  let (slowF, slowB) ←
    if h.nslow = h.nfast then some (fastF, fastB)
    else do
      let f ← kissAlloc h.nslow.toNat false
      let b ← kissAlloc h.nslow.toNat true
      some (f, b)
  let n1 := b.fast.jhi - b.fast.jlo + 1
  let n2 := b.slow.ihi - b.slow.ilo + 1
  some ({ n := n1, length := h.nfast, total := n1 * h.nfast, planForward := fastF, planBackward := fastB },
    { n := n2, length := h.nslow, total := n2 * h.nslow, planForward := slowF, planBackward := slowB })

/-- The end of `setup`, fft2d.cpp:392-431. -/
def main (b : Boxes2) (differ : Bool) : Spmd Box2 (Fft2 α) := do
  let x ← h.forward b (0, 0)
  let y ← h.back b differ x.2
  let p ← lift (h.plans b)
  pure
    { same := !differ
      prefast := x.1.prefast, fastslow := some x.1.fastslow, postslow := x.1.postslow
      preslow := y.1.bind Inverse2.preslow, slowfast := y.1.map Inverse2.slowfast
      postfast := y.1.bind Inverse2.postfast
      insize := boxSize2 h.inb, outsize := boxSize2 h.outb
      fftsize := h.fftSize b, sendsize := y.2.1, recvsize := y.2.2
      fftFast := p.1, fftSlow := p.2
      norm := 1 / (h.nfast * h.nslow : ℝ)
      normnum := boxSize2 h.outb }

/-- `FFT2d::setup`, fft2d.cpp:227-463, with the six calls of `MPI_Allreduce` in lines 267, 273, 295, 328, 351 and 373. -/
def setup : Spmd Box2 (Except SetupErr (Fft2 α)) :=
  if h.nfast < 2 ∨ h.nslow < 2 then fail .dimension
  else if !primeFactorable h.nfast || !primeFactorable h.nslow then fail .factorable
  else do
    let bad ← anyFlag (badIndices2 h.nfast h.nslow h.inb)
    if bad then fail .indices
    else do
      let nall ← total (boxSize2 h.inb)
      if nall ≠ h.nfast * h.nslow then fail .tiling
      else do
        let differ ← anyFlag h.differs
        let g ← lift h.grid
        let pre ← anyFlag h.notFast
        let slowflag ← anyFlag h.notSlow
        let post ← anyFlag (h.notOut (h.slowBox slowflag))
        let f ← h.main ⟨h.fastBox pre, h.slowBox slowflag, h.brickBox g, pre, post⟩ differ
        pure (.ok f)

end Here2

/-- The arguments of rank `r`, if all ranks have the settings `st`. -/
def Args2.here (a : Args2) (w : Int) (st : Settings) (P r : Nat) : Here2 :=
  { w, P, me := r, nfast := a.nfast, nslow := a.nslow, inb := a.ins r, outb := a.outs r, permute := a.permute, fp := a.fp, st }

end FftMpi
