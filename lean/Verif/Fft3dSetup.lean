import Verif.Remap3d
import Verif.Factor

/-!
# Model of `FFT3d::setup`, `remap_forward_create`, `remap_inverse_create`

What a rank computes in `setup` depends on the arguments of the other ranks only through
`MPI_Allreduce` (fft3d.cpp:264, 270, 293, 324, 362, 389) and through `Remap3d::setup`, which gathers all
boxes.  The model therefore takes the arguments of all ranks.  The grid size, `permute` and the settings
are the same on all ranks (doc/api_setup.txt requires it).

Not modelled here: the check of `setupflag` (line 228), allocation failures, `memusage`; the 1d plans are
in `Fft3d.lean`.
-/

noncomputable section

namespace FftMpi

variable {α : Type}

/-- Arguments of `FFT3d::setup` on all ranks (fft3d.cpp:219-245). -/
structure Args3 where
  nfast : Int
  nmid : Int
  nslow : Int
  ins : Nat → Box3
  outs : Nat → Box3
  permute : Int
  /-- rounding of `double` numbers in `surfarea` and `procfactors`, the same on all ranks -/
  fp : ℝ → ℝ := id

/-- The public members that `setup` reads (fft3d.h:33-37). -/
structure Settings where
  collective : Int
  exchange : Int
  packflag : Int
deriving DecidableEq, Repr

/-- The calls of `error->all` in `setup`, fft3d.cpp:250-275. -/
inductive SetupErr where
  | dimension | factorable | indices | tiling
deriving DecidableEq, Repr

/-- `MPI_Allreduce(&flag,&allflag,1,MPI_INT,MPI_MAX,world)` of a 0/1 flag. -/
def allMax (P : Nat) (flag : Nat → Bool) : Bool := (List.range P).any flag

/-- `MPI_Allreduce(...,MPI_SUM,world)`. -/
def allSum (P : Nat) (f : Nat → Int) : Int := ((List.range P).map f).sum

/-- `flag` of the index check, fft3d.cpp:259-262. -/
def badIndices (nfast nmid nslow : Int) (b : Box3) : Bool :=
  decide (b.ilo > b.ihi + 1 ∨ b.jlo > b.jhi + 1 ∨ b.klo > b.khi + 1) ||
  decide (b.ilo < 0 ∨ b.jlo < 0 ∨ b.klo < 0) ||
  decide (b.ihi ≥ nfast ∨ b.jhi ≥ nmid ∨ b.khi ≥ nslow)

/-- `(ihi-ilo+1) * (jhi-jlo+1) * (khi-klo+1)`, fft3d.cpp:268, 418-431. -/
def boxSize (b : Box3) : Int := (b.ihi - b.ilo + 1) * (b.jhi - b.jlo + 1) * (b.khi - b.klo + 1)

/-- The error checks of `setup`, fft3d.cpp:247-275: the first error that is reported, or `none`. -/
def setupCheck (P : Nat) (a : Args3) : Option SetupErr :=
  if a.nfast < 2 ∨ a.nmid < 2 ∨ a.nslow < 2 then some .dimension
  else if !primeFactorable a.nfast || !primeFactorable a.nmid || !primeFactorable a.nslow then
    some .factorable
  else if allMax P (fun r => badIndices a.nfast a.nmid a.nslow (a.ins r)) then some .indices
  else if allSum P (fun r => boxSize (a.ins r)) ≠ a.nfast * a.nmid * a.nslow then some .tiling
  else none

/-- `collective_bp`, fft3d.cpp:277-284. -/
def collectiveBp (collective : Int) : Bool :=
  if collective = 0 then false else if collective = 1 then true else false

/-- `collective_pp`, fft3d.cpp:277-284. -/
def collectivePp (collective : Int) : Bool :=
  if collective = 0 then false else if collective = 1 then true else true

/-- `inout_layout_same`, fft3d.cpp:286-296. -/
def inoutSame (P : Nat) (a : Args3) : Bool :=
  !allMax P fun r =>
    decide ((a.ins r).ilo ≠ (a.outs r).ilo ∨ (a.ins r).ihi ≠ (a.outs r).ihi ∨
      (a.ins r).jlo ≠ (a.outs r).jlo ∨ (a.ins r).jhi ≠ (a.outs r).jhi ∨
      (a.ins r).klo ≠ (a.outs r).klo ∨ (a.ins r).khi ≠ (a.outs r).khi) || decide (a.permute ≠ 0)

/-- The processor grids `npfast*`, `npmid*`, `npslow*`, `npbrick*`. -/
structure Grids where
  fast : Nat × Nat × Nat
  mid : Nat × Nat × Nat
  slow : Nat × Nat × Nat
  brick : Nat × Nat × Nat

/-- fft3d.cpp:303-316.  `none`: some grid is never assigned.  The check `nfactor > NFACTOR` (line 304)
never fires since `factor` stores at most `NFACTOR` factors. -/
def setupGrids (P : Nat) (a : Args3) (exchange : Int) : Option Grids := do
  let nfast := a.nfast.toNat
  let nmid := a.nmid.toNat
  let nslow := a.nslow.toNat
  let fast ← procGrid a.fp P 1 nmid nslow
  let mid ← procGrid a.fp P nfast 1 nslow
  let slow ← procGrid a.fp P nfast nmid 1
  let brick ← if exchange ≠ 0 then procGrid a.fp P nfast nmid nslow else some (0, 0, 0)
  some { fast, mid, slow, brick }

/-- `remap_preflag`, fft3d.cpp:322-327, 335. -/
def preflag (P : Nat) (a : Args3) : Bool :=
  allMax P fun r => !(decide ((a.ins r).ilo = 0) && decide ((a.ins r).ihi = a.nfast - 1))

/-- `fast_ilo`, ..., fft3d.cpp:326-342. -/
def fastBox (P : Nat) (a : Args3) (g : Grids) (me : Nat) : Box3 :=
  let ip := gridCoords g.fast me
  if preflag P a = false then a.ins me
  else
    { ilo := 0, ihi := a.nfast - 1
      jlo := blockLo ip.2.1 a.nmid.toNat g.fast.2.1, jhi := blockHi ip.2.1 a.nmid.toNat g.fast.2.1
      klo := blockLo ip.2.2 a.nslow.toNat g.fast.2.2, khi := blockHi ip.2.2 a.nslow.toNat g.fast.2.2 }

/-- `mid_ilo`, ..., fft3d.cpp:348-353. -/
def midBox (a : Args3) (g : Grids) (me : Nat) : Box3 :=
  let ip := gridCoords g.mid me
  { ilo := blockLo ip.1 a.nfast.toNat g.mid.1, ihi := blockHi ip.1 a.nfast.toNat g.mid.1
    jlo := 0, jhi := a.nmid - 1
    klo := blockLo ip.2.2 a.nslow.toNat g.mid.2.2, khi := blockHi ip.2.2 a.nslow.toNat g.mid.2.2 }

/-- `allflag`, fft3d.cpp:360-362: 0 if every rank owns whole slow columns on output and `permute` is 2. -/
def slowflag (P : Nat) (a : Args3) : Bool :=
  allMax P fun r =>
    !(decide (a.permute = 2) && decide ((a.outs r).klo = 0) && decide ((a.outs r).khi = a.nslow - 1))

/-- `slow_ilo`, ..., fft3d.cpp:364-378. -/
def slowBox (P : Nat) (a : Args3) (g : Grids) (me : Nat) : Box3 :=
  let ip := gridCoords g.slow me
  if slowflag P a = false then a.outs me
  else
    { ilo := blockLo ip.1 a.nfast.toNat g.slow.1, ihi := blockHi ip.1 a.nfast.toNat g.slow.1
      jlo := blockLo ip.2.1 a.nmid.toNat g.slow.2.1, jhi := blockHi ip.2.1 a.nmid.toNat g.slow.2.1
      klo := 0, khi := a.nslow - 1 }

/-- `remap_postflag`, fft3d.cpp:384-392. -/
def postflag (P : Nat) (a : Args3) (g : Grids) : Bool :=
  allMax P fun r =>
    let o := a.outs r
    let s := slowBox P a g r
    !(decide (a.permute = 2) && decide (o.ilo = s.ilo) && decide (o.ihi = s.ihi) &&
      decide (o.jlo = s.jlo) && decide (o.jhi = s.jhi) && decide (o.klo = s.klo) && decide (o.khi = s.khi))

/-- `brick_ilo`, ..., fft3d.cpp:397-404; only used if `exchange` is set. -/
def brickBox (a : Args3) (g : Grids) (me : Nat) : Box3 :=
  let ip := gridCoords g.brick me
  { ilo := blockLo ip.1 a.nfast.toNat g.brick.1, ihi := blockHi ip.1 a.nfast.toNat g.brick.1
    jlo := blockLo ip.2.1 a.nmid.toNat g.brick.2.1, jhi := blockHi ip.2.1 a.nmid.toNat g.brick.2.1
    klo := blockLo ip.2.2 a.nslow.toNat g.brick.2.2, khi := blockHi ip.2.2 a.nslow.toNat g.brick.2.2 }

/-- Bounds passed in the order `j,k,i` ("remap uses J=fast, K=mid, I=slow"). -/
def jki (b : Box3) : Box3 := ⟨b.jlo, b.jhi, b.klo, b.khi, b.ilo, b.ihi⟩

/-- Bounds passed in the order `k,i,j` ("remap uses K=fast, I=mid, J=slow"). -/
def kij (b : Box3) : Box3 := ⟨b.klo, b.khi, b.ilo, b.ihi, b.jlo, b.jhi⟩

/-- A `Remap3d` after its `setup`, with the member `collective`; `inst` identifies its communicator. -/
structure Remap3 (α : Type) where
  obj : RemapObj α PackPlan3
  collective : Bool
  inst : Nat

/-- `struct Remap`, fft3d.h:97-100; `extra = none` is `remap3d_extra == NULL`. -/
structure RemapPair (α : Type) where
  remap3d : Remap3 α
  extra : Option (Remap3 α)

/-- The parameters with which `remap_forward_create` and `remap_inverse_create` work on rank `me`. -/
structure Create where
  P : Nat
  me : Nat
  a : Args3
  st : Settings
  g : Grids

namespace Create

def fast (c : Create) : Nat → Box3 := fastBox c.P c.a c.g
def mid (c : Create) : Nat → Box3 := midBox c.a c.g
def slow (c : Create) : Nat → Box3 := slowBox c.P c.a c.g
def brick (c : Create) : Nat → Box3 := brickBox c.a c.g
def bp (c : Create) : Bool := collectiveBp c.st.collective
def pp (c : Create) : Bool := collectivePp c.st.collective

end Create

/-- `new Remap3d(world)`, `collective = ...`, `packflag = ...`, `setup(ins,outs,2,permute,0,ssize,rsize)`. -/
def newRemap (c : Create) (inst : Nat) (collective : Bool) (ins outs : Nat → Box3) (permute : Int) :
    Option (Remap3 α) :=
  (remapSetup dim3 c.P c.me ins outs 2 permute c.st.packflag collective).map fun o =>
    { obj := o, collective, inst }

/-- `sendsize = MAX(sendsize,ssize); recvsize = MAX(recvsize,rsize);` -/
def bump (s : Int × Int) (r : Remap3 α) : Int × Int := (max s.1 r.obj.sendsize, max s.2 r.obj.recvsize)

/-- The remaps of a forward FFT. -/
structure Forward (α : Type) where
  prefast : Option (RemapPair α)
  fastmid : RemapPair α
  midslow : RemapPair α
  postslow : Option (RemapPair α)

/-- The remaps of an inverse FFT with different layouts. -/
structure Inverse (α : Type) where
  preslow : Option (RemapPair α)
  slowmid : RemapPair α
  midfast : RemapPair α
  postfast : Option (RemapPair α)

/-- `newpermute`, fft3d.cpp:1240-1243; not assigned for other values of `permute`. -/
def newpermute (permute : Int) : Option Int :=
  if permute = 0 then some 1 else if permute = 1 then some 2 else if permute = 2 then some 0 else none

/-- `FFT3d::remap_forward_create`, fft3d.cpp:1139-1255: the remaps, and `sendsize`, `recvsize`. -/
def forwardCreate (c : Create) (s : Int × Int) : Option (Forward α × (Int × Int)) := do
  -- 1145-1158
  let (prefast, s) ←
    if preflag c.P c.a then do
      let r ← newRemap c 0 c.bp c.a.ins c.fast 0
      some (some { remap3d := r, extra := none }, bump s r)
    else some (none, s)
  -- 1163-1195
  let (fastmid, s) ←
    if c.st.exchange = 0 then do
      let r ← newRemap c 1 c.pp c.fast c.mid 1
      some (({ remap3d := r, extra := none } : RemapPair α), bump s r)
    else do
      let r ← newRemap c 1 c.bp c.fast c.brick 0
      let s := bump s r
      let x ← newRemap c 2 c.bp c.brick c.mid 1
      some (({ remap3d := r, extra := some x } : RemapPair α), bump s x)
  -- 1201-1233
  let (midslow, s) ←
    if c.st.exchange = 0 then do
      let r ← newRemap c 3 c.pp (fun r => jki (c.mid r)) (fun r => jki (c.slow r)) 1
      some (({ remap3d := r, extra := none } : RemapPair α), bump s r)
    else do
      let r ← newRemap c 3 c.bp (fun r => jki (c.mid r)) (fun r => jki (c.brick r)) 0
      let s := bump s r
      let x ← newRemap c 4 c.bp (fun r => jki (c.brick r)) (fun r => jki (c.slow r)) 1
      some (({ remap3d := r, extra := some x } : RemapPair α), bump s x)
  -- 1238-1254
  let (postslow, s) ←
    if postflag c.P c.a c.g then do
      let np ← newpermute c.a.permute
      let r ← newRemap c 5 c.bp (fun r => kij (c.slow r)) (fun r => kij (c.a.outs r)) np
      some (some { remap3d := r, extra := none }, bump s r)
    else some (none, s)
  some ({ prefast, fastmid, midslow, postslow }, s)

/-- The remap `remap_preslow` for each value of `permute`, fft3d.cpp:1271-1300.  For other values
`remap3d` is not assigned. -/
def newPreslow (c : Create) : Option (Remap3 α) :=
  if c.a.permute = 0 then newRemap c 6 c.bp c.a.outs c.slow 2
  else if c.a.permute = 1 then
    newRemap c 6 c.bp (fun r => jki (c.a.outs r)) (fun r => jki (c.slow r)) 1
  else if c.a.permute = 2 then
    newRemap c 6 c.bp (fun r => kij (c.a.outs r)) (fun r => kij (c.slow r)) 0
  else none

/-- `FFT3d::remap_inverse_create`, fft3d.cpp:1261-1392.  The sizes of the second remap of `remap_midfast`
are ignored (no `MAX` after lines 1371-1374). -/
def inverseCreate (c : Create) (s : Int × Int) : Option (Inverse α × (Int × Int)) := do
  -- 1269-1302
  let (preslow, s) ←
    if postflag c.P c.a c.g then do
      let r ← newPreslow c
      some (some { remap3d := r, extra := none }, bump s r)
    else some (none, s)
  -- 1309-1340
  let (slowmid, s) ←
    if c.st.exchange = 0 then do
      let r ← newRemap c 7 c.pp (fun r => kij (c.slow r)) (fun r => kij (c.mid r)) 2
      some (({ remap3d := r, extra := none } : RemapPair α), bump s r)
    else do
      let r ← newRemap c 7 c.bp (fun r => kij (c.slow r)) (fun r => kij (c.brick r)) 0
      let s := bump s r
      let x ← newRemap c 8 c.bp (fun r => kij (c.brick r)) (fun r => kij (c.mid r)) 2
      some (({ remap3d := r, extra := some x } : RemapPair α), bump s x)
  -- 1346-1375
  let (midfast, s) ←
    if c.st.exchange = 0 then do
      let r ← newRemap c 9 c.pp (fun r => jki (c.mid r)) (fun r => jki (c.fast r)) 2
      some (({ remap3d := r, extra := none } : RemapPair α), bump s r)
    else do
      let r ← newRemap c 9 c.bp (fun r => jki (c.mid r)) (fun r => jki (c.brick r)) 0
      let s := bump s r
      let x ← newRemap c 10 c.bp (fun r => jki (c.brick r)) (fun r => jki (c.fast r)) 2
      some (({ remap3d := r, extra := some x } : RemapPair α), s)
  -- 1379-1391
  let (postfast, s) ←
    if preflag c.P c.a then do
      let r ← newRemap c 11 c.bp c.fast c.a.ins 0
      some (some { remap3d := r, extra := none }, bump s r)
    else some (none, s)
  some ({ preslow, slowmid, midfast, postfast }, s)

/-- `fftsize`, fft3d.cpp:418-437. -/
def fftSize (c : Create) : Int :=
  let fftsize := max (boxSize (c.a.ins c.me)) (boxSize (c.a.outs c.me))
  let fftsize := max fftsize (boxSize (c.fast c.me))
  let fftsize := max fftsize (boxSize (c.mid c.me))
  let fftsize := max fftsize (boxSize (c.slow c.me))
  if c.st.exchange ≠ 0 then max fftsize (boxSize (c.brick c.me)) else fftsize

end FftMpi
