import Verif.Remap2d
import Verif.Fft3dSetup

/-!
# Model of `FFT2d::setup`, `remap_forward_create`, `remap_inverse_create`

As for `FFT3d` (`Fft3dSetup.lean`) the model takes the arguments of all ranks, on which a rank's `setup`
depends through `MPI_Allreduce` (fft2d.cpp:267, 273, 295, 328, 351, 373) and `Remap2d::setup`.  The grid
size, `permute` and the settings are the same on all ranks.  `w = sizeof(double)/sizeof(FFT_SCALAR)` is 1
in double and 2 in single precision builds (see `Pack2d.lean`).

Not modelled here: allocation failures, `memusage`; the 1d plans are in `Fft2d.lean`.
-/

noncomputable section

namespace FftMpi

variable {α : Type}

/-- Arguments of `FFT2d::setup` on all ranks (fft2d.cpp:227-249). -/
structure Args2 where
  nfast : Int
  nslow : Int
  ins : Nat → Box2
  outs : Nat → Box2
  permute : Int
  /-- rounding of `double` numbers in `surfarea` and `procfactors`, the same on all ranks -/
  fp : ℝ → ℝ := id

/-- `flag` of the index check, fft2d.cpp:262-265. -/
def badIndices2 (nfast nslow : Int) (b : Box2) : Bool :=
  decide (b.ilo > b.ihi + 1 ∨ b.jlo > b.jhi + 1) ||
  decide (b.ilo < 0 ∨ b.jlo < 0) ||
  decide (b.ihi ≥ nfast ∨ b.jhi ≥ nslow)

/-- `(ihi-ilo+1) * (jhi-jlo+1)`, fft2d.cpp:271, 400-406. -/
def boxSize2 (b : Box2) : Int := (b.ihi - b.ilo + 1) * (b.jhi - b.jlo + 1)

/-- The error checks of `setup`, fft2d.cpp:251-276: the first error that is reported, or `none`. -/
def setupCheck2 (P : Nat) (a : Args2) : Option SetupErr :=
  if a.nfast < 2 ∨ a.nslow < 2 then some .dimension
  else if !primeFactorable a.nfast || !primeFactorable a.nslow then some .factorable
  else if allMax P (fun r => badIndices2 a.nfast a.nslow (a.ins r)) then some .indices
  else if allSum P (fun r => boxSize2 (a.ins r)) ≠ a.nfast * a.nslow then some .tiling
  else none

/-- `inout_layout_same`, fft2d.cpp:291-297. -/
def inoutSame2 (P : Nat) (a : Args2) : Bool :=
  !allMax P fun r =>
    decide ((a.ins r).ilo ≠ (a.outs r).ilo ∨ (a.ins r).ihi ≠ (a.outs r).ihi ∨
      (a.ins r).jlo ≠ (a.outs r).jlo ∨ (a.ins r).jhi ≠ (a.outs r).jhi) || decide (a.permute ≠ 0)

/-- `npbrick1`, `npbrick2`, fft2d.cpp:304-319.  `none`: they are never assigned.  The check
`nfactor > NFACTOR` (line 305) never fires since `factor` stores at most `NFACTOR` factors.  The pencil
grids are `1 x nprocs` (fast) and `nprocs x 1` (slow), lines 307-315. -/
def setupBrick2 (P : Nat) (a : Args2) (exchange : Int) : Option (Nat × Nat) :=
  if exchange ≠ 0 then procGrid2 a.fp P a.nfast.toNat a.nslow.toNat else some (0, 0)

/-- `remap_preflag`, fft2d.cpp:326-328, 331, 337. -/
def preflag2 (P : Nat) (a : Args2) : Bool :=
  allMax P fun r => !(decide ((a.ins r).ilo = 0) && decide ((a.ins r).ihi = a.nfast - 1))

/-- `fast_ilo`, ..., fft2d.cpp:330-342; `ipfast2 = me`, `npfast2 = nprocs`. -/
def fastBox2 (P : Nat) (a : Args2) (me : Nat) : Box2 :=
  if preflag2 P a = false then a.ins me
  else
    { ilo := 0, ihi := a.nfast - 1
      jlo := blockLo me a.nslow.toNat P, jhi := blockHi me a.nslow.toNat P }

/-- `allflag`, fft2d.cpp:349-351: 0 if every rank owns whole slow columns on output and `permute` is 1. -/
def slowflag2 (P : Nat) (a : Args2) : Bool :=
  allMax P fun r =>
    !(decide (a.permute = 1) && decide ((a.outs r).jlo = 0) && decide ((a.outs r).jhi = a.nslow - 1))

/-- `slow_ilo`, ..., fft2d.cpp:353-363; `ipslow1 = me`, `npslow1 = nprocs`. -/
def slowBox2 (P : Nat) (a : Args2) (me : Nat) : Box2 :=
  if slowflag2 P a = false then a.outs me
  else
    { ilo := blockLo me a.nfast.toNat P, ihi := blockHi me a.nfast.toNat P
      jlo := 0, jhi := a.nslow - 1 }

/-- `remap_postflag`, fft2d.cpp:369-376. -/
def postflag2 (P : Nat) (a : Args2) : Bool :=
  allMax P fun r =>
    let o := a.outs r
    let s := slowBox2 P a r
    !(decide (a.permute = 1) && decide (o.ilo = s.ilo) && decide (o.ihi = s.ihi) &&
      decide (o.jlo = s.jlo) && decide (o.jhi = s.jhi))

/-- `brick_ilo`, ..., fft2d.cpp:381-386; only used if `exchange` is set. -/
def brickBox2 (a : Args2) (g : Nat × Nat) (me : Nat) : Box2 :=
  let ip := gridCoords2 g me
  { ilo := blockLo ip.1 a.nfast.toNat g.1, ihi := blockHi ip.1 a.nfast.toNat g.1
    jlo := blockLo ip.2 a.nslow.toNat g.2, jhi := blockHi ip.2 a.nslow.toNat g.2 }

/-- Bounds passed in the order `j,i` ("remap uses J=fast, I=slow"). -/
def ji (b : Box2) : Box2 := ⟨b.jlo, b.jhi, b.ilo, b.ihi⟩

/-- A `Remap2d` after its `setup`, with the member `collective`; `inst` identifies its communicator. -/
structure Remap2 (α : Type) where
  obj : RemapObj α PackPlan2
  collective : Bool
  inst : Nat

/-- `struct Remap`, fft2d.h:96-99; `extra = none` is `remap2d_extra == NULL`. -/
structure RemapPair2 (α : Type) where
  remap2d : Remap2 α
  extra : Option (Remap2 α)

/-- The parameters with which `remap_forward_create` and `remap_inverse_create` work on rank `me`. -/
structure Create2 where
  w : Int
  P : Nat
  me : Nat
  a : Args2
  st : Settings
  g : Nat × Nat

namespace Create2

def fast (c : Create2) : Nat → Box2 := fastBox2 c.P c.a
def slow (c : Create2) : Nat → Box2 := slowBox2 c.P c.a
def brick (c : Create2) : Nat → Box2 := brickBox2 c.a c.g
/-- `collective_bp`, fft2d.cpp:281-286. -/
def bp (c : Create2) : Bool := collectiveBp c.st.collective
/-- `collective_pp`, fft2d.cpp:281-286. -/
def pp (c : Create2) : Bool := collectivePp c.st.collective

end Create2

/-- `new Remap2d(world)`, `collective = ...`, `packflag = ...`, `setup(ins,outs,2,permute,0,ssize,rsize)`. -/
def newRemap2 (c : Create2) (inst : Nat) (collective : Bool) (ins outs : Nat → Box2) (permute : Int) :
    Option (Remap2 α) :=
  (remapSetup (dim2 c.w) c.P c.me ins outs 2 permute c.st.packflag collective).map fun o =>
    { obj := o, collective, inst }

/-- `sendsize = MAX(sendsize,ssize); recvsize = MAX(recvsize,rsize);` -/
def bump2 (s : Int × Int) (r : Remap2 α) : Int × Int :=
  (max s.1 r.obj.sendsize, max s.2 r.obj.recvsize)

/-- The remaps of a forward FFT. -/
structure Forward2 (α : Type) where
  prefast : Option (RemapPair2 α)
  fastslow : RemapPair2 α
  postslow : Option (RemapPair2 α)

/-- The remaps of an inverse FFT with different layouts. -/
structure Inverse2 (α : Type) where
  preslow : Option (RemapPair2 α)
  slowfast : RemapPair2 α
  postfast : Option (RemapPair2 α)

/-- `newpermute`, fft2d.cpp:1142-1144; not assigned for other values of `permute`. -/
def newpermute2 (permute : Int) : Option Int :=
  if permute = 0 then some 1 else if permute = 1 then some 0 else none

/-- `FFT2d::remap_forward_create`, fft2d.cpp:1078-1155: the remaps, and `sendsize`, `recvsize`. -/
def forwardCreate2 (c : Create2) (s : Int × Int) : Option (Forward2 α × (Int × Int)) := do
  -- 1084-1097
  let (prefast, s) ←
    if preflag2 c.P c.a then do
      let r ← newRemap2 c 0 c.bp c.a.ins c.fast 0
      some (some { remap2d := r, extra := none }, bump2 s r)
    else some (none, s)
  -- 1103-1135
  let (fastslow, s) ←
    if c.st.exchange = 0 then do
      let r ← newRemap2 c 1 c.pp c.fast c.slow 1
      some (({ remap2d := r, extra := none } : RemapPair2 α), bump2 s r)
    else do
      let r ← newRemap2 c 1 c.bp c.fast c.brick 0
      let s := bump2 s r
      let x ← newRemap2 c 2 c.bp c.brick c.slow 1
      some (({ remap2d := r, extra := some x } : RemapPair2 α), bump2 s x)
  -- 1140-1154
  let (postslow, s) ←
    if postflag2 c.P c.a then do
      let np ← newpermute2 c.a.permute
      let r ← newRemap2 c 3 c.bp (fun r => ji (c.slow r)) (fun r => ji (c.a.outs r)) np
      some (some { remap2d := r, extra := none }, bump2 s r)
    else some (none, s)
  some ({ prefast, fastslow, postslow }, s)

/-- The remap `remap_preslow` for each value of `permute`, fft2d.cpp:1170-1190.  For other values
`remap2d` stays `NULL`, which `remap_memory` (1275) dereferences. -/
def newPreslow2 (c : Create2) : Option (Remap2 α) :=
  if c.a.permute = 0 then newRemap2 c 4 c.bp c.a.outs c.slow 1
  else if c.a.permute = 1 then
    newRemap2 c 4 c.bp (fun r => ji (c.a.outs r)) (fun r => ji (c.slow r)) 0
  else none

/-- `FFT2d::remap_inverse_create`, fft2d.cpp:1161-1247. -/
def inverseCreate2 (c : Create2) (s : Int × Int) : Option (Inverse2 α × (Int × Int)) := do
  -- 1168-1192
  let (preslow, s) ←
    if postflag2 c.P c.a then do
      let r ← newPreslow2 c
      some (some { remap2d := r, extra := none }, bump2 s r)
    else some (none, s)
  -- 1198-1230
  let (slowfast, s) ←
    if c.st.exchange = 0 then do
      let r ← newRemap2 c 5 c.pp (fun r => ji (c.slow r)) (fun r => ji (c.fast r)) 1
      some (({ remap2d := r, extra := none } : RemapPair2 α), bump2 s r)
    else do
      let r ← newRemap2 c 5 c.bp (fun r => ji (c.slow r)) (fun r => ji (c.brick r)) 0
      let s := bump2 s r
      let x ← newRemap2 c 6 c.bp (fun r => ji (c.brick r)) (fun r => ji (c.fast r)) 1
      some (({ remap2d := r, extra := some x } : RemapPair2 α), bump2 s x)
  -- 1234-1246
  let (postfast, s) ←
    if preflag2 c.P c.a then do
      let r ← newRemap2 c 7 c.bp c.fast c.a.ins 0
      some (some { remap2d := r, extra := none }, bump2 s r)
    else some (none, s)
  some ({ preslow, slowfast, postfast }, s)

/-- `fftsize`, fft2d.cpp:400-411. -/
def fftSize2 (c : Create2) : Int :=
  let fftsize := max (boxSize2 (c.a.ins c.me)) (boxSize2 (c.a.outs c.me))
  let fftsize := max fftsize (boxSize2 (c.fast c.me))
  let fftsize := max fftsize (boxSize2 (c.slow c.me))
  if c.st.exchange ≠ 0 then max fftsize (boxSize2 (c.brick c.me)) else fftsize

end FftMpi
