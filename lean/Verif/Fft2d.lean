import Verif.Fft2dSetup
import Verif.Fft3d

/-!
# Model of the class `FFT2d`: 1d plans, `setup` as a whole, `compute` and the `only_*` methods

Conventions as in `Fft3d.lean`.  `perform_ffts`, `scale_ffts` of `FFT2d` (fft2d.cpp:1468-1491) have the
same text as those of `FFT3d`, the model of which is used.
-/

noncomputable section

namespace FftMpi

variable {α : Type}

/-- The plans `fft_fast`, `fft_slow`: fft2d.cpp:417-426 and `setup_ffts`, 1452-1466. -/
def setupFfts2 (c : Create2) : Option (Fft1d × Fft1d) := do
  let nfast := c.a.nfast
  let nslow := c.a.nslow
  let fast := c.fast c.me
  let slow := c.slow c.me
  let fastF ← kissAlloc nfast.toNat false
  let fastB ← kissAlloc nfast.toNat true
  let (slowF, slowB) ←
    if nslow = nfast then some (fastF, fastB)
    else do
      let f ← kissAlloc nslow.toNat false
      let b ← kissAlloc nslow.toNat true
      some (f, b)
  let n1 := fast.jhi - fast.jlo + 1
  let n2 := slow.ihi - slow.ilo + 1
  some ({ n := n1, length := nfast, total := n1 * nfast, planForward := fastF, planBackward := fastB },
    { n := n2, length := nslow, total := n2 * nslow, planForward := slowF, planBackward := slowB })

/-- The members of an `FFT2d` that `setup` assigns and the other methods use (fft2d.h:65-128).  A remap
pointer that is `NULL` is `none`. -/
structure Fft2 (α : Type) where
  same : Bool
  prefast : Option (RemapPair2 α)
  fastslow : Option (RemapPair2 α)
  postslow : Option (RemapPair2 α)
  preslow : Option (RemapPair2 α)
  slowfast : Option (RemapPair2 α)
  postfast : Option (RemapPair2 α)
  insize : Int
  outsize : Int
  fftsize : Int
  sendsize : Int
  recvsize : Int
  fftFast : Fft1d
  fftSlow : Fft1d
  norm : ℝ
  normnum : Int

/-- `FFT2d::setup` on rank `me`, after the check of the arguments, fft2d.cpp:392-431. -/
def setupMain2 (c : Create2) : Option (Fft2 α) := do
  let (f, s) ← forwardCreate2 c (0, 0)
  let same := inoutSame2 c.P c.a
  let (inv, s) ←
    if same then some ((none : Option (Inverse2 α)), s)
    else (inverseCreate2 c s).map fun x => (some x.1, x.2)
  let (f1, f2) ← setupFfts2 c
  some
    { same
      prefast := f.prefast, fastslow := some f.fastslow, postslow := f.postslow
      preslow := inv.bind Inverse2.preslow, slowfast := inv.map Inverse2.slowfast
      postfast := inv.bind Inverse2.postfast
      insize := boxSize2 (c.a.ins c.me), outsize := boxSize2 (c.a.outs c.me)
      fftsize := fftSize2 c, sendsize := s.1, recvsize := s.2
      fftFast := f1, fftSlow := f2
      norm := 1 / (c.a.nfast * c.a.nslow : ℝ)
      normnum := boxSize2 (c.a.outs c.me) }

/-- `FFT2d::setup`, fft2d.cpp:227-463, on rank `me` of `P`.  `none`: no defined result (a member that was
never assigned is used, or `setup` does not return); `some (.error e)`: `error->all`. -/
def fft2Setup (w : Int) (P me : Nat) (a : Args2) (st : Settings) :
    Option (Except SetupErr (Fft2 α)) :=
  match setupCheck2 P a with
  | some e => some (.error e)
  | none => do
    let g ← setupBrick2 P a st.exchange
    let f ← setupMain2 { w, P, me, a, st, g }
    some (.ok f)

/-! ## compute -/

/-- `remap->remap2d->remap(in,out,sendbuf,recvbuf)`. -/
def Remap2.prog (r : Remap2 α) (ai ao : Nat) : List (Instr α) := r.obj.prog r.collective r.inst ai ao

/-- `FFT2d::remap`, fft2d.cpp:1055-1060: both remaps get the same `in` and `out`. -/
def RemapPair2.prog (p : RemapPair2 α) (ai ao : Nat) : List (Instr α) :=
  p.remap2d.prog ai ao ++ match p.extra with
    | none => []
    | some x => x.prog ai ao

/-- `if (plan) remap(in,out,plan)`. -/
def remapIf2 (p : Option (RemapPair2 α)) (ai ao : Nat) : List (Instr α) :=
  match p with
  | none => []
  | some p => p.prog ai ao

/-- `if (plan) remap(in,out,plan); else if (in != out) memcpy(out,in,n*sizeof(FFT_SCALAR));`,
fft2d.cpp:535-536, 550-551, 602-603, 611-612, 638-639, 648-649. -/
def remapOrCopy2 (p : Option (RemapPair2 ℝ)) (n : Int) (ai ao : Nat) : List (Instr ℝ) :=
  match p with
  | none => if ai ≠ ao then [.loc (memcpyLoc ai ao n)] else []
  | some p => p.prog ai ao

/-- `FFT2d::compute`, fft2d.cpp:526-565, as the program of one rank.  `J 0`, `J 1` are used by the fast
and slow FFTs.  The checks of `setupflag` and `setup_memory_flag` are in `Lifecycle.lean`. -/
def Fft2.compute (f : Fft2 ℝ) (J : Nat → Junk) (scaled remaponly : Bool) (flag : Int) (ai ao : Nat) :
    List (Instr ℝ) :=
  (if flag = 1 ∨ f.same then
    remapOrCopy2 f.prefast f.insize ai ao ++
    (if remaponly then
      remapIf2 f.fastslow ao ao
    else
      [.loc (performLoc (J 0) flag f.fftFast ao)] ++ remapIf2 f.fastslow ao ao ++
      [.loc (performLoc (J 1) flag f.fftSlow ao)]) ++
    remapIf2 f.postslow ao ao
  else
    remapOrCopy2 f.preslow f.outsize ai ao ++
    (if remaponly then
      remapIf2 f.slowfast ao ao
    else
      [.loc (performLoc (J 1) flag f.fftSlow ao)] ++ remapIf2 f.slowfast ao ao ++
      [.loc (performLoc (J 0) flag f.fftFast ao)]) ++
    -- `remap(in,out,remap_postfast)`, line 561
    remapIf2 f.postfast ai ao) ++
  (if flag = -1 ∧ scaled ∧ ¬ remaponly then [.loc (scaleLoc f.norm f.normnum ao)] else [])

/-- `FFT2d::only_1d_ffts`, fft2d.cpp:574-581. -/
def Fft2.only1d (f : Fft2 ℝ) (J : Nat → Junk) (flag : Int) (ai : Nat) : List (Instr ℝ) :=
  [.loc (performLoc (J 0) flag f.fftFast ai), .loc (performLoc (J 1) flag f.fftSlow ai)]

/-- `FFT2d::only_remaps`, fft2d.cpp:592-618. -/
def Fft2.onlyRemaps (f : Fft2 ℝ) (flag : Int) (ai ao : Nat) : List (Instr ℝ) :=
  if flag = 1 ∨ f.same then
    remapOrCopy2 f.prefast f.insize ai ao ++ remapIf2 f.fastslow ao ao ++ remapIf2 f.postslow ao ao
  else
    remapOrCopy2 f.preslow f.outsize ai ao ++ remapIf2 f.slowfast ao ao ++ remapIf2 f.postfast ao ao

/-- `FFT2d::only_one_remap`, fft2d.cpp:630-656. -/
def Fft2.onlyOneRemap (f : Fft2 ℝ) (flag which : Int) (ai ao : Nat) : List (Instr ℝ) :=
  if flag = 1 ∨ f.same then
    if which = 1 then remapOrCopy2 f.prefast f.insize ai ao
    else if which = 2 then remapIf2 f.fastslow ai ao
    else if which = 3 then remapIf2 f.postslow ai ao
    else []
  else
    if which = 3 then remapOrCopy2 f.preslow f.outsize ai ao
    else if which = 2 then remapIf2 f.slowfast ai ao
    else if which = 1 then remapIf2 f.postfast ai ao
    else []

end FftMpi
