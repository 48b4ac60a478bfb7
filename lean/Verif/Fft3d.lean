import Verif.Fft3dSetup
import Verif.Machine
import Verif.Kiss

/-!
# Model of the class `FFT3d`: 1d plans, `setup` as a whole, `compute` and the `only_*` methods

Element type `FFT_SCALAR` is `ℝ` (exact arithmetic), `FFT_DATA` is `ℂ`; an array of `FFT_DATA` is an array
of `FFT_SCALAR` in which real and imaginary parts alternate (fftdata.h, fft3d.cpp:577 cast).  The 1d FFT
package is the built-in KISS FFT (`FFT_KISS`).  Methods are programs of the machine: remaps are the
programs of `Remap3d::remap`, everything else is local code.

`J` are the contents of memory that the 1d FFT allocates but has not yet written (`kissIn`); it may differ
from call to call.
-/

noncomputable section

namespace FftMpi

variable {α : Type}

/-! ## 1d FFTs -/

/-- `struct FFT1d`, fft3d.h:142-148. -/
structure Fft1d where
  n : Int
  length : Int
  total : Int
  planForward : KissState
  planBackward : KissState

/-- `data[k]` of an `FFT_DATA` array seen through the scalar array. -/
def cview (m : Mem ℝ) : Mem ℂ := fun k =>
  match m (2 * k), m (2 * k + 1) with
  | some x, some y => some ⟨x, y⟩
  | _, _ => none

/-- The scalar array `m` after the `FFT_DATA` array has been changed to `c`. -/
def cstore (m : Mem ℝ) (c : Mem ℂ) : Mem ℝ := fun a =>
  match c (a / 2) with
  | some z => if a % 2 = 0 then some z.re else some z.im
  | none => m a

/-- Contents of freshly allocated memory: for the transform at an offset, `scratch` of the generic
butterfly and the temporary buffer of `kiss_fft_stride`. -/
abbrev Junk := Int → (Int → ℂ) × (Int → ℂ)

/-- `FFT3d::perform_ffts`, fft3d.cpp:1670-1684 (`FFT_KISS`), on the `FFT_DATA` array. -/
def performFfts (J : Junk) (flag : Int) (plan : Fft1d) (data : Mem ℂ) : Option (Mem ℂ) :=
  if flag = 1 then
    forPtr 0 plan.total plan.length (fun offset d =>
      kissIn plan.planForward (J offset).1 (J offset).2 d offset 1) data
  else
    forPtr 0 plan.total plan.length (fun offset d =>
      kissIn plan.planBackward (J offset).1 (J offset).2 d offset 1) data

/-- `perform_ffts((FFT_DATA *) data,flag,plan)` on user array `ao`. -/
def performLoc (J : Junk) (flag : Int) (plan : Fft1d) (ao : Nat) (m : LMem ℝ) : Option (LMem ℝ) :=
  (performFfts J flag plan (cview (m.ub ao))).map fun c =>
    { m with ub := Function.update m.ub ao (cstore (m.ub ao) c) }

/-- `FFT3d::scale_ffts`, fft3d.cpp:1686-1693. -/
def scaleFfts (norm : ℝ) (normnum : Int) (data : Mem ℝ) : Option (Mem ℝ) :=
  forN normnum (fun i d => do
    let re ← d (2 * i)
    let d ← d.set (2 * i) (re * norm)
    let im ← d (2 * i + 1)
    d.set (2 * i + 1) (im * norm)) data

/-- `scale_ffts` on user array `ao`. -/
def scaleLoc (norm : ℝ) (normnum : Int) (ao : Nat) (m : LMem ℝ) : Option (LMem ℝ) :=
  (scaleFfts norm normnum (m.ub ao)).map fun d => { m with ub := Function.update m.ub ao d }

/-- `memcpy(out,in,n*sizeof(FFT_SCALAR))`. -/
def memcpyLoc (ai ao : Nat) (n : Int) (m : LMem ℝ) : Option (LMem ℝ) :=
  (memcpyM (m.ub ai) (m.ub ao) 0 0 n).map fun d => { m with ub := Function.update m.ub ao d }

/-- The plans `fft_fast`, `fft_mid`, `fft_slow`: fft3d.cpp:443-457 and `setup_ffts`, 1643-1668. -/
def setupFfts (c : Create) : Option (Fft1d × Fft1d × Fft1d) := do
  let nfast := c.a.nfast
  let nmid := c.a.nmid
  let nslow := c.a.nslow
  let fast := c.fast c.me
  let mid := c.mid c.me
  let slow := c.slow c.me
  let fastF ← kissAlloc nfast.toNat false
  let fastB ← kissAlloc nfast.toNat true
  let (midF, midB) ←
    if nmid = nfast then some (fastF, fastB)
    else do
      let f ← kissAlloc nmid.toNat false
      let b ← kissAlloc nmid.toNat true
      some (f, b)
  let (slowF, slowB) ←
    if nslow = nfast then some (fastF, fastB)
    else if nslow = nmid then some (midF, midB)
    else do
      let f ← kissAlloc nslow.toNat false
      let b ← kissAlloc nslow.toNat true
      some (f, b)
  let n1 := (fast.jhi - fast.jlo + 1) * (fast.khi - fast.klo + 1)
  let n2 := (mid.ihi - mid.ilo + 1) * (mid.khi - mid.klo + 1)
  let n3 := (slow.ihi - slow.ilo + 1) * (slow.jhi - slow.jlo + 1)
  some ({ n := n1, length := nfast, total := n1 * nfast, planForward := fastF, planBackward := fastB },
    { n := n2, length := nmid, total := n2 * nmid, planForward := midF, planBackward := midB },
    { n := n3, length := nslow, total := n3 * nslow, planForward := slowF, planBackward := slowB })

/-! ## setup -/

/-- The members of an `FFT3d` that `setup` assigns and the other methods use (fft3d.h:73-160).  A remap
pointer that is `NULL` is `none`. -/
structure Fft3 (α : Type) where
  same : Bool
  prefast : Option (RemapPair α)
  fastmid : Option (RemapPair α)
  midslow : Option (RemapPair α)
  postslow : Option (RemapPair α)
  preslow : Option (RemapPair α)
  slowmid : Option (RemapPair α)
  midfast : Option (RemapPair α)
  postfast : Option (RemapPair α)
  insize : Int
  outsize : Int
  fftsize : Int
  sendsize : Int
  recvsize : Int
  fftFast : Fft1d
  fftMid : Fft1d
  fftSlow : Fft1d
  norm : ℝ
  normnum : Int

/-- `FFT3d::setup` on rank `me`, after the check of the arguments. -/
def setupMain (c : Create) : Option (Fft3 α) := do
  let (f, s) ← forwardCreate c (0, 0)
  let same := inoutSame c.P c.a
  let (inv, s) ←
    if same then some ((none : Option (Inverse α)), s)
    else (inverseCreate c s).map fun x => (some x.1, x.2)
  let (f1, f2, f3) ← setupFfts c
  some
    { same
      prefast := f.prefast, fastmid := some f.fastmid, midslow := some f.midslow, postslow := f.postslow
      preslow := inv.bind Inverse.preslow, slowmid := inv.map Inverse.slowmid
      midfast := inv.map Inverse.midfast, postfast := inv.bind Inverse.postfast
      insize := boxSize (c.a.ins c.me), outsize := boxSize (c.a.outs c.me)
      fftsize := fftSize c, sendsize := s.1, recvsize := s.2
      fftFast := f1, fftMid := f2, fftSlow := f3
      norm := 1 / (c.a.nfast * c.a.nmid * c.a.nslow : ℝ)
      normnum := boxSize (c.a.outs c.me) }

/-- `FFT3d::setup`, fft3d.cpp:219-494, on rank `me` of `P`.  `none`: no defined result (a member that was
never assigned is used, or `setup` does not return); `some (.error e)`: `error->all`. -/
def fft3Setup (P me : Nat) (a : Args3) (st : Settings) : Option (Except SetupErr (Fft3 α)) :=
  match setupCheck P a with
  | some e => some (.error e)
  | none => do
    let g ← setupGrids P a st.exchange
    let f ← setupMain { P, me, a, st, g }
    some (.ok f)

/-! ## compute -/

/-- `remap->remap3d->remap(in,out,sendbuf,recvbuf)`. -/
def Remap3.prog (r : Remap3 α) (ai ao : Nat) : List (Instr α) := r.obj.prog r.collective r.inst ai ao

/-- `FFT3d::remap`, fft3d.cpp:1116-1121: both remaps get the same `in` and `out`. -/
def RemapPair.prog (p : RemapPair α) (ai ao : Nat) : List (Instr α) :=
  p.remap3d.prog ai ao ++ match p.extra with
    | none => []
    | some x => x.prog ai ao

/-- `if (plan) remap(in,out,plan)`. -/
def remapIf (p : Option (RemapPair α)) (ai ao : Nat) : List (Instr α) :=
  match p with
  | none => []
  | some p => p.prog ai ao

/-- `if (plan) remap(in,out,plan); else if (in != out) memcpy(out,in,n*sizeof(FFT_SCALAR));`,
fft3d.cpp:569-570, 587-588, 643-644, 653-654, 681-682, 693-694. -/
def remapOrCopy (p : Option (RemapPair ℝ)) (n : Int) (ai ao : Nat) : List (Instr ℝ) :=
  match p with
  | none => if ai ≠ ao then [.loc (memcpyLoc ai ao n)] else []
  | some p => p.prog ai ao

/-- `FFT3d::compute`, fft3d.cpp:560-605, as the program of one rank.  `J 0`, `J 1`, `J 2` are used by the
fast, mid and slow FFTs.  The checks of `setupflag` and `setup_memory_flag` are in `Lifecycle.lean`. -/
def Fft3.compute (f : Fft3 ℝ) (J : Nat → Junk) (scaled remaponly : Bool) (flag : Int) (ai ao : Nat) :
    List (Instr ℝ) :=
  (if flag = 1 ∨ f.same then
    remapOrCopy f.prefast f.insize ai ao ++
    (if remaponly then
      remapIf f.fastmid ao ao ++ remapIf f.midslow ao ao
    else
      [.loc (performLoc (J 0) flag f.fftFast ao)] ++ remapIf f.fastmid ao ao ++
      [.loc (performLoc (J 1) flag f.fftMid ao)] ++ remapIf f.midslow ao ao ++
      [.loc (performLoc (J 2) flag f.fftSlow ao)]) ++
    remapIf f.postslow ao ao
  else
    remapOrCopy f.preslow f.outsize ai ao ++
    (if remaponly then
      remapIf f.slowmid ao ao ++ remapIf f.midfast ao ao
    else
      [.loc (performLoc (J 2) flag f.fftSlow ao)] ++ remapIf f.slowmid ao ao ++
      [.loc (performLoc (J 1) flag f.fftMid ao)] ++ remapIf f.midfast ao ao ++
      [.loc (performLoc (J 0) flag f.fftFast ao)]) ++
    -- `remap(in,out,remap_postfast)`, line 601
    remapIf f.postfast ai ao) ++
  (if flag = -1 ∧ scaled ∧ ¬ remaponly then [.loc (scaleLoc f.norm f.normnum ao)] else [])

/-- `FFT3d::only_1d_ffts`, fft3d.cpp:614-622. -/
def Fft3.only1d (f : Fft3 ℝ) (J : Nat → Junk) (flag : Int) (ai : Nat) : List (Instr ℝ) :=
  [.loc (performLoc (J 0) flag f.fftFast ai), .loc (performLoc (J 1) flag f.fftMid ai),
   .loc (performLoc (J 2) flag f.fftSlow ai)]

/-- `FFT3d::only_remaps`, fft3d.cpp:633-661. -/
def Fft3.onlyRemaps (f : Fft3 ℝ) (flag : Int) (ai ao : Nat) : List (Instr ℝ) :=
  if flag = 1 ∨ f.same then
    remapOrCopy f.prefast f.insize ai ao ++ remapIf f.fastmid ao ao ++ remapIf f.midslow ao ao ++
      remapIf f.postslow ao ao
  else
    remapOrCopy f.preslow f.outsize ai ao ++ remapIf f.slowmid ao ao ++ remapIf f.midfast ao ao ++
      remapIf f.postfast ao ao

/-- `FFT3d::only_one_remap`, fft3d.cpp:673-704. -/
def Fft3.onlyOneRemap (f : Fft3 ℝ) (flag which : Int) (ai ao : Nat) : List (Instr ℝ) :=
  if flag = 1 ∨ f.same then
    if which = 1 then remapOrCopy f.prefast f.insize ai ao
    else if which = 2 then remapIf f.fastmid ai ao
    else if which = 3 then remapIf f.midslow ai ao
    else if which = 4 then remapIf f.postslow ai ao
    else []
  else
    if which = 4 then remapOrCopy f.preslow f.outsize ai ao
    else if which = 3 then remapIf f.slowmid ai ao
    else if which = 2 then remapIf f.midfast ai ao
    else if which = 1 then remapIf f.postfast ai ao
    else []

end FftMpi
