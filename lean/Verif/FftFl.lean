import Verif.Fft2d
import Verif.KissFl

/-!
# Model of `FFT3d` and `FFT2d` with the arithmetic as a parameter

`setup` and `compute` again, with the floating-point operations of an `Arith` (`KissFl.lean`) in the 1d FFTs
and in the scaling.  The remaps only move numbers: they are the ones of `Fft3d.lean` and `Fft2d.lean`.
-/

noncomputable section

namespace FftMpi

/-- `FFT3d::perform_ffts`, fft3d.cpp:1670-1684, and `FFT2d::perform_ffts`, fft2d.cpp:1468-1482; see
`performFfts`. -/
def performFftsF (ar : Arith) (J : Junk) (flag : Int) (plan : Fft1d) (data : Mem ℂ) : Option (Mem ℂ) :=
  if flag = 1 then
    forPtr 0 plan.total plan.length (fun offset d =>
      kissInF ar plan.planForward (J offset).1 (J offset).2 d offset 1) data
  else
    forPtr 0 plan.total plan.length (fun offset d =>
      kissInF ar plan.planBackward (J offset).1 (J offset).2 d offset 1) data

/-- `perform_ffts((FFT_DATA *) data,flag,plan)` on user array `ao`. -/
def performLocF (ar : Arith) (J : Junk) (flag : Int) (plan : Fft1d) (ao : Nat) (m : LMem ℝ) :
    Option (LMem ℝ) :=
  (performFftsF ar J flag plan (cview (m.ub ao))).map fun c =>
    { m with ub := Function.update m.ub ao (cstore (m.ub ao) c) }

/-- `FFT3d::scale_ffts`, fft3d.cpp:1686-1693, and `FFT2d::scale_ffts`, fft2d.cpp:1484-1491: the member `norm`
of type `double` is converted to `FFT_SCALAR`, the products are of that type. -/
def scaleFftsF (ar : Arith) (norm : ℝ) (normnum : Int) (data : Mem ℝ) : Option (Mem ℝ) :=
  let fnorm := ar.conv norm
  forN normnum (fun i d => do
    let re ← d (2 * i)
    let d ← d.set (2 * i) (ar.mul re fnorm)
    let im ← d (2 * i + 1)
    d.set (2 * i + 1) (ar.mul im fnorm)) data

/-- `scale_ffts` on user array `ao`. -/
def scaleLocF (ar : Arith) (norm : ℝ) (normnum : Int) (ao : Nat) (m : LMem ℝ) : Option (LMem ℝ) :=
  (scaleFftsF ar norm normnum (m.ub ao)).map fun d => { m with ub := Function.update m.ub ao d }

/-! ## FFT3d -/

/-- The plans `fft_fast`, `fft_mid`, `fft_slow`: fft3d.cpp:443-457 and `setup_ffts`, 1643-1668. -/
def setupFftsF (ar : Arith) (c : Create) : Option (Fft1d × Fft1d × Fft1d) := do
  let nfast := c.a.nfast
  let nmid := c.a.nmid
  let nslow := c.a.nslow
  let fast := c.fast c.me
  let mid := c.mid c.me
  let slow := c.slow c.me
  let fastF ← kissAllocF ar nfast.toNat false
  let fastB ← kissAllocF ar nfast.toNat true
  let (midF, midB) ←
    if nmid = nfast then some (fastF, fastB)
    else do
      let f ← kissAllocF ar nmid.toNat false
      let b ← kissAllocF ar nmid.toNat true
      some (f, b)
  let (slowF, slowB) ←
    if nslow = nfast then some (fastF, fastB)
    else if nslow = nmid then some (midF, midB)
    else do
      let f ← kissAllocF ar nslow.toNat false
      let b ← kissAllocF ar nslow.toNat true
      some (f, b)
  let n1 := (fast.jhi - fast.jlo + 1) * (fast.khi - fast.klo + 1)
  let n2 := (mid.ihi - mid.ilo + 1) * (mid.khi - mid.klo + 1)
  let n3 := (slow.ihi - slow.ilo + 1) * (slow.jhi - slow.jlo + 1)
  some ({ n := n1, length := nfast, total := n1 * nfast, planForward := fastF, planBackward := fastB },
    { n := n2, length := nmid, total := n2 * nmid, planForward := midF, planBackward := midB },
    { n := n3, length := nslow, total := n3 * nslow, planForward := slowF, planBackward := slowB })

/-- `FFT3d::setup` on rank `me`, after the check of the arguments; `norm`: fft3d.cpp:461. -/
def setupMainF (ar : Arith) (c : Create) : Option (Fft3 ℝ) := do
  let (f, s) ← forwardCreate c (0, 0)
  let same := inoutSame c.P c.a
  let (inv, s) ←
    if same then some ((none : Option (Inverse ℝ)), s)
    else (inverseCreate c s).map fun x => (some x.1, x.2)
  let (f1, f2, f3) ← setupFftsF ar c
  some
    { same
      prefast := f.prefast, fastmid := some f.fastmid, midslow := some f.midslow, postslow := f.postslow
      preslow := inv.bind Inverse.preslow, slowmid := inv.map Inverse.slowmid
      midfast := inv.map Inverse.midfast, postfast := inv.bind Inverse.postfast
      insize := boxSize (c.a.ins c.me), outsize := boxSize (c.a.outs c.me)
      fftsize := fftSize c, sendsize := s.1, recvsize := s.2
      fftFast := f1, fftMid := f2, fftSlow := f3
      norm := ar.ddiv 1 (ar.ofInt (c.a.nfast * c.a.nmid * c.a.nslow))
      normnum := boxSize (c.a.outs c.me) }

/-- `FFT3d::setup`, fft3d.cpp:219-494; see `fft3Setup`. -/
def fft3SetupF (ar : Arith) (P me : Nat) (a : Args3) (st : Settings) : Option (Except SetupErr (Fft3 ℝ)) :=
  match setupCheck P a with
  | some e => some (.error e)
  | none => do
    let g ← setupGrids P a st.exchange
    let f ← setupMainF ar { P, me, a, st, g }
    some (.ok f)

/-- `FFT3d::compute`, fft3d.cpp:560-605; see `Fft3.compute`. -/
def Fft3.computeF (ar : Arith) (f : Fft3 ℝ) (J : Nat → Junk) (scaled remaponly : Bool) (flag : Int)
    (ai ao : Nat) : List (Instr ℝ) :=
  (if flag = 1 ∨ f.same then
    remapOrCopy f.prefast f.insize ai ao ++
    (if remaponly then
      remapIf f.fastmid ao ao ++ remapIf f.midslow ao ao
    else
      [.loc (performLocF ar (J 0) flag f.fftFast ao)] ++ remapIf f.fastmid ao ao ++
      [.loc (performLocF ar (J 1) flag f.fftMid ao)] ++ remapIf f.midslow ao ao ++
      [.loc (performLocF ar (J 2) flag f.fftSlow ao)]) ++
    remapIf f.postslow ao ao
  else
    remapOrCopy f.preslow f.outsize ai ao ++
    (if remaponly then
      remapIf f.slowmid ao ao ++ remapIf f.midfast ao ao
    else
      [.loc (performLocF ar (J 2) flag f.fftSlow ao)] ++ remapIf f.slowmid ao ao ++
      [.loc (performLocF ar (J 1) flag f.fftMid ao)] ++ remapIf f.midfast ao ao ++
      [.loc (performLocF ar (J 0) flag f.fftFast ao)]) ++
    remapIf f.postfast ai ao) ++
  (if flag = -1 ∧ scaled ∧ ¬ remaponly then [.loc (scaleLocF ar f.norm f.normnum ao)] else [])

/-! ## FFT2d -/

/-- The plans `fft_fast`, `fft_slow`: fft2d.cpp:417-426 and `setup_ffts`, 1452-1466. -/
def setupFftsF2 (ar : Arith) (c : Create2) : Option (Fft1d × Fft1d) := do
  let nfast := c.a.nfast
  let nslow := c.a.nslow
  let fast := c.fast c.me
  let slow := c.slow c.me
  let fastF ← kissAllocF ar nfast.toNat false
  let fastB ← kissAllocF ar nfast.toNat true
  let (slowF, slowB) ←
    if nslow = nfast then some (fastF, fastB)
    else do
      let f ← kissAllocF ar nslow.toNat false
      let b ← kissAllocF ar nslow.toNat true
      some (f, b)
  let n1 := fast.jhi - fast.jlo + 1
  let n2 := slow.ihi - slow.ilo + 1
  some ({ n := n1, length := nfast, total := n1 * nfast, planForward := fastF, planBackward := fastB },
    { n := n2, length := nslow, total := n2 * nslow, planForward := slowF, planBackward := slowB })

/-- `FFT2d::setup` on rank `me`, after the check of the arguments; `norm`: fft2d.cpp:430. -/
def setupMainF2 (ar : Arith) (c : Create2) : Option (Fft2 ℝ) := do
  let (f, s) ← forwardCreate2 c (0, 0)
  let same := inoutSame2 c.P c.a
  let (inv, s) ←
    if same then some ((none : Option (Inverse2 ℝ)), s)
    else (inverseCreate2 c s).map fun x => (some x.1, x.2)
  let (f1, f2) ← setupFftsF2 ar c
  some
    { same
      prefast := f.prefast, fastslow := some f.fastslow, postslow := f.postslow
      preslow := inv.bind Inverse2.preslow, slowfast := inv.map Inverse2.slowfast
      postfast := inv.bind Inverse2.postfast
      insize := boxSize2 (c.a.ins c.me), outsize := boxSize2 (c.a.outs c.me)
      fftsize := fftSize2 c, sendsize := s.1, recvsize := s.2
      fftFast := f1, fftSlow := f2
      norm := ar.ddiv 1 (ar.ofInt (c.a.nfast * c.a.nslow))
      normnum := boxSize2 (c.a.outs c.me) }

/-- `FFT2d::setup`, fft2d.cpp:227-463; see `fft2Setup`. -/
def fft2SetupF (ar : Arith) (w : Int) (P me : Nat) (a : Args2) (st : Settings) :
    Option (Except SetupErr (Fft2 ℝ)) :=
  match setupCheck2 P a with
  | some e => some (.error e)
  | none => do
    let g ← setupBrick2 P a st.exchange
    let f ← setupMainF2 ar { w, P, me, a, st, g }
    some (.ok f)

/-- `FFT2d::compute`, fft2d.cpp:526-565; see `Fft2.compute`. -/
def Fft2.computeF (ar : Arith) (f : Fft2 ℝ) (J : Nat → Junk) (scaled remaponly : Bool) (flag : Int)
    (ai ao : Nat) : List (Instr ℝ) :=
  (if flag = 1 ∨ f.same then
    remapOrCopy2 f.prefast f.insize ai ao ++
    (if remaponly then
      remapIf2 f.fastslow ao ao
    else
      [.loc (performLocF ar (J 0) flag f.fftFast ao)] ++ remapIf2 f.fastslow ao ao ++
      [.loc (performLocF ar (J 1) flag f.fftSlow ao)]) ++
    remapIf2 f.postslow ao ao
  else
    remapOrCopy2 f.preslow f.outsize ai ao ++
    (if remaponly then
      remapIf2 f.slowfast ao ao
    else
      [.loc (performLocF ar (J 1) flag f.fftSlow ao)] ++ remapIf2 f.slowfast ao ao ++
      [.loc (performLocF ar (J 0) flag f.fftFast ao)]) ++
    remapIf2 f.postfast ai ao) ++
  (if flag = -1 ∧ scaled ∧ ¬ remaponly then [.loc (scaleLocF ar f.norm f.normnum ao)] else [])

end FftMpi
