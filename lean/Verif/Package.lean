import Verif.Fft3d
import Verif.Fft2d
import Verif.Heap
import Verif.PropsKiss

/-!
# The other 1d FFT packages: MKL, FFTW2, FFTW3

`fft3d.cpp:1447-1635` and `fft2d.cpp:1292-1444` contain, besides the code for KISS, one version of
`setup_ffts`, `perform_ffts`, `scale_ffts` and `deallocate_ffts` for each of three libraries, selected when
the code is compiled.  The libraries themselves are not part of the repository.  What they do is specified
here by `BatchSpec` (a number of 1d DFTs on equally spaced lines of an array) and by the conditions their
documentation puts on the arguments; a call that breaks a condition has no defined result (`none`).

Assumed of the libraries:

* MKL: the forward transform has the exponent `-2 pi i j k/n`, the backward one `+2 pi i j k/n`, neither is
  scaled (`DFTI_FORWARD_SCALE`, `DFTI_BACKWARD_SCALE` are 1 by default); with more than one transform the
  line `t` starts at `t*DFTI_INPUT_DISTANCE`; the number of transforms must be positive.
* FFTW2: `fftw(plan,howmany,in,istride,idist,NULL,0,0)` with a plan for in place transforms transforms
  `howmany` lines in place; `howmany` is not negative.
* FFTW3: `execute_dft(plan,data,data)` performs the transforms the plan was made for, in place, if the plan
  was made for transforms in place and for arrays with the alignment of `data`.  The plans are made with the
  arrays `NULL`, `NULL` and without `FFTW_UNALIGNED`: in place, for aligned arrays.

Status codes are ignored by the code; allocations are assumed to succeed.  Arithmetic is exact.
-/

noncomputable section

namespace FftMpi

/-! ## Specification of the libraries -/

/-- `data'` is `data` after 1d DFTs of length `n` on `howmany` lines; element `j` of line `t` is
`data[t*dist + j*stride]`. -/
structure BatchSpec (n howmany : Nat) (stride dist : Int) (backward : Bool) (data data' : Mem ℂ) : Prop where
  access : ∀ t < howmany, ∀ j < n, (data (t * dist + j * stride)).isSome
  lines : ∀ t < howmany, ∀ k < n, data' (t * dist + k * stride) =
    some (dft1 n backward (fun j => (data (t * dist + j * stride)).getD 0) k)
  frame : ∀ a, (∀ t < howmany, ∀ k < n, a ≠ t * dist + k * stride) → data' a = data a

open Classical in
/-- The memory after the transforms, if the specification determines one. -/
def batch (n howmany : Nat) (stride dist : Int) (backward : Bool) (data : Mem ℂ) : Option (Mem ℂ) :=
  if h : ∃ data', BatchSpec n howmany stride dist backward data data' then some h.choose else none

/-- A descriptor of MKL: one-dimensional complex transforms. -/
structure Dfti where
  length : Int
  number : Int
  inplace : Bool
  inDist : Int
  outDist : Int

/-- `DftiCreateDescriptor(&handle,prec,DFTI_COMPLEX,1,(MKL_LONG) n)`: the defaults. -/
def dftiCreate (n : Int) : Dfti := { length := n, number := 1, inplace := true, inDist := 0, outDist := 0 }

/-- `DftiComputeForward`, `DftiComputeBackward` of one array with a committed descriptor. -/
def dftiCompute (d : Dfti) (backward : Bool) (data : Mem ℂ) : Option (Mem ℂ) :=
  if 1 ≤ d.length ∧ 1 ≤ d.number ∧ d.inplace = true ∧ d.inDist = d.outDist then
    batch d.length.toNat d.number.toNat 1 d.inDist backward data
  else none

/-- A plan of FFTW2. -/
structure Plan2W where
  n : Int
  backward : Bool
  inPlace : Bool

/-- `fftw(plan,howmany,data,istride,idist,NULL,0,0)`. -/
def fftw2 (p : Plan2W) (howmany : Int) (data : Mem ℂ) (istride idist : Int) : Option (Mem ℂ) :=
  if 1 ≤ p.n ∧ 0 ≤ howmany ∧ p.inPlace = true then batch p.n.toNat howmany.toNat istride idist p.backward data
  else none

/-- A plan of FFTW3 for one-dimensional transforms; `inplace`: made with equal arrays; `aligned`: arrays it is
used on must be aligned. -/
structure Plan3W where
  n : Int
  howmany : Int
  istride : Int
  idist : Int
  ostride : Int
  odist : Int
  backward : Bool
  inplace : Bool
  aligned : Bool

/-- `execute_dft(plan,data,data)`; `al`: the address of `data` is a multiple of 16. -/
def fftw3 (p : Plan3W) (al : Bool) (data : Mem ℂ) : Option (Mem ℂ) :=
  if 1 ≤ p.n ∧ 0 ≤ p.howmany ∧ p.inplace = true ∧ p.istride = p.ostride ∧ p.idist = p.odist ∧
      (p.aligned = true → al = true) then
    batch p.n.toNat p.howmany.toNat p.istride p.idist p.backward data
  else none

/-! ## Plans -/

/-- The members of `struct FFT1d` that depend on the package, fft3d.h:119-140, fft2d.h:112-133. -/
inductive LibPlan where
  | mkl (handle : Dfti)
  | fftw2 (planForward planBackward : Plan2W)
  | fftw3 (planForward planBackward : Plan3W)

/-- `struct FFT1d`. -/
structure Fft1dL where
  n : Int
  length : Int
  total : Int
  plan : LibPlan

/-- The descriptor for transforms of length `n`: fft3d.cpp:1463-1470, 1472-1479, 1481-1488 and
fft2d.cpp:1308-1315, 1317-1324 are the same text for the different dimensions. -/
def mklPlan (n total : Int) : Dfti :=
  let d := dftiCreate n
  let d := { d with number := total.tdiv n }
  let d := { d with inplace := true }
  let d := { d with inDist := n }
  { d with outDist := n }

/-- `fftw_create_plan(n,dir,FFTW_ESTIMATE | FFTW_IN_PLACE)`. -/
def fftw2Plan (n : Int) (backward : Bool) : Plan2W := { n, backward, inPlace := true }

/-- `plan_many_dft(1,&n,howmany,NULL,&n,1,n,NULL,&n,1,n,dir,FFTW_ESTIMATE)`. -/
def fftw3Plan (n howmany : Int) (backward : Bool) : Plan3W :=
  { n, howmany, istride := 1, idist := n, ostride := 1, odist := n, backward, inplace := true, aligned := true }

/-- The plans `fft_fast`, `fft_mid`, `fft_slow`: fft3d.cpp:443-457 and `setup_ffts`, 1459-1489 (MKL),
1516-1547 (FFTW2), 1584-1609 (FFTW3). -/
def setupFftsL (b : Package) (c : Create) : Fft1dL × Fft1dL × Fft1dL :=
  let nfast := c.a.nfast
  let nmid := c.a.nmid
  let nslow := c.a.nslow
  let fast := c.fast c.me
  let mid := c.mid c.me
  let slow := c.slow c.me
  let n1 := (fast.jhi - fast.jlo + 1) * (fast.khi - fast.klo + 1)
  let n2 := (mid.ihi - mid.ilo + 1) * (mid.khi - mid.klo + 1)
  let n3 := (slow.ihi - slow.ilo + 1) * (slow.jhi - slow.jlo + 1)
  let total1 := n1 * nfast
  let total2 := n2 * nmid
  let total3 := n3 * nslow
  let plans : LibPlan × LibPlan × LibPlan :=
    match b with
    | .mkl => (.mkl (mklPlan nfast total1), .mkl (mklPlan nmid total2), .mkl (mklPlan nslow total3))
    | .fftw2 =>
      let fastF := fftw2Plan nfast false
      let fastB := fftw2Plan nfast true
      let mid := if nmid = nfast then (fastF, fastB) else (fftw2Plan nmid false, fftw2Plan nmid true)
      let slow :=
        if nslow = nfast then (fastF, fastB)
        else if nslow = nmid then mid
        else (fftw2Plan nslow false, fftw2Plan nslow true)
      (.fftw2 fastF fastB, .fftw2 mid.1 mid.2, .fftw2 slow.1 slow.2)
    | .fftw3 =>
      (.fftw3 (fftw3Plan nfast n1 false) (fftw3Plan nfast n1 true),
       .fftw3 (fftw3Plan nmid n2 false) (fftw3Plan nmid n2 true),
       .fftw3 (fftw3Plan nslow n3 false) (fftw3Plan nslow n3 true))
  ({ n := n1, length := nfast, total := total1, plan := plans.1 },
   { n := n2, length := nmid, total := total2, plan := plans.2.1 },
   { n := n3, length := nslow, total := total3, plan := plans.2.2 })

/-- The plans `fft_fast`, `fft_slow`: fft2d.cpp:417-426 and `setup_ffts`, 1304-1325 (MKL), 1351-1369 (FFTW2),
1402-1420 (FFTW3). -/
def setupFftsL2 (b : Package) (c : Create2) : Fft1dL × Fft1dL :=
  let nfast := c.a.nfast
  let nslow := c.a.nslow
  let fast := c.fast c.me
  let slow := c.slow c.me
  let n1 := fast.jhi - fast.jlo + 1
  let n2 := slow.ihi - slow.ilo + 1
  let total1 := n1 * nfast
  let total2 := n2 * nslow
  let plans : LibPlan × LibPlan :=
    match b with
    | .mkl => (.mkl (mklPlan nfast total1), .mkl (mklPlan nslow total2))
    | .fftw2 =>
      let fastF := fftw2Plan nfast false
      let fastB := fftw2Plan nfast true
      let slow := if nslow = nfast then (fastF, fastB) else (fftw2Plan nslow false, fftw2Plan nslow true)
      (.fftw2 fastF fastB, .fftw2 slow.1 slow.2)
    | .fftw3 =>
      (.fftw3 (fftw3Plan nfast n1 false) (fftw3Plan nfast n1 true),
       .fftw3 (fftw3Plan nslow n2 false) (fftw3Plan nslow n2 true))
  ({ n := n1, length := nfast, total := total1, plan := plans.1 },
   { n := n2, length := nslow, total := total2, plan := plans.2 })

/-! ## perform_ffts, scale_ffts -/

/-- `perform_ffts`: fft3d.cpp:1491-1495, 1549-1553, 1611-1615; fft2d.cpp:1327-1331, 1371-1375, 1422-1426. -/
def performFftsL (al : Bool) (flag : Int) (plan : Fft1dL) (data : Mem ℂ) : Option (Mem ℂ) :=
  match plan.plan with
  | .mkl handle => if flag = 1 then dftiCompute handle false data else dftiCompute handle true data
  | .fftw2 fwd bwd =>
    if flag = 1 then fftw2 fwd plan.n data 1 plan.length else fftw2 bwd plan.n data 1 plan.length
  | .fftw3 fwd bwd => if flag = 1 then fftw3 fwd al data else fftw3 bwd al data

/-- `perform_ffts((FFT_DATA *) data,flag,plan)` on user array `ao`; `al n`: array `n` is aligned. -/
def performLocL (al : Nat → Bool) (flag : Int) (plan : Fft1dL) (ao : Nat) (m : LMem ℝ) : Option (LMem ℝ) :=
  (performFftsL (al ao) flag plan (cview (m.ub ao))).map fun c =>
    { m with ub := Function.update m.ub ao (cstore (m.ub ao) c) }

/-- `scale_ffts` with MKL, fft3d.cpp:1497-1501, fft2d.cpp:1333-1337: `data[i] *= fnorm` on `_Complex`. -/
def scaleMkl (norm : ℝ) (normnum : Int) (data : Mem ℝ) : Option (Mem ℝ) :=
  forN normnum (fun i d => do
    let re ← d (2 * i)
    let im ← d (2 * i + 1)
    let d ← d.set (2 * i) (re * norm)
    d.set (2 * i + 1) (im * norm)) data

/-- `scale_ffts` with FFTW3, fft3d.cpp:1617-1625, fft2d.cpp:1428-1436; the state is `data_ptr` and the array. -/
def scaleFftw3 (norm : ℝ) (normnum : Int) (data : Mem ℝ) : Option (Mem ℝ) :=
  (forN normnum (fun _ (s : Int × Mem ℝ) => do
    let x ← s.2 s.1
    let d ← s.2.set s.1 (x * norm)
    let p := s.1 + 1
    let y ← d p
    let d ← d.set p (y * norm)
    some (p + 1, d)) ((0 : Int), data)).map Prod.snd

/-- `scale_ffts`; the text for FFTW2 (fft3d.cpp:1555-1562, fft2d.cpp:1377-1384) is that for KISS. -/
def scaleFftsL (b : Package) (norm : ℝ) (normnum : Int) (data : Mem ℝ) : Option (Mem ℝ) :=
  match b with
  | .mkl => scaleMkl norm normnum data
  | .fftw2 => scaleFfts norm normnum data
  | .fftw3 => scaleFftw3 norm normnum data

/-- `scale_ffts` on user array `ao`. -/
def scaleLocL (b : Package) (norm : ℝ) (normnum : Int) (ao : Nat) (m : LMem ℝ) : Option (LMem ℝ) :=
  (scaleFftsL b norm normnum (m.ub ao)).map fun d => { m with ub := Function.update m.ub ao d }

/-! ## FFT3d -/

/-- An `FFT3d` compiled for one of the packages; compare `Fft3`. -/
structure Fft3L where
  same : Bool
  prefast : Option (RemapPair ℝ)
  fastmid : Option (RemapPair ℝ)
  midslow : Option (RemapPair ℝ)
  postslow : Option (RemapPair ℝ)
  preslow : Option (RemapPair ℝ)
  slowmid : Option (RemapPair ℝ)
  midfast : Option (RemapPair ℝ)
  postfast : Option (RemapPair ℝ)
  insize : Int
  outsize : Int
  fftsize : Int
  sendsize : Int
  recvsize : Int
  fftFast : Fft1dL
  fftMid : Fft1dL
  fftSlow : Fft1dL
  norm : ℝ
  normnum : Int

/-- `FFT3d::setup` on rank `me`, after the check of the arguments. -/
def setupMainL (b : Package) (c : Create) : Option Fft3L := do
  let (f, s) ← forwardCreate c (0, 0)
  let same := inoutSame c.P c.a
  let (inv, s) ←
    if same then some ((none : Option (Inverse ℝ)), s)
    else (inverseCreate c s).map fun x => (some x.1, x.2)
  let (f1, f2, f3) := setupFftsL b c
  some
    { same
      prefast := f.prefast, fastmid := some f.fastmid, midslow := some f.midslow, postslow := f.postslow
      preslow := inv.bind Inverse.preslow, slowmid := inv.map Inverse.slowmid
      midfast := inv.map Inverse.midfast, postfast := inv.bind Inverse.postfast
      insize := boxSize (c.a.ins c.me), outsize := boxSize (c.a.outs c.me)
      fftsize := fftSize c, sendsize := s.1, recvsize := s.2
      fftFast := f1, fftMid := f2, fftSlow := f3
      norm := 1 / (c.a.nfast * c.a.nmid * c.a.nslow : ℝ)
      normnum := boxSize (c.a.outs c.me) }

/-- `FFT3d::setup`, fft3d.cpp:219-494, on rank `me` of `P`. -/
def fft3SetupL (b : Package) (P me : Nat) (a : Args3) (st : Settings) : Option (Except SetupErr Fft3L) :=
  match setupCheck P a with
  | some e => some (.error e)
  | none => do
    let g ← setupGrids P a st.exchange
    let f ← setupMainL b { P, me, a, st, g }
    some (.ok f)

/-- `FFT3d::compute`, fft3d.cpp:560-605. -/
def Fft3L.compute (b : Package) (f : Fft3L) (al : Nat → Bool) (scaled remaponly : Bool) (flag : Int)
    (ai ao : Nat) : List (Instr ℝ) :=
  (if flag = 1 ∨ f.same then
    remapOrCopy f.prefast f.insize ai ao ++
    (if remaponly then
      remapIf f.fastmid ao ao ++ remapIf f.midslow ao ao
    else
      [.loc (performLocL al flag f.fftFast ao)] ++ remapIf f.fastmid ao ao ++
      [.loc (performLocL al flag f.fftMid ao)] ++ remapIf f.midslow ao ao ++
      [.loc (performLocL al flag f.fftSlow ao)]) ++
    remapIf f.postslow ao ao
  else
    remapOrCopy f.preslow f.outsize ai ao ++
    (if remaponly then
      remapIf f.slowmid ao ao ++ remapIf f.midfast ao ao
    else
      [.loc (performLocL al flag f.fftSlow ao)] ++ remapIf f.slowmid ao ao ++
      [.loc (performLocL al flag f.fftMid ao)] ++ remapIf f.midfast ao ao ++
      [.loc (performLocL al flag f.fftFast ao)]) ++
    -- `remap(in,out,remap_postfast)`, line 601
    remapIf f.postfast ai ao) ++
  (if flag = -1 ∧ scaled ∧ ¬ remaponly then [.loc (scaleLocL b f.norm f.normnum ao)] else [])

/-- `FFT3d::only_1d_ffts`, fft3d.cpp:614-622. -/
def Fft3L.only1d (f : Fft3L) (al : Nat → Bool) (flag : Int) (ai : Nat) : List (Instr ℝ) :=
  [.loc (performLocL al flag f.fftFast ai), .loc (performLocL al flag f.fftMid ai),
   .loc (performLocL al flag f.fftSlow ai)]

/-! ## FFT2d -/

/-- An `FFT2d` compiled for one of the packages; compare `Fft2`. -/
structure Fft2L where
  same : Bool
  prefast : Option (RemapPair2 ℝ)
  fastslow : Option (RemapPair2 ℝ)
  postslow : Option (RemapPair2 ℝ)
  preslow : Option (RemapPair2 ℝ)
  slowfast : Option (RemapPair2 ℝ)
  postfast : Option (RemapPair2 ℝ)
  insize : Int
  outsize : Int
  fftsize : Int
  sendsize : Int
  recvsize : Int
  fftFast : Fft1dL
  fftSlow : Fft1dL
  norm : ℝ
  normnum : Int

/-- `FFT2d::setup` on rank `me`, after the check of the arguments, fft2d.cpp:392-431. -/
def setupMainL2 (b : Package) (c : Create2) : Option Fft2L := do
  let (f, s) ← forwardCreate2 c (0, 0)
  let same := inoutSame2 c.P c.a
  let (inv, s) ←
    if same then some ((none : Option (Inverse2 ℝ)), s)
    else (inverseCreate2 c s).map fun x => (some x.1, x.2)
  let (f1, f2) := setupFftsL2 b c
  some
    { same
      prefast := f.prefast, fastslow := some f.fastslow, postslow := f.postslow
      preslow := inv.bind Inverse2.preslow, slowfast := inv.map Inverse2.slowfast
      postfast := inv.bind Inverse2.postfast
      insize := boxSize2 (c.a.ins c.me), outsize := boxSize2 (c.a.outs c.me)
      fftsize := fftSize2 c, sendsize := s.1, recvsize := s.2
      fftFast := f1, fftSlow := f2
      norm := 1 / (c.a.nfast * c.a.nslow : ℝ)
      normnum := boxSize2 (c.a.outs c.me) }

/-- `FFT2d::setup`, fft2d.cpp:227-463, on rank `me` of `P`. -/
def fft2SetupL (b : Package) (w : Int) (P me : Nat) (a : Args2) (st : Settings) :
    Option (Except SetupErr Fft2L) :=
  match setupCheck2 P a with
  | some e => some (.error e)
  | none => do
    let g ← setupBrick2 P a st.exchange
    let f ← setupMainL2 b { w, P, me, a, st, g }
    some (.ok f)

/-- `FFT2d::compute`, fft2d.cpp:526-565. -/
def Fft2L.compute (b : Package) (f : Fft2L) (al : Nat → Bool) (scaled remaponly : Bool) (flag : Int)
    (ai ao : Nat) : List (Instr ℝ) :=
  (if flag = 1 ∨ f.same then
    remapOrCopy2 f.prefast f.insize ai ao ++
    (if remaponly then
      remapIf2 f.fastslow ao ao
    else
      [.loc (performLocL al flag f.fftFast ao)] ++ remapIf2 f.fastslow ao ao ++
      [.loc (performLocL al flag f.fftSlow ao)]) ++
    remapIf2 f.postslow ao ao
  else
    remapOrCopy2 f.preslow f.outsize ai ao ++
    (if remaponly then
      remapIf2 f.slowfast ao ao
    else
      [.loc (performLocL al flag f.fftSlow ao)] ++ remapIf2 f.slowfast ao ao ++
      [.loc (performLocL al flag f.fftFast ao)]) ++
    -- `remap(in,out,remap_postfast)`, line 561
    remapIf2 f.postfast ai ao) ++
  (if flag = -1 ∧ scaled ∧ ¬ remaponly then [.loc (scaleLocL b f.norm f.normnum ao)] else [])

/-- `FFT2d::only_1d_ffts`, fft2d.cpp:574-581. -/
def Fft2L.only1d (f : Fft2L) (al : Nat → Bool) (flag : Int) (ai : Nat) : List (Instr ℝ) :=
  [.loc (performLocL al flag f.fftFast ai), .loc (performLocL al flag f.fftSlow ai)]

end FftMpi
