import Verif.Fft3dSetup
import Mathlib.Algebra.Order.Floor.Ring
import Mathlib.Data.Rat.Floor

/-!
# Model of `FFT3d::tune` and `FFT2d::tune`

The two methods are the same but for the grid arguments that they hand to `setup` and the number of remaps
that are timed (fft3d.cpp:731-1013, fft2d.cpp:684-980), so one model serves both.  The line numbers are those
of fft3d.cpp.

What the clock shows is an input of the model: `root` and `own` are what rank 0 and the rank itself measure,
one entry for every timing trial in the order in which they are run, whatever the settings of the trial.  A
time is a rational number, `double` arithmetic is exact.  A conversion to `int` of a value that does not fit,
or of the result of a division by zero, has no defined result (`none`); so has the use of a member that was
never assigned, of an array element that does not exist, and an overflow of `3*niter`.

`setup` enters by the value `fftsize` that it returns for given settings; it is assumed to succeed (its errors
depend on the arguments only, so the first call reports them).  The life cycle of the object during `tune` is
in `Lifecycle.lean`.
-/

namespace FftMpi

/-- The additional arguments of `tune`, fft3d.cpp:738. -/
structure TuneArgs where
  flag : Int
  niter : Int
  tmax : ℚ
  tflag : Int

/-- The calls of `error->all` at the start of `tune`, fft3d.cpp:740-744. -/
inductive TuneErr where
  | already | flag | niterTmax | tflag
deriving DecidableEq, Repr

/-- fft3d.cpp:740-744. -/
def tuneCheck (setupflag : Bool) (t : TuneArgs) : Option TuneErr :=
  if setupflag then some .already
  else if t.flag < -1 ∨ t.flag > 1 then some .flag
  else if t.niter ≤ 0 ∨ t.tmax < 0 then some .niterTmax
  else if t.tflag < 0 ∨ t.tflag > 1 then some .tflag
  else none

/-- The times that `tune_trial` returns, fft3d.cpp:1026-1030. -/
structure Times where
  tfft : ℚ
  t1d : ℚ
  tremap : ℚ
  tremap1 : ℚ
  tremap2 : ℚ
  tremap3 : ℚ
  tremap4 : ℚ

/-- `FFT3d::tune_trial`, fft3d.cpp:1026-1101; `w` are the differences of the clock readings. -/
def tuneTrial (w : Times) (tflag : Int) : Times :=
  if tflag ≠ 0 then w else { w with t1d := 0, tremap := 0, tremap1 := 0, tremap2 := 0, tremap3 := 0, tremap4 := 0 }

/-- What one rank measures: the time of the first `setup`, and the times of the trials in their order; and its rounding of
`double`. -/
structure Clock where
  setup0 : ℚ
  run : Nat → Times
  fp : ℚ → ℚ := id

/-- Element of the arrays `cflags`, `eflags`, `pflags`, `tfft`, ..., fft3d.h:41-49. -/
structure Slot where
  st : Settings
  t : Times

/-- One timing trial that was run: settings and `memoryflag` at `setup`, arguments of `tune_trial`, the
`fftsize` that `setup` returned and the number of `FFT_SCALAR` pairs in the array `data`. -/
structure Trial where
  st : Settings
  memoryflag : Int
  niter : Int
  tflag : Int
  fftsize : Int
  data : Int
deriving DecidableEq, Repr

/-- The public members that `tune` changes (fft3d.h:33-49), the local variable `maxfftsize`, and the trials
run so far.  `cbest`, `ebest`, `pbest` are `none` as long as they are not assigned. -/
structure TuneSt where
  st : Settings
  memoryflag : Int
  ntrial : Nat
  npertrial : Int
  cbest : Option Int
  ebest : Option Int
  pbest : Option Int
  besttime : ℚ
  slots : Nat → Slot
  maxfftsize : Int
  runs : List Trial

/-- `BIG`, fft3d.cpp:48. -/
def tuneBIG : ℚ := 10 ^ 20

/-- The largest and smallest `int`. -/
def intMax : Int := 2147483647

/-- `z` is representable as an `int`. -/
def isInt (z : Int) : Prop := -intMax - 1 ≤ z ∧ z ≤ intMax

instance (z : Int) : Decidable (isInt z) := by unfold isInt; infer_instance

/-- Division of `double`s whose result is only used if it is finite. -/
def fdiv (fp : ℚ → ℚ) (x y : ℚ) : Option ℚ := if y = 0 then none else some (fp (x / y))

/-- `static_cast<int> (q)`: truncation. -/
def castInt (q : ℚ) : Option Int :=
  let z := if 0 ≤ q then ⌊q⌋ else ⌈q⌉
  if isInt z then some z else none

/-- `niter`, `tflag`, `nruns` after fft3d.cpp:819. -/
structure Budget where
  niter : Int
  tflag : Int
  nruns : Int
deriving DecidableEq, Repr

/-- fft3d.cpp:797-819; `3*niter` is an `int`. -/
def tuneBudget (fp : ℚ → ℚ) (t : TuneArgs) (timesetup timefft : ℚ) : Option Budget :=
  if t.tflag ≠ 0 ∧ ¬ isInt (3 * t.niter) then none
  else
    let timetotal : ℚ :=
      if t.tflag ≠ 0 then fp (10 * fp (timesetup + fp (3 * t.niter * timefft)))
      else fp (10 * fp (timesetup + fp (t.niter * timefft)))
    if t.tmax > 0 ∧ timetotal > t.tmax then do
      let q ← fdiv fp (fp (fp (t.tmax / 10) - timesetup)) timefft
      let niter ← castInt (if t.tflag ≠ 0 then fp (q / 3) else q)
      if niter ≤ 0 then do
        let niter ← castInt q
        if niter ≤ 0 then do
          let r ← fdiv fp t.tmax (fp (timesetup + timefft))
          let nruns ← castInt r
          some { niter := 1, tflag := 0, nruns }
        else some { niter, tflag := 0, nruns := 10 }
      else some { niter, tflag := t.tflag, nruns := 10 }
    else some { niter := t.niter, tflag := t.tflag, nruns := 10 }

/-- The bounds of the loops, fft3d.cpp:828-882: `cstart,cstop,estart,estop`, or `none` if `cstart = -1`;
`pstart,pstop`, or `none` if `pstart = -1`. -/
structure Bounds where
  ce : Option (Int × Int × Int × Int)
  p : Option (Int × Int)

/-- `cdefault`, `edefault`, `pdefault`, fft3d.cpp:823-825. -/
def tuneDefaults : Settings := { collective := 2, exchange := 0, packflag := 2 }

/-- fft3d.cpp:821-882. -/
def tuneBounds (nruns : Int) (timefft : ℚ) (s : TuneSt) : Bounds × TuneSt :=
  if nruns - 1 ≥ 9 then ({ ce := some (0, 3, 0, 2), p := some (0, 3) }, { s with ntrial := 0 })
  else if nruns - 1 ≥ 6 then
    ({ ce := some (0, 3, 0, 2), p := none }, { s with ntrial := 0, pbest := some 2 })
  else if nruns - 1 ≥ 3 then
    ({ ce := some (0, 3, 0, 1), p := none }, { s with ntrial := 0, pbest := some 2 })
  else if nruns - 1 = 2 then
    ({ ce := some (1, 3, 0, 1), p := none }, { s with ntrial := 0, pbest := some 2 })
  else if nruns - 1 = 1 ∧ s.st ≠ tuneDefaults then
    ({ ce := some (2, 3, 0, 1), p := none }, { s with ntrial := 1, pbest := some 2 })
  else
    ({ ce := none, p := none },
      { s with
        ntrial := 1
        besttime := timefft
        cbest := some s.st.collective
        ebest := some s.st.exchange
        pbest := some s.st.packflag
        slots := Function.update s.slots 0 { s.slots 0 with st := s.st } })

/-- The values of a loop variable in `for (int x = lo; x < hi; x++)`. -/
def loopVals (lo hi : Int) : List Int := (List.range (hi - lo).toNat).map fun k => lo + k

/-- `setup`, growth of `data`, `tune_trial` into array element `ntrial`, with the settings `st`:
fft3d.cpp:782-787, 894-916, 937-959.  `none`: there is no array element `ntrial`. -/
def runTrial (fftsize : Settings → Int) (own : Clock) (niter tflag : Int) (st : Settings) (s : TuneSt) :
    Option TuneSt :=
  if s.ntrial < 10 then
    let maxfftsize := if fftsize st > s.maxfftsize then fftsize st else s.maxfftsize
    some
      { s with
        st
        memoryflag := 1
        slots := Function.update s.slots s.ntrial ⟨st, tuneTrial (own.run s.runs.length) tflag⟩
        maxfftsize
        runs := s.runs ++
          [{ st, memoryflag := 1, niter, tflag, fftsize := fftsize st, data := maxfftsize }] }
  else none

/-- The body of the loops over `cflag` and `eflag`, fft3d.cpp:894-924. -/
def ceBody (fftsize : Settings → Int) (own : Clock) (b : Budget) (cflag eflag : Int) (s : TuneSt) :
    Option TuneSt := do
  let s ← runTrial fftsize own b.niter b.tflag { collective := cflag, exchange := eflag, packflag := 2 } s
  let t := (s.slots s.ntrial).t.tfft
  let s := if t < s.besttime then { s with besttime := t, cbest := some cflag, ebest := some eflag } else s
  some { s with ntrial := s.ntrial + 1 }

/-- The body of the loop over `pflag`, fft3d.cpp:937-966. -/
def pBody (fftsize : Settings → Int) (own : Clock) (b : Budget) (pflag : Int) (s : TuneSt) : Option TuneSt := do
  let c ← s.cbest
  let e ← s.ebest
  let s ← runTrial fftsize own b.niter b.tflag { collective := c, exchange := e, packflag := pflag } s
  let t := (s.slots s.ntrial).t.tfft
  let s := if t < s.besttime then { s with besttime := t, pbest := some pflag } else s
  some { s with ntrial := s.ntrial + 1 }

/-- fft3d.cpp:884-927. -/
def ceStage (fftsize : Settings → Int) (own : Clock) (b : Budget) (ce : Option (Int × Int × Int × Int))
    (s : TuneSt) : Option TuneSt :=
  match ce with
  | none => some s
  | some (cstart, cstop, estart, estop) =>
    (loopVals cstart cstop).foldlM (fun s cflag =>
      (loopVals estart estop).foldlM (fun s eflag => ceBody fftsize own b cflag eflag s) s)
      { s with besttime := tuneBIG }

/-- fft3d.cpp:929-968. -/
def pStage (fftsize : Settings → Int) (own : Clock) (b : Budget) (p : Option (Int × Int)) (s : TuneSt) :
    Option TuneSt :=
  match p with
  | none => some s
  | some (pstart, pstop) =>
    (loopVals pstart pstop).foldlM (fun s pflag => pBody fftsize own b pflag s) { s with besttime := tuneBIG }

/-- All times multiplied by `c`. -/
def Times.scale (fp : ℚ → ℚ) (c : ℚ) (t : Times) : Times where
  tfft := fp (t.tfft * c)
  t1d := fp (t.t1d * c)
  tremap := fp (t.tremap * c)
  tremap1 := fp (t.tremap1 * c)
  tremap2 := fp (t.tremap2 * c)
  tremap3 := fp (t.tremap3 * c)
  tremap4 := fp (t.tremap4 * c)

/-- fft3d.cpp:970-985. -/
def scaleStage (fp : ℚ → ℚ) (flag niter : Int) (s : TuneSt) : TuneSt :=
  let scale : ℚ := fp (1 / niter)
  let scale := if flag = 0 then fp (scale * (1 / 2)) else scale
  { s with
    npertrial := niter
    besttime := fp (s.besttime * scale)
    slots := fun i => if i < s.ntrial then { s.slots i with t := (s.slots i).t.scale fp scale } else s.slots i }

/-- fft3d.cpp:995-998. -/
def finalStage (memoryflag : Int) (s : TuneSt) : Option TuneSt := do
  let c ← s.cbest
  let e ← s.ebest
  let p ← s.pbest
  some { s with st := { collective := c, exchange := e, packflag := p }, memoryflag }

/-- `FFT3d::tune`, fft3d.cpp:731-1013, on the members `s`, up to the final `setup`, which is made with the
members that are returned.  All ranks round like rank 0. -/
def tune (fftsize : Settings → Int) (root own : Clock) (setupflag : Bool) (t : TuneArgs) (s : TuneSt) :
    Option (Except TuneErr TuneSt) :=
  match tuneCheck setupflag t with
  | some e => some (.error e)
  | none => do
    let s1 ← runTrial fftsize own 1 0 s.st { s with ntrial := 0, maxfftsize := 0, runs := [] }
    let timesetup := root.setup0
    let timefft := (tuneTrial (root.run 0) 0).tfft
    let b ← tuneBudget root.fp t timesetup timefft
    let (bd, s2) := tuneBounds b.nruns timefft s1
    let s3 ← ceStage fftsize own b bd.ce s2
    let s4 ← pStage fftsize own b bd.p s3
    let s5 ← finalStage s.memoryflag (scaleStage root.fp t.flag b.niter s4)
    some (.ok s5)

end FftMpi
