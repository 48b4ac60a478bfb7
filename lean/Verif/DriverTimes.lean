import Verif.TimeRuns
import Verif.CInt
import Mathlib.Analysis.SpecialFunctions.Log.Basic

/-!
# The times that the test programs report

`main`, `plan` and `timing` of test3d.cpp and test2d.cpp as a list of actions of one rank: pieces of work, barriers, readings
of the clock and assignments to variables of type `double`.  An action takes any time that is not negative.

Simplifications: what a piece of work does is not repeated here (see `Driver`, `TimeRuns`); numbers of type `double` are
rounded once per operation; division by zero is an outcome `none` of its own (the programs print `inf` or `nan`).
-/

noncomputable section

namespace FftMpi

namespace Driver

/-- A piece of work. -/
inductive Job where
  /-- `proc_setup(IN)`, `proc_setup(OUT)`, `grid_setup` -/
  | grids
  /-- `new FFT3d`, and the assignments to its members -/
  | create
  | setup
  /-- `tune` without its last `setup` -/
  | trials
  | allocate
  | initialize
  | output
  | validate
  /-- `work[i] = 0.0` -/
  | clear
  | fft (flag : Int)
  | only1d (flag : Int)
  | remaps (flag : Int)
  | oneRemap (flag which : Int)
deriving DecidableEq

/-- The variables.  `main1` and `main2` are `time1` and `time2` of `main`, `plan1` and `plan2` those of `plan`, `tune1`
and `tune2` those of `FFT3d::tune`, `stamp k` is `timek` of `timing`. -/
inductive Var where
  | main1 | main2 | plan1 | plan2 | tune1 | tune2
  | stamp (k : Nat)
  | timeinit | timesetup | timetune | setuptime | timefft | time1d | timeRemap
  /-- `time_remap1`, ... -/
  | remap (k : Nat)
deriving DecidableEq

/-- An action. -/
inductive Act where
  /-- `MPI_Barrier(world);` -/
  | barrier
  /-- `v = MPI_Wtime();` -/
  | wtime (v : Var)
  /-- `v = a - b;` -/
  | diff (v a b : Var)
  /-- `v = a;` -/
  | copy (v a : Var)
  /-- `v = 0.0;` -/
  | zero (v : Var)
  | job (j : Job)
deriving DecidableEq

/-- What the reports depend on: `dim` is 3 or 2; `nloop` is that after `plan`. -/
structure TimeOpt where
  dim : Nat
  tune : Bool
  mode : Nat
  nloop : Nat
  vflag : Bool
  oflag : Bool
  tflag : Bool

variable (o : TimeOpt)

/-- The body of a loop in `main` and `timing`, for example test3d.cpp:228-238, 802-811. -/
def passActs (call : Int → Job) : List Act :=
  if o.mode < 2 then [.job (call 1), .job (call (-1))] else [.job (call 1)]

/-- Such a loop. -/
def loopActs (call : Int → Job) : List Act := (List.replicate o.nloop (passActs o call)).flatten

/-- `plan`, test3d.cpp:552-601; test2d.cpp:496-543, with the end of `tune`, fft3d.cpp:1000-1012; fft2d.cpp:944-954. -/
def planActs : List Act :=
  [.job .create, .barrier, .wtime .plan1] ++
  (if o.tune then
    [.job .trials, .barrier, .wtime .tune1, .job .setup, .barrier, .wtime .tune2, .diff .setuptime .tune2 .tune1]
   else [.job .setup]) ++
  [.barrier, .wtime .plan2] ++
  (if o.tune then [.copy .timesetup .setuptime, .diff .timetune .plan2 .plan1]
   else [.diff .timesetup .plan2 .plan1, .zero .timetune])

/-- Time of a loop after the array was cleared, test3d.cpp:796-816, 820-840; test2d.cpp:718-738, 742-762. -/
def blockActs (call : Int → Job) (v : Var) : List Act :=
  [.job .clear, .barrier, .wtime (.stamp 1)] ++ loopActs o call ++
    [.barrier, .wtime (.stamp 2), .diff v (.stamp 2) (.stamp 1)]

/-- Remap number `k + 1` only, test3d.cpp:850-863, 865-878, 880-893, 895-908;
test2d.cpp:772-785, 787-800, 802-815.  The
argument `which` of the call is `which flag (k + 1)`. -/
def singleActs (which : Int → Nat → Int) (k : Nat) : List Act :=
  loopActs o (fun d => .oneRemap d (which d (k + 1))) ++
    [.barrier, .wtime (.stamp (k + 2)), .diff (.remap (k + 1)) (.stamp (k + 2)) (.stamp (k + 1))]

/-- The part of `timing` before the report, test3d.cpp:794-909; test2d.cpp:716-816. -/
def timingActs (which : Int → Nat → Int) : List Act :=
  if o.tflag then
    blockActs o .only1d .time1d ++ blockActs o .remaps .timeRemap ++
      ([.job .clear, .barrier, .wtime (.stamp 1)] ++ (List.range (o.dim + 1)).flatMap (singleActs o which))
  else []

/-- `main` up to the loop, test3d.cpp:207-225; test2d.cpp:206-224. -/
def beforeActs : List Act :=
  [.barrier, .wtime .main1, .job .grids] ++ planActs o ++
  [.job .allocate, .job .initialize, .barrier, .wtime .main2, .diff .timeinit .main2 .main1] ++
  (if o.oflag then [.job .output] else []) ++ [.barrier]

/-- `main` after the loop, test3d.cpp:249-254; test2d.cpp:248-253. -/
def afterActs (which : Int → Nat → Int) : List Act :=
  (if o.vflag then [.job .validate] else []) ++ (if o.oflag then [.job .output] else []) ++ timingActs o which

/-- `main`, test3d.cpp:207-254; test2d.cpp:206-253. -/
def mainActs (which : Int → Nat → Int) : List Act :=
  beforeActs o ++
  (.wtime .main1 :: (loopActs o .fft ++ [.barrier])) ++ [.wtime .main2, .diff .timefft .main2 .main1] ++
  afterActs o which

/-- The C++ programs (and those in C and Python: test3d.py:727-770, 327-369, 518-614; test2d.py:651-694, 459-543; except that
test3d.py:755 calls a function that does not exist, see `DriverPy`). -/
def testActs : List Act := mainActs o fun _ k => k

/-- test3d_f90.f90:136-187, 561-616, 850-972: the last call in the backward direction, and in modes 2 and 3 that in the forward
direction, has the number 5 (lines 961, 965); `validate` is called if `vflag` is 0 (line 178). -/
def testActsF : List Act :=
  mainActs { o with vflag := !o.vflag } fun d k => if k = 4 ∧ (2 ≤ o.mode ∨ d = -1) then 5 else k

/-- A rank: the time since the start, and the variables. -/
structure TimeSt where
  now : ℝ
  val : Var → ℝ

/-- The effect of an action.  `tick` is what the clock shows. -/
def TimeSt.act (rnd tick : ℝ → ℝ) (s : TimeSt) : Act → TimeSt
  | .barrier => s
  | .wtime v => { s with val := Function.update s.val v (tick s.now) }
  | .diff v a b => { s with val := Function.update s.val v (rnd (s.val a - s.val b)) }
  | .copy v a => { s with val := Function.update s.val v (s.val a) }
  | .zero v => { s with val := Function.update s.val v 0 }
  | .job _ => s

/-- Actions with the time that each one takes. -/
def TimeSt.exec (rnd tick : ℝ → ℝ) : List (Act × ℝ) → TimeSt → TimeSt
  | [], s => s
  | x :: l, s => exec rnd tick l (TimeSt.act rnd tick { s with now := s.now + x.2 } x.1)

/-! ## The report -/

/-- Division of `double`s. -/
def fquot (rnd : ℝ → ℝ) (x y : ℝ) : Option ℝ := if y = 0 then none else some (rnd (x / y))

/-- `nfft`, test3d.cpp:914-916; test2d.cpp:821-823.  (In 32 bits: `count32`.) -/
def nfftOf : Nat := if o.mode < 2 then 2 * o.nloop else o.nloop

/-- `onetime`, test3d.cpp:918; test2d.cpp:825. -/
def onetime (rnd : ℝ → ℝ) (val : Var → ℝ) : Option ℝ := fquot rnd (val .timefft) (nfftOf o)

/-- "Initialize grid", test3d.cpp:968-969; test2d.cpp:869-870. -/
def initTime (rnd : ℝ → ℝ) (val : Var → ℝ) : ℝ :=
  if o.tune then rnd (val .timeinit - val .timetune) else rnd (val .timeinit - val .timesetup)

/-- `nsize`, test3d.cpp:919: `sizes` are `nx`, `ny`, `nz`; test2d.cpp:826. -/
def nsizeOf (rnd : ℝ → ℝ) (sizes : List Nat) : ℝ := sizes.foldl (fun (x : ℝ) (n : Nat) => rnd (x * n)) 1

/-- `floprate`, test3d.cpp:920-921; test2d.cpp:827-828.  `ln` is `log` of the C library. -/
def floprate (rnd ln : ℝ → ℝ) (val : Var → ℝ) (sizes : List Nat) : Option ℝ :=
  (fquot rnd (ln (nsizeOf rnd sizes)) (ln 2)).bind fun log2n =>
    (onetime o rnd val).bind fun one =>
      (fquot rnd (rnd (rnd (5 * nsizeOf rnd sizes) * log2n)) one).map fun x => rnd (x / 2 ^ 30)

/-- `gridbytes = 8 * 2*fftsize` (or `4 * 2*fftsize`) in Fortran, test3d_f90.f90:988-992; test2d_f90.f90:882-886: the product is one
of default integers; only the result is assigned to an `integer*8`. -/
def gridBytesF (sz fftsize : Int) : Option Int := (mul32 sz 2).bind fun x => mul32 x fftsize

/-- `nsize = nx * ny`, test2d_f90.f90:878: a product of default integers.  (test3d_f90.f90:984 begins with `1.0`.) -/
def nsizeF2 (nx ny : Int) : Option Int := mul32 nx ny

end Driver

end FftMpi
