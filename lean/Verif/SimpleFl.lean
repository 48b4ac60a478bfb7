import Verif.Simple
import Verif.FftFl

/-!
# The sample programs test/simple.cpp, simple_c.cpp and simple_f90.f90 with rounding

The loops over the numbers of the points with the floating-point operations of an `Arith`.  The array has elements of
type `FFT_SCALAR`, and the other operand of the subtraction is an `int`: so the number of the point is converted to
`FFT_SCALAR` and the subtraction is one of that type.  `fabs` and comparisons are exact, and so are the conversions of
an `int` to `double` and of the difference to `double`.
-/

noncomputable section

namespace FftMpi

namespace Simple

variable (ar : Arith)

/-- `work[n] = (double) n; n++;` twice, simple.cpp:123-126, simple_c.cpp:122-125 and simple_f90.f90:129-132. -/
def put1Fl (first : Int) (s : Int × Mem ℝ) : Option (Int × Mem ℝ) :=
  (s.2.set (s.1 - first) (ar.conv s.1)).bind fun w => (add32 s.1 1).map fun n => (n, w)
def fillFl (first : Int) (b : Box3) (w : Mem ℝ) : Option (Mem ℝ) :=
  (nest b (fun s => (put1Fl ar first s).bind (put1Fl ar first)) (first, w)).map Prod.snd

/-- `if (fabs(work[n]-n) > mydiff) mydiff = fabs(work[n]-n); n++;` twice, simple.cpp:147-158, simple_c.cpp:146-157 and
simple_f90.f90:153-164. -/
def diff1Fl (first : Int) (w : Mem ℝ) (s : Int × ℝ) : Option (Int × ℝ) :=
  (w (s.1 - first)).bind fun x =>
    (add32 s.1 1).map fun n => (n, Driver.worse |ar.sub x (ar.conv s.1)| s.2)
def diffFl (first : Int) (b : Box3) (w : Mem ℝ) : Option ℝ :=
  (nest b (fun s => (diff1Fl ar first w s).bind (diff1Fl ar first w)) (first, 0)).map Prod.snd

/-- A rank up to the second transform, simple.cpp:119-135, simple_c.cpp:118-134 and simple_f90.f90:125-141. -/
def runFl (first : Int) (b : Box3) (f : Fft3 ℝ) (J J' : Nat → Junk) : List (Instr ℝ) :=
  .loc (Driver.onWork (fillFl ar first b)) ::
    (f.computeF ar J true false 1 0 0 ++ f.computeF ar J' true false (-1) 0 0)

/-- What simple.cpp:160-162, simple_c.cpp:159-161 and simple_f90.f90:166-167 print: the maximum over the ranks. -/
def reportFl (P : Nat) (first : Int) (box : Nat → Box3) (w : Nat → Mem ℝ) : Option ℝ :=
  Driver.epsmax P fun r => diffFl ar first (box r) (w r)

end Simple

end FftMpi
