import Verif.Driver
import Verif.Fft3d32

/-!
# The sample programs test/simple.cpp, simple_c.cpp, simple.py and simple_f90.f90

Each program factors the number of ranks, cuts the grid into bricks, numbers its part of the array, does one
forward and one backward transform and prints the largest difference from the numbers.  simple_c.cpp has the text of
simple.cpp except that it calls the C interface (see C36).  The sizes are constants in the source (128), to be edited
by the user; here they are arbitrary.
Not modelled: the lines with the sizes and the time, and `tune`, which is commented out.
-/

noncomputable section

namespace FftMpi

namespace Simple

/-- `while (p < n) { if (n % p == 0) break; p++; }`, simple.cpp:69-72, 75-78; simple.py:44-46, 49-51;
simple_f90.f90:78-81, 85-88.  A remainder modulo zero is undefined. -/
def divisorFrom (n p : Nat) : Option Nat :=
  if p < n then
    if p = 0 then none else if n % p = 0 then some p else divisorFrom n (p + 1)
  else some p
termination_by n - p

/-- The factors of the number of ranks, simple.cpp:68-79; simple.py:43-52; simple_f90.f90:77-89.  `cbrt P` is
`(int) pow(P,1.0/3.0)` and `sqrt n` is `(int) sqrt(n)`, whose rounding is left open. -/
def procs (cbrt sqrt : Nat → Nat) (P : Nat) : Option (Nat × Nat × Nat) :=
  (divisorFrom P (cbrt P)).bind fun npfast =>
  if npfast = 0 then none else
  (divisorFrom (P / npfast) (sqrt (P / npfast))).bind fun npmid =>
  if npmid = 0 then none else some (npfast, npmid, P / npfast / npmid)

/-- The brick of a rank, simple.cpp:90-99.  The cast in `(int) 1.0*ipfast*nfast/npfast` applies to `1.0` only; the
rest is `int` arithmetic. -/
def box (np : Nat × Nat × Nat) (n1 n2 n3 : Nat) (me : Nat) : Option Box3 := do
  let ip ← gridCoords32 np me
  let ilo ← blockLo32 ip.1 n1 np.1
  let ihi ← blockHi32 ip.1 n1 np.1
  let jlo ← blockLo32 ip.2.1 n2 np.2.1
  let jhi ← blockHi32 ip.2.1 n2 np.2.1
  let klo ← blockLo32 ip.2.2 n3 np.2.2
  let khi ← blockHi32 ip.2.2 n3 np.2.2
  return ⟨ilo, ihi, jlo, jhi, klo, khi⟩

/-- The brick in simple.py:60-69: here the division is one of doubles, as in the test programs.  (Python 2: the
integer divisions in lines 47 to 62 are those of C.) -/
def boxPy (rnd : ℝ → ℝ) (np : Nat × Nat × Nat) (n1 n2 n3 : Nat) (me : Nat) : Box3 :=
  Driver.box3 rnd np n1 n2 n3 me

/-- `ilo = 1.0*ip*n/np + 1`, simple_f90.f90:101, and `ihi = 1.0*(ip+1)*n/np`, line 102: arithmetic in single
precision with rounding `rnd`; the assignment to an integer cuts off. -/
def loF (rnd : ℝ → ℝ) (ip n np : Nat) : Int := ⌊rnd (rnd (rnd (rnd ip * rnd n) / rnd np) + 1)⌋
def hiF (rnd : ℝ → ℝ) (ip n np : Nat) : Int := ⌊rnd (rnd (rnd ((ip + 1 : Nat) : ℝ) * rnd n) / rnd np)⌋

/-- The brick in simple_f90.f90:97-106, counted from one. -/
def boxF (rnd : ℝ → ℝ) (np : Nat × Nat × Nat) (n1 n2 n3 : Nat) (me : Nat) : Box3 :=
  let ip := gridCoords np me
  ⟨loF rnd ip.1 n1 np.1, hiF rnd ip.1 n1 np.1, loF rnd ip.2.1 n2 np.2.1, hiF rnd ip.2.1 n2 np.2.1,
    loF rnd ip.2.2 n3 np.2.2, hiF rnd ip.2.2 n3 np.2.2⟩

/-- The arguments of `setup`, simple.cpp:104-106; `fp` is the rounding of `double`. -/
def args (fp : ℝ → ℝ) (n1 n2 n3 : Nat) (box : Nat → Box3) : Args3 :=
  { nfast := n1, nmid := n2, nslow := n3, ins := box, outs := box, permute := 0, fp }

/-- The settings of the constructor, fft3d.cpp:122-124, which the programs do not change. -/
def settings : Settings := ⟨2, 0, 2⟩

/-- The three nested loops over the brick. -/
def nest {σ : Type} (b : Box3) (f : σ → Option σ) (s : σ) : Option σ :=
  forN b.ksize (fun _ s => forN b.jsize (fun _ s => forN b.isize (fun _ s => f s) s) s) s

/-- `work[n] = (double) n; n++;` twice, simple.cpp:123-126; simple.py:93-96.  In simple_f90.f90:129-132 `n`
starts with `first = 1`, and so do the indices of the array. -/
def put1 (first : Int) (s : Int × Mem ℝ) : Option (Int × Mem ℝ) :=
  (s.2.set (s.1 - first) s.1).bind fun w => (add32 s.1 1).map fun n => (n, w)
def fill (first : Int) (b : Box3) (w : Mem ℝ) : Option (Mem ℝ) :=
  (nest b (fun s => (put1 first s).bind (put1 first)) (first, w)).map Prod.snd

/-- `if (fabs(work[n]-n) > mydiff) mydiff = fabs(work[n]-n); n++;` twice, simple.cpp:147-158; simple.py:113-121;
simple_f90.f90:153-164. -/
def diff1 (first : Int) (w : Mem ℝ) (s : Int × ℝ) : Option (Int × ℝ) :=
  (w (s.1 - first)).bind fun x => (add32 s.1 1).map fun n => (n, Driver.worse |x - s.1| s.2)
def diff (first : Int) (b : Box3) (w : Mem ℝ) : Option ℝ :=
  (nest b (fun s => (diff1 first w s).bind (diff1 first w)) (first, 0)).map Prod.snd

/-- A rank up to the second transform. -/
def run (first : Int) (b : Box3) (f : Fft3 ℝ) (J J' : Nat → Junk) : List (Instr ℝ) :=
  .loc (Driver.onWork (fill first b)) :: (f.compute J true false 1 0 0 ++ f.compute J' true false (-1) 0 0)

/-- The same with `compute` in `int` arithmetic. -/
def run32 (first : Int) (b : Box3) (f : Fft3 ℝ) (J J' : Nat → Junk) : List (Instr ℝ) :=
  .loc (Driver.onWork (fill first b)) :: (f.compute32 J true false 1 0 0 ++ f.compute32 J' true false (-1) 0 0)

/-- What simple.cpp:160-162 and simple_f90.f90:166-167 print: the maximum over the ranks. -/
def report (P : Nat) (first : Int) (box : Nat → Box3) (w : Nat → Mem ℝ) : Option ℝ :=
  Driver.epsmax P fun r => diff first (box r) (w r)

/-- What simple.py:123-124 prints: the result of `allreduce` is not used, rank 0 prints its own difference. -/
def reportPy (P : Nat) (box : Nat → Box3) (w : Nat → Mem ℝ) : Option ℝ :=
  (report P 0 box w).bind fun _ => diff 0 (box 0) (w 0)

end Simple

end FftMpi
