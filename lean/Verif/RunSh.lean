import Verif.DriverPy
import Verif.DriverF
import Verif.DriverArgs

/-!
# The script test/Run.sh, and the main program of test2d_f90.f90

The script builds the library and the test programs (lines 10-12, 22) and then starts each of the eight test programs
on one and on eight ranks, lines 32-96.
-/

noncomputable section

namespace FftMpi

open Driver

/-! ## test2d_f90 -/

namespace DriverF

/-- The box of rank `me`, counted from one, in single precision: test2d_f90.f90:458-467, 473-482. -/
def box2F (rnd1 : ℝ → ℝ) (np : Nat × Nat) (nx ny me : Nat) : Box2 :=
  let ipx := me % np.1
  let ipy := me / np.1
  ⟨Simple.loF rnd1 ipx nx np.1, Simple.hiF rnd1 ipx nx np.1, Simple.loF rnd1 ipy ny np.2, Simple.hiF rnd1 ipy ny np.2⟩

/-- `fft2d_setup_fortran` subtracts one from all bounds, fft2d_wrap.cpp:218-221. -/
def fromOne2 (b : Box2) : Box2 := ⟨b.ilo - 1, b.ihi - 1, b.jlo - 1, b.jhi - 1⟩

/-- The arguments that `FFT2d::setup` gets, test2d_f90.f90:391-407 (`proc_setup` has the text of test2d.cpp), 506-510,
519-523.  `rnd` is the rounding of `double` in `proc2d`, `rnd1` that of single precision in `grid_setup`. -/
def args2 (rnd rnd1 : ℝ → ℝ) (o : Opt2) (P : Nat) : Option Args2 :=
  (o.inGrid rnd P).bind fun pin => (o.outGrid P).map fun pout =>
    { nfast := o.nx, nslow := o.ny
      ins := fun r => fromOne2 (box2F rnd1 pin o.nx o.ny r)
      outs := fun r => fromOne2 (box2F rnd1 pout o.nx o.ny r)
      permute := if o.mode = 0 ∨ o.mode = 2 then 0 else 2
      fp := rnd }

end DriverF

/-! ## The script -/

namespace RunSh

/-- The language of a test program.  The C programs have the text of the C++ programs where the model follows it. -/
inductive Lang where
  | cpp | c | f90 | py
deriving DecidableEq

/-- A command of the script: the language, whether the program is that for three dimensions, the number of ranks, and the
words that the program gets, beginning with its name. -/
structure Command where
  lang : Lang
  three : Bool
  ranks : Nat
  argv : List String

/-- Run.sh:32-33, 41-42, 50-51, 59-60 on one rank, 68-69, 77-78, 86-87, 95-96 on eight. -/
def script : List Command :=
  [⟨.cpp, true, 1, ["test3d", "-g", "64", "64", "64", "-n", "50"]⟩,
   ⟨.cpp, false, 1, ["test2d", "-g", "128", "128", "-n", "100"]⟩,
   ⟨.c, true, 1, ["test3d_c", "-g", "64", "64", "64", "-n", "50"]⟩,
   ⟨.c, false, 1, ["test2d_c", "-g", "128", "128", "-n", "100"]⟩,
   ⟨.f90, true, 1, ["test3d_f90", "-g", "64", "64", "64", "-n", "50"]⟩,
   ⟨.f90, false, 1, ["test2d_f90", "-g", "128", "128", "-n", "100"]⟩,
   ⟨.py, true, 1, ["test3d.py", "-g", "64", "64", "64", "-n", "50"]⟩,
   ⟨.py, false, 1, ["test2d.py", "-g", "128", "128", "-n", "100"]⟩,
   ⟨.cpp, true, 8, ["test3d", "-g", "64", "64", "64", "-n", "50"]⟩,
   ⟨.cpp, false, 8, ["test2d", "-g", "128", "128", "-n", "100"]⟩,
   ⟨.c, true, 8, ["test3d_c", "-g", "64", "64", "64", "-n", "50"]⟩,
   ⟨.c, false, 8, ["test2d_c", "-g", "128", "128", "-n", "100"]⟩,
   ⟨.f90, true, 8, ["test3d_f90", "-g", "64", "64", "64", "-n", "50"]⟩,
   ⟨.f90, false, 8, ["test2d_f90", "-g", "128", "128", "-n", "100"]⟩,
   ⟨.py, true, 8, ["test3d.py", "-g", "64", "64", "64", "-n", "50"]⟩,
   ⟨.py, false, 8, ["test2d.py", "-g", "128", "128", "-n", "100"]⟩]

end RunSh

end FftMpi
