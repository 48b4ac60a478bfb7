import Mathlib.Data.Rat.Defs
import Mathlib.Logic.Function.Basic
import Verif.Wrap

/-!
# Model of the Fortran interface

The interface blocks of fft3d_wrap.f90, fft2d_wrap.f90, remap3d_wrap.f90 and remap2d_wrap.f90, as tables, and how a Fortran
compiler passes arguments to a `bind(c)` procedure: a dummy argument with `value` gets the value, any other gets the
address of the actual argument; if that is an expression, the address of a temporary variable that holds it.

The second part is `strcmp` on the memory of the caller, with which the C side looks at keywords.

Simplifications: one memory cell holds an integer, a real number, a pointer or a character.  Kinds are as in
`iso_c_binding` (`integer` is `integer(c_int)`).  `MPI_Fint` is `int`.
-/

namespace FftMpi

namespace Fortran

/-- The types of dummy arguments: `integer(c_int)`, `real(c_double)`, `type(c_ptr)`, `character(c_char) :: x(*)`. -/
inductive FTy
  | int | real | ptr | chars
deriving DecidableEq

/-- A dummy argument; `value`: it has the attribute `value`. -/
structure Dummy where
  name : String
  ty : FTy
  value : Bool
deriving DecidableEq

/-- The types of results of functions: `c_int`, `c_int64_t`, `c_double`, `c_ptr`; in C `int`, `int64_t`, `double` and pointers. -/
inductive ResTy
  | int | int64 | double | ptr
deriving DecidableEq

/-- A procedure in an interface block: its name in Fortran, in C, its result (`none`: a subroutine), its arguments. -/
structure Routine where
  name : String
  cname : String
  res : Option ResTy
  dummies : List Dummy
deriving DecidableEq

/-- The types of parameters in C: `int` and `MPI_Fint`, `double`, `const char *`, `void *`, `FFT_SCALAR *`, `int *`, `void **`. -/
inductive PTy
  | int | double | str | voidp | scalar | out | outptr
deriving DecidableEq

/-- A parameter of a C function. -/
structure Param where
  name : String
  ty : PTy
deriving DecidableEq

/-- A C function: name, result (`none`: `void`), parameters. -/
structure CFun where
  name : String
  res : Option ResTy
  params : List Param
deriving DecidableEq

/-- What a memory cell of the Fortran program holds. -/
inductive Slot
  | int (n : Int)
  | real (q : ℚ)
  | ptr (a : Int)
  | char (c : Char)
deriving DecidableEq

/-- An actual argument: the value of an expression, a variable (its address and type), or a character string (the address of
its first character). -/
inductive Actual
  | int (n : Int)
  | real (q : ℚ)
  | ptr (a : Int)
  | var (a : Int) (t : FTy)
  | chars (a : Int)
deriving DecidableEq

/-- What is handed to C. -/
inductive CVal
  | int (n : Int)
  | real (q : ℚ)
  | addr (a : Int)
deriving DecidableEq

/-- The value in a cell, as an argument. -/
def Slot.val : Slot → FTy → Option CVal
  | .int n, .int => some (.int n)
  | .real q, .real => some (.real q)
  | .ptr a, .ptr => some (.addr a)
  | _, _ => none

/-- Pass one argument.  `tmp`: the address of the next temporary variable.  `none`: not a legal program. -/
def pass (m : Mem Slot) (tmp : Int) (d : Dummy) (x : Actual) : Option (CVal × Mem Slot × Int) :=
  if d.value then
    match x, d.ty with
    | .int n, .int => some (.int n, m, tmp)
    | .real q, .real => some (.real q, m, tmp)
    | .ptr a, .ptr => some (.addr a, m, tmp)
    | .var a t, t' => if t = t' then (m a).bind fun s => (s.val t).map fun v => (v, m, tmp) else none
    | _, _ => none
  else
    match x, d.ty with
    | .int n, .int => some (.addr tmp, Function.update m tmp (some (.int n)), tmp + 1)
    | .real q, .real => some (.addr tmp, Function.update m tmp (some (.real q)), tmp + 1)
    | .ptr a, .ptr => some (.addr tmp, Function.update m tmp (some (.ptr a)), tmp + 1)
    | .var a t, t' => if t = t' then some (.addr a, m, tmp) else none
    | .chars a, .chars => some (.addr a, m, tmp)
    | _, _ => none

/-- Pass all arguments from left to right. -/
def passAll : Mem Slot → Int → List Dummy → List Actual → Option (List CVal × Mem Slot × Int)
  | m, tmp, [], [] => some ([], m, tmp)
  | m, tmp, d :: ds, x :: xs =>
    match pass m tmp d x with
    | none => none
    | some (v, m', tmp') =>
      match passAll m' tmp' ds xs with
      | none => none
      | some (vs, m'', tmp'') => some (v :: vs, m'', tmp'')
  | _, _, _, _ => none

/-! ## Tables -/

/-- fft3d_wrap.f90:20-148. -/
def interface3 : List Routine :=
  [{ name := "fft3d_create", cname := "fft3d_create_fortran", res := none, dummies := [
       ⟨"comm", .int, true⟩, ⟨"precision", .int, true⟩, ⟨"ptr", .ptr, false⟩] },
   { name := "fft3d_destroy", cname := "fft3d_destroy", res := none, dummies := [
       ⟨"ptr", .ptr, true⟩] },
   { name := "fft3d_set", cname := "fft3d_set", res := none, dummies := [
       ⟨"ptr", .ptr, true⟩, ⟨"keyword", .chars, false⟩, ⟨"value", .int, true⟩] },
   { name := "fft3d_get_int", cname := "fft3d_get_int", res := some .int, dummies := [
       ⟨"ptr", .ptr, true⟩, ⟨"keyword", .chars, false⟩] },
   { name := "fft3d_get_double", cname := "fft3d_get_double", res := some .double, dummies := [
       ⟨"ptr", .ptr, true⟩, ⟨"keyword", .chars, false⟩] },
   { name := "fft3d_get_int64", cname := "fft3d_get_int64", res := some .int64, dummies := [
       ⟨"ptr", .ptr, true⟩, ⟨"keyword", .chars, false⟩] },
   { name := "fft3d_get_string", cname := "fft3d_get_string", res := some .ptr, dummies := [
       ⟨"ptr", .ptr, true⟩, ⟨"keyword", .chars, false⟩, ⟨"len", .int, false⟩] },
   { name := "fft3d_get_int_vector", cname := "fft3d_get_int_vector", res := some .ptr, dummies := [
       ⟨"ptr", .ptr, true⟩, ⟨"keyword", .chars, false⟩, ⟨"len", .int, false⟩] },
   { name := "fft3d_get_double_vector", cname := "fft3d_get_double_vector", res := some .ptr, dummies := [
       ⟨"ptr", .ptr, true⟩, ⟨"keyword", .chars, false⟩, ⟨"len", .int, false⟩] },
   { name := "fft3d_setup", cname := "fft3d_setup_fortran", res := none, dummies := [
       ⟨"ptr", .ptr, true⟩, ⟨"nfast", .int, true⟩, ⟨"nmid", .int, true⟩, ⟨"nslow", .int, true⟩,
       ⟨"in_ilo", .int, true⟩, ⟨"in_ihi", .int, true⟩, ⟨"in_jlo", .int, true⟩, ⟨"in_jhi", .int, true⟩,
       ⟨"in_klo", .int, true⟩, ⟨"in_khi", .int, true⟩, ⟨"out_ilo", .int, true⟩, ⟨"out_ihi", .int, true⟩,
       ⟨"out_jlo", .int, true⟩, ⟨"out_jhi", .int, true⟩, ⟨"out_klo", .int, true⟩, ⟨"out_khi", .int, true⟩,
       ⟨"permute", .int, true⟩, ⟨"fftsize", .int, false⟩, ⟨"sendsize", .int, false⟩, ⟨"recvsize", .int, false⟩] },
   { name := "fft3d_setup_memory", cname := "fft3d_setup_memory", res := none, dummies := [
       ⟨"ptr", .ptr, true⟩, ⟨"sendbuf", .ptr, false⟩, ⟨"recvbuf", .ptr, false⟩] },
   { name := "fft3d_compute", cname := "fft3d_compute", res := none, dummies := [
       ⟨"ptr", .ptr, true⟩, ⟨"in", .ptr, true⟩, ⟨"out", .ptr, true⟩, ⟨"flag", .int, true⟩] },
   { name := "fft3d_only_1d_ffts", cname := "fft3d_only_1d_ffts", res := none, dummies := [
       ⟨"ptr", .ptr, true⟩, ⟨"in", .ptr, true⟩, ⟨"flag", .int, true⟩] },
   { name := "fft3d_only_remaps", cname := "fft3d_only_remaps", res := none, dummies := [
       ⟨"ptr", .ptr, true⟩, ⟨"in", .ptr, true⟩, ⟨"out", .ptr, true⟩, ⟨"flag", .int, true⟩] },
   { name := "fft3d_only_one_remap", cname := "fft3d_only_one_remap", res := none, dummies := [
       ⟨"ptr", .ptr, true⟩, ⟨"in", .ptr, true⟩, ⟨"out", .ptr, true⟩, ⟨"flag", .int, true⟩, ⟨"which", .int, true⟩] },
   { name := "fft3d_tune", cname := "fft3d_tune_fortran", res := none, dummies := [
       ⟨"ptr", .ptr, true⟩, ⟨"nfast", .int, true⟩, ⟨"nmid", .int, true⟩, ⟨"nslow", .int, true⟩,
       ⟨"in_ilo", .int, true⟩, ⟨"in_ihi", .int, true⟩, ⟨"in_jlo", .int, true⟩, ⟨"in_jhi", .int, true⟩,
       ⟨"in_klo", .int, true⟩, ⟨"in_khi", .int, true⟩, ⟨"out_ilo", .int, true⟩, ⟨"out_ihi", .int, true⟩,
       ⟨"out_jlo", .int, true⟩, ⟨"out_jhi", .int, true⟩, ⟨"out_klo", .int, true⟩, ⟨"out_khi", .int, true⟩,
       ⟨"permute", .int, true⟩, ⟨"fftsize", .int, false⟩, ⟨"sendsize", .int, false⟩, ⟨"recvsize", .int, false⟩,
       ⟨"flag", .int, true⟩, ⟨"niter", .int, true⟩, ⟨"tmax", .real, true⟩, ⟨"tflag", .int, true⟩] }]

/-- The functions bound there: fft3d_wrap.h:30-66, with the parameter names of fft3d_wrap.cpp. -/
def header3 : List CFun :=
  [{ name := "fft3d_create_fortran", res := none, params := [
       ⟨"fcomm", .int⟩, ⟨"precision", .int⟩, ⟨"ptr", .outptr⟩] },
   { name := "fft3d_destroy", res := none, params := [
       ⟨"ptr", .voidp⟩] },
   { name := "fft3d_set", res := none, params := [
       ⟨"ptr", .voidp⟩, ⟨"keyword", .str⟩, ⟨"value", .int⟩] },
   { name := "fft3d_get_int", res := some .int, params := [
       ⟨"ptr", .voidp⟩, ⟨"keyword", .str⟩] },
   { name := "fft3d_get_double", res := some .double, params := [
       ⟨"ptr", .voidp⟩, ⟨"keyword", .str⟩] },
   { name := "fft3d_get_int64", res := some .int64, params := [
       ⟨"ptr", .voidp⟩, ⟨"keyword", .str⟩] },
   { name := "fft3d_get_string", res := some .ptr, params := [
       ⟨"ptr", .voidp⟩, ⟨"keyword", .str⟩, ⟨"len", .out⟩] },
   { name := "fft3d_get_int_vector", res := some .ptr, params := [
       ⟨"ptr", .voidp⟩, ⟨"keyword", .str⟩, ⟨"len", .out⟩] },
   { name := "fft3d_get_double_vector", res := some .ptr, params := [
       ⟨"ptr", .voidp⟩, ⟨"keyword", .str⟩, ⟨"len", .out⟩] },
   { name := "fft3d_setup_fortran", res := none, params := [
       ⟨"ptr", .voidp⟩, ⟨"nfast", .int⟩, ⟨"nmid", .int⟩, ⟨"nslow", .int⟩, ⟨"in_ilo", .int⟩, ⟨"in_ihi", .int⟩,
       ⟨"in_jlo", .int⟩, ⟨"in_jhi", .int⟩, ⟨"in_klo", .int⟩, ⟨"in_khi", .int⟩, ⟨"out_ilo", .int⟩,
       ⟨"out_ihi", .int⟩, ⟨"out_jlo", .int⟩, ⟨"out_jhi", .int⟩, ⟨"out_klo", .int⟩, ⟨"out_khi", .int⟩,
       ⟨"permute", .int⟩, ⟨"fftsize_caller", .out⟩, ⟨"sendsize_caller", .out⟩, ⟨"recvsize_caller", .out⟩] },
   { name := "fft3d_setup_memory", res := none, params := [
       ⟨"ptr", .voidp⟩, ⟨"sendbuf", .scalar⟩, ⟨"recvbuf", .scalar⟩] },
   { name := "fft3d_compute", res := none, params := [
       ⟨"ptr", .voidp⟩, ⟨"in", .scalar⟩, ⟨"out", .scalar⟩, ⟨"flag", .int⟩] },
   { name := "fft3d_only_1d_ffts", res := none, params := [
       ⟨"ptr", .voidp⟩, ⟨"in", .scalar⟩, ⟨"flag", .int⟩] },
   { name := "fft3d_only_remaps", res := none, params := [
       ⟨"ptr", .voidp⟩, ⟨"in", .scalar⟩, ⟨"out", .scalar⟩, ⟨"flag", .int⟩] },
   { name := "fft3d_only_one_remap", res := none, params := [
       ⟨"ptr", .voidp⟩, ⟨"in", .scalar⟩, ⟨"out", .scalar⟩, ⟨"flag", .int⟩, ⟨"which", .int⟩] },
   { name := "fft3d_tune_fortran", res := none, params := [
       ⟨"ptr", .voidp⟩, ⟨"nfast", .int⟩, ⟨"nmid", .int⟩, ⟨"nslow", .int⟩, ⟨"in_ilo", .int⟩, ⟨"in_ihi", .int⟩,
       ⟨"in_jlo", .int⟩, ⟨"in_jhi", .int⟩, ⟨"in_klo", .int⟩, ⟨"in_khi", .int⟩, ⟨"out_ilo", .int⟩,
       ⟨"out_ihi", .int⟩, ⟨"out_jlo", .int⟩, ⟨"out_jhi", .int⟩, ⟨"out_klo", .int⟩, ⟨"out_khi", .int⟩,
       ⟨"permute", .int⟩, ⟨"fftsize_caller", .out⟩, ⟨"sendsize_caller", .out⟩, ⟨"recvsize_caller", .out⟩,
       ⟨"flag", .int⟩, ⟨"niter", .int⟩, ⟨"tmax", .double⟩, ⟨"tflag", .int⟩] }]

/-- fft2d_wrap.f90:20-148. -/
def interface2 : List Routine :=
  [{ name := "fft2d_create", cname := "fft2d_create_fortran", res := none, dummies := [
       ⟨"comm", .int, true⟩, ⟨"precision", .int, true⟩, ⟨"ptr", .ptr, false⟩] },
   { name := "fft2d_destroy", cname := "fft2d_destroy", res := none, dummies := [
       ⟨"ptr", .ptr, true⟩] },
   { name := "fft2d_set", cname := "fft2d_set", res := none, dummies := [
       ⟨"ptr", .ptr, true⟩, ⟨"keyword", .chars, false⟩, ⟨"value", .int, true⟩] },
   { name := "fft2d_get_int", cname := "fft2d_get_int", res := some .int, dummies := [
       ⟨"ptr", .ptr, true⟩, ⟨"keyword", .chars, false⟩] },
   { name := "fft2d_get_double", cname := "fft2d_get_double", res := some .double, dummies := [
       ⟨"ptr", .ptr, true⟩, ⟨"keyword", .chars, false⟩] },
   { name := "fft2d_get_int64", cname := "fft2d_get_int64", res := some .int64, dummies := [
       ⟨"ptr", .ptr, true⟩, ⟨"keyword", .chars, false⟩] },
   { name := "fft2d_get_string", cname := "fft2d_get_string", res := some .ptr, dummies := [
       ⟨"ptr", .ptr, true⟩, ⟨"keyword", .chars, false⟩, ⟨"len", .int, false⟩] },
   { name := "fft2d_get_int_vector", cname := "fft2d_get_int_vector", res := some .ptr, dummies := [
       ⟨"ptr", .ptr, true⟩, ⟨"keyword", .chars, false⟩, ⟨"len", .int, false⟩] },
   { name := "fft2d_get_double_vector", cname := "fft2d_get_double_vector", res := some .ptr, dummies := [
       ⟨"ptr", .ptr, true⟩, ⟨"keyword", .chars, false⟩, ⟨"len", .int, false⟩] },
   { name := "fft2d_setup", cname := "fft2d_setup_fortran", res := none, dummies := [
       ⟨"ptr", .ptr, true⟩, ⟨"nfast", .int, true⟩, ⟨"nslow", .int, true⟩, ⟨"in_ilo", .int, true⟩,
       ⟨"in_ihi", .int, true⟩, ⟨"in_jlo", .int, true⟩, ⟨"in_jhi", .int, true⟩, ⟨"out_ilo", .int, true⟩,
       ⟨"out_ihi", .int, true⟩, ⟨"out_jlo", .int, true⟩, ⟨"out_jhi", .int, true⟩, ⟨"permute", .int, true⟩,
       ⟨"fftsize", .int, false⟩, ⟨"sendsize", .int, false⟩, ⟨"recvsize", .int, false⟩] },
   { name := "fft2d_setup_memory", cname := "fft2d_setup_memory", res := none, dummies := [
       ⟨"ptr", .ptr, true⟩, ⟨"sendbuf", .ptr, false⟩, ⟨"recvbuf", .ptr, false⟩] },
   { name := "fft2d_compute", cname := "fft2d_compute", res := none, dummies := [
       ⟨"ptr", .ptr, true⟩, ⟨"in", .ptr, true⟩, ⟨"out", .ptr, true⟩, ⟨"flag", .int, true⟩] },
   { name := "fft2d_only_1d_ffts", cname := "fft2d_only_1d_ffts", res := none, dummies := [
       ⟨"ptr", .ptr, true⟩, ⟨"in", .ptr, true⟩, ⟨"flag", .int, true⟩] },
   { name := "fft2d_only_remaps", cname := "fft2d_only_remaps", res := none, dummies := [
       ⟨"ptr", .ptr, true⟩, ⟨"in", .ptr, true⟩, ⟨"out", .ptr, true⟩, ⟨"flag", .int, true⟩] },
   { name := "fft2d_only_one_remap", cname := "fft2d_only_one_remap", res := none, dummies := [
       ⟨"ptr", .ptr, true⟩, ⟨"in", .ptr, true⟩, ⟨"out", .ptr, true⟩, ⟨"flag", .int, true⟩, ⟨"which", .int, true⟩] },
   { name := "fft2d_tune", cname := "fft2d_tune_fortran", res := none, dummies := [
       ⟨"ptr", .ptr, true⟩, ⟨"nfast", .int, true⟩, ⟨"nslow", .int, true⟩, ⟨"in_ilo", .int, true⟩,
       ⟨"in_ihi", .int, true⟩, ⟨"in_jlo", .int, true⟩, ⟨"in_jhi", .int, true⟩, ⟨"out_ilo", .int, true⟩,
       ⟨"out_ihi", .int, true⟩, ⟨"out_jlo", .int, true⟩, ⟨"out_jhi", .int, true⟩, ⟨"permute", .int, true⟩,
       ⟨"fftsize", .int, false⟩, ⟨"sendsize", .int, false⟩, ⟨"recvsize", .int, false⟩, ⟨"flag", .int, true⟩,
       ⟨"niter", .int, true⟩, ⟨"tmax", .real, true⟩, ⟨"tflag", .int, true⟩] }]

/-- The functions bound there: fft2d_wrap.h, fft2d_wrap.cpp. -/
def header2 : List CFun :=
  [{ name := "fft2d_create_fortran", res := none, params := [
       ⟨"fcomm", .int⟩, ⟨"precision", .int⟩, ⟨"ptr", .outptr⟩] },
   { name := "fft2d_destroy", res := none, params := [
       ⟨"ptr", .voidp⟩] },
   { name := "fft2d_set", res := none, params := [
       ⟨"ptr", .voidp⟩, ⟨"keyword", .str⟩, ⟨"value", .int⟩] },
   { name := "fft2d_get_int", res := some .int, params := [
       ⟨"ptr", .voidp⟩, ⟨"keyword", .str⟩] },
   { name := "fft2d_get_double", res := some .double, params := [
       ⟨"ptr", .voidp⟩, ⟨"keyword", .str⟩] },
   { name := "fft2d_get_int64", res := some .int64, params := [
       ⟨"ptr", .voidp⟩, ⟨"keyword", .str⟩] },
   { name := "fft2d_get_string", res := some .ptr, params := [
       ⟨"ptr", .voidp⟩, ⟨"keyword", .str⟩, ⟨"len", .out⟩] },
   { name := "fft2d_get_int_vector", res := some .ptr, params := [
       ⟨"ptr", .voidp⟩, ⟨"keyword", .str⟩, ⟨"len", .out⟩] },
   { name := "fft2d_get_double_vector", res := some .ptr, params := [
       ⟨"ptr", .voidp⟩, ⟨"keyword", .str⟩, ⟨"len", .out⟩] },
   { name := "fft2d_setup_fortran", res := none, params := [
       ⟨"ptr", .voidp⟩, ⟨"nfast", .int⟩, ⟨"nslow", .int⟩, ⟨"in_ilo", .int⟩, ⟨"in_ihi", .int⟩, ⟨"in_jlo", .int⟩,
       ⟨"in_jhi", .int⟩, ⟨"out_ilo", .int⟩, ⟨"out_ihi", .int⟩, ⟨"out_jlo", .int⟩, ⟨"out_jhi", .int⟩,
       ⟨"permute", .int⟩, ⟨"fftsize_caller", .out⟩, ⟨"sendsize_caller", .out⟩, ⟨"recvsize_caller", .out⟩] },
   { name := "fft2d_setup_memory", res := none, params := [
       ⟨"ptr", .voidp⟩, ⟨"sendbuf", .scalar⟩, ⟨"recvbuf", .scalar⟩] },
   { name := "fft2d_compute", res := none, params := [
       ⟨"ptr", .voidp⟩, ⟨"in", .scalar⟩, ⟨"out", .scalar⟩, ⟨"flag", .int⟩] },
   { name := "fft2d_only_1d_ffts", res := none, params := [
       ⟨"ptr", .voidp⟩, ⟨"in", .scalar⟩, ⟨"flag", .int⟩] },
   { name := "fft2d_only_remaps", res := none, params := [
       ⟨"ptr", .voidp⟩, ⟨"in", .scalar⟩, ⟨"out", .scalar⟩, ⟨"flag", .int⟩] },
   { name := "fft2d_only_one_remap", res := none, params := [
       ⟨"ptr", .voidp⟩, ⟨"in", .scalar⟩, ⟨"out", .scalar⟩, ⟨"flag", .int⟩, ⟨"which", .int⟩] },
   { name := "fft2d_tune_fortran", res := none, params := [
       ⟨"ptr", .voidp⟩, ⟨"nfast", .int⟩, ⟨"nslow", .int⟩, ⟨"in_ilo", .int⟩, ⟨"in_ihi", .int⟩, ⟨"in_jlo", .int⟩,
       ⟨"in_jhi", .int⟩, ⟨"out_ilo", .int⟩, ⟨"out_ihi", .int⟩, ⟨"out_jlo", .int⟩, ⟨"out_jhi", .int⟩,
       ⟨"permute", .int⟩, ⟨"fftsize_caller", .out⟩, ⟨"sendsize_caller", .out⟩, ⟨"recvsize_caller", .out⟩,
       ⟨"flag", .int⟩, ⟨"niter", .int⟩, ⟨"tmax", .double⟩, ⟨"tflag", .int⟩] }]

/-- remap3d_wrap.f90:20-56. -/
def interfaceR3 : List Routine :=
  [{ name := "remap3d_create", cname := "remap3d_create_fortran", res := none, dummies := [
       ⟨"comm", .int, true⟩, ⟨"ptr", .ptr, false⟩] },
   { name := "remap3d_destroy", cname := "remap3d_destroy", res := none, dummies := [
       ⟨"ptr", .ptr, true⟩] },
   { name := "remap3d_set", cname := "remap3d_set", res := none, dummies := [
       ⟨"ptr", .ptr, true⟩, ⟨"keyword", .chars, false⟩, ⟨"value", .int, true⟩] },
   { name := "remap3d_setup", cname := "remap3d_setup_fortran", res := none, dummies := [
       ⟨"ptr", .ptr, true⟩, ⟨"in_ilo", .int, true⟩, ⟨"in_ihi", .int, true⟩, ⟨"in_jlo", .int, true⟩,
       ⟨"in_jhi", .int, true⟩, ⟨"in_klo", .int, true⟩, ⟨"in_khi", .int, true⟩, ⟨"out_ilo", .int, true⟩,
       ⟨"out_ihi", .int, true⟩, ⟨"out_jlo", .int, true⟩, ⟨"out_jhi", .int, true⟩, ⟨"out_klo", .int, true⟩,
       ⟨"out_khi", .int, true⟩, ⟨"nqty", .int, true⟩, ⟨"permute", .int, true⟩, ⟨"memoryflag", .int, true⟩,
       ⟨"sendsize", .int, false⟩, ⟨"recvsize", .int, false⟩] },
   { name := "remap3d_remap", cname := "remap3d_remap", res := none, dummies := [
       ⟨"ptr", .ptr, true⟩, ⟨"in", .ptr, true⟩, ⟨"out", .ptr, true⟩, ⟨"sendbuf", .ptr, true⟩,
       ⟨"recvbuf", .ptr, true⟩] }]

/-- remap3d_wrap.h:30-43, remap3d_wrap.cpp. -/
def headerR3 : List CFun :=
  [{ name := "remap3d_create_fortran", res := none, params := [
       ⟨"fcomm", .int⟩, ⟨"ptr", .outptr⟩] },
   { name := "remap3d_destroy", res := none, params := [
       ⟨"ptr", .voidp⟩] },
   { name := "remap3d_set", res := none, params := [
       ⟨"ptr", .voidp⟩, ⟨"keyword", .str⟩, ⟨"value", .int⟩] },
   { name := "remap3d_setup_fortran", res := none, params := [
       ⟨"ptr", .voidp⟩, ⟨"in_ilo", .int⟩, ⟨"in_ihi", .int⟩, ⟨"in_jlo", .int⟩, ⟨"in_jhi", .int⟩, ⟨"in_klo", .int⟩,
       ⟨"in_khi", .int⟩, ⟨"out_ilo", .int⟩, ⟨"out_ihi", .int⟩, ⟨"out_jlo", .int⟩, ⟨"out_jhi", .int⟩,
       ⟨"out_klo", .int⟩, ⟨"out_khi", .int⟩, ⟨"nqty", .int⟩, ⟨"permute", .int⟩, ⟨"memoryflag", .int⟩,
       ⟨"sendsize", .out⟩, ⟨"recvsize", .out⟩] },
   { name := "remap3d_remap", res := none, params := [
       ⟨"ptr", .voidp⟩, ⟨"in", .scalar⟩, ⟨"out", .scalar⟩, ⟨"sendbuf", .scalar⟩, ⟨"recvbuf", .scalar⟩] }]

/-- remap2d_wrap.f90:20-56. -/
def interfaceR2 : List Routine :=
  [{ name := "remap2d_create", cname := "remap2d_create_fortran", res := none, dummies := [
       ⟨"comm", .int, true⟩, ⟨"ptr", .ptr, false⟩] },
   { name := "remap2d_destroy", cname := "remap2d_destroy", res := none, dummies := [
       ⟨"ptr", .ptr, true⟩] },
   { name := "remap2d_set", cname := "remap2d_set", res := none, dummies := [
       ⟨"ptr", .ptr, true⟩, ⟨"keyword", .chars, false⟩, ⟨"value", .int, true⟩] },
   { name := "remap2d_setup", cname := "remap2d_setup_fortran", res := none, dummies := [
       ⟨"ptr", .ptr, true⟩, ⟨"in_ilo", .int, true⟩, ⟨"in_ihi", .int, true⟩, ⟨"in_jlo", .int, true⟩,
       ⟨"in_jhi", .int, true⟩, ⟨"out_ilo", .int, true⟩, ⟨"out_ihi", .int, true⟩, ⟨"out_jlo", .int, true⟩,
       ⟨"out_jhi", .int, true⟩, ⟨"nqty", .int, true⟩, ⟨"permute", .int, true⟩, ⟨"memoryflag", .int, true⟩,
       ⟨"sendsize", .int, false⟩, ⟨"recvsize", .int, false⟩] },
   { name := "remap2d_remap", cname := "remap2d_remap", res := none, dummies := [
       ⟨"ptr", .ptr, true⟩, ⟨"in", .ptr, true⟩, ⟨"out", .ptr, true⟩, ⟨"sendbuf", .ptr, true⟩,
       ⟨"recvbuf", .ptr, true⟩] }]

/-- remap2d_wrap.h, remap2d_wrap.cpp. -/
def headerR2 : List CFun :=
  [{ name := "remap2d_create_fortran", res := none, params := [
       ⟨"fcomm", .int⟩, ⟨"ptr", .outptr⟩] },
   { name := "remap2d_destroy", res := none, params := [
       ⟨"ptr", .voidp⟩] },
   { name := "remap2d_set", res := none, params := [
       ⟨"ptr", .voidp⟩, ⟨"keyword", .str⟩, ⟨"value", .int⟩] },
   { name := "remap2d_setup_fortran", res := none, params := [
       ⟨"ptr", .voidp⟩, ⟨"in_ilo", .int⟩, ⟨"in_ihi", .int⟩, ⟨"in_jlo", .int⟩, ⟨"in_jhi", .int⟩, ⟨"out_ilo", .int⟩,
       ⟨"out_ihi", .int⟩, ⟨"out_jlo", .int⟩, ⟨"out_jhi", .int⟩, ⟨"nqty", .int⟩, ⟨"permute", .int⟩,
       ⟨"memoryflag", .int⟩, ⟨"sendsize", .out⟩, ⟨"recvsize", .out⟩] },
   { name := "remap2d_remap", res := none, params := [
       ⟨"ptr", .voidp⟩, ⟨"in", .scalar⟩, ⟨"out", .scalar⟩, ⟨"sendbuf", .scalar⟩, ⟨"recvbuf", .scalar⟩] }]

/-- All of them. -/
def interfaces : List Routine := interface3 ++ interface2 ++ interfaceR3 ++ interfaceR2

/-- All of them. -/
def headers : List CFun := header3 ++ header2 ++ headerR3 ++ headerR2

/-! ## Keywords -/

/-- `strcmp(a,"...") == 0`, where the characters of the literal are given: compares from left to right until two characters
differ or the literal with its final NUL is read.  `none`: reads outside the memory. -/
def strEq (m : Mem Char) : Int → List Char → Option Bool
  | a, [] => (m a).map fun x => decide (x = '\x00')
  | a, c :: r =>
    match m a with
    | none => none
    | some x => if x = c then strEq m (a + 1) r else some false

/-- `if (strcmp(keyword,"k1") == 0) v1 else if (strcmp(keyword,"k2") == 0) v2 ... else d`. -/
def pick {α : Type} (m : Mem Char) (a : Int) : List (String × α) → α → Option α
  | [], d => some d
  | (s, v) :: r, d =>
    match strEq m a s.toList with
    | none => none
    | some true => some v
    | some false => pick m a r d

/-- `fft3d_set`, fft3d_wrap.cpp:64-74. -/
def set3 (m : Mem Char) (a : Int) (f : Pub3) (value : Int) : Option Pub3 :=
  pick m a
    [("collective", { f with collective := value }), ("exchange", { f with exchange := value }),
     ("pack", { f with packflag := value }), ("memory", { f with memoryflag := value }),
     ("scale", { f with scaled := value }), ("remaponly", { f with remaponly := value })] f

/-- `fft3d_get_int`, fft3d_wrap.cpp:80-103. -/
def getInt3 (m : Mem Char) (a : Int) (f : Pub3) : Option (Option Int) :=
  pick m a
    [("collective", some f.collective), ("exchange", some f.exchange), ("pack", some f.packflag),
     ("npfast1", f.npfast1), ("npfast2", f.npfast2), ("npfast3", f.npfast3),
     ("npmid1", f.npmid1), ("npmid2", f.npmid2), ("npmid3", f.npmid3),
     ("npslow1", f.npslow1), ("npslow2", f.npslow2), ("npslow3", f.npslow3),
     ("npbrick1", f.npbrick1), ("npbrick2", f.npbrick2), ("npbrick3", f.npbrick3),
     ("ntrial", f.ntrial), ("npertrial", f.npertrial)] (some (-1))

/-- `fft3d_get_double`, fft3d_wrap.cpp:109-116. -/
def getDouble3 (m : Mem Char) (a : Int) (f : Pub3) : Option (Option ℚ) :=
  pick m a [("setuptime", f.setuptime)] (some (-1))

/-- `fft3d_get_int64`, fft3d_wrap.cpp:122-129. -/
def getInt643 (m : Mem Char) (a : Int) (f : Pub3) : Option Int :=
  pick m a [("memusage", f.memusage)] (-1)

/-- `fft3d_get_string`, fft3d_wrap.cpp:135-148. -/
def getString3 (m : Mem Char) (a : Int) (f : Pub3) : Option (Option (String × Nat)) :=
  pick m a [("fft1d", some (f.fft1d, f.fft1d.length)), ("precision", some (f.precision, f.precision.length))] none

/-- `fft3d_get_int_vector`, fft3d_wrap.cpp:154-165. -/
def getIntVector3 (m : Mem Char) (a : Int) (f : Pub3) : Option (Option (Nat → Option Int) × Option Int) :=
  (pick m a [("cflags", some f.cflags), ("eflags", some f.eflags), ("pflags", some f.pflags)] none).map fun v => (v, f.ntrial)

/-- `fft3d_get_double_vector`, fft3d_wrap.cpp:171-186. -/
def getDoubleVector3 (m : Mem Char) (a : Int) (f : Pub3) : Option (Option (Nat → Option ℚ) × Option Int) :=
  (pick m a
    [("tfft", some f.tfft), ("t1d", some f.t1d), ("tremap", some f.tremap), ("tremap1", some f.tremap1),
     ("tremap2", some f.tremap2), ("tremap3", some f.tremap3), ("tremap4", some f.tremap4)] none).map fun v => (v, f.ntrial)

/-- `fft2d_set`, fft2d_wrap.cpp:63-73. -/
def set2 (m : Mem Char) (a : Int) (f : Pub2) (value : Int) : Option Pub2 :=
  pick m a
    [("collective", { f with collective := value }), ("exchange", { f with exchange := value }),
     ("pack", { f with packflag := value }), ("memory", { f with memoryflag := value }),
     ("scale", { f with scaled := value }), ("remaponly", { f with remaponly := value })] f

/-- `fft2d_get_int`, fft2d_wrap.cpp:79-96. -/
def getInt2 (m : Mem Char) (a : Int) (f : Pub2) : Option (Option Int) :=
  pick m a
    [("collective", some f.collective), ("exchange", some f.exchange), ("pack", some f.packflag),
     ("npfast1", f.npfast1), ("npfast2", f.npfast2),
     ("npslow1", f.npslow1), ("npslow2", f.npslow2),
     ("npbrick1", f.npbrick1), ("npbrick2", f.npbrick2),
     ("ntrial", f.ntrial), ("npertrial", f.npertrial)] (some (-1))

/-- `fft2d_get_double`, fft2d_wrap.cpp:102-109. -/
def getDouble2 (m : Mem Char) (a : Int) (f : Pub2) : Option (Option ℚ) :=
  pick m a [("setuptime", f.setuptime)] (some (-1))

/-- `fft2d_get_int64`, fft2d_wrap.cpp:115-122. -/
def getInt642 (m : Mem Char) (a : Int) (f : Pub2) : Option Int :=
  pick m a [("memusage", f.memusage)] (-1)

/-- `fft2d_get_string`, fft2d_wrap.cpp:128-141. -/
def getString2 (m : Mem Char) (a : Int) (f : Pub2) : Option (Option (String × Nat)) :=
  pick m a [("fft1d", some (f.fft1d, f.fft1d.length)), ("precision", some (f.precision, f.precision.length))] none

/-- `fft2d_get_int_vector`, fft2d_wrap.cpp:147-158. -/
def getIntVector2 (m : Mem Char) (a : Int) (f : Pub2) : Option (Option (Nat → Option Int) × Option Int) :=
  (pick m a [("cflags", some f.cflags), ("eflags", some f.eflags), ("pflags", some f.pflags)] none).map fun v => (v, f.ntrial)

/-- `fft2d_get_double_vector`, fft2d_wrap.cpp:164-178. -/
def getDoubleVector2 (m : Mem Char) (a : Int) (f : Pub2) : Option (Option (Nat → Option ℚ) × Option Int) :=
  (pick m a
    [("tfft", some f.tfft), ("t1d", some f.t1d), ("tremap", some f.tremap), ("tremap1", some f.tremap1),
     ("tremap2", some f.tremap2), ("tremap3", some f.tremap3)] none).map fun v => (v, f.ntrial)

/-- `remap3d_set`, remap3d_wrap.cpp:63-69, and `remap2d_set`, remap2d_wrap.cpp:63-69. -/
def setRemap (m : Mem Char) (a : Int) (f : PubRemap) (value : Int) : Option PubRemap :=
  pick m a [("collective", { f with collective := value }), ("pack", { f with packflag := value })] f

end Fortran

end FftMpi
