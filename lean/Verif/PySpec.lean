import Verif.Py
import Verif.Wrap
import Verif.Tune

/-!
# Specification of the Python interface

What a Python program can do with an FFT object, and the C call that each use stands for.
-/

namespace FftMpi

namespace Py

/-! ## The C library -/

/-- A C function changes only the ctypes objects that it gets a pointer to. -/
def Lib.Frame (lib : Lib) : Prop :=
  ∀ hist f args cells c, .cell c ∉ args → (lib.call hist f args cells).2 c = cells c

/-- A C function returns what its prototype says, fft3d_wrap.h:35-41, fft2d_wrap.h:35-41; the string may be `NULL`. -/
structure Lib.Typed (lib : Lib) (fam : String) : Prop where
  getInt : ∀ hist args cells, ∃ n, (lib.call hist ⟨fam, "get_int"⟩ args cells).1 = .int n
  getInt64 : ∀ hist args cells, ∃ n, (lib.call hist ⟨fam, "get_int64"⟩ args cells).1 = .int n
  getDouble : ∀ hist args cells, ∃ q, (lib.call hist ⟨fam, "get_double"⟩ args cells).1 = .double q
  getString : ∀ hist args cells, (∃ s, (lib.call hist ⟨fam, "get_string"⟩ args cells).1 = .str s) ∨
    (lib.call hist ⟨fam, "get_string"⟩ args cells).1 = .ptr 0
  getIntVector : ∀ hist args cells, ∃ a, (lib.call hist ⟨fam, "get_int_vector"⟩ args cells).1 = .ptr a
  getDoubleVector : ∀ hist args cells, ∃ a, (lib.call hist ⟨fam, "get_double_vector"⟩ args cells).1 = .ptr a

/-! ## Uses of an FFT object -/

/-- The grid and layout parameters in the order of the C prototypes, fft3d_wrap.h. -/
def ints3 (x : Raw3) : List Int :=
  [x.nfast, x.nmid, x.nslow, x.in_ilo, x.in_ihi, x.in_jlo, x.in_jhi, x.in_klo, x.in_khi,
   x.out_ilo, x.out_ihi, x.out_jlo, x.out_jhi, x.out_klo, x.out_khi, x.permute]

/-- The grid and layout parameters in the order of the C prototypes, fft2d_wrap.h. -/
def ints2 (x : Raw2) : List Int :=
  [x.nfast, x.nslow, x.in_ilo, x.in_ihi, x.in_jlo, x.in_jhi, x.out_ilo, x.out_ihi, x.out_jlo,
   x.out_jhi, x.permute]

/-- What a Python program can do with an FFT object of dimension 3 (`L = Raw3`) or 2 (`L = Raw2`); arrays are given by
their addresses. -/
inductive Use (L : Type)
  | set (keyword : String) (value : Int)
  | getInt (keyword : String)
  | getInt64 (keyword : String)
  | getDouble (keyword : String)
  | getString (keyword : String)
  | getIntVector (keyword : String)
  | getDoubleVector (keyword : String)
  | setup (x : L)
  | compute (indata outdata flag : Int)
  | only1d (indata flag : Int)
  | onlyRemaps (indata outdata flag : Int)
  | onlyOne (indata outdata flag which : Int)
  | tune (x : L) (w : TuneArgs)

/-- The method and its arguments. -/
def Use.python {L : Type} (fam : String) (layout : List String) (ints : L → List Int) : Use L → Method × List Val
  | .set s v => (setMethod fam "fft", [.str s, .int v])
  | .getInt s => (getIntMethod fam, [.str s])
  | .getInt64 s => (getInt64Method fam, [.str s])
  | .getDouble s => (getDoubleMethod fam, [.str s])
  | .getString s => (getStringMethod fam, [.str s])
  | .getIntVector s => (getIntVectorMethod fam, [.str s])
  | .getDoubleVector s => (getDoubleVectorMethod fam, [.str s])
  | .setup x => (setupMethod fam layout, (ints x).map .int)
  | .compute a b flag => (computeMethod fam, [.array a, .array b, .int flag])
  | .only1d a flag => (only1dMethod fam, [.array a, .int flag])
  | .onlyRemaps a b flag => (onlyRemapsMethod fam, [.array a, .array b, .int flag])
  | .onlyOne a b flag which => (onlyOneMethod fam, [.array a, .array b, .int flag, .int which])
  | .tune x w =>
    (tuneMethod fam layout, (ints x).map .int ++ [.int w.flag, .int w.niter, .float w.tmax, .int w.tflag])

/-- The C function of the same name. -/
def Use.name {L : Type} : Use L → String
  | .set _ _ => "set"
  | .getInt _ => "get_int"
  | .getInt64 _ => "get_int64"
  | .getDouble _ => "get_double"
  | .getString _ => "get_string"
  | .getIntVector _ => "get_int_vector"
  | .getDoubleVector _ => "get_double_vector"
  | .setup _ => "setup"
  | .compute _ _ _ => "compute"
  | .only1d _ _ => "only_1d_ffts"
  | .onlyRemaps _ _ _ => "only_remaps"
  | .onlyOne _ _ _ _ => "only_one_remap"
  | .tune _ _ => "tune"

/-- The arguments that a C program would pass for the FFT at `h`; `n` is the address of the first variable for results. -/
def Use.cargs {L : Type} (ints : L → List Int) (h : Int) (n : Nat) : Use L → List CArg
  | .set s v => [.ptr h, .str s, .int v]
  | .getInt s => [.ptr h, .str s]
  | .getInt64 s => [.ptr h, .str s]
  | .getDouble s => [.ptr h, .str s]
  | .getString s => [.ptr h, .str s, .cell n]
  | .getIntVector s => [.ptr h, .str s, .cell n]
  | .getDoubleVector s => [.ptr h, .str s, .cell n]
  | .setup x => .ptr h :: (ints x).map .int ++ [.cell n, .cell (n + 1), .cell (n + 2)]
  | .compute a b flag => [.ptr h, .ptr a, .ptr b, .int flag]
  | .only1d a flag => [.ptr h, .ptr a, .int flag]
  | .onlyRemaps a b flag => [.ptr h, .ptr a, .ptr b, .int flag]
  | .onlyOne a b flag which => [.ptr h, .ptr a, .ptr b, .int flag, .int which]
  | .tune x w => .ptr h :: (ints x).map .int ++ [.cell n, .cell (n + 1), .cell (n + 2)] ++
      [.int w.flag, .int w.niter, .double w.tmax, .int w.tflag]

/-- The value for Python when the C function returned `r` and left `cells` in the variables for results. -/
def Use.result {L : Type} (n : Nat) (r : CRes) (cells : Nat → Int) : Use L → Out → Prop
  | .getInt _, o => ∃ v, r = .int v ∧ o = .ret (.int v)
  | .getInt64 _, o => ∃ v, r = .int v ∧ o = .ret (.int v)
  | .getDouble _, o => ∃ q, r = .double q ∧ o = .ret (.float q)
  | .getString _, o => (∃ t, r = .str t ∧ o = .ret (if t = "" then .none else .str t)) ∨ r = .ptr 0 ∧ o = .ret .none
  | .getIntVector _, o => ∃ a, r = .ptr a ∧ o = .ret (if a = 0 then .none else .slice .int a (cells n))
  | .getDoubleVector _, o => ∃ a, r = .ptr a ∧ o = .ret (if a = 0 then .none else .slice .double a (cells n))
  | .setup _, o => o = .tuple [.int (cells n), .int (cells (n + 1)), .int (cells (n + 2))]
  | .tune _ _, o => o = .tuple [.int (cells n), .int (cells (n + 1)), .int (cells (n + 2))]
  | _, o => o = .ret .none

/-- An `int` of C can hold it. -/
def FitsInt (n : Int) : Prop := -2 ^ 31 ≤ n ∧ n < 2 ^ 31

/-- All integers fit into C's `int`. -/
def Use.Fits {L : Type} (ints : L → List Int) : Use L → Prop
  | .set _ v => FitsInt v
  | .setup x => ∀ n ∈ ints x, FitsInt n
  | .compute _ _ flag => FitsInt flag
  | .only1d _ flag => FitsInt flag
  | .onlyRemaps _ _ flag => FitsInt flag
  | .onlyOne _ _ flag which => FitsInt flag ∧ FitsInt which
  | .tune x w => (∀ n ∈ ints x, FitsInt n) ∧ FitsInt w.flag ∧ FitsInt w.niter ∧ FitsInt w.tflag
  | _ => True

/-! ## Sequences of calls -/

/-- Call methods one after the other, until one raises an exception. -/
def runAll (lib : Lib) : List (Method × List Val) → State → State × List Out
  | [], st => (st, [])
  | c :: r, st =>
    match exec lib c.1 c.2 st with
    | (st', .raise e) => (st', [.raise e])
    | (st', .ub) => (st', [.ub])
    | (st', o) => ((runAll lib r st').1, o :: (runAll lib r st').2)

/-- Neither an exception nor undefined behaviour. -/
def Out.Normal : Out → Prop
  | .raise _ => False
  | .ub => False
  | _ => True

/-- The outcomes `os` and the C calls of uses of the FFT at `h`, one after the other: each makes exactly one call, with its
arguments, and has the outcome that belongs to the result of that call.  `hist`, `hist'`: all calls before and after. -/
def Session {L : Type} (lib : Lib) (fam : String) (ints : L → List Int) (h : Int) :
    List (Use L) → List (Fn × List CArg) → List Out → List (Fn × List CArg) → Prop
  | [], hist, os, hist' => os = [] ∧ hist' = hist
  | u :: us, hist, os, hist' =>
    ∃ o os' n cells, os = o :: os' ∧
      u.result n (lib.call hist ⟨fam, u.name⟩ (u.cargs ints h n) cells).1
        (lib.call hist ⟨fam, u.name⟩ (u.cargs ints h n) cells).2 o ∧
      Session lib fam ints h us ((⟨fam, u.name⟩, u.cargs ints h n) :: hist) os' hist'

end Py

end FftMpi
