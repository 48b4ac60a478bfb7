import Mathlib.Data.Rat.Defs
import Mathlib.Logic.Function.Basic

/-!
# Model of the Python interface

fftmpi.py (Python 2, ctypes).  The methods of the four classes are data: lists of statements of the forms that occur
there (`Stmt`), with an interpreter `exec` for them.

What is modelled of Python: a name assigned anywhere in a function, and every parameter, is local in all of it; reading
it before the assignment raises `UnboundLocalError`; any other name is looked up in the module, and raises `NameError`
if it is not there.  What is modelled of ctypes: the library has the functions of the two header files and no
others (`AttributeError`); each argument is converted by the declared `argtypes` (`ArgumentError`; `TypeError` if there
are too few); integers are reduced to 32 bits without a check; a missing `restype` means `c_int`.  A call of a C function
with arguments that its prototype does not have is undefined behaviour, an outcome of its own.

Simplifications: a numpy array is a number, its address; `data_as` does not look at its element type or size, as in
ctypes.  A communicator is a number; `MPI_Comm.from_address` (fftmpi.py:60-61, 145-146) hands it over unchanged.  Loading the
library and importing numpy and mpi4py succeed.  Strings contain no NUL.  A call with more arguments than `argtypes` is an
error (ctypes passes the rest unconverted; no method does that).  Printing is left out.
-/

namespace FftMpi

namespace Py

/-- The ctypes types that occur.  `comm` is `MPI_Comm`, fftmpi.py:60-61. -/
inductive Ty
  | int | longlong | double | float | charp | voidp | comm
  | ptr (t : Ty)
deriving DecidableEq

/-- Python values. -/
inductive Val
  | none
  | int (n : Int)
  | float (q : ℚ)
  | str (s : String)
  /-- a numpy array -/
  | array (a : Int)
  /-- an mpi4py communicator -/
  | comm (h : Int)
  /-- `c_int()`, `c_void_p()`: an object of this type at this address -/
  | cobj (t : Ty) (cell : Nat)
  /-- a `POINTER(t)` object -/
  | cptr (t : Ty) (a : Int)
  /-- `p[:n]` -/
  | slice (t : Ty) (a : Int) (n : Int)
  /-- anything else -/
  | other
deriving DecidableEq

/-- What a C function receives. -/
inductive CArg
  | int (n : Int)
  | double (q : ℚ)
  | str (s : String)
  /-- a pointer to data of the caller; 0 is `NULL` -/
  | ptr (a : Int)
  /-- a pointer to a ctypes object -/
  | cell (c : Nat)
  | comm (h : Int)
deriving DecidableEq

/-- What a C function returns. -/
inductive CRes
  | void
  | int (n : Int)
  | double (q : ℚ)
  | str (s : String)
  | ptr (a : Int)
deriving DecidableEq

/-- The parameter types in the header files.  `scalar` is `FFT_SCALAR *`, `out` is `int *`, `outptr` is `void **`. -/
inductive CTy
  | int | double | str | voidp | scalar | out | outptr | comm
deriving DecidableEq

/-- The argument is one that the parameter can take. -/
def CTy.accepts : CTy → CArg → Bool
  | .int, .int _ => true
  | .double, .double _ => true
  | .str, .str _ => true
  | .voidp, .ptr _ => true
  | .scalar, .ptr _ => true
  | .out, .cell _ => true
  | .outptr, .cell _ => true
  | .comm, .comm _ => true
  | _, _ => false

/-- As many arguments as parameters, each of the right kind. -/
def accepts : List CTy → List CArg → Bool
  | [], [] => true
  | t :: ts, x :: xs => t.accepts x && accepts ts xs
  | _, _ => false

/-- The exceptions that occur. -/
inductive Exc
  | unboundLocal | name | attribute | argument | type
  | systemExit
deriving DecidableEq

/-- How an execution ends: with a value, an exception, or undefined behaviour in C. -/
inductive Out
  | ret (v : Val)
  /-- `return x,y,...` -/
  | tuple (vs : List Val)
  | raise (e : Exc)
  | ub
deriving DecidableEq

/-- The name of a C function, `fam_name`: `fft3d_set` is `⟨"fft3d", "set"⟩`. -/
structure Fn where
  fam : String
  name : String
deriving DecidableEq

/-- A shared library: its functions with their parameters, and what they do.  What a function returns and writes can
depend on all calls before it (last one first), its arguments and the ctypes objects (`cells`). -/
structure Lib where
  proto : Fn → Option (List CTy)
  call : List (Fn × List CArg) → Fn → List CArg → (Nat → Int) → CRes × (Nat → Int)

/-- The state: attributes of `self`, ctypes objects, declarations, and all C calls so far, last one first. -/
structure State where
  attrs : String → Option Val
  cells : Nat → Int
  ncells : Nat
  argtypes : Fn → Option (List Ty)
  restype : Fn → Option (Option Ty)
  calls : List (Fn × List CArg)

/-- An argument in a call: a name, `self.name`, `byref(name)`, `byref(self.name)`. -/
inductive Atom
  | var (x : String)
  | attr (a : String)
  | byref (x : String)
  | byrefAttr (a : String)

/-- The forms of statements. -/
inductive Stmt
  /-- `self.a = x` -/
  | setAttr (a x : String)
  /-- `self.a = None` -/
  | dropAttr (a : String)
  /-- `if precision != 1 and precision != 2: ...; sys.exit()` -/
  | exitPrecision (x : String)
  /-- `self.lib = CDLL(...)` -/
  | load
  /-- `self.lib.f.argtypes = ts` -/
  | argtypes (f : Fn) (ts : List Ty)
  /-- `if precision == 1: self.lib.f.argtypes = ts1 elif precision == 2: self.lib.f.argtypes = ts2` -/
  | argtypesPrec (x : String) (f : Fn) (ts1 ts2 : List Ty)
  /-- `self.lib.f.restype = t`; `none` is Python's `None` -/
  | restype (f : Fn) (t : Option Ty)
  /-- `x = t()` -/
  | new (x : String) (t : Ty)
  /-- `self.a = t()` -/
  | newAttr (a : String) (t : Ty)
  /-- `comm_ptr = MPI._addressof(comm); x = MPI_Comm.from_address(comm_ptr)` -/
  | commValue (x comm : String)
  /-- `if "numpy" not in str(type(x)) or ...: ...; sys.exit()` -/
  | exitNumpy (xs : List String)
  /-- `if self.precision == 1: x = y.ctypes.data_as(POINTER(c_float)); ... else: x = y.ctypes.data_as(POINTER(c_double)); ...` -/
  | dataAs (xys : List (String × String))
  /-- `self.lib.f(args)` -/
  | call (f : Fn) (args : List Atom)
  /-- `x = self.lib.f(args)` -/
  | callTo (x : String) (f : Fn) (args : List Atom)
  /-- `return self.lib.f(args)` -/
  | retCall (f : Fn) (args : List Atom)
  /-- `if not bool(x): return None` -/
  | retNull (x : String)
  /-- `x = p[:n.value]` -/
  | slice (x p n : String)
  /-- `x = y.value` -/
  | value (x y : String)
  /-- `return x` -/
  | ret (x : String)
  /-- `return x,y,...` -/
  | retTuple (xs : List String)

/-- The names that a statement assigns. -/
def Stmt.assigns : Stmt → List String
  | .new x _ => [x]
  | .commValue x _ => [x]
  | .dataAs xys => xys.map Prod.fst
  | .callTo x _ _ => [x]
  | .slice x _ _ => [x]
  | .value x _ => [x]
  | _ => []

/-- A method: its parameters without `self`, and its statements. -/
structure Method where
  params : List String
  body : List Stmt

/-- The names that are local to a method. -/
def Method.locals (m : Method) : List String := m.params ++ m.body.flatMap Stmt.assigns

/-- The local variables with values. -/
abbrev Env := String → Option Val

/-- Read a name.  No name that the methods use is a global variable of the module. -/
def readVar (locals : List String) (env : Env) (x : String) : Except Exc Val :=
  if x ∈ locals then
    match env x with
    | some v => .ok v
    | none => .error .unboundLocal
  else .error .name

/-- Read `self.a`. -/
def readAttr (st : State) (a : String) : Except Exc Val :=
  match st.attrs a with
  | some v => .ok v
  | none => .error .attribute

/-- An argument before its conversion: a value, or the reference made by `byref`. -/
inductive Arg
  | val (v : Val)
  | ref (t : Ty) (cell : Nat)

/-- `byref(v)`. -/
def byref : Val → Except Exc Arg
  | .cobj t c => .ok (.ref t c)
  | _ => .error .type

def evalAtom (locals : List String) (env : Env) (st : State) : Atom → Except Exc Arg
  | .var x =>
    match readVar locals env x with
    | .error e => .error e
    | .ok v => .ok (.val v)
  | .attr a =>
    match readAttr st a with
    | .error e => .error e
    | .ok v => .ok (.val v)
  | .byref x =>
    match readVar locals env x with
    | .error e => .error e
    | .ok v => byref v
  | .byrefAttr a =>
    match readAttr st a with
    | .error e => .error e
    | .ok v => byref v

/-- All arguments from left to right. -/
def evalAll (locals : List String) (env : Env) (st : State) : List Atom → Except Exc (List Arg)
  | [] => .ok []
  | a :: r =>
    match evalAtom locals env st a with
    | .error e => .error e
    | .ok v =>
      match evalAll locals env st r with
      | .error e => .error e
      | .ok vs => .ok (v :: vs)

/-- Read names from left to right. -/
def readAll (locals : List String) (env : Env) : List String → Except Exc (List Val)
  | [] => .ok []
  | x :: r =>
    match readVar locals env x with
    | .error e => .error e
    | .ok v =>
      match readAll locals env r with
      | .error e => .error e
      | .ok vs => .ok (v :: vs)

/-- The value of a 32-bit integer made from the low bits of `n`. -/
def low32 (n : Int) : Int := (n + 2 ^ 31) % 2 ^ 32 - 2 ^ 31

/-- The conversion of one argument to the declared type.  Only what the methods need: other conversions that ctypes
allows (a string for `c_void_p` for example) are treated as errors. -/
def conv (cells : Nat → Int) : Ty → Arg → Except Exc CArg
  | .int, .val (.int n) => .ok (.int (low32 n))
  | .int, .val (.cobj .int c) => .ok (.int (cells c))
  | .double, .val (.int n) => .ok (.double n)
  | .double, .val (.float q) => .ok (.double q)
  | .charp, .val (.str s) => .ok (.str s)
  | .voidp, .val (.cobj .voidp c) => .ok (.ptr (cells c))
  | .comm, .val (.comm h) => .ok (.comm h)
  | .ptr t, .val (.cptr t' a) => if t = t' then .ok (.ptr a) else .error .argument
  | .ptr t, .ref t' c => if t = t' then .ok (.cell c) else .error .argument
  | _, _ => .error .argument

/-- The conversion of all arguments. -/
def convAll (cells : Nat → Int) : List Ty → List Arg → Except Exc (List CArg)
  | [], [] => .ok []
  | t :: ts, x :: xs =>
    match conv cells t x with
    | .error e => .error e
    | .ok y =>
      match convAll cells ts xs with
      | .error e => .error e
      | .ok ys => .ok (y :: ys)
  | _ :: _, [] => .error .type
  | [], _ :: _ => .error .argument

/-- The conversion of the result. -/
def convRes : Option Ty → CRes → Val
  | some .int, .int n => .int n
  | some .longlong, .int n => .int n
  | some .double, .double q => .float q
  | some .charp, .str s => .str s
  | some (.ptr t), .ptr a => .cptr t a
  | _, _ => .none

/-- `bool(v)`: false for the empty string, `None` and null pointers. -/
def truth : Val → Bool
  | .none => false
  | .cptr _ a => a ≠ 0
  | .str s => s ≠ ""
  | _ => true

/-- How a part of a method ends: goes on with a state and local variables, or ends the method. -/
inductive Step
  | next (st : State) (env : Env)
  | stop (st : State) (o : Out)

/-- Call a C function. -/
def callC (lib : Lib) (locals : List String) (env : Env) (st : State) (f : Fn) (args : List Atom)
    (k : State → Val → Step) : Step :=
  match readAttr st "lib" with
  | .error e => .stop st (.raise e)
  | .ok .none => .stop st (.raise .attribute)
  | .ok _ =>
    match lib.proto f with
    | none => .stop st (.raise .attribute)
    | some ps =>
      match evalAll locals env st args with
      | .error e => .stop st (.raise e)
      | .ok vs =>
        match convAll st.cells ((st.argtypes f).getD []) vs with
        | .error e => .stop st (.raise e)
        | .ok cs =>
          if accepts ps cs then
            let (r, cells) := lib.call st.calls f cs st.cells
            k { st with cells := cells, calls := (f, cs) :: st.calls } (convRes ((st.restype f).getD (some .int)) r)
          else .stop st .ub

/-- Something is an attribute of the library: `self.lib.f.argtypes = ...` looks up `f`. -/
def onLib (lib : Lib) (st : State) (f : Fn) (k : Step) : Step :=
  match readAttr st "lib" with
  | .error e => .stop st (.raise e)
  | .ok .none => .stop st (.raise .attribute)
  | .ok _ => if (lib.proto f).isSome then k else .stop st (.raise .attribute)

/-- The assignments of `dataAs`, one after the other. -/
def dataAll (locals : List String) (t : Ty) : List (String × String) → Env → Except Exc Env
  | [], env => .ok env
  | (x, y) :: r, env =>
    match readVar locals env y with
    | .error e => .error e
    | .ok (.array a) => dataAll locals t r (Function.update env x (some (.cptr t a)))
    | .ok _ => .error .attribute

/-- Every one of these is a numpy array. -/
def allNumpy (locals : List String) (env : Env) (xs : List String) : Except Exc Bool :=
  match readAll locals env xs with
  | .error e => .error e
  | .ok vs => .ok (vs.all fun v => match v with | .array _ => true | _ => false)

/-- One statement. -/
def execStmt (lib : Lib) (locals : List String) (st : State) (env : Env) : Stmt → Step
  | .setAttr a x =>
    match readVar locals env x with
    | .error e => .stop st (.raise e)
    | .ok v => .next { st with attrs := Function.update st.attrs a (some v) } env
  | .dropAttr a => .next { st with attrs := Function.update st.attrs a (some .none) } env
  | .exitPrecision x =>
    match readVar locals env x with
    | .error e => .stop st (.raise e)
    | .ok v => if v = .int 1 ∨ v = .int 2 then .next st env else .stop st (.raise .systemExit)
  | .load => .next { st with attrs := Function.update st.attrs "lib" (some .other) } env
  | .argtypes f ts =>
    onLib lib st f (.next { st with argtypes := Function.update st.argtypes f (some ts) } env)
  | .argtypesPrec x f ts1 ts2 =>
    match readVar locals env x with
    | .error e => .stop st (.raise e)
    | .ok v =>
      if v = .int 1 then onLib lib st f (.next { st with argtypes := Function.update st.argtypes f (some ts1) } env)
      else if v = .int 2 then
        onLib lib st f (.next { st with argtypes := Function.update st.argtypes f (some ts2) } env)
      else .next st env
  | .restype f t => onLib lib st f (.next { st with restype := Function.update st.restype f (some t) } env)
  | .new x t =>
    .next { st with cells := Function.update st.cells st.ncells 0, ncells := st.ncells + 1 }
      (Function.update env x (some (.cobj t st.ncells)))
  | .newAttr a t =>
    .next { st with
      cells := Function.update st.cells st.ncells 0
      ncells := st.ncells + 1
      attrs := Function.update st.attrs a (some (.cobj t st.ncells)) } env
  | .commValue x c =>
    match readVar locals env c with
    | .error e => .stop st (.raise e)
    | .ok (.comm h) => .next st (Function.update env x (some (.comm h)))
    | .ok _ => .stop st (.raise .type)
  | .exitNumpy xs =>
    match allNumpy locals env xs with
    | .error e => .stop st (.raise e)
    | .ok true => .next st env
    | .ok false => .stop st (.raise .systemExit)
  | .dataAs xys =>
    match readAttr st "precision" with
    | .error e => .stop st (.raise e)
    | .ok p =>
      match dataAll locals (if p = .int 1 then .float else .double) xys env with
      | .error e => .stop st (.raise e)
      | .ok env' => .next st env'
  | .call f args => callC lib locals env st f args fun st' _ => .next st' env
  | .callTo x f args => callC lib locals env st f args fun st' v => .next st' (Function.update env x (some v))
  | .retCall f args => callC lib locals env st f args fun st' v => .stop st' (.ret v)
  | .retNull x =>
    match readVar locals env x with
    | .error e => .stop st (.raise e)
    | .ok v => if truth v then .next st env else .stop st (.ret .none)
  | .slice x p n =>
    match readVar locals env p, readVar locals env n with
    | .ok (.cptr t a), .ok (.cobj _ c) => .next st (Function.update env x (some (.slice t a (st.cells c))))
    | .error e, _ => .stop st (.raise e)
    | .ok _, .error e => .stop st (.raise e)
    | .ok _, .ok _ => .stop st (.raise .type)
  | .value x y =>
    match readVar locals env y with
    | .error e => .stop st (.raise e)
    | .ok (.cobj _ c) => .next st (Function.update env x (some (.int (st.cells c))))
    | .ok _ => .stop st (.raise .attribute)
  | .ret x =>
    match readVar locals env x with
    | .error e => .stop st (.raise e)
    | .ok v => .stop st (.ret v)
  | .retTuple xs =>
    match readAll locals env xs with
    | .error e => .stop st (.raise e)
    | .ok vs => .stop st (.tuple vs)

/-- Statements one after the other; at the end of a function without `return` the value is `None`. -/
def execList (lib : Lib) (locals : List String) : List Stmt → State → Env → State × Out
  | [], st, _ => (st, .ret .none)
  | s :: r, st, env =>
    match execStmt lib locals st env s with
    | .next st' env' => execList lib locals r st' env'
    | .stop st' o => (st', o)

/-- The parameters get the arguments; `none` if their numbers differ. -/
def bindArgs : List String → List Val → Option Env
  | [], [] => some fun _ => none
  | x :: xs, v :: vs => (bindArgs xs vs).map fun env => Function.update env x (some v)
  | _, _ => none

/-- Call a method. -/
def exec (lib : Lib) (m : Method) (args : List Val) (st : State) : State × Out :=
  match bindArgs m.params args with
  | some env => execList lib m.locals m.body st env
  | none => (st, .raise .type)

/-- `self.name(args)`: an attribute of the instance with that name hides the method; none of the values that occur can
be called. -/
def invoke (lib : Lib) (name : String) (m : Method) (args : List Val) (st : State) : State × Out :=
  match st.attrs name with
  | some _ => (st, .raise .type)
  | none => exec lib m args st

/-! ## The classes -/

/-- The grid and layout parameters of `setup` and `tune`, fftmpi.py:192-194, 279-281. -/
def layout3 : List String :=
  ["nfast", "nmid", "nslow", "in_ilo", "in_ihi", "in_jlo", "in_jhi", "in_klo", "in_khi",
   "out_ilo", "out_ihi", "out_jlo", "out_jhi", "out_klo", "out_khi", "permute"]

/-- The same in 2d, fftmpi.py:448-449, 533-535. -/
def layout2 : List String :=
  ["nfast", "nslow", "in_ilo", "in_ihi", "in_jlo", "in_jhi", "out_ilo", "out_ihi", "out_jlo", "out_jhi", "permute"]

/-- The constructor, fftmpi.py:41-147 (`fam = "fft3d"`) and 302-403 (`fam = "fft2d"`).  `setupTys`, `tuneTys`: the
argument types of `setup` and `tune`.  Line 132 (389) declares the result of `only_remaps` a second time instead of
that of `only_one_remap`. -/
def fftInit (fam : String) (setupTys tuneTys : List Ty) : Method where
  params := ["comm", "precision"]
  body :=
    [.setAttr "precision" "precision",
     .exitPrecision "precision",
     .load,
     .argtypes ⟨fam, "create"⟩ [.comm, .int, .ptr .voidp],
     .restype ⟨fam, "create"⟩ none,
     .argtypes ⟨fam, "destroy"⟩ [.voidp],
     .restype ⟨fam, "destroy"⟩ none,
     .argtypes ⟨fam, "set"⟩ [.voidp, .charp, .int],
     .restype ⟨fam, "set"⟩ none,
     .argtypes ⟨fam, "get_int"⟩ [.voidp, .charp],
     .restype ⟨fam, "get_int"⟩ (some .int),
     .argtypes ⟨fam, "get_int64"⟩ [.voidp, .charp],
     .restype ⟨fam, "get_int64"⟩ (some .longlong),
     .argtypes ⟨fam, "get_double"⟩ [.voidp, .charp],
     .restype ⟨fam, "get_double"⟩ (some .double),
     .argtypes ⟨fam, "get_string"⟩ [.voidp, .charp, .ptr .int],
     .restype ⟨fam, "get_string"⟩ (some .charp),
     .argtypes ⟨fam, "get_int_vector"⟩ [.voidp, .charp, .ptr .int],
     .restype ⟨fam, "get_int_vector"⟩ (some (.ptr .int)),
     .argtypes ⟨fam, "get_double_vector"⟩ [.voidp, .charp, .ptr .int],
     .restype ⟨fam, "get_double_vector"⟩ (some (.ptr .double)),
     .argtypes ⟨fam, "setup"⟩ setupTys,
     .restype ⟨fam, "setup"⟩ none,
     .argtypesPrec "precision" ⟨fam, "setup_memory"⟩ [.voidp, .ptr .float, .ptr .float]
       [.voidp, .ptr .double, .ptr .double],
     .restype ⟨fam, "setup_memory"⟩ none,
     .argtypesPrec "precision" ⟨fam, "compute"⟩ [.voidp, .ptr .float, .ptr .float, .int]
       [.voidp, .ptr .double, .ptr .double, .int],
     .restype ⟨fam, "compute"⟩ none,
     .argtypesPrec "precision" ⟨fam, "only_1d_ffts"⟩ [.voidp, .ptr .float, .int] [.voidp, .ptr .double, .int],
     .restype ⟨fam, "only_1d_ffts"⟩ none,
     .argtypesPrec "precision" ⟨fam, "only_remaps"⟩ [.voidp, .ptr .float, .ptr .float, .int]
       [.voidp, .ptr .double, .ptr .double, .int],
     .restype ⟨fam, "only_remaps"⟩ none,
     .argtypesPrec "precision" ⟨fam, "only_one_remap"⟩ [.voidp, .ptr .float, .ptr .float, .int, .int]
       [.voidp, .ptr .double, .ptr .double, .int, .int],
     .restype ⟨fam, "only_remaps"⟩ none,
     .argtypes ⟨fam, "tune"⟩ tuneTys,
     .restype ⟨fam, "tune"⟩ none,
     .newAttr "fft" .voidp,
     .commValue "comm_value" "comm",
     .call ⟨fam, "create"⟩ [.var "comm_value", .var "precision", .byrefAttr "fft"]]

/-- `__del__`, fftmpi.py:151-152, 407-408, and with `self.remap` 611-612, 714-715. -/
def delMethod (fam handle : String) : Method where
  params := []
  body := [.call ⟨fam, "destroy"⟩ [.attr handle]]

/-- `destroy`, fftmpi.py:154-156, 410-412, and with `self.remap` 614-616, 717-719. -/
def destroyMethod (fam handle : String) : Method where
  params := []
  body := [.call ⟨fam, "destroy"⟩ [.attr handle], .dropAttr "lib"]

/-- `set`, fftmpi.py:160-161, 416-417, 620-621, 723-724. -/
def setMethod (fam handle : String) : Method where
  params := ["keyword", "value"]
  body := [.call ⟨fam, "set"⟩ [.attr handle, .var "keyword", .var "value"]]

/-- `get_int`, fftmpi.py:163-164, 419-420. -/
def getIntMethod (fam : String) : Method where
  params := ["keyword"]
  body := [.retCall ⟨fam, "get_int"⟩ [.attr "fft", .var "keyword"]]

/-- `get_int64`, fftmpi.py:166-167, 422-423. -/
def getInt64Method (fam : String) : Method where
  params := ["keyword"]
  body := [.retCall ⟨fam, "get_int64"⟩ [.attr "fft", .var "keyword"]]

/-- `get_double`, fftmpi.py:169-170, 425-426. -/
def getDoubleMethod (fam : String) : Method where
  params := ["keyword"]
  body := [.retCall ⟨fam, "get_double"⟩ [.attr "fft", .var "keyword"]]

/-- `get_string`, fftmpi.py:172-176, 428-432. -/
def getStringMethod (fam : String) : Method where
  params := ["keyword"]
  body :=
    [.new "nlen" .int,
     .callTo "cptr" ⟨fam, "get_string"⟩ [.attr "fft", .var "keyword", .byref "nlen"],
     .retNull "cptr",
     .ret "cptr"]

/-- `get_int_vector`, fftmpi.py:178-183, 434-439. -/
def getIntVectorMethod (fam : String) : Method where
  params := ["keyword"]
  body :=
    [.new "nlen" .int,
     .callTo "cptr" ⟨fam, "get_int_vector"⟩ [.attr "fft", .var "keyword", .byref "nlen"],
     .retNull "cptr",
     .slice "ivec" "cptr" "nlen",
     .ret "ivec"]

/-- `get_double_vector`, fftmpi.py:185-190, 441-446. -/
def getDoubleVectorMethod (fam : String) : Method where
  params := ["keyword"]
  body :=
    [.new "nlen" .int,
     .callTo "cptr" ⟨fam, "get_double_vector"⟩ [.attr "fft", .var "keyword", .byref "nlen"],
     .retNull "cptr",
     .slice "dvec" "cptr" "nlen",
     .ret "dvec"]

/-- `setup`, fftmpi.py:192-205, 448-459. -/
def setupMethod (fam : String) (layout : List String) : Method where
  params := layout
  body :=
    [.new "fftsize" .int,
     .new "sendsize" .int,
     .new "recvsize" .int,
     .call ⟨fam, "setup"⟩ (.attr "fft" :: layout.map .var ++ [.byref "fftsize", .byref "sendsize", .byref "recvsize"]),
     .value "fftsize" "fftsize",
     .value "sendsize" "sendsize",
     .value "recvsize" "recvsize",
     .retTuple ["fftsize", "sendsize", "recvsize"]]

/-- `setup_memory`, fftmpi.py:207-219, 461-473.  `csendbuf = csendbuf.ctypes...`: the names on the right are those that
are being assigned, not the parameters. -/
def setupMemoryMethod (fam : String) : Method where
  params := ["sendbuf", "recvbuf"]
  body :=
    [.exitNumpy ["sendbuf", "recvbuf"],
     .dataAs [("csendbuf", "csendbuf"), ("crecvbuf", "crecvbuf")],
     .call ⟨fam, "setup_memory"⟩ [.attr "fft", .var "csendbuf", .var "crecvbuf"]]

/-- `compute`, fftmpi.py:223-235, 477-489. -/
def computeMethod (fam : String) : Method where
  params := ["indata", "outdata", "flag"]
  body :=
    [.exitNumpy ["indata", "outdata"],
     .dataAs [("cin", "indata"), ("cout", "outdata")],
     .call ⟨fam, "compute"⟩ [.attr "fft", .var "cin", .var "cout", .var "flag"]]

/-- `only_1d_ffts`, fftmpi.py:237-247, 491-501. -/
def only1dMethod (fam : String) : Method where
  params := ["indata", "flag"]
  body :=
    [.exitNumpy ["indata"],
     .dataAs [("cin", "indata")],
     .call ⟨fam, "only_1d_ffts"⟩ [.attr "fft", .var "cin", .var "flag"]]

/-- `only_remaps`, fftmpi.py:249-261, 503-515. -/
def onlyRemapsMethod (fam : String) : Method where
  params := ["indata", "outdata", "flag"]
  body :=
    [.exitNumpy ["indata", "outdata"],
     .dataAs [("cin", "indata"), ("cout", "outdata")],
     .call ⟨fam, "only_remaps"⟩ [.attr "fft", .var "cin", .var "cout", .var "flag"]]

/-- `only_one_remap`, fftmpi.py:263-275, 517-529. -/
def onlyOneMethod (fam : String) : Method where
  params := ["indata", "outdata", "flag", "which"]
  body :=
    [.exitNumpy ["indata", "outdata"],
     .dataAs [("cin", "indata"), ("cout", "outdata")],
     .call ⟨fam, "only_one_remap"⟩ [.attr "fft", .var "cin", .var "cout", .var "flag", .var "which"]]

/-- `tune`, fftmpi.py:279-294, 533-548. -/
def tuneMethod (fam : String) (layout : List String) : Method where
  params := layout ++ ["flag", "niter", "tmax", "tflag"]
  body :=
    [.new "fftsize" .int,
     .new "sendsize" .int,
     .new "recvsize" .int,
     .call ⟨fam, "tune"⟩ (.attr "fft" :: layout.map .var ++ [.byref "fftsize", .byref "sendsize", .byref "recvsize",
       .var "flag", .var "niter", .var "tmax", .var "tflag"]),
     .value "fftsize" "fftsize",
     .value "sendsize" "sendsize",
     .value "recvsize" "recvsize",
     .retTuple ["fftsize", "sendsize", "recvsize"]]

/-- `fft3d_setup.argtypes`, fftmpi.py:85-90. -/
def setupTys3 : List Ty :=
  [.voidp, .int, .int, .int,
   .int, .int, .int, .int, .int, .int,
   .int, .int, .int, .int, .int, .int,
   .int, .ptr .int, .ptr .int,
   .ptr .int]

/-- `fft3d_tune.argtypes`, fftmpi.py:134-139. -/
def tuneTys3 : List Ty :=
  [.voidp, .int, .int, .int,
   .int, .int, .int, .int, .int, .int,
   .int, .int, .int, .int, .int, .int,
   .int, .ptr .int, .ptr .int, .ptr .int,
   .int, .int, .double, .int]

/-- `fft2d_setup.argtypes`, fftmpi.py:346-348. -/
def setupTys2 : List Ty :=
  [.voidp, .int, .int, .int, .int, .int, .int, .int, .int, .int, .int,
   .int, .ptr .int, .ptr .int, .ptr .int]

/-- `fft2d_tune.argtypes`, fftmpi.py:391-395. -/
def tuneTys2 : List Ty :=
  [.voidp, .int, .int,
   .int, .int, .int, .int, .int, .int, .int, .int,
   .int, .ptr .int, .ptr .int, .ptr .int,
   .int, .int, .double, .int]

/-- `remap3d_setup.argtypes`, fftmpi.py:586-589: one pointer. -/
def remapTys3 : List Ty :=
  [.voidp, .int, .int, .int, .int, .int, .int,
   .int, .int, .int, .int, .int, .int,
   .int, .int, .int, .ptr .int]

/-- `remap2d_setup.argtypes`, fftmpi.py:689-691: one pointer. -/
def remapTys2 : List Ty :=
  [.voidp, .int, .int, .int, .int, .int, .int, .int, .int,
   .int, .int, .int, .ptr .int]

/-- The constructors of the remap classes, fftmpi.py:556-607 and 660-710. -/
def remapInit (fam : String) (setupTys : List Ty) : Method where
  params := ["comm", "precision"]
  body :=
    [.setAttr "precision" "precision",
     .exitPrecision "precision",
     .load,
     .argtypes ⟨fam, "create"⟩ [.comm, .int, .ptr .voidp],
     .restype ⟨fam, "create"⟩ none,
     .argtypes ⟨fam, "destroy"⟩ [.voidp],
     .restype ⟨fam, "destroy"⟩ none,
     .argtypes ⟨fam, "set"⟩ [.voidp, .charp, .int],
     .restype ⟨fam, "set"⟩ none,
     .argtypes ⟨fam, "setup"⟩ setupTys,
     .restype ⟨fam, "setup"⟩ none,
     .argtypesPrec "precision" ⟨fam, "remap"⟩ [.voidp, .ptr .float, .ptr .float, .ptr .float, .ptr .float]
       [.voidp, .ptr .double, .ptr .double, .ptr .double, .ptr .double],
     .restype ⟨fam, "compute"⟩ none,
     .newAttr "remap" .voidp,
     .commValue "comm_value" "comm",
     .call ⟨fam, "create"⟩ [.var "comm_value", .var "precision", .byrefAttr "remap"]]

/-- `setup` of the remap classes, fftmpi.py:623-629 and 726-731. -/
def remapSetupMethod (fam : String) (layout : List String) : Method where
  params := layout ++ ["nqty", "permute", "memoryflag"]
  body :=
    [.call ⟨fam, "setup"⟩ (.attr "remap" :: layout.map .var ++
       [.var "nqty", .var "permute", .var "memoryflag", .var "sendsize", .var "recvsize"]),
     .retTuple ["sendsize", "recvsize"]]

/-- `remap`, fftmpi.py:633-652, 735-754. -/
def remapMethod (fam : String) : Method where
  params := ["indata", "outdata", "sendbuf", "recvbuf"]
  body :=
    [.exitNumpy ["indata", "outdata", "sendbuf", "recvbuf"],
     .dataAs [("cin", "indata"), ("cout", "outdata"), ("csendbuf", "sendbuf"), ("crecvbuf", "recvbuf")],
     .call ⟨fam, "remap"⟩ [.attr "remap", .var "cin", .var "cout", .var "csendbuf", .var "crecvbuf"]]

/-! ## The header files -/

/-- fft3d_wrap.h:30-64. -/
def protoFft3 : List (Fn × List CTy) :=
  [(⟨"fft3d", "create"⟩, [.comm, .int, .outptr]),
   (⟨"fft3d", "destroy"⟩, [.voidp]),
   (⟨"fft3d", "set"⟩, [.voidp, .str, .int]),
   (⟨"fft3d", "get_int"⟩, [.voidp, .str]),
   (⟨"fft3d", "get_double"⟩, [.voidp, .str]),
   (⟨"fft3d", "get_int64"⟩, [.voidp, .str]),
   (⟨"fft3d", "get_string"⟩, [.voidp, .str, .out]),
   (⟨"fft3d", "get_int_vector"⟩, [.voidp, .str, .out]),
   (⟨"fft3d", "get_double_vector"⟩, [.voidp, .str, .out]),
   (⟨"fft3d", "setup"⟩, [.voidp, .int, .int, .int,
      .int, .int, .int, .int, .int, .int, .int, .int, .int, .int, .int, .int,
      .int, .out, .out, .out]),
   (⟨"fft3d", "setup_memory"⟩, [.voidp, .scalar, .scalar]),
   (⟨"fft3d", "compute"⟩, [.voidp, .scalar, .scalar, .int]),
   (⟨"fft3d", "only_1d_ffts"⟩, [.voidp, .scalar, .int]),
   (⟨"fft3d", "only_remaps"⟩, [.voidp, .scalar, .scalar, .int]),
   (⟨"fft3d", "only_one_remap"⟩, [.voidp, .scalar, .scalar, .int, .int]),
   (⟨"fft3d", "tune"⟩, [.voidp, .int, .int, .int,
      .int, .int, .int, .int, .int, .int, .int, .int, .int, .int, .int, .int,
      .int, .out, .out, .out, .int, .int, .double, .int])]

/-- fft2d_wrap.h:30-62. -/
def protoFft2 : List (Fn × List CTy) :=
  [(⟨"fft2d", "create"⟩, [.comm, .int, .outptr]),
   (⟨"fft2d", "destroy"⟩, [.voidp]),
   (⟨"fft2d", "set"⟩, [.voidp, .str, .int]),
   (⟨"fft2d", "get_int"⟩, [.voidp, .str]),
   (⟨"fft2d", "get_double"⟩, [.voidp, .str]),
   (⟨"fft2d", "get_int64"⟩, [.voidp, .str]),
   (⟨"fft2d", "get_string"⟩, [.voidp, .str, .out]),
   (⟨"fft2d", "get_int_vector"⟩, [.voidp, .str, .out]),
   (⟨"fft2d", "get_double_vector"⟩, [.voidp, .str, .out]),
   (⟨"fft2d", "setup"⟩, [.voidp, .int, .int,
      .int, .int, .int, .int, .int, .int, .int, .int,
      .int, .out, .out, .out]),
   (⟨"fft2d", "setup_memory"⟩, [.voidp, .scalar, .scalar]),
   (⟨"fft2d", "compute"⟩, [.voidp, .scalar, .scalar, .int]),
   (⟨"fft2d", "only_1d_ffts"⟩, [.voidp, .scalar, .int]),
   (⟨"fft2d", "only_remaps"⟩, [.voidp, .scalar, .scalar, .int]),
   (⟨"fft2d", "only_one_remap"⟩, [.voidp, .scalar, .scalar, .int, .int]),
   (⟨"fft2d", "tune"⟩, [.voidp, .int, .int,
      .int, .int, .int, .int, .int, .int, .int, .int,
      .int, .out, .out, .out, .int, .int, .double, .int])]

/-- remap3d_wrap.h:30-42. -/
def protoRemap3 : List (Fn × List CTy) :=
  [(⟨"remap3d", "create"⟩, [.comm, .outptr]),
   (⟨"remap3d", "destroy"⟩, [.voidp]),
   (⟨"remap3d", "set"⟩, [.voidp, .str, .int]),
   (⟨"remap3d", "setup"⟩, [.voidp,
      .int, .int, .int, .int, .int, .int, .int, .int, .int, .int, .int, .int,
      .int, .int, .int, .out, .out]),
   (⟨"remap3d", "remap"⟩, [.voidp, .scalar, .scalar, .scalar, .scalar])]

/-- remap2d_wrap.h:30-41. -/
def protoRemap2 : List (Fn × List CTy) :=
  [(⟨"remap2d", "create"⟩, [.comm, .outptr]),
   (⟨"remap2d", "destroy"⟩, [.voidp]),
   (⟨"remap2d", "set"⟩, [.voidp, .str, .int]),
   (⟨"remap2d", "setup"⟩, [.voidp,
      .int, .int, .int, .int, .int, .int, .int, .int,
      .int, .int, .int, .out, .out]),
   (⟨"remap2d", "remap"⟩, [.voidp, .scalar, .scalar, .scalar, .scalar])]

/-- What libfft3dmpi.so exports for Python, src/Makefile:29-34. -/
def symbols3 (f : Fn) : Option (List CTy) := (protoFft3 ++ protoRemap3).lookup f

/-- What libfft2dmpi.so exports for Python, src/Makefile:21-26. -/
def symbols2 (f : Fn) : Option (List CTy) := (protoFft2 ++ protoRemap2).lookup f

end Py

end FftMpi
