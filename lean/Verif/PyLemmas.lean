import Verif.PySpec

/-!
# Lemmas about the Python interface

Each method of `FFT3dMPI` and `FFT2dMPI` but `setup_memory`, executed.
-/

namespace FftMpi

namespace Py

/-! ## Lemmas -/

theorem low32_eq {n : Int} (h : -2 ^ 31 ≤ n ∧ n < 2 ^ 31) : low32 n = n := by
  unfold low32
  omega

/-- The declarations in the constructor. -/
def decls (setupTys tuneTys : List Ty) (t : Ty) : List (String × List Ty × Option Ty) :=
  [("create", [.comm, .int, .ptr .voidp], none),
   ("destroy", [.voidp], none),
   ("set", [.voidp, .charp, .int], none),
   ("get_int", [.voidp, .charp], some .int),
   ("get_int64", [.voidp, .charp], some .longlong),
   ("get_double", [.voidp, .charp], some .double),
   ("get_string", [.voidp, .charp, .ptr .int], some .charp),
   ("get_int_vector", [.voidp, .charp, .ptr .int], some (.ptr .int)),
   ("get_double_vector", [.voidp, .charp, .ptr .int], some (.ptr .double)),
   ("setup", setupTys, none),
   ("setup_memory", [.voidp, .ptr t, .ptr t], none),
   ("compute", [.voidp, .ptr t, .ptr t, .int], none),
   ("only_1d_ffts", [.voidp, .ptr t, .int], none),
   ("only_remaps", [.voidp, .ptr t, .ptr t, .int], none),
   ("tune", tuneTys, none)]

/-- The C type of `FFT_SCALAR` for a precision. -/
def scalarTy (p : Int) : Ty := if p = 1 then .float else .double

/-- An object that the constructor made and that was not destroyed: `h` is the pointer that `create` returned, in the ctypes
object number `k`. -/
structure Object (fam : String) (setupTys tuneTys : List Ty) (p : Int) (k : Nat) (h : Int) (st : State) : Prop where
  prec : p = 1 ∨ p = 2
  lib : st.attrs "lib" = some .other
  precision : st.attrs "precision" = some (.int p)
  fft : st.attrs "fft" = some (.cobj .voidp k)
  fresh : k < st.ncells
  handle : st.cells k = h
  decl : ∀ d ∈ decls setupTys tuneTys (scalarTy p), st.argtypes ⟨fam, d.1⟩ = some d.2.1 ∧
    st.restype ⟨fam, d.1⟩ = some d.2.2
  one : st.argtypes ⟨fam, "only_one_remap"⟩ = some [.voidp, .ptr (scalarTy p), .ptr (scalarTy p), .int, .int]

/-- The functions of a family `fft3d_...` or `fft2d_...` are there. -/
structure Exports (lib : Lib) (fam : String) (setupC tuneC : List CTy) : Prop where
  create : lib.proto ⟨fam, "create"⟩ = some [.comm, .int, .outptr]
  destroy : lib.proto ⟨fam, "destroy"⟩ = some [.voidp]
  set : lib.proto ⟨fam, "set"⟩ = some [.voidp, .str, .int]
  getInt : lib.proto ⟨fam, "get_int"⟩ = some [.voidp, .str]
  getDouble : lib.proto ⟨fam, "get_double"⟩ = some [.voidp, .str]
  getInt64 : lib.proto ⟨fam, "get_int64"⟩ = some [.voidp, .str]
  getString : lib.proto ⟨fam, "get_string"⟩ = some [.voidp, .str, .out]
  getIntVector : lib.proto ⟨fam, "get_int_vector"⟩ = some [.voidp, .str, .out]
  getDoubleVector : lib.proto ⟨fam, "get_double_vector"⟩ = some [.voidp, .str, .out]
  setup : lib.proto ⟨fam, "setup"⟩ = some setupC
  setupMemory : lib.proto ⟨fam, "setup_memory"⟩ = some [.voidp, .scalar, .scalar]
  compute : lib.proto ⟨fam, "compute"⟩ = some [.voidp, .scalar, .scalar, .int]
  only1d : lib.proto ⟨fam, "only_1d_ffts"⟩ = some [.voidp, .scalar, .int]
  onlyRemaps : lib.proto ⟨fam, "only_remaps"⟩ = some [.voidp, .scalar, .scalar, .int]
  onlyOne : lib.proto ⟨fam, "only_one_remap"⟩ = some [.voidp, .scalar, .scalar, .int, .int]
  tune : lib.proto ⟨fam, "tune"⟩ = some tuneC

theorem exec_create {lib : Lib} {fam : String} {setupC tuneC : List CTy} (E : Exports lib fam setupC tuneC)
    (setupTys tuneTys : List Ty) (c p : Int) (hp : p = 1 ∨ p = 2) (st : State) :
    ∃ st', exec lib (fftInit fam setupTys tuneTys) [.comm c, .int p] st = (st', .ret .none) ∧
      st'.calls = (⟨fam, "create"⟩, [.comm c, .int p, .cell st.ncells]) :: st.calls ∧
      Object fam setupTys tuneTys p st.ncells (st'.cells st.ncells) st' := by
  have hlow : low32 p = p := low32_eq (by omega)
  have hp' : (Val.int p = .int 1 ∨ Val.int p = .int 2) := by simpa using hp
  rcases hp with rfl | rfl <;>
  · simp [exec, fftInit, bindArgs, execList, execStmt, Method.locals, Stmt.assigns, readVar, readAttr, onLib, callC,
      evalAll, evalAtom, byref, convAll, conv, accepts, CTy.accepts, hlow, E.create, E.destroy, E.set, E.getInt,
      E.getDouble, E.getInt64, E.getString, E.getIntVector, E.getDoubleVector, E.setup, E.setupMemory, E.compute,
      E.only1d, E.onlyRemaps, E.onlyOne, E.tune]
    exact { prec := by simp, lib := by simp, precision := by simp, fft := by simp, fresh := by simp, handle := rfl,
            decl := by simp [decls, scalarTy], one := by simp [scalarTy] }

/-! ## Methods -/

section Methods

variable {lib : Lib} {fam : String} {setupC tuneC : List CTy} {setupTys tuneTys : List Ty} {p h : Int} {k : Nat}
  {st : State}

/-- What holds after a call of `f` with `args` that got `n` new ctypes objects. -/
theorem Object.after (hF : lib.Frame) (O : Object fam setupTys tuneTys p k h st) {f : Fn} {args : List CArg}
    {cells : Nat → Int} {n : Nat} (hn : st.ncells ≤ n) (hc : cells k = h) (hk : .cell k ∉ args) :
    Object fam setupTys tuneTys p k h
      { st with cells := (lib.call st.calls f args cells).2, ncells := n, calls := (f, args) :: st.calls } where
  prec := O.prec
  lib := O.lib
  precision := O.precision
  fft := O.fft
  fresh := lt_of_lt_of_le O.fresh hn
  handle := (hF _ f args cells k hk).trans hc
  decl := O.decl
  one := O.one

/-- Calling the method makes exactly one C call, `f(cs)`; the object stays usable; `R` relates the result of the C call,
the ctypes objects after it and the outcome. -/
def Passes (lib : Lib) (fam : String) (setupTys tuneTys : List Ty) (p : Int) (k : Nat) (h : Int) (st : State)
    (m : Method) (args : List Val) (f : Fn) (cs : List CArg) (R : CRes → (Nat → Int) → Out → Prop) : Prop :=
  ∃ st' o cells, exec lib m args st = (st', o) ∧ st'.calls = (f, cs) :: st.calls ∧
    Object fam setupTys tuneTys p k h st' ∧ (∀ c < st.ncells, cells c = st.cells c) ∧
    R (lib.call st.calls f cs cells).1 (lib.call st.calls f cs cells).2 o

theorem exec_set (E : Exports lib fam setupC tuneC) (hF : lib.Frame)
    (O : Object fam setupTys tuneTys p k h st) (s : String) (v : Int) :
    Passes lib fam setupTys tuneTys p k h st (setMethod fam "fft") [.str s, .int v] ⟨fam, "set"⟩ [.ptr h, .str s, .int (low32 v)]
      (fun _ _ o => o = .ret .none) := by
  obtain ⟨d1, d2⟩ := O.decl ("set", [.voidp, .charp, .int], none) (by simp [decls])
  dsimp only at d1 d2
  refine ⟨_, _, st.cells, ?_, rfl, O.after hF le_rfl O.handle (by simp), fun _ _ => rfl, rfl⟩
  simp [exec, setMethod, bindArgs, execList, execStmt, Method.locals, Stmt.assigns, readVar, readAttr, callC, O.lib,
    O.fft, evalAll, evalAtom, convAll, conv, accepts, CTy.accepts, E.set, d1, O.handle]

theorem exec_compute (E : Exports lib fam setupC tuneC) (hF : lib.Frame)
    (O : Object fam setupTys tuneTys p k h st) (a b flag : Int) :
    Passes lib fam setupTys tuneTys p k h st (computeMethod fam) [.array a, .array b, .int flag] ⟨fam, "compute"⟩ [.ptr h, .ptr a, .ptr b, .int (low32 flag)]
      (fun _ _ o => o = .ret .none) := by
  obtain ⟨d1, d2⟩ := O.decl ("compute", [.voidp, .ptr (scalarTy p), .ptr (scalarTy p), .int], none) (by simp [decls])
  dsimp only at d1 d2
  refine ⟨_, _, st.cells, ?_, rfl, O.after hF le_rfl O.handle (by simp), fun _ _ => rfl, rfl⟩
  have hp := O.precision
  have hs : scalarTy p = if Val.int p = .int 1 then .float else .double := by simp [scalarTy]
  simp [exec, computeMethod, bindArgs, execList, execStmt, Method.locals, Stmt.assigns, readVar, readAttr, callC, O.lib,
    O.fft, evalAll, evalAtom, convAll, conv, accepts, CTy.accepts, E.compute, d1, O.handle, hp, hs, allNumpy, readAll, dataAll]

theorem exec_only1d (E : Exports lib fam setupC tuneC) (hF : lib.Frame)
    (O : Object fam setupTys tuneTys p k h st) (a flag : Int) :
    Passes lib fam setupTys tuneTys p k h st (only1dMethod fam) [.array a, .int flag] ⟨fam, "only_1d_ffts"⟩ [.ptr h, .ptr a, .int (low32 flag)]
      (fun _ _ o => o = .ret .none) := by
  obtain ⟨d1, d2⟩ := O.decl ("only_1d_ffts", [.voidp, .ptr (scalarTy p), .int], none) (by simp [decls])
  dsimp only at d1 d2
  refine ⟨_, _, st.cells, ?_, rfl, O.after hF le_rfl O.handle (by simp), fun _ _ => rfl, rfl⟩
  have hp := O.precision
  have hs : scalarTy p = if Val.int p = .int 1 then .float else .double := by simp [scalarTy]
  simp [exec, only1dMethod, bindArgs, execList, execStmt, Method.locals, Stmt.assigns, readVar, readAttr, callC, O.lib,
    O.fft, evalAll, evalAtom, convAll, conv, accepts, CTy.accepts, E.only1d, d1, O.handle, hp, hs, allNumpy, readAll, dataAll]

theorem exec_onlyRemaps (E : Exports lib fam setupC tuneC) (hF : lib.Frame)
    (O : Object fam setupTys tuneTys p k h st) (a b flag : Int) :
    Passes lib fam setupTys tuneTys p k h st (onlyRemapsMethod fam) [.array a, .array b, .int flag] ⟨fam, "only_remaps"⟩ [.ptr h, .ptr a, .ptr b, .int (low32 flag)]
      (fun _ _ o => o = .ret .none) := by
  obtain ⟨d1, d2⟩ := O.decl ("only_remaps", [.voidp, .ptr (scalarTy p), .ptr (scalarTy p), .int], none) (by simp [decls])
  dsimp only at d1 d2
  refine ⟨_, _, st.cells, ?_, rfl, O.after hF le_rfl O.handle (by simp), fun _ _ => rfl, rfl⟩
  have hp := O.precision
  have hs : scalarTy p = if Val.int p = .int 1 then .float else .double := by simp [scalarTy]
  simp [exec, onlyRemapsMethod, bindArgs, execList, execStmt, Method.locals, Stmt.assigns, readVar, readAttr, callC, O.lib,
    O.fft, evalAll, evalAtom, convAll, conv, accepts, CTy.accepts, E.onlyRemaps, d1, O.handle, hp, hs, allNumpy, readAll, dataAll]

theorem exec_onlyOne (E : Exports lib fam setupC tuneC) (hF : lib.Frame)
    (O : Object fam setupTys tuneTys p k h st) (a b flag which : Int) :
    Passes lib fam setupTys tuneTys p k h st (onlyOneMethod fam) [.array a, .array b, .int flag, .int which] ⟨fam, "only_one_remap"⟩ [.ptr h, .ptr a, .ptr b, .int (low32 flag), .int (low32 which)]
      (fun _ _ o => o = .ret .none) := by
  have d1 := O.one
  refine ⟨_, _, st.cells, ?_, rfl, O.after hF le_rfl O.handle (by simp), fun _ _ => rfl, rfl⟩
  have hp := O.precision
  have hs : scalarTy p = if Val.int p = .int 1 then .float else .double := by simp [scalarTy]
  simp [exec, onlyOneMethod, bindArgs, execList, execStmt, Method.locals, Stmt.assigns, readVar, readAttr, callC, O.lib,
    O.fft, evalAll, evalAtom, convAll, conv, accepts, CTy.accepts, E.onlyOne, d1, O.handle, hp, hs, allNumpy, readAll, dataAll]

theorem exec_getInt (E : Exports lib fam setupC tuneC) (hF : lib.Frame) (hT : lib.Typed fam)
    (O : Object fam setupTys tuneTys p k h st) (s : String) :
    Passes lib fam setupTys tuneTys p k h st (getIntMethod fam) [.str s] ⟨fam, "get_int"⟩ [.ptr h, .str s]
      (fun r _ o => ∃ n, r = .int n ∧ o = .ret (.int n)) := by
  obtain ⟨d1, d2⟩ := O.decl ("get_int", [.voidp, .charp], some .int) (by simp [decls])
  dsimp only at d1 d2
  obtain ⟨n, hn⟩ := hT.getInt st.calls [.ptr h, .str s] st.cells
  refine ⟨_, _, st.cells, ?_, rfl, O.after hF le_rfl O.handle (by simp), fun _ _ => rfl, n, hn, rfl⟩
  simp [exec, getIntMethod, bindArgs, execList, execStmt, Method.locals, Stmt.assigns, readVar, readAttr, callC, O.lib,
    O.fft, evalAll, evalAtom, convAll, conv, accepts, CTy.accepts, E.getInt, d1, d2, O.handle, hn, convRes]

theorem exec_getInt64 (E : Exports lib fam setupC tuneC) (hF : lib.Frame) (hT : lib.Typed fam)
    (O : Object fam setupTys tuneTys p k h st) (s : String) :
    Passes lib fam setupTys tuneTys p k h st (getInt64Method fam) [.str s] ⟨fam, "get_int64"⟩ [.ptr h, .str s]
      (fun r _ o => ∃ n, r = .int n ∧ o = .ret (.int n)) := by
  obtain ⟨d1, d2⟩ := O.decl ("get_int64", [.voidp, .charp], some .longlong) (by simp [decls])
  dsimp only at d1 d2
  obtain ⟨n, hn⟩ := hT.getInt64 st.calls [.ptr h, .str s] st.cells
  refine ⟨_, _, st.cells, ?_, rfl, O.after hF le_rfl O.handle (by simp), fun _ _ => rfl, n, hn, rfl⟩
  simp [exec, getInt64Method, bindArgs, execList, execStmt, Method.locals, Stmt.assigns, readVar, readAttr, callC, O.lib,
    O.fft, evalAll, evalAtom, convAll, conv, accepts, CTy.accepts, E.getInt64, d1, d2, O.handle, hn, convRes]

theorem exec_getDouble (E : Exports lib fam setupC tuneC) (hF : lib.Frame) (hT : lib.Typed fam)
    (O : Object fam setupTys tuneTys p k h st) (s : String) :
    Passes lib fam setupTys tuneTys p k h st (getDoubleMethod fam) [.str s] ⟨fam, "get_double"⟩ [.ptr h, .str s]
      (fun r _ o => ∃ q, r = .double q ∧ o = .ret (.float q)) := by
  obtain ⟨d1, d2⟩ := O.decl ("get_double", [.voidp, .charp], some .double) (by simp [decls])
  dsimp only at d1 d2
  obtain ⟨n, hn⟩ := hT.getDouble st.calls [.ptr h, .str s] st.cells
  refine ⟨_, _, st.cells, ?_, rfl, O.after hF le_rfl O.handle (by simp), fun _ _ => rfl, n, hn, rfl⟩
  simp [exec, getDoubleMethod, bindArgs, execList, execStmt, Method.locals, Stmt.assigns, readVar, readAttr, callC, O.lib,
    O.fft, evalAll, evalAtom, convAll, conv, accepts, CTy.accepts, E.getDouble, d1, d2, O.handle, hn, convRes]

theorem exec_getString (E : Exports lib fam setupC tuneC) (hF : lib.Frame) (hT : lib.Typed fam)
    (O : Object fam setupTys tuneTys p k h st) (s : String) :
    Passes lib fam setupTys tuneTys p k h st (getStringMethod fam) [.str s] ⟨fam, "get_string"⟩ [.ptr h, .str s, .cell st.ncells]
      (fun r _ o => (∃ t, r = .str t ∧ o = .ret (if t = "" then .none else .str t)) ∨ r = .ptr 0 ∧ o = .ret .none) := by
  obtain ⟨d1, d2⟩ := O.decl ("get_string", [.voidp, .charp, .ptr .int], some .charp) (by simp [decls])
  dsimp only at d1 d2
  have hk : k ≠ st.ncells := O.fresh.ne
  have hc : Function.update st.cells st.ncells 0 k = h := by rw [Function.update_of_ne hk, O.handle]
  rcases hT.getString st.calls [.ptr h, .str s, .cell st.ncells] (Function.update st.cells st.ncells 0) with ⟨t, hn⟩ | hn
  ·
    refine ⟨_, _, Function.update st.cells st.ncells 0, ?_, rfl, O.after hF (Nat.le_succ _) hc (by simpa using hk),
      fun c hc => Function.update_of_ne hc.ne _ _, Or.inl ⟨t, hn, rfl⟩⟩
    simp [exec, getStringMethod, bindArgs, execList, execStmt, Method.locals, Stmt.assigns, readVar, readAttr, callC, O.lib,
    O.fft, evalAll, evalAtom, convAll, conv, accepts, CTy.accepts, E.getString, d1, d2, hc, byref, hn, convRes, truth]
    split_ifs with ht <;> simp_all
  · refine ⟨_, _, Function.update st.cells st.ncells 0, ?_, rfl, O.after hF (Nat.le_succ _) hc (by simpa using hk),
      fun c hc => Function.update_of_ne hc.ne _ _, Or.inr ⟨hn, rfl⟩⟩
    simp [exec, getStringMethod, bindArgs, execList, execStmt, Method.locals, Stmt.assigns, readVar, readAttr, callC, O.lib,
    O.fft, evalAll, evalAtom, convAll, conv, accepts, CTy.accepts, E.getString, d1, d2, hc, byref, hn, convRes, truth]

theorem exec_getIntVector (E : Exports lib fam setupC tuneC) (hF : lib.Frame) (hT : lib.Typed fam)
    (O : Object fam setupTys tuneTys p k h st) (s : String) :
    Passes lib fam setupTys tuneTys p k h st (getIntVectorMethod fam) [.str s] ⟨fam, "get_int_vector"⟩ [.ptr h, .str s, .cell st.ncells]
      (fun r cells o => ∃ a, r = .ptr a ∧ o = .ret (if a = 0 then .none else .slice .int a (cells st.ncells))) := by
  obtain ⟨d1, d2⟩ := O.decl ("get_int_vector", [.voidp, .charp, .ptr .int], some (.ptr .int)) (by simp [decls])
  dsimp only at d1 d2
  have hk : k ≠ st.ncells := O.fresh.ne
  have hc : Function.update st.cells st.ncells 0 k = h := by rw [Function.update_of_ne hk, O.handle]
  obtain ⟨a, hn⟩ := hT.getIntVector st.calls [.ptr h, .str s, .cell st.ncells] (Function.update st.cells st.ncells 0)
  ·
    refine ⟨_, _, Function.update st.cells st.ncells 0, ?_, rfl, O.after hF (Nat.le_succ _) hc (by simpa using hk),
      fun c hc => Function.update_of_ne hc.ne _ _, a, hn, rfl⟩
    simp [exec, getIntVectorMethod, bindArgs, execList, execStmt, Method.locals, Stmt.assigns, readVar, readAttr, callC, O.lib,
    O.fft, evalAll, evalAtom, convAll, conv, accepts, CTy.accepts, E.getIntVector, d1, d2, hc, byref, hn, convRes, truth]
    split_ifs with ht <;> simp_all

theorem exec_getDoubleVector (E : Exports lib fam setupC tuneC) (hF : lib.Frame) (hT : lib.Typed fam)
    (O : Object fam setupTys tuneTys p k h st) (s : String) :
    Passes lib fam setupTys tuneTys p k h st (getDoubleVectorMethod fam) [.str s] ⟨fam, "get_double_vector"⟩ [.ptr h, .str s, .cell st.ncells]
      (fun r cells o => ∃ a, r = .ptr a ∧ o = .ret (if a = 0 then .none else .slice .double a (cells st.ncells))) := by
  obtain ⟨d1, d2⟩ := O.decl ("get_double_vector", [.voidp, .charp, .ptr .int], some (.ptr .double)) (by simp [decls])
  dsimp only at d1 d2
  have hk : k ≠ st.ncells := O.fresh.ne
  have hc : Function.update st.cells st.ncells 0 k = h := by rw [Function.update_of_ne hk, O.handle]
  obtain ⟨a, hn⟩ := hT.getDoubleVector st.calls [.ptr h, .str s, .cell st.ncells] (Function.update st.cells st.ncells 0)
  ·
    refine ⟨_, _, Function.update st.cells st.ncells 0, ?_, rfl, O.after hF (Nat.le_succ _) hc (by simpa using hk),
      fun c hc => Function.update_of_ne hc.ne _ _, a, hn, rfl⟩
    simp [exec, getDoubleVectorMethod, bindArgs, execList, execStmt, Method.locals, Stmt.assigns, readVar, readAttr, callC, O.lib,
    O.fft, evalAll, evalAtom, convAll, conv, accepts, CTy.accepts, E.getDoubleVector, d1, d2, hc, byref, hn, convRes, truth]
    split_ifs with ht <;> simp_all

/-- The parameters of `fft3d_setup`. -/
def setupC3 : List CTy := .voidp :: List.replicate 16 .int ++ [.out, .out, .out]

/-- The parameters of `fft3d_tune`. -/
def tuneC3 : List CTy := setupC3 ++ [.int, .int, .double, .int]

/-- The parameters of `fft2d_setup`. -/
def setupC2 : List CTy := .voidp :: List.replicate 11 .int ++ [.out, .out, .out]

/-- The parameters of `fft2d_tune`. -/
def tuneC2 : List CTy := setupC2 ++ [.int, .int, .double, .int]

theorem exec_setup3 (hE : lib.proto ⟨fam, "setup"⟩ = some setupC3) (hF : lib.Frame)
    (O : Object fam setupTys3 tuneTys3 p k h st) (x : Raw3) :
    Passes lib fam setupTys3 tuneTys3 p k h st (setupMethod fam layout3) ((ints3 x).map .int) ⟨fam, "setup"⟩
      (.ptr h :: (ints3 x).map (fun n => .int (low32 n)) ++
        [.cell st.ncells, .cell (st.ncells + 1), .cell (st.ncells + 2)])
      (fun _ cells o =>
        o = .tuple [.int (cells st.ncells), .int (cells (st.ncells + 1)), .int (cells (st.ncells + 2))]) := by
  obtain ⟨d1, d2⟩ := O.decl ("setup", setupTys3, none) (by simp [decls])
  dsimp only at d1 d2
  have h0 := O.fresh
  let cells := Function.update (Function.update (Function.update st.cells st.ncells 0) (st.ncells + 1) 0) (st.ncells + 2) 0
  have hc : cells k = h := by
    simp only [cells]
    rw [Function.update_of_ne (by omega), Function.update_of_ne (by omega), Function.update_of_ne (by omega), O.handle]
  refine ⟨_, _, cells, ?_, rfl, O.after hF (n := st.ncells + 3) (by omega) hc (by simp [ints3]; omega), fun c hc => ?_, rfl⟩
  · simp only [cells] at hc
    simp [exec, setupMethod, List.replicate, layout3, bindArgs, execList, execStmt, Method.locals, Stmt.assigns, readVar, readAttr,
    callC, O.lib, O.fft, evalAll, evalAtom, byref, convAll, conv, accepts, CTy.accepts, ints3, setupC3, setupTys3, hE, d1, d2, hc, readAll, cells]
  · simp only [cells]
    rw [Function.update_of_ne (by omega), Function.update_of_ne (by omega), Function.update_of_ne (by omega)]

theorem exec_tune3 (hE : lib.proto ⟨fam, "tune"⟩ = some tuneC3) (hF : lib.Frame)
    (O : Object fam setupTys3 tuneTys3 p k h st) (x : Raw3) (w : TuneArgs) :
    Passes lib fam setupTys3 tuneTys3 p k h st (tuneMethod fam layout3) ((ints3 x).map .int ++ [.int w.flag, .int w.niter, .float w.tmax, .int w.tflag]) ⟨fam, "tune"⟩
      (.ptr h :: (ints3 x).map (fun n => .int (low32 n)) ++
        [.cell st.ncells, .cell (st.ncells + 1), .cell (st.ncells + 2)] ++ [.int (low32 w.flag), .int (low32 w.niter), .double w.tmax, .int (low32 w.tflag)])
      (fun _ cells o =>
        o = .tuple [.int (cells st.ncells), .int (cells (st.ncells + 1)), .int (cells (st.ncells + 2))]) := by
  obtain ⟨d1, d2⟩ := O.decl ("tune", tuneTys3, none) (by simp [decls])
  dsimp only at d1 d2
  have h0 := O.fresh
  let cells := Function.update (Function.update (Function.update st.cells st.ncells 0) (st.ncells + 1) 0) (st.ncells + 2) 0
  have hc : cells k = h := by
    simp only [cells]
    rw [Function.update_of_ne (by omega), Function.update_of_ne (by omega), Function.update_of_ne (by omega), O.handle]
  refine ⟨_, _, cells, ?_, rfl, O.after hF (n := st.ncells + 3) (by omega) hc (by simp [ints3]; omega), fun c hc => ?_, rfl⟩
  · simp only [cells] at hc
    simp [exec, tuneMethod, layout3, bindArgs, execList, execStmt, Method.locals, Stmt.assigns, readVar, readAttr,
    callC, O.lib, O.fft, evalAll, evalAtom, byref, convAll, conv, accepts, CTy.accepts, ints3, tuneC3, setupC3, List.replicate, tuneTys3, hE, d1, d2, hc, readAll, cells]
  · simp only [cells]
    rw [Function.update_of_ne (by omega), Function.update_of_ne (by omega), Function.update_of_ne (by omega)]

theorem exec_setup2 (hE : lib.proto ⟨fam, "setup"⟩ = some setupC2) (hF : lib.Frame)
    (O : Object fam setupTys2 tuneTys2 p k h st) (x : Raw2) :
    Passes lib fam setupTys2 tuneTys2 p k h st (setupMethod fam layout2) ((ints2 x).map .int) ⟨fam, "setup"⟩
      (.ptr h :: (ints2 x).map (fun n => .int (low32 n)) ++
        [.cell st.ncells, .cell (st.ncells + 1), .cell (st.ncells + 2)])
      (fun _ cells o =>
        o = .tuple [.int (cells st.ncells), .int (cells (st.ncells + 1)), .int (cells (st.ncells + 2))]) := by
  obtain ⟨d1, d2⟩ := O.decl ("setup", setupTys2, none) (by simp [decls])
  dsimp only at d1 d2
  have h0 := O.fresh
  let cells := Function.update (Function.update (Function.update st.cells st.ncells 0) (st.ncells + 1) 0) (st.ncells + 2) 0
  have hc : cells k = h := by
    simp only [cells]
    rw [Function.update_of_ne (by omega), Function.update_of_ne (by omega), Function.update_of_ne (by omega), O.handle]
  refine ⟨_, _, cells, ?_, rfl, O.after hF (n := st.ncells + 3) (by omega) hc (by simp [ints2]; omega), fun c hc => ?_, rfl⟩
  · simp only [cells] at hc
    simp [exec, setupMethod, List.replicate, layout2, bindArgs, execList, execStmt, Method.locals, Stmt.assigns, readVar, readAttr,
    callC, O.lib, O.fft, evalAll, evalAtom, byref, convAll, conv, accepts, CTy.accepts, ints2, setupC2, setupTys2, hE, d1, d2, hc, readAll, cells]
  · simp only [cells]
    rw [Function.update_of_ne (by omega), Function.update_of_ne (by omega), Function.update_of_ne (by omega)]

theorem exec_tune2 (hE : lib.proto ⟨fam, "tune"⟩ = some tuneC2) (hF : lib.Frame)
    (O : Object fam setupTys2 tuneTys2 p k h st) (x : Raw2) (w : TuneArgs) :
    Passes lib fam setupTys2 tuneTys2 p k h st (tuneMethod fam layout2) ((ints2 x).map .int ++ [.int w.flag, .int w.niter, .float w.tmax, .int w.tflag]) ⟨fam, "tune"⟩
      (.ptr h :: (ints2 x).map (fun n => .int (low32 n)) ++
        [.cell st.ncells, .cell (st.ncells + 1), .cell (st.ncells + 2)] ++ [.int (low32 w.flag), .int (low32 w.niter), .double w.tmax, .int (low32 w.tflag)])
      (fun _ cells o =>
        o = .tuple [.int (cells st.ncells), .int (cells (st.ncells + 1)), .int (cells (st.ncells + 2))]) := by
  obtain ⟨d1, d2⟩ := O.decl ("tune", tuneTys2, none) (by simp [decls])
  dsimp only at d1 d2
  have h0 := O.fresh
  let cells := Function.update (Function.update (Function.update st.cells st.ncells 0) (st.ncells + 1) 0) (st.ncells + 2) 0
  have hc : cells k = h := by
    simp only [cells]
    rw [Function.update_of_ne (by omega), Function.update_of_ne (by omega), Function.update_of_ne (by omega), O.handle]
  refine ⟨_, _, cells, ?_, rfl, O.after hF (n := st.ncells + 3) (by omega) hc (by simp [ints2]; omega), fun c hc => ?_, rfl⟩
  · simp only [cells] at hc
    simp [exec, tuneMethod, layout2, bindArgs, execList, execStmt, Method.locals, Stmt.assigns, readVar, readAttr,
    callC, O.lib, O.fft, evalAll, evalAtom, byref, convAll, conv, accepts, CTy.accepts, ints2, tuneC2, setupC2, List.replicate, tuneTys2, hE, d1, d2, hc, readAll, cells]
  · simp only [cells]
    rw [Function.update_of_ne (by omega), Function.update_of_ne (by omega), Function.update_of_ne (by omega)]

end Methods

theorem map_low32 {l : List Int} (hl : ∀ n ∈ l, FitsInt n) :
    l.map (fun n => CArg.int (low32 n)) = l.map .int :=
  List.map_congr_left fun n hn => by rw [low32_eq (hl n hn)]

theorem passes3 {lib : Lib} (hE : Exports lib "fft3d" setupC3 tuneC3) (hF : lib.Frame) (hT : lib.Typed "fft3d")
    {p h : Int} {k : Nat} {st : State} (O : Object "fft3d" setupTys3 tuneTys3 p k h st) (u : Use Raw3)
    (hu : u.Fits ints3) :
    Passes lib "fft3d" setupTys3 tuneTys3 p k h st (u.python "fft3d" layout3 ints3).1
      (u.python "fft3d" layout3 ints3).2 ⟨"fft3d", u.name⟩ (u.cargs ints3 h st.ncells)
      fun r cells o => u.result st.ncells r cells o := by
  cases u with
  | set s v =>
    have := exec_set hE hF O s v
    rwa [low32_eq hu] at this
  | getInt s => exact exec_getInt hE hF hT O s
  | getInt64 s => exact exec_getInt64 hE hF hT O s
  | getDouble s => exact exec_getDouble hE hF hT O s
  | getString s => exact exec_getString hE hF hT O s
  | getIntVector s => exact exec_getIntVector hE hF hT O s
  | getDoubleVector s => exact exec_getDoubleVector hE hF hT O s
  | setup x =>
    have := exec_setup3 hE.setup hF O x
    rwa [map_low32 hu] at this
  | compute a b flag =>
    have := exec_compute hE hF O a b flag
    rwa [low32_eq hu] at this
  | only1d a flag =>
    have := exec_only1d hE hF O a flag
    rwa [low32_eq hu] at this
  | onlyRemaps a b flag =>
    have := exec_onlyRemaps hE hF O a b flag
    rwa [low32_eq hu] at this
  | onlyOne a b flag which =>
    have := exec_onlyOne hE hF O a b flag which
    rwa [low32_eq hu.1, low32_eq hu.2] at this
  | tune x w =>
    have := exec_tune3 hE.tune hF O x w
    rwa [map_low32 hu.1, low32_eq hu.2.1, low32_eq hu.2.2.1, low32_eq hu.2.2.2] at this

theorem passes2 {lib : Lib} (hE : Exports lib "fft2d" setupC2 tuneC2) (hF : lib.Frame) (hT : lib.Typed "fft2d")
    {p h : Int} {k : Nat} {st : State} (O : Object "fft2d" setupTys2 tuneTys2 p k h st) (u : Use Raw2)
    (hu : u.Fits ints2) :
    Passes lib "fft2d" setupTys2 tuneTys2 p k h st (u.python "fft2d" layout2 ints2).1
      (u.python "fft2d" layout2 ints2).2 ⟨"fft2d", u.name⟩ (u.cargs ints2 h st.ncells)
      fun r cells o => u.result st.ncells r cells o := by
  cases u with
  | set s v =>
    have := exec_set hE hF O s v
    rwa [low32_eq hu] at this
  | getInt s => exact exec_getInt hE hF hT O s
  | getInt64 s => exact exec_getInt64 hE hF hT O s
  | getDouble s => exact exec_getDouble hE hF hT O s
  | getString s => exact exec_getString hE hF hT O s
  | getIntVector s => exact exec_getIntVector hE hF hT O s
  | getDoubleVector s => exact exec_getDoubleVector hE hF hT O s
  | setup x =>
    have := exec_setup2 hE.setup hF O x
    rwa [map_low32 hu] at this
  | compute a b flag =>
    have := exec_compute hE hF O a b flag
    rwa [low32_eq hu] at this
  | only1d a flag =>
    have := exec_only1d hE hF O a flag
    rwa [low32_eq hu] at this
  | onlyRemaps a b flag =>
    have := exec_onlyRemaps hE hF O a b flag
    rwa [low32_eq hu] at this
  | onlyOne a b flag which =>
    have := exec_onlyOne hE hF O a b flag which
    rwa [low32_eq hu.1, low32_eq hu.2] at this
  | tune x w =>
    have := exec_tune2 hE.tune hF O x w
    rwa [map_low32 hu.1, low32_eq hu.2.1, low32_eq hu.2.2.1, low32_eq hu.2.2.2] at this

theorem Use.result_normal {L : Type} {n : Nat} {r : CRes} {cells : Nat → Int} {u : Use L} {o : Out}
    (h : u.result n r cells o) : o.Normal := by
  cases u <;> simp only [Use.result] at h
  case getString => rcases h with ⟨_, _, rfl⟩ | ⟨_, rfl⟩ <;> trivial
  all_goals first
    | (subst h; trivial)
    | (obtain ⟨_, _, rfl⟩ := h; trivial)

section Sessions

variable {lib : Lib} {fam : String} {setupTys tuneTys : List Ty} {p h : Int} {k : Nat} {L : Type}
  {layout : List String} {ints : L → List Int}

theorem runAll_uses
    (step : ∀ st, Object fam setupTys tuneTys p k h st → ∀ u : Use L, u.Fits ints →
      Passes lib fam setupTys tuneTys p k h st (u.python fam layout ints).1 (u.python fam layout ints).2
        ⟨fam, u.name⟩ (u.cargs ints h st.ncells) fun r cells o => u.result st.ncells r cells o)
    (us : List (Use L)) (hu : ∀ u ∈ us, u.Fits ints) (st : State) (O : Object fam setupTys tuneTys p k h st) :
    ∃ st' os, runAll lib (us.map fun u => u.python fam layout ints) st = (st', os) ∧
      Session lib fam ints h us st.calls os st'.calls ∧ Object fam setupTys tuneTys p k h st' := by
  induction us generalizing st with
  | nil => exact ⟨st, [], rfl, ⟨rfl, rfl⟩, O⟩
  | cons u r ih =>
    obtain ⟨st1, o, cells, hx, hc, O1, _, hr⟩ := step st O u (hu u (by simp))
    obtain ⟨st', os, h1, h2, h3⟩ := ih (fun v hv => hu v (by simp [hv])) st1 O1
    have hn := Use.result_normal hr
    refine ⟨st', o :: os, ?_, ⟨o, os, st.ncells, cells, rfl, hr, hc ▸ h2⟩, h3⟩
    rw [List.map_cons]
    unfold runAll
    rw [hx]
    cases o with
    | raise e => exact hn.elim
    | ub => exact hn.elim
    | ret v => simp [h1]
    | tuple v => simp [h1]

end Sessions

/-! ## The classes and the libraries -/

theorem exports3 {lib : Lib} (h : lib.proto = symbols3) : Exports lib "fft3d" setupC3 tuneC3 := by
  constructor <;> rw [h] <;> decide

theorem exports2 {lib : Lib} (h : lib.proto = symbols2) : Exports lib "fft2d" setupC2 tuneC2 := by
  constructor <;> rw [h] <;> decide

/-- The state of an object after `destroy`. -/
structure Destroyed (p : Int) (st : State) : Prop where
  lib : st.attrs "lib" = some .none
  precision : st.attrs "precision" = some (.int p)

section Destroy

variable {lib : Lib} {fam : String} {setupC tuneC : List CTy} {setupTys tuneTys : List Ty} {p h : Int} {k : Nat}
  {st : State}

theorem exec_destroy (E : Exports lib fam setupC tuneC) (O : Object fam setupTys tuneTys p k h st) :
    ∃ st', exec lib (destroyMethod fam "fft") [] st = (st', .ret .none) ∧
      st'.calls = (⟨fam, "destroy"⟩, [.ptr h]) :: st.calls ∧ Destroyed p st' := by
  obtain ⟨d1, d2⟩ := O.decl ("destroy", [.voidp], none) (by simp [decls])
  dsimp only at d1 d2
  simp [exec, destroyMethod, bindArgs, execList, execStmt, Method.locals, Stmt.assigns, readAttr, callC, O.lib,
    O.fft, evalAll, evalAtom, convAll, conv, accepts, CTy.accepts, E.destroy, d1, O.handle]
  exact ⟨by simp, by simp [O.precision]⟩

theorem exec_del (E : Exports lib fam setupC tuneC) (O : Object fam setupTys tuneTys p k h st) :
    ∃ st', exec lib (delMethod fam "fft") [] st = (st', .ret .none) ∧
      st'.calls = (⟨fam, "destroy"⟩, [.ptr h]) :: st.calls := by
  obtain ⟨d1, d2⟩ := O.decl ("destroy", [.voidp], none) (by simp [decls])
  dsimp only at d1 d2
  simp [exec, delMethod, bindArgs, execList, execStmt, Method.locals, Stmt.assigns, readAttr, callC, O.lib,
    O.fft, evalAll, evalAtom, convAll, conv, accepts, CTy.accepts, E.destroy, d1, O.handle]

theorem exec_again (D : Destroyed p st) (m : Method) (hm : m = delMethod fam "fft" ∨ m = destroyMethod fam "fft") :
    exec lib m [] st = (st, .raise .attribute) := by
  rcases hm with rfl | rfl <;>
  simp [exec, delMethod, destroyMethod, bindArgs, execList, execStmt, Method.locals, Stmt.assigns, readAttr, callC, D.lib]

end Destroy

theorem destroyed3 {lib : Lib} {p : Int} {st : State} (D : Destroyed p st) (fam : String) (u : Use Raw3) :
    ∃ st', exec lib (u.python fam layout3 ints3).1 (u.python fam layout3 ints3).2 st = (st', .raise .attribute) ∧
      st'.calls = st.calls ∧ Destroyed p st' := by
  have hl := D.lib
  have hp := D.precision
  cases u <;>
  simp [exec, Use.python, setMethod, getIntMethod, getInt64Method, getDoubleMethod, getStringMethod, getIntVectorMethod,
    getDoubleVectorMethod, setupMethod, computeMethod, only1dMethod, onlyRemapsMethod, onlyOneMethod, tuneMethod,
    bindArgs, execList, execStmt, Method.locals, Stmt.assigns, readAttr, readVar, readAll, callC, hl, hp, ints3, layout3,
    allNumpy, dataAll, D]
  all_goals exact ⟨hl, hp⟩

theorem destroyed2 {lib : Lib} {p : Int} {st : State} (D : Destroyed p st) (fam : String) (u : Use Raw2) :
    ∃ st', exec lib (u.python fam layout2 ints2).1 (u.python fam layout2 ints2).2 st = (st', .raise .attribute) ∧
      st'.calls = st.calls ∧ Destroyed p st' := by
  have hl := D.lib
  have hp := D.precision
  cases u <;>
  simp [exec, Use.python, setMethod, getIntMethod, getInt64Method, getDoubleMethod, getStringMethod, getIntVectorMethod,
    getDoubleVectorMethod, setupMethod, computeMethod, only1dMethod, onlyRemapsMethod, onlyOneMethod, tuneMethod,
    bindArgs, execList, execStmt, Method.locals, Stmt.assigns, readAttr, readVar, readAll, callC, hl, hp, ints2, layout2,
    allNumpy, dataAll, D]
  all_goals exact ⟨hl, hp⟩

end Py

end FftMpi
