import Verif.PyLemmas

/-!
# Property C58: the Python interface

fftmpi.py.  The claim: each method makes exactly one call of the C function of the same name with the given arguments and
returns what that function returns; `destroy` frees the object once, and later uses do not reach the C library.

It holds for all methods of the FFT classes but `setup_memory`, for integers that C's `int` can hold.  `setup_memory` never
works, no object of the remap classes can be made, and larger integers are changed without an error.
-/

namespace FftMpi

namespace Py

/-- `FFT3dMPI`: the constructor, any sequence of uses, `destroy`.  The constructor calls `fft3d_create` and keeps the pointer `h`
that it wrote; each use makes exactly its C call on `h` and has the outcome that belongs to its result; `destroy` calls
`fft3d_destroy(h)`.  Nothing else is called.  Missing: `setup_memory`, which is broken, and integers outside C's `int`. -/
theorem C58_session3_partial {lib : Lib} (hS : lib.proto = symbols3) (hF : lib.Frame) (hT : lib.Typed "fft3d")
    (c p : Int) (hp : p = 1 ∨ p = 2) (us : List (Use Raw3)) (hu : ∀ u ∈ us, u.Fits ints3) (st : State) :
    ∃ st1 st2 st3 os, ∃ h : Int,
      exec lib (fftInit "fft3d" setupTys3 tuneTys3) [.comm c, .int p] st = (st1, .ret .none) ∧
      st1.calls = (⟨"fft3d", "create"⟩, [.comm c, .int p, .cell st.ncells]) :: st.calls ∧
      h = st1.cells st.ncells ∧
      runAll lib (us.map fun u => u.python "fft3d" layout3 ints3) st1 = (st2, os) ∧
      Session lib "fft3d" ints3 h us st1.calls os st2.calls ∧
      exec lib (destroyMethod "fft3d" "fft") [] st2 = (st3, .ret .none) ∧
      st3.calls = (⟨"fft3d", "destroy"⟩, [.ptr h]) :: st2.calls := by
  have hE := exports3 hS
  obtain ⟨st1, h1, h2, O⟩ := exec_create hE setupTys3 tuneTys3 c p hp st
  obtain ⟨st2, os, h3, h4, O2⟩ := runAll_uses (fun st O u hu => passes3 hE hF hT O u hu) us hu st1 O
  obtain ⟨st3, h5, h6, _⟩ := exec_destroy hE O2
  exact ⟨st1, st2, st3, os, _, h1, h2, rfl, h3, h4, h5, h6⟩

/-- `FFT2dMPI`, in the same way. -/
theorem C58_session2_partial {lib : Lib} (hS : lib.proto = symbols2) (hF : lib.Frame) (hT : lib.Typed "fft2d")
    (c p : Int) (hp : p = 1 ∨ p = 2) (us : List (Use Raw2)) (hu : ∀ u ∈ us, u.Fits ints2) (st : State) :
    ∃ st1 st2 st3 os, ∃ h : Int,
      exec lib (fftInit "fft2d" setupTys2 tuneTys2) [.comm c, .int p] st = (st1, .ret .none) ∧
      st1.calls = (⟨"fft2d", "create"⟩, [.comm c, .int p, .cell st.ncells]) :: st.calls ∧
      h = st1.cells st.ncells ∧
      runAll lib (us.map fun u => u.python "fft2d" layout2 ints2) st1 = (st2, os) ∧
      Session lib "fft2d" ints2 h us st1.calls os st2.calls ∧
      exec lib (destroyMethod "fft2d" "fft") [] st2 = (st3, .ret .none) ∧
      st3.calls = (⟨"fft2d", "destroy"⟩, [.ptr h]) :: st2.calls := by
  have hE := exports2 hS
  obtain ⟨st1, h1, h2, O⟩ := exec_create hE setupTys2 tuneTys2 c p hp st
  obtain ⟨st2, os, h3, h4, O2⟩ := runAll_uses (fun st O u hu => passes2 hE hF hT O u hu) us hu st1 O
  obtain ⟨st3, h5, h6, _⟩ := exec_destroy hE O2
  exact ⟨st1, st2, st3, os, _, h1, h2, rfl, h3, h4, h5, h6⟩

/-- After `destroy`: every method, `destroy` and `__del__` raise `AttributeError` and call no C function, however often
they are tried.  So the object is freed once.  Without `destroy`, `__del__` frees it. -/
theorem C58_freed_once3 {lib : Lib} (hS : lib.proto = symbols3) (hF : lib.Frame) (hT : lib.Typed "fft3d")
    (c p : Int) (hp : p = 1 ∨ p = 2) (us : List (Use Raw3)) (hu : ∀ u ∈ us, u.Fits ints3) (st st1 st2 : State)
    (os : List Out) (h1 : exec lib (fftInit "fft3d" setupTys3 tuneTys3) [.comm c, .int p] st = (st1, .ret .none))
    (h2 : runAll lib (us.map fun u => u.python "fft3d" layout3 ints3) st1 = (st2, os)) :
    (∃ st', exec lib (delMethod "fft3d" "fft") [] st2 = (st', .ret .none) ∧
      st'.calls = (⟨"fft3d", "destroy"⟩, [.ptr (st1.cells st.ncells)]) :: st2.calls) ∧
    ∃ st3, exec lib (destroyMethod "fft3d" "fft") [] st2 = (st3, .ret .none) ∧
      ∀ later : List (Method × List Val),
        (∀ m ∈ later, m = (delMethod "fft3d" "fft", []) ∨ m = (destroyMethod "fft3d" "fft", []) ∨
          ∃ u : Use Raw3, m = u.python "fft3d" layout3 ints3) →
        ∀ st4, st4 = later.foldl (fun s m => (exec lib m.1 m.2 s).1) st3 →
          st4.calls = st3.calls ∧
          ∀ m ∈ later, (exec lib m.1 m.2 st4).2 = .raise .attribute := by
  have hE := exports3 hS
  obtain ⟨st1', h1', _, O⟩ := exec_create hE setupTys3 tuneTys3 c p hp st
  obtain rfl : st1' = st1 := congrArg Prod.fst (h1'.symm.trans h1)
  obtain ⟨st2', os', h3, h4, O2⟩ := runAll_uses (fun st O u hu => passes3 hE hF hT O u hu) us hu _ O
  obtain rfl : st2' = st2 := congrArg Prod.fst (h3.symm.trans h2)
  obtain ⟨st3, h5, h6, D⟩ := exec_destroy hE O2
  refine ⟨exec_del hE O2, st3, h5, fun later hl st4 h4 => ?_⟩
  have one : ∀ m ∈ later, ∀ s, Destroyed p s →
      ∃ s', exec lib m.1 m.2 s = (s', .raise .attribute) ∧ s'.calls = s.calls ∧ Destroyed p s' := by
    intro m hm s D
    rcases hl m hm with rfl | rfl | ⟨u, rfl⟩
    · exact ⟨s, exec_again D _ (Or.inl rfl), rfl, D⟩
    · exact ⟨s, exec_again D _ (Or.inr rfl), rfl, D⟩
    · exact destroyed3 D _ u
  have all : ∀ ms : List (Method × List Val), (∀ m ∈ ms, m ∈ later) → ∀ s, Destroyed p s →
      (ms.foldl (fun s m => (exec lib m.1 m.2 s).1) s).calls = s.calls ∧
      Destroyed p (ms.foldl (fun s m => (exec lib m.1 m.2 s).1) s) := by
    intro ms
    induction ms with
    | nil => exact fun _ s D => ⟨rfl, D⟩
    | cons m r ih =>
      intro hm s D
      obtain ⟨s', e, e1, D'⟩ := one m (hm m (by simp)) s D
      rw [List.foldl_cons, e]
      obtain ⟨a, b⟩ := ih (fun x hx => hm x (by simp [hx])) s' D'
      exact ⟨a.trans e1, b⟩
  obtain ⟨a, b⟩ := all later (fun _ h => h) st3 D
  subst h4
  refine ⟨a, fun m hm => ?_⟩
  obtain ⟨s', e, _⟩ := one m hm _ b
  rw [e]

/-- The same in 2d. -/
theorem C58_freed_once2 {lib : Lib} (hS : lib.proto = symbols2) (hF : lib.Frame) (hT : lib.Typed "fft2d")
    (c p : Int) (hp : p = 1 ∨ p = 2) (us : List (Use Raw2)) (hu : ∀ u ∈ us, u.Fits ints2) (st st1 st2 : State)
    (os : List Out) (h1 : exec lib (fftInit "fft2d" setupTys2 tuneTys2) [.comm c, .int p] st = (st1, .ret .none))
    (h2 : runAll lib (us.map fun u => u.python "fft2d" layout2 ints2) st1 = (st2, os)) :
    (∃ st', exec lib (delMethod "fft2d" "fft") [] st2 = (st', .ret .none) ∧
      st'.calls = (⟨"fft2d", "destroy"⟩, [.ptr (st1.cells st.ncells)]) :: st2.calls) ∧
    ∃ st3, exec lib (destroyMethod "fft2d" "fft") [] st2 = (st3, .ret .none) ∧
      ∀ later : List (Method × List Val),
        (∀ m ∈ later, m = (delMethod "fft2d" "fft", []) ∨ m = (destroyMethod "fft2d" "fft", []) ∨
          ∃ u : Use Raw2, m = u.python "fft2d" layout2 ints2) →
        ∀ st4, st4 = later.foldl (fun s m => (exec lib m.1 m.2 s).1) st3 →
          st4.calls = st3.calls ∧
          ∀ m ∈ later, (exec lib m.1 m.2 st4).2 = .raise .attribute := by
  have hE := exports2 hS
  obtain ⟨st1', h1', _, O⟩ := exec_create hE setupTys2 tuneTys2 c p hp st
  obtain rfl : st1' = st1 := congrArg Prod.fst (h1'.symm.trans h1)
  obtain ⟨st2', os', h3, h4, O2⟩ := runAll_uses (fun st O u hu => passes2 hE hF hT O u hu) us hu _ O
  obtain rfl : st2' = st2 := congrArg Prod.fst (h3.symm.trans h2)
  obtain ⟨st3, h5, h6, D⟩ := exec_destroy hE O2
  refine ⟨exec_del hE O2, st3, h5, fun later hl st4 h4 => ?_⟩
  have one : ∀ m ∈ later, ∀ s, Destroyed p s →
      ∃ s', exec lib m.1 m.2 s = (s', .raise .attribute) ∧ s'.calls = s.calls ∧ Destroyed p s' := by
    intro m hm s D
    rcases hl m hm with rfl | rfl | ⟨u, rfl⟩
    · exact ⟨s, exec_again D _ (Or.inl rfl), rfl, D⟩
    · exact ⟨s, exec_again D _ (Or.inr rfl), rfl, D⟩
    · exact destroyed2 D _ u
  have all : ∀ ms : List (Method × List Val), (∀ m ∈ ms, m ∈ later) → ∀ s, Destroyed p s →
      (ms.foldl (fun s m => (exec lib m.1 m.2 s).1) s).calls = s.calls ∧
      Destroyed p (ms.foldl (fun s m => (exec lib m.1 m.2 s).1) s) := by
    intro ms
    induction ms with
    | nil => exact fun _ s D => ⟨rfl, D⟩
    | cons m r ih =>
      intro hm s D
      obtain ⟨s', e, e1, D'⟩ := one m (hm m (by simp)) s D
      rw [List.foldl_cons, e]
      obtain ⟨a, b⟩ := ih (fun x hx => hm x (by simp [hx])) s' D'
      exact ⟨a.trans e1, b⟩
  obtain ⟨a, b⟩ := all later (fun _ h => h) st3 D
  subst h4
  refine ⟨a, fun m hm => ?_⟩
  obtain ⟨s', e, _⟩ := one m hm _ b
  rw [e]

/-- Not a precision: `sys.exit()` before any C call. -/
theorem C58_precision (lib : Lib) (fam : String) (setupTys tuneTys : List Ty) (c : Val) (p : Val)
    (hp : p ≠ .int 1 ∧ p ≠ .int 2) (st : State) :
    ∃ st', exec lib (fftInit fam setupTys tuneTys) [c, p] st = (st', .raise .systemExit) ∧ st'.calls = st.calls := by
  simp [exec, fftInit, bindArgs, execList, execStmt, Method.locals, Stmt.assigns, readVar, hp]

/-- Not a numpy array: `sys.exit()` before any C call. -/
theorem C58_arrays (lib : Lib) (fam : String) (a b flag which : Val) (st : State)
    (h : (∀ x, a ≠ .array x) ∨ ∀ x, b ≠ .array x) :
    exec lib (computeMethod fam) [a, b, flag] st = (st, .raise .systemExit) ∧
    exec lib (onlyRemapsMethod fam) [a, b, flag] st = (st, .raise .systemExit) ∧
    exec lib (onlyOneMethod fam) [a, b, flag, which] st = (st, .raise .systemExit) ∧
    exec lib (setupMemoryMethod fam) [a, b] st = (st, .raise .systemExit) ∧
    ((∀ x, a ≠ .array x) → exec lib (only1dMethod fam) [a, flag] st = (st, .raise .systemExit)) := by
  refine ⟨?_, ?_, ?_, ?_, fun ha => ?_⟩
  all_goals
    simp [exec, computeMethod, onlyRemapsMethod, onlyOneMethod, setupMemoryMethod, only1dMethod, bindArgs, execList, execStmt,
      Method.locals, Stmt.assigns, readVar, readAll, allNumpy]
    try (cases a <;> cases b <;> simp_all)

/-- `setup_memory` (fftmpi.py:207-219, 461-473) never reaches the C library: with any two numpy arrays, on any object, it
raises `UnboundLocalError`. -/
theorem C58_setup_memory_false (lib : Lib) (fam : String) (a b : Int) (st : State) (p : Val)
    (hp : st.attrs "precision" = some p) :
    exec lib (setupMemoryMethod fam) [.array a, .array b] st = (st, .raise .unboundLocal) := by
  simp [exec, setupMemoryMethod, bindArgs, execList, execStmt, Method.locals, Stmt.assigns, readVar, readAll, allNumpy,
    readAttr, hp, dataAll]

/-- `setup_memory` with the two names on the right of the assignments replaced by the parameters, as must have been meant. -/
def setupMemoryMeant (fam : String) : Method :=
  { setupMemoryMethod fam with
    body := (setupMemoryMethod fam).body.map fun s => match s with
      | .dataAs l => .dataAs (l.map fun x => (x.1, (x.1.drop 1).toString))
      | s => s }

/-- The two names are all that is wrong with `setup_memory`: with the parameters in their place, on any object made by the
constructor of `FFT3dMPI`, it makes exactly the call `fft3d_setup_memory(h,sendbuf,recvbuf)`. -/
theorem C58_setup_memory_meant3 {lib : Lib} (hS : lib.proto = symbols3) (c p : Int) (hp : p = 1 ∨ p = 2) (a b : Int)
    (st : State) :
    ∃ st1 st2, exec lib (fftInit "fft3d" setupTys3 tuneTys3) [.comm c, .int p] st = (st1, .ret .none) ∧
      exec lib (setupMemoryMeant "fft3d") [.array a, .array b] st1 = (st2, .ret .none) ∧
      st2.calls = (⟨"fft3d", "setup_memory"⟩, [.ptr (st1.cells st.ncells), .ptr a, .ptr b]) :: st1.calls := by
  have E := exports3 hS
  obtain ⟨st1, h1, -, O⟩ := exec_create E setupTys3 tuneTys3 c p hp st
  refine ⟨st1, { st1 with
    cells := (lib.call st1.calls ⟨"fft3d", "setup_memory"⟩ [.ptr (st1.cells st.ncells), .ptr a, .ptr b] st1.cells).2
    calls := (⟨"fft3d", "setup_memory"⟩, [.ptr (st1.cells st.ncells), .ptr a, .ptr b]) :: st1.calls }, h1, ?_, rfl⟩
  obtain ⟨d1, d2⟩ := O.decl ("setup_memory", [.voidp, .ptr (scalarTy p), .ptr (scalarTy p)], none) (by simp [decls])
  dsimp only at d1 d2
  have hp := O.precision
  have hs : scalarTy p = if Val.int p = .int 1 then .float else .double := by simp [scalarTy]
  have e1 : ("csendbuf".drop 1).copy = "sendbuf" := by decide +kernel
  have e2 : ("crecvbuf".drop 1).copy = "recvbuf" := by decide +kernel
  simp [exec, setupMemoryMeant, setupMemoryMethod, bindArgs, execList, execStmt, Method.locals, Stmt.assigns, readVar,
    readAttr, callC, O.lib, O.fft, evalAll, evalAtom, convAll, conv, accepts, CTy.accepts, E.setupMemory, d1, hp,
    hs, allNumpy, readAll, dataAll, e1, e2]

/-- The same for `FFT2dMPI`. -/
theorem C58_setup_memory_meant2 {lib : Lib} (hS : lib.proto = symbols2) (c p : Int) (hp : p = 1 ∨ p = 2) (a b : Int)
    (st : State) :
    ∃ st1 st2, exec lib (fftInit "fft2d" setupTys2 tuneTys2) [.comm c, .int p] st = (st1, .ret .none) ∧
      exec lib (setupMemoryMeant "fft2d") [.array a, .array b] st1 = (st2, .ret .none) ∧
      st2.calls = (⟨"fft2d", "setup_memory"⟩, [.ptr (st1.cells st.ncells), .ptr a, .ptr b]) :: st1.calls := by
  have E := exports2 hS
  obtain ⟨st1, h1, -, O⟩ := exec_create E setupTys2 tuneTys2 c p hp st
  refine ⟨st1, { st1 with
    cells := (lib.call st1.calls ⟨"fft2d", "setup_memory"⟩ [.ptr (st1.cells st.ncells), .ptr a, .ptr b] st1.cells).2
    calls := (⟨"fft2d", "setup_memory"⟩, [.ptr (st1.cells st.ncells), .ptr a, .ptr b]) :: st1.calls }, h1, ?_, rfl⟩
  obtain ⟨d1, d2⟩ := O.decl ("setup_memory", [.voidp, .ptr (scalarTy p), .ptr (scalarTy p)], none) (by simp [decls])
  dsimp only at d1 d2
  have hp := O.precision
  have hs : scalarTy p = if Val.int p = .int 1 then .float else .double := by simp [scalarTy]
  have e1 : ("csendbuf".drop 1).copy = "sendbuf" := by decide +kernel
  have e2 : ("crecvbuf".drop 1).copy = "recvbuf" := by decide +kernel
  simp [exec, setupMemoryMeant, setupMemoryMethod, bindArgs, execList, execStmt, Method.locals, Stmt.assigns, readVar,
    readAttr, callC, O.lib, O.fft, evalAll, evalAtom, convAll, conv, accepts, CTy.accepts, E.setupMemory, d1, hp,
    hs, allNumpy, readAll, dataAll, e1, e2]

/-- No object of the class `Remap3dMPI` can be made: for every communicator and precision the constructor raises
`AttributeError` (fftmpi.py:600: the library has no `remap3d_compute`) and calls no C function. -/
theorem C58_remap3_false {lib : Lib} (hS : lib.proto = symbols3) (c p : Int) (hp : p = 1 ∨ p = 2) (st : State) :
    ∃ st', exec lib (remapInit "remap3d" remapTys3) [.comm c, .int p] st = (st', .raise .attribute) ∧
      st'.calls = st.calls := by
  have e1 : lib.proto ⟨"remap3d", "create"⟩ = some [.comm, .outptr] := by rw [hS]; decide
  have e2 : lib.proto ⟨"remap3d", "destroy"⟩ = some [.voidp] := by rw [hS]; decide
  have e3 : lib.proto ⟨"remap3d", "set"⟩ = some [.voidp, .str, .int] := by rw [hS]; decide
  have e4 : (lib.proto ⟨"remap3d", "setup"⟩).isSome := by rw [hS]; decide
  have e5 : (lib.proto ⟨"remap3d", "remap"⟩).isSome := by rw [hS]; decide
  have e6 : lib.proto ⟨"remap3d", "compute"⟩ = none := by rw [hS]; decide
  rcases hp with rfl | rfl <;>
  simp [exec, remapInit, bindArgs, execList, execStmt, Method.locals, Stmt.assigns, readVar, readAttr, onLib,
      e1, e2, e3, e4, e5, e6]

/-- The same for `Remap2dMPI` (fftmpi.py:703). -/
theorem C58_remap2_false {lib : Lib} (hS : lib.proto = symbols2) (c p : Int) (hp : p = 1 ∨ p = 2) (st : State) :
    ∃ st', exec lib (remapInit "remap2d" remapTys2) [.comm c, .int p] st = (st', .raise .attribute) ∧
      st'.calls = st.calls := by
  have e1 : lib.proto ⟨"remap2d", "create"⟩ = some [.comm, .outptr] := by rw [hS]; decide
  have e2 : lib.proto ⟨"remap2d", "destroy"⟩ = some [.voidp] := by rw [hS]; decide
  have e3 : lib.proto ⟨"remap2d", "set"⟩ = some [.voidp, .str, .int] := by rw [hS]; decide
  have e4 : (lib.proto ⟨"remap2d", "setup"⟩).isSome := by rw [hS]; decide
  have e5 : (lib.proto ⟨"remap2d", "remap"⟩).isSome := by rw [hS]; decide
  have e6 : lib.proto ⟨"remap2d", "compute"⟩ = none := by rw [hS]; decide
  rcases hp with rfl | rfl <;>
  simp [exec, remapInit, bindArgs, execList, execStmt, Method.locals, Stmt.assigns, readVar, readAttr, onLib,
      e1, e2, e3, e4, e5, e6]

/-- Without that line the class would not work either.  `setup` raises `NameError` on every object with a handle
(fftmpi.py:626-629: `sendsize` is not defined anywhere), and the attribute `self.remap` (line 604) hides the method
`remap`: calling it raises `TypeError`. -/
theorem C58_remap_methods_false {lib : Lib} (hS : lib.proto = symbols3) (st : State) (k : Nat)
    (hl : st.attrs "lib" = some .other) (hr : st.attrs "remap" = some (.cobj .voidp k)) :
    (∀ vs : List Int, vs.length = 15 →
      exec lib (remapSetupMethod "remap3d" (layout3.drop 3 |>.dropLast)) (vs.map .int) st = (st, .raise .name)) ∧
    ∀ args, invoke lib "remap" (remapMethod "remap3d") args st = (st, .raise .type) := by
  have e4 : (lib.proto ⟨"remap3d", "setup"⟩).isSome := by rw [hS]; decide
  obtain ⟨ps, e4⟩ := Option.isSome_iff_exists.mp e4
  constructor
  · intro vs hv
    match vs, hv with
    | [a, b, c, d, e, f, g, h, i, j, k, l, m, n, o], _ =>
      simp [exec, remapSetupMethod, layout3, bindArgs, execList, execStmt, Method.locals, Stmt.assigns, readVar, readAttr,
        callC, hl, e4, evalAll, evalAtom, hr]
  · intro args
    simp [invoke, hr]

/-- An integer that C's `int` cannot hold is changed without an error: with `nfast = 2^32 + 8` the C function gets 8. -/
theorem C58_int_false {lib : Lib} (hS : lib.proto = symbols3) (hF : lib.Frame) {p h : Int} {k : Nat} {st : State}
    (O : Object "fft3d" setupTys3 tuneTys3 p k h st) (s : String) :
    ∃ st', exec lib (setMethod "fft3d" "fft") [.str s, .int (2 ^ 32 + 8)] st = (st', .ret .none) ∧
      st'.calls = (⟨"fft3d", "set"⟩, [.ptr h, .str s, .int 8]) :: st.calls := by
  obtain ⟨st', o, _, h1, h2, _, _, rfl⟩ := exec_set (exports3 hS) hF O s (2 ^ 32 + 8)
  exact ⟨st', h1, h2⟩

/-- What ctypes accepts for a declared `double` and for a declared pointer, and what C gets: a Python number gives that
number, and a pointer is accepted only if it was made for the declared element type.  Anything else is an `ArgumentError`. -/
theorem C58_conv (cells : Nat → Int) (x : Arg) (y : CArg) (t : Ty) :
    (conv cells .double x = .ok y ↔ ∃ q : ℚ, y = .double q ∧ (x = .val (.float q) ∨ ∃ n : Int, x = .val (.int n) ∧ q = n)) ∧
    (conv cells (.ptr t) x = .ok y ↔
      (∃ a, x = .val (.cptr t a) ∧ y = .ptr a) ∨ ∃ c, x = .ref t c ∧ y = .cell c) ∧
    ((∀ z, conv cells .double x ≠ .ok z) → conv cells .double x = .error .argument) ∧
    ((∀ z, conv cells (.ptr t) x ≠ .ok z) → conv cells (.ptr t) x = .error .argument) := by
  refine ⟨?_, ?_, ?_, ?_⟩
  · cases x with
    | ref t c => simp [conv]
    | val v => cases v <;> simp [conv, eq_comm]
  · cases x with
    | ref t' c =>
      by_cases h : t = t'
      · subst h
        simp [conv, eq_comm]
      · simp [conv, h, Ne.symm h, eq_comm]
    | val v =>
      cases v with
      | cptr t' a =>
        by_cases h : t = t'
        · subst h
          simp [conv, eq_comm]
        · simp [conv, h, Ne.symm h, eq_comm]
      | _ => simp [conv]
  · cases x with
    | ref t c => simp [conv]
    | val v => cases v <;> simp [conv]
  · cases x with
    | ref t' c =>
      by_cases h : t = t' <;> simp [conv, h]
    | val v =>
      cases v with
      | cptr t' a => by_cases h : t = t' <;> simp [conv, h]
      | _ => simp [conv]

/-! ## Examples -/

/-- A library whose `create` writes the pointer 1000; `setup` writes 8, 4, 2; the others return constants. -/
def demoLib : Lib where
  proto := symbols3
  call _ f args cells :=
    ((match f.name with
      | "get_int" => .int 7
      | "get_int64" => .int 9
      | "get_double" => .double (1 / 2)
      | "get_string" => .str "KISS"
      | "get_int_vector" => .ptr 5000
      | "get_double_vector" => .ptr 0
      | _ => .void),
     fun c => if .cell c ∈ args then (if f.name = "create" then 1000 else 8) else cells c)

theorem demoLib_frame : demoLib.Frame := by
  intro hist f args cells c hc
  simp [demoLib, hc]

theorem demoLib_typed : demoLib.Typed "fft3d" := by
  constructor <;> simp [demoLib]

/-- The start: nothing declared, nothing called. -/
def demoState : State := ⟨fun _ => none, fun _ => 0, 0, fun _ => none, fun _ => none, []⟩

/-- A use of the class: all methods. -/
def demoUses : List (Use Raw3) :=
  [.set "collective" 2, .setup ⟨8, 8, 8, 0, 3, 0, 7, 0, 7, 0, 7, 0, 3, 0, 7, 0⟩, .compute 64 64 1, .compute 64 64 (-1),
   .only1d 64 1, .onlyRemaps 64 64 1, .onlyOne 64 64 1 2, .getInt "npfast1", .getInt64 "fftbytes", .getDouble "setuptime",
   .getString "fft1d", .getIntVector "cflags", .getDoubleVector "tfft"]

example : ∀ u ∈ demoUses, u.Fits ints3 := by
  simp [demoUses, Use.Fits, FitsInt, ints3]

example : (runAll demoLib (demoUses.map fun u => u.python "fft3d" layout3 ints3)
    (exec demoLib (fftInit "fft3d" setupTys3 tuneTys3) [.comm 91, .int 2] demoState).1).2 =
    [.ret .none, .tuple [.int 8, .int 8, .int 8], .ret .none, .ret .none, .ret .none, .ret .none, .ret .none,
     .ret (.int 7), .ret (.int 9), .ret (.float (1 / 2)), .ret (.str "KISS"), .ret (.slice .int 5000 8), .ret .none] := by
  decide +kernel

/-- **C58 (what C functions take).**  The model calls a C function only with as many arguments as its prototype has
parameters, each of the kind of the parameter; everything else is undefined behaviour. -/
theorem C58_accepts (ps : List CTy) (xs : List CArg) :
    accepts ps xs = true ↔ List.Forall₂ (fun t x =>
      (t = .int ∧ ∃ n, x = .int n) ∨ (t = .double ∧ ∃ q, x = .double q) ∨ (t = .str ∧ ∃ s, x = .str s) ∨
      ((t = .voidp ∨ t = .scalar) ∧ ∃ a, x = .ptr a) ∨ ((t = .out ∨ t = .outptr) ∧ ∃ c, x = .cell c) ∨
      t = .comm ∧ ∃ h, x = .comm h) ps xs := by
  induction ps generalizing xs with
  | nil => cases xs <;> simp [accepts]
  | cons t ts ih =>
    cases xs with
    | nil => simp [accepts]
    | cons x xs =>
      rw [accepts, Bool.and_eq_true, ih, List.forall₂_cons]
      refine and_congr_left fun _ => ?_
      cases t <;> cases x <;> simp [CTy.accepts]

example : accepts [.voidp, .str, .out] [.ptr 64, .str "fft2d", .cell 3] = true ∧
    accepts [.voidp, .str, .out] [.ptr 64, .str "fft2d"] = false := by decide

end Py

end FftMpi
