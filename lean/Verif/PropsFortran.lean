import Verif.FortranLemmas

/-!
# Property C59: the Fortran interface

The claim: every procedure of the interface blocks, called with arguments of the right kinds, hands to the C function that
it is bound to what a C program would pass; and a keyword selects the member of that name.

It holds for all procedures but `fft3d_setup_memory` and `fft2d_setup_memory`, and for keywords that the caller ends with a
NUL character.  The documentation shows calls of `fft3d_set` without it.
-/

namespace FftMpi

namespace Fortran

/-- All procedures but the two: there is a C function of the name it is bound to, with the same result and the same arguments
in the same order; whatever the actual arguments are, each parameter receives what belongs to it, and the memory stays as it
is. -/
theorem C59_partial (r : Routine) (hr : r ∈ interfaces)
    (hn : r.name ≠ "fft3d_setup_memory" ∧ r.name ≠ "fft2d_setup_memory") :
    ∃ c ∈ headers, c.name = r.cname ∧ c.res = r.res ∧ sameNames r.dummies c.params = true ∧
      ∀ (m : Mem Slot) (tmp : Int) (xs : List Actual), FitsAll m c.params xs →
        ∃ vs, passAll m tmp r.dummies xs = some (vs, m, tmp) ∧ WantedAll m c.params xs vs := by
  have key : ∀ r ∈ interfaces, r.name ≠ "fft3d_setup_memory" ∧ r.name ≠ "fft2d_setup_memory" →
      ∃ c ∈ headers, c.name = r.cname ∧ c.res = r.res ∧ sameNames r.dummies c.params = true ∧
        compatibles r.dummies c.params = true := by
    decide +kernel
  obtain ⟨c, hc, h1, h2, h3, h4⟩ := key r hr hn
  exact ⟨c, hc, h1, h2, h3, fun m tmp xs hx => passAll_ok h4 hx⟩

/-- `setup_memory` (fft3d_wrap.f90:99-103, fft2d_wrap.f90:99-103): with `c_loc(sendbuf)`, `c_loc(recvbuf)` as in the
documentation, the C function does not get the addresses `s`, `r` of the buffers but those of two temporary variables. -/
theorem C59_setup_memory_false (q : Routine) (hq : q ∈ interfaces)
    (hn : q.name = "fft3d_setup_memory" ∨ q.name = "fft2d_setup_memory")
    (m : Mem Slot) (tmp fft s r : Int) :
    ∃ m' tmp', passAll m tmp q.dummies [.ptr fft, .ptr s, .ptr r] =
      some ([.addr fft, .addr tmp, .addr (tmp + 1)], m', tmp') := by
  have key : ∀ q ∈ interfaces, q.name = "fft3d_setup_memory" ∨ q.name = "fft2d_setup_memory" →
      q.dummies = [⟨"ptr", .ptr, true⟩, ⟨"sendbuf", .ptr, false⟩, ⟨"recvbuf", .ptr, false⟩] := by
    decide +kernel
  rw [key q hq hn]
  exact ⟨_, _, by simp [passAll, pass]; exact ⟨rfl, rfl⟩⟩

/-- With variables at `ps`, `pr` that hold the addresses, it gets the addresses of these variables. -/
theorem C59_setup_memory_var_false (q : Routine) (hq : q ∈ interfaces)
    (hn : q.name = "fft3d_setup_memory" ∨ q.name = "fft2d_setup_memory")
    (m : Mem Slot) (tmp fft ps pr : Int) :
    passAll m tmp q.dummies [.ptr fft, .var ps .ptr, .var pr .ptr] =
      some ([.addr fft, .addr ps, .addr pr], m, tmp) := by
  have key : ∀ q ∈ interfaces, q.name = "fft3d_setup_memory" ∨ q.name = "fft2d_setup_memory" →
      q.dummies = [⟨"ptr", .ptr, true⟩, ⟨"sendbuf", .ptr, false⟩, ⟨"recvbuf", .ptr, false⟩] := by
    decide +kernel
  rw [key q hq hn]
  simp [passAll, pass]

/-- The value of an expression, as a memory cell. -/
def Holds : Actual → Slot → Prop
  | .int n, s => s = .int n
  | .real q, s => s = .real q
  | .ptr a, s => s = .ptr a
  | _, _ => False

/-- A dummy argument without `value`: C gets an address.  For a variable or a string it is its address, and the memory stays
as it is; for the value of an expression it is the address of a new variable that holds the value, and the other cells stay as
they are. -/
theorem C59_reference {m m' : Mem Slot} {tmp tmp' : Int} {d : Dummy} (hd : d.value = false) {x : Actual} {v : CVal}
    (h : pass m tmp d x = some (v, m', tmp')) :
    ((∃ a, x = .var a d.ty ∧ v = .addr a ∧ m' = m ∧ tmp' = tmp) ∨
      (∃ a, x = .chars a ∧ d.ty = .chars ∧ v = .addr a ∧ m' = m ∧ tmp' = tmp) ∨
      ∃ s, Holds x s ∧ v = .addr tmp ∧ m' tmp = some s ∧ tmp' = tmp + 1 ∧ ∀ a, a ≠ tmp → m' a = m a) := by
  unfold pass at h
  rw [hd, if_neg (by decide)] at h
  have new : ∀ s, Holds x s → (CVal.addr tmp, Function.update m tmp (some s), tmp + 1) = (v, m', tmp') →
      ∃ s, Holds x s ∧ v = .addr tmp ∧ m' tmp = some s ∧ tmp' = tmp + 1 ∧ ∀ a, a ≠ tmp → m' a = m a := by
    intro s hs he
    cases he
    exact ⟨s, hs, rfl, by simp, rfl, fun a ha => by simp [ha]⟩
  cases x with
  | int n =>
    cases ht : d.ty <;> rw [ht] at h <;> simp only [reduceCtorEq] at h
    exact Or.inr (Or.inr (new _ rfl (Option.some.inj h)))
  | real q =>
    cases ht : d.ty <;> rw [ht] at h <;> simp only [reduceCtorEq] at h
    exact Or.inr (Or.inr (new _ rfl (Option.some.inj h)))
  | ptr a =>
    cases ht : d.ty <;> rw [ht] at h <;> simp only [reduceCtorEq] at h
    exact Or.inr (Or.inr (new _ rfl (Option.some.inj h)))
  | chars a =>
    cases ht : d.ty <;> rw [ht] at h <;> simp only [reduceCtorEq] at h
    cases h
    exact Or.inr (Or.inl ⟨a, rfl, rfl, rfl, rfl, rfl⟩)
  | var a t =>
    simp only at h
    split_ifs at h with ht
    cases h
    subst ht
    exact Or.inl ⟨a, rfl, rfl, rfl, rfl⟩

example : pass (fun _ => none) 900 ⟨"sendbuf", .ptr, false⟩ (.ptr 64) =
    some (.addr 900, Function.update (fun _ => none) 900 (some (.ptr 64)), 901) := rfl

/-! ## Keywords -/

/-- With a NUL at the end, from Fortran or from C: the functions of fft3d_wrap.cpp read the keyword inside the memory and do
what their models on strings do. -/
theorem C59_keyword3 {m : Mem Char} {a : Int} {s : String} (hs : Str m a s.toList) (f : Pub3) (v : Int) :
    set3 m a f v = some (f.set s v) ∧ getInt3 m a f = some (f.getInt s) ∧ getDouble3 m a f = some (f.getDouble s) ∧
    getInt643 m a f = some (f.getInt64 s) ∧ getString3 m a f = some (f.getString s) ∧
    getIntVector3 m a f = some (f.getIntVector s) ∧ getDoubleVector3 m a f = some (f.getDoubleVector s) := by
  refine ⟨?_, ?_, ?_, ?_, ?_, ?_, ?_⟩
  · unfold set3 Pub3.set
    repeat refine pick_step hs (by decide) ?_
    rfl
  · unfold getInt3 Pub3.getInt
    repeat refine pick_step hs (by decide) ?_
    rfl
  · unfold getDouble3 Pub3.getDouble
    repeat refine pick_step hs (by decide) ?_
    rfl
  · unfold getInt643 Pub3.getInt64
    repeat refine pick_step hs (by decide) ?_
    rfl
  · unfold getString3 Pub3.getString
    repeat refine pick_step hs (by decide) ?_
    rfl
  · unfold getIntVector3 Pub3.getIntVector
    refine congrArg (Option.map _) (?_ : _ = some _)
    repeat refine pick_step hs (by decide) ?_
    rfl
  · unfold getDoubleVector3 Pub3.getDoubleVector
    refine congrArg (Option.map _) (?_ : _ = some _)
    repeat refine pick_step hs (by decide) ?_
    rfl

/-- fft2d_wrap.cpp. -/
theorem C59_keyword2 {m : Mem Char} {a : Int} {s : String} (hs : Str m a s.toList) (f : Pub2) (v : Int) :
    set2 m a f v = some (f.set s v) ∧ getInt2 m a f = some (f.getInt s) ∧ getDouble2 m a f = some (f.getDouble s) ∧
    getInt642 m a f = some (f.getInt64 s) ∧ getString2 m a f = some (f.getString s) ∧
    getIntVector2 m a f = some (f.getIntVector s) ∧ getDoubleVector2 m a f = some (f.getDoubleVector s) := by
  refine ⟨?_, ?_, ?_, ?_, ?_, ?_, ?_⟩
  · unfold set2 Pub2.set
    repeat refine pick_step hs (by decide) ?_
    rfl
  · unfold getInt2 Pub2.getInt
    repeat refine pick_step hs (by decide) ?_
    rfl
  · unfold getDouble2 Pub2.getDouble
    repeat refine pick_step hs (by decide) ?_
    rfl
  · unfold getInt642 Pub2.getInt64
    repeat refine pick_step hs (by decide) ?_
    rfl
  · unfold getString2 Pub2.getString
    repeat refine pick_step hs (by decide) ?_
    rfl
  · unfold getIntVector2 Pub2.getIntVector
    refine congrArg (Option.map _) (?_ : _ = some _)
    repeat refine pick_step hs (by decide) ?_
    rfl
  · unfold getDoubleVector2 Pub2.getDoubleVector
    refine congrArg (Option.map _) (?_ : _ = some _)
    repeat refine pick_step hs (by decide) ?_
    rfl

/-- The remap classes. -/
theorem C59_keywordRemap {m : Mem Char} {a : Int} {s : String} (hs : Str m a s.toList) (f : PubRemap) (v : Int) :
    setRemap m a f v = some (f.set s v) := by
  unfold setRemap PubRemap.set
  repeat refine pick_step hs (by decide) ?_
  rfl

/-- Without the NUL: each of the six documented calls `fft3d_set(fft,"...",flag)` (doc/api_setup.txt:351-357) reads past the
end of the literal, outside the memory if the literal is the last thing in it. -/
theorem C59_keyword_false (s : String)
    (hs : s ∈ ["collective", "exchange", "pack", "memory", "scale", "remaponly"]) (m : Mem Char) (a : Int)
    (hm : Chars m a s.toList) (hend : m (a + s.toList.length) = none) (f : Pub3) (v : Int) : set3 m a f v = none := by
  simp only [List.mem_cons, List.not_mem_nil, or_false] at hs
  rcases hs with rfl | rfl | rfl | rfl | rfl | rfl
  all_goals
    simp [Chars, add_assoc] at hm hend
    simp [set3, pick, strEq, hm, hend, add_assoc]

/-- If something else follows, the setting can be silently ignored (`"collective"` followed by the next literal), or a
different member is meant (`"tremap"` followed by `1` and a NUL). -/
theorem C59_keyword_other_false :
    (∃ m a, Chars m a "collective".toList ∧ ∀ (f : Pub3) v, set3 m a f v = some f) ∧
    ∃ m a, Chars m a "tremap".toList ∧ ∀ f : Pub3, getDoubleVector3 m a f = some (some f.tremap1, f.ntrial) := by
  constructor
  · refine ⟨fun i => ("collectiveexchange".toList[i.toNat]?), 0, by simp [Chars], fun f v => ?_⟩
    simp [set3, pick, strEq]
  · refine ⟨fun i => ("tremap1\x00".toList[i.toNat]?), 0, by simp [Chars], fun f => ?_⟩
    simp [getDoubleVector3, pick, strEq]

/-! ## Examples -/

/-- `call fft3d_compute(fft,c_loc(work),c_loc(work),1)` with the handle 1000 in a variable at address 8, `work` at 64. -/
example : ∃ r ∈ interfaces, r.name = "fft3d_compute" ∧
    passAll (fun a => if a = 8 then some (.ptr 1000) else none) 100 r.dummies [.var 8 .ptr, .ptr 64, .ptr 64, .int 1] =
      some ([.addr 1000, .addr 64, .addr 64, .int 1], (fun a => if a = 8 then some (.ptr 1000) else none), 100) :=
  ⟨interface3[11], by decide +kernel, by decide +kernel, by simp [interface3, passAll, pass, Slot.val]⟩

/-- `"pack"//c_null_char`. -/
example : Str (fun i => ("pack\x00".toList[i.toNat]?)) 0 "pack".toList := by
  simp [Str]

end Fortran

end FftMpi
