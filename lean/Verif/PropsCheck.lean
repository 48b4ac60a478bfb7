import Verif.PropsFft3dBad
import Verif.PropsFft2dMore

/-!
C29, exactly: which calls of `setup` are accepted, and which error the others end with.  The conditions are those that
fft3d.cpp:247-275 and fft2d.cpp:251-276 test, in terms of the grid: sizes, prime factors, boxes within the grid, number of points.
-/

namespace FftMpi

/-- The grid has at least two points in every dimension. -/
def Sizes3 (a : Args3) : Prop := 2 ≤ a.nfast ∧ 2 ≤ a.nmid ∧ 2 ≤ a.nslow

/-- All prime factors are 2, 3 or 5. -/
def Smooth3 (a : Args3) : Prop := FiveSmooth a.nfast ∧ FiveSmooth a.nmid ∧ FiveSmooth a.nslow

/-- The input boxes lie in the grid; an empty box may end one before its start. -/
def Inside3 (P : Nat) (a : Args3) : Prop := ∀ r < P, (a.ins r).Proper ∧ (a.ins r).Within a.nfast a.nmid a.nslow

/-- The input boxes have as many points as the grid. -/
def Full3 (P : Nat) (a : Args3) : Prop := ∑ r ∈ Finset.range P, (a.ins r).count = a.nfast * a.nmid * a.nslow

/-- The error that `setup` ends with: the first condition that does not hold. -/
inductive Rejects3 (P : Nat) (a : Args3) : SetupErr → Prop
  | dimension (h : ¬ Sizes3 a) : Rejects3 P a .dimension
  | factorable (h1 : Sizes3 a) (h : ¬ Smooth3 a) : Rejects3 P a .factorable
  | indices (h1 : Sizes3 a) (h2 : Smooth3 a) (h : ¬ Inside3 P a) : Rejects3 P a .indices
  | tiling (h1 : Sizes3 a) (h2 : Smooth3 a) (h3 : Inside3 P a) (h : ¬ Full3 P a) : Rejects3 P a .tiling

theorem setupCheck_some {P : Nat} {a : Args3} {e : SetupErr} (h : setupCheck P a = some e) : Rejects3 P a e := by
  have hno : ¬ (Sizes3 a ∧ Smooth3 a ∧ Inside3 P a ∧ Full3 P a) := fun k => by
    rw [setupCheck_none.mpr k] at h
    cases h
  unfold setupCheck at h
  by_cases h1 : a.nfast < 2 ∨ a.nmid < 2 ∨ a.nslow < 2
  · rw [if_pos h1] at h
    cases h
    exact .dimension (by unfold Sizes3; omega)
  rw [if_neg h1] at h
  have k1 : Sizes3 a := by unfold Sizes3; omega
  have k2 : Smooth3 a ↔ ¬ (!primeFactorable a.nfast || !primeFactorable a.nmid || !primeFactorable a.nslow) = true := by
    unfold Smooth3
    rw [← primeFactorable_iff a.nfast (by omega), ← primeFactorable_iff a.nmid (by omega),
      ← primeFactorable_iff a.nslow (by omega)]
    simp [and_assoc]
  by_cases h2 : (!primeFactorable a.nfast || !primeFactorable a.nmid || !primeFactorable a.nslow) = true
  · rw [if_pos h2] at h
    cases h
    exact .factorable k1 fun k => k2.mp k h2
  rw [if_neg h2] at h
  by_cases h3 : allMax P (fun r => badIndices a.nfast a.nmid a.nslow (a.ins r)) = true
  · rw [if_pos h3] at h
    cases h
    refine .indices k1 (k2.mpr h2) fun k => ?_
    obtain ⟨r, hr, hb⟩ := allMax_true.mp h3
    rw [badIndices_false.mpr (k r hr)] at hb
    cases hb
  rw [if_neg h3] at h
  have k3 : Inside3 P a := fun r hr => badIndices_false.mp (allMax_false.mp (by simpa using h3) r hr)
  split at h
  · cases h
    exact .tiling k1 (k2.mpr h2) k3 fun k => hno ⟨k1, k2.mpr h2, k3, k⟩
  · cases h

/-- **C29, exactly.**  `setup` is accepted if and only if the grid has supported sizes, all input boxes lie in the grid, and they
have as many points as the grid. -/
theorem C29_iff {P me : Nat} {a : Args3} {st : Settings} (hme : me < P) (hst : st.Valid)
    (hp : a.permute = 0 ∨ a.permute = 1 ∨ a.permute = 2) (h1 : a.nfast < 2 ^ 31) (h2 : a.nmid < 2 ^ 31) (h3 : a.nslow < 2 ^ 31)
    (hr : FpOK P a.fp) :
    (∃ f : Fft3 ℝ, fft3Setup P me a st = some (.ok f)) ↔ Sizes3 a ∧ Smooth3 a ∧ Inside3 P a ∧ Full3 P a :=
  ⟨fun ⟨_, h⟩ => setupCheck_none.mp (check_of_fft3Setup h),
    fun h => fft3Setup_of_check hme (setupCheck_none.mpr h) hst hp h1 h2 h3 hr⟩

/-- **C29: errors.**  Otherwise `setup` ends on every rank with the error for the first condition that does not hold, whatever the
settings, `permute` and the output boxes are. -/
theorem C29_error {P : Nat} {a : Args3} (h : ¬ (Sizes3 a ∧ Smooth3 a ∧ Inside3 P a ∧ Full3 P a)) :
    ∃ e, Rejects3 P a e ∧ ∀ (me : Nat) (st : Settings), fft3Setup (α := ℝ) P me a st = some (.error e) := by
  cases hc : setupCheck P a with
  | none => exact absurd (setupCheck_none.mp hc) h
  | some e => exact ⟨e, setupCheck_some hc, fun me st => by unfold fft3Setup; rw [hc]⟩

/-- The error is determined by the arguments. -/
theorem Rejects3.unique {P : Nat} {a : Args3} {e e' : SetupErr} (h : Rejects3 P a e) (h' : Rejects3 P a e') : e = e' := by
  cases h <;> cases h' <;> first | rfl | contradiction

/-- **C29: what the count misses.**  If all other conditions hold, a call is rejected for the number of points whenever the boxes
have a gap and no overlap, or an overlap and no gap. -/
theorem C29_gap_or_overlap {P : Nat} {a : Args3} (k1 : Sizes3 a) (k2 : Smooth3 a) (k3 : Inside3 P a)
    (h : (Disjoint3 P a.ins ∧ ¬ Tiles3 P a.ins a.nfast a.nmid a.nslow) ∨
      (¬ Disjoint3 P a.ins ∧ ∀ i j k : Int, 0 ≤ i ∧ i < a.nfast → 0 ≤ j ∧ j < a.nmid → 0 ≤ k ∧ k < a.nslow →
        ∃ r < P, (a.ins r).Has i j k)) (me : Nat) (st : Settings) :
    fft3Setup (α := ℝ) P me a st = some (.error .tiling) := by
  have hn : ¬ Full3 P a := by
    intro k4
    have d : 0 < a.nfast ∧ 0 < a.nmid ∧ 0 < a.nslow := by unfold Sizes3 at k1; omega
    rcases h with ⟨hd, hT⟩ | ⟨hd, hc⟩
    · refine hT (tiles_of_count (by omega) (by omega) (by omega) hd ?_ k4)
      intro r hr i j k hh
      have := (k3 r hr).2
      unfold Box3.Within at this
      unfold Box3.Has at hh
      omega
    · exact hd (disjoint_of_cover (n1 := a.nfast) (n2 := a.nmid) (n3 := a.nslow) (by omega) (by omega) (by omega) hc k4)
  obtain ⟨e, he, h'⟩ := C29_error (P := P) (a := a) fun h => hn h.2.2.2
  rw [h', he.unique (.tiling k1 k2 k3 hn)]

/-- Examples: the running example is accepted; without the last plane it is rejected. -/
example : (Sizes3 (demo3 0) ∧ Smooth3 (demo3 0) ∧ Inside3 2 (demo3 0) ∧ Full3 2 (demo3 0)) ∧
    ∀ st, fft3Setup (α := ℝ) 1 0 { oneArgs with ins := fun _ => ⟨0, 1, 0, 1, 0, 0⟩ } st = some (.error .tiling) := by
  refine ⟨setupCheck_none.mp (demo3_valid 0 (by decide)).check, fun st => ?_⟩
  obtain ⟨h1, h2, _⟩ := setupCheck_none.mp oneArgs_valid.check
  refine C29_gap_or_overlap (P := 1) (a := { oneArgs with ins := fun _ => ⟨0, 1, 0, 1, 0, 0⟩ }) h1 h2 ?_ (.inl ⟨fun r hr s hs _ _ _ _ _ => by omega, fun T => ?_⟩) 0 st
  · intro r _
    simp [Box3.Proper, Box3.Within, Box3.isize, Box3.jsize, Box3.ksize, oneArgs]
  · obtain ⟨r, _, hh⟩ := T.owner 0 0 1 (by simp [oneArgs]) (by simp [oneArgs]) (by simp [oneArgs])
    simp [Box3.Has] at hh

/-! ## 2d -/

/-- The grid has at least two points in every dimension. -/
def Sizes2 (a : Args2) : Prop := 2 ≤ a.nfast ∧ 2 ≤ a.nslow

/-- All prime factors are 2, 3 or 5. -/
def Smooth2 (a : Args2) : Prop := FiveSmooth a.nfast ∧ FiveSmooth a.nslow

/-- The input boxes lie in the grid; an empty box may end one before its start. -/
def Inside2 (P : Nat) (a : Args2) : Prop := ∀ r < P, (a.ins r).Proper ∧ (a.ins r).Within a.nfast a.nslow

/-- The input boxes have as many points as the grid. -/
def Full2 (P : Nat) (a : Args2) : Prop := ∑ r ∈ Finset.range P, (a.ins r).count = a.nfast * a.nslow

/-- The error that `setup` ends with: the first condition that does not hold. -/
inductive Rejects2 (P : Nat) (a : Args2) : SetupErr → Prop
  | dimension (h : ¬ Sizes2 a) : Rejects2 P a .dimension
  | factorable (h1 : Sizes2 a) (h : ¬ Smooth2 a) : Rejects2 P a .factorable
  | indices (h1 : Sizes2 a) (h2 : Smooth2 a) (h : ¬ Inside2 P a) : Rejects2 P a .indices
  | tiling (h1 : Sizes2 a) (h2 : Smooth2 a) (h3 : Inside2 P a) (h : ¬ Full2 P a) : Rejects2 P a .tiling

theorem setupCheck2_some {P : Nat} {a : Args2} {e : SetupErr} (h : setupCheck2 P a = some e) : Rejects2 P a e := by
  have hno : ¬ (Sizes2 a ∧ Smooth2 a ∧ Inside2 P a ∧ Full2 P a) := fun k => by
    rw [setupCheck2_none.mpr k] at h
    cases h
  unfold setupCheck2 at h
  by_cases h1 : a.nfast < 2 ∨ a.nslow < 2
  · rw [if_pos h1] at h
    cases h
    exact .dimension (by unfold Sizes2; omega)
  rw [if_neg h1] at h
  have k1 : Sizes2 a := by unfold Sizes2; omega
  have k2 : Smooth2 a ↔ ¬ (!primeFactorable a.nfast || !primeFactorable a.nslow) = true := by
    unfold Smooth2
    rw [← primeFactorable_iff a.nfast (by omega), ← primeFactorable_iff a.nslow (by omega)]
    simp
  by_cases h2 : (!primeFactorable a.nfast || !primeFactorable a.nslow) = true
  · rw [if_pos h2] at h
    cases h
    exact .factorable k1 fun k => k2.mp k h2
  rw [if_neg h2] at h
  by_cases h3 : allMax P (fun r => badIndices2 a.nfast a.nslow (a.ins r)) = true
  · rw [if_pos h3] at h
    cases h
    refine .indices k1 (k2.mpr h2) fun k => ?_
    obtain ⟨r, hr, hb⟩ := allMax_true.mp h3
    rw [badIndices2_false.mpr (k r hr)] at hb
    cases hb
  rw [if_neg h3] at h
  have k3 : Inside2 P a := fun r hr => badIndices2_false.mp (allMax_false.mp (by simpa using h3) r hr)
  split at h
  · cases h
    exact .tiling k1 (k2.mpr h2) k3 fun k => hno ⟨k1, k2.mpr h2, k3, k⟩
  · cases h

/-- **C29 in 2d, exactly.**  `setup` is accepted if and only if the grid has supported sizes, all input boxes lie in the grid, and they
have as many points as the grid. -/
theorem C29_iff_2d {w : Int} {P me : Nat} {a : Args2} {st : Settings} (hme : me < P) (hst : st.Valid2 w)
    (hp : a.permute = 0 ∨ a.permute = 1) (h1 : a.nfast < 2 ^ 31) (h3 : a.nslow < 2 ^ 31)
    (hr : FpOK P a.fp) :
    (∃ f : Fft2 ℝ, fft2Setup w P me a st = some (.ok f)) ↔ Sizes2 a ∧ Smooth2 a ∧ Inside2 P a ∧ Full2 P a :=
  ⟨fun ⟨_, h⟩ => setupCheck2_none.mp (check_of_fft2Setup h),
    fun h => fft2Setup_of_check hme (setupCheck2_none.mpr h) hst hp h1 h3 hr⟩

/-- **C29 in 2d: errors.**  Otherwise `setup` ends on every rank with the error for the first condition that does not hold, whatever the
settings, `permute` and the output boxes are. -/
theorem C29_error_2d {P : Nat} {a : Args2} (h : ¬ (Sizes2 a ∧ Smooth2 a ∧ Inside2 P a ∧ Full2 P a)) :
    ∃ e, Rejects2 P a e ∧ ∀ (w : Int) (me : Nat) (st : Settings), fft2Setup (α := ℝ) w P me a st = some (.error e) := by
  cases hc : setupCheck2 P a with
  | none => exact absurd (setupCheck2_none.mp hc) h
  | some e => exact ⟨e, setupCheck2_some hc, fun w me st => by unfold fft2Setup; rw [hc]⟩

/-- The error is determined by the arguments. -/
theorem Rejects2.unique {P : Nat} {a : Args2} {e e' : SetupErr} (h : Rejects2 P a e) (h' : Rejects2 P a e') : e = e' := by
  cases h <;> cases h' <;> first | rfl | contradiction

/-- **C29 in 2d: what the count misses.**  If all other conditions hold, a call is rejected for the number of points whenever the boxes
have a gap and no overlap, or an overlap and no gap. -/
theorem C29_gap_or_overlap_2d {P : Nat} {a : Args2} (k1 : Sizes2 a) (k2 : Smooth2 a) (k3 : Inside2 P a)
    (h : (Disjoint2 P a.ins ∧ ¬ Tiles2 P a.ins a.nfast a.nslow) ∨
      (¬ Disjoint2 P a.ins ∧ ∀ i j : Int, 0 ≤ i ∧ i < a.nfast → 0 ≤ j ∧ j < a.nslow →
        ∃ r < P, (a.ins r).Has i j)) (w : Int) (me : Nat) (st : Settings) :
    fft2Setup (α := ℝ) w P me a st = some (.error .tiling) := by
  have hn : ¬ Full2 P a := by
    intro k4
    have d : 0 < a.nfast ∧ 0 < a.nslow := by unfold Sizes2 at k1; omega
    rcases h with ⟨hd, hT⟩ | ⟨hd, hc⟩
    · refine hT (tiles_of_count2 (by omega) (by omega) hd ?_ k4)
      intro r hr i j hh
      have := (k3 r hr).2
      unfold Box2.Within at this
      unfold Box2.Has at hh
      omega
    · have hd3 := disjoint_of_cover (P := P) (bs := fun r => (a.ins r).lift) (n1 := a.nfast) (n2 := a.nslow)
        (n3 := 1) (by omega) (by omega) (by decide) (by
          intro i j k hi hj hk
          obtain ⟨r, hr, hh⟩ := hc i j hi hj
          exact ⟨r, hr, Box2.lift_has.mpr ⟨hh, by omega⟩⟩) (by simpa [Box2.lift_count, Full2] using k4)
      exact hd fun r hr s hs i j h1 h2 =>
        hd3 r hr s hs i j 0 (Box2.lift_has.mpr ⟨h1, rfl⟩) (Box2.lift_has.mpr ⟨h2, rfl⟩)
  obtain ⟨e, he, h'⟩ := C29_error_2d (P := P) (a := a) fun h => hn h.2.2.2
  rw [h', he.unique (.tiling k1 k2 k3 hn)]

/-- Examples in 2d: two ranks that own the whole grid each are rejected. -/
example : (∀ w st, fft2Setup (α := ℝ) w 2 1 oneArgs2 st = some (.error .tiling)) ∧
    Sizes2 oneArgs2 ∧ Smooth2 oneArgs2 ∧ Inside2 1 oneArgs2 ∧ Full2 1 oneArgs2 := by
  have h := setupCheck2_none.mp oneArgs2_valid.check
  refine ⟨fun w st => ?_, h⟩
  refine C29_gap_or_overlap_2d (P := 2) (a := oneArgs2) h.1 h.2.1 ?_ (.inr ⟨fun hd => ?_, fun i j hi hj => ⟨0, by decide, ?_⟩⟩) w 1 st
  · intro r _
    simp [Box2.Proper, Box2.Within, Box2.isize, Box2.jsize, oneArgs2]
  · have := hd 0 (by decide) 1 (by decide) 0 0 (by simp [Box2.Has, oneArgs2]) (by simp [Box2.Has, oneArgs2])
    omega
  · simp only [oneArgs2] at hi hj
    simp only [Box2.Has, oneArgs2]
    omega

end FftMpi
