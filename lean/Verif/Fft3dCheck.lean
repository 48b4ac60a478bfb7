import Verif.Fft3dLayout
import Verif.PropsGrid
import Mathlib.Data.Int.Interval
import Mathlib.Data.Finset.Prod
import Mathlib.Algebra.BigOperators.Intervals
import Mathlib.Algebra.Order.BigOperators.Group.Finset

/-!
# What the argument check of `FFT3d::setup` accepts
-/

noncomputable section

namespace FftMpi

/-- The points of a box. -/
def Box3.pts (b : Box3) : Finset (Int × Int × Int) :=
  Finset.Icc b.ilo b.ihi ×ˢ Finset.Icc b.jlo b.jhi ×ˢ Finset.Icc b.klo b.khi

theorem Box3.mem_pts (b : Box3) (p : Int × Int × Int) : p ∈ b.pts ↔ b.Has p.1 p.2.1 p.2.2 := by
  simp [Box3.pts, Box3.Has]

theorem Box3.card_pts (b : Box3) : ((b.pts.card : Nat) : Int) = b.count := by
  unfold Box3.pts Box3.count Box3.isize Box3.jsize Box3.ksize
  rw [Finset.card_product, Finset.card_product, Int.card_Icc, Int.card_Icc, Int.card_Icc]
  push_cast
  rw [Int.toNat_eq_max, Int.toNat_eq_max, Int.toNat_eq_max, mul_assoc,
    show b.ihi + 1 - b.ilo = b.ihi - b.ilo + 1 by ring, show b.jhi + 1 - b.jlo = b.jhi - b.jlo + 1 by ring,
    show b.khi + 1 - b.klo = b.khi - b.klo + 1 by ring]

/-- The whole grid as a box. -/
def wholeBox (n1 n2 n3 : Int) : Box3 := ⟨0, n1 - 1, 0, n2 - 1, 0, n3 - 1⟩

theorem wholeBox_has (n1 n2 n3 i j k : Int) : (wholeBox n1 n2 n3).Has i j k ↔
    (0 ≤ i ∧ i < n1) ∧ (0 ≤ j ∧ j < n2) ∧ (0 ≤ k ∧ k < n3) := by
  unfold wholeBox Box3.Has; simp only; omega

theorem allSum_eq (P : Nat) (f : Nat → Int) : allSum P f = ∑ r ∈ Finset.range P, f r := by
  unfold allSum
  induction P with
  | zero => simp
  | succ P ih => rw [List.range_succ, List.map_append, List.sum_append, ih, Finset.sum_range_succ]; simp

theorem disjoint_card {P : Nat} {bs : Nat → Box3} (h : Disjoint3 P bs) :
    ((Finset.range P).biUnion fun r => (bs r).pts).card = ∑ r ∈ Finset.range P, (bs r).pts.card := by
  apply Finset.card_biUnion
  intro a ha b hb hab
  rw [Function.onFun, Finset.disjoint_left]
  intro p hp hq
  rw [Box3.mem_pts] at hp hq
  exact hab (h a (by simpa using ha) b (by simpa using hb) _ _ _ hp hq)

theorem wholeBox_count {n1 n2 n3 : Int} (h1 : 0 ≤ n1) (h2 : 0 ≤ n2) (h3 : 0 ≤ n3) :
    (wholeBox n1 n2 n3).count = n1 * n2 * n3 := by
  unfold wholeBox Box3.count Box3.isize Box3.jsize Box3.ksize
  simp only
  rw [max_eq_left (by omega), max_eq_left (by omega), max_eq_left (by omega)]
  ring

/-- The boxes of a tiling have as many points as the grid. -/
theorem Tiles3.sum_count {P : Nat} {bs : Nat → Box3} {n1 n2 n3 : Int} (h1 : 0 ≤ n1) (h2 : 0 ≤ n2)
    (h3 : 0 ≤ n3) (h : Tiles3 P bs n1 n2 n3) :
    ∑ r ∈ Finset.range P, (bs r).count = n1 * n2 * n3 := by
  have e : ((Finset.range P).biUnion fun r => (bs r).pts) = (wholeBox n1 n2 n3).pts := by
    ext p
    simp only [Finset.mem_biUnion, Finset.mem_range, Box3.mem_pts, wholeBox_has]
    constructor
    · rintro ⟨r, hr, hp⟩; exact h.inside r hr _ _ _ hp
    · rintro ⟨a, b, c⟩; exact h.owner _ _ _ a b c
  rw [← wholeBox_count h1 h2 h3, ← Box3.card_pts, ← e, disjoint_card h.disjoint]
  push_cast
  exact Finset.sum_congr rfl fun r _ => (Box3.card_pts _).symm

/-- Disjoint boxes inside the grid with as many points as the grid tile it. -/
theorem tiles_of_count {P : Nat} {bs : Nat → Box3} {n1 n2 n3 : Int} (h1 : 0 ≤ n1) (h2 : 0 ≤ n2)
    (h3 : 0 ≤ n3) (hd : Disjoint3 P bs) (hin : ∀ r < P, ∀ i j k, (bs r).Has i j k →
      (0 ≤ i ∧ i < n1) ∧ (0 ≤ j ∧ j < n2) ∧ (0 ≤ k ∧ k < n3))
    (hs : ∑ r ∈ Finset.range P, (bs r).count = n1 * n2 * n3) : Tiles3 P bs n1 n2 n3 := by
  refine ⟨hin, ?_, hd⟩
  have hsub : ((Finset.range P).biUnion fun r => (bs r).pts) ⊆ (wholeBox n1 n2 n3).pts := by
    intro p
    simp only [Finset.mem_biUnion, Finset.mem_range, Box3.mem_pts, wholeBox_has]
    rintro ⟨r, hr, hp⟩; exact hin r hr _ _ _ hp
  have hc : (wholeBox n1 n2 n3).pts.card ≤ ((Finset.range P).biUnion fun r => (bs r).pts).card := by
    rw [disjoint_card hd]
    zify
    rw [Box3.card_pts, wholeBox_count h1 h2 h3, ← hs]
    exact (Finset.sum_congr rfl fun r _ => (Box3.card_pts _).symm).le
  have e := Finset.eq_of_subset_of_card_le hsub hc
  intro i j k hi hj hk
  have : (i, j, k) ∈ (wholeBox n1 n2 n3).pts := by
    rw [Box3.mem_pts, wholeBox_has]; exact ⟨hi, hj, hk⟩
  rw [← e] at this
  simpa [Box3.mem_pts] using this

theorem badIndices_false {n1 n2 n3 : Int} {b : Box3} :
    badIndices n1 n2 n3 b = false ↔ b.Proper ∧ b.Within n1 n2 n3 := by
  unfold badIndices Box3.Proper Box3.Within Box3.isize Box3.jsize Box3.ksize
  simp only [Bool.or_eq_false_iff, decide_eq_false_iff_not]
  omega

/-- Which arguments pass the check. -/
theorem setupCheck_none {P : Nat} {a : Args3} :
    setupCheck P a = none ↔
      (2 ≤ a.nfast ∧ 2 ≤ a.nmid ∧ 2 ≤ a.nslow) ∧
      (FiveSmooth a.nfast ∧ FiveSmooth a.nmid ∧ FiveSmooth a.nslow) ∧
      (∀ r < P, (a.ins r).Proper ∧ (a.ins r).Within a.nfast a.nmid a.nslow) ∧
      ∑ r ∈ Finset.range P, (a.ins r).count = a.nfast * a.nmid * a.nslow := by
  unfold setupCheck
  by_cases h1 : a.nfast < 2 ∨ a.nmid < 2 ∨ a.nslow < 2
  · rw [if_pos h1]
    simp only [reduceCtorEq, false_iff]
    rintro ⟨h, _⟩
    omega
  rw [if_neg h1]
  have h1' : 2 ≤ a.nfast ∧ 2 ≤ a.nmid ∧ 2 ≤ a.nslow := by omega
  rw [← primeFactorable_iff a.nfast (by omega), ← primeFactorable_iff a.nmid (by omega),
    ← primeFactorable_iff a.nslow (by omega)]
  by_cases h2 : (!primeFactorable a.nfast || !primeFactorable a.nmid || !primeFactorable a.nslow) = true
  · rw [if_pos h2]
    simp only [reduceCtorEq, false_iff]
    rintro ⟨_, ⟨h3, h4, h5⟩, _⟩
    simp [h3, h4, h5] at h2
  rw [if_neg h2]
  have h2' : primeFactorable a.nfast = true ∧ primeFactorable a.nmid = true ∧
      primeFactorable a.nslow = true := by
    simpa [not_or, and_assoc] using h2
  by_cases h3 : allMax P (fun r => badIndices a.nfast a.nmid a.nslow (a.ins r)) = true
  · rw [if_pos h3]
    simp only [reduceCtorEq, false_iff]
    rintro ⟨_, _, h4, _⟩
    obtain ⟨r, hr, hb⟩ := allMax_true.mp h3
    rw [badIndices_false.mpr (h4 r hr)] at hb
    cases hb
  rw [if_neg h3]
  have h3' : ∀ r < P, (a.ins r).Proper ∧ (a.ins r).Within a.nfast a.nmid a.nslow := by
    intro r hr
    have := allMax_false.mp (by simpa using h3) r hr
    exact badIndices_false.mp this
  have e : allSum P (fun r => boxSize (a.ins r)) = ∑ r ∈ Finset.range P, (a.ins r).count := by
    rw [allSum_eq]
    exact Finset.sum_congr rfl fun r hr => boxSize_eq_count (h3' r (by simpa using hr)).1
  rw [e]
  by_cases h4 : ∑ r ∈ Finset.range P, (a.ins r).count = a.nfast * a.nmid * a.nslow
  · simp [h4, h1', h2']
    exact h3'
  · simp [h4]

theorem Args3.Valid.check {P : Nat} {a : Args3} (h : a.Valid P) : setupCheck P a = none := by
  have h1 := h.fast; have h2 := h.mid; have h3 := h.slow
  rw [setupCheck_none]
  exact ⟨⟨h1.1, h2.1, h3.1⟩, ⟨h.factors _ (Or.inl rfl), h.factors _ (Or.inr (Or.inl rfl)),
    h.factors _ (Or.inr (Or.inr rfl))⟩, h.properIn,
    h.tilesIn.sum_count (by omega) (by omega) (by omega)⟩

end FftMpi
