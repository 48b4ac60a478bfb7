import Verif.PropsDriver

/-!
# C16: where rounding errors decide the processor grid

`procfactors` compares areas of type `double` with `<`.  Areas that are equal in exact arithmetic differ by rounding
errors, so the grid chosen is not always the first one of least area.
-/

noncomputable section

namespace FftMpi

open Driver

theorem rnd53_nat (n : Nat) (h : n ≤ 2 ^ 53 := by norm_num) : rnd53 n = n := by
  have := rounding53.int n (by rw [abs_of_nonneg (by positivity)]; exact_mod_cast h)
  exact_mod_cast this

/-- Rounding to 53 binary digits satisfies the assumption of the theorems about transforms. -/
theorem fpOK_rnd53 {P : Nat} (h : P ≤ 2 ^ 60) : FpOK P rnd53 := ⟨h, rounding53.rel⟩

theorem gridPairs_three : gridPairs 3 = [(1, 3), (3, 1)] := by
  simp only [gridPairs, factor_eq, smallDivisors, show Nat.sqrt 3 = 1 by norm_num]
  decide +kernel

theorem gridTriples_five :
    gridTriples 5 = [(1, 1, 5), (1, 5, 1), (1, 1, 5), (1, 5, 1), (5, 1, 1), (5, 1, 1)] := by
  simp only [gridTriples, factor_eq, smallDivisors, show Nat.sqrt 5 = 2 by norm_num]
  decide +kernel

/-- **C16 (rounding in 2d).**  On 3 ranks a `2 x 5` grid is split `3 x 1`, although all splits have the same area in exact
arithmetic and `1 x 3` comes first (`C16_2d_always_slabs`): `5 * (2/3)` rounds to less than `2 * (5/3)`. -/
theorem C16_2d_rounding : procGrid2 rnd53 3 2 5 = some (3, 1) ∧ procGrid2 id 3 2 5 = some (1, 3) := by
  refine ⟨?_, C16_2d_always_slabs (by decide) (by decide) (by decide)⟩
  have f1 : rnd53 1 = 1 := by exact_mod_cast rnd53_nat 1
  have f2 : rnd53 2 = 2 := by exact_mod_cast rnd53_nat 2
  have f4 : rnd53 4 = 4 := by exact_mod_cast rnd53_nat 4
  have f5 : rnd53 5 = 5 := by exact_mod_cast rnd53_nat 5
  have f20 : rnd53 20 = 20 := by exact_mod_cast rnd53_nat 20
  have q1 : rnd53 (2 / 3) = 6004799503160661 / 2 ^ 53 := by
    rw [rnd53_eq (e := -1) (z := 6004799503160661)] <;> norm_num [abs_of_pos]
  have q2 : rnd53 (5 / 3) = 7505999378950827 / 2 ^ 52 := by
    rw [rnd53_eq (e := 0) (z := 7505999378950827)] <;> norm_num [abs_of_pos]
  have q3 : rnd53 (6004799503160661 / 2 ^ 53 * 5) = 7505999378950826 / 2 ^ 51 := by
    rw [rnd53_eq (e := 1) (z := 7505999378950826)] <;> norm_num [abs_of_pos]
  have q4 : rnd53 (2 * (7505999378950827 / 2 ^ 52)) = 7505999378950827 / 2 ^ 51 := by
    rw [rnd53_eq (e := 1) (z := 7505999378950827)] <;> norm_num [abs_of_pos]
  have s1 : surfarea2 rnd53 1 3 2 5 = 7505999378950827 / 2 ^ 51 := by
    simp [surfarea2, f2, f5, q2, q4]
  have s2 : surfarea2 rnd53 3 1 2 5 = 7505999378950826 / 2 ^ 51 := by
    simp [surfarea2, f2, f5, q1, q3]
  have m : minarea2 rnd53 2 5 = 20 := by norm_num [minarea2, f4, f20]
  rw [procGrid2_eq, gridPairs_three, m]
  simp only [List.foldl_cons, List.foldl_nil, testGrid2, s1, s2]
  norm_num

/-- **C16 (rounding in 3d).**  On 5 ranks a `3 x 3 x 3` grid is split `1 x 5 x 1`; in exact arithmetic `1 x 1 x 5` has the
same area and comes first.  (`rnd53` rounds the ties of this example up; with ties to even the grids are the same.) -/
theorem C16_3d_rounding : procGrid rnd53 5 3 3 3 = some (1, 5, 1) ∧ procGrid id 5 3 3 3 = some (1, 1, 5) := by
  constructor
  · have f3 : rnd53 3 = 3 := by exact_mod_cast rnd53_nat 3
    have f6 : rnd53 6 = 6 := by exact_mod_cast rnd53_nat 6
    have f9 : rnd53 9 = 9 := by exact_mod_cast rnd53_nat 9
    have f18 : rnd53 18 = 18 := by exact_mod_cast rnd53_nat 18
    have f36 : rnd53 36 = 36 := by exact_mod_cast rnd53_nat 36
    have f54 : rnd53 54 = 54 := by exact_mod_cast rnd53_nat 54
    have m : minarea0 rnd53 3 3 3 = 54 := by norm_num [minarea0, f6, f18, f36, f54]
    have q1 : rnd53 (3 / 5) = 5404319552844595 / 2 ^ 53 := by
      rw [rnd53_eq (e := -1) (z := 5404319552844595)] <;> norm_num [abs_of_pos]
    have q2 : rnd53 (3 * (5404319552844595 / 2 ^ 53)) = 8106479329266893 / 2 ^ 52 := by
      rw [rnd53_eq (e := 0) (z := 8106479329266893)] <;> norm_num [abs_of_pos]
    have q3 : rnd53 (5404319552844595 / 2 ^ 53 * 3) = 8106479329266893 / 2 ^ 52 := by
      rw [mul_comm, q2]
    have q4 : rnd53 (9 + 8106479329266893 / 2 ^ 52) = 6079859496950170 / 2 ^ 49 := by
      rw [rnd53_eq (e := 3) (z := 6079859496950170)] <;> norm_num [abs_of_pos]
    have q5 : rnd53 (6079859496950170 / 2 ^ 49 + 8106479329266893 / 2 ^ 52) = 7093169413108532 / 2 ^ 49 := by
      rw [rnd53_eq (e := 3) (z := 7093169413108532)] <;> norm_num [abs_of_pos]
    have q6 : rnd53 (8106479329266893 / 2 ^ 52 + 8106479329266893 / 2 ^ 52) = 8106479329266893 / 2 ^ 51 := by
      rw [rnd53_eq (e := 1) (z := 8106479329266893)] <;> norm_num [abs_of_pos]
    have q7 : rnd53 (8106479329266893 / 2 ^ 51 + 9) = 7093169413108531 / 2 ^ 49 := by
      rw [rnd53_eq (e := 3) (z := 7093169413108531)] <;> norm_num [abs_of_pos]
    have q8 : rnd53 (8106479329266893 / 2 ^ 52 + 9) = 6079859496950170 / 2 ^ 49 := by rw [add_comm, q4]
    have e9 : (3 : ℝ) * 3 = 9 := by norm_num
    have s1 : surfarea rnd53 1 1 5 3 3 3 = 7093169413108532 / 2 ^ 49 := by
      simp [surfarea, f3, q1, q2, e9, f9, q4, q5]
    have s2 : surfarea rnd53 1 5 1 3 3 3 = 7093169413108531 / 2 ^ 49 := by
      simp [surfarea, f3, q1, q2, q3, e9, f9, q6, q7]
    have s3 : surfarea rnd53 5 1 1 3 3 3 = 7093169413108532 / 2 ^ 49 := by
      simp [surfarea, f3, q1, q3, e9, f9, q8, q5]
    rw [procGrid_eq, gridTriples_five, m]
    simp only [List.foldl_cons, List.foldl_nil, testGrid, s1, s2, s3]
    norm_num
  · rw [procGrid_eq, gridTriples_five]
    norm_num [testGrid, surfarea, minarea0]

end FftMpi
