import Verif.Factor
import Mathlib.Tactic.NormNum
import Mathlib.Algebra.Order.BigOperators.Group.Finset

/-!
# Roundings of `double` numbers
-/

namespace FftMpi

/-- `y` is `x` up to `k` roundings. -/
structure NearR (k : Nat) (x y : ℝ) : Prop where
  lo : (1 - 1 / 2 ^ 53) ^ k * x ≤ y
  hi : y ≤ (1 + 1 / 2 ^ 53) ^ k * x

theorem NearR.refl (x : ℝ) : NearR 0 x x := ⟨by simp, by simp⟩

theorem NearR.mono {k l : Nat} (h : k ≤ l) {x y : ℝ} (hx : 0 ≤ x) (hn : NearR k x y) : NearR l x y where
  lo := le_trans (mul_le_mul_of_nonneg_right (pow_le_pow_of_le_one (by norm_num) (by norm_num) h) hx) hn.lo
  hi := le_trans hn.hi (mul_le_mul_of_nonneg_right (pow_le_pow_right₀ (by norm_num) h) hx)

theorem NearR.nonneg {k : Nat} {x y : ℝ} (hx : 0 ≤ x) (h : NearR k x y) : 0 ≤ y :=
  le_trans (mul_nonneg (pow_nonneg (by norm_num) k) hx) h.lo

theorem NearR.mul {k l : Nat} {x y x' y' : ℝ} (hx : 0 ≤ x) (hx' : 0 ≤ x') (h : NearR k x y) (h' : NearR l x' y') :
    NearR (k + l) (x * x') (y * y') where
  lo := by
    rw [pow_add]
    calc _ = ((1 - 1 / 2 ^ 53) ^ k * x) * ((1 - 1 / 2 ^ 53) ^ l * x') := by ring
      _ ≤ y * y' := mul_le_mul h.lo h'.lo (mul_nonneg (pow_nonneg (by norm_num) l) hx') (h.nonneg hx)
  hi := by
    rw [pow_add]
    calc y * y' ≤ ((1 + 1 / 2 ^ 53) ^ k * x) * ((1 + 1 / 2 ^ 53) ^ l * x') :=
          mul_le_mul h.hi h'.hi (h'.nonneg hx') (mul_nonneg (by positivity) hx)
      _ = _ := by ring

theorem NearR.add {k : Nat} {x y x' y' : ℝ} (h : NearR k x y) (h' : NearR k x' y') :
    NearR k (x + x') (y + y') where
  lo := by rw [mul_add]; exact add_le_add h.lo h'.lo
  hi := by rw [mul_add]; exact add_le_add h.hi h'.hi

theorem NearR.rnd {rnd : ℝ → ℝ}
    (rel : ∀ x : ℝ, 1 / 2 ^ 100 ≤ x → x ≤ 2 ^ 100 → |rnd x - x| ≤ x / 2 ^ 53) {k : Nat} (hk : k ≤ 7) {x y : ℝ} (h : NearR k x y)
    (h0 : 1 / 2 ^ 90 ≤ x) (h1 : x ≤ 2 ^ 90) : NearR (k + 1) x (rnd y) := by
  have hx : 0 ≤ x := le_trans (by positivity) h0
  have a1 : (1 / 2 : ℝ) ≤ (1 - 1 / 2 ^ 53) ^ k :=
    le_trans (by norm_num) (pow_le_pow_of_le_one (by norm_num) (by norm_num) hk)
  have a2 : (1 + 1 / 2 ^ 53 : ℝ) ^ k ≤ 2 := le_trans (pow_le_pow_right₀ (by norm_num) hk) (by norm_num)
  have y0 : 1 / 2 * x ≤ y := le_trans (mul_le_mul_of_nonneg_right a1 hx) h.lo
  have y1 : y ≤ 2 * x := le_trans h.hi (mul_le_mul_of_nonneg_right a2 hx)
  have hy : 0 ≤ y := h.nonneg hx
  have hr := abs_le.mp (rel y (le_trans (by norm_num at h0 ⊢; linarith) y0)
    (le_trans y1 (by norm_num at h1 ⊢; linarith)))
  constructor
  · calc (1 - 1 / 2 ^ 53) ^ (k + 1) * x = (1 - 1 / 2 ^ 53) * ((1 - 1 / 2 ^ 53) ^ k * x) := by ring
      _ ≤ (1 - 1 / 2 ^ 53) * y := mul_le_mul_of_nonneg_left h.lo (by norm_num)
      _ ≤ rnd y := by
        have : (1 - 1 / 2 ^ 53) * y = y - y / 2 ^ 53 := by ring
        rw [this]; linarith [hr.1]
  · calc rnd y ≤ (1 + 1 / 2 ^ 53) * y := by
          have : (1 + 1 / 2 ^ 53) * y = y + y / 2 ^ 53 := by ring
          rw [this]; linarith [hr.2]
      _ ≤ (1 + 1 / 2 ^ 53) * ((1 + 1 / 2 ^ 53) ^ k * x) := mul_le_mul_of_nonneg_left h.hi (by norm_num)
      _ = _ := by ring

/-- A minimum of the computed values is almost a minimum of the exact ones. -/
theorem NearR.min {k : Nat} (hk : k ≤ 7) {x x' y y' : ℝ} (hx' : 0 ≤ x') (h : NearR k x y)
    (h' : NearR k x' y') (hle : y ≤ y') : x ≤ (1 + 1 / 2 ^ 49) * x' := by
  have a0 : (0 : ℝ) < (1 - 1 / 2 ^ 53) ^ k := pow_pos (by norm_num) k
  have h1 : (1 - 1 / 2 ^ 53) ^ k * x ≤ (1 + 1 / 2 ^ 53) ^ k * x' := h.lo.trans (hle.trans h'.hi)
  have h2 : (1 + 1 / 2 ^ 53 : ℝ) ^ k ≤ (1 + 1 / 2 ^ 49) * (1 - 1 / 2 ^ 53) ^ k := by
    calc (1 + 1 / 2 ^ 53 : ℝ) ^ k ≤ (1 + 1 / 2 ^ 53) ^ 7 := pow_le_pow_right₀ (by norm_num) hk
      _ ≤ (1 + 1 / 2 ^ 49) * (1 - 1 / 2 ^ 53) ^ 7 := by norm_num
      _ ≤ (1 + 1 / 2 ^ 49) * (1 - 1 / 2 ^ 53) ^ k :=
        mul_le_mul_of_nonneg_left (pow_le_pow_of_le_one (by norm_num) (by norm_num) hk) (by norm_num)
  have h3 := h1.trans (mul_le_mul_of_nonneg_right h2 hx')
  rw [mul_comm (1 + 1 / 2 ^ 49 : ℝ), mul_assoc] at h3
  exact le_of_mul_le_mul_left h3 a0

theorem NearR.divNat {k : Nat} {x y : ℝ} (hx : 0 ≤ x) (h : NearR k x y) (i : Nat) : NearR k (x / i) (y / i) := by
  have := h.mul hx (by positivity : (0 : ℝ) ≤ 1 / i) (NearR.refl (1 / i))
  rwa [mul_one_div, mul_one_div] at this

theorem fpOK_id {P : Nat} (h : P ≤ 2 ^ 60) : FpOK P id where
  procs := h
  rel x h0 h1 := by
    have hx : 0 ≤ x := le_trans (by positivity) h0
    simp only [id, sub_self, abs_zero]
    positivity

end FftMpi
