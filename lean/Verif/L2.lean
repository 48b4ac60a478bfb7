import Verif.FftErr
import Mathlib.Algebra.Order.BigOperators.Ring.Finset

/-!
# Euclidean norms: lemmas, and Parseval's identity for the 1d transform
-/

noncomputable section

namespace FftMpi

open Complex Finset

/-- Euclidean norm of finitely many numbers. -/
def l2 {ι : Type} (s : Finset ι) (f : ι → ℝ) : ℝ := Real.sqrt (∑ i ∈ s, f i ^ 2)

section
variable {ι : Type} {s : Finset ι} {f g : ι → ℝ}

theorem l2_nonneg (s : Finset ι) (f : ι → ℝ) : 0 ≤ l2 s f := Real.sqrt_nonneg _

theorem sumsq_nonneg (s : Finset ι) (f : ι → ℝ) : 0 ≤ ∑ i ∈ s, f i ^ 2 := sum_nonneg fun _ _ => sq_nonneg _

theorem l2_sq (s : Finset ι) (f : ι → ℝ) : l2 s f ^ 2 = ∑ i ∈ s, f i ^ 2 := Real.sq_sqrt (sumsq_nonneg s f)

theorem l2_le_of {B : ℝ} (hB : 0 ≤ B) (h : ∑ i ∈ s, f i ^ 2 ≤ B ^ 2) : l2 s f ≤ B := by
  rw [← Real.sqrt_sq hB]
  exact Real.sqrt_le_sqrt h

theorem l2_mono (h : ∀ i ∈ s, f i ^ 2 ≤ g i ^ 2) : l2 s f ≤ l2 s g := Real.sqrt_le_sqrt (sum_le_sum h)

theorem l2_mono' (h0 : ∀ i ∈ s, 0 ≤ f i) (h : ∀ i ∈ s, f i ≤ g i) : l2 s f ≤ l2 s g :=
  l2_mono fun i hi => pow_le_pow_left₀ (h0 i hi) (h i hi) 2

theorem l2_congr (h : ∀ i ∈ s, f i = g i) : l2 s f = l2 s g := by
  unfold l2
  rw [sum_congr rfl fun i hi => by rw [h i hi]]

/-- Minkowski's inequality. -/
theorem l2_add (s : Finset ι) (f g : ι → ℝ) : l2 s (fun i => f i + g i) ≤ l2 s f + l2 s g := by
  refine l2_le_of (add_nonneg (l2_nonneg _ _) (l2_nonneg _ _)) ?_
  have h1 : ∑ i ∈ s, f i * g i ≤ l2 s f * l2 s g := by
    have h2 := sum_mul_sq_le_sq_mul_sq s f g
    rw [← l2_sq, ← l2_sq, ← mul_pow] at h2
    exact (abs_le_of_sq_le_sq' h2 (mul_nonneg (l2_nonneg _ _) (l2_nonneg _ _))).2
  have h3 : ∑ i ∈ s, (f i + g i) ^ 2 = l2 s f ^ 2 + 2 * (∑ i ∈ s, f i * g i) + l2 s g ^ 2 := by
    rw [l2_sq, l2_sq, mul_sum, ← sum_add_distrib, ← sum_add_distrib]
    exact sum_congr rfl fun i _ => by ring
  rw [h3]
  nlinarith

theorem l2_smul (s : Finset ι) {c : ℝ} (hc : 0 ≤ c) (f : ι → ℝ) : l2 s (fun i => c * f i) = c * l2 s f := by
  unfold l2
  rw [sum_congr rfl (g := fun i => c ^ 2 * f i ^ 2) fun i _ => by ring, ← mul_sum,
    Real.sqrt_mul (sq_nonneg c), Real.sqrt_sq hc]

theorem l2_const (s : Finset ι) {c : ℝ} (hc : 0 ≤ c) : l2 s (fun _ => c) = Real.sqrt s.card * c := by
  unfold l2
  rw [sum_const, nsmul_eq_mul, Real.sqrt_mul (Nat.cast_nonneg _), Real.sqrt_sq hc]

/-- Two steps of a sum: the norm of the norms. -/
theorem l2_l2 {κ : Type} (s : Finset ι) (t : ι → Finset κ) (f : ι → κ → ℝ) :
    l2 s (fun i => l2 (t i) (f i)) = Real.sqrt (∑ i ∈ s, ∑ j ∈ t i, f i j ^ 2) := by
  unfold l2
  rw [sum_congr rfl fun i _ => Real.sq_sqrt (sumsq_nonneg (t i) (f i))]

/-- Cauchy-Schwarz. -/
theorem sum_le_l2 (s : Finset ι) (f : ι → ℝ) : ∑ i ∈ s, f i ≤ Real.sqrt s.card * l2 s f := by
  have h2 := sum_mul_sq_le_sq_mul_sq s (fun _ => 1) f
  simp only [one_mul, one_pow, sum_const, nsmul_eq_mul, mul_one] at h2
  rw [← l2_sq, ← Real.sq_sqrt (Nat.cast_nonneg (α := ℝ) s.card), ← mul_pow] at h2
  exact (abs_le_of_sq_le_sq' h2 (mul_nonneg (Real.sqrt_nonneg _) (l2_nonneg _ _))).2

theorem le_l2 {i : ι} (hi : i ∈ s) (f : ι → ℝ) (h : 0 ≤ f i) : f i ≤ l2 s f := by
  unfold l2
  rw [← Real.sqrt_sq h]
  exact Real.sqrt_le_sqrt (single_le_sum (f := fun i => f i ^ 2) (fun i _ => sq_nonneg _) hi)

/-- The norm of numbers that are increased by the same amount. -/
theorem l2_add_const {t : ℝ} (hs : s.Nonempty) (hf : ∀ i ∈ s, 0 ≤ f i) (ht : 0 ≤ t) :
    l2 s f + t ≤ l2 s fun i => f i + t := by
  have h1 : l2 s f ≤ ∑ i ∈ s, f i := by
    refine l2_le_of (sum_nonneg hf) ?_
    rw [sq (∑ i ∈ s, f i), sum_mul]
    refine sum_le_sum fun i hi => ?_
    rw [sq]
    exact mul_le_mul_of_nonneg_left (single_le_sum hf hi) (hf i hi)
  have hc : (1 : ℝ) ≤ s.card := by exact_mod_cast hs.card_pos
  have h2 : (l2 s f + t) ^ 2 ≤ (l2 s fun i => f i + t) ^ 2 := by
    rw [l2_sq]
    have e : ∑ i ∈ s, (f i + t) ^ 2 = l2 s f ^ 2 + 2 * t * (∑ i ∈ s, f i) + s.card * t ^ 2 := by
      rw [l2_sq, mul_sum, ← sum_add_distrib, ← nsmul_eq_mul, ← sum_const, ← sum_add_distrib]
      exact sum_congr rfl fun i _ => by ring
    rw [e]
    nlinarith [sq_nonneg t]
  exact (abs_le_of_sq_le_sq' h2 (l2_nonneg _ _)).2

end

/-! ## Parseval -/

theorem kern_conj (n : Nat) (back : Bool) (s t : Int) : (starRingEnd ℂ) (kern n back s t) = kern n (!back) s t := by
  unfold kern
  rw [← exp_conj]
  congr 1
  cases back <;> simp [map_ofNat] <;> ring

theorem kern_symm (n : Nat) (back : Bool) (s t : Int) : kern n back s t = kern n back t s := by
  unfold kern
  congr 1
  ring

/-- Orthogonality of the rows. -/
theorem kern_rows {n : Nat} (back : Bool) {s t : Nat} (hs : s < n) (ht : t < n) :
    ∑ k ∈ range n, kern n back s k * (starRingEnd ℂ) (kern n back t k) = if s = t then (n : ℂ) else 0 := by
  cases back with
  | false =>
    rw [sum_congr rfl (g := fun k : Nat => kern n false s k * kern n true k t) fun k _ => by
      rw [kern_conj, kern_symm n _ t k]; rfl]
    rw [kern_orth ⟨by omega, by omega⟩ ⟨by omega, by omega⟩]
    simp
  | true =>
    rw [sum_congr rfl (g := fun k : Nat => kern n false t k * kern n true k s) fun k _ => by
      rw [kern_conj, kern_symm n true s k, mul_comm]; rfl]
    rw [kern_orth ⟨by omega, by omega⟩ ⟨by omega, by omega⟩]
    simp [eq_comm]

/-- **Parseval's identity.** -/
theorem parseval1 (n : Nat) (back : Bool) (x : Nat → ℂ) :
    ∑ k ∈ range n, ‖dft1 n back x k‖ ^ 2 = n * ∑ j ∈ range n, ‖x j‖ ^ 2 := by
  have h : ((∑ k ∈ range n, ‖dft1 n back x k‖ ^ 2 : ℝ) : ℂ) = ((n * ∑ j ∈ range n, ‖x j‖ ^ 2 : ℝ) : ℂ) := by
    push_cast
    have e1 : ∀ k, ((‖dft1 n back x k‖ : ℂ)) ^ 2 = ∑ j ∈ range n, ∑ l ∈ range n,
        x j * (starRingEnd ℂ) (x l) * (kern n back j k * (starRingEnd ℂ) (kern n back l k)) := by
      intro k
      rw [← mul_conj', dft1_eq, map_sum, sum_mul_sum]
      refine sum_congr rfl fun j _ => sum_congr rfl fun l _ => ?_
      rw [map_mul]
      ring
    rw [sum_congr rfl fun k _ => e1 k, sum_comm, mul_sum]
    refine sum_congr rfl fun j hj => ?_
    rw [sum_comm]
    have e2 : ∀ l ∈ range n, ∑ k ∈ range n,
        x j * (starRingEnd ℂ) (x l) * (kern n back j k * (starRingEnd ℂ) (kern n back l k)) =
        if j = l then x j * (starRingEnd ℂ) (x l) * n else 0 := by
      intro l hl
      rw [← mul_sum, kern_rows back (mem_range.mp hj) (mem_range.mp hl)]
      split <;> simp
    rw [sum_congr rfl e2, sum_ite_eq (range n) j, if_pos hj, mul_conj']
    ring
  exact_mod_cast h

/-- The norm of a transformed line. -/
theorem l2_dft1 (n : Nat) (back : Bool) (x : Nat → ℂ) :
    l2 (range n) (fun k => ‖dft1 n back x k‖) = Real.sqrt n * l2 (range n) fun j => ‖x j‖ := by
  unfold l2
  rw [parseval1, Real.sqrt_mul (Nat.cast_nonneg n)]

theorem dft1_sub (n : Nat) (back : Bool) (x y : Nat → ℂ) (k : Nat) :
    dft1 n back x k - dft1 n back y k = dft1 n back (fun j => x j - y j) k := by
  simp only [dft1_eq, ← sum_sub_distrib, sub_mul]

/-- The norm of a transformed line, each number increased by the same amount. -/
theorem l2_dft1_add {n : Nat} (hn : 0 < n) (back : Bool) (x : Nat → ℂ) {t : ℝ} (ht : 0 ≤ t) :
    l2 (range n) (fun k => ‖dft1 n back x k‖ + t) ≤ Real.sqrt n * l2 (range n) fun j => ‖x j‖ + t := by
  have hne : (range n).Nonempty := nonempty_range_iff.mpr (by omega)
  calc l2 (range n) (fun k => ‖dft1 n back x k‖ + t)
      ≤ l2 (range n) (fun k => ‖dft1 n back x k‖) + l2 (range n) fun _ => t := l2_add _ _ _
    _ = Real.sqrt n * (l2 (range n) (fun j => ‖x j‖) + t) := by
      rw [l2_dft1, l2_const _ ht, card_range]; ring
    _ ≤ _ := mul_le_mul_of_nonneg_left (l2_add_const hne (fun _ _ => norm_nonneg _) ht) (Real.sqrt_nonneg _)

end FftMpi
