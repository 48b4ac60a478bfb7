import Verif.FftErr

/-!
# Rounding errors of planes of 1d FFTs: lemmas
-/

noncomputable section

namespace FftMpi

open Complex Finset

/-- Every point of a plane has a relative error of at most `G-1`. -/
def Near2 (n1 n2 : Nat) (tiny G : ℝ) (A : Nat → Nat → ℝ) (Y X : Grid2) : Prop :=
  ∀ i < n1, ∀ j < n2, Near tiny G (A i j) (Y (i : Nat) (j : Nat)) (X (i : Nat) (j : Nat))

/-- The sum over the plane. -/
def sum2 (n1 n2 : Nat) (A : Nat → Nat → ℝ) : ℝ := ∑ i ∈ range n1, ∑ j ∈ range n2, A i j

variable {n1 n2 : Nat} {tiny G big E : ℝ} {A : Nat → Nat → ℝ} {Y X : Grid2} {back : Bool}
  {T : (Nat → ℂ) → Nat → ℂ}

theorem Near2.along0 (h : Near2 n1 n2 tiny G A Y X) (ht : 0 ≤ tiny) (hE : 0 ≤ E) (hG : 1 ≤ G)
    (L : LineErr T n1 back E tiny big)
    (hb : ∀ j < n2, 2 * (G * (1 + E)) * (∑ t ∈ range n1, A t j) ≤ big) :
    Near2 n1 n2 tiny (G * (1 + E)) (fun _ j => ∑ t ∈ range n1, A t j) (fftAlong2 0 n1 back Y)
      (lineAlong2 0 T X) := by
  intro i hi j hj
  have := Near.line ht hE L (A := fun t => A t j) (x := fun t => X (t : Nat) (j : Nat))
    (y := fun t => Y (t : Nat) (j : Nat)) (fun t ht' => h t ht' j hj) hG (hb j hj) hi
  simpa [fftAlong2, lineAlong2] using this

theorem Near2.along1 (h : Near2 n1 n2 tiny G A Y X) (ht : 0 ≤ tiny) (hE : 0 ≤ E) (hG : 1 ≤ G)
    (L : LineErr T n2 back E tiny big)
    (hb : ∀ i < n1, 2 * (G * (1 + E)) * (∑ t ∈ range n2, A i t) ≤ big) :
    Near2 n1 n2 tiny (G * (1 + E)) (fun i _ => ∑ t ∈ range n2, A i t) (fftAlong2 1 n2 back Y)
      (lineAlong2 1 T X) := by
  intro i hi j hj
  have := Near.line ht hE L (A := fun t => A i t) (x := fun t => X (i : Nat) (t : Nat))
    (y := fun t => Y (i : Nat) (t : Nat)) (fun t ht' => h i hi t ht') hG (hb i hi) hj
  simpa [fftAlong2, lineAlong2] using this

variable {E1 E2 : ℝ} {T1 T2 : (Nat → ℂ) → Nat → ℂ}

/-- Two stages of 1d FFTs, in either order. -/
theorem Near2.lines (h : Near2 n1 n2 tiny G A Y X) (ht : 0 ≤ tiny) (hG : 1 ≤ G) (hE1 : 0 ≤ E1) (hE2 : 0 ≤ E2)
    (L1 : LineErr T1 n1 back E1 tiny big) (L2 : LineErr T2 n2 back E2 tiny big)
    (hb : 2 * (G * ((1 + E1) * (1 + E2))) * sum2 n1 n2 A ≤ big) {Z : Grid2}
    (hZ : Z = lineAlong2 1 T2 (lineAlong2 0 T1 X) ∨ Z = lineAlong2 0 T1 (lineAlong2 1 T2 X)) :
    Near2 n1 n2 tiny (G * ((1 + E1) * (1 + E2))) (fun _ _ => sum2 n1 n2 A) (dft2 n1 n2 back Y) Z := by
  have hA : ∀ i < n1, ∀ j < n2, 0 ≤ A i j := fun i hi j hj => (h i hi j hj).nonneg ht
  have a1 : ∀ i < n1, ∑ j ∈ range n2, A i j ≤ sum2 n1 n2 A := fun i hi =>
    single_le_sum (f := fun i => ∑ j ∈ range n2, A i j) (fun i hi => sum_nonneg fun j hj =>
      hA i (mem_range.mp hi) j (mem_range.mp hj)) (mem_range.mpr hi)
  have e : sum2 n1 n2 A = ∑ j ∈ range n2, ∑ i ∈ range n1, A i j := sum_comm
  have a2 : ∀ j < n2, ∑ i ∈ range n1, A i j ≤ sum2 n1 n2 A := fun j hj => by
    rw [e]
    exact single_le_sum (f := fun j => ∑ i ∈ range n1, A i j) (fun j hj => sum_nonneg fun i hi =>
      hA i (mem_range.mp hi) j (mem_range.mp hj)) (mem_range.mpr hj)
  have hS : 0 ≤ sum2 n1 n2 A := sum_nonneg fun i hi => sum_nonneg fun j hj =>
    hA i (mem_range.mp hi) j (mem_range.mp hj)
  have g1 : G * (1 + E1) ≤ G * ((1 + E1) * (1 + E2)) := by
    have : (1 + E1) * 1 ≤ (1 + E1) * (1 + E2) := by gcongr; linarith
    have := mul_le_mul_of_nonneg_left this (show 0 ≤ G by linarith)
    linarith
  have g2 : G * (1 + E2) ≤ G * ((1 + E1) * (1 + E2)) := by
    have : 1 * (1 + E2) ≤ (1 + E1) * (1 + E2) := by gcongr; linarith
    have := mul_le_mul_of_nonneg_left this (show 0 ≤ G by linarith)
    linarith
  have bnd : ∀ {H s : ℝ}, H ≤ G * ((1 + E1) * (1 + E2)) → 0 ≤ H → s ≤ sum2 n1 n2 A → 2 * H * s ≤ big := by
    intro H s h1 h2 h3
    refine le_trans ?_ hb
    calc 2 * H * s ≤ 2 * H * sum2 n1 n2 A := mul_le_mul_of_nonneg_left h3 (by linarith)
      _ ≤ _ := mul_le_mul_of_nonneg_right (by linarith) hS
  have q1 : 1 ≤ G * (1 + E1) := by nlinarith
  have q2 : 1 ≤ G * (1 + E2) := by nlinarith
  rcases hZ with rfl | rfl
  · have s1 := h.along0 ht hE1 hG L1 fun j hj => bnd g1 (by linarith) (a2 j hj)
    have s2 := s1.along1 ht hE2 q1 L2 fun i _ => bnd (by linarith) (by nlinarith) e.ge
    intro i hi j hj
    have := s2 i hi j hj
    rw [← fftAlong2_fwd _ _ _ _ (by omega) (by omega), show G * ((1 + E1) * (1 + E2)) =
      G * (1 + E1) * (1 + E2) by ring]
    dsimp only at this ⊢
    rw [e]
    exact this
  · have s1 := h.along1 ht hE2 hG L2 fun i hi => bnd g2 (by linarith) (a1 i hi)
    have s2 := s1.along0 ht hE1 q2 L1 fun j _ => bnd (by linarith) (by nlinarith) le_rfl
    intro i hi j hj
    have := s2 i hi j hj
    rw [← fftAlong2_inv _ _ _ _ (by omega) (by omega), show G * ((1 + E1) * (1 + E2)) =
      G * (1 + E2) * (1 + E1) by ring]
    exact this

end FftMpi
