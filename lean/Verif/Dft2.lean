import Verif.Fft2dStages

/-!
# Specification of the 2d discrete Fourier transform, and its mathematics
-/

noncomputable section

namespace FftMpi

open Complex Finset

/-- **Specification**: the 2d discrete Fourier transform of a grid function, forward with negative exponent,
backward with positive exponent, not normalised. -/
def dft2 (n1 n2 : Nat) (backward : Bool) (X : Grid2) : Grid2 := fun i j =>
  ∑ a ∈ range n1, ∑ b ∈ range n2,
    X a b * exp ((if backward then 1 else -1) * (2 * Real.pi * I) * (a * i / n1 + b * j / n2))

/-- **Specification**: the circular convolution of two grid functions. -/
def conv2 (n1 n2 : Nat) (X Y : Grid2) : Grid2 := fun i j =>
  ∑ a ∈ range n1, ∑ b ∈ range n2, X a b * Y ((i - a) % n1) ((j - b) % n2)

theorem dft3_lift (n1 n2 : Nat) (back : Bool) (X : Grid2) :
    dft3 n1 n2 1 back (liftGrid X) = liftGrid (dft2 n1 n2 back X) := by
  funext i j k
  simp [dft3, dft2, liftGrid]

theorem conv3_lift (n1 n2 : Nat) (X Y : Grid2) :
    conv3 n1 n2 1 (liftGrid X) (liftGrid Y) = liftGrid (conv2 n1 n2 X Y) := by
  funext i j k
  simp [conv3, conv2, liftGrid]

theorem dft2_eq (n1 n2 : Nat) (back : Bool) (X : Grid2) (i j : Int) :
    dft2 n1 n2 back X i j = ∑ a ∈ range n1, ∑ b ∈ range n2,
      X a b * (kern n1 back a i * kern n2 back b j) := by
  unfold dft2 kern
  refine sum_congr rfl fun a _ => sum_congr rfl fun b _ => ?_
  rw [← exp_add]
  congr 2
  push_cast
  ring

/-- The two 1d transforms in the order of a forward FFT. -/
theorem fftAlong2_fwd (n1 n2 : Nat) (back : Bool) (X : Grid2) {i j : Int} (hi : 0 ≤ i) (hj : 0 ≤ j) :
    fftAlong2 1 n2 back (fftAlong2 0 n1 back X) i j = dft2 n1 n2 back X i j := by
  obtain ⟨i, rfl⟩ := Int.eq_ofNat_of_zero_le hi
  obtain ⟨j, rfl⟩ := Int.eq_ofNat_of_zero_le hj
  rw [dft2_eq]
  simp [fftAlong2, dft1_eq, sum_mul]
  rw [sum_comm]
  refine sum_congr rfl fun a _ => sum_congr rfl fun b _ => ?_
  ring

/-- The two 1d transforms in the order of an inverse FFT. -/
theorem fftAlong2_inv (n1 n2 : Nat) (back : Bool) (X : Grid2) {i j : Int} (hi : 0 ≤ i) (hj : 0 ≤ j) :
    fftAlong2 0 n1 back (fftAlong2 1 n2 back X) i j = dft2 n1 n2 back X i j := by
  obtain ⟨i, rfl⟩ := Int.eq_ofNat_of_zero_le hi
  obtain ⟨j, rfl⟩ := Int.eq_ofNat_of_zero_le hj
  rw [dft2_eq]
  simp [fftAlong2, dft1_eq, sum_mul]
  refine sum_congr rfl fun a _ => sum_congr rfl fun b _ => ?_
  ring

/-- **Backward after forward is multiplication with the number of grid points.** -/
theorem dft2_inv {n1 n2 : Nat} (X : Grid2) {i j : Int} (hi : 0 ≤ i ∧ i < n1) (hj : 0 ≤ j ∧ j < n2) :
    dft2 n1 n2 true (dft2 n1 n2 false X) i j = (n1 * n2 : ℂ) * X i j := by
  have := dft3_inv (n3 := 1) (liftGrid X) hi hj (k := 0) (by decide)
  rw [dft3_lift, dft3_lift] at this
  simpa [liftGrid] using this

theorem dft2_congr {n1 n2 : Nat} {back : Bool} {X Y : Grid2}
    (h : ∀ i j : Int, (0 ≤ i ∧ i < n1) → (0 ≤ j ∧ j < n2) → X i j = Y i j) :
    dft2 n1 n2 back X = dft2 n1 n2 back Y := by
  funext i j
  unfold dft2
  refine sum_congr rfl fun a ha => sum_congr rfl fun b hb => ?_
  simp only [mem_range] at ha hb
  rw [h a b (by omega) (by omega)]

/-- **Convolution theorem.** -/
theorem dft2_conv {n1 n2 : Nat} (h1 : 0 < n1) (h2 : 0 < n2) (back : Bool) (X Y : Grid2) (i j : Int) :
    dft2 n1 n2 back (conv2 n1 n2 X Y) i j = dft2 n1 n2 back X i j * dft2 n1 n2 back Y i j := by
  have := dft3_conv h1 h2 (n3 := 1) (by decide) back (liftGrid X) (liftGrid Y) i j 0
  rwa [conv3_lift, dft3_lift, dft3_lift, dft3_lift] at this

end FftMpi
