import Verif.Fft3dData

/-!
# Specification of the 3d discrete Fourier transform, and its mathematics
-/

noncomputable section

namespace FftMpi

open Complex Finset

/-- **Specification**: the 3d discrete Fourier transform of a grid function, forward with negative exponent,
backward with positive exponent, not normalised. -/
def dft3 (n1 n2 n3 : Nat) (backward : Bool) (X : Grid3) : Grid3 := fun i j k =>
  ∑ a ∈ range n1, ∑ b ∈ range n2, ∑ c ∈ range n3,
    X a b c * exp ((if backward then 1 else -1) * (2 * Real.pi * I) * (a * i / n1 + b * j / n2 + c * k / n3))

/-- **Specification**: the circular convolution of two grid functions. -/
def conv3 (n1 n2 n3 : Nat) (X Y : Grid3) : Grid3 := fun i j k =>
  ∑ a ∈ range n1, ∑ b ∈ range n2, ∑ c ∈ range n3,
    X a b c * Y ((i - a) % n1) ((j - b) % n2) ((k - c) % n3)

/-- One factor of the kernel. -/
def kern (n : Nat) (backward : Bool) (t u : Int) : ℂ :=
  exp ((if backward then 1 else -1) * (2 * Real.pi * I * t * u / n))

theorem dft1_eq (n : Nat) (back : Bool) (x : Nat → ℂ) (k : Nat) :
    dft1 n back x k = ∑ j ∈ range n, x j * kern n back j k := by
  unfold dft1 kern
  simp only [Int.cast_natCast]

theorem dft3_eq (n1 n2 n3 : Nat) (back : Bool) (X : Grid3) (i j k : Int) :
    dft3 n1 n2 n3 back X i j k = ∑ a ∈ range n1, ∑ b ∈ range n2, ∑ c ∈ range n3,
      X a b c * (kern n1 back a i * kern n2 back b j * kern n3 back c k) := by
  unfold dft3 kern
  refine sum_congr rfl fun a _ => sum_congr rfl fun b _ => sum_congr rfl fun c _ => ?_
  rw [← exp_add, ← exp_add]
  congr 2
  push_cast
  ring

/-- The three 1d transforms in the order of a forward FFT. -/
theorem fftAlong_fwd (n1 n2 n3 : Nat) (back : Bool) (X : Grid3) {i j k : Int} (hi : 0 ≤ i) (hj : 0 ≤ j)
    (hk : 0 ≤ k) :
    fftAlong 2 n3 back (fftAlong 1 n2 back (fftAlong 0 n1 back X)) i j k = dft3 n1 n2 n3 back X i j k := by
  obtain ⟨i, rfl⟩ := Int.eq_ofNat_of_zero_le hi
  obtain ⟨j, rfl⟩ := Int.eq_ofNat_of_zero_le hj
  obtain ⟨k, rfl⟩ := Int.eq_ofNat_of_zero_le hk
  rw [dft3_eq]
  simp [fftAlong, dft1_eq, sum_mul]
  rw [sum_congr rfl fun c _ => sum_comm, sum_comm]
  refine sum_congr rfl fun a _ => ?_
  rw [sum_comm]
  refine sum_congr rfl fun b _ => sum_congr rfl fun c _ => ?_
  ring

/-- The three 1d transforms in the order of an inverse FFT. -/
theorem fftAlong_inv (n1 n2 n3 : Nat) (back : Bool) (X : Grid3) {i j k : Int} (hi : 0 ≤ i) (hj : 0 ≤ j)
    (hk : 0 ≤ k) :
    fftAlong 0 n1 back (fftAlong 1 n2 back (fftAlong 2 n3 back X)) i j k = dft3 n1 n2 n3 back X i j k := by
  obtain ⟨i, rfl⟩ := Int.eq_ofNat_of_zero_le hi
  obtain ⟨j, rfl⟩ := Int.eq_ofNat_of_zero_le hj
  obtain ⟨k, rfl⟩ := Int.eq_ofNat_of_zero_le hk
  rw [dft3_eq]
  simp [fftAlong, dft1_eq, sum_mul]
  refine sum_congr rfl fun a _ => sum_congr rfl fun b _ => sum_congr rfl fun c _ => ?_
  ring

/-! ## Inversion -/

theorem kern_zero (n : Nat) (back : Bool) (t : Int) : kern n back t 0 = 1 := by simp [kern]

/-- Orthogonality. -/
theorem kern_orth {n : Nat} {s t : Int} (hs : 0 ≤ s ∧ s < n) (ht : 0 ≤ t ∧ t < n) :
    ∑ j ∈ range n, kern n false s j * kern n true j t = if s = t then (n : ℂ) else 0 := by
  have hn : (n : ℂ) ≠ 0 := by
    have : n ≠ 0 := by omega
    exact_mod_cast this
  have e : ∀ j : Nat, kern n false s j * kern n true j t = exp (2 * Real.pi * I * (t - s) / n) ^ j := by
    intro j
    unfold kern
    rw [← exp_nat_mul, ← exp_add]
    congr 1
    simp only [Bool.false_eq_true, if_false, if_true]
    push_cast
    ring
  simp only [e]
  split_ifs with h
  · subst h
    simp
  · set w := exp (2 * Real.pi * I * (t - s) / n) with hw
    have w1 : w ≠ 1 := by
      intro h1
      obtain ⟨m, hm⟩ := exp_eq_one_iff.mp h1
      have h2 : (2 * Real.pi * I : ℂ) ≠ 0 := by
        simp [Real.pi_ne_zero, I_ne_zero]
      have h3 : ((t : ℂ) - s) = m * n := by
        have : (2 * Real.pi * I : ℂ) * ((t - s) / n) = (2 * Real.pi * I) * m := by
          linear_combination hm
        have := mul_left_cancel₀ h2 this
        field_simp at this
        rw [this, mul_comm]
      have h4 : t - s = m * n := by exact_mod_cast h3
      have h5 : m = 0 := by
        by_contra hm0
        rcases lt_or_gt_of_ne hm0 with hneg | hpos
        · have : m * n ≤ (-1) * n := mul_le_mul_of_nonneg_right (by omega) (by omega)
          omega
        · have : 1 * (n : Int) ≤ m * n := mul_le_mul_of_nonneg_right (by omega) (by omega)
          omega
      rw [h5] at h4
      omega
    have wn : w ^ n = 1 := by
      rw [hw, ← exp_nat_mul, exp_eq_one_iff]
      refine ⟨t - s, ?_⟩
      push_cast
      field_simp
    have := mul_geom_sum w n
    rw [wn, sub_self] at this
    rcases mul_eq_zero.mp this with h' | h'
    · exact absurd (sub_eq_zero.mp h') w1
    · exact h'

/-- Sum against the orthogonality relation. -/
theorem sum_orth {n : Nat} (x : Int → ℂ) {t : Int} (ht : 0 ≤ t ∧ t < n) :
    ∑ s ∈ range n, x s * ∑ j ∈ range n, kern n false s j * kern n true j t = n * x t := by
  obtain ⟨t, rfl⟩ := Int.eq_ofNat_of_zero_le ht.1
  rw [sum_congr rfl (g := fun s : Nat => if s = t then n * x t else 0)]
  · rw [sum_ite_eq' (range n) t]
    simp at ht
    simp [ht]
  · intro s hs
    rw [kern_orth ⟨by omega, by simpa using hs⟩ ht]
    by_cases h : s = t
    · subst h; simp [mul_comm]
    · simp [h]

/-- **Backward after forward is multiplication with the number of grid points.** -/
theorem dft3_inv {n1 n2 n3 : Nat} (X : Grid3) {i j k : Int} (hi : 0 ≤ i ∧ i < n1) (hj : 0 ≤ j ∧ j < n2)
    (hk : 0 ≤ k ∧ k < n3) :
    dft3 n1 n2 n3 true (dft3 n1 n2 n3 false X) i j k = (n1 * n2 * n3 : ℂ) * X i j k := by
  have e : dft3 n1 n2 n3 true (dft3 n1 n2 n3 false X) i j k =
      ∑ a ∈ range n1, (∑ b ∈ range n2, (∑ c ∈ range n3, X a b c *
        ∑ w ∈ range n3, kern n3 false c w * kern n3 true w k) *
        ∑ v ∈ range n2, kern n2 false b v * kern n2 true v j) *
        ∑ u ∈ range n1, kern n1 false a u * kern n1 true u i := by
    rw [dft3_eq]
    simp only [dft3_eq, sum_mul, mul_sum]
    -- bring the sums into the same order
    have l1 : ∀ (F : Nat → Nat → Nat → Nat → Nat → Nat → ℂ),
        ∑ u ∈ range n1, ∑ v ∈ range n2, ∑ w ∈ range n3, ∑ a ∈ range n1, ∑ b ∈ range n2, ∑ c ∈ range n3,
          F a b c u v w =
        ∑ a ∈ range n1, ∑ u ∈ range n1, ∑ b ∈ range n2, ∑ v ∈ range n2, ∑ c ∈ range n3, ∑ w ∈ range n3,
          F a b c u v w := by
      intro F
      calc _ = ∑ u ∈ range n1, ∑ v ∈ range n2, ∑ a ∈ range n1, ∑ w ∈ range n3, ∑ b ∈ range n2,
              ∑ c ∈ range n3, F a b c u v w :=
            sum_congr rfl fun u _ => sum_congr rfl fun v _ => sum_comm
        _ = ∑ u ∈ range n1, ∑ a ∈ range n1, ∑ v ∈ range n2, ∑ w ∈ range n3, ∑ b ∈ range n2,
              ∑ c ∈ range n3, F a b c u v w := sum_congr rfl fun u _ => sum_comm
        _ = ∑ a ∈ range n1, ∑ u ∈ range n1, ∑ v ∈ range n2, ∑ w ∈ range n3, ∑ b ∈ range n2,
              ∑ c ∈ range n3, F a b c u v w := sum_comm
        _ = ∑ a ∈ range n1, ∑ u ∈ range n1, ∑ v ∈ range n2, ∑ b ∈ range n2, ∑ w ∈ range n3,
              ∑ c ∈ range n3, F a b c u v w :=
            sum_congr rfl fun a _ => sum_congr rfl fun u _ => sum_congr rfl fun v _ => sum_comm
        _ = ∑ a ∈ range n1, ∑ u ∈ range n1, ∑ b ∈ range n2, ∑ v ∈ range n2, ∑ w ∈ range n3,
              ∑ c ∈ range n3, F a b c u v w :=
            sum_congr rfl fun a _ => sum_congr rfl fun u _ => sum_comm
        _ = _ := sum_congr rfl fun a _ => sum_congr rfl fun u _ => sum_congr rfl fun b _ =>
            sum_congr rfl fun v _ => sum_comm
    rw [l1 (fun a b c u v w => X a b c * (kern n1 false a u * kern n2 false b v * kern n3 false c w) *
      (kern n1 true u i * kern n2 true v j * kern n3 true w k))]
    refine sum_congr rfl fun a _ => sum_congr rfl fun u _ => sum_congr rfl fun b _ => sum_congr rfl fun v _ =>
      sum_congr rfl fun c _ => sum_congr rfl fun w _ => ?_
    ring
  rw [e]
  have h3 : ∀ a b : Nat, (∑ c ∈ range n3, X a b c *
      ∑ w ∈ range n3, kern n3 false c w * kern n3 true w k) = n3 * X a b k :=
    fun a b => sum_orth (fun c => X a b c) hk
  simp only [h3]
  have h2 : ∀ a : Nat, (∑ b ∈ range n2, (n3 * X a b k) *
      ∑ v ∈ range n2, kern n2 false b v * kern n2 true v j) = n2 * (n3 * X a j k) :=
    fun a => sum_orth (fun b => n3 * X a b k) hj
  simp only [h2]
  rw [sum_orth (fun a => n2 * (n3 * X a j k)) hi]
  ring

/-! ## Values outside the grid do not matter -/

theorem dft3_congr {n1 n2 n3 : Nat} {back : Bool} {X Y : Grid3}
    (h : ∀ i j k : Int, (0 ≤ i ∧ i < n1) → (0 ≤ j ∧ j < n2) → (0 ≤ k ∧ k < n3) → X i j k = Y i j k) :
    dft3 n1 n2 n3 back X = dft3 n1 n2 n3 back Y := by
  funext i j k
  unfold dft3
  refine sum_congr rfl fun a ha => sum_congr rfl fun b hb => sum_congr rfl fun c hc => ?_
  simp only [mem_range] at ha hb hc
  rw [h a b c (by omega) (by omega) (by omega)]

/-! ## Convolution -/

theorem kern_add (n : Nat) (back : Bool) (s t u : Int) :
    kern n back (s + t) u = kern n back s u * kern n back t u := by
  unfold kern
  rw [← exp_add]
  congr 1
  push_cast
  ring

theorem kern_period {n : Nat} (hn : 0 < n) (back : Bool) (q u : Int) : kern n back (n * q) u = 1 := by
  have hn' : (n : ℂ) ≠ 0 := by exact_mod_cast hn.ne'
  unfold kern
  rw [exp_eq_one_iff]
  refine ⟨(if back then 1 else -1) * q * u, ?_⟩
  cases back <;> simp <;> field_simp

theorem kern_mod {n : Nat} (hn : 0 < n) (back : Bool) (t u : Int) : kern n back (t % n) u = kern n back t u := by
  conv_rhs => rw [← Int.mul_ediv_add_emod t n, kern_add, kern_period hn, one_mul]

/-- Shifted sums. -/
theorem sum_shift {n : Nat} (hn : 0 < n) (a : Int) (F : Int → ℂ) :
    ∑ i ∈ range n, F ((i - a) % n) = ∑ i ∈ range n, F i := by
  have hn' : (0 : Int) < n := by exact_mod_cast hn
  have back : ∀ (x s : Int), 0 ≤ x → x < n → ((x + s) % n - s) % n = x := by
    intro x s h0 h1
    rw [Int.emod_sub_emod, add_sub_cancel_right, Int.emod_eq_of_lt h0 h1]
  have back' : ∀ (x s : Int), 0 ≤ x → x < n → ((x - s) % n + s) % n = x := by
    intro x s h0 h1
    rw [Int.emod_add_emod, sub_add_cancel, Int.emod_eq_of_lt h0 h1]
  refine sum_nbij' (fun i => ((i - a) % n).toNat) (fun i => ((i + a) % n).toNat) ?_ ?_ ?_ ?_ ?_
  · intro i _
    have h1 := Int.emod_nonneg ((i : Int) - a) hn'.ne'
    have h2 := Int.emod_lt_of_pos ((i : Int) - a) hn'
    simp only [mem_range]
    omega
  · intro i _
    have h1 := Int.emod_nonneg ((i : Int) + a) hn'.ne'
    have h2 := Int.emod_lt_of_pos ((i : Int) + a) hn'
    simp only [mem_range]
    omega
  · intro i hi
    have h1 := Int.emod_nonneg ((i : Int) - a) hn'.ne'
    have hi' : i < n := by simpa using hi
    rw [Int.toNat_of_nonneg h1, back' _ _ (by omega) (by omega)]
    simp
  · intro i hi
    have h1 := Int.emod_nonneg ((i : Int) + a) hn'.ne'
    have hi' : i < n := by simpa using hi
    rw [Int.toNat_of_nonneg h1, back _ _ (by omega) (by omega)]
    simp
  · intro i _
    have h1 := Int.emod_nonneg ((i : Int) - a) hn'.ne'
    rw [Int.toNat_of_nonneg h1]

/-- One dimension of the convolution theorem. -/
theorem sum_conv {n : Nat} (hn : 0 < n) (back : Bool) (a u : Int) (y : Int → ℂ) :
    ∑ i ∈ range n, y ((i - a) % n) * kern n back i u = kern n back a u * ∑ i ∈ range n, y i * kern n back i u := by
  rw [mul_sum]
  rw [← sum_shift hn a (fun i => kern n back a u * (y i * kern n back i u))]
  refine sum_congr rfl fun i _ => ?_
  rw [kern_mod hn, show (i : Int) = a + (i - a) by ring, kern_add]
  simp only [add_sub_cancel_left]
  ring

/-- **Convolution theorem.** -/
theorem dft3_conv {n1 n2 n3 : Nat} (h1 : 0 < n1) (h2 : 0 < n2) (h3 : 0 < n3) (back : Bool) (X Y : Grid3)
    (i j k : Int) :
    dft3 n1 n2 n3 back (conv3 n1 n2 n3 X Y) i j k =
      dft3 n1 n2 n3 back X i j k * dft3 n1 n2 n3 back Y i j k := by
  rw [dft3_eq n1 n2 n3 back X, dft3_eq n1 n2 n3 back (conv3 n1 n2 n3 X Y)]
  unfold conv3
  simp only [sum_mul]
  have l1 : ∀ (F : Nat → Nat → Nat → Nat → Nat → Nat → ℂ),
      ∑ u ∈ range n1, ∑ v ∈ range n2, ∑ w ∈ range n3, ∑ a ∈ range n1, ∑ b ∈ range n2, ∑ c ∈ range n3,
        F a b c u v w =
      ∑ a ∈ range n1, ∑ b ∈ range n2, ∑ c ∈ range n3, ∑ u ∈ range n1, ∑ v ∈ range n2, ∑ w ∈ range n3,
        F a b c u v w := by
    intro F
    simp only [← sum_product']
    refine sum_nbij' (fun x => (x.2.2.2.1, x.2.2.2.2.1, x.2.2.2.2.2, x.1, x.2.1, x.2.2.1))
      (fun x => (x.2.2.2.1, x.2.2.2.2.1, x.2.2.2.2.2, x.1, x.2.1, x.2.2.1)) ?_ ?_ ?_ ?_ ?_
    · intro x; simp only [mem_product, mem_range]; tauto
    · intro x; simp only [mem_product, mem_range]; tauto
    · intro x _; rfl
    · intro x _; rfl
    · intro x _; rfl
  rw [l1 (fun a b c u v w => X a b c * Y ((u - a) % n1) ((v - b) % n2) ((w - c) % n3) *
    (kern n1 back u i * kern n2 back v j * kern n3 back w k))]
  refine sum_congr rfl fun a _ => sum_congr rfl fun b _ => sum_congr rfl fun c _ => ?_
  rw [dft3_eq]
  have s3 : ∀ u v : Nat, ∑ w ∈ range n3, X a b c * Y ((u - a) % n1) ((v - b) % n2) ((w - c) % n3) *
      (kern n1 back u i * kern n2 back v j * kern n3 back w k) =
      X a b c * kern n3 back c k * ((∑ w ∈ range n3, Y ((u - a) % n1) ((v - b) % n2) w * kern n3 back w k) *
        kern n2 back v j) * kern n1 back u i := by
    intro u v
    have := sum_conv h3 back c k (fun w => Y ((u - a) % n1) ((v - b) % n2) w)
    rw [show X a b c * kern n3 back c k *
        ((∑ w ∈ range n3, Y ((u - a) % n1) ((v - b) % n2) w * kern n3 back w k) * kern n2 back v j) *
        kern n1 back u i = X a b c * (kern n3 back c k *
        (∑ w ∈ range n3, Y ((u - a) % n1) ((v - b) % n2) w * kern n3 back w k)) * kern n2 back v j *
        kern n1 back u i by ring, ← this, mul_sum, sum_mul, sum_mul]
    refine sum_congr rfl fun w _ => ?_
    ring
  simp only [s3]
  have s2 : ∀ u : Nat, ∑ v ∈ range n2, X a b c * kern n3 back c k *
      ((∑ w ∈ range n3, Y ((u - a) % n1) ((v - b) % n2) w * kern n3 back w k) * kern n2 back v j) *
        kern n1 back u i =
      X a b c * kern n3 back c k * kern n2 back b j *
      ((∑ v ∈ range n2, (∑ w ∈ range n3, Y ((u - a) % n1) v w * kern n3 back w k) * kern n2 back v j) *
        kern n1 back u i) := by
    intro u
    have := sum_conv h2 back b j (fun v => ∑ w ∈ range n3, Y ((u - a) % n1) v w * kern n3 back w k)
    rw [show X a b c * kern n3 back c k * kern n2 back b j *
      ((∑ v ∈ range n2, (∑ w ∈ range n3, Y ((u - a) % n1) v w * kern n3 back w k) * kern n2 back v j) *
        kern n1 back u i) = X a b c * kern n3 back c k * (kern n2 back b j *
      ∑ v ∈ range n2, (∑ w ∈ range n3, Y ((u - a) % n1) v w * kern n3 back w k) * kern n2 back v j) *
        kern n1 back u i by ring, ← this, mul_sum, sum_mul]
  simp only [s2]
  rw [← mul_sum, sum_conv h1 back a i (fun u => ∑ v ∈ range n2,
    (∑ w ∈ range n3, Y u v w * kern n3 back w k) * kern n2 back v j)]
  rw [show ∀ t : ℂ, X a b c * kern n3 back c k * kern n2 back b j * (kern n1 back a i * t) =
    X a b c * (kern n1 back a i * kern n2 back b j * kern n3 back c k) * t by intro t; ring]
  congr 1
  simp only [sum_mul]
  refine sum_congr rfl fun u _ => sum_congr rfl fun v _ => sum_congr rfl fun w _ => ?_
  ring

end FftMpi
