import Verif.FftFl2Lemmas
import Verif.PropsKissErr

/-!
# Rounding errors of grids of 1d FFTs and of the scaling: lemmas
-/

noncomputable section

namespace FftMpi

open Complex Finset

/-- The transform of a line has the relative error `E`, unless something overflows. -/
def LineErr (T : (Nat → ℂ) → Nat → ℂ) (n : Nat) (back : Bool) (E tiny big : ℝ) : Prop :=
  ∀ x, ∀ k < n, 2 * (1 + E) * (∑ j ∈ range n, (‖x j‖ + 2 * tiny)) ≤ big →
    ‖T x k - dft1 n back x k‖ ≤ E * ∑ j ∈ range n, (‖x j‖ + 2 * tiny)

/-- All twiddles of the plans of length `n` have errors of at most `d`. -/
def TwiddlesNear (ar : Arith) (n : Nat) (d : ℝ) : Prop :=
  ∀ back, ∀ i < n, ‖ar.twiddle n back i - exactTwiddle n back i‖ ≤ d

theorem kissErrSmooth_nonneg {u d : ℝ} (hu : 0 ≤ u) (hd : 0 ≤ d) (n : Nat) : 0 ≤ kissErrSmooth u d n := by
  have h0 := radixErr_nonneg hu hd
  have : 1 ≤ (1 + radixErr u d) ^ Nat.log 2 n := one_le_pow₀ (by linarith)
  unfold kissErrSmooth
  linarith

theorem kissLine_err {ar : Arith} {u tiny big d : ℝ} (R : RoundOK ar u tiny big) (hd : 0 ≤ d) {n : Nat}
    (hn : 2 ≤ n) (hs : n < 2 ^ 31) (h5 : ∀ q : Nat, q.Prime → q ∣ n → q = 2 ∨ q = 3 ∨ q = 5)
    (htw : TwiddlesNear ar n d) (back : Bool) :
    LineErr (kissLine ar n back) n back (kissErrSmooth u d n) tiny big := by
  intro x k hk hb
  have hu := R.u0
  have ht := R.t0
  obtain ⟨st, h1, h2, h3, h4, h5', h6, h7⟩ := kissAllocF_ok ar (n := n) (by omega) (by omega) back
  obtain ⟨l', g1, _, _, _, g5⟩ := C19_kf_factor (n := n) (by omega) (by omega)
  obtain ⟨l'', k1, k2, _⟩ := kfFactor_chain (n := n) (by omega) (by omega)
  rw [h6] at g1 k1
  cases g1
  cases k1
  have hgE := growth_smooth R.u0 hd st.factors n k2 (g5 hn h5)
  have hS : 0 ≤ ∑ j ∈ range n, (‖x j‖ + 2 * tiny) :=
    sum_nonneg fun j _ => by have := norm_nonneg (x j); linarith
  have hT : TwNear st d := by
    intro i hi
    rw [h2] at hi
    rw [h7 i hi, exactTwiddle_root h2, h3]
    exact htw back i hi
  have := work_err R hd h4 hT st.factors n 1 x h5' (by omega) (by
    refine le_trans ?_ hb
    refine mul_le_mul_of_nonneg_right ?_ hS
    linarith) k hk
  rw [workVal_eq_dft1 h2, h3] at this
  unfold kissLine
  rw [h1]
  refine this.trans (mul_le_mul_of_nonneg_right ?_ hS)
  linarith

theorem kern_norm (n : Nat) (back : Bool) (t u : Int) : ‖kern n back t u‖ = 1 := by
  unfold kern
  have : (if back then (1 : ℂ) else -1) * (2 * Real.pi * I * t * u / n) =
      ((if back then (1 : ℝ) else -1) * (2 * Real.pi * t * u / n) : ℝ) * I := by
    cases back <;> push_cast <;> simp <;> ring
  rw [this]
  exact norm_exp_ofReal_mul_I _

/-- A line of numbers with errors. -/
theorem Near.line {tiny G big E : ℝ} {n : Nat} {back : Bool} {T : (Nat → ℂ) → Nat → ℂ} (ht : 0 ≤ tiny)
    (hE : 0 ≤ E) (L : LineErr T n back E tiny big) {A : Nat → ℝ} {x y : Nat → ℂ}
    (h : ∀ j < n, Near tiny G (A j) (y j) (x j)) (hG : 1 ≤ G)
    (hb : 2 * (G * (1 + E)) * (∑ j ∈ range n, A j) ≤ big) {k : Nat} (hk : k < n) :
    Near tiny (G * (1 + E)) (∑ j ∈ range n, A j) (dft1 n back y k) (T x k) := by
  have hsum : ∑ j ∈ range n, (‖x j‖ + 2 * tiny) ≤ G * ∑ j ∈ range n, A j := by
    rw [mul_sum]
    exact sum_le_sum fun j hj => (h j (mem_range.mp hj)).norm
  have hL := L x k hk (by
    have : 2 * (1 + E) * (∑ j ∈ range n, (‖x j‖ + 2 * tiny)) ≤ 2 * (1 + E) * (G * ∑ j ∈ range n, A j) :=
      mul_le_mul_of_nonneg_left hsum (by linarith)
    linarith)
  have hd : ‖dft1 n back x k - dft1 n back y k‖ ≤ (G - 1) * ∑ j ∈ range n, A j := by
    rw [dft1_eq, dft1_eq, ← sum_sub_distrib, mul_sum]
    refine (norm_sum_le _ _).trans (sum_le_sum fun j hj => ?_)
    rw [← sub_mul, norm_mul, kern_norm, mul_one]
    exact (h j (mem_range.mp hj)).err
  refine ⟨by nlinarith, ?_, ?_⟩
  · have h1 : ‖dft1 n back y k‖ ≤ ∑ j ∈ range n, ‖y j‖ := by
      rw [dft1_eq]
      refine (norm_sum_le _ _).trans (sum_le_sum fun j _ => ?_)
      rw [norm_mul, kern_norm, mul_one]
    have h2 : ∑ j ∈ range n, (‖y j‖ + 2 * tiny) ≤ ∑ j ∈ range n, A j :=
      sum_le_sum fun j hj => (h j (mem_range.mp hj)).amp
    rw [sum_add_distrib] at h2
    have h3 : 2 * tiny ≤ ∑ _j ∈ range n, 2 * tiny := by
      rw [sum_const, card_range, nsmul_eq_mul]
      have : (1 : ℝ) ≤ n := by exact_mod_cast (show 1 ≤ n by omega)
      nlinarith
    linarith
  · have h1 : ‖T x k - dft1 n back y k‖ ≤ ‖T x k - dft1 n back x k‖ + ‖dft1 n back x k - dft1 n back y k‖ :=
      norm_sub_le_norm_sub_add_norm_sub _ _ _
    have h2 : E * ∑ j ∈ range n, (‖x j‖ + 2 * tiny) ≤ E * (G * ∑ j ∈ range n, A j) :=
      mul_le_mul_of_nonneg_left hsum hE
    have h3 : (G * (1 + E) - 1) * ∑ j ∈ range n, A j =
        E * (G * ∑ j ∈ range n, A j) + (G - 1) * ∑ j ∈ range n, A j := by ring
    linarith

/-! ## Grids -/

/-- Every point of a grid has a relative error of at most `G-1`. -/
def Near3 (n1 n2 n3 : Nat) (tiny G : ℝ) (A : Nat → Nat → Nat → ℝ) (Y X : Grid3) : Prop :=
  ∀ i < n1, ∀ j < n2, ∀ k < n3, Near tiny G (A i j k) (Y (i : Nat) (j : Nat) (k : Nat)) (X (i : Nat) (j : Nat) (k : Nat))

/-- The sum over the grid. -/
def sum3 (n1 n2 n3 : Nat) (A : Nat → Nat → Nat → ℝ) : ℝ :=
  ∑ i ∈ range n1, ∑ j ∈ range n2, ∑ k ∈ range n3, A i j k

section
variable {n1 n2 n3 : Nat} {tiny G big E : ℝ} {A : Nat → Nat → Nat → ℝ} {Y X : Grid3} {back : Bool}
  {T : (Nat → ℂ) → Nat → ℂ}

theorem Near3.along0 (h : Near3 n1 n2 n3 tiny G A Y X) (ht : 0 ≤ tiny) (hE : 0 ≤ E) (hG : 1 ≤ G)
    (L : LineErr T n1 back E tiny big)
    (hb : ∀ j < n2, ∀ k < n3, 2 * (G * (1 + E)) * (∑ t ∈ range n1, A t j k) ≤ big) :
    Near3 n1 n2 n3 tiny (G * (1 + E)) (fun _ j k => ∑ t ∈ range n1, A t j k) (fftAlong 0 n1 back Y)
      (lineAlong 0 T X) := by
  intro i hi j hj k hk
  have := Near.line ht hE L (A := fun t => A t j k) (x := fun t => X (t : Nat) (j : Nat) (k : Nat))
    (y := fun t => Y (t : Nat) (j : Nat) (k : Nat)) (fun t ht' => h t ht' j hj k hk) hG (hb j hj k hk) hi
  simpa [fftAlong, lineAlong] using this

theorem Near3.along1 (h : Near3 n1 n2 n3 tiny G A Y X) (ht : 0 ≤ tiny) (hE : 0 ≤ E) (hG : 1 ≤ G)
    (L : LineErr T n2 back E tiny big)
    (hb : ∀ i < n1, ∀ k < n3, 2 * (G * (1 + E)) * (∑ t ∈ range n2, A i t k) ≤ big) :
    Near3 n1 n2 n3 tiny (G * (1 + E)) (fun i _ k => ∑ t ∈ range n2, A i t k) (fftAlong 1 n2 back Y)
      (lineAlong 1 T X) := by
  intro i hi j hj k hk
  have := Near.line ht hE L (A := fun t => A i t k) (x := fun t => X (i : Nat) (t : Nat) (k : Nat))
    (y := fun t => Y (i : Nat) (t : Nat) (k : Nat)) (fun t ht' => h i hi t ht' k hk) hG (hb i hi k hk) hj
  simpa [fftAlong, lineAlong] using this

theorem Near3.along2 (h : Near3 n1 n2 n3 tiny G A Y X) (ht : 0 ≤ tiny) (hE : 0 ≤ E) (hG : 1 ≤ G)
    (L : LineErr T n3 back E tiny big)
    (hb : ∀ i < n1, ∀ j < n2, 2 * (G * (1 + E)) * (∑ t ∈ range n3, A i j t) ≤ big) :
    Near3 n1 n2 n3 tiny (G * (1 + E)) (fun i j _ => ∑ t ∈ range n3, A i j t) (fftAlong 2 n3 back Y)
      (lineAlong 2 T X) := by
  intro i hi j hj k hk
  have := Near.line ht hE L (A := fun t => A i j t) (x := fun t => X (i : Nat) (j : Nat) (t : Nat))
    (y := fun t => Y (i : Nat) (j : Nat) (t : Nat)) (fun t ht' => h i hi j hj t ht') hG (hb i hi j hj) hk
  simpa [fftAlong, lineAlong] using this

theorem le_sum3 (hA : ∀ i < n1, ∀ j < n2, ∀ k < n3, 0 ≤ A i j k) :
    (∀ j < n2, ∀ k < n3, ∑ i ∈ range n1, A i j k ≤ sum3 n1 n2 n3 A) ∧
    (∀ k < n3, ∑ j ∈ range n2, ∑ i ∈ range n1, A i j k ≤ sum3 n1 n2 n3 A) ∧
    (∀ i < n1, ∀ j < n2, ∑ k ∈ range n3, A i j k ≤ sum3 n1 n2 n3 A) ∧
    (∀ i < n1, ∑ j ∈ range n2, ∑ k ∈ range n3, A i j k ≤ sum3 n1 n2 n3 A) := by
  have c : ∀ i < n1, ∀ j < n2, 0 ≤ ∑ k ∈ range n3, A i j k := fun i hi j hj =>
    sum_nonneg fun k hk => hA i hi j hj k (mem_range.mp hk)
  have b : ∀ i < n1, 0 ≤ ∑ j ∈ range n2, ∑ k ∈ range n3, A i j k := fun i hi =>
    sum_nonneg fun j hj => c i hi j (mem_range.mp hj)
  have s1 : ∀ k < n3, ∑ j ∈ range n2, ∑ i ∈ range n1, A i j k ≤ sum3 n1 n2 n3 A := by
    intro k hk
    rw [sum_comm]
    exact sum_le_sum fun i hi => sum_le_sum fun j hj =>
      single_le_sum (f := fun k => A i j k) (fun k hk => hA i (mem_range.mp hi) j (mem_range.mp hj) k (mem_range.mp hk))
        (mem_range.mpr hk)
  have s2 : ∀ i < n1, ∑ j ∈ range n2, ∑ k ∈ range n3, A i j k ≤ sum3 n1 n2 n3 A := fun i hi =>
    single_le_sum (f := fun i => ∑ j ∈ range n2, ∑ k ∈ range n3, A i j k) (fun i hi => b i (mem_range.mp hi))
      (mem_range.mpr hi)
  refine ⟨fun j hj k hk => ?_, s1, fun i hi j hj => ?_, s2⟩
  · exact (single_le_sum (f := fun j => ∑ i ∈ range n1, A i j k) (fun j hj => sum_nonneg fun i hi =>
      hA i (mem_range.mp hi) j (mem_range.mp hj) k hk) (mem_range.mpr hj)).trans (s1 k hk)
  · exact (single_le_sum (f := fun j => ∑ k ∈ range n3, A i j k) (fun j hj => c i hi j (mem_range.mp hj))
      (mem_range.mpr hj)).trans (s2 i hi)

variable {E1 E2 E3 : ℝ} {T1 T2 T3 : (Nat → ℂ) → Nat → ℂ}

/-- Three stages of 1d FFTs, forward order. -/
theorem Near3.lines (h : Near3 n1 n2 n3 tiny G A Y X) (ht : 0 ≤ tiny) (hG : 1 ≤ G)
    (hE1 : 0 ≤ E1) (hE2 : 0 ≤ E2) (hE3 : 0 ≤ E3)
    (L1 : LineErr T1 n1 back E1 tiny big) (L2 : LineErr T2 n2 back E2 tiny big) (L3 : LineErr T3 n3 back E3 tiny big)
    (hb : 2 * (G * ((1 + E1) * (1 + E2) * (1 + E3))) * sum3 n1 n2 n3 A ≤ big) :
    Near3 n1 n2 n3 tiny (G * ((1 + E1) * (1 + E2) * (1 + E3))) (fun _ _ _ => sum3 n1 n2 n3 A)
      (dft3 n1 n2 n3 back Y) (lines3 T1 T2 T3 X) := by
  have hA : ∀ i < n1, ∀ j < n2, ∀ k < n3, 0 ≤ A i j k := fun i hi j hj k hk => (h i hi j hj k hk).nonneg ht
  obtain ⟨a1, a2, _, _⟩ := le_sum3 hA
  have hS : 0 ≤ sum3 n1 n2 n3 A := sum_nonneg fun i hi => sum_nonneg fun j hj => sum_nonneg fun k hk =>
    hA i (mem_range.mp hi) j (mem_range.mp hj) k (mem_range.mp hk)
  have g1 : G * (1 + E1) ≤ G * ((1 + E1) * (1 + E2) * (1 + E3)) := by
    have : (1 + E1) * 1 * 1 ≤ (1 + E1) * (1 + E2) * (1 + E3) := by gcongr <;> linarith
    have := mul_le_mul_of_nonneg_left this (show 0 ≤ G by linarith)
    linarith
  have g2 : G * (1 + E1) * (1 + E2) ≤ G * ((1 + E1) * (1 + E2) * (1 + E3)) := by
    have : (1 + E1) * (1 + E2) * 1 ≤ (1 + E1) * (1 + E2) * (1 + E3) := by gcongr; linarith
    have := mul_le_mul_of_nonneg_left this (show 0 ≤ G by linarith)
    linarith
  have bnd : ∀ {H s : ℝ}, H ≤ G * ((1 + E1) * (1 + E2) * (1 + E3)) → 0 ≤ H → s ≤ sum3 n1 n2 n3 A →
      2 * H * s ≤ big := by
    intro H s h1 h2 h3
    refine le_trans ?_ hb
    calc 2 * H * s ≤ 2 * H * sum3 n1 n2 n3 A := mul_le_mul_of_nonneg_left h3 (by linarith)
      _ ≤ _ := mul_le_mul_of_nonneg_right (by linarith) hS
  have q1 : 1 ≤ G * (1 + E1) := by nlinarith
  have q2 : 1 ≤ G * (1 + E1) * (1 + E2) := by nlinarith
  have s1 := h.along0 ht hE1 hG L1 fun j hj k hk => bnd g1 (by linarith) (a1 j hj k hk)
  have s2 := s1.along1 ht hE2 q1 L2 fun i _ k hk => bnd g2 (by linarith) (a2 k hk)
  have e : sum3 n1 n2 n3 A = ∑ k ∈ range n3, ∑ j ∈ range n2, ∑ i ∈ range n1, A i j k := by
    unfold sum3
    rw [sum_comm]
    simp_rw [sum_comm (s := range n1)]
    rw [sum_comm]
  have s3 := s2.along2 ht hE3 q2 L3 fun i _ j _ => bnd (by linarith) (by nlinarith) e.ge
  intro i hi j hj k hk
  have := s3 i hi j hj k hk
  rw [← fftAlong_fwd _ _ _ _ _ (by omega) (by omega) (by omega), show G * ((1 + E1) * (1 + E2) * (1 + E3)) =
    G * (1 + E1) * (1 + E2) * (1 + E3) by ring]
  dsimp only at this ⊢
  rw [e]
  exact this

/-- Three stages of 1d FFTs, inverse order. -/
theorem Near3.linesInv (h : Near3 n1 n2 n3 tiny G A Y X) (ht : 0 ≤ tiny) (hG : 1 ≤ G)
    (hE1 : 0 ≤ E1) (hE2 : 0 ≤ E2) (hE3 : 0 ≤ E3)
    (L1 : LineErr T1 n1 back E1 tiny big) (L2 : LineErr T2 n2 back E2 tiny big) (L3 : LineErr T3 n3 back E3 tiny big)
    (hb : 2 * (G * ((1 + E1) * (1 + E2) * (1 + E3))) * sum3 n1 n2 n3 A ≤ big) :
    Near3 n1 n2 n3 tiny (G * ((1 + E1) * (1 + E2) * (1 + E3))) (fun _ _ _ => sum3 n1 n2 n3 A)
      (dft3 n1 n2 n3 back Y) (lines3Inv T1 T2 T3 X) := by
  have hA : ∀ i < n1, ∀ j < n2, ∀ k < n3, 0 ≤ A i j k := fun i hi j hj k hk => (h i hi j hj k hk).nonneg ht
  obtain ⟨_, _, a3, a4⟩ := le_sum3 hA
  have hS : 0 ≤ sum3 n1 n2 n3 A := sum_nonneg fun i hi => sum_nonneg fun j hj => sum_nonneg fun k hk =>
    hA i (mem_range.mp hi) j (mem_range.mp hj) k (mem_range.mp hk)
  have g1 : G * (1 + E3) ≤ G * ((1 + E1) * (1 + E2) * (1 + E3)) := by
    have : 1 * 1 * (1 + E3) ≤ (1 + E1) * (1 + E2) * (1 + E3) := by gcongr <;> linarith
    have := mul_le_mul_of_nonneg_left this (show 0 ≤ G by linarith)
    linarith
  have g2 : G * (1 + E3) * (1 + E2) ≤ G * ((1 + E1) * (1 + E2) * (1 + E3)) := by
    have : 1 * (1 + E2) * (1 + E3) ≤ (1 + E1) * (1 + E2) * (1 + E3) := by gcongr; linarith
    have := mul_le_mul_of_nonneg_left this (show 0 ≤ G by linarith)
    linarith
  have bnd : ∀ {H s : ℝ}, H ≤ G * ((1 + E1) * (1 + E2) * (1 + E3)) → 0 ≤ H → s ≤ sum3 n1 n2 n3 A →
      2 * H * s ≤ big := by
    intro H s h1 h2 h3
    refine le_trans ?_ hb
    calc 2 * H * s ≤ 2 * H * sum3 n1 n2 n3 A := mul_le_mul_of_nonneg_left h3 (by linarith)
      _ ≤ _ := mul_le_mul_of_nonneg_right (by linarith) hS
  have q1 : 1 ≤ G * (1 + E3) := by nlinarith
  have q2 : 1 ≤ G * (1 + E3) * (1 + E2) := by nlinarith
  have s1 := h.along2 ht hE3 hG L3 fun i hi j hj => bnd g1 (by linarith) (a3 i hi j hj)
  have s2 := s1.along1 ht hE2 q1 L2 fun i hi k _ => bnd g2 (by linarith) (a4 i hi)
  have s3 := s2.along0 ht hE1 q2 L1 fun j _ k _ => bnd (by linarith) (by nlinarith) le_rfl
  intro i hi j hj k hk
  have := s3 i hi j hj k hk
  rw [← fftAlong_inv _ _ _ _ _ (by omega) (by omega) (by omega), show G * ((1 + E1) * (1 + E2) * (1 + E3)) =
    G * (1 + E3) * (1 + E2) * (1 + E1) by ring]
  exact this

end

/-! ## Scaling -/

/-- Relative error (and 1) of the factor `1/N`. -/
def normGrow (u v : ℝ) : ℝ := (1 + v) * (1 + u) / (1 - v)

theorem norm_err {ar : Arith} {u v c tiny big : ℝ} (R : RoundOK ar u tiny big) (T : TrigOK ar v c tiny big)
    (hu : u ≤ 1 / 100) (hv : v ≤ 1 / 100) (ht : tiny ≤ 1 / 100) {N : Int} (hN : 1 ≤ N) (hNb : (N : ℝ) ≤ big)
    (hbig : 2 ≤ big) :
    |ar.conv (ar.ddiv 1 (ar.ofInt N)) - 1 / (N : ℝ)| ≤ (normGrow u v - 1) * (1 / (N : ℝ) + tiny) := by
  have v0 := T.v0
  have t0 := R.t0
  have hNr : (1 : ℝ) ≤ N := by exact_mod_cast hN
  have hN0 : (0 : ℝ) < N := by linarith
  set A : ℝ := 1 / (N : ℝ) + tiny with hA
  have hA1 : A ≤ 1.01 := by
    have : 1 / (N : ℝ) ≤ 1 := by rw [div_le_one hN0]; exact hNr
    rw [hA]; norm_num at this ht ⊢; linarith
  have hA0 : 0 ≤ A := by positivity
  have w := T.ofInt N (by rwa [abs_of_pos hN0])
  rw [abs_of_pos hN0] at w
  set w' := ar.ofInt N
  have wlow : (N : ℝ) * (1 - v) ≤ w' := by
    have := (abs_le.mp w).1
    linarith
  have h1v : 0 < 1 - v := by linarith
  have w0 : 0 < w' := lt_of_lt_of_le (by positivity) wlow
  have b0 : |1 / w' - 1 / (N : ℝ)| ≤ (1 / (1 - v) - 1) * A := by
    have e1 : 1 / w' - 1 / (N : ℝ) = -((w' - N) / (w' * N)) := by
      field_simp; ring
    rw [e1, abs_neg, abs_div, abs_of_pos (mul_pos w0 hN0)]
    have e2 : (1 / (1 - v) - 1) = v / (1 - v) := by field_simp; ring
    rw [e2]
    calc |w' - N| / (w' * N) ≤ (v * N) / (N * (1 - v) * N) := by gcongr
      _ = v / (1 - v) * (1 / (N : ℝ)) := by field_simp
      _ ≤ v / (1 - v) * A := by
        apply mul_le_mul_of_nonneg_left _ (by positivity)
        rw [hA]; linarith
  have a0 : |1 / (N : ℝ)| + tiny ≤ A := by rw [abs_of_pos (by positivity)]
  have k1 : 1 / (1 - v) ≤ 1.02 := by
    rw [div_le_iff₀ h1v]; norm_num at hv ⊢; linarith
  have g0 : |1 / w'| ≤ big := by
    have h1 := abs_le_of_err t0 a0 b0
    have h2 : 1 / (1 - v) * A ≤ 1.02 * 1.01 := by gcongr
    exact (h1.trans h2).trans (le_trans (by norm_num) hbig)
  have b1 := round_step v0 a0 b0 (T.ddiv _ _ g0)
  have g1 : |ar.ddiv 1 w'| ≤ big := by
    have h1 := abs_le_of_err t0 a0 b1
    have h2 : 1 / (1 - v) * (1 + v) * A ≤ 1.02 * 1.01 * 1.01 := by
      have : 1 + v ≤ 1.01 := by norm_num at hv ⊢; linarith
      gcongr
    exact (h1.trans h2).trans (le_trans (by norm_num) hbig)
  have b2 := round_step R.u0 a0 b1 (R.conv _ g1)
  have e : 1 / (1 - v) * (1 + v) * (1 + u) = normGrow u v := by unfold normGrow; ring
  rwa [e] at b2

theorem one_le_normGrow {u v : ℝ} (hu : 0 ≤ u) (hv0 : 0 ≤ v) (hv : v < 1) : 1 ≤ normGrow u v := by
  unfold normGrow
  rw [le_div_iff₀ (by linarith)]
  nlinarith

/-- One product of `scale_ffts`. -/
theorem Near.scaled {ar : Arith} {u tiny big G W A c c' : ℝ} {x x' : ℂ} (R : RoundOK ar u tiny big)
    (h : Near tiny G A x x') (hW : 1 ≤ W) (hc : 0 ≤ c) (hc' : |c' - c| ≤ (W - 1) * (c + tiny))
    (hb : G * W * (A * (c + tiny)) ≤ big) :
    Near tiny (G * W * (1 + u)) (A * (c + tiny) + 2 * tiny) (x * c) (ar.cscale x' c') := by
  have t0 := R.t0
  have hA := h.nonneg t0
  have h1 := h.one
  have hc1 : |c'| ≤ W * (c + tiny) := by
    have := abs_add_le c (c' - c)
    rw [abs_of_nonneg hc] at this
    have e : c + (c' - c) = c' := by ring
    rw [e] at this
    nlinarith
  have hxA : ‖x‖ ≤ A := by have := h.amp; linarith
  have hGW : 1 ≤ G * W := by nlinarith
  have hs : Near tiny (G * W) (A * (c + tiny) + 2 * tiny) (x * c) (x' * c') := by
    refine ⟨hGW, ?_, ?_⟩
    · rw [norm_mul, Complex.norm_real, Real.norm_eq_abs, abs_of_nonneg hc]
      have : ‖x‖ * c ≤ A * (c + tiny) := by
        have := norm_nonneg x
        gcongr
        linarith
      linarith
    · have e : x' * (c' : ℂ) - x * c = (x' - x) * c' + x * ((c' - c : ℝ) : ℂ) := by push_cast; ring
      rw [e]
      refine (norm_add_le _ _).trans ?_
      rw [norm_mul, norm_mul, Complex.norm_real, Complex.norm_real, Real.norm_eq_abs, Real.norm_eq_abs]
      have p1 : ‖x' - x‖ * |c'| ≤ (G - 1) * A * (W * (c + tiny)) :=
        mul_le_mul h.err hc1 (abs_nonneg _) (mul_nonneg (by linarith) hA)
      have p2 : ‖x‖ * |c' - c| ≤ A * ((W - 1) * (c + tiny)) :=
        mul_le_mul hxA hc' (abs_nonneg _) hA
      have p3 : 0 ≤ (G * W - 1) * (2 * tiny) := mul_nonneg (by linarith) (by linarith)
      nlinarith
  have e1 : (x' * (c' : ℂ)).re = x'.re * c' := by simp
  have e2 : (x' * (c' : ℂ)).im = x'.im * c' := by simp
  have hx : ‖x' * (c' : ℂ)‖ ≤ big := by
    rw [norm_mul, Complex.norm_real, Real.norm_eq_abs]
    have q : ‖x'‖ ≤ G * A := by have := h.norm; linarith
    calc ‖x'‖ * |c'| ≤ (G * A) * (W * (c + tiny)) := mul_le_mul q hc1 (abs_nonneg _) (by nlinarith)
      _ = G * W * (A * (c + tiny)) := by ring
      _ ≤ big := hb
  refine hs.round R.u0 t0 ?_ ?_
  · rw [e1]
    exact R.mul _ _ (by rw [← e1]; exact (Complex.abs_re_le_norm _).trans hx)
  · rw [e2]
    exact R.mul _ _ (by rw [← e2]; exact (Complex.abs_im_le_norm _).trans hx)

end FftMpi
