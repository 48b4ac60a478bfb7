import Verif.KissL2
import Verif.FftErr2

/-!
# Rounding errors of grids of 1d FFTs and of the scaling in the Euclidean norm: lemmas
-/

noncomputable section

namespace FftMpi

open Complex Finset

/-- The transform of a line has the relative error `E` in the Euclidean norm, unless something overflows. -/
def LineErr2 (T : (Nat → ℂ) → Nat → ℂ) (n : Nat) (back : Bool) (E tiny big : ℝ) : Prop :=
  ∀ x, 2 * (1 + E) * (Real.sqrt n * l2 (range n) fun j => ‖x j‖ + 2 * tiny) ≤ big →
    l2 (range n) (fun k => ‖T x k - dft1 n back x k‖) ≤ E * (Real.sqrt n * l2 (range n) fun j => ‖x j‖ + 2 * tiny)

theorem kissLine_l2 {ar : Arith} {u tiny big d : ℝ} (R : RoundOK ar u tiny big) (hd : 0 ≤ d) {n : Nat}
    (hn : 2 ≤ n) (hs : n < 2 ^ 31) (h5 : ∀ q : Nat, q.Prime → q ∣ n → q = 2 ∨ q = 3 ∨ q = 5)
    (htw : TwiddlesNear ar n d) (back : Bool) :
    LineErr2 (kissLine ar n back) n back (kissErr2 u d n) tiny big := by
  intro x hb
  have hu := R.u0
  have ht := R.t0
  obtain ⟨st, h1, h2, h3, h4, h5', h6, h7⟩ := kissAllocF_ok ar (n := n) (by omega) (by omega) back
  obtain ⟨l', g1, _, _, _, g5⟩ := C19_kf_factor (n := n) (by omega) (by omega)
  obtain ⟨l'', k1, k2, _⟩ := kfFactor_chain (n := n) (by omega) (by omega)
  rw [h6] at g1 k1
  cases g1
  cases k1
  have hgE := growth_smooth R.u0 hd st.factors n k2 (g5 hn h5)
  have hgE2 := growth2_smooth R.u0 hd st.factors n k2 (g5 hn h5)
  have hle := kissErrSmooth_le2 R.u0 hd n
  have h1g := one_le_growth R.u0 hd st.factors
  have hA : 0 ≤ Real.sqrt n * l2 (range n) fun j => ‖x j‖ + 2 * tiny :=
    mul_nonneg (Real.sqrt_nonneg _) (l2_nonneg _ _)
  have hT : TwNear st d := by
    intro i hi
    rw [h2] at hi
    rw [h7 i hi, exactTwiddle_root h2, h3]
    exact htw back i hi
  have hcs := sum_le_l2 (range n) fun j => ‖x j‖ + 2 * tiny
  rw [card_range] at hcs
  have := work_l2 R hd h4 hT st.factors n 1 x h5' (by omega) (by
    refine le_trans ?_ hb
    calc _ ≤ 2 * growth u d st.factors * (Real.sqrt n * l2 (range n) fun j => ‖x j‖ + 2 * tiny) :=
          mul_le_mul_of_nonneg_left hcs (by linarith)
      _ ≤ _ := mul_le_mul_of_nonneg_right (by linarith) hA)
  simp only [workVal_eq_dft1 h2, h3] at this
  unfold kissLine
  rw [h1]
  refine this.trans (mul_le_mul_of_nonneg_right ?_ hA)
  linarith

/-- The numbers `X` have the relative error `G-1` in the Euclidean norm; `B` bounds the norm of the exact numbers. -/
structure EN {ι : Type} (s : Finset ι) (tiny G B : ℝ) (Y X : ι → ℂ) : Prop where
  amp : l2 s (fun p => ‖Y p‖ + 2 * tiny) ≤ B
  err : l2 s (fun p => ‖X p - Y p‖) ≤ (G - 1) * B

section
variable {ι σ : Type} {s : Finset ι} {tiny G B E big : ℝ} {Y X Y' X' : ι → ℂ}

theorem EN.nonneg (h : EN s tiny G B Y X) : 0 ≤ B := (l2_nonneg _ _).trans h.amp

theorem EN.norm (h : EN s tiny G B Y X) (ht : 0 ≤ tiny) : l2 s (fun p => ‖X p‖ + 2 * tiny) ≤ G * B := by
  have h1 : l2 s (fun p => ‖X p‖ + 2 * tiny) ≤ l2 s fun p => ‖X p - Y p‖ + (‖Y p‖ + 2 * tiny) :=
    l2_mono' (fun p _ => by positivity) fun p _ => by
      have := norm_add_le (X p - Y p) (Y p)
      rw [sub_add_cancel] at this
      linarith
  have h2 := h1.trans (l2_add _ _ _)
  have h3 := h.amp
  have h4 := h.err
  linarith

theorem EN.congr (h : EN s tiny G B Y X) (hY : ∀ p ∈ s, Y' p = Y p) (hX : ∀ p ∈ s, X' p = X p) :
    EN s tiny G B Y' X' := by
  refine ⟨le_trans (le_of_eq (l2_congr fun p hp => ?_)) h.amp, le_trans (le_of_eq (l2_congr fun p hp => ?_)) h.err⟩
  · rw [hY p hp]
  · rw [hX p hp, hY p hp]

theorem EN.refl (s : Finset ι) (tiny : ℝ) (X : ι → ℂ) :
    EN s tiny 1 (l2 s fun p => ‖X p‖ + 2 * tiny) X X := by
  refine ⟨le_rfl, ?_⟩
  simp [l2]

/-- One stage of 1d FFTs: `e a t` is point `t` of line `a`. -/
theorem EN.step (h : EN s tiny G B Y X) (ht : 0 ≤ tiny) (hG : 1 ≤ G) (hE : 0 ≤ E) {n : Nat} (hn : 0 < n)
    {lines : Finset σ} {e : σ → Nat → ι}
    (hs : ∀ f : ι → ℝ, l2 s f = l2 lines fun a => l2 (range n) fun t => f (e a t)) {T : (Nat → ℂ) → Nat → ℂ}
    {back : Bool} (L : LineErr2 T n back E tiny big)
    (hY : ∀ a ∈ lines, ∀ k < n, Y' (e a k) = dft1 n back (fun t => Y (e a t)) k)
    (hX : ∀ a ∈ lines, ∀ k < n, X' (e a k) = T (fun t => X (e a t)) k)
    (hb : 2 * (G * (1 + E)) * (Real.sqrt n * B) ≤ big) :
    EN s tiny (G * (1 + E)) (Real.sqrt n * B) Y' X' := by
  have s0 := Real.sqrt_nonneg (n : ℝ)
  have hB := h.nonneg
  have hXn := h.norm ht
  have hamp := h.amp
  have herr := h.err
  rw [hs] at hXn hamp herr
  constructor
  · rw [hs]
    calc l2 lines (fun a => l2 (range n) fun t => ‖Y' (e a t)‖ + 2 * tiny)
        ≤ l2 lines (fun a => Real.sqrt n * l2 (range n) fun t => ‖Y (e a t)‖ + 2 * tiny) := by
          refine l2_mono' (fun _ _ => l2_nonneg _ _) fun a ha => ?_
          rw [l2_congr fun t ht' => by rw [hY a ha t (mem_range.mp ht')]]
          exact l2_dft1_add hn _ _ (by linarith)
      _ = Real.sqrt n * l2 lines (fun a => l2 (range n) fun t => ‖Y (e a t)‖ + 2 * tiny) := l2_smul _ s0 _
      _ ≤ _ := mul_le_mul_of_nonneg_left hamp s0
  · rw [hs]
    have line : ∀ a ∈ lines, l2 (range n) (fun t => ‖X' (e a t) - Y' (e a t)‖) ≤
        E * Real.sqrt n * l2 (range n) (fun t => ‖X (e a t)‖ + 2 * tiny) +
          Real.sqrt n * l2 (range n) fun t => ‖X (e a t) - Y (e a t)‖ := by
      intro a ha
      have o : l2 (range n) (fun t => ‖X (e a t)‖ + 2 * tiny) ≤ G * B :=
        (le_l2 ha (fun a => l2 (range n) fun t => ‖X (e a t)‖ + 2 * tiny) (l2_nonneg _ _)).trans hXn
      have k1 := L (fun t => X (e a t)) (by
        refine le_trans ?_ hb
        have := mul_le_mul_of_nonneg_left o s0
        have := mul_le_mul_of_nonneg_left this (show 0 ≤ 2 * (1 + E) by linarith)
        linarith)
      have k2 : l2 (range n) (fun t => ‖X' (e a t) - Y' (e a t)‖) ≤
          l2 (range n) fun t => ‖T (fun t => X (e a t)) t - dft1 n back (fun t => X (e a t)) t‖ +
            ‖dft1 n back (fun t => X (e a t) - Y (e a t)) t‖ := by
        refine l2_mono' (fun _ _ => norm_nonneg _) fun t ht' => ?_
        rw [hX a ha t (mem_range.mp ht'), hY a ha t (mem_range.mp ht'), ← dft1_sub]
        exact norm_sub_le_norm_sub_add_norm_sub _ _ _
      have k3 := k2.trans (l2_add _ _ _)
      rw [l2_dft1] at k3
      linarith
    have k4 := (l2_mono' (fun _ _ => l2_nonneg _ _) line).trans (l2_add _ _ _)
    rw [l2_smul _ (by positivity), l2_smul _ s0] at k4
    have k5 := mul_le_mul_of_nonneg_left hXn (mul_nonneg hE s0)
    have k6 := mul_le_mul_of_nonneg_left herr s0
    have e' : (G * (1 + E) - 1) * (Real.sqrt n * B) =
        E * Real.sqrt n * (G * B) + Real.sqrt n * ((G - 1) * B) := by ring
    linarith

end

/-! ## Grids -/

/-- The points of a grid. -/
def pts3 (n1 n2 n3 : Nat) : Finset (Nat × Nat × Nat) := range n1 ×ˢ range n2 ×ˢ range n3

/-- The value at a point. -/
def at3 (X : Grid3) (p : Nat × Nat × Nat) : ℂ := X (p.1 : Nat) (p.2.1 : Nat) (p.2.2 : Nat)

theorem l2_pts3 (n1 n2 n3 : Nat) (f : Nat × Nat × Nat → ℝ) :
    l2 (pts3 n1 n2 n3) f = Real.sqrt (∑ i ∈ range n1, ∑ j ∈ range n2, ∑ k ∈ range n3, f (i, j, k) ^ 2) := by
  unfold l2 pts3
  rw [sum_product]
  simp only [sum_product]

theorem l2_lines0 (n1 n2 n3 : Nat) (f : Nat × Nat × Nat → ℝ) :
    l2 (pts3 n1 n2 n3) f = l2 (range n2 ×ˢ range n3) fun a => l2 (range n1) fun t => f (t, a.1, a.2) := by
  rw [l2_l2, l2_pts3, sum_product]
  congr 1
  rw [sum_comm]
  exact sum_congr rfl fun j _ => sum_comm

theorem l2_lines1 (n1 n2 n3 : Nat) (f : Nat × Nat × Nat → ℝ) :
    l2 (pts3 n1 n2 n3) f = l2 (range n1 ×ˢ range n3) fun a => l2 (range n2) fun t => f (a.1, t, a.2) := by
  rw [l2_l2, l2_pts3, sum_product]
  congr 1
  exact sum_congr rfl fun j _ => sum_comm

theorem l2_lines2 (n1 n2 n3 : Nat) (f : Nat × Nat × Nat → ℝ) :
    l2 (pts3 n1 n2 n3) f = l2 (range n1 ×ˢ range n2) fun a => l2 (range n3) fun t => f (a.1, a.2, t) := by
  rw [l2_l2, l2_pts3, sum_product]

section
variable {n1 n2 n3 : Nat} {tiny G B E big : ℝ} {Y X : Grid3} {back : Bool} {T : (Nat → ℂ) → Nat → ℂ}

theorem EN.along0 (h : EN (pts3 n1 n2 n3) tiny G B (at3 Y) (at3 X)) (ht : 0 ≤ tiny) (hG : 1 ≤ G) (hE : 0 ≤ E)
    (hn : 0 < n1) (L : LineErr2 T n1 back E tiny big) (hb : 2 * (G * (1 + E)) * (Real.sqrt n1 * B) ≤ big) :
    EN (pts3 n1 n2 n3) tiny (G * (1 + E)) (Real.sqrt n1 * B) (at3 (fftAlong 0 n1 back Y)) (at3 (lineAlong 0 T X)) :=
  h.step ht hG hE hn (l2_lines0 n1 n2 n3) L (fun a _ k _ => by simp [at3, fftAlong])
    (fun a _ k _ => by simp [at3, lineAlong]) hb

theorem EN.along1 (h : EN (pts3 n1 n2 n3) tiny G B (at3 Y) (at3 X)) (ht : 0 ≤ tiny) (hG : 1 ≤ G) (hE : 0 ≤ E)
    (hn : 0 < n2) (L : LineErr2 T n2 back E tiny big) (hb : 2 * (G * (1 + E)) * (Real.sqrt n2 * B) ≤ big) :
    EN (pts3 n1 n2 n3) tiny (G * (1 + E)) (Real.sqrt n2 * B) (at3 (fftAlong 1 n2 back Y)) (at3 (lineAlong 1 T X)) :=
  h.step ht hG hE hn (l2_lines1 n1 n2 n3) L (fun a _ k _ => by simp [at3, fftAlong])
    (fun a _ k _ => by simp [at3, lineAlong]) hb

theorem EN.along2 (h : EN (pts3 n1 n2 n3) tiny G B (at3 Y) (at3 X)) (ht : 0 ≤ tiny) (hG : 1 ≤ G) (hE : 0 ≤ E)
    (hn : 0 < n3) (L : LineErr2 T n3 back E tiny big) (hb : 2 * (G * (1 + E)) * (Real.sqrt n3 * B) ≤ big) :
    EN (pts3 n1 n2 n3) tiny (G * (1 + E)) (Real.sqrt n3 * B) (at3 (fftAlong 2 n3 back Y)) (at3 (lineAlong 2 T X)) :=
  h.step ht hG hE hn (l2_lines2 n1 n2 n3) L (fun a _ k _ => by simp [at3, fftAlong])
    (fun a _ k _ => by simp [at3, lineAlong]) hb

variable {E1 E2 E3 : ℝ} {T1 T2 T3 : (Nat → ℂ) → Nat → ℂ}

/-- The bounds that exclude overflow in three stages. -/
theorem three_stages {G B e1 e2 e3 s1 s2 s3 big : ℝ} (hG : 1 ≤ G) (hB : 0 ≤ B) (h1 : 0 ≤ e1) (h2 : 0 ≤ e2)
    (h3 : 0 ≤ e3) (k1 : 1 ≤ s1) (k2 : 1 ≤ s2) (k3 : 1 ≤ s3)
    (hb : 2 * (G * ((1 + e1) * (1 + e2) * (1 + e3))) * (s1 * s2 * s3 * B) ≤ big) :
    2 * (G * (1 + e1)) * (s1 * B) ≤ big ∧ 2 * (G * (1 + e1) * (1 + e2)) * (s2 * (s1 * B)) ≤ big ∧
      2 * (G * (1 + e1) * (1 + e2) * (1 + e3)) * (s3 * (s2 * (s1 * B))) ≤ big := by
  have c : 2 * (G * (1 + e1) * (1 + e2) * (1 + e3)) * (s3 * (s2 * (s1 * B))) ≤ big := by
    refine le_trans (le_of_eq ?_) hb
    ring
  have p1 : 0 ≤ 2 * (G * (1 + e1)) * (s1 * B) := by positivity
  have b : 2 * (G * (1 + e1) * (1 + e2)) * (s2 * (s1 * B)) ≤
      2 * (G * (1 + e1) * (1 + e2) * (1 + e3)) * (s3 * (s2 * (s1 * B))) := by
    have p2 : 0 ≤ 2 * (G * (1 + e1) * (1 + e2)) * (s2 * (s1 * B)) := by positivity
    have : 1 ≤ (1 + e3) * s3 := by nlinarith
    calc _ ≤ 2 * (G * (1 + e1) * (1 + e2)) * (s2 * (s1 * B)) * ((1 + e3) * s3) := le_mul_of_one_le_right p2 this
      _ = _ := by ring
  have a : 2 * (G * (1 + e1)) * (s1 * B) ≤ 2 * (G * (1 + e1) * (1 + e2)) * (s2 * (s1 * B)) := by
    have : 1 ≤ (1 + e2) * s2 := by nlinarith
    calc _ ≤ 2 * (G * (1 + e1)) * (s1 * B) * ((1 + e2) * s2) := le_mul_of_one_le_right p1 this
      _ = _ := by ring
  exact ⟨(a.trans b).trans c, b.trans c, c⟩

theorem at3_apply (X : Grid3) (p : Nat × Nat × Nat) : at3 X p = X (p.1 : Nat) (p.2.1 : Nat) (p.2.2 : Nat) := rfl

theorem at3_fwd (n1 n2 n3 : Nat) (back : Bool) (Y : Grid3) :
    at3 (dft3 n1 n2 n3 back Y) = at3 (fftAlong 2 n3 back (fftAlong 1 n2 back (fftAlong 0 n1 back Y))) := by
  funext p
  rw [at3_apply, at3_apply]
  exact (fftAlong_fwd n1 n2 n3 back Y (Int.natCast_nonneg _) (Int.natCast_nonneg _) (Int.natCast_nonneg _)).symm

theorem at3_inv (n1 n2 n3 : Nat) (back : Bool) (Y : Grid3) :
    at3 (dft3 n1 n2 n3 back Y) = at3 (fftAlong 0 n1 back (fftAlong 1 n2 back (fftAlong 2 n3 back Y))) := by
  funext p
  rw [at3_apply, at3_apply]
  exact (fftAlong_inv n1 n2 n3 back Y (Int.natCast_nonneg _) (Int.natCast_nonneg _) (Int.natCast_nonneg _)).symm

/-- Three stages of 1d FFTs, in either order. -/
theorem EN.lines3 (h : EN (pts3 n1 n2 n3) tiny G B (at3 Y) (at3 X)) (ht : 0 ≤ tiny) (hG : 1 ≤ G)
    (hE1 : 0 ≤ E1) (hE2 : 0 ≤ E2) (hE3 : 0 ≤ E3) (k1 : 0 < n1) (k2 : 0 < n2) (k3 : 0 < n3)
    (L1 : LineErr2 T1 n1 back E1 tiny big) (L2 : LineErr2 T2 n2 back E2 tiny big) (L3 : LineErr2 T3 n3 back E3 tiny big)
    (hb : 2 * (G * ((1 + E1) * (1 + E2) * (1 + E3))) * (Real.sqrt n1 * Real.sqrt n2 * Real.sqrt n3 * B) ≤ big)
    {Z : Grid3} (hZ : Z = FftMpi.lines3 T1 T2 T3 X ∨ Z = lines3Inv T1 T2 T3 X) :
    EN (pts3 n1 n2 n3) tiny (G * ((1 + E1) * (1 + E2) * (1 + E3)))
      (Real.sqrt n1 * Real.sqrt n2 * Real.sqrt n3 * B) (at3 (dft3 n1 n2 n3 back Y)) (at3 Z) := by
  have hB := h.nonneg
  rcases hZ with rfl | rfl
  · obtain ⟨b1, b2, b3⟩ := three_stages hG hB hE1 hE2 hE3 (one_le_sqrt k1) (one_le_sqrt k2) (one_le_sqrt k3) hb
    have s1 := h.along0 ht hG hE1 k1 L1 b1
    have s2 := s1.along1 ht (by nlinarith) hE2 k2 L2 b2
    have s3 := s2.along2 ht (by nlinarith [mul_nonneg hE1 hE2]) hE3 k3 L3 b3
    unfold FftMpi.lines3
    rw [show G * ((1 + E1) * (1 + E2) * (1 + E3)) = G * (1 + E1) * (1 + E2) * (1 + E3) by ring,
      show Real.sqrt n1 * Real.sqrt n2 * Real.sqrt n3 * B = Real.sqrt n3 * (Real.sqrt n2 * (Real.sqrt n1 * B)) by ring, at3_fwd]
    exact s3
  · obtain ⟨b1, b2, b3⟩ := three_stages (e1 := E3) (e2 := E2) (e3 := E1) hG hB hE3 hE2 hE1 (one_le_sqrt k3)
      (one_le_sqrt k2) (one_le_sqrt k1) (le_trans (le_of_eq (by ring)) hb)
    have s1 := h.along2 ht hG hE3 k3 L3 b1
    have s2 := s1.along1 ht (by nlinarith) hE2 k2 L2 b2
    have s3 := s2.along0 ht (by nlinarith [mul_nonneg hE3 hE2]) hE1 k1 L1 b3
    unfold lines3Inv
    rw [show G * ((1 + E1) * (1 + E2) * (1 + E3)) = G * (1 + E3) * (1 + E2) * (1 + E1) by ring,
      show Real.sqrt n1 * Real.sqrt n2 * Real.sqrt n3 * B = Real.sqrt n1 * (Real.sqrt n2 * (Real.sqrt n3 * B)) by ring, at3_inv]
    exact s3

end

/-! ## Planes -/

/-- The points of a plane. -/
def pts2 (n1 n2 : Nat) : Finset (Nat × Nat) := range n1 ×ˢ range n2

/-- The value at a point. -/
def at2 (X : Grid2) (p : Nat × Nat) : ℂ := X (p.1 : Nat) (p.2 : Nat)

theorem l2_pts2 (n1 n2 : Nat) (f : Nat × Nat → ℝ) :
    l2 (pts2 n1 n2) f = Real.sqrt (∑ i ∈ range n1, ∑ j ∈ range n2, f (i, j) ^ 2) := by
  unfold l2 pts2
  rw [sum_product]

section
variable {n1 n2 : Nat} {tiny G B E big : ℝ} {Y X : Grid2} {back : Bool} {T : (Nat → ℂ) → Nat → ℂ}

theorem EN.plane0 (h : EN (pts2 n1 n2) tiny G B (at2 Y) (at2 X)) (ht : 0 ≤ tiny) (hG : 1 ≤ G) (hE : 0 ≤ E)
    (hn : 0 < n1) (L : LineErr2 T n1 back E tiny big) (hb : 2 * (G * (1 + E)) * (Real.sqrt n1 * B) ≤ big) :
    EN (pts2 n1 n2) tiny (G * (1 + E)) (Real.sqrt n1 * B) (at2 (fftAlong2 0 n1 back Y)) (at2 (lineAlong2 0 T X)) :=
  h.step ht hG hE hn (lines := range n2) (e := fun a t => (t, a)) (fun f => by rw [l2_l2, l2_pts2, sum_comm]) L
    (fun a _ k _ => by simp [at2, fftAlong2]) (fun a _ k _ => by simp [at2, lineAlong2]) hb

theorem EN.plane1' (h : EN (pts2 n1 n2) tiny G B (at2 Y) (at2 X)) (ht : 0 ≤ tiny) (hG : 1 ≤ G) (hE : 0 ≤ E)
    (hn : 0 < n2) (L : LineErr2 T n2 back E tiny big) (hb : 2 * (G * (1 + E)) * (Real.sqrt n2 * B) ≤ big) :
    EN (pts2 n1 n2) tiny (G * (1 + E)) (Real.sqrt n2 * B) (at2 (fftAlong2 1 n2 back Y)) (at2 (lineAlong2 1 T X)) :=
  h.step ht hG hE hn (lines := range n1) (e := fun a t => (a, t)) (fun f => by rw [l2_l2, l2_pts2]) L
    (fun a _ k _ => by simp [at2, fftAlong2]) (fun a _ k _ => by simp [at2, lineAlong2]) hb

variable {E1 E2 : ℝ} {T1 T2 : (Nat → ℂ) → Nat → ℂ}

/-- Two stages of 1d FFTs, in either order. -/
theorem EN.lines2 (h : EN (pts2 n1 n2) tiny G B (at2 Y) (at2 X)) (ht : 0 ≤ tiny) (hG : 1 ≤ G)
    (hE1 : 0 ≤ E1) (hE2 : 0 ≤ E2) (k1 : 0 < n1) (k2 : 0 < n2)
    (L1 : LineErr2 T1 n1 back E1 tiny big) (L2 : LineErr2 T2 n2 back E2 tiny big)
    (hb : 2 * (G * ((1 + E1) * (1 + E2))) * (Real.sqrt n1 * Real.sqrt n2 * B) ≤ big) {Z : Grid2}
    (hZ : Z = lineAlong2 1 T2 (lineAlong2 0 T1 X) ∨ Z = lineAlong2 0 T1 (lineAlong2 1 T2 X)) :
    EN (pts2 n1 n2) tiny (G * ((1 + E1) * (1 + E2))) (Real.sqrt n1 * Real.sqrt n2 * B)
      (at2 (dft2 n1 n2 back Y)) (at2 Z) := by
  have hB := h.nonneg
  rcases hZ with rfl | rfl
  · obtain ⟨b1, b2, _⟩ := three_stages (e3 := 0) (s3 := 1) hG hB hE1 hE2 le_rfl (one_le_sqrt k1) (one_le_sqrt k2) le_rfl
      (le_trans (le_of_eq (by ring)) hb)
    have s1 := h.plane0 ht hG hE1 k1 L1 b1
    have s2 := s1.plane1' ht (by nlinarith) hE2 k2 L2 b2
    have s4 := s2.congr (Y' := at2 (dft2 n1 n2 back Y)) (fun p _ => by
      unfold at2
      rw [fftAlong2_fwd _ _ _ _ (by omega) (by omega)])
      (X' := at2 (lineAlong2 1 T2 (lineAlong2 0 T1 X))) fun p _ => rfl
    rw [show G * ((1 + E1) * (1 + E2)) = G * (1 + E1) * (1 + E2) by ring,
      show Real.sqrt n1 * Real.sqrt n2 * B = Real.sqrt n2 * (Real.sqrt n1 * B) by ring]
    exact s4
  · obtain ⟨b1, b2, _⟩ := three_stages (e1 := E2) (e2 := E1) (e3 := 0) (s3 := 1) hG hB hE2 hE1 le_rfl (one_le_sqrt k2)
      (one_le_sqrt k1) le_rfl (le_trans (le_of_eq (by ring)) hb)
    have s1 := h.plane1' ht hG hE2 k2 L2 b1
    have s2 := s1.plane0 ht (by nlinarith) hE1 k1 L1 b2
    have s4 := s2.congr (Y' := at2 (dft2 n1 n2 back Y)) (fun p _ => by
      unfold at2
      rw [fftAlong2_inv _ _ _ _ (by omega) (by omega)])
      (X' := at2 (lineAlong2 0 T1 (lineAlong2 1 T2 X))) fun p _ => rfl
    rw [show G * ((1 + E1) * (1 + E2)) = G * (1 + E2) * (1 + E1) by ring,
      show Real.sqrt n1 * Real.sqrt n2 * B = Real.sqrt n1 * (Real.sqrt n2 * B) by ring]
    exact s4

end

/-! ## Scaling -/

/-- The scaling of numbers with errors by the rounded factor `1/N`. -/
theorem EN.scaled {ι : Type} {s : Finset ι} {ar : Arith} {u v cc tiny big G B : ℝ} {Y X : ι → ℂ}
    (R : RoundOK ar u tiny big) (T : TrigOK ar v cc tiny big) (hu : u ≤ 1 / 100) (hv : v ≤ 1 / 100) (ht : tiny ≤ 1 / 100)
    {N : Int} (hN : 1 ≤ N) (hNb : (N : ℝ) ≤ big) (hbig : 2 ≤ big) (hG : 1 ≤ G) (hb : 2 * G * B ≤ big)
    (h : EN s tiny G B Y X) :
    EN s tiny (G * normGrow u v * (1 + u)) (B * (1 / (N : ℝ) + tiny) + Real.sqrt s.card * (2 * tiny))
      (fun p => Y p * ((1 / (N : ℝ) : ℝ) : ℂ)) (fun p => ar.cscale (X p) (ar.conv (ar.ddiv 1 (ar.ofInt N)))) := by
  have v0 := T.v0
  have u0 := R.u0
  have t0 := R.t0
  have hNr : (1 : ℝ) ≤ N := by exact_mod_cast hN
  have hN0 : (0 : ℝ) < N := by linarith
  have hB := h.nonneg
  have hW := one_le_normGrow (u := u) (v := v) u0 v0 (by linarith)
  have hW2 : normGrow u v ≤ 1.05 := by
    unfold normGrow
    rw [div_le_iff₀ (by linarith)]
    have : (1 + v) * (1 + u) ≤ 1.01 * 1.01 := by gcongr <;> (norm_num at hu hv ⊢; linarith)
    norm_num at hv this ⊢
    linarith
  obtain ⟨c, hc⟩ : ∃ c : ℝ, c = 1 / (N : ℝ) := ⟨_, rfl⟩
  have hc0 : 0 ≤ c := by rw [hc]; positivity
  have hc1 : c + tiny ≤ 1.01 := by
    have : 1 / (N : ℝ) ≤ 1 := by rw [div_le_one hN0]; exact hNr
    rw [hc]
    norm_num at this ht ⊢; linarith
  have hnorm := norm_err R T hu hv ht hN hNb hbig
  rw [← hc] at hnorm ⊢
  have hXn := h.norm t0
  have hV : 1 ≤ normGrow u v * (1 + u) := by nlinarith
  have sq0 := Real.sqrt_nonneg (s.card : ℝ)
  have pt : ∀ p ∈ s, ‖ar.cscale (X p) (ar.conv (ar.ddiv 1 (ar.ofInt N))) - Y p * (c : ℂ)‖ ≤
      (normGrow u v * (1 + u) - 1) * ((c + tiny) * (‖X p‖ + 2 * tiny) + 2 * tiny) + c * ‖X p - Y p‖ := by
    intro p hp
    have hXp : ‖X p‖ + 2 * tiny ≤ G * B :=
      (le_l2 hp (fun p => ‖X p‖ + 2 * tiny) (by positivity)).trans hXn
    have k := ((Near.refl (tiny := tiny) (X p)).scaled R hW hc0 hnorm (by
      refine le_trans ?_ hb
      have h1 : normGrow u v * (c + tiny) ≤ 2 := by
        have : normGrow u v * (c + tiny) ≤ 1.05 * 1.01 := by gcongr
        norm_num at this ⊢; linarith
      have h0 : 0 ≤ ‖X p‖ + 2 * tiny := by positivity
      calc 1 * normGrow u v * ((‖X p‖ + 2 * tiny) * (c + tiny)) =
            normGrow u v * (c + tiny) * (‖X p‖ + 2 * tiny) := by ring
        _ ≤ 2 * (‖X p‖ + 2 * tiny) := mul_le_mul_of_nonneg_right h1 h0
        _ ≤ _ := by linarith)).err
    have k2 : ‖X p * (c : ℂ) - Y p * (c : ℂ)‖ = c * ‖X p - Y p‖ := by
      rw [← sub_mul, norm_mul, norm_real, Real.norm_of_nonneg hc0, mul_comm]
    have k3 := norm_sub_le_norm_sub_add_norm_sub (ar.cscale (X p) (ar.conv (ar.ddiv 1 (ar.ofInt N))))
      (X p * (c : ℂ)) (Y p * (c : ℂ))
    rw [k2] at k3
    rw [one_mul, mul_comm (‖X p‖ + 2 * tiny)] at k
    linarith
  constructor
  · calc l2 s (fun p => ‖Y p * (c : ℂ)‖ + 2 * tiny)
        ≤ l2 s (fun p => (c + tiny) * (‖Y p‖ + 2 * tiny) + 2 * tiny) := by
          refine l2_mono' (fun _ _ => by positivity) fun p _ => ?_
          rw [norm_mul, norm_real, Real.norm_of_nonneg hc0]
          nlinarith [norm_nonneg (Y p), mul_nonneg t0 t0, mul_nonneg hc0 t0, mul_nonneg t0 (norm_nonneg (Y p))]
      _ ≤ l2 s (fun p => (c + tiny) * (‖Y p‖ + 2 * tiny)) + l2 s (fun _ => 2 * tiny) := l2_add _ _ _
      _ ≤ _ := by
          rw [l2_smul _ (by positivity), l2_const _ (by positivity)]
          have := mul_le_mul_of_nonneg_left h.amp (show 0 ≤ c + tiny by positivity)
          linarith
  · have w0 : 0 ≤ normGrow u v * (1 + u) - 1 := by linarith
    have k1 : l2 s (fun p => ‖ar.cscale (X p) (ar.conv (ar.ddiv 1 (ar.ofInt N))) - Y p * (c : ℂ)‖) ≤
        (normGrow u v * (1 + u) - 1) * ((c + tiny) * (G * B) + Real.sqrt s.card * (2 * tiny)) + c * ((G - 1) * B) := by
      refine (l2_mono' (fun _ _ => norm_nonneg _) pt).trans ((l2_add _ _ _).trans ?_)
      rw [l2_smul _ w0, l2_smul _ hc0]
      refine add_le_add (mul_le_mul_of_nonneg_left ?_ w0) (mul_le_mul_of_nonneg_left h.err hc0)
      refine (l2_add _ _ _).trans ?_
      rw [l2_smul _ (by positivity), l2_const _ (by positivity)]
      exact add_le_add (mul_le_mul_of_nonneg_left hXn (by positivity)) le_rfl
    refine k1.trans ?_
    have hGB : 0 ≤ (G - 1) * B := mul_nonneg (by linarith) hB
    have q : 0 ≤ Real.sqrt s.card * (2 * tiny) := by positivity
    have r1 : c * ((G - 1) * B) ≤ (c + tiny) * ((G - 1) * B) := by nlinarith
    have r2 : (normGrow u v * (1 + u) - 1) * (Real.sqrt s.card * (2 * tiny)) ≤
        (G * normGrow u v * (1 + u) - 1) * (Real.sqrt s.card * (2 * tiny)) := by
      refine mul_le_mul_of_nonneg_right ?_ q
      have : normGrow u v * (1 + u) ≤ G * (normGrow u v * (1 + u)) := by nlinarith
      linarith
    have e' : (G * normGrow u v * (1 + u) - 1) * (B * (c + tiny) + Real.sqrt s.card * (2 * tiny)) =
        (normGrow u v * (1 + u) - 1) * ((c + tiny) * (G * B)) + (c + tiny) * ((G - 1) * B) +
          (G * normGrow u v * (1 + u) - 1) * (Real.sqrt s.card * (2 * tiny)) := by ring
    rw [e', mul_add]
    linarith

end FftMpi
