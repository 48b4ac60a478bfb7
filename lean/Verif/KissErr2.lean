import Verif.KissErr

/-!
# Lemmas: rounding errors of the butterflies
-/

noncomputable section

namespace FftMpi

open Complex

/-- Relative error of one stage of radix `p`: `d` is the error of the twiddles. -/
def stageErr (u d : ℝ) (p : Nat) : ℝ :=
  if p = 2 then (1 + d) * (1 + mulErr u) * (1 + u) - 1
  else if p = 4 then (1 + d) * (1 + mulErr u) * (1 + u) ^ 2 - 1
  else if p = 3 ∨ p = 5 then 2 * ((1 + d) ^ 2 * (1 + mulErr u) * (1 + u) ^ 5 - 1)
  else if p = 1 then 0
  else (1 + d) * (1 + mulErr u) * (1 + u) ^ (p - 1) - 1

/-- The factor `1 + d` of a twiddle and `1 + mulErr u` of a product. -/
def twFac (u d : ℝ) : ℝ := (1 + d) * (1 + mulErr u)

theorem one_le_twFac {u d : ℝ} (hu : 0 ≤ u) (hd : 0 ≤ d) : 1 ≤ twFac u d := by
  have := mulErr_nonneg hu
  unfold twFac
  nlinarith

theorem one_le_pow_u {u : ℝ} (hu : 0 ≤ u) (n : Nat) : 1 ≤ (1 + u) ^ n := one_le_pow₀ (by linarith)

section

variable {a : Arith} {u d tiny big : ℝ}

/-- A chain `1 ≤ G ≤ G*(1+u)` ... -/
theorem grow {G r : ℝ} (hG : 1 ≤ G) (hr : 0 ≤ r) : G ≤ G * (1 + r) := by nlinarith

/-- Radix 2. -/
theorem bf2_near (R : RoundOK a u tiny big) (hd : 0 ≤ d) {w w' y : Nat → ℂ} {A : Nat → ℝ}
    (hA : ∀ r, A r = ‖y r‖ + 2 * tiny) (hw : ∀ r < 2, ‖w r‖ ≤ 1) (hw' : ∀ r < 2, ‖w' r - w r‖ ≤ d)
    (hb : twFac u d * (1 + u) * (A 0 + A 1) ≤ big) (q : Nat) :
    Near tiny (twFac u d * (1 + u)) (A 0 + A 1) (if q = 0 then y 0 + y 1 * w 1 else y 0 - y 1 * w 1)
      (a.bf2 w' y q) := by
  have hu := R.u0
  have ht := R.t0
  have hM := one_le_twFac hu hd
  have hA0 : ∀ r, 0 ≤ A r := fun r => by rw [hA]; have := norm_nonneg (y r); linarith
  have n0 : Near tiny 1 (A 0) (y 0) (y 0) := by rw [hA]; exact Near.refl _
  have n1 : Near tiny 1 (A 1) (y 1) (y 1) := by rw [hA]; exact Near.refl _
  have hb1 : twFac u d * (A 0 + A 1) ≤ big := by
    refine le_trans ?_ hb
    exact mul_le_mul_of_nonneg_right (grow hM hu) (by linarith [hA0 0, hA0 1])
  have t := n1.cmul R hd (hw 1 (by decide)) (hw' 1 (by decide)) (by
    rw [one_mul]
    show twFac u d * A 1 ≤ big
    refine le_trans ?_ hb1
    exact mul_le_mul_of_nonneg_left (by linarith [hA0 0]) (by linarith))
  rw [one_mul] at t
  change Near tiny (twFac u d) _ _ _ at t
  have n0' := n0.mono ht hM le_rfl
  unfold Arith.bf2
  split_ifs
  · exact n0'.cadd R t hb1
  · exact n0'.csub R t hb1

/-- Radix 4. -/
theorem bf4_near (R : RoundOK a u tiny big) (hd : 0 ≤ d) {w w' y : Nat → ℂ} {A : Nat → ℝ}
    (hA : ∀ r, A r = ‖y r‖ + 2 * tiny) (hw : ∀ r < 4, ‖w r‖ ≤ 1) (hw' : ∀ r < 4, ‖w' r - w r‖ ≤ d)
    (hb : twFac u d * (1 + u) * (1 + u) * (A 0 + A 2 + (A 1 + A 3)) ≤ big) (inv : Bool) (q : Nat) :
    Near tiny (twFac u d * (1 + u) * (1 + u)) (A 0 + A 2 + (A 1 + A 3))
      (if q = 0 then y 0 + y 2 * w 2 + (y 1 * w 1 + y 3 * w 3)
        else if q = 2 then y 0 + y 2 * w 2 - (y 1 * w 1 + y 3 * w 3)
        else if (q = 1) = (inv = true) then y 0 - y 2 * w 2 + I * (y 1 * w 1 - y 3 * w 3)
        else y 0 - y 2 * w 2 - I * (y 1 * w 1 - y 3 * w 3))
      (a.bf4 inv w' y q) := by
  have hu := R.u0
  have ht := R.t0
  have hM := one_le_twFac hu hd
  have hM1 : 1 ≤ twFac u d * (1 + u) := hM.trans (grow hM hu)
  have hA0 : ∀ r, 0 ≤ A r := fun r => by rw [hA]; have := norm_nonneg (y r); linarith
  have a0 := hA0 0; have a1 := hA0 1; have a2 := hA0 2; have a3 := hA0 3
  have n : ∀ r, Near tiny 1 (A r) (y r) (y r) := fun r => by rw [hA]; exact Near.refl _
  have hb2 : twFac u d * (1 + u) * (A 0 + A 2 + (A 1 + A 3)) ≤ big := by
    refine le_trans ?_ hb
    exact mul_le_mul_of_nonneg_right (grow hM1 hu) (by linarith)
  have hb1 : twFac u d * (A 0 + A 2 + (A 1 + A 3)) ≤ big := by
    refine le_trans ?_ hb2
    exact mul_le_mul_of_nonneg_right (grow hM hu) (by linarith)
  have small : ∀ B, B ≤ A 0 + A 2 + (A 1 + A 3) → twFac u d * B ≤ big := fun B hB =>
    le_trans (mul_le_mul_of_nonneg_left hB (by linarith)) hb1
  have t : ∀ r, r < 4 → A r ≤ A 0 + A 2 + (A 1 + A 3) →
      Near tiny (twFac u d) (A r) (y r * w r) (a.cmul (y r) (w' r)) := by
    intro r hr hle
    have := (n r).cmul R hd (hw r hr) (hw' r hr) (by
      rw [one_mul]
      exact small _ hle)
    rwa [one_mul] at this
  have s0 := t 1 (by decide) (by linarith)
  have s1 := t 2 (by decide) (by linarith)
  have s2 := t 3 (by decide) (by linarith)
  have n0 := (n 0).mono ht hM le_rfl
  have s5 := n0.csub R s1 (small _ (by linarith))
  have f := n0.cadd R s1 (small _ (by linarith))
  have s3 := s0.cadd R s2 (small _ (by linarith))
  have s4 := s0.csub R s2 (small _ (by linarith))
  unfold Arith.bf4
  simp only
  split_ifs
  · exact f.cadd R s3 hb2
  · exact f.csub R s3 hb2
  · exact s5.caddI R s4 hb2
  · exact s5.csubI R s4 hb2

/-- Radix 3; `c` is the imaginary part of the third root of unity. -/
theorem bf3_near (R : RoundOK a u tiny big) (hd : 0 ≤ d) {w w' y : Nat → ℂ} {A : Nat → ℝ} {c : ℝ} {e : ℂ}
    (hA : ∀ r, A r = ‖y r‖ + 2 * tiny) (hw : ∀ r < 3, ‖w r‖ ≤ 1) (hw' : ∀ r < 3, ‖w' r - w r‖ ≤ d)
    (hc : |c| ≤ 1) (hc' : |e.im - c| ≤ d)
    (hb : (1 + d) ^ 2 * (1 + mulErr u) * (1 + u) ^ 5 * (2 * (A 0 + (A 1 + A 2))) ≤ big) (q : Nat) :
    Near tiny ((1 + d) ^ 2 * (1 + mulErr u) * (1 + u) ^ 5) (2 * (A 0 + (A 1 + A 2)))
      (if q = 0 then y 0 + (y 1 * w 1 + y 2 * w 2)
        else if q = 1 then y 0 - (y 1 * w 1 + y 2 * w 2) / 2 + I * ((y 1 * w 1 - y 2 * w 2) * c)
        else y 0 - (y 1 * w 1 + y 2 * w 2) / 2 - I * ((y 1 * w 1 - y 2 * w 2) * c))
      (a.bf3 e w' y q) := by
  have hu := R.u0
  have ht := R.t0
  have hM := one_le_twFac hu hd
  have hA0 : ∀ r, 0 ≤ A r := fun r => by rw [hA]; have := norm_nonneg (y r); linarith
  have a0 := hA0 0; have a1 := hA0 1; have a2 := hA0 2
  have n : ∀ r, Near tiny 1 (A r) (y r) (y r) := fun r => by rw [hA]; exact Near.refl _
  -- growth factors
  have hm1 : (1 : ℝ) ≤ 1 + mulErr u := by have := mulErr_nonneg hu; linarith
  have hd1 : (1 : ℝ) ≤ 1 + d := by linarith
  have hT : ∀ i j : Nat, i ≤ 2 → j ≤ 5 →
      (1 + d) ^ i * (1 + mulErr u) * (1 + u) ^ j ≤ (1 + d) ^ 2 * (1 + mulErr u) * (1 + u) ^ 5 := by
    intro i j hi hj
    have h1 : (1 + d) ^ i ≤ (1 + d) ^ 2 := pow_le_pow_right₀ hd1 hi
    have h2 : (1 + u) ^ j ≤ (1 + u) ^ 5 := pow_le_pow_right₀ (by linarith) hj
    have h3 : (0 : ℝ) ≤ (1 + d) ^ i := by positivity
    have h4 : (0 : ℝ) ≤ (1 + u) ^ j := by positivity
    gcongr
  have small : ∀ G B, G ≤ (1 + d) ^ 2 * (1 + mulErr u) * (1 + u) ^ 5 → 0 ≤ G →
      B ≤ 2 * (A 0 + (A 1 + A 2)) → G * B ≤ big := by
    intro G B hG hG0 hB
    refine le_trans ?_ hb
    calc G * B ≤ G * (2 * (A 0 + (A 1 + A 2))) := mul_le_mul_of_nonneg_left hB hG0
      _ ≤ _ := mul_le_mul_of_nonneg_right hG (by linarith)
  have t : ∀ r, r < 3 → A r ≤ 2 * (A 0 + (A 1 + A 2)) →
      Near tiny (twFac u d) (A r) (y r * w r) (a.cmul (y r) (w' r)) := by
    intro r hr hle
    have := (n r).cmul R hd (hw r hr) (hw' r hr) (by
      rw [one_mul]
      refine small _ _ ?_ (by positivity) hle
      have := hT 1 0 (by decide) (by decide)
      simpa using this)
    rwa [one_mul] at this
  have s1 := t 1 (by decide) (by linarith)
  have s2 := t 2 (by decide) (by linarith)
  have hG1 : twFac u d ≤ (1 + d) ^ 2 * (1 + mulErr u) * (1 + u) ^ 5 := by
    have := hT 1 0 (by decide) (by decide)
    simpa [twFac] using this
  have hG2 : twFac u d * (1 + u) ≤ (1 + d) ^ 2 * (1 + mulErr u) * (1 + u) ^ 5 := by
    have := hT 1 1 (by decide) (by decide)
    simpa [twFac] using this
  have hM1 : 1 ≤ twFac u d * (1 + u) := hM.trans (grow hM hu)
  have s3 := s1.cadd R s2 (small _ _ hG1 (by linarith) (by linarith))
  have s0 := s1.csub R s2 (small _ _ hG1 (by linarith) (by linarith))
  have n0 := (n 0).mono ht hM1 le_rfl
  have g := n0.subHalf R s3 (small _ _ (by
    refine le_trans (le_of_eq ?_) (hT 1 3 (by decide) (by decide))
    unfold twFac; ring) (by unfold twFac; positivity) (by linarith))
  have z := s0.cscale R hd hc hc' (small _ _ (by
    refine le_trans (le_of_eq ?_) (hT 2 1 (by decide) (by decide))
    unfold twFac; ring) (by unfold twFac; positivity) (by linarith))
  have g' := g.mono (G' := (1 + d) ^ 2 * (1 + mulErr u) * (1 + u) ^ 4) ht (by
    refine le_trans (le_of_eq (show _ = (1 + d) ^ 1 * (1 + mulErr u) * (1 + u) ^ 4 by unfold twFac; ring)) ?_
    have : (1 + d) ^ 1 ≤ (1 + d) ^ 2 := pow_le_pow_right₀ hd1 (by decide)
    gcongr) le_rfl
  have z' := z.mono (G' := (1 + d) ^ 2 * (1 + mulErr u) * (1 + u) ^ 4) ht (by
    refine le_trans (le_of_eq (show _ = (1 + d) ^ 2 * (1 + mulErr u) * (1 + u) ^ 2 by unfold twFac; ring)) ?_
    have : (1 + u) ^ 2 ≤ (1 + u) ^ 4 := pow_le_pow_right₀ (by linarith) (by decide)
    gcongr) le_rfl
  have hlast : (1 + d) ^ 2 * (1 + mulErr u) * (1 + u) ^ 4 * (A 0 + (A 1 + A 2) + (A 1 + A 2)) ≤ big :=
    small _ _ (hT 2 4 (by decide) (by decide)) (by positivity) (by linarith)
  have hfin : (1 + d) ^ 2 * (1 + mulErr u) * (1 + u) ^ 4 * (1 + u) =
      (1 + d) ^ 2 * (1 + mulErr u) * (1 + u) ^ 5 := by ring
  unfold Arith.bf3
  simp only
  split_ifs
  · refine (n0.cadd R s3 (small _ _ hG2 (by linarith) (by linarith))).mono ht ?_ (by linarith)
    refine le_trans (le_of_eq ?_) (hT 1 2 (by decide) (by decide))
    unfold twFac; ring
  · have := g'.caddI R z' hlast
    rw [hfin] at this
    exact this.mono ht le_rfl (by linarith)
  · have := g'.csubI R z' hlast
    rw [hfin] at this
    exact this.mono ht le_rfl (by linarith)

/-- Radix 5; `c1 + i t1`, `c2 + i t2` are the fifth root of unity and its square. -/
theorem bf5_near (R : RoundOK a u tiny big) (hd : 0 ≤ d) {w w' y : Nat → ℂ} {A : Nat → ℝ}
    {c1 t1 c2 t2 : ℝ} {ya yb : ℂ}
    (hA : ∀ r, A r = ‖y r‖ + 2 * tiny) (hw : ∀ r < 5, ‖w r‖ ≤ 1) (hw' : ∀ r < 5, ‖w' r - w r‖ ≤ d)
    (hc1 : |c1| ≤ 1) (hc1' : |ya.re - c1| ≤ d) (ht1 : |t1| ≤ 1) (ht1' : |ya.im - t1| ≤ d)
    (hc2 : |c2| ≤ 1) (hc2' : |yb.re - c2| ≤ d) (ht2 : |t2| ≤ 1) (ht2' : |yb.im - t2| ≤ d)
    (hb : (1 + d) ^ 2 * (1 + mulErr u) * (1 + u) ^ 5 * (2 * (A 0 + (A 1 + A 4) + (A 2 + A 3))) ≤ big)
    (q : Nat) :
    Near tiny ((1 + d) ^ 2 * (1 + mulErr u) * (1 + u) ^ 5) (2 * (A 0 + (A 1 + A 4) + (A 2 + A 3)))
      (if q = 0 then y 0 + ((y 1 * w 1 + y 4 * w 4) + (y 2 * w 2 + y 3 * w 3))
        else if q = 1 then y 0 + (y 1 * w 1 + y 4 * w 4) * c1 + (y 2 * w 2 + y 3 * w 3) * c2 -
          -(I * ((y 1 * w 1 - y 4 * w 4) * t1 + (y 2 * w 2 - y 3 * w 3) * t2))
        else if q = 2 then y 0 + (y 1 * w 1 + y 4 * w 4) * c2 + (y 2 * w 2 + y 3 * w 3) * c1 +
          I * ((y 1 * w 1 - y 4 * w 4) * t2 - (y 2 * w 2 - y 3 * w 3) * t1)
        else if q = 3 then y 0 + (y 1 * w 1 + y 4 * w 4) * c2 + (y 2 * w 2 + y 3 * w 3) * c1 -
          I * ((y 1 * w 1 - y 4 * w 4) * t2 - (y 2 * w 2 - y 3 * w 3) * t1)
        else y 0 + (y 1 * w 1 + y 4 * w 4) * c1 + (y 2 * w 2 + y 3 * w 3) * c2 +
          -(I * ((y 1 * w 1 - y 4 * w 4) * t1 + (y 2 * w 2 - y 3 * w 3) * t2)))
      (a.bf5 ya yb w' y q) := by
  have hu := R.u0
  have ht := R.t0
  have hM := one_le_twFac hu hd
  have hA0 : ∀ r, 0 ≤ A r := fun r => by rw [hA]; have := norm_nonneg (y r); linarith
  have a0 := hA0 0; have a1 := hA0 1; have a2 := hA0 2; have a3 := hA0 3; have a4 := hA0 4
  have n : ∀ r, Near tiny 1 (A r) (y r) (y r) := fun r => by rw [hA]; exact Near.refl _
  have hm1 : (1 : ℝ) ≤ 1 + mulErr u := by have := mulErr_nonneg hu; linarith
  have hd1 : (1 : ℝ) ≤ 1 + d := by linarith
  obtain ⟨S, hS⟩ : ∃ S, S = 2 * (A 0 + (A 1 + A 4) + (A 2 + A 3)) := ⟨_, rfl⟩
  have hT : ∀ i j i' j' : Nat, i ≤ i' → j ≤ j' →
      (1 + d) ^ i * (1 + mulErr u) * (1 + u) ^ j ≤ (1 + d) ^ i' * (1 + mulErr u) * (1 + u) ^ j' := by
    intro i j i' j' hi hj
    have h1 : (1 + d) ^ i ≤ (1 + d) ^ i' := pow_le_pow_right₀ hd1 hi
    have h2 : (1 + u) ^ j ≤ (1 + u) ^ j' := pow_le_pow_right₀ (by linarith) hj
    have h3 : (0 : ℝ) ≤ (1 + d) ^ i := by positivity
    have h4 : (0 : ℝ) ≤ (1 + u) ^ j := by positivity
    calc (1 + d) ^ i * (1 + mulErr u) * (1 + u) ^ j ≤ (1 + d) ^ i' * (1 + mulErr u) * (1 + u) ^ j := by
          gcongr
      _ ≤ _ := by
          have : (0 : ℝ) ≤ (1 + d) ^ i' * (1 + mulErr u) := by positivity
          exact mul_le_mul_of_nonneg_left h2 this
  have small : ∀ (i j : Nat) G B, i ≤ 2 → j ≤ 5 → G = (1 + d) ^ i * (1 + mulErr u) * (1 + u) ^ j →
      B ≤ S → G * B ≤ big := by
    intro i j G B hi hj hG hB
    refine le_trans ?_ hb
    rw [← hS, hG]
    calc _ ≤ (1 + d) ^ i * (1 + mulErr u) * (1 + u) ^ j * S :=
          mul_le_mul_of_nonneg_left hB (by positivity)
      _ ≤ _ := mul_le_mul_of_nonneg_right (hT i j 2 5 hi hj) (by linarith)
  have t : ∀ r, r < 5 → A r ≤ S →
      Near tiny (twFac u d) (A r) (y r * w r) (a.cmul (y r) (w' r)) := by
    intro r hr hle
    have := (n r).cmul R hd (hw r hr) (hw' r hr) (by
      rw [one_mul]
      exact small 1 0 _ _ (by decide) (by decide) (by ring) hle)
    rwa [one_mul] at this
  have s1 := t 1 (by decide) (by linarith)
  have s2 := t 2 (by decide) (by linarith)
  have s3 := t 3 (by decide) (by linarith)
  have s4 := t 4 (by decide) (by linarith)
  have f1 : twFac u d = (1 + d) ^ 1 * (1 + mulErr u) * (1 + u) ^ 0 := by unfold twFac; ring
  have f2 : twFac u d * (1 + u) = (1 + d) ^ 1 * (1 + mulErr u) * (1 + u) ^ 1 := by unfold twFac; ring
  have f3 : twFac u d * (1 + u) * (1 + d) = (1 + d) ^ 2 * (1 + mulErr u) * (1 + u) ^ 1 := by
    unfold twFac; ring
  have f4 : twFac u d * (1 + u) * (1 + d) * (1 + u) = (1 + d) ^ 2 * (1 + mulErr u) * (1 + u) ^ 2 := by
    unfold twFac; ring
  have s7 := s1.cadd R s4 (small 1 0 _ _ (by decide) (by decide) f1 (by linarith))
  have s10 := s1.csub R s4 (small 1 0 _ _ (by decide) (by decide) f1 (by linarith))
  have s8 := s2.cadd R s3 (small 1 0 _ _ (by decide) (by decide) f1 (by linarith))
  have s9 := s2.csub R s3 (small 1 0 _ _ (by decide) (by decide) f1 (by linarith))
  have hM1 : 1 ≤ twFac u d * (1 + u) := hM.trans (grow hM hu)
  -- products with the parts of ya and yb
  have m7a := s7.cscale R hd hc1 hc1' (small 2 1 _ _ (by decide) (by decide) f3 (by linarith))
  have m7b := s7.cscale R hd hc2 hc2' (small 2 1 _ _ (by decide) (by decide) f3 (by linarith))
  have m8a := s8.cscale R hd hc1 hc1' (small 2 1 _ _ (by decide) (by decide) f3 (by linarith))
  have m8b := s8.cscale R hd hc2 hc2' (small 2 1 _ _ (by decide) (by decide) f3 (by linarith))
  have m10a := s10.cscale R hd ht1 ht1' (small 2 1 _ _ (by decide) (by decide) f3 (by linarith))
  have m10b := s10.cscale R hd ht2 ht2' (small 2 1 _ _ (by decide) (by decide) f3 (by linarith))
  have m9a := s9.cscale R hd ht1 ht1' (small 2 1 _ _ (by decide) (by decide) f3 (by linarith))
  have m9b := s9.cscale R hd ht2 ht2' (small 2 1 _ _ (by decide) (by decide) f3 (by linarith))
  rw [f4] at m7a m7b m8a m8b m10a m10b m9a m9b
  have g3 : (1 + d) ^ 2 * (1 + mulErr u) * (1 + u) ^ 2 * (1 + u) =
      (1 + d) ^ 2 * (1 + mulErr u) * (1 + u) ^ 3 := by ring
  have g4 : (1 + d) ^ 2 * (1 + mulErr u) * (1 + u) ^ 3 * (1 + u) =
      (1 + d) ^ 2 * (1 + mulErr u) * (1 + u) ^ 4 := by ring
  have g5 : (1 + d) ^ 2 * (1 + mulErr u) * (1 + u) ^ 4 * (1 + u) =
      (1 + d) ^ 2 * (1 + mulErr u) * (1 + u) ^ 5 := by ring
  have one2 : 1 ≤ (1 + d) ^ 2 * (1 + mulErr u) * (1 + u) ^ 2 := m7a.one
  have n0 := (n 0).mono ht one2 le_rfl
  have h23 := hT 2 2 2 3 le_rfl (by decide)
  have h34 := hT 2 3 2 4 le_rfl (by decide)
  -- s5 and s11
  have p5 := n0.cadd R m7a (small 2 2 _ _ (by decide) (by decide) rfl (by linarith))
  rw [g3] at p5
  have s5 := p5.cadd R (m8b.mono ht h23 le_rfl) (small 2 3 _ _ (by decide) (by decide) rfl (by linarith))
  rw [g4] at s5
  have p11 := n0.cadd R m7b (small 2 2 _ _ (by decide) (by decide) rfl (by linarith))
  rw [g3] at p11
  have s11 := p11.cadd R (m8a.mono ht h23 le_rfl) (small 2 3 _ _ (by decide) (by decide) rfl (by linarith))
  rw [g4] at s11
  -- s6 and s12
  have s6 : Near tiny ((1 + d) ^ 2 * (1 + mulErr u) * (1 + u) ^ 4) (A 1 + A 4 + (A 2 + A 3))
      (-(I * ((y 1 * w 1 - y 4 * w 4) * t1 + (y 2 * w 2 - y 3 * w 3) * t2)))
      ⟨a.add (a.cscale (a.csub (a.cmul (y 1) (w' 1)) (a.cmul (y 4) (w' 4))) ya.im).im
          (a.cscale (a.csub (a.cmul (y 2) (w' 2)) (a.cmul (y 3) (w' 3))) yb.im).im,
        a.sub (-(a.cscale (a.csub (a.cmul (y 1) (w' 1)) (a.cmul (y 4) (w' 4))) ya.im).re)
          (a.cscale (a.csub (a.cmul (y 2) (w' 2)) (a.cmul (y 3) (w' 3))) yb.im).re⟩ := by
    have hs := (m10a.add ht m9b).mulI.neg
    have hbig := small 2 2 _ (A 1 + A 4 + (A 2 + A 3)) (by decide) (by decide) rfl (by linarith)
    have b1 := hs.re_le ht hbig
    have b2 := hs.im_le ht hbig
    generalize a.cscale (a.csub (a.cmul (y 1) (w' 1)) (a.cmul (y 4) (w' 4))) ya.im = P at *
    generalize a.cscale (a.csub (a.cmul (y 2) (w' 2)) (a.cmul (y 3) (w' 3))) yb.im = Q at *
    have e1 : (-(I * (P + Q))).re = P.im + Q.im := by simp
    have e2 : (-(I * (P + Q))).im = -P.re - Q.re := by simp; ring
    rw [e1] at b1
    rw [e2] at b2
    have := hs.round (z := ⟨a.add P.im Q.im, a.sub (-P.re) Q.re⟩) hu ht
      (by rw [e1]; exact weaken_tiny hu ht (R.add _ _ b1))
      (by rw [e2]; exact weaken_tiny hu ht (R.sub _ _ b2))
    rw [g3] at this
    exact this.mono ht h34 le_rfl
  have s12 : Near tiny ((1 + d) ^ 2 * (1 + mulErr u) * (1 + u) ^ 4) (A 1 + A 4 + (A 2 + A 3))
      (I * ((y 1 * w 1 - y 4 * w 4) * t2 - (y 2 * w 2 - y 3 * w 3) * t1))
      ⟨a.add (-(a.cscale (a.csub (a.cmul (y 1) (w' 1)) (a.cmul (y 4) (w' 4))) yb.im).im)
          (a.cscale (a.csub (a.cmul (y 2) (w' 2)) (a.cmul (y 3) (w' 3))) ya.im).im,
        a.sub (a.cscale (a.csub (a.cmul (y 1) (w' 1)) (a.cmul (y 4) (w' 4))) yb.im).re
          (a.cscale (a.csub (a.cmul (y 2) (w' 2)) (a.cmul (y 3) (w' 3))) ya.im).re⟩ := by
    have hs := (m10b.sub ht m9a).mulI
    have hbig := small 2 2 _ (A 1 + A 4 + (A 2 + A 3)) (by decide) (by decide) rfl (by linarith)
    have b1 := hs.re_le ht hbig
    have b2 := hs.im_le ht hbig
    generalize a.cscale (a.csub (a.cmul (y 1) (w' 1)) (a.cmul (y 4) (w' 4))) yb.im = P at *
    generalize a.cscale (a.csub (a.cmul (y 2) (w' 2)) (a.cmul (y 3) (w' 3))) ya.im = Q at *
    have e1 : (I * (P - Q)).re = -P.im + Q.im := by simp; ring
    have e2 : (I * (P - Q)).im = P.re - Q.re := by simp
    rw [e1] at b1
    rw [e2] at b2
    have := hs.round (z := ⟨a.add (-P.im) Q.im, a.sub P.re Q.re⟩) hu ht
      (by rw [e1]; exact weaken_tiny hu ht (R.add _ _ b1))
      (by rw [e2]; exact weaken_tiny hu ht (R.sub _ _ b2))
    rw [g3] at this
    exact this.mono ht h34 le_rfl
  have hlast : (1 + d) ^ 2 * (1 + mulErr u) * (1 + u) ^ 4 *
      (A 0 + (A 1 + A 4) + (A 2 + A 3) + (A 1 + A 4 + (A 2 + A 3))) ≤ big :=
    small 2 4 _ _ (by decide) (by decide) rfl (by linarith)
  unfold Arith.bf5
  simp only
  rw [← g5]
  split_ifs
  · -- q = 0
    have p := s7.cadd R s8 (small 1 1 _ _ (by decide) (by decide) f2 (by linarith))
    have f5 : twFac u d * (1 + u) * (1 + u) = (1 + d) ^ 1 * (1 + mulErr u) * (1 + u) ^ 2 := by
      unfold twFac; ring
    rw [f5] at p
    have o := ((n 0).mono ht p.one le_rfl).cadd R p
      (small 1 2 _ _ (by decide) (by decide) rfl (by linarith))
    refine o.mono ht ?_ (by linarith)
    rw [g5]
    refine le_trans (le_of_eq ?_) (hT 1 3 2 5 (by decide) (by decide))
    ring
  · exact (s5.csub R s6 hlast).mono ht le_rfl (by linarith)
  · exact (s11.cadd R s12 hlast).mono ht le_rfl (by linarith)
  · exact (s11.csub R s12 hlast).mono ht le_rfl (by linarith)
  · exact (s5.cadd R s6 hlast).mono ht le_rfl (by linarith)

/-- The generic butterfly, after `j` terms. -/
theorem bfg_near (R : RoundOK a u tiny big) (hd : 0 ≤ d) {w w' y : Nat → ℂ} {A : Nat → ℝ}
    (hA : ∀ r, A r = ‖y r‖ + 2 * tiny) (p : Nat) (hw : ∀ r < p, ‖w r‖ ≤ 1) (hw' : ∀ r < p, ‖w' r - w r‖ ≤ d)
    (hw0 : w 0 = 1)
    (hb : twFac u d * (1 + u) ^ (p - 1) * (∑ r ∈ Finset.range p, A r) ≤ big) (j : Nat) (hj : j < p) :
    Near tiny (twFac u d * (1 + u) ^ j) (∑ r ∈ Finset.range (j + 1), A r)
      (∑ r ∈ Finset.range (j + 1), y r * w r) (a.bfg w' y j) := by
  have hu := R.u0
  have ht := R.t0
  have hM := one_le_twFac hu hd
  have hA0 : ∀ r, 0 ≤ A r := fun r => by rw [hA]; have := norm_nonneg (y r); linarith
  have n : ∀ r, Near tiny 1 (A r) (y r) (y r) := fun r => by rw [hA]; exact Near.refl _
  have small : ∀ i B, i < p → B ≤ ∑ r ∈ Finset.range p, A r → twFac u d * (1 + u) ^ i * B ≤ big := by
    intro i B hi hB
    refine le_trans ?_ hb
    have h1 : (1 + u) ^ i ≤ (1 + u) ^ (p - 1) := pow_le_pow_right₀ (by linarith) (by omega)
    have h2 : 0 ≤ ∑ r ∈ Finset.range p, A r := Finset.sum_nonneg fun r _ => hA0 r
    have h3 : 0 ≤ twFac u d := by linarith
    calc _ ≤ twFac u d * (1 + u) ^ i * ∑ r ∈ Finset.range p, A r :=
          mul_le_mul_of_nonneg_left hB (by positivity)
      _ ≤ _ := mul_le_mul_of_nonneg_right (mul_le_mul_of_nonneg_left h1 h3) h2
  have hsub : ∀ i ≤ p, ∑ r ∈ Finset.range i, A r ≤ ∑ r ∈ Finset.range p, A r := fun i hi =>
    Finset.sum_le_sum_of_subset_of_nonneg (Finset.range_mono hi) (fun r _ _ => hA0 r)
  induction j with
  | zero =>
    simp only [zero_add, Finset.sum_range_one, hw0, mul_one, pow_zero, Arith.bfg]
    exact (n 0).mono ht hM le_rfl
  | succ j ih =>
    have ih := ih (by omega)
    have hone : A (j + 1) ≤ ∑ r ∈ Finset.range p, A r :=
      Finset.single_le_sum (f := A) (fun r _ => hA0 r) (Finset.mem_range.mpr hj)
    have t := (n (j + 1)).cmul R hd (hw (j + 1) hj) (hw' (j + 1) hj) (by
      rw [one_mul]
      have := small 0 _ (by omega) hone
      simpa [twFac] using this)
    rw [one_mul] at t
    have t' := t.mono (G' := twFac u d * (1 + u) ^ j) ht (by
      have := one_le_pow_u hu j
      show twFac u d ≤ _
      nlinarith) le_rfl
    rw [Finset.sum_range_succ _ (j + 1), Finset.sum_range_succ _ (j + 1)]
    have := ih.cadd R t' (by
      rw [← Finset.sum_range_succ]
      exact small j _ (by omega) (hsub _ (by omega)))
    rw [mul_assoc, ← pow_succ] at this
    exact this

end

end FftMpi
