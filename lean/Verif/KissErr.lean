import Verif.KissFlLemmas
import Mathlib.Tactic.Linarith
import Mathlib.Tactic.Positivity
import Mathlib.Tactic.GCongr

/-!
# Rounding errors of kissfft.h: assumptions on the operations, and lemmas
-/

noncomputable section

namespace FftMpi

open Complex

/-- The operations round with relative error `u`, as long as the exact result is at most `big` in absolute
value.  Products and conversions may also underflow: the error is then at most `u*tiny`.  For IEEE arithmetic
with rounding to nearest `u` is `2^-53` (`float`: `2^-24`), `tiny` the smallest positive normal number and
`big` the largest finite number.  (Sums and differences of floating-point numbers do not underflow.)  The
operations of type `double` are at least as good as those of type `kiss_fft_scalar`. -/
structure RoundOK (a : Arith) (u tiny big : ℝ) : Prop where
  u0 : 0 ≤ u
  t0 : 0 ≤ tiny
  add : ∀ x y, |x + y| ≤ big → |a.add x y - (x + y)| ≤ u * |x + y|
  sub : ∀ x y, |x - y| ≤ big → |a.sub x y - (x - y)| ≤ u * |x - y|
  mul : ∀ x y, |x * y| ≤ big → |a.mul x y - x * y| ≤ u * (|x * y| + tiny)
  dmul : ∀ x y, |x * y| ≤ big → |a.dmul x y - x * y| ≤ u * (|x * y| + tiny)
  dsub : ∀ x y, |x - y| ≤ big → |a.dsub x y - (x - y)| ≤ u * |x - y|
  conv : ∀ x, |x| ≤ big → |a.conv x - x| ≤ u * (|x| + tiny)

/-- `x'` approximates `x` with an error of at most `(G-1)*A`, where `A` bounds `x` (and two tiny numbers). -/
structure Near (tiny G A : ℝ) (x x' : ℂ) : Prop where
  one : 1 ≤ G
  amp : ‖x‖ + 2 * tiny ≤ A
  err : ‖x' - x‖ ≤ (G - 1) * A

section

variable {a : Arith} {u tiny big G G' A A' B : ℝ} {x x' y y' : ℂ}

theorem Near.norm (h : Near tiny G A x x') : ‖x'‖ + 2 * tiny ≤ G * A := by
  have h1 : ‖x'‖ ≤ ‖x‖ + ‖x' - x‖ := by
    have := norm_add_le x (x' - x)
    simpa using this
  have := h.amp
  have := h.err
  nlinarith

theorem Near.nonneg (ht : 0 ≤ tiny) (h : Near tiny G A x x') : 0 ≤ A := by
  have := h.amp
  have := norm_nonneg x
  linarith

theorem Near.mono (ht : 0 ≤ tiny) (h : Near tiny G A x x') (hG : G ≤ G') (hA : A ≤ A') :
    Near tiny G' A' x x' := by
  have h1 := h.nonneg ht
  have h2 := h.one
  refine ⟨h2.trans hG, h.amp.trans hA, h.err.trans ?_⟩
  calc (G - 1) * A ≤ (G - 1) * A' := by
        apply mul_le_mul_of_nonneg_left hA; linarith
    _ ≤ (G' - 1) * A' := by
        apply mul_le_mul_of_nonneg_right _ (h1.trans hA); linarith

theorem Near.refl (x : ℂ) : Near tiny 1 (‖x‖ + 2 * tiny) x x := ⟨le_rfl, le_rfl, by simp⟩

theorem Near.add (ht : 0 ≤ tiny) (h : Near tiny G A x x') (k : Near tiny G B y y') :
    Near tiny G (A + B) (x + y) (x' + y') := by
  refine ⟨h.one, ?_, ?_⟩
  · have := norm_add_le x y
    have := h.amp; have := k.amp
    linarith
  · have e : x' + y' - (x + y) = (x' - x) + (y' - y) := by ring
    rw [e]
    have := norm_add_le (x' - x) (y' - y)
    have := h.err; have := k.err
    linarith

theorem Near.neg (h : Near tiny G A x x') : Near tiny G A (-x) (-x') := by
  refine ⟨h.one, by rw [norm_neg]; exact h.amp, ?_⟩
  rw [show -x' - -x = -(x' - x) by ring, norm_neg]
  exact h.err

theorem Near.sub (ht : 0 ≤ tiny) (h : Near tiny G A x x') (k : Near tiny G B y y') :
    Near tiny G (A + B) (x - y) (x' - y') := by
  rw [sub_eq_add_neg, sub_eq_add_neg]
  exact h.add ht k.neg

theorem Near.mulI (h : Near tiny G A x x') : Near tiny G A (I * x) (I * x') := by
  refine ⟨h.one, by rw [norm_mul, norm_I, one_mul]; exact h.amp, ?_⟩
  rw [← mul_sub, norm_mul, norm_I, one_mul]
  exact h.err

/-- Rounding both components. -/
theorem Near.round (hu : 0 ≤ u) (ht : 0 ≤ tiny) (h : Near tiny G A x x') {z : ℂ}
    (hre : |z.re - x'.re| ≤ u * (|x'.re| + tiny)) (him : |z.im - x'.im| ≤ u * (|x'.im| + tiny)) :
    Near tiny (G * (1 + u)) A x z := by
  have hA := h.nonneg ht
  have hn := h.norm
  have h1 := h.one
  have key : ‖z - x'‖ ≤ u * (‖x'‖ + 2 * tiny) := by
    have hN := norm_nonneg x'
    have r1 := abs_re_le_norm x'
    have r2 := abs_im_le_norm x'
    have r3 : |x'.re| ^ 2 + |x'.im| ^ 2 = ‖x'‖ ^ 2 := by
      rw [sq_abs, sq_abs, ← Complex.normSq_eq_norm_sq, Complex.normSq_apply]; ring
    have r4 : ‖z - x'‖ ^ 2 = |z.re - x'.re| ^ 2 + |z.im - x'.im| ^ 2 := by
      rw [← Complex.normSq_eq_norm_sq, Complex.normSq_apply, sub_re, sub_im, sq_abs, sq_abs]; ring
    have p0 := abs_nonneg x'.re
    have q0 := abs_nonneg x'.im
    have s1 : |z.re - x'.re| ^ 2 ≤ (u * (|x'.re| + tiny)) ^ 2 := by gcongr
    have s2 : |z.im - x'.im| ^ 2 ≤ (u * (|x'.im| + tiny)) ^ 2 := by gcongr
    have s3 : (|x'.re| + tiny) ^ 2 + (|x'.im| + tiny) ^ 2 ≤ (‖x'‖ + 2 * tiny) ^ 2 := by
      nlinarith [mul_nonneg ht hN]
    refine abs_le_of_sq_le_sq' ?_ (by positivity) |>.2
    calc ‖z - x'‖ ^ 2 ≤ u ^ 2 * ((|x'.re| + tiny) ^ 2 + (|x'.im| + tiny) ^ 2) := by
          rw [r4]; nlinarith
      _ ≤ u ^ 2 * (‖x'‖ + 2 * tiny) ^ 2 := by gcongr
      _ = (u * (‖x'‖ + 2 * tiny)) ^ 2 := by ring
  refine ⟨by nlinarith, h.amp, ?_⟩
  have e : z - x = (z - x') + (x' - x) := by ring
  have := norm_add_le (z - x') (x' - x)
  rw [← e] at this
  have := h.err
  have : u * (‖x'‖ + 2 * tiny) ≤ u * (G * A) := by gcongr
  nlinarith

theorem Near.re_le (ht : 0 ≤ tiny) (h : Near tiny G A x x') (hb : G * A ≤ big) : |x'.re| ≤ big := by
  have := h.norm
  have := abs_re_le_norm x'
  linarith

theorem Near.im_le (ht : 0 ≤ tiny) (h : Near tiny G A x x') (hb : G * A ≤ big) : |x'.im| ≤ big := by
  have := h.norm
  have := abs_im_le_norm x'
  linarith

theorem weaken_tiny (hu : 0 ≤ u) (ht : 0 ≤ tiny) {r s : ℝ} (h : r ≤ u * s) : r ≤ u * (s + tiny) := by
  have : 0 ≤ u * tiny := by positivity
  linarith

theorem Near.cadd (R : RoundOK a u tiny big) (h : Near tiny G A x x') (k : Near tiny G B y y')
    (hb : G * (A + B) ≤ big) : Near tiny (G * (1 + u)) (A + B) (x + y) (a.cadd x' y') := by
  have hs := h.add R.t0 k
  refine hs.round R.u0 R.t0 ?_ ?_
  · exact weaken_tiny R.u0 R.t0 (R.add _ _ (hs.re_le R.t0 hb))
  · exact weaken_tiny R.u0 R.t0 (R.add _ _ (hs.im_le R.t0 hb))

theorem Near.csub (R : RoundOK a u tiny big) (h : Near tiny G A x x') (k : Near tiny G B y y')
    (hb : G * (A + B) ≤ big) : Near tiny (G * (1 + u)) (A + B) (x - y) (a.csub x' y') := by
  have hs := h.sub R.t0 k
  refine hs.round R.u0 R.t0 ?_ ?_
  · exact weaken_tiny R.u0 R.t0 (R.sub _ _ (hs.re_le R.t0 hb))
  · exact weaken_tiny R.u0 R.t0 (R.sub _ _ (hs.im_le R.t0 hb))

/-- `x + i y`. -/
theorem Near.caddI (R : RoundOK a u tiny big) (h : Near tiny G A x x') (k : Near tiny G B y y')
    (hb : G * (A + B) ≤ big) :
    Near tiny (G * (1 + u)) (A + B) (x + I * y) ⟨a.sub x'.re y'.im, a.add x'.im y'.re⟩ := by
  have hs := h.add R.t0 k.mulI
  have e1 : (x' + I * y').re = x'.re - y'.im := by simp; ring
  have e2 : (x' + I * y').im = x'.im + y'.re := by simp
  have b1 := hs.re_le R.t0 hb
  have b2 := hs.im_le R.t0 hb
  refine hs.round R.u0 R.t0 ?_ ?_
  · rw [e1] at b1 ⊢
    exact weaken_tiny R.u0 R.t0 (R.sub _ _ b1)
  · rw [e2] at b2 ⊢
    exact weaken_tiny R.u0 R.t0 (R.add _ _ b2)

/-- `x - i y`. -/
theorem Near.csubI (R : RoundOK a u tiny big) (h : Near tiny G A x x') (k : Near tiny G B y y')
    (hb : G * (A + B) ≤ big) :
    Near tiny (G * (1 + u)) (A + B) (x - I * y) ⟨a.add x'.re y'.im, a.sub x'.im y'.re⟩ := by
  have hs := h.sub R.t0 k.mulI
  have e1 : (x' - I * y').re = x'.re + y'.im := by simp
  have e2 : (x' - I * y').im = x'.im - y'.re := by simp
  have b1 := hs.re_le R.t0 hb
  have b2 := hs.im_le R.t0 hb
  refine hs.round R.u0 R.t0 ?_ ?_
  · rw [e1] at b1 ⊢
    exact weaken_tiny R.u0 R.t0 (R.add _ _ b1)
  · rw [e2] at b2 ⊢
    exact weaken_tiny R.u0 R.t0 (R.sub _ _ b2)

/-- Product with an approximation of a number of absolute value at most 1, without rounding. -/
theorem Near.mul (ht : 0 ≤ tiny) {d : ℝ} (hd : 0 ≤ d) (h : Near tiny G A x x') {w w' : ℂ} (hw : ‖w‖ ≤ 1)
    (hw' : ‖w' - w‖ ≤ d) : Near tiny (G * (1 + d)) A (x * w) (x' * w') := by
  have hA := h.nonneg ht
  have h1 := h.one
  refine ⟨by nlinarith, ?_, ?_⟩
  · have := h.amp
    rw [norm_mul]
    have : ‖x‖ * ‖w‖ ≤ ‖x‖ * 1 := by gcongr
    linarith
  · have e : x' * w' - x * w = x' * (w' - w) + (x' - x) * w := by ring
    rw [e]
    have := norm_add_le (x' * (w' - w)) ((x' - x) * w)
    rw [norm_mul, norm_mul] at this
    have hn : ‖x'‖ ≤ G * A := by have := h.norm; linarith
    have t1 : ‖x'‖ * ‖w' - w‖ ≤ G * A * d := by gcongr
    have t2 : ‖x' - x‖ * ‖w‖ ≤ (G - 1) * A * 1 := by
      have := h.err
      gcongr
    nlinarith

/-- Relative error of a complex product, `3u + (3/2)u^2`. -/
def mulErr (u : ℝ) : ℝ := 3 / 2 * (2 * u + u ^ 2)

theorem mulErr_nonneg (hu : 0 ≤ u) : 0 ≤ mulErr u := by unfold mulErr; positivity

theorem le_mulErr (hu : 0 ≤ u) : u ≤ mulErr u := by unfold mulErr; nlinarith [sq_nonneg u]

/-- Two products and a sum, rounded. -/
theorem twoProd {p q p' q' r u tiny P : ℝ} (hu : 0 ≤ u) (ht : 0 ≤ tiny) (hpq : |p| + |q| ≤ P)
    (hp : |p' - p| ≤ u * (|p| + tiny)) (hq : |q' - q| ≤ u * (|q| + tiny))
    (hr : |r - (p' + q')| ≤ u * |p' + q'|) : |r - (p + q)| ≤ (2 * u + u ^ 2) * (P + 2 * tiny) := by
  have hp0 := abs_nonneg p
  have hq0 := abs_nonneg q
  have a1 : |p' + q'| ≤ (1 + u) * (P + 2 * tiny) := by
    have e : p' + q' = (p' - p) + (q' - q) + p + q := by ring
    have t1 := abs_add_le ((p' - p) + (q' - q) + p) q
    have t2 := abs_add_le ((p' - p) + (q' - q)) p
    have t3 := abs_add_le (p' - p) (q' - q)
    rw [← e] at t1
    have : u * (|p| + |q|) ≤ u * P := by gcongr
    nlinarith [mul_nonneg hu ht]
  have e : r - (p + q) = (r - (p' + q')) + ((p' - p) + (q' - q)) := by ring
  have t1 := abs_add_le (r - (p' + q')) ((p' - p) + (q' - q))
  have t2 := abs_add_le (p' - p) (q' - q)
  rw [← e] at t1
  have t3 : u * |p' + q'| ≤ u * ((1 + u) * (P + 2 * tiny)) := by gcongr
  have t4 : u * (|p| + |q|) ≤ u * P := by gcongr
  nlinarith [mul_nonneg hu ht]

/-- `C_MUL` of two given numbers. -/
theorem cmul_err (R : RoundOK a u tiny big) (x w : ℂ) (hb : (1 + u) * (‖x‖ * ‖w‖ + 2 * tiny) ≤ big) :
    ‖a.cmul x w - x * w‖ ≤ mulErr u * (‖x‖ * ‖w‖ + 2 * tiny) := by
  have hu := R.u0
  have ht := R.t0
  have hx := norm_nonneg x
  have hw := norm_nonneg w
  have hP : 0 ≤ ‖x‖ * ‖w‖ := by positivity
  -- Cauchy-Schwarz
  have cs : ∀ p q r s : ℝ, p ^ 2 + q ^ 2 = ‖x‖ ^ 2 → r ^ 2 + s ^ 2 = ‖w‖ ^ 2 →
      |p * r| + |q * s| ≤ ‖x‖ * ‖w‖ := by
    intro p q r s h1 h2
    rw [abs_mul, abs_mul]
    rw [← sq_abs p, ← sq_abs q] at h1
    rw [← sq_abs r, ← sq_abs s] at h2
    have := abs_nonneg p; have := abs_nonneg q; have := abs_nonneg r; have := abs_nonneg s
    refine abs_le_of_sq_le_sq' ?_ hP |>.2
    rw [mul_pow, ← h1, ← h2]
    nlinarith [sq_nonneg (|p| * |s| - |q| * |r|)]
  have n1 : x.re ^ 2 + x.im ^ 2 = ‖x‖ ^ 2 := by
    rw [← Complex.normSq_eq_norm_sq, Complex.normSq_apply]; ring
  have n2 : w.re ^ 2 + w.im ^ 2 = ‖w‖ ^ 2 := by
    rw [← Complex.normSq_eq_norm_sq, Complex.normSq_apply]; ring
  have c1 := cs x.re x.im w.re w.im n1 n2
  have c2 := cs x.re x.im w.im w.re n1 (by rw [← n2]; ring)
  have small : ∀ p q, |p| + |q| ≤ ‖x‖ * ‖w‖ → |p| ≤ big ∧ |q| ≤ big := by
    intro p q h
    have := abs_nonneg p; have := abs_nonneg q
    constructor <;> nlinarith
  have sumSmall : ∀ p q p' q', |p| + |q| ≤ ‖x‖ * ‖w‖ → |p' - p| ≤ u * (|p| + tiny) →
      |q' - q| ≤ u * (|q| + tiny) → |p'| + |q'| ≤ big := by
    intro p q p' q' h h1 h2
    have t1 := abs_add_le (p' - p) p
    have t2 := abs_add_le (q' - q) q
    rw [sub_add_cancel] at t1 t2
    have : u * (|p| + |q|) ≤ u * (‖x‖ * ‖w‖) := by gcongr
    nlinarith
  have m1 := R.mul x.re w.re (small _ _ c1).1
  have m2 := R.mul x.im w.im (small _ _ c1).2
  have m3 := R.mul x.re w.im (small _ _ c2).1
  have m4 := R.mul x.im w.re (small _ _ c2).2
  have hre : |(a.cmul x w).re - (x * w).re| ≤ (2 * u + u ^ 2) * (‖x‖ * ‖w‖ + 2 * tiny) := by
    have s := sumSmall _ _ _ _ c1 m1 m2
    have hs := R.sub (a.mul x.re w.re) (a.mul x.im w.im) (by
      have := abs_sub (a.mul x.re w.re) (a.mul x.im w.im)
      linarith)
    rw [mul_re, sub_eq_add_neg (x.re * w.re)]
    refine twoProd (p' := a.mul x.re w.re) (q' := -a.mul x.im w.im) hu ht (by rw [abs_neg]; exact c1) m1 ?_ ?_
    · rw [abs_neg, ← abs_neg]
      rw [show -(-a.mul x.im w.im - -(x.im * w.im)) = a.mul x.im w.im - x.im * w.im by ring]
      exact m2
    · rw [← sub_eq_add_neg]; exact hs
  have him : |(a.cmul x w).im - (x * w).im| ≤ (2 * u + u ^ 2) * (‖x‖ * ‖w‖ + 2 * tiny) := by
    have s := sumSmall _ _ _ _ c2 m3 m4
    have hs := R.add (a.mul x.re w.im) (a.mul x.im w.re) (by
      have := abs_add_le (a.mul x.re w.im) (a.mul x.im w.re)
      linarith)
    rw [mul_im]
    exact twoProd hu ht c2 m3 m4 hs
  generalize hD : (2 * u + u ^ 2) * (‖x‖ * ‖w‖ + 2 * tiny) = D at *
  have hD0 : 0 ≤ D := (abs_nonneg _).trans hre
  have hN : ‖a.cmul x w - x * w‖ ≤ 3 / 2 * D := by
    refine abs_le_of_sq_le_sq' ?_ (by positivity) |>.2
    rw [← Complex.normSq_eq_norm_sq, Complex.normSq_apply, sub_re, sub_im, ← sq, ← sq, ← sq_abs,
      ← sq_abs ((a.cmul x w).im - _)]
    have q1 : |(a.cmul x w).re - (x * w).re| ^ 2 ≤ D ^ 2 := by gcongr
    have q2 : |(a.cmul x w).im - (x * w).im| ^ 2 ≤ D ^ 2 := by gcongr
    nlinarith [sq_nonneg D]
  rw [← hD] at hN
  unfold mulErr
  linarith

theorem Near.cmul (R : RoundOK a u tiny big) {d : ℝ} (hd : 0 ≤ d) (h : Near tiny G A x x') {w w' : ℂ}
    (hw : ‖w‖ ≤ 1) (hw' : ‖w' - w‖ ≤ d) (hb : G * (1 + d) * (1 + mulErr u) * A ≤ big) :
    Near tiny (G * (1 + d) * (1 + mulErr u)) A (x * w) (a.cmul x' w') := by
  have hA := h.nonneg R.t0
  have hu := R.u0
  have ht := R.t0
  have hm := mulErr_nonneg hu
  have hum := le_mulErr hu
  have hmul := h.mul R.t0 hd hw hw'
  have hn := hmul.norm
  rw [norm_mul] at hn
  have h1 := hmul.one
  have hGA : 0 ≤ G * (1 + d) * A := by
    have : 0 ≤ G * (1 + d) := by linarith
    positivity
  have herr := cmul_err R x' w' (by
    calc (1 + u) * (‖x'‖ * ‖w'‖ + 2 * tiny) ≤ (1 + mulErr u) * (G * (1 + d) * A) := by gcongr
      _ = G * (1 + d) * (1 + mulErr u) * A := by ring
      _ ≤ big := hb)
  refine ⟨?_, hmul.amp, ?_⟩
  · nlinarith
  · have e : a.cmul x' w' - x * w = (a.cmul x' w' - x' * w') + (x' * w' - x * w) := by ring
    have := norm_add_le (a.cmul x' w' - x' * w') (x' * w' - x * w)
    rw [← e] at this
    have he := hmul.err
    have : mulErr u * (‖x'‖ * ‖w'‖ + 2 * tiny) ≤ mulErr u * (G * (1 + d) * A) := by gcongr
    nlinarith

/-- Product with an approximation of a real number of absolute value at most 1. -/
theorem Near.cscale (R : RoundOK a u tiny big) {d : ℝ} (hd : 0 ≤ d) (h : Near tiny G A x x') {c c' : ℝ}
    (hc : |c| ≤ 1) (hc' : |c' - c| ≤ d) (hb : G * (1 + d) * A ≤ big) :
    Near tiny (G * (1 + d) * (1 + u)) A (x * c) (a.cscale x' c') := by
  have hs := h.mul R.t0 hd (w := (c : ℂ)) (w' := (c' : ℂ)) (by rw [Complex.norm_real]; exact hc)
    (by rw [← Complex.ofReal_sub, Complex.norm_real]; exact hc')
  have e1 : (x' * (c' : ℂ)).re = x'.re * c' := by simp
  have e2 : (x' * (c' : ℂ)).im = x'.im * c' := by simp
  have b1 := hs.re_le R.t0 hb
  have b2 := hs.im_le R.t0 hb
  refine hs.round R.u0 R.t0 ?_ ?_
  · rw [e1] at b1 ⊢
    exact R.mul _ _ b1
  · rw [e2] at b2 ⊢
    exact R.mul _ _ b2

/-- `x - HALF_OF(y)` in both components. -/
theorem Near.subHalf (R : RoundOK a u tiny big) (h : Near tiny G A x x') (k : Near tiny G B y y')
    (hb : G * (1 + u) * (1 + u) * (A + B) ≤ big) :
    Near tiny (G * (1 + u) * (1 + u) * (1 + u)) (A + B) (x - y / 2)
      ⟨a.subHalf x'.re y'.re, a.subHalf x'.im y'.im⟩ := by
  have hu := R.u0
  have ht := R.t0
  have h1 := h.one
  have hA := h.nonneg ht
  have hB := k.nonneg ht
  have hGu : G ≤ G * (1 + u) := by nlinarith
  have hGu' : G * (1 + u) ≤ G * (1 + u) * (1 + u) := by nlinarith
  have hb1 : G * B ≤ big := by
    refine le_trans ?_ hb
    have : G * B ≤ G * (A + B) := by nlinarith
    have : G * (A + B) ≤ G * (1 + u) * (1 + u) * (A + B) := by
      apply mul_le_mul_of_nonneg_right (hGu.trans hGu'); linarith
    linarith
  have hb2 : G * (1 + u) * (A + B) ≤ big := by
    refine le_trans ?_ hb
    apply mul_le_mul_of_nonneg_right hGu'; linarith
  have kh : Near tiny G B (y / 2) (y' / 2) := by
    have := k.mul ht (d := 0) le_rfl (w := 1 / 2) (w' := 1 / 2) (by norm_num) (by simp)
    simpa [div_eq_mul_inv] using this
  have e1 : (y' / 2).re = y'.re * (1 / 2) := by
    rw [show y' / 2 = y' * ((1 / 2 : ℝ) : ℂ) by push_cast; ring, Complex.re_mul_ofReal]
  have e2 : (y' / 2).im = y'.im * (1 / 2) := by
    rw [show y' / 2 = y' * ((1 / 2 : ℝ) : ℂ) by push_cast; ring, Complex.im_mul_ofReal]
  have b1 := kh.re_le ht hb1
  have b2 := kh.im_le ht hb1
  rw [e1] at b1
  rw [e2] at b2
  have k2 : Near tiny (G * (1 + u)) B (y / 2) ⟨a.dmul y'.re (1 / 2), a.dmul y'.im (1 / 2)⟩ :=
    kh.round hu ht (by rw [e1]; exact R.dmul _ _ b1) (by rw [e2]; exact R.dmul _ _ b2)
  have hs := (h.mono ht hGu le_rfl).sub ht k2
  have b3 := hs.re_le ht hb2
  have b4 := hs.im_le ht hb2
  rw [sub_re] at b3
  rw [sub_im] at b4
  have k3 : Near tiny (G * (1 + u) * (1 + u)) (A + B) (x - y / 2)
      ⟨a.dsub x'.re (a.dmul y'.re (1 / 2)), a.dsub x'.im (a.dmul y'.im (1 / 2))⟩ :=
    hs.round hu ht (by rw [sub_re]; exact weaken_tiny hu ht (R.dsub _ _ b3))
      (by rw [sub_im]; exact weaken_tiny hu ht (R.dsub _ _ b4))
  exact k3.round hu ht (R.conv _ (k3.re_le ht hb)) (R.conv _ (k3.im_le ht hb))

end

end FftMpi
