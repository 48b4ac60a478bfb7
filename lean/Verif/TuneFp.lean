import Verif.TuneReport
import Mathlib.Tactic.Linarith
import Mathlib.Tactic.Positivity
import Mathlib.Algebra.Order.Floor.Ring

/-!
# Rounding errors in `tune`

Bounds on the `double` numbers of fft3d.cpp:803-819 and 970-985.
-/

namespace FftMpi

/-- What is assumed of `double` arithmetic in `tune`: monotone, exact on integers, relative error at most `2^-53`.  (Times
are far from the limits of the exponent.) -/
structure TimeFp (fp : ℚ → ℚ) : Prop where
  mono : Monotone fp
  int : ∀ n : Int, |n| ≤ 2 ^ 53 → fp n = n
  rel : ∀ x, |fp x - x| ≤ |x| / 2 ^ 53

theorem timeFp_id : TimeFp id := ⟨monotone_id, fun _ _ => rfl, fun x => by simp; positivity⟩

variable {fp : ℚ → ℚ}

theorem TimeFp.le (T : TimeFp fp) {x : ℚ} (h : 0 ≤ x) : fp x ≤ (1 + 1 / 2 ^ 53) * x := by
  have := (abs_le.mp (T.rel x)).2
  rw [abs_of_nonneg h] at this
  linarith

theorem TimeFp.ge (T : TimeFp fp) {x : ℚ} (h : 0 ≤ x) : (1 - 1 / 2 ^ 53) * x ≤ fp x := by
  have := (abs_le.mp (T.rel x)).1
  rw [abs_of_nonneg h] at this
  linarith

theorem TimeFp.nonneg (T : TimeFp fp) {x : ℚ} (h : 0 ≤ x) : 0 ≤ fp x :=
  le_trans (mul_nonneg (by norm_num) h) (T.ge h)

theorem TimeFp.pos (T : TimeFp fp) {x : ℚ} (h : 0 < x) : 0 < fp x :=
  lt_of_lt_of_le (mul_pos (by norm_num) h) (T.ge h.le)

theorem TimeFp.zero (T : TimeFp fp) : fp 0 = 0 := by simpa using T.int 0 (by norm_num)

theorem TimeFp.one (T : TimeFp fp) : fp 1 = 1 := by simpa using T.int 1 (by norm_num)

theorem TimeFp.lt_one (T : TimeFp fp) {x : ℚ} (h : fp x < 1) : x < 1 := by
  by_contra hc
  have := T.mono (not_lt.mp hc)
  rw [T.one] at this
  linarith

/-- From above, for a number that may be negative. -/
theorem TimeFp.le_max (T : TimeFp fp) {x y : ℚ} (hy : 0 ≤ y) (h : x ≤ y) : fp x ≤ (1 + 1 / 2 ^ 53) * y :=
  (T.mono h).trans (T.le hy)

/-- From below, for a number that may be negative. -/
theorem TimeFp.ge_neg (T : TimeFp fp) {x y : ℚ} (hy : 0 ≤ y) (h : -y ≤ x) : -((1 + 1 / 2 ^ 53) * y) ≤ fp x := by
  refine le_trans ?_ (T.mono h)
  have := (abs_le.mp (T.rel (-y))).1
  rw [abs_neg, abs_of_nonneg hy] at this
  linarith

/-- `timetotal`, for `m` FFTs per trial. -/
theorem TimeFp.total_le (T : TimeFp fp) {ts tf m : ℚ} (hs : 0 ≤ ts) (hf : 0 ≤ tf) (hm : 0 ≤ m) :
    fp (10 * fp (ts + fp (m * tf))) ≤ 10 * ((1 + 1 / 2 ^ 53) ^ 3 * (ts + m * tf)) := by
  have h0 : 0 ≤ m * tf := mul_nonneg hm hf
  have h1 := T.le h0
  have h2 := T.nonneg h0
  have h3 := T.le (add_nonneg hs h2)
  have h4 := T.nonneg (add_nonneg hs h2)
  have h5 := T.le (show 0 ≤ 10 * fp (ts + fp (m * tf)) by positivity)
  have h6 : ts + fp (m * tf) ≤ (1 + 1 / 2 ^ 53) * (ts + m * tf) := by
    have : ts ≤ (1 + 1 / 2 ^ 53) * ts := by nlinarith
    linarith
  calc fp (10 * fp (ts + fp (m * tf))) ≤ (1 + 1 / 2 ^ 53) * (10 * fp (ts + fp (m * tf))) := h5
    _ ≤ (1 + 1 / 2 ^ 53) * (10 * ((1 + 1 / 2 ^ 53) * (ts + fp (m * tf)))) := by gcongr
    _ ≤ (1 + 1 / 2 ^ 53) * (10 * ((1 + 1 / 2 ^ 53) * ((1 + 1 / 2 ^ 53) * (ts + m * tf)))) := by gcongr
    _ = _ := by ring

theorem TimeFp.total_ge (T : TimeFp fp) {ts tf m : ℚ} (hs : 0 ≤ ts) (hf : 0 ≤ tf) (hm : 0 ≤ m) :
    10 * ((1 - 1 / 2 ^ 53) ^ 3 * (ts + m * tf)) ≤ fp (10 * fp (ts + fp (m * tf))) := by
  have h0 : 0 ≤ m * tf := mul_nonneg hm hf
  have h1 := T.ge h0
  have h2 := T.nonneg h0
  have h3 := T.ge (add_nonneg hs h2)
  have h4 := T.nonneg (add_nonneg hs h2)
  have h5 := T.ge (show 0 ≤ 10 * fp (ts + fp (m * tf)) by positivity)
  have h6 : (1 - 1 / 2 ^ 53) * (ts + m * tf) ≤ ts + fp (m * tf) := by
    have : (1 - 1 / 2 ^ 53) * ts ≤ ts := by nlinarith
    linarith
  have p : (0 : ℚ) ≤ 1 - 1 / 2 ^ 53 := by norm_num
  calc _ = (1 - 1 / 2 ^ 53) * (10 * ((1 - 1 / 2 ^ 53) * ((1 - 1 / 2 ^ 53) * (ts + m * tf)))) := by ring
    _ ≤ (1 - 1 / 2 ^ 53) * (10 * ((1 - 1 / 2 ^ 53) * (ts + fp (m * tf)))) := by gcongr
    _ ≤ (1 - 1 / 2 ^ 53) * (10 * fp (ts + fp (m * tf))) := by gcongr
    _ ≤ _ := h5

/-- The iterations allowed take at most the time given, for positive numbers of them. -/
theorem TimeFp.quot_time (T : TimeFp fp) {t : TuneArgs} {ts tf : ℚ} (ht : 0 ≤ t.tmax) (hs : 0 ≤ ts) (hf : 0 < tf)
    (hq : 0 < timeQuot fp t ts tf) :
    ts + timeQuot fp t ts tf * tf ≤ (1 + 1 / 2 ^ 53) ^ 3 * (t.tmax / 10) := by
  unfold timeQuot at hq ⊢
  set A := fp (t.tmax / 10) with hA
  have a1 : A ≤ (1 + 1 / 2 ^ 53) * (t.tmax / 10) := T.le (by positivity)
  have d0 : 0 < A - ts := by
    by_contra hc
    have h1 : fp (A - ts) ≤ 0 := by simpa [T.zero] using T.mono (not_lt.mp hc)
    have h2 : fp (fp (A - ts) / tf) ≤ 0 := by
      have : fp (A - ts) / tf ≤ 0 := div_nonpos_of_nonpos_of_nonneg h1 hf.le
      simpa [T.zero] using T.mono this
    linarith
  have d1 := T.le d0.le
  have q1 := T.le (show 0 ≤ fp (A - ts) / tf from div_nonneg (T.nonneg d0.le) hf.le)
  have q2 : fp (fp (A - ts) / tf) * tf ≤ (1 + 1 / 2 ^ 53) * fp (A - ts) := by
    calc _ ≤ ((1 + 1 / 2 ^ 53) * (fp (A - ts) / tf)) * tf := by gcongr
      _ = _ := by field_simp
  have q3 : fp (fp (A - ts) / tf) * tf ≤ (1 + 1 / 2 ^ 53) ^ 2 * (A - ts) := by
    calc _ ≤ (1 + 1 / 2 ^ 53) * fp (A - ts) := q2
      _ ≤ (1 + 1 / 2 ^ 53) * ((1 + 1 / 2 ^ 53) * (A - ts)) := by gcongr
      _ = _ := by ring
  calc ts + fp (fp (A - ts) / tf) * tf ≤ ts + (1 + 1 / 2 ^ 53) ^ 2 * (A - ts) := by linarith
    _ ≤ (1 + 1 / 2 ^ 53) ^ 2 * A := by nlinarith
    _ ≤ (1 + 1 / 2 ^ 53) ^ 2 * ((1 + 1 / 2 ^ 53) * (t.tmax / 10)) := by gcongr
    _ = _ := by ring

/-- If the time given is less than that of `m` FFTs per trial, hardly more than `m` iterations are allowed. -/
theorem TimeFp.quot_lt (T : TimeFp fp) {t : TuneArgs} {ts tf m : ℚ} (hs : 0 ≤ ts) (hf : 0 < tf)
    (hr : ts ≤ intMax * tf) (hm : 0 ≤ m) (hm2 : m ≤ intMax) (h0 : 0 ≤ t.tmax)
    (ht : t.tmax < fp (10 * fp (ts + fp (m * tf)))) : timeQuot fp t ts tf < m + 1 / 8 := by
  have hM : (intMax : ℚ) = 2147483647 := by norm_num [intMax]
  rw [hM] at hr hm2
  have ht2 := ht.le.trans (T.total_le hs hf.le hm)
  unfold timeQuot
  set A := fp (t.tmax / 10) with hA
  have a1 : A ≤ (1 + 1 / 2 ^ 53) ^ 4 * (ts + m * tf) := by
    calc A ≤ (1 + 1 / 2 ^ 53) * (t.tmax / 10) := T.le (by positivity)
      _ ≤ (1 + 1 / 2 ^ 53) * ((1 + 1 / 2 ^ 53) ^ 3 * (ts + m * tf)) := by
        have : t.tmax / 10 ≤ (1 + 1 / 2 ^ 53) ^ 3 * (ts + m * tf) := by linarith
        gcongr
      _ = _ := by ring
  set w : ℚ := (1 + 1 / 2 ^ 53) ^ 4 - 1 with hw
  have w0 : 0 ≤ w := by rw [hw]; norm_num
  have a2 : A - ts ≤ ((1 + w) * m + w * 2147483647) * tf := by
    have : A ≤ (1 + w) * (ts + m * tf) := by rw [hw]; linarith
    have h2 : w * ts ≤ w * (2147483647 * tf) := by gcongr
    linarith
  have y0 : 0 ≤ ((1 + w) * m + w * 2147483647) * tf := by positivity
  have d := T.le_max y0 a2
  have q : fp (A - ts) / tf ≤ (1 + 1 / 2 ^ 53) * ((1 + w) * m + w * 2147483647) := by
    rw [div_le_iff₀ hf]
    linarith
  have q2 := T.le_max (show 0 ≤ (1 + 1 / 2 ^ 53) * ((1 + w) * m + w * 2147483647) by positivity) q
  have e : (1 + 1 / 2 ^ 53) * ((1 + 1 / 2 ^ 53) * ((1 + w) * m + w * 2147483647)) =
      m + (((1 + 1 / 2 ^ 53) ^ 2 * (1 + w) - 1) * m + (1 + 1 / 2 ^ 53) ^ 2 * w * 2147483647) := by ring
  rw [e] at q2
  have w2 : (1 + 1 / 2 ^ 53) ^ 2 * (1 + w) - 1 ≤ 1 / 2 ^ 40 := by rw [hw]; norm_num
  have w3 : (1 + 1 / 2 ^ 53) ^ 2 * w ≤ 1 / 2 ^ 40 := by rw [hw]; norm_num
  have w4 : ((1 + 1 / 2 ^ 53) ^ 2 * (1 + w) - 1) * m ≤ 1 / 2 ^ 40 * 2147483647 :=
    mul_le_mul w2 hm2 hm (by norm_num)
  have w5 : (1 + 1 / 2 ^ 53) ^ 2 * w * 2147483647 ≤ 1 / 2 ^ 40 * 2147483647 := by gcongr
  have w6 : (1 : ℚ) / 2 ^ 40 * 2147483647 + 1 / 2 ^ 40 * 2147483647 < 1 / 8 := by norm_num
  linarith

theorem TimeFp.quot_ge (T : TimeFp fp) {t : TuneArgs} {ts tf : ℚ} (hs : 0 ≤ ts) (hf : 0 < tf)
    (hr : ts ≤ intMax * tf) (h0 : 0 ≤ t.tmax) : -((intMax : ℚ) + 1 / 8) ≤ timeQuot fp t ts tf := by
  unfold timeQuot
  have a0 : 0 ≤ fp (t.tmax / 10) := T.nonneg (by positivity)
  have d := T.ge_neg hs (show -ts ≤ fp (t.tmax / 10) - ts by linarith)
  have y0 : (0 : ℚ) ≤ (1 + 1 / 2 ^ 53) * intMax := mul_nonneg (by norm_num) (by norm_num [intMax])
  have q : -((1 + 1 / 2 ^ 53) * (intMax : ℚ)) ≤ fp (fp (t.tmax / 10) - ts) / tf := by
    rw [le_div_iff₀ hf]
    have : (1 + 1 / 2 ^ 53) * ts ≤ (1 + 1 / 2 ^ 53) * (intMax * tf) := by gcongr
    linarith
  refine le_trans ?_ (T.ge_neg y0 q)
  norm_num [intMax]

/-- If not even one iteration fits, the time given is hardly more than that of ten times a `setup` and an FFT. -/
theorem TimeFp.quot_small (T : TimeFp fp) {t : TuneArgs} {ts tf : ℚ} (hs : 0 ≤ ts) (hf : 0 < tf) (h0 : 0 ≤ t.tmax)
    (hq : timeQuot fp t ts tf < 1) : (1 - 1 / 2 ^ 53) ^ 2 * t.tmax ≤ 10 * (ts + tf) := by
  unfold timeQuot at hq
  have q1 := T.lt_one hq
  rw [div_lt_one hf] at q1
  have a1 := T.ge (show 0 ≤ t.tmax / 10 by positivity)
  set A := fp (t.tmax / 10)
  have p : (0 : ℚ) ≤ 1 - 1 / 2 ^ 53 := by norm_num
  have d1 : (1 - 1 / 2 ^ 53) * A ≤ ts + tf := by
    by_cases hd : 0 ≤ A - ts
    · have := T.ge hd
      nlinarith
    · have : (1 - 1 / 2 ^ 53) * A ≤ (1 - 1 / 2 ^ 53) * ts := mul_le_mul_of_nonneg_left (by linarith) p
      nlinarith
  have := mul_le_mul_of_nonneg_left a1 p
  nlinarith

/-- The number of trials for a given time. -/
theorem TimeFp.runs_le (T : TimeFp fp) {tmax ts tf : ℚ} (h0 : 0 ≤ tmax) (hpos : 0 < ts + tf) :
    fp (tmax / fp (ts + tf)) * (ts + tf) ≤ (1 + 1 / 2 ^ 51) * tmax := by
  have p := T.pos hpos
  have g := T.ge hpos.le
  have h1 := T.le (show 0 ≤ tmax / fp (ts + tf) by positivity)
  calc _ ≤ ((1 + 1 / 2 ^ 53) * (tmax / fp (ts + tf))) * (ts + tf) := by gcongr
    _ = (1 + 1 / 2 ^ 53) * tmax * ((ts + tf) / fp (ts + tf)) := by ring
    _ ≤ (1 + 1 / 2 ^ 53) * tmax * (1 + 1 / 2 ^ 52) := by
      have : (ts + tf) / fp (ts + tf) ≤ 1 + 1 / 2 ^ 52 := by
        rw [div_le_iff₀ p]
        have : (1 + 1 / 2 ^ 52) * ((1 - 1 / 2 ^ 53) * (ts + tf)) ≤ (1 + 1 / 2 ^ 52) * fp (ts + tf) := by gcongr
        refine le_trans ?_ this
        have : (1 : ℚ) ≤ (1 + 1 / 2 ^ 52) * (1 - 1 / 2 ^ 53) := by norm_num
        nlinarith
      gcongr
    _ ≤ _ := by
      have : (1 + 1 / 2 ^ 53) * (1 + 1 / 2 ^ 52) ≤ (1 + 1 / 2 ^ 51 : ℚ) := by norm_num
      nlinarith

/-- The reported time of one FFT is the measured time divided by the number of FFTs, up to rounding errors. -/
theorem TimeFp.scale_near (T : TimeFp fp) (x : ℚ) (flag niter : Int) (hn : 0 < niter) :
    |fp (x * tuneScale fp flag niter) - x / ((if flag = 0 then 2 else 1) * niter)| ≤
      |x / ((if flag = 0 then 2 else 1) * niter)| / 2 ^ 50 := by
  have hn' : (0 : ℚ) < niter := by exact_mod_cast hn
  set c : ℚ := (if flag = 0 then 2 else 1) * niter with hc
  have c0 : 0 < c := by rw [hc]; split_ifs <;> positivity
  have hs : |tuneScale fp flag niter - 1 / c| ≤ 1 / c * (3 / 2 ^ 53) := by
    unfold tuneScale
    have i0 : (0 : ℚ) ≤ 1 / niter := by positivity
    have l1 := T.le i0
    have g1 := T.ge i0
    have n1 := T.nonneg i0
    by_cases hf : flag = 0
    · rw [if_pos hf]
      rw [if_pos hf] at hc
      have l2 := T.le (show 0 ≤ fp (1 / niter) * (1 / 2) by positivity)
      have g2 := T.ge (show 0 ≤ fp (1 / niter) * (1 / 2) by positivity)
      have e : 1 / c = 1 / niter * (1 / 2) := by rw [hc]; field_simp
      rw [e, abs_le]
      generalize (1 : ℚ) / niter = y at *
      constructor
      · have : (1 - 1 / 2 ^ 53) * ((1 - 1 / 2 ^ 53) * y * (1 / 2)) ≤
            (1 - 1 / 2 ^ 53) * (fp y * (1 / 2)) :=
          mul_le_mul_of_nonneg_left (mul_le_mul_of_nonneg_right g1 (by norm_num)) (by norm_num)
        linarith
      · have : (1 + 1 / 2 ^ 53) * (fp y * (1 / 2)) ≤
            (1 + 1 / 2 ^ 53) * ((1 + 1 / 2 ^ 53) * y * (1 / 2)) :=
          mul_le_mul_of_nonneg_left (mul_le_mul_of_nonneg_right l1 (by norm_num)) (by norm_num)
        linarith
    · rw [if_neg hf]
      rw [if_neg hf, one_mul] at hc
      rw [hc, abs_le]
      generalize (1 : ℚ) / niter = y at *
      constructor <;> linarith
  have r := T.rel (x * tuneScale fp flag niter)
  have e : |x * tuneScale fp flag niter - x / c| ≤ |x / c| * (3 / 2 ^ 53) := by
    rw [show x * tuneScale fp flag niter - x / c = x * (tuneScale fp flag niter - 1 / c) by ring, abs_mul,
      show |x / c| * (3 / 2 ^ 53) = |x| * (1 / c * (3 / 2 ^ 53)) by rw [abs_div, abs_of_pos c0]; ring]
    gcongr
  have e2 : |x * tuneScale fp flag niter| ≤ |x / c| * (1 + 3 / 2 ^ 53) := by
    have := abs_sub_abs_le_abs_sub (x * tuneScale fp flag niter) (x / c)
    linarith
  have e3 := abs_sub_le (fp (x * tuneScale fp flag niter)) (x * tuneScale fp flag niter) (x / c)
  have a0 := abs_nonneg (x / c)
  linarith

end FftMpi
