import Verif.DriverGrid
import Verif.PropsRepro

/-!
# Rounding to 53 digits is a rounding in the sense of `Driver`; error of the computed surface
-/

noncomputable section

namespace FftMpi

namespace Driver

theorem round_mono' {x y : ℝ} (h : x ≤ y) : round x ≤ round y := by
  rw [round_eq, round_eq]
  exact Int.floor_mono (by linarith)

theorem log_bounds {x : ℝ} (hx : 0 < x) : (2 : ℝ) ^ Int.log 2 x ≤ x ∧ x < (2 : ℝ) ^ (Int.log 2 x + 1) := by
  constructor
  · have := Int.zpow_log_le_self (b := 2) (r := x) (by decide) hx
    simpa using this
  · have := Int.lt_zpow_succ_log_self (b := 2) (by decide) x
    simpa using this

/-- The exponent decides the range of the rounded number. -/
theorem rnd53_range {x : ℝ} (hx : 0 < x) :
    (2 : ℝ) ^ Int.log 2 x ≤ rnd53 x ∧ rnd53 x ≤ (2 : ℝ) ^ (Int.log 2 x + 1) := by
  obtain ⟨h1, h2⟩ := log_bounds hx
  unfold rnd53
  rw [abs_of_pos hx]
  set e := Int.log 2 x with he
  have hu : (0 : ℝ) < (2 : ℝ) ^ (e - 52) := by positivity
  have p1 : (2 : ℝ) ^ e = ((2 ^ 52 : Int) : ℝ) * (2 : ℝ) ^ (e - 52) := by
    rw [zpow_sub₀ (by norm_num)]; push_cast; field_simp; norm_num
  have p2 : (2 : ℝ) ^ (e + 1) = ((2 ^ 53 : Int) : ℝ) * (2 : ℝ) ^ (e - 52) := by
    rw [zpow_sub₀ (by norm_num), zpow_add₀ (by norm_num)]; push_cast; field_simp; norm_num
  constructor
  · rw [p1]
    apply mul_le_mul_of_nonneg_right _ hu.le
    have : (2 ^ 52 : Int) ≤ round (x / (2 : ℝ) ^ (e - 52)) := by
      rw [← round_intCast (α := ℝ) (2 ^ 52 : Int)]
      apply round_mono'
      rw [le_div_iff₀ hu, ← p1]
      exact h1
    exact_mod_cast this
  · rw [p2]
    apply mul_le_mul_of_nonneg_right _ hu.le
    have : round (x / (2 : ℝ) ^ (e - 52)) ≤ (2 ^ 53 : Int) := by
      rw [← round_intCast (α := ℝ) (2 ^ 53 : Int)]
      apply round_mono'
      rw [div_le_iff₀ hu, ← p2]
      exact h2.le
    exact_mod_cast this

theorem rnd53_range_neg {x : ℝ} (hx : x < 0) :
    -(2 : ℝ) ^ (Int.log 2 (-x) + 1) ≤ rnd53 x ∧ rnd53 x ≤ -(2 : ℝ) ^ Int.log 2 (-x) := by
  obtain ⟨h1, h2⟩ := log_bounds (neg_pos.mpr hx)
  unfold rnd53
  rw [abs_of_neg hx]
  set e := Int.log 2 (-x) with he
  have hu : (0 : ℝ) < (2 : ℝ) ^ (e - 52) := by positivity
  have p1 : -(2 : ℝ) ^ e = ((-2 ^ 52 : Int) : ℝ) * (2 : ℝ) ^ (e - 52) := by
    rw [zpow_sub₀ (by norm_num)]; push_cast; field_simp; norm_num
  have p2 : -(2 : ℝ) ^ (e + 1) = ((-2 ^ 53 : Int) : ℝ) * (2 : ℝ) ^ (e - 52) := by
    rw [zpow_sub₀ (by norm_num), zpow_add₀ (by norm_num)]; push_cast; field_simp; norm_num
  constructor
  · rw [p2]
    apply mul_le_mul_of_nonneg_right _ hu.le
    have : (-2 ^ 53 : Int) ≤ round (x / (2 : ℝ) ^ (e - 52)) := by
      rw [← round_intCast (α := ℝ) (-2 ^ 53 : Int)]
      apply round_mono'
      rw [le_div_iff₀ hu, ← p2]
      linarith
    exact_mod_cast this
  · rw [p1]
    apply mul_le_mul_of_nonneg_right _ hu.le
    have : round (x / (2 : ℝ) ^ (e - 52)) ≤ (-2 ^ 52 : Int) := by
      rw [← round_intCast (α := ℝ) (-2 ^ 52 : Int)]
      apply round_mono'
      rw [div_le_iff₀ hu, ← p1]
      linarith
    exact_mod_cast this

theorem rnd53_same_log {x y : ℝ} (h : x ≤ y) (hl : Int.log 2 |x| = Int.log 2 |y|) : rnd53 x ≤ rnd53 y := by
  unfold rnd53
  rw [hl]
  set u : ℝ := (2 : ℝ) ^ (Int.log 2 |y| - 52)
  have hu : 0 < u := by positivity
  apply mul_le_mul_of_nonneg_right _ hu.le
  have : round (x / u) ≤ round (y / u) := round_mono' (div_le_div_of_nonneg_right h hu.le)
  exact_mod_cast this

theorem rnd53_mono : Monotone rnd53 := by
  intro x y h
  rcases lt_trichotomy x 0 with hx | hx | hx
  · rcases lt_trichotomy y 0 with hy | hy | hy
    · by_cases hl : Int.log 2 |x| = Int.log 2 |y|
      · exact rnd53_same_log h hl
      · rw [abs_of_neg hx, abs_of_neg hy] at hl
        have hm : Int.log 2 (-y) ≤ Int.log 2 (-x) := Int.log_mono_right (by linarith) (by linarith)
        have hlt : Int.log 2 (-y) + 1 ≤ Int.log 2 (-x) := by omega
        have h1 := (rnd53_range_neg hx).2
        have h2 := (rnd53_range_neg hy).1
        have h3 : (2 : ℝ) ^ (Int.log 2 (-y) + 1) ≤ (2 : ℝ) ^ Int.log 2 (-x) := zpow_le_zpow_right₀ (by norm_num) hlt
        linarith
    · subst hy
      rw [rnd53_zero]
      have h1 := (rnd53_range_neg hx).2
      have : (0 : ℝ) < (2 : ℝ) ^ Int.log 2 (-x) := by positivity
      linarith
    · have h1 := (rnd53_range_neg hx).2
      have h2 := (rnd53_range hy).1
      have : (0 : ℝ) < (2 : ℝ) ^ Int.log 2 (-x) := by positivity
      have : (0 : ℝ) < (2 : ℝ) ^ Int.log 2 y := by positivity
      linarith
  · subst hx
    rw [rnd53_zero]
    rcases h.eq_or_lt with hy | hy
    · rw [← hy, rnd53_zero]
    · have h2 := (rnd53_range hy).1
      have : (0 : ℝ) < (2 : ℝ) ^ Int.log 2 y := by positivity
      linarith
  · have hy : 0 < y := lt_of_lt_of_le hx h
    by_cases hl : Int.log 2 |x| = Int.log 2 |y|
    · exact rnd53_same_log h hl
    · rw [abs_of_pos hx, abs_of_pos hy] at hl
      have hm : Int.log 2 x ≤ Int.log 2 y := Int.log_mono_right hx h
      have hlt : Int.log 2 x + 1 ≤ Int.log 2 y := by omega
      have h1 := (rnd53_range hx).2
      have h2 := (rnd53_range hy).1
      have h3 : (2 : ℝ) ^ (Int.log 2 x + 1) ≤ (2 : ℝ) ^ Int.log 2 y := zpow_le_zpow_right₀ (by norm_num) hlt
      linarith

theorem rnd53_int {n : Int} (h : |n| ≤ 2 ^ 53) : rnd53 n = n := by
  by_cases h0 : n = 0
  · subst h0; simpa using rnd53_zero
  have hp : (0 : ℝ) < |(n : ℝ)| := abs_pos.mpr (by exact_mod_cast h0)
  obtain ⟨h1, h2⟩ := log_bounds hp
  have hz : ∃ z : Int, (n : ℝ) / (2 : ℝ) ^ (Int.log 2 |(n : ℝ)| - 52) = z := by
    by_cases he : Int.log 2 |(n : ℝ)| ≤ 52
    · refine ⟨n * 2 ^ (52 - Int.log 2 |(n : ℝ)|).toNat, ?_⟩
      have hpow : (2 : ℝ) ^ (52 - Int.log 2 |(n : ℝ)|).toNat = (2 : ℝ) ^ (52 - Int.log 2 |(n : ℝ)|) := by
        rw [← zpow_natCast, Int.toNat_of_nonneg (by omega)]
      push_cast
      rw [hpow, div_eq_mul_inv, ← zpow_neg]
      congr 2
      ring
    · have h3 : (2 : ℝ) ^ (53 : Int) ≤ |(n : ℝ)| :=
        le_trans (zpow_le_zpow_right₀ (by norm_num) (by omega)) h1
      have h4 : |(n : ℝ)| ≤ 2 ^ 53 := by exact_mod_cast h
      have h5 : |(n : ℝ)| = (2 : ℝ) ^ (53 : Int) := le_antisymm (by rw [← zpow_natCast] at h4; exact h4) h3
      have h6 : |n| = 2 ^ 53 := by
        have : (|n| : ℝ) = ((2 ^ 53 : Int) : ℝ) := by rw [h5]; norm_num
        exact_mod_cast this
      have hl : Int.log 2 |(n : ℝ)| = 53 := by
        rw [h5]
        have := Int.log_zpow (R := ℝ) (b := 2) (by decide) 53
        simpa using this
      rw [hl]
      rcases abs_eq (a := n) (b := 2 ^ 53) (by positivity) |>.mp h6 with h7 | h7
      · exact ⟨2 ^ 52, by rw [h7]; norm_num⟩
      · exact ⟨-2 ^ 52, by rw [h7]; norm_num⟩
  obtain ⟨z, hz⟩ := hz
  unfold rnd53
  rw [hz, round_intCast, ← hz]
  have : (2 : ℝ) ^ (Int.log 2 |(n : ℝ)| - 52) ≠ 0 := by positivity
  field_simp

/-- Rounding to 53 binary digits. -/
theorem rounding53 : Rounding rnd53 where
  mono := rnd53_mono
  int _ h := rnd53_int h
  rel x h0 _ := by
    have := rnd53_err x
    have hx : 0 ≤ x := le_trans (by positivity) h0
    rw [abs_of_nonneg hx] at this
    calc _ ≤ 1 / 2 ^ 53 * x := this
      _ = _ := by ring

/-- Exact arithmetic. -/
theorem roundingExact : Rounding id where
  mono := monotone_id
  int _ _ := rfl
  rel x h0 _ := by
    have hx : 0 ≤ x := le_trans (by positivity) h0
    simp only [id, sub_self, abs_zero]
    positivity

/-! ## Error of the computed surface -/

theorem ratio_range {n q : Nat} (hn : 0 < n) (hq : 0 < q) (bn : n < 2 ^ 31) (bq : q < 2 ^ 31) :
    1 / 2 ^ 31 ≤ (n : ℝ) / q ∧ (n : ℝ) / q ≤ 2 ^ 31 := by
  have hq' : (0 : ℝ) < q := by exact_mod_cast hq
  constructor
  · apply div_le_div₀ (Nat.cast_nonneg n) (by exact_mod_cast hn) hq'
    exact_mod_cast bq.le
  · exact (div_le_nat n q).trans (by exact_mod_cast bn.le)

theorem prod_range {x y : ℝ} (hx : 1 / 2 ^ 31 ≤ x ∧ x ≤ 2 ^ 31) (hy : 1 / 2 ^ 31 ≤ y ∧ y ≤ 2 ^ 31) :
    1 / 2 ^ 62 ≤ x * y ∧ x * y ≤ 2 ^ 62 := by
  have x0 : (0 : ℝ) ≤ x := le_trans (by positivity) hx.1
  have y0 : (0 : ℝ) ≤ y := le_trans (by positivity) hy.1
  constructor
  · calc (1 / 2 ^ 62 : ℝ) = 1 / 2 ^ 31 * (1 / 2 ^ 31) := by norm_num
      _ ≤ x * y := by gcongr <;> first | exact hx.1 | exact hy.1
  · calc x * y ≤ 2 ^ 31 * 2 ^ 31 := by gcongr <;> first | exact hx.2 | exact hy.2
      _ = 2 ^ 62 := by norm_num

/-- The exact surface of a box (half of it), and circumference in two dimensions. -/
def area3 (nx ny nz : Nat) (c : Nat × Nat × Nat) : ℝ :=
  (nx : ℝ) / c.1 * (ny / c.2.1) + (ny : ℝ) / c.2.1 * (nz / c.2.2) + (nz : ℝ) / c.2.2 * (nx / c.1)

def edge2 (nx ny : Nat) (c : Nat × Nat) : ℝ := (nx : ℝ) / c.1 + (ny : ℝ) / c.2

theorem surf3_near {rnd : ℝ → ℝ} (R : Rounding rnd) {nx ny nz : Nat} {c : Nat × Nat × Nat}
    (hx : 0 < nx) (hy : 0 < ny) (hz : 0 < nz) (bx : nx < 2 ^ 31) (by' : ny < 2 ^ 31) (bz : nz < 2 ^ 31)
    (c1 : 0 < c.1 ∧ c.1 < 2 ^ 31) (c2 : 0 < c.2.1 ∧ c.2.1 < 2 ^ 31) (c3 : 0 < c.2.2 ∧ c.2.2 < 2 ^ 31) :
    NearR 5 (area3 nx ny nz c) (surf3 rnd nx ny nz c) := by
  have rx := ratio_range hx c1.1 bx c1.2
  have ry := ratio_range hy c2.1 by' c2.2
  have rz := ratio_range hz c3.1 bz c3.2
  unfold surf3 area3
  simp only
  set x : ℝ := (nx : ℝ) / c.1
  set y : ℝ := (ny : ℝ) / c.2.1
  set z : ℝ := (nz : ℝ) / c.2.2
  have x0 : 0 ≤ x := le_trans (by positivity) rx.1
  have y0 : 0 ≤ y := le_trans (by positivity) ry.1
  have z0 : 0 ≤ z := le_trans (by positivity) rz.1
  have w : ∀ {t : ℝ}, 1 / 2 ^ 31 ≤ t ∧ t ≤ 2 ^ 31 → 1 / 2 ^ 90 ≤ t ∧ t ≤ 2 ^ 90 := fun h =>
    ⟨le_trans (by norm_num) h.1, le_trans h.2 (by norm_num)⟩
  have nx1 := (NearR.refl x).rnd R.rel (by omega) (w rx).1 (w rx).2
  have ny1 := (NearR.refl y).rnd R.rel (by omega) (w ry).1 (w ry).2
  have nz1 := (NearR.refl z).rnd R.rel (by omega) (w rz).1 (w rz).2
  have pxy := prod_range rx ry
  have pyz := prod_range ry rz
  have pzx := prod_range rz rx
  have v : ∀ {t : ℝ}, 1 / 2 ^ 62 ≤ t ∧ t ≤ 2 ^ 62 → 1 / 2 ^ 90 ≤ t ∧ t ≤ 2 ^ 90 := fun h =>
    ⟨le_trans (by norm_num) h.1, le_trans h.2 (by norm_num)⟩
  have m1 := (nx1.mul x0 y0 ny1).rnd R.rel (by omega) (v pxy).1 (v pxy).2
  have m2 := (ny1.mul y0 z0 nz1).rnd R.rel (by omega) (v pyz).1 (v pyz).2
  have m3 := (nz1.mul z0 x0 nx1).rnd R.rel (by omega) (v pzx).1 (v pzx).2
  have q0 : (0 : ℝ) ≤ 1 / 2 ^ 62 := by positivity
  have s1 := (m1.add m2).rnd R.rel (by omega) (le_trans (by norm_num) (le_add_of_le_of_nonneg pxy.1 (q0.trans pyz.1)))
    (le_trans (add_le_add pxy.2 pyz.2) (by norm_num))
  have s2 := (s1.add (m3.mono (by omega) (q0.trans pzx.1))).rnd R.rel (by omega)
    (le_trans (by norm_num) (le_add_of_le_of_nonneg
      (le_add_of_le_of_nonneg pxy.1 (q0.trans pyz.1)) (q0.trans pzx.1)))
    (le_trans (add_le_add (add_le_add pxy.2 pyz.2) pzx.2) (by norm_num))
  exact s2

theorem surf2_near {rnd : ℝ → ℝ} (R : Rounding rnd) {nx ny : Nat} {c : Nat × Nat}
    (hx : 0 < nx) (hy : 0 < ny) (bx : nx < 2 ^ 31) (by' : ny < 2 ^ 31)
    (c1 : 0 < c.1 ∧ c.1 < 2 ^ 31) (c2 : 0 < c.2 ∧ c.2 < 2 ^ 31) :
    NearR 2 (edge2 nx ny c) (surf2 rnd nx ny c) := by
  have rx := ratio_range hx c1.1 bx c1.2
  have ry := ratio_range hy c2.1 by' c2.2
  unfold surf2 edge2
  simp only
  set x : ℝ := (nx : ℝ) / c.1
  set y : ℝ := (ny : ℝ) / c.2
  have y0 : 0 ≤ y := le_trans (by positivity) ry.1
  have nx1 := (NearR.refl x).rnd R.rel (by omega) (le_trans (by norm_num) rx.1) (le_trans rx.2 (by norm_num))
  have ny1 := (NearR.refl y).rnd R.rel (by omega) (le_trans (by norm_num) ry.1) (le_trans ry.2 (by norm_num))
  exact (nx1.add ny1).rnd R.rel (by omega) (le_trans (by norm_num) (le_add_of_le_of_nonneg rx.1 y0))
    (le_trans (add_le_add rx.2 ry.2) (by norm_num))

end Driver

end FftMpi
