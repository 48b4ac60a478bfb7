import Verif.SimpleLemmas
import Verif.DriverRound

/-!
# Bricks in single precision, as in simple_f90.f90
-/

noncomputable section

namespace FftMpi

namespace Simple

/-- What is assumed of single precision: rounding is monotone, integers of up to 24 bits are exact, and numbers of
moderate size have a relative error of at most `2^-24`. -/
structure Single (rnd : ℝ → ℝ) : Prop where
  mono : Monotone rnd
  int : ∀ n : Int, |n| ≤ 2 ^ 24 → rnd n = n
  rel : ∀ x : ℝ, 1 / 2 ^ 50 ≤ x → x ≤ 2 ^ 50 → |rnd x - x| ≤ x / 2 ^ 24

variable {rnd : ℝ → ℝ}

theorem Single.nat (R : Single rnd) {n : Nat} (h : n ≤ 2 ^ 24) : rnd n = n := by
  have := R.int n (by rw [abs_of_nonneg (by omega)]; exact_mod_cast h)
  simpa using this

/-- Quotient of two integers. -/
theorem Single.quot (R : Single rnd) {a b : Nat} (hb : 0 < b) (h : a ≤ 2 ^ 24) (hb' : b ≤ 2 ^ 24) :
    ((a / b : Nat) : ℝ) ≤ rnd ((a : ℝ) / b) ∧ rnd ((a : ℝ) / b) ≤ (a : ℝ) / b * (1 + 1 / 2 ^ 24) := by
  have hbr : (0 : ℝ) < b := by exact_mod_cast hb
  constructor
  · have h1 := R.mono (Nat.cast_div_le (α := ℝ) (m := a) (n := b))
    rwa [R.nat (n := a / b) (by have := Nat.div_le_self a b; omega)] at h1
  · rcases Nat.eq_zero_or_pos a with h0 | h0
    · subst h0
      have := R.nat (n := 0) (by norm_num)
      simp only [Nat.cast_zero] at this
      simp [this]
    · have c1 : (1 : ℝ) ≤ a := by exact_mod_cast h0
      have c2 : (b : ℝ) ≤ 2 ^ 24 := by exact_mod_cast hb'
      have c3 : (a : ℝ) ≤ 2 ^ 24 := by exact_mod_cast h
      have c4 : (1 : ℝ) ≤ b := by exact_mod_cast hb
      have hr := (abs_le.mp (R.rel ((a : ℝ) / b)
        (div_le_div₀ (by positivity) c1 hbr (c2.trans (by norm_num)))
        (by rw [div_le_iff₀ hbr]; nlinarith))).2
      linarith

theorem floor_of {x : ℝ} {q : Nat} (h0 : (q : ℝ) ≤ x) (h1 : x < q + 1) : ⌊x⌋ = (q : Int) := by
  rw [Int.floor_eq_iff]
  exact ⟨by exact_mod_cast h0, by exact_mod_cast h1⟩

/-- The quotient stays below the next integer, with some room. -/
theorem quot_room {a b n : Nat} (hb : 0 < b) (hn : 2 ≤ n) (ha : a ≤ b * n) (h : 4 * (b * n) ≤ 2 ^ 24) :
    ((a : ℝ) / b * (1 + 1 / 2 ^ 24) + 1) * (1 + 1 / 2 ^ 24) < (a / b : Nat) + 2 := by
  have hbr : (0 : ℝ) < b := by exact_mod_cast hb
  set q := a / b with hq
  have h1 : a + 1 ≤ b * (q + 1) := by
    have := Nat.lt_mul_div_succ a hb
    rw [← hq] at this
    omega
  have hqn : q ≤ n := by
    rw [hq]
    exact Nat.div_le_of_le_mul ha
  have h1' : (a : ℝ) + 1 ≤ b * (q + 1) := by exact_mod_cast h1
  have hx : (a : ℝ) / b ≤ (q + 1) - 1 / b := by
    rw [le_sub_iff_add_le, ← add_div, div_le_iff₀ hbr]
    linarith
  have hbn : (4 : ℝ) * (b * n) ≤ 2 ^ 24 := by exact_mod_cast h
  have hn' : (2 : ℝ) ≤ n := by exact_mod_cast hn
  have hq' : (q : ℝ) ≤ n := by exact_mod_cast hqn
  have hq0 : (0 : ℝ) ≤ q := Nat.cast_nonneg q
  have hi : 4 * (n : ℝ) / 2 ^ 24 ≤ 1 / b := by
    rw [div_le_div_iff₀ (by positivity) hbr]
    linarith
  have hi1 : (1 : ℝ) / b ≤ 1 := by
    rw [div_le_one hbr]
    exact_mod_cast hb
  set y := (a : ℝ) / b
  set t := (1 : ℝ) / b
  have e1 : (y * (1 + 1 / 2 ^ 24) + 1) * (1 + 1 / 2 ^ 24) ≤
      (((q + 1) - t) * (1 + 1 / 2 ^ 24) + 1) * (1 + 1 / 2 ^ 24) := by gcongr
  refine lt_of_le_of_lt e1 ?_
  norm_num at hi ⊢
  nlinarith

theorem loF_eq (R : Single rnd) {ip n np : Nat} (hip : ip < np) (hn : 2 ≤ n) (h : 4 * (np * n) ≤ 2 ^ 24) :
    loF rnd ip n np = blockLo ip n np + 1 := by
  have hp : 0 < np := by omega
  have h1 : ip * n ≤ np * n := Nat.mul_le_mul_right n hip.le
  have h2 : np ≤ np * n := Nat.le_mul_of_pos_right np (by omega)
  have h3 : n ≤ np * n := Nat.le_mul_of_pos_left n hp
  have h4 : ip * n / np ≤ n := Nat.div_le_of_le_mul h1
  obtain ⟨k1, k2⟩ := R.quot (a := ip * n) hp (by omega) (by omega)
  have k3 := quot_room hp hn h1 h
  unfold loF blockLo
  rw [R.nat (n := ip) (by omega), R.nat (n := n) (by omega), R.nat (n := np) (by omega), ← Nat.cast_mul,
    R.nat (n := ip * n) (by omega)]
  set x := rnd (((ip * n : Nat) : ℝ) / np) with hx
  have hx0 : (0 : ℝ) ≤ ((ip * n / np : Nat) : ℝ) := Nat.cast_nonneg _
  have hxn : x ≤ 2 ^ 24 := by
    have : ((ip * n : Nat) : ℝ) / np ≤ n := by
      rw [div_le_iff₀ (by exact_mod_cast hp)]
      have : ((ip * n : Nat) : ℝ) ≤ ((np * n : Nat) : ℝ) := by exact_mod_cast h1
      push_cast at this ⊢
      linarith
    have hn24 : (n : ℝ) ≤ 2 ^ 22 := by
      have : 4 * n ≤ 2 ^ 24 := by omega
      have : (4 : ℝ) * n ≤ 2 ^ 24 := by exact_mod_cast this
      norm_num at this ⊢
      linarith
    have : ((ip * n : Nat) : ℝ) / np * (1 + 1 / 2 ^ 24) ≤ 2 ^ 22 * (1 + 1 / 2 ^ 24) := by
      apply mul_le_mul_of_nonneg_right (by linarith) (by positivity)
    norm_num at this k2 ⊢
    linarith
  rw [show ((ip * n / np : Nat) : Int) + 1 = ((ip * n / np + 1 : Nat) : Int) by push_cast; ring]
  apply floor_of
  · rw [← R.nat (n := ip * n / np + 1) (by omega)]
    apply R.mono
    push_cast at k1 ⊢
    linarith
  · have hr := (abs_le.mp (R.rel (x + 1) (by
      have : (1 : ℝ) / 2 ^ 50 ≤ 1 := by norm_num
      linarith) (by
      have : (2 : ℝ) ^ 24 + 1 ≤ 2 ^ 50 := by norm_num
      linarith))).2
    have e2 : (x + 1) * (1 + 1 / 2 ^ 24) ≤ (((ip * n : Nat) : ℝ) / np * (1 + 1 / 2 ^ 24) + 1) * (1 + 1 / 2 ^ 24) := by
      gcongr
    have e3 : rnd (x + 1) ≤ (x + 1) * (1 + 1 / 2 ^ 24) := by linarith
    have e4 := lt_of_le_of_lt (e3.trans e2) k3
    push_cast at e4 ⊢
    linarith

theorem hiF_eq (R : Single rnd) {ip n np : Nat} (hip : ip < np) (hn : 2 ≤ n) (h : 4 * (np * n) ≤ 2 ^ 24) :
    hiF rnd ip n np = blockHi ip n np + 1 := by
  have hp : 0 < np := by omega
  have h1 : (ip + 1) * n ≤ np * n := Nat.mul_le_mul_right n hip
  have h2 : np ≤ np * n := Nat.le_mul_of_pos_right np (by omega)
  have h3 : n ≤ np * n := Nat.le_mul_of_pos_left n hp
  obtain ⟨k1, k2⟩ := R.quot (a := (ip + 1) * n) hp (by omega) (by omega)
  have k3 := quot_room hp hn h1 h
  unfold hiF blockHi
  rw [R.nat (n := ip + 1) (by omega), R.nat (n := n) (by omega), R.nat (n := np) (by omega), ← Nat.cast_mul,
    R.nat (n := (ip + 1) * n) (by omega)]
  rw [sub_add_cancel]
  apply floor_of k1
  have : (0 : ℝ) ≤ (((ip + 1) * n : Nat) : ℝ) / np := by positivity
  have e : (((ip + 1) * n : Nat) : ℝ) / np * (1 + 1 / 2 ^ 24) + 1 ≤
      ((((ip + 1) * n : Nat) : ℝ) / np * (1 + 1 / 2 ^ 24) + 1) * (1 + 1 / 2 ^ 24) :=
    le_mul_of_one_le_right (by positivity) (by norm_num)
  linarith

/-- Counted from zero the bricks are those of the other programs. -/
theorem boxF_eq (R : Single rnd) {np : Nat × Nat × Nat} {P n1 n2 n3 : Nat} (h : np.1 * np.2.1 * np.2.2 = P)
    (hP : 0 < P) (h1 : 2 ≤ n1 ∧ 4 * (P * n1) ≤ 2 ^ 24) (h2 : 2 ≤ n2 ∧ 4 * (P * n2) ≤ 2 ^ 24)
    (h3 : 2 ≤ n3 ∧ 4 * (P * n3) ≤ 2 ^ 24) {me : Nat} (hme : me < P) :
    boxF rnd np n1 n2 n3 me =
      ⟨(gridBox np n1 n2 n3 me).ilo + 1, (gridBox np n1 n2 n3 me).ihi + 1, (gridBox np n1 n2 n3 me).jlo + 1,
        (gridBox np n1 n2 n3 me).jhi + 1, (gridBox np n1 n2 n3 me).klo + 1, (gridBox np n1 n2 n3 me).khi + 1⟩ := by
  obtain ⟨⟨_, l1⟩, ⟨_, l2⟩, ⟨_, l3⟩⟩ := factors_le h hP
  obtain ⟨c1, c2, c3⟩ := (gridCoords_bij h hP).1 me hme
  have k1 : 4 * (np.1 * n1) ≤ 2 ^ 24 := by have := Nat.mul_le_mul_right n1 l1; omega
  have k2 : 4 * (np.2.1 * n2) ≤ 2 ^ 24 := by have := Nat.mul_le_mul_right n2 l2; omega
  have k3 : 4 * (np.2.2 * n3) ≤ 2 ^ 24 := by have := Nat.mul_le_mul_right n3 l3; omega
  unfold boxF gridBox
  simp only [loF_eq R c1 h1.1 k1, hiF_eq R c1 h1.1 k1, loF_eq R c2 h2.1 k2, hiF_eq R c2 h2.1 k2, loF_eq R c3 h3.1 k3,
    hiF_eq R c3 h3.1 k3]

/-! ## An instance: rounding to 24 binary digits -/

/-- Rounding to 24 binary digits (exponents are not limited). -/
def rnd24 (x : ℝ) : ℝ := (round (x / (2 : ℝ) ^ (Int.log 2 |x| - 23)) : ℝ) * (2 : ℝ) ^ (Int.log 2 |x| - 23)

theorem rnd24_err (x : ℝ) : |rnd24 x - x| ≤ 1 / 2 ^ 24 * |x| := by
  unfold rnd24
  set e : ℝ := (2 : ℝ) ^ (Int.log 2 |x| - 23) with he
  have he0 : 0 < e := by positivity
  by_cases hx : x = 0
  · simp [hx]
  · have h1 : (2 : ℝ) ^ Int.log 2 |x| ≤ |x| := by
      have := Int.zpow_log_le_self (b := 2) (r := |x|) (by decide) (abs_pos.mpr hx)
      simpa using this
    have h2 : e = (2 : ℝ) ^ Int.log 2 |x| / 2 ^ 23 := by
      rw [he, zpow_sub₀ (by norm_num)]
      norm_num
    have h3 : |x / e - round (x / e)| ≤ 1 / 2 := abs_sub_round _
    have h4 : (round (x / e) : ℝ) * e - x = -((x / e - round (x / e)) * e) := by
      field_simp
      ring
    rw [h4, abs_neg, abs_mul, abs_of_pos he0]
    calc |x / e - round (x / e)| * e ≤ 1 / 2 * e := by gcongr
      _ = 1 / 2 ^ 24 * (2 : ℝ) ^ Int.log 2 |x| := by rw [h2]; ring
      _ ≤ _ := by gcongr


/-- Rounding to a known number. -/
theorem rnd24_eq {x : ℝ} {e z : Int} (h0 : (2 : ℝ) ^ e ≤ |x|) (h1 : |x| < (2 : ℝ) ^ (e + 1))
    (h2 : (z : ℝ) ≤ x / (2 : ℝ) ^ (e - 23) + 1 / 2) (h3 : x / (2 : ℝ) ^ (e - 23) + 1 / 2 < z + 1) :
    rnd24 x = z * (2 : ℝ) ^ (e - 23) := by
  have hp : 0 < |x| := lt_of_lt_of_le (by positivity) h0
  have hl : Int.log 2 |x| = e := by
    apply le_antisymm
    · have := (Int.lt_zpow_iff_log_lt (R := ℝ) (b := 2) (by decide) (x := e + 1) hp).mp (by exact_mod_cast h1)
      omega
    · exact (Int.zpow_le_iff_le_log (R := ℝ) (b := 2) (by decide) (x := e) hp).mp (by exact_mod_cast h0)
  unfold rnd24
  rw [hl]
  have hr : round (x / (2 : ℝ) ^ (e - 23)) = z := by
    rw [round_eq, Int.floor_eq_iff]
    exact ⟨h2, h3⟩
  rw [hr]

theorem rnd24_zero : rnd24 0 = 0 := by simp [rnd24]

/-- The exponent decides the range of the rounded number. -/
theorem rnd24_range {x : ℝ} (hx : 0 < x) :
    (2 : ℝ) ^ Int.log 2 x ≤ rnd24 x ∧ rnd24 x ≤ (2 : ℝ) ^ (Int.log 2 x + 1) := by
  obtain ⟨h1, h2⟩ := Driver.log_bounds hx
  unfold rnd24
  rw [abs_of_pos hx]
  set e := Int.log 2 x with he
  have hu : (0 : ℝ) < (2 : ℝ) ^ (e - 23) := by positivity
  have p1 : (2 : ℝ) ^ e = ((2 ^ 23 : Int) : ℝ) * (2 : ℝ) ^ (e - 23) := by
    rw [zpow_sub₀ (by norm_num)]; push_cast; field_simp; norm_num
  have p2 : (2 : ℝ) ^ (e + 1) = ((2 ^ 24 : Int) : ℝ) * (2 : ℝ) ^ (e - 23) := by
    rw [zpow_sub₀ (by norm_num), zpow_add₀ (by norm_num)]; push_cast; field_simp; norm_num
  constructor
  · rw [p1]
    apply mul_le_mul_of_nonneg_right _ hu.le
    have : (2 ^ 23 : Int) ≤ round (x / (2 : ℝ) ^ (e - 23)) := by
      rw [← round_intCast (α := ℝ) (2 ^ 23 : Int)]
      apply Driver.round_mono'
      rw [le_div_iff₀ hu, ← p1]
      exact h1
    exact_mod_cast this
  · rw [p2]
    apply mul_le_mul_of_nonneg_right _ hu.le
    have : round (x / (2 : ℝ) ^ (e - 23)) ≤ (2 ^ 24 : Int) := by
      rw [← round_intCast (α := ℝ) (2 ^ 24 : Int)]
      apply Driver.round_mono'
      rw [div_le_iff₀ hu, ← p2]
      exact h2.le
    exact_mod_cast this

theorem rnd24_range_neg {x : ℝ} (hx : x < 0) :
    -(2 : ℝ) ^ (Int.log 2 (-x) + 1) ≤ rnd24 x ∧ rnd24 x ≤ -(2 : ℝ) ^ Int.log 2 (-x) := by
  obtain ⟨h1, h2⟩ := Driver.log_bounds (neg_pos.mpr hx)
  unfold rnd24
  rw [abs_of_neg hx]
  set e := Int.log 2 (-x) with he
  have hu : (0 : ℝ) < (2 : ℝ) ^ (e - 23) := by positivity
  have p1 : -(2 : ℝ) ^ e = ((-2 ^ 23 : Int) : ℝ) * (2 : ℝ) ^ (e - 23) := by
    rw [zpow_sub₀ (by norm_num)]; push_cast; field_simp; norm_num
  have p2 : -(2 : ℝ) ^ (e + 1) = ((-2 ^ 24 : Int) : ℝ) * (2 : ℝ) ^ (e - 23) := by
    rw [zpow_sub₀ (by norm_num), zpow_add₀ (by norm_num)]; push_cast; field_simp; norm_num
  constructor
  · rw [p2]
    apply mul_le_mul_of_nonneg_right _ hu.le
    have : (-2 ^ 24 : Int) ≤ round (x / (2 : ℝ) ^ (e - 23)) := by
      rw [← round_intCast (α := ℝ) (-2 ^ 24 : Int)]
      apply Driver.round_mono'
      rw [le_div_iff₀ hu, ← p2]
      linarith
    exact_mod_cast this
  · rw [p1]
    apply mul_le_mul_of_nonneg_right _ hu.le
    have : round (x / (2 : ℝ) ^ (e - 23)) ≤ (-2 ^ 23 : Int) := by
      rw [← round_intCast (α := ℝ) (-2 ^ 23 : Int)]
      apply Driver.round_mono'
      rw [div_le_iff₀ hu, ← p1]
      linarith
    exact_mod_cast this

theorem rnd24_same_log {x y : ℝ} (h : x ≤ y) (hl : Int.log 2 |x| = Int.log 2 |y|) : rnd24 x ≤ rnd24 y := by
  unfold rnd24
  rw [hl]
  set u : ℝ := (2 : ℝ) ^ (Int.log 2 |y| - 23)
  have hu : 0 < u := by positivity
  apply mul_le_mul_of_nonneg_right _ hu.le
  have : round (x / u) ≤ round (y / u) := Driver.round_mono' (div_le_div_of_nonneg_right h hu.le)
  exact_mod_cast this

theorem rnd24_mono : Monotone rnd24 := by
  intro x y h
  rcases lt_trichotomy x 0 with hx | hx | hx
  · rcases lt_trichotomy y 0 with hy | hy | hy
    · by_cases hl : Int.log 2 |x| = Int.log 2 |y|
      · exact rnd24_same_log h hl
      · rw [abs_of_neg hx, abs_of_neg hy] at hl
        have hm : Int.log 2 (-y) ≤ Int.log 2 (-x) := Int.log_mono_right (by linarith) (by linarith)
        have hlt : Int.log 2 (-y) + 1 ≤ Int.log 2 (-x) := by omega
        have h1 := (rnd24_range_neg hx).2
        have h2 := (rnd24_range_neg hy).1
        have h3 : (2 : ℝ) ^ (Int.log 2 (-y) + 1) ≤ (2 : ℝ) ^ Int.log 2 (-x) := zpow_le_zpow_right₀ (by norm_num) hlt
        linarith
    · subst hy
      rw [rnd24_zero]
      have h1 := (rnd24_range_neg hx).2
      have : (0 : ℝ) < (2 : ℝ) ^ Int.log 2 (-x) := by positivity
      linarith
    · have h1 := (rnd24_range_neg hx).2
      have h2 := (rnd24_range hy).1
      have : (0 : ℝ) < (2 : ℝ) ^ Int.log 2 (-x) := by positivity
      have : (0 : ℝ) < (2 : ℝ) ^ Int.log 2 y := by positivity
      linarith
  · subst hx
    rw [rnd24_zero]
    rcases h.eq_or_lt with hy | hy
    · rw [← hy, rnd24_zero]
    · have h2 := (rnd24_range hy).1
      have : (0 : ℝ) < (2 : ℝ) ^ Int.log 2 y := by positivity
      linarith
  · have hy : 0 < y := lt_of_lt_of_le hx h
    by_cases hl : Int.log 2 |x| = Int.log 2 |y|
    · exact rnd24_same_log h hl
    · rw [abs_of_pos hx, abs_of_pos hy] at hl
      have hm : Int.log 2 x ≤ Int.log 2 y := Int.log_mono_right hx h
      have hlt : Int.log 2 x + 1 ≤ Int.log 2 y := by omega
      have h1 := (rnd24_range hx).2
      have h2 := (rnd24_range hy).1
      have h3 : (2 : ℝ) ^ (Int.log 2 x + 1) ≤ (2 : ℝ) ^ Int.log 2 y := zpow_le_zpow_right₀ (by norm_num) hlt
      linarith

theorem rnd24_int {n : Int} (h : |n| ≤ 2 ^ 24) : rnd24 n = n := by
  by_cases h0 : n = 0
  · subst h0; simpa using rnd24_zero
  have hp : (0 : ℝ) < |(n : ℝ)| := abs_pos.mpr (by exact_mod_cast h0)
  obtain ⟨h1, h2⟩ := Driver.log_bounds hp
  have hz : ∃ z : Int, (n : ℝ) / (2 : ℝ) ^ (Int.log 2 |(n : ℝ)| - 23) = z := by
    by_cases he : Int.log 2 |(n : ℝ)| ≤ 23
    · refine ⟨n * 2 ^ (23 - Int.log 2 |(n : ℝ)|).toNat, ?_⟩
      have hpow : (2 : ℝ) ^ (23 - Int.log 2 |(n : ℝ)|).toNat = (2 : ℝ) ^ (23 - Int.log 2 |(n : ℝ)|) := by
        rw [← zpow_natCast, Int.toNat_of_nonneg (by omega)]
      push_cast
      rw [hpow, div_eq_mul_inv, ← zpow_neg]
      congr 2
      ring
    · have h3 : (2 : ℝ) ^ (24 : Int) ≤ |(n : ℝ)| :=
        le_trans (zpow_le_zpow_right₀ (by norm_num) (by omega)) h1
      have h4 : |(n : ℝ)| ≤ 2 ^ 24 := by exact_mod_cast h
      have h5 : |(n : ℝ)| = (2 : ℝ) ^ (24 : Int) := le_antisymm (by rw [← zpow_natCast] at h4; exact h4) h3
      have h6 : |n| = 2 ^ 24 := by
        have : (|n| : ℝ) = ((2 ^ 24 : Int) : ℝ) := by rw [h5]; norm_num
        exact_mod_cast this
      have hl : Int.log 2 |(n : ℝ)| = 24 := by
        rw [h5]
        have := Int.log_zpow (R := ℝ) (b := 2) (by decide) 24
        simpa using this
      rw [hl]
      rcases abs_eq (a := n) (b := 2 ^ 24) (by positivity) |>.mp h6 with h7 | h7
      · exact ⟨2 ^ 23, by rw [h7]; norm_num⟩
      · exact ⟨-2 ^ 23, by rw [h7]; norm_num⟩
  obtain ⟨z, hz⟩ := hz
  unfold rnd24
  rw [hz, round_intCast, ← hz]
  have : (2 : ℝ) ^ (Int.log 2 |(n : ℝ)| - 23) ≠ 0 := by positivity
  field_simp
theorem single24 : Single rnd24 where
  mono := rnd24_mono
  int _ h := rnd24_int h
  rel x h0 _ := by
    have := rnd24_err x
    have hx : 0 ≤ x := le_trans (by positivity) h0
    rw [abs_of_nonneg hx] at this
    calc _ ≤ 1 / 2 ^ 24 * x := this
      _ = _ := by ring

end Simple

end FftMpi
