import Verif.Driver
import Verif.Fft3d32Main
import Verif.Fft2d32Main
import Mathlib.Tactic.Positivity
import Mathlib.Tactic.FieldSimp
import Mathlib.Tactic.NormNum

/-!
# Lemmas on the partition of the test programs
-/

noncomputable section

namespace FftMpi

namespace Driver

/-! ## Search for the best processor grid -/

/-- `b` is the best of `init` and the candidates in `S`. -/
structure Best {γ : Type} (surf : γ → ℝ) (init : ℝ × γ) (S : Set γ) (b : ℝ × γ) : Prop where
  le : ∀ c ∈ S, b.1 ≤ surf c
  le0 : b.1 ≤ init.1
  mem : b = init ∨ ∃ c ∈ S, b = (surf c, c)

theorem Best.start {γ : Type} (surf : γ → ℝ) (init : ℝ × γ) : Best surf init ∅ init :=
  ⟨fun _ h => h.elim, le_rfl, Or.inl rfl⟩

theorem Best.keep {γ : Type} {surf : γ → ℝ} {init : ℝ × γ} {S : Set γ} {b : ℝ × γ} (h : Best surf init S b)
    (c : γ) : Best surf init (S ∪ {c}) (keep surf c b) := by
  unfold Driver.keep
  split_ifs with hc
  · refine ⟨?_, (hc.le.trans h.le0), Or.inr ⟨c, by simp, rfl⟩⟩
    intro d hd
    rcases hd with hd | hd
    · exact hc.le.trans (h.le d hd)
    · rw [Set.mem_singleton_iff] at hd
      subst hd
      exact le_rfl
  · refine ⟨?_, h.le0, ?_⟩
    · intro d hd
      rcases hd with hd | hd
      · exact h.le d hd
      · rw [Set.mem_singleton_iff] at hd
        subst hd
        exact not_lt.mp hc
    · rcases h.mem with h1 | ⟨d, hd, h1⟩
      · exact Or.inl h1
      · exact Or.inr ⟨d, Or.inl hd, h1⟩

theorem Best.foldl {γ : Type} {surf : γ → ℝ} {init : ℝ × γ} (f : ℝ × γ → Nat → ℝ × γ) (T : Nat → Set γ)
    (hf : ∀ i S b, 0 < i → Best surf init S b → Best surf init (S ∪ T i) (f b i)) :
    ∀ (l : List Nat) (_ : ∀ i ∈ l, 0 < i) (S : Set γ) (b : ℝ × γ), Best surf init S b →
      Best surf init (S ∪ {c | ∃ i ∈ l, c ∈ T i}) (l.foldl f b) := by
  intro l
  induction l with
  | nil => intro _ S b h; simpa using h
  | cons i l ih =>
    intro hl S b h
    have h1 := ih (fun j hj => hl j (List.mem_cons_of_mem _ hj)) _ _
      (hf i S b (hl i (by simp)) h)
    have e : S ∪ {c | ∃ j ∈ i :: l, c ∈ T j} = S ∪ T i ∪ {c | ∃ j ∈ l, c ∈ T j} := by
      ext c
      simp only [Set.mem_union, Set.mem_setOf_eq, List.mem_cons, exists_eq_or_imp]
      tauto
    rw [e]
    exact h1

/-- The loop over the divisors of `n`. -/
theorem Best.divLoop {γ : Type} {surf : γ → ℝ} {init : ℝ × γ} (n : Nat) (body : Nat → ℝ × γ → ℝ × γ)
    (T : Nat → Set γ)
    (hf : ∀ i S b, 0 < i → Best surf init S b → Best surf init (S ∪ T i) (body i b))
    {S : Set γ} {b : ℝ × γ} (h : Best surf init S b) :
    Best surf init (S ∪ {c | ∃ i, (0 < i ∧ i ≤ n ∧ n % i = 0) ∧ c ∈ T i}) (divLoop n body b) := by
  unfold Driver.divLoop
  have h1 := Best.foldl (surf := surf) (init := init) (fun s i => if n % i = 0 then body i s else s)
    (fun i => if n % i = 0 then T i else ∅)
    (by
      intro i S b hi hb
      by_cases h0 : n % i = 0
      · simp only [h0, if_true]
        exact hf i S b hi hb
      · simp only [h0, if_false, Set.union_empty]
        exact hb)
    (List.range' 1 n) (by intro i hi; rw [List.mem_range'_1] at hi; omega) S b h
  have e : {c | ∃ i ∈ List.range' 1 n, c ∈ if n % i = 0 then T i else ∅} =
      {c | ∃ i, (0 < i ∧ i ≤ n ∧ n % i = 0) ∧ c ∈ T i} := by
    ext c
    simp only [Set.mem_setOf_eq, List.mem_range'_1]
    constructor
    · rintro ⟨i, hi, hc⟩
      split_ifs at hc with h0
      · exact ⟨i, ⟨by omega, by omega, h0⟩, hc⟩
      · exact hc.elim
    · rintro ⟨i, ⟨h1, h2, h3⟩, hc⟩
      exact ⟨i, by omega, by rw [if_pos h3]; exact hc⟩
  rw [e] at h1
  exact h1

variable {rnd : ℝ → ℝ}

namespace Rounding

variable (R : Rounding rnd)
include R

theorem nat {n : Nat} (h : n ≤ 2 ^ 53) : rnd n = n := by
  have := R.int n (by rw [abs_of_nonneg (Int.natCast_nonneg n)]; exact_mod_cast h)
  simpa using this

theorem zero : rnd 0 = 0 := by simpa using R.int 0 (by norm_num)
theorem one : rnd 1 = 1 := by simpa using R.int 1 (by norm_num)

theorem one_le {x : ℝ} (h : 1 ≤ x) : 1 ≤ rnd x := by
  have := R.mono h
  rwa [R.one] at this

theorem nonneg {x : ℝ} (h : 0 ≤ x) : 0 ≤ rnd x := by
  have := R.mono h
  rwa [R.zero] at this

theorem le_two {x : ℝ} (h0 : 1 ≤ x) (h1 : x ≤ 2 ^ 100) : rnd x ≤ 2 * x := by
  have := abs_le.mp (R.rel x (le_trans (by norm_num) h0) h1)
  have h3 : x / 2 ^ 53 ≤ x := by
    rw [div_le_iff₀ (by positivity)]
    nlinarith
  linarith [this.2]

theorem lt_double {x : ℝ} (h0 : 1 ≤ x) (h1 : 2 * x ≤ 2 ^ 100) : x < rnd (2 * x) := by
  have := abs_le.mp (R.rel (2 * x) (le_trans (by norm_num) (show (1 : ℝ) ≤ 2 * x by linarith)) h1)
  have h3 : 2 * x / 2 ^ 53 ≤ x / 2 := by
    rw [div_le_iff₀ (by positivity)]
    nlinarith
  linarith [this.1]

end Rounding

theorem div_le_nat (n c : Nat) : (n : ℝ) / c ≤ n := by
  rcases Nat.eq_zero_or_pos c with h | h
  · subst h; simp
  · exact div_le_self (Nat.cast_nonneg n) (by exact_mod_cast h)

/-- The result of `proc3d`: it succeeds, the product is the number of ranks, and no other processor grid has a
smaller computed surface. -/
theorem proc3d_ok (R : Rounding rnd) {nx ny nz P : Nat} (hx : 0 < nx) (hy : 0 < ny) (hz : 0 < nz) (hP : 0 < P)
    (bx : nx < 2 ^ 31) (by' : ny < 2 ^ 31) (bz : nz < 2 ^ 31) (p0 : Nat × Nat × Nat) :
    ∃ p, proc3d rnd nx ny nz P p0 = some p ∧ p.1 * p.2.1 * p.2.2 = P ∧
      ∀ q : Nat × Nat × Nat, q.1 * q.2.1 * q.2.2 = P → surf3 rnd nx ny nz p ≤ surf3 rnd nx ny nz q := by
  set b0 : ℝ := rnd (2 * rnd (rnd (rnd (nx * ny) + rnd (ny * nz)) + rnd (nz * nx))) with hb0
  set surf := surf3 rnd nx ny nz with hsurf
  have key : ∀ i : Nat, ∀ S b, 0 < i → Best surf (b0, p0) S b →
      Best surf (b0, p0) (S ∪ {c | ∃ j, (0 < j ∧ j ≤ P / i ∧ P / i % j = 0) ∧ c ∈ ({(i, j, P / i / j)} : Set _)})
        (divLoop (P / i) (fun ipy b => keep surf (i, ipy, P / i / ipy) b) b) := by
    intro i S b _ hb
    exact Best.divLoop (P / i) _ (fun j => {(i, j, P / i / j)}) (fun j S b _ hb => hb.keep _) hb
  have main := Best.divLoop P (fun ipx b => divLoop (P / ipx) (fun ipy b =>
    keep surf (ipx, ipy, P / ipx / ipy) b) b) _ key (Best.start surf (b0, p0))
  set b := divLoop P (fun ipx b => divLoop (P / ipx) (fun ipy b =>
    keep surf (ipx, ipy, P / ipx / ipy) b) b) (b0, p0) with hb
  have cand : ∀ q : Nat × Nat × Nat, q.1 * q.2.1 * q.2.2 = P → b.1 ≤ surf q := by
    rintro ⟨q1, q2, q3⟩ hq
    simp only at hq
    have h1 : 0 < q1 := Nat.pos_of_ne_zero (by rintro rfl; simp at hq; omega)
    have h2 : 0 < q2 := Nat.pos_of_ne_zero (by rintro rfl; simp at hq; omega)
    have h3 : 0 < q3 := Nat.pos_of_ne_zero (by rintro rfl; simp at hq; omega)
    have e1 : P / q1 = q2 * q3 := by
      rw [← hq, mul_assoc]; exact Nat.mul_div_cancel_left _ h1
    have e2 : q2 * q3 / q2 = q3 := Nat.mul_div_cancel_left _ h2
    apply main.le
    right
    refine ⟨q1, ⟨h1, ?_, ?_⟩, ?_⟩
    · rw [← hq, mul_assoc]; exact Nat.le_mul_of_pos_right _ (Nat.mul_pos h2 h3)
    · rw [← hq, mul_assoc]; exact Nat.mul_mod_right _ _
    · refine ⟨q2, ⟨h2, ?_, ?_⟩, ?_⟩
      · rw [e1]; exact Nat.le_mul_of_pos_right _ h3
      · rw [e1]; exact Nat.mul_mod_right _ _
      · rw [e1, e2]; rfl
  have good : b.2.1 * b.2.2.1 * b.2.2.2 = P ∧ b.1 = surf b.2 := by
    rcases main.mem with h | ⟨c, hc, h⟩
    · -- the first candidate is better than the initial value
      exfalso
      have h1 : b.1 ≤ surf (1, 1, P) := cand (1, 1, P) (by simp)
      rw [h] at h1
      simp only at h1
      set s0 := rnd (rnd (rnd (nx * ny) + rnd (ny * nz)) + rnd (nz * nx)) with hs0
      have hnx : (1 : ℝ) ≤ nx := by exact_mod_cast hx
      have hny : (1 : ℝ) ≤ ny := by exact_mod_cast hy
      have hnz : (1 : ℝ) ≤ nz := by exact_mod_cast hz
      have cx : (nx : ℝ) ≤ 2 ^ 31 := by exact_mod_cast bx.le
      have cy : (ny : ℝ) ≤ 2 ^ 31 := by exact_mod_cast by'.le
      have cz : (nz : ℝ) ≤ 2 ^ 31 := by exact_mod_cast bz.le
      have m1 : (1 : ℝ) ≤ nx * ny := by nlinarith
      have m2 : (1 : ℝ) ≤ ny * nz := by nlinarith
      have m3 : (1 : ℝ) ≤ nz * nx := by nlinarith
      have M : ∀ a c : ℝ, 0 ≤ a → 0 ≤ c → a ≤ 2 ^ 31 → c ≤ 2 ^ 31 → a * c ≤ 2 ^ 62 := by
        intro a c ha hc h1 h2
        calc a * c ≤ 2 ^ 31 * 2 ^ 31 := by gcongr
          _ = 2 ^ 62 := by norm_num
      have n1 := M nx ny (by linarith) (by linarith) cx cy
      have n2 := M ny nz (by linarith) (by linarith) cy cz
      have n3 := M nz nx (by linarith) (by linarith) cz cx
      have r1 := R.one_le m1
      have r2 := R.one_le m2
      have r3 := R.one_le m3
      have t1 := R.le_two m1 (n1.trans (by norm_num))
      have t2 := R.le_two m2 (n2.trans (by norm_num))
      have t3 := R.le_two m3 (n3.trans (by norm_num))
      have q1 : (1 : ℝ) ≤ rnd (nx * ny) + rnd (ny * nz) := by linarith
      have q2 := R.le_two q1 (by norm_num at n1 n2 ⊢; linarith)
      have q3 := R.one_le q1
      have q4 : (1 : ℝ) ≤ rnd (rnd (nx * ny) + rnd (ny * nz)) + rnd (nz * nx) := by linarith
      have q5 : s0 ≤ _ := R.le_two q4 (by norm_num at n1 n2 n3 ⊢; linarith)
      have q6 : 1 ≤ s0 := R.one_le q4
      have q7 : s0 < b0 := R.lt_double q6 (by norm_num at n1 n2 n3 ⊢; linarith)
      have q8 : surf (1, 1, P) ≤ s0 := by
        simp only [hsurf, surf3]
        have ex : rnd ((nx : ℝ) / ((1 : Nat) : ℝ)) = nx := by
          rw [Nat.cast_one, div_one]; exact R.nat (by omega)
        have ey : rnd ((ny : ℝ) / ((1 : Nat) : ℝ)) = ny := by
          rw [Nat.cast_one, div_one]; exact R.nat (by omega)
        have ez : rnd ((nz : ℝ) / (P : ℝ)) ≤ nz := by
          have := R.mono (div_le_nat nz P)
          rwa [R.nat (n := nz) (by omega)] at this
        rw [ex, ey]
        apply R.mono
        apply add_le_add
        · apply R.mono
          apply add_le_add le_rfl
          apply R.mono
          exact mul_le_mul_of_nonneg_left ez (by linarith)
        · apply R.mono
          exact mul_le_mul_of_nonneg_right ez (by linarith)
      linarith
    · rcases hc with hc | ⟨i, ⟨hi1, hi2, hi3⟩, hc⟩
      · exact hc.elim
      obtain ⟨j, ⟨hj1, hj2, hj3⟩, hc⟩ := hc
      rw [Set.mem_singleton_iff] at hc
      subst hc
      rw [h]
      refine ⟨?_, rfl⟩
      simp only
      rw [mul_assoc, Nat.mul_div_cancel' (Nat.dvd_of_mod_eq_zero hj3),
        Nat.mul_div_cancel' (Nat.dvd_of_mod_eq_zero hi3)]
  refine ⟨b.2, ?_, good.1, ?_⟩
  · unfold proc3d
    simp only
    rw [← hsurf, ← hb0, ← hb, if_neg (by simpa using good.1)]
  · intro q hq
    rw [← good.2]
    exact cand q hq

/-- The result of `proc2d`. -/
theorem proc2d_ok (R : Rounding rnd) {nx ny P : Nat} (hx : 0 < nx) (hy : 0 < ny) (hP : 0 < P)
    (bx : nx < 2 ^ 31) (by' : ny < 2 ^ 31) (p0 : Nat × Nat) :
    ∃ p, proc2d rnd nx ny P p0 = some p ∧ p.1 * p.2 = P ∧
      ∀ q : Nat × Nat, q.1 * q.2 = P → surf2 rnd nx ny p ≤ surf2 rnd nx ny q := by
  set b0 : ℝ := rnd (2 * rnd (nx + ny)) with hb0
  set surf := surf2 rnd nx ny with hsurf
  have main := Best.divLoop (surf := surf) (init := (b0, p0)) P (fun ipx b => keep surf (ipx, P / ipx) b)
    (fun i => {(i, P / i)}) (fun i S b _ hb => hb.keep _) (Best.start surf (b0, p0))
  set b := divLoop P (fun ipx b => keep surf (ipx, P / ipx) b) (b0, p0) with hb
  have cand : ∀ q : Nat × Nat, q.1 * q.2 = P → b.1 ≤ surf q := by
    rintro ⟨q1, q2⟩ hq
    simp only at hq
    have h1 : 0 < q1 := Nat.pos_of_ne_zero (by rintro rfl; simp at hq; omega)
    have h2 : 0 < q2 := Nat.pos_of_ne_zero (by rintro rfl; simp at hq; omega)
    have e1 : P / q1 = q2 := by rw [← hq]; exact Nat.mul_div_cancel_left _ h1
    apply main.le
    right
    refine ⟨q1, ⟨h1, ?_, ?_⟩, ?_⟩
    · rw [← hq]; exact Nat.le_mul_of_pos_right _ h2
    · rw [← hq]; exact Nat.mul_mod_right _ _
    · rw [e1]; rfl
  have good : b.2.1 * b.2.2 = P ∧ b.1 = surf b.2 := by
    rcases main.mem with h | ⟨c, hc, h⟩
    · exfalso
      have h1 : b.1 ≤ surf (1, P) := cand (1, P) (by simp)
      rw [h] at h1
      simp only at h1
      set s0 := rnd ((nx : ℝ) + ny) with hs0
      have hnx : (1 : ℝ) ≤ nx := by exact_mod_cast hx
      have hny : (1 : ℝ) ≤ ny := by exact_mod_cast hy
      have cx : (nx : ℝ) ≤ 2 ^ 31 := by exact_mod_cast bx.le
      have cy : (ny : ℝ) ≤ 2 ^ 31 := by exact_mod_cast by'.le
      have q4 : (1 : ℝ) ≤ nx + ny := by linarith
      have q5 : s0 ≤ _ := R.le_two q4 (by linarith)
      have q6 : 1 ≤ s0 := R.one_le q4
      have q7 : s0 < b0 := R.lt_double q6 (by linarith)
      have q8 : surf (1, P) ≤ s0 := by
        simp only [hsurf, surf2]
        have ex : rnd ((nx : ℝ) / ((1 : Nat) : ℝ)) = nx := by
          rw [Nat.cast_one, div_one]; exact R.nat (by omega)
        have ey : rnd ((ny : ℝ) / (P : ℝ)) ≤ ny := by
          have := R.mono (div_le_nat ny P)
          rwa [R.nat (n := ny) (by omega)] at this
        rw [ex]
        apply R.mono
        linarith
      linarith
    · rcases hc with hc | ⟨i, ⟨hi1, hi2, hi3⟩, hc⟩
      · exact hc.elim
      rw [Set.mem_singleton_iff] at hc
      subst hc
      rw [h]
      exact ⟨Nat.mul_div_cancel' (Nat.dvd_of_mod_eq_zero hi3), rfl⟩
  refine ⟨b.2, ?_, good.1, ?_⟩
  · unfold proc2d
    simp only
    rw [← hsurf, ← hb0, ← hb, if_neg (by simpa using good.1)]
  · intro q hq
    rw [← good.2]
    exact cand q hq

/-! ## Blocks -/

/-- The rounded quotient of two integers has the right integer part. -/
theorem floor_rnd_div (R : Rounding rnd) {a b : Nat} (hb : 0 < b) (ha : a < 2 ^ 53) :
    ⌊rnd ((a : ℝ) / b)⌋ = ((a / b : Nat) : Int) := by
  have hb' : (0 : ℝ) < b := by exact_mod_cast hb
  rw [Int.floor_eq_iff]
  have hlow : ((a / b : Nat) : ℝ) ≤ (a : ℝ) / b := Nat.cast_div_le
  refine ⟨?_, ?_⟩
  · have h1 := R.mono hlow
    rw [R.nat (n := a / b) (by have := Nat.div_le_self a b; omega)] at h1
    exact_mod_cast h1
  · rw [Int.cast_natCast]
    rcases Nat.eq_zero_or_pos a with h0 | h0
    · subst h0
      simp [R.zero]
    -- a ≤ b*q + b - 1
    set q := a / b with hq
    have h1 : a + 1 ≤ b * (q + 1) := by
      have := Nat.lt_mul_div_succ a hb
      rw [← hq] at this
      omega
    have h1' : (a : ℝ) + 1 ≤ b * (q + 1) := by exact_mod_cast h1
    by_cases hbig : b < 2 ^ 100
    · have ha1 : (1 : ℝ) ≤ a := by exact_mod_cast h0
      have hr := abs_le.mp (R.rel ((a : ℝ) / b) (by
        apply div_le_div₀ (by positivity) ha1 hb'
        exact_mod_cast hbig.le) (by
        rw [div_le_iff₀ hb']
        have c1 : (a : ℝ) ≤ 2 ^ 53 := by exact_mod_cast ha.le
        have c2 : (1 : ℝ) ≤ b := by exact_mod_cast hb
        nlinarith))
      have h2 : (a : ℝ) / b / 2 ^ 53 < 1 / b := by
        rw [div_div, mul_comm, ← div_div]
        apply div_lt_div_of_pos_right _ hb'
        rw [div_lt_one (by positivity)]
        exact_mod_cast ha
      have h3 : (a : ℝ) / b + 1 / b ≤ q + 1 := by
        rw [← add_div, div_le_iff₀ hb']
        linarith
      linarith [hr.2]
    · -- the quotient is tiny
      have h2 : (a : ℝ) / b ≤ 1 / 2 := by
        rw [div_le_iff₀ hb']
        have c1 : (a : ℝ) ≤ 2 ^ 53 := by exact_mod_cast ha.le
        have c2 : (2 : ℝ) ^ 100 ≤ b := by exact_mod_cast (not_lt.mp hbig)
        linarith
      have h3 := R.mono h2
      have h4 := abs_le.mp (R.rel (1 / 2) (by norm_num) (by norm_num))
      have h5 : (1 : ℝ) / 2 + 1 / 2 / 2 ^ 53 < 1 := by norm_num
      have h6 : (0 : ℝ) ≤ q := Nat.cast_nonneg q
      linarith [h4.2]

theorem mul_rnd (R : Rounding rnd) {a n : Nat} (h : a * n < 2 ^ 53) (hn : 0 < n) :
    rnd (rnd (1 * (a : ℝ)) * n) = ((a * n : Nat) : ℝ) := by
  have h1 : a ≤ a * n := Nat.le_mul_of_pos_right a hn
  rw [one_mul, R.nat (n := a) (by omega), ← Nat.cast_mul, R.nat (by omega)]

theorem lo_eq (R : Rounding rnd) {ip n np : Nat} (h : ip * n < 2 ^ 53) (hn : 0 < n) (hp : 0 < np) :
    lo rnd ip n np = blockLo ip n np := by
  unfold lo blockLo
  rw [mul_rnd R h hn, floor_rnd_div R hp h]

theorem hi_eq (R : Rounding rnd) {ip n np : Nat} (h : (ip + 1) * n < 2 ^ 53) (hn : 0 < n) (hp : 0 < np) :
    hi rnd ip n np = blockHi ip n np := by
  unfold hi blockHi
  have := mul_rnd R h hn
  rw [Nat.cast_add, Nat.cast_one] at this
  rw [this, floor_rnd_div R hp h]

/-- The boxes are those of `GridSpec`-style blocks, if `np*n` has at most 53 bits. -/
theorem box3_eq (R : Rounding rnd) {np : Nat × Nat × Nat} {P nx ny nz : Nat}
    (h : np.1 * np.2.1 * np.2.2 = P) (hP : 0 < P)
    (hx : 0 < nx ∧ P * nx < 2 ^ 53) (hy : 0 < ny ∧ P * ny < 2 ^ 53) (hz : 0 < nz ∧ P * nz < 2 ^ 53)
    {me : Nat} (hme : me < P) : box3 rnd np nx ny nz me = gridBox np nx ny nz me := by
  obtain ⟨c1, c2, c3⟩ := (gridCoords_bij h hP).1 me hme
  have p1 : 0 < np.1 := by omega
  have p2 : 0 < np.2.1 := by omega
  have p3 : 0 < np.2.2 := by omega
  have l1 : np.1 ≤ P := by rw [← h, mul_assoc]; exact Nat.le_mul_of_pos_right _ (Nat.mul_pos p2 p3)
  have l2 : np.2.1 ≤ P := by
    rw [← h, mul_comm np.1, mul_assoc]; exact Nat.le_mul_of_pos_right _ (Nat.mul_pos p1 p3)
  have l3 : np.2.2 ≤ P := by rw [← h]; exact Nat.le_mul_of_pos_left _ (Nat.mul_pos p1 p2)
  have b : ∀ {ip n q : Nat}, ip < q → q ≤ P → P * n < 2 ^ 53 → ip * n < 2 ^ 53 ∧ (ip + 1) * n < 2 ^ 53 := by
    intro ip n q h1 h2 h3
    have k1 : ip * n ≤ P * n := Nat.mul_le_mul_right n (by omega)
    have k2 : (ip + 1) * n ≤ P * n := Nat.mul_le_mul_right n (by omega)
    omega
  obtain ⟨x1, x2⟩ := b c1 l1 hx.2
  obtain ⟨y1, y2⟩ := b c2 l2 hy.2
  obtain ⟨z1, z2⟩ := b c3 l3 hz.2
  simp only [gridCoords] at x1 x2 y1 y2 z1 z2
  simp only [box3, gridBox, gridCoords]
  rw [lo_eq R x1 hx.1 p1, hi_eq R x2 hx.1 p1, lo_eq R y1 hy.1 p2, hi_eq R y2 hy.1 p2, lo_eq R z1 hz.1 p3,
    hi_eq R z2 hz.1 p3]

theorem box2_eq (R : Rounding rnd) {np : Nat × Nat} {P nx ny : Nat}
    (h : np.1 * np.2 = P) (hP : 0 < P)
    (hx : 0 < nx ∧ P * nx < 2 ^ 53) (hy : 0 < ny ∧ P * ny < 2 ^ 53)
    {me : Nat} (hme : me < P) : box2 rnd np nx ny me = gridBox2 np nx ny me := by
  obtain ⟨c1, c2⟩ := (gridCoords2_bij h hP).1 me hme
  have p1 : 0 < np.1 := by omega
  have p2 : 0 < np.2 := by omega
  have l1 : np.1 ≤ P := by rw [← h]; exact Nat.le_mul_of_pos_right _ p2
  have l2 : np.2 ≤ P := by rw [← h]; exact Nat.le_mul_of_pos_left _ p1
  have b : ∀ {ip n q : Nat}, ip < q → q ≤ P → P * n < 2 ^ 53 → ip * n < 2 ^ 53 ∧ (ip + 1) * n < 2 ^ 53 := by
    intro ip n q h1 h2 h3
    have k1 : ip * n ≤ P * n := Nat.mul_le_mul_right n (by omega)
    have k2 : (ip + 1) * n ≤ P * n := Nat.mul_le_mul_right n (by omega)
    omega
  obtain ⟨x1, x2⟩ := b c1 l1 hx.2
  obtain ⟨y1, y2⟩ := b c2 l2 hy.2
  simp only [gridCoords2] at x1 x2 y1 y2
  simp only [box2, gridBox2, gridCoords2]
  rw [lo_eq R x1 hx.1 p1, hi_eq R x2 hx.1 p1, lo_eq R y1 hy.1 p2, hi_eq R y2 hy.1 p2]

end Driver

end FftMpi
