import Verif.Kiss
import Mathlib.Data.Nat.Prime.Basic
import Mathlib.Tactic.NormNum.Prime
import Mathlib.Tactic.IntervalCases

/-!
# Lemmas: `kf_factor`
-/

namespace FftMpi

theorem kfWhile_dvd (fs n p : Nat) : kfWhile fs n p ∣ n := by
  fun_induction kfWhile fs n p with
  | case1 p h => exact Nat.dvd_of_mod_eq_zero h
  | case2 p h1 h2 => exact dvd_refl n
  | case3 p h1 h2 ih => exact ih

theorem kfNextP_two {p : Nat} : 2 ≤ kfNextP p := by unfold kfNextP; split_ifs <;> omega

theorem kfWhile_two {fs n p : Nat} (hn : 2 ≤ n) (hp : 2 ≤ p) : 2 ≤ kfWhile fs n p := by
  fun_induction kfWhile fs n p with
  | case1 p h => exact hp
  | case2 p h1 h2 => exact hn
  | case3 p h1 h2 ih => exact ih kfNextP_two

/-- A list of (radix, remaining length) pairs that describes a factorisation of `n`. -/
def FacChain : Nat → List (Nat × Nat) → Prop
  | _, [] => False
  | n, (p, m) :: rest => 1 ≤ p ∧ 1 ≤ m ∧ p * m = n ∧ (if m = 1 then rest = [] else FacChain m rest)

theorem kfLoop_chain {fs : Nat} (slots p n : Nat) (hp : 2 ≤ p) (hn : 1 ≤ n) (hs : n < 2 ^ slots)
    (h0 : 1 ≤ slots) : ∃ l, kfLoop fs slots p n = some l ∧ FacChain n l ∧ l.length ≤ slots ∧
      (2 ≤ n → ∀ e ∈ l, 2 ≤ e.1) := by
  induction slots generalizing p n with
  | zero => omega
  | succ k ih =>
    have hd := kfWhile_dvd fs n p
    set p' := kfWhile fs n p with hp'
    have hp1 : 1 ≤ p' := Nat.pos_of_dvd_of_pos hd hn
    have hmul : p' * (n / p') = n := Nat.mul_div_cancel' hd
    have hm1 : 1 ≤ n / p' := by
      rcases Nat.eq_zero_or_pos (n / p') with h | h
      · rw [h] at hmul; omega
      · exact h
    unfold kfLoop
    simp only [← hp']
    by_cases hgt : n / p' > 1
    · rw [if_pos hgt]
      have hn2 : 2 ≤ n := by
        have := Nat.div_le_self n p'; omega
      have hp2 : 2 ≤ p' := kfWhile_two hn2 hp
      have hlt : n / p' < 2 ^ k := by
        rw [Nat.div_lt_iff_lt_mul (by omega)]
        have : 2 ^ (k + 1) = 2 ^ k * 2 := pow_succ 2 k
        have := Nat.mul_le_mul_left (2 ^ k) hp2
        omega
      have hk : 1 ≤ k := by
        rcases Nat.eq_zero_or_pos k with h | h
        · subst h; simp at hlt; omega
        · exact h
      obtain ⟨l, h1, h2, h3, h4⟩ := ih p' (n / p') hp2 hm1 hlt hk
      refine ⟨(p', n / p') :: l, by rw [h1]; rfl, ⟨hp1, hm1, hmul, ?_⟩, by simpa using h3, ?_⟩
      · rw [if_neg (by omega)]; exact h2
      · intro _ e he
        rcases List.mem_cons.mp he with rfl | he
        · exact hp2
        · exact h4 (by omega) e he
    · rw [if_neg hgt]
      refine ⟨[(p', n / p')], rfl, ⟨hp1, hm1, hmul, ?_⟩, by simp, ?_⟩
      · rw [if_pos (by omega)]
      · intro h2 e he
        simp only [List.mem_singleton] at he
        subst he
        exact kfWhile_two h2 hp

theorem kfFactor_chain {n : Nat} (hn : 1 ≤ n) (hs : n < 2 ^ 32) :
    ∃ l, kfFactor n = some l ∧ FacChain n l ∧ l.length ≤ 32 ∧ (2 ≤ n → ∀ e ∈ l, 2 ≤ e.1) :=
  kfLoop_chain 32 4 n (by decide) hn hs (by decide)

/-- What the code knows about `n` when it tries `p`. -/
def KfInv (p n : Nat) : Prop :=
  (p = 4 ∨ p = 2 ∨ p = 3 ∨ p = 5) ∧ (p = 3 ∨ p = 5 → ¬ 2 ∣ n) ∧ (p = 5 → ¬ 3 ∣ n)

theorem kfWhile_dvd_self {fs n p : Nat} (h : p ∣ n) : kfWhile fs n p = p := by
  rw [kfWhile, if_pos (Nat.mod_eq_zero_of_dvd h)]

theorem kfWhile_next {fs n p : Nat} (h : ¬ p ∣ n) :
    kfWhile fs n p = if kfNextP p > fs then n else kfWhile fs n (kfNextP p) := by
  conv_lhs => rw [kfWhile]
  rw [if_neg (fun e => h (Nat.dvd_of_mod_eq_zero e))]
  split_ifs <;> rfl

theorem smooth_dvd {n : Nat} (hn : 2 ≤ n) (hs : ∀ q : Nat, q.Prime → q ∣ n → q = 2 ∨ q = 3 ∨ q = 5) :
    2 ∣ n ∨ 3 ∣ n ∨ 5 ∣ n := by
  obtain ⟨q, hq, hd⟩ := Nat.exists_prime_and_dvd (n := n) (by omega)
  rcases hs q hq hd with rfl | rfl | rfl
  · exact .inl hd
  · exact .inr (.inl hd)
  · exact .inr (.inr hd)

theorem kfWhile_smooth {N n p : Nat} (hn : 2 ≤ n) (hN : n ≤ N)
    (hs : ∀ q : Nat, q.Prime → q ∣ n → q = 2 ∨ q = 3 ∨ q = 5) (hi : KfInv p n) :
    (kfWhile (Nat.sqrt N) n p = 2 ∨ kfWhile (Nat.sqrt N) n p = 3 ∨ kfWhile (Nat.sqrt N) n p = 4 ∨
      kfWhile (Nat.sqrt N) n p = 5) ∧
    (KfInv (kfWhile (Nat.sqrt N) n p) (n / kfWhile (Nat.sqrt N) n p) ∨
      n / kfWhile (Nat.sqrt N) n p = 1) := by
  have hself : n / n = 1 := Nat.div_self (by omega)
  have hdiv : ∀ {a b : Nat}, a ∣ n → ¬ b ∣ n → ¬ b ∣ n / a := by
    intro a b ha hb h
    exact hb (h.trans (Nat.div_dvd_of_dvd ha))
  -- the candidate 5
  have h5 : ¬ 2 ∣ n → ¬ 3 ∣ n → 5 ∣ n := fun h2 h3 => by
    rcases smooth_dvd hn hs with h | h | h
    · exact absurd h h2
    · exact absurd h h3
    · exact h
  have c5 : ¬ 2 ∣ n → ¬ 3 ∣ n → kfWhile (Nat.sqrt N) n 5 = 5 ∧ KfInv 5 (n / 5) := fun h2 h3 => by
    have := h5 h2 h3
    exact ⟨kfWhile_dvd_self this, by simp [KfInv, hdiv this h2, hdiv this h3]⟩
  have c3 : ¬ 2 ∣ n → (kfWhile (Nat.sqrt N) n 3 = 3 ∧ KfInv 3 (n / 3)) ∨
      (kfWhile (Nat.sqrt N) n 3 = 5 ∧ (KfInv 5 (n / 5) ∨ n / 5 = 1)) := fun h2 => by
    by_cases h3 : 3 ∣ n
    · left; exact ⟨kfWhile_dvd_self h3, by simp [KfInv, hdiv h3 h2]⟩
    · right
      rw [kfWhile_next h3]
      by_cases hc : kfNextP 3 > Nat.sqrt N
      · rw [if_pos hc]
        have h25 : N < 25 := by
          have : Nat.sqrt N < 5 := hc
          exact Nat.sqrt_lt.mp this
        obtain ⟨k, rfl⟩ := h5 h2 h3
        have : k = 1 := by
          have : k < 5 := by omega
          interval_cases k <;> simp_all
        subst this
        exact ⟨rfl, .inr rfl⟩
      · rw [if_neg hc]
        have := c5 h2 h3
        exact ⟨this.1, .inl this.2⟩
  have c2 : (kfWhile (Nat.sqrt N) n 2 = 2 ∧ KfInv 2 (n / 2)) ∨
      (kfWhile (Nat.sqrt N) n 2 = 3 ∧ (KfInv 3 (n / 3) ∨ n / 3 = 1)) ∨
      (kfWhile (Nat.sqrt N) n 2 = 5 ∧ (KfInv 5 (n / 5) ∨ n / 5 = 1)) := by
    by_cases h2 : 2 ∣ n
    · left; exact ⟨kfWhile_dvd_self h2, by simp [KfInv]⟩
    · rw [kfWhile_next h2]
      by_cases hc : kfNextP 2 > Nat.sqrt N
      · rw [if_pos hc]
        have h9 : N < 9 := by
          have : Nat.sqrt N < 3 := hc
          exact Nat.sqrt_lt.mp this
        have h7 : n ≠ 7 := by
          rintro rfl
          have := hs 7 (by norm_num) (dvd_refl 7)
          omega
        have : n = 3 ∨ n = 5 := by omega
        rcases this with rfl | rfl
        · right; left; exact ⟨rfl, .inr rfl⟩
        · right; right; exact ⟨rfl, .inr rfl⟩
      · rw [if_neg hc]
        rcases c3 h2 with h | h
        · right; left; exact ⟨h.1, .inl h.2⟩
        · right; right; exact h
  obtain ⟨hp, hi2, hi3⟩ := hi
  rcases hp with rfl | rfl | rfl | rfl
  · by_cases h4 : 4 ∣ n
    · rw [kfWhile_dvd_self h4]
      exact ⟨by simp, .inl (by simp [KfInv])⟩
    · rw [kfWhile_next h4]
      by_cases hc : kfNextP 4 > Nat.sqrt N
      · rw [if_pos hc]
        have h4 : N < 4 := by
          have : Nat.sqrt N < 2 := hc
          exact Nat.sqrt_lt.mp this
        exact ⟨by omega, .inr hself⟩
      · rw [if_neg hc]
        change (kfWhile (Nat.sqrt N) n 2 = 2 ∨ _) ∧ (KfInv (kfWhile (Nat.sqrt N) n 2) _ ∨ _)
        rcases c2 with h | h | h
        · exact ⟨.inl h.1, .inl (by rw [show kfNextP 4 = 2 from rfl, h.1]; exact h.2)⟩
        · rw [show kfNextP 4 = 2 from rfl, h.1]; exact ⟨by simp, h.2⟩
        · rw [show kfNextP 4 = 2 from rfl, h.1]; exact ⟨by simp, h.2⟩
  · rcases c2 with h | h | h
    · rw [h.1]; exact ⟨by simp, .inl h.2⟩
    · rw [h.1]; exact ⟨by simp, h.2⟩
    · rw [h.1]; exact ⟨by simp, h.2⟩
  · rcases c3 (hi2 (.inl rfl)) with h | h
    · rw [h.1]; exact ⟨by simp, .inl h.2⟩
    · rw [h.1]; exact ⟨by simp, h.2⟩
  · have h := c5 (hi2 (.inr rfl)) (hi3 rfl)
    rw [h.1]; exact ⟨by simp, .inl h.2⟩

theorem kfLoop_smooth {N : Nat} (slots p n : Nat) (hn : 2 ≤ n) (hN : n ≤ N)
    (hs : ∀ q : Nat, q.Prime → q ∣ n → q = 2 ∨ q = 3 ∨ q = 5) (hi : KfInv p n)
    (l : List (Nat × Nat)) (hl : kfLoop (Nat.sqrt N) slots p n = some l) :
    ∀ e ∈ l, e.1 = 2 ∨ e.1 = 3 ∨ e.1 = 4 ∨ e.1 = 5 := by
  induction slots generalizing p n l with
  | zero => simp [kfLoop] at hl
  | succ k ih =>
    obtain ⟨h1, h2⟩ := kfWhile_smooth hn hN hs hi
    have hd := kfWhile_dvd (Nat.sqrt N) n p
    simp only [kfLoop] at hl
    generalize kfWhile (Nat.sqrt N) n p = p' at *
    split at hl
    · rename_i hgt
      obtain ⟨l', hl', rfl⟩ := Option.map_eq_some_iff.mp hl
      intro e he
      rcases List.mem_cons.mp he with rfl | he
      · exact h1
      · have := Nat.div_le_self n p'
        refine ih p' (n / p') (by omega) (by omega)
          (fun q hq hqd => hs q hq (hqd.trans (Nat.div_dvd_of_dvd hd))) ?_ l' hl' e he
        rcases h2 with h2 | h2
        · exact h2
        · omega
    · cases hl
      intro e he
      simp only [List.mem_singleton] at he
      subst he
      exact h1

end FftMpi
