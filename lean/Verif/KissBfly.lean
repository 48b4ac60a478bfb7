import Verif.Kiss
import Mathlib.RingTheory.RootsOfUnity.Complex
import Mathlib.Tactic.IntervalCases
import Mathlib.Tactic.LinearCombination

/-!
# Lemmas: the butterflies compute DFTs of size 2, 3, 4, 5 and p
-/

noncomputable section

namespace FftMpi

open Complex

/-- `exp(-2 pi i/n)`, for the inverse plan `exp(2 pi i/n)`. -/
def kissRoot (n : Nat) (inverse : Bool) : ℂ :=
  exp ((if inverse then 1 else -1) * (2 * Real.pi * I / n))

theorem kissRoot_prim {n : Nat} (hn : 0 < n) (inv : Bool) : IsPrimitiveRoot (kissRoot n inv) n := by
  have h := Complex.isPrimitiveRoot_exp n hn.ne'
  unfold kissRoot
  cases inv
  · simp only [Bool.false_eq_true, if_false]
    have e : exp (-1 * (2 * Real.pi * I / n)) = (exp (2 * Real.pi * I / n))⁻¹ := by
      rw [← Complex.exp_neg]; ring_nf
    rw [e]; exact h.inv
  · simpa using h

theorem kissRoot_norm (n : Nat) (inv : Bool) : ‖kissRoot n inv‖ = 1 := by
  have e : kissRoot n inv = exp (((((if inv then 1 else -1) * (2 * Real.pi / n) : ℝ)) : ℂ) * I) := by
    unfold kissRoot
    congr 1
    cases inv <;> simp <;> ring
  rw [e, Complex.norm_exp_ofReal_mul_I]

theorem kissRoot_pow {n a b : Nat} (hn : 0 < n) (h : n = a * b) (inv : Bool) :
    kissRoot n inv ^ a = kissRoot b inv := by
  have ha : 0 < a := Nat.pos_of_ne_zero (by rintro rfl; simp at h; omega)
  have hb : 0 < b := Nat.pos_of_ne_zero (by rintro rfl; simp at h; omega)
  have ha' : (a : ℂ) ≠ 0 := by exact_mod_cast ha.ne'
  have hb' : (b : ℂ) ≠ 0 := by exact_mod_cast hb.ne'
  unfold kissRoot
  rw [← Complex.exp_nat_mul, h]
  congr 1
  push_cast
  field_simp

theorem kissRoot_two (inv : Bool) : kissRoot 2 inv = -1 :=
  (kissRoot_prim (by decide) inv).eq_neg_one_of_two_right

theorem kissRoot_four (inv : Bool) : kissRoot 4 inv = if inv then I else -I := by
  unfold kissRoot
  cases inv
  · simp only [Bool.false_eq_true, if_false]
    rw [← Complex.exp_neg_pi_div_two_mul_I]
    congr 1; push_cast; ring
  · simp only [if_true]
    refine Eq.trans ?_ Complex.exp_pi_div_two_mul_I
    congr 1; push_cast; ring

theorem kissRoot_conj (n : Nat) (inv : Bool) :
    (starRingEnd ℂ) (kissRoot n inv) = (kissRoot n inv)⁻¹ :=
  (Complex.inv_eq_conj (kissRoot_norm n inv)).symm

/-! ## The tables of a plan -/

/-- The plan holds the powers of the root `w` of order `nfft`. -/
structure TwOK (st : KissState) : Prop where
  pos : 0 < st.nfft
  tw : ∀ i : Nat, i < st.nfft → st.tw i = some (kissRoot st.nfft st.inverse ^ i)

/-- Root of a plan. -/
def KissState.root (st : KissState) : ℂ := kissRoot st.nfft st.inverse

theorem TwOK.pow_nfft {st : KissState} (h : TwOK st) : st.root ^ st.nfft = 1 :=
  (kissRoot_prim h.pos _).pow_eq_one

/-! ## Loops over independent groups of elements -/

theorem forN_natCast {σ : Type} (m : Nat) (body : Int → σ → Option σ) (s : σ) :
    forN m body s = forFrom 0 m body s := by simp [forN]

theorem forFrom_succ_last {σ : Type} (i : Int) (k : Nat) (body : Int → σ → Option σ) (s : σ) :
    forFrom i (k + 1) body s = (forFrom i k body s).bind fun s' => body (i + k) s' := by
  induction k generalizing i s with
  | zero => simp [forFrom]
  | succ k ih =>
    rw [forFrom]
    conv_rhs => rw [forFrom]
    cases body i s with
    | none => rfl
    | some s' =>
      simp only [Option.bind_some]
      rw [ih]
      congr 1
      funext s''
      congr 1
      push_cast; ring

/-- Invariants of counted loops. -/
theorem forFrom_inv {σ : Type} (P : Nat → σ → Prop) (body : Int → σ → Option σ) (i : Int) (n : Nat) (s : σ)
    (h0 : P 0 s) (hs : ∀ k < n, ∀ s, P k s → ∃ s', body (i + k) s = some s' ∧ P (k + 1) s') :
    ∃ s', forFrom i n body s = some s' ∧ P n s' := by
  induction n with
  | zero => exact ⟨s, rfl, h0⟩
  | succ n ih =>
    obtain ⟨s1, h1, h2⟩ := ih (fun k hk => hs k (by omega))
    obtain ⟨s2, h3, h4⟩ := hs n (by omega) s1 h2
    exact ⟨s2, by rw [forFrom_succ_last, h1]; exact h3, h4⟩

theorem forN_inv {σ : Type} (P : Nat → σ → Prop) (body : Int → σ → Option σ) (n : Nat) (s : σ)
    (h0 : P 0 s) (hs : ∀ k < n, ∀ s, P k s → ∃ s', body k s = some s' ∧ P (k + 1) s') :
    ∃ s', forN n body s = some s' ∧ P n s' := by
  rw [forN_natCast]
  exact forFrom_inv P body 0 n s h0 (by simpa using hs)

/-- Loop over `u < m`; pass `u` changes only the elements `o + u + q*m`, `q < p`.  The state may contain
more than the array. -/
theorem bfly_loopS {S : Type} (arr : S → Mem ℂ) (Inv : S → Prop) (p m : Nat) (o : Int)
    (body : Int → S → Option S) (G : Nat → (Nat → ℂ) → Nat → ℂ)
    (hb : ∀ u < m, ∀ (s : S) (y : Nat → ℂ), Inv s → (∀ q < p, arr s (o + u + q * m) = some (y q)) →
      ∃ s', body u s = some s' ∧ Inv s' ∧ (∀ q < p, arr s' (o + u + q * m) = some (G u y q)) ∧
        ∀ a, (∀ q < p, a ≠ o + u + q * m) → arr s' a = arr s a)
    (s : S) (x : Nat → Nat → ℂ) (hinv : Inv s)
    (hF : ∀ q < p, ∀ u < m, arr s (o + u + q * m) = some (x q u)) :
    ∃ s', forN m body s = some s' ∧
      (∀ q < p, ∀ u < m, arr s' (o + u + q * m) = some (G u (fun r => x r u) q)) ∧
      ∀ a, (a < o ∨ o + p * m ≤ a) → arr s' a = arr s a := by
  obtain ⟨s', h1, hfin⟩ := forN_inv (fun k (t : S) => k ≤ m → Inv t ∧
      (∀ q < p, ∀ u < k, arr t (o + u + q * m) = some (G u (fun r => x r u) q)) ∧
      (∀ q < p, ∀ u < m, k ≤ u → arr t (o + u + q * m) = some (x q u)) ∧
      ∀ a, (a < o ∨ o + p * m ≤ a) → arr t a = arr s a) body m s
    (fun _ => ⟨hinv, fun q _ u hu => absurd hu (by omega), fun q hq u hu _ => hF q hq u hu, fun a _ => rfl⟩)
    (by
      intro k hk F1 hP
      obtain ⟨hi, h2, h3, h4⟩ := hP hk.le
      obtain ⟨F2, k1, ki, k2, k3⟩ := hb k hk F1 (fun r => x r k) hi
        (fun q hq => h3 q hq k (by omega) (le_refl k))
      have hne : ∀ u < m, u ≠ k → ∀ q r : Nat, o + (u : Int) + q * m ≠ o + (k : Int) + r * m := by
        intro u hu huk q r he
        have : (u + q * m : Nat) = k + r * m := by zify; linarith
        have h5 := congrArg (· % m) this
        simp only [Nat.add_mul_mod_self_right, Nat.mod_eq_of_lt hu,
          Nat.mod_eq_of_lt (show k < m by omega)] at h5
        exact huk h5
      refine ⟨F2, k1, fun hk' => ⟨ki, ?_, ?_, ?_⟩⟩
      · intro q hq u hu
        by_cases huk : u = k
        · subst huk; exact k2 q hq
        · rw [k3 _ (fun r _ => hne u (by omega) huk q r)]
          exact h2 q hq u (by omega)
      · intro q hq u hu hku
        rw [k3 _ (fun r _ => hne u hu (by omega) q r)]
        exact h3 q hq u hu (by omega)
      · intro a ha
        rw [k3 a ?_]
        · exact h4 a ha
        · intro q hq he
          have h6 : (q + 1) * m ≤ p * m := Nat.mul_le_mul_right m hq
          have h7 : ((q + 1) * m : Int) ≤ p * m := by exact_mod_cast h6
          have h8 : (0 : Int) ≤ q * m := by positivity
          have h9 : ((q : Int) + 1) * m = q * m + m := by ring
          have : (k : Int) < m := by exact_mod_cast hk
          omega)
  obtain ⟨_, h2, _, h4⟩ := hfin le_rfl
  exact ⟨s', h1, h2, h4⟩

theorem bfly_loop (p m : Nat) (o : Int) (body : Int → Mem ℂ → Option (Mem ℂ))
    (G : Nat → (Nat → ℂ) → Nat → ℂ)
    (hb : ∀ u < m, ∀ (F : Mem ℂ) (y : Nat → ℂ), (∀ q < p, F (o + u + q * m) = some (y q)) →
      ∃ F', body u F = some F' ∧ (∀ q < p, F' (o + u + q * m) = some (G u y q)) ∧
        ∀ a, (∀ q < p, a ≠ o + u + q * m) → F' a = F a)
    (F : Mem ℂ) (x : Nat → Nat → ℂ) (hF : ∀ q < p, ∀ u < m, F (o + u + q * m) = some (x q u)) :
    ∃ F', forN m body F = some F' ∧
      (∀ q < p, ∀ u < m, F' (o + u + q * m) = some (G u (fun r => x r u) q)) ∧
      ∀ a, (a < o ∨ o + p * m ≤ a) → F' a = F a :=
  bfly_loopS id (fun _ => True) p m o body G
    (fun u hu F y _ hy => by
      obtain ⟨F', h1, h2, h3⟩ := hb u hu F y hy
      exact ⟨F', h1, trivial, h2, h3⟩) F x trivial hF

/-- The values a radix `p` butterfly has to produce. -/
def bflyVal (st : KissState) (fstride m p : Nat) (u : Nat) (y : Nat → ℂ) (q : Nat) : ℂ :=
  ∑ r ∈ Finset.range p, (y r * st.root ^ (r * u * fstride)) * (st.root ^ (fstride * m)) ^ (r * q)

/-- What a butterfly does. -/
def BflyOK (st : KissState) (fstride m p : Nat) (o : Int) (f : Mem ℂ → Option (Mem ℂ)) : Prop :=
  ∀ (F : Mem ℂ) (x : Nat → Nat → ℂ), (∀ q < p, ∀ u < m, F (o + u + q * m) = some (x q u)) →
    ∃ F', f F = some F' ∧
      (∀ q < p, ∀ u < m, F' (o + u + q * m) = some (bflyVal st fstride m p u (fun r => x r u) q)) ∧
      ∀ a, (a < o ∨ o + p * m ≤ a) → F' a = F a

theorem TwOK.tw_mul {st : KissState} (h : TwOK st) {fstride m p : Nat} (hN : fstride * (p * m) = st.nfft)
    {r u : Nat} (hr : r < p) (hu : u < m) : st.tw ((r * u * fstride : Nat) : Int) =
      some (st.root ^ (r * u * fstride)) := by
  apply h.tw
  rw [← hN]
  have hf : 0 < fstride := by
    rcases Nat.eq_zero_or_pos fstride with h0 | h0
    · have := h.pos; subst h0; simp at hN; omega
    · exact h0
  have : r * u < p * m := by
    calc r * u ≤ r * m := Nat.mul_le_mul_left r hu.le
      _ < p * m := Nat.mul_lt_mul_of_pos_right hr (by omega)
  calc r * u * fstride = fstride * (r * u) := by ring
    _ < fstride * (p * m) := Nat.mul_lt_mul_of_pos_left this hf

theorem addr_inj {o : Int} {u m : Nat} (hm : 0 < m) (q r : Nat) :
    o + (u : Int) + q * m = o + u + r * m ↔ q = r := by
  constructor
  · intro h
    have h1 : (q * m : Nat) = r * m := by zify; linarith
    exact Nat.eq_of_mul_eq_mul_right hm h1
  · rintro rfl; rfl

theorem TwOK.zeta {st : KissState} (h : TwOK st) {fstride m p : Nat} (hN : fstride * (p * m) = st.nfft) :
    st.root ^ (fstride * m) = kissRoot p st.inverse :=
  kissRoot_pow h.pos (by rw [← hN]; ring) _

theorem kfBfly2_ok {st : KissState} (h : TwOK st) {fstride m : Nat} (hm : 0 < m)
    (hN : fstride * (2 * m) = st.nfft) (o : Int) :
    BflyOK st fstride m 2 o (fun F => kfBfly2 st F o fstride m) := by
  intro F x hF
  simp only [kfBfly2, doWhile, if_neg hm.ne']
  refine bfly_loop 2 m o _ (bflyVal st fstride m 2) ?_ F x hF
  intro u hu F y hy
  have hA := addr_inj (o := o) (u := u) hm
  have t1 := h.tw_mul hN (r := 1) (by decide) hu
  have hz : st.root ^ (fstride * m) = -1 := by rw [h.zeta hN, kissRoot_two]
  obtain ⟨A, hAe⟩ : ∃ A : Nat → Int, ∀ q, o + (u : Int) + q * m = A q := ⟨_, fun q => rfl⟩
  simp only [hAe] at hy hA ⊢
  have e0 : o + (u : Int) = A 0 := by rw [← hAe]; simp
  have e1 : A 0 + (m : Int) = A 1 := by rw [← hAe, ← hAe]; push_cast; ring
  have et : (u : Int) * fstride = ((1 * u * fstride : Nat) : Int) := by push_cast; ring
  simp only [e0, e1, et, t1, hy 0 (by decide), hy 1 (by decide), Option.bind_eq_bind, Option.bind_some]
  simp only [Mem.set, hy 0 (by decide), hy 1 (by decide), Option.isSome_some, if_true, Option.bind_some,
    Function.update_apply, hA, Nat.zero_ne_one, if_false]
  refine ⟨_, rfl, ?_, ?_⟩
  · intro q hq
    interval_cases q
    · simp [bflyVal, Finset.sum_range_succ, hz]
    · simp [bflyVal, Finset.sum_range_succ, hz, Function.update_apply, hA]
      ring
  · intro a ha
    simp [Function.update_apply, ha 0 (by decide), ha 1 (by decide)]

/-- Powers of a third root of unity. -/
theorem root3 (inv : Bool) : (kissRoot 3 inv).re = -(1 / 2) ∧
    kissRoot 3 inv ^ 2 = (starRingEnd ℂ) (kissRoot 3 inv) ∧ kissRoot 3 inv ^ 3 = 1 := by
  have hp := kissRoot_prim (n := 3) (by decide) inv
  have h3 := hp.pow_eq_one
  have hc := kissRoot_conj 3 inv
  have h0 : kissRoot 3 inv ≠ 0 := hp.ne_zero (by decide)
  have h2 : kissRoot 3 inv ^ 2 = (starRingEnd ℂ) (kissRoot 3 inv) := by
    rw [hc]; field_simp; exact h3
  refine ⟨?_, h2, h3⟩
  have hs := hp.geom_sum_eq_zero (by decide)
  simp only [Finset.sum_range_succ, Finset.sum_range_zero, pow_zero, pow_one, zero_add, h2] at hs
  have := congrArg Complex.re hs
  simp only [add_re, one_re, conj_re, zero_re] at this
  linarith

theorem kfBfly3_ok {st : KissState} (h : TwOK st) {fstride m : Nat} (hm : 0 < m)
    (hN : fstride * (3 * m) = st.nfft) (o : Int) :
    BflyOK st fstride m 3 o (fun F => kfBfly3 st F o fstride m) := by
  intro F x hF
  have hz := h.zeta hN
  obtain ⟨hre, hsq, hcu⟩ := root3 st.inverse
  rw [← hz] at hre hsq hcu
  have hpos := h.pos
  have htz : st.tw ((fstride : Int) * m) = some (st.root ^ (fstride * m)) := by
    have := h.tw (fstride * m) (by
      rw [← hN]
      have : 0 < fstride * m := by
        rcases Nat.eq_zero_or_pos (fstride * m) with h0 | h0
        · have : fstride * (3 * m) = 3 * (fstride * m) := by ring
          omega
        · exact h0
      have : fstride * (3 * m) = 3 * (fstride * m) := by ring
      omega)
    push_cast at this
    exact this
  simp only [kfBfly3, doWhile, if_neg hm.ne', htz, Option.bind_some]
  refine bfly_loop 3 m o _ (bflyVal st fstride m 3) ?_ F x hF
  intro u hu F y hy
  have hA := addr_inj (o := o) (u := u) hm
  have t1 := h.tw_mul hN (r := 1) (by decide) hu
  have t2 := h.tw_mul hN (r := 2) (by decide) hu
  obtain ⟨A, hAe⟩ : ∃ A : Nat → Int, ∀ q, o + (u : Int) + q * m = A q := ⟨_, fun q => rfl⟩
  simp only [hAe] at hy hA ⊢
  have e0 : o + (u : Int) = A 0 := by rw [← hAe]; simp
  have e1 : A 0 + (m : Int) = A 1 := by rw [← hAe, ← hAe]; push_cast; ring
  have e2 : A 0 + 2 * (m : Int) = A 2 := by rw [← hAe, ← hAe]; push_cast; ring
  have et : (u : Int) * fstride = ((1 * u * fstride : Nat) : Int) := by push_cast; ring
  have et2 : (u : Int) * (fstride * 2) = ((2 * u * fstride : Nat) : Int) := by push_cast; ring
  simp only [e0, e1, e2, et, et2, t1, t2, hy 0 (by decide), hy 1 (by decide), hy 2 (by decide),
    Option.bind_eq_bind, Option.bind_some]
  simp only [Mem.set, hy 0 (by decide), hy 1 (by decide), hy 2 (by decide), Option.isSome_some, if_true,
    Option.bind_some, Function.update_apply, hA, Nat.zero_ne_one, if_false, OfNat.ofNat_ne_zero,
    OfNat.ofNat_ne_one, Nat.reduceEqDiff, one_ne_zero]
  refine ⟨_, rfl, ?_, ?_⟩
  · simp only [bflyVal]
    generalize st.root ^ (fstride * m) = z at *
    have h4 : z ^ 4 = z := by rw [show z ^ 4 = z ^ 3 * z by ring, hcu, one_mul]
    intro q hq
    interval_cases q
    · simp [bflyVal, Finset.sum_range_succ, Function.update_apply, hA]
      ring
    · simp only [bflyVal, Finset.sum_range_succ, Function.update_apply, hA, Finset.sum_range_zero,
        Nat.reduceMul, pow_zero, pow_one, hsq, if_true, zero_mul, mul_one, zero_add]
      congr 1
      apply Complex.ext <;> simp [hre] <;> ring
    · simp only [bflyVal, Finset.sum_range_succ, Function.update_apply, hA, Finset.sum_range_zero,
        Nat.reduceMul, pow_zero, pow_one, hsq, h4, if_true, zero_mul, mul_one, zero_add, one_mul,
        OfNat.ofNat_ne_one, if_false]
      congr 1
      apply Complex.ext <;> simp [hre] <;> ring
  · intro a ha
    simp [Function.update_apply, ha 0 (by decide), ha 1 (by decide), ha 2 (by decide)]

theorem kfBfly4_ok {st : KissState} (h : TwOK st) {fstride m : Nat} (hm : 0 < m)
    (hN : fstride * (4 * m) = st.nfft) (o : Int) :
    BflyOK st fstride m 4 o (fun F => kfBfly4 st F o fstride m) := by
  intro F x hF
  have hz := h.zeta hN
  rw [kissRoot_four] at hz
  simp only [kfBfly4, doWhile, if_neg hm.ne']
  refine bfly_loop 4 m o _ (bflyVal st fstride m 4) ?_ F x hF
  intro u hu F y hy
  have hA := addr_inj (o := o) (u := u) hm
  have t1 := h.tw_mul hN (r := 1) (by decide) hu
  have t2 := h.tw_mul hN (r := 2) (by decide) hu
  have t3 := h.tw_mul hN (r := 3) (by decide) hu
  obtain ⟨A, hAe⟩ : ∃ A : Nat → Int, ∀ q, o + (u : Int) + q * m = A q := ⟨_, fun q => rfl⟩
  simp only [hAe] at hy hA ⊢
  have e0 : o + (u : Int) = A 0 := by rw [← hAe]; simp
  have e1 : A 0 + (m : Int) = A 1 := by rw [← hAe, ← hAe]; push_cast; ring
  have e2 : A 0 + 2 * (m : Int) = A 2 := by rw [← hAe, ← hAe]; push_cast; ring
  have e3 : A 0 + 3 * (m : Int) = A 3 := by rw [← hAe, ← hAe]; push_cast; ring
  have et : (u : Int) * fstride = ((1 * u * fstride : Nat) : Int) := by push_cast; ring
  have et2 : (u : Int) * (fstride * 2) = ((2 * u * fstride : Nat) : Int) := by push_cast; ring
  have et3 : (u : Int) * (fstride * 3) = ((3 * u * fstride : Nat) : Int) := by push_cast; ring
  simp only [e0, e1, e2, e3, et, et2, et3, t1, t2, t3, hy 0 (by decide), hy 1 (by decide),
    hy 2 (by decide), hy 3 (by decide), Option.bind_eq_bind, Option.bind_some]
  have d01 : A 0 ≠ A 1 := by rw [Ne, hA]; decide
  cases hinv : st.inverse <;>
  · simp only [hinv, Bool.false_eq_true, if_true, if_false] at hz ⊢
    simp only [Mem.set, hy 0 (by decide), hy 1 (by decide), hy 2 (by decide), hy 3 (by decide),
      Option.isSome_some, if_true, Option.bind_some, Function.update_apply, hA, Nat.zero_ne_one, if_false,
      OfNat.ofNat_ne_zero, OfNat.ofNat_ne_one, Nat.reduceEqDiff, one_ne_zero, OfNat.one_ne_ofNat,
      OfNat.zero_ne_ofNat]
    refine ⟨_, rfl, ?_, ?_⟩
    · intro q hq
      have I4 : I ^ 4 = 1 := Complex.I_pow_four
      have I3 : I ^ 3 = -I := by rw [pow_succ, I_sq]; ring
      have I6 : I ^ 6 = -1 := by rw [show I ^ 6 = I ^ 4 * I ^ 2 by ring, I4, I_sq]; ring
      have I9 : I ^ 9 = I := by rw [show I ^ 9 = I ^ 4 * I ^ 4 * I by ring, I4]; ring
      have J2 : (-I) ^ 2 = -1 := by rw [neg_pow, I_sq]; norm_num
      have J3 : (-I) ^ 3 = I := by rw [neg_pow, I3]; norm_num
      have J4 : (-I) ^ 4 = 1 := by rw [neg_pow, I4]; norm_num
      have J6 : (-I) ^ 6 = -1 := by rw [neg_pow, I6]; norm_num
      have J9 : (-I) ^ 9 = -I := by rw [neg_pow, I9]; norm_num
      interval_cases q <;>
      · simp only [bflyVal, Finset.sum_range_succ, Function.update_apply, hA, Finset.sum_range_zero,
          Nat.reduceMul, pow_zero, pow_one, if_true, zero_mul, mul_one, zero_add, one_mul,
          OfNat.ofNat_ne_one, if_false, hz, OfNat.ofNat_ne_zero, Nat.reduceEqDiff, one_ne_zero,
          OfNat.one_ne_ofNat, OfNat.zero_ne_ofNat, Nat.zero_ne_one, mul_zero]
        try simp only [I_sq, I3, I4, I6, I9, J2, J3, J4, J6, J9]
        congr 1
        apply Complex.ext <;> simp <;> ring
    · intro a ha
      simp [Function.update_apply, ha 0 (by decide), ha 1 (by decide), ha 2 (by decide),
        ha 3 (by decide)]

/-- Powers of a fifth root of unity. -/
theorem root5 (inv : Bool) : kissRoot 5 inv ^ 4 = (starRingEnd ℂ) (kissRoot 5 inv) ∧
    kissRoot 5 inv ^ 3 = (starRingEnd ℂ) (kissRoot 5 inv ^ 2) ∧ kissRoot 5 inv ^ 5 = 1 := by
  have hp := kissRoot_prim (n := 5) (by decide) inv
  have h5 := hp.pow_eq_one
  have hc := kissRoot_conj 5 inv
  have h0 : kissRoot 5 inv ≠ 0 := hp.ne_zero (by decide)
  refine ⟨?_, ?_, h5⟩
  · rw [hc]; field_simp; exact h5
  · rw [map_pow, hc]; field_simp; exact h5

theorem kfBfly5_ok {st : KissState} (h : TwOK st) {fstride m : Nat} (hm : 0 < m)
    (hN : fstride * (5 * m) = st.nfft) (o : Int) :
    BflyOK st fstride m 5 o (fun F => kfBfly5 st F o fstride m) := by
  intro F x hF
  have hz := h.zeta hN
  obtain ⟨hq4, hq3, hq5⟩ := root5 st.inverse
  rw [← hz] at hq3 hq4 hq5
  have hpos := h.pos
  have hf : 0 < fstride * m := by
    rcases Nat.eq_zero_or_pos (fstride * m) with h0 | h0
    · have : fstride * (5 * m) = 5 * (fstride * m) := by ring
      omega
    · exact h0
  have htz : st.tw ((fstride : Int) * m) = some (st.root ^ (fstride * m)) := by
    have := h.tw (fstride * m) (by
      rw [← hN]
      have : fstride * (5 * m) = 5 * (fstride * m) := by ring
      omega)
    push_cast at this
    exact this
  have htz2 : st.tw ((fstride : Int) * 2 * m) = some ((st.root ^ (fstride * m)) ^ 2) := by
    have := h.tw (fstride * 2 * m) (by
      rw [← hN]
      have : fstride * (5 * m) = 5 * (fstride * m) := by ring
      have : fstride * 2 * m = 2 * (fstride * m) := by ring
      omega)
    push_cast at this
    rw [this, ← pow_mul]
    congr 2; ring
  simp only [kfBfly5, htz, htz2, Option.bind_some]
  refine bfly_loop 5 m o _ (bflyVal st fstride m 5) ?_ F x hF
  intro u hu F y hy
  have hA := addr_inj (o := o) (u := u) hm
  have t1 := h.tw_mul hN (r := 1) (by decide) hu
  have t2 := h.tw_mul hN (r := 2) (by decide) hu
  have t3 := h.tw_mul hN (r := 3) (by decide) hu
  have t4 := h.tw_mul hN (r := 4) (by decide) hu
  obtain ⟨A, hAe⟩ : ∃ A : Nat → Int, ∀ q, o + (u : Int) + q * m = A q := ⟨_, fun q => rfl⟩
  simp only [hAe] at hy hA ⊢
  have e0 : o + (u : Int) = A 0 := by rw [← hAe]; simp
  have e1 : o + (m : Int) + u = A 1 := by rw [← hAe]; push_cast; ring
  have e2 : o + 2 * (m : Int) + u = A 2 := by rw [← hAe]; push_cast; ring
  have e3 : o + 3 * (m : Int) + u = A 3 := by rw [← hAe]; push_cast; ring
  have e4 : o + 4 * (m : Int) + u = A 4 := by rw [← hAe]; push_cast; ring
  have et : (u : Int) * fstride = ((1 * u * fstride : Nat) : Int) := by push_cast; ring
  have et2 : 2 * (u : Int) * fstride = ((2 * u * fstride : Nat) : Int) := by push_cast; ring
  have et3 : 3 * (u : Int) * fstride = ((3 * u * fstride : Nat) : Int) := by push_cast; ring
  have et4 : 4 * (u : Int) * fstride = ((4 * u * fstride : Nat) : Int) := by push_cast; ring
  simp only [e0, e1, e2, e3, e4, et, et2, et3, et4, t1, t2, t3, t4, hy 0 (by decide), hy 1 (by decide),
    hy 2 (by decide), hy 3 (by decide), hy 4 (by decide), Option.bind_eq_bind, Option.bind_some]
  simp only [Mem.set, hy 0 (by decide), hy 1 (by decide), hy 2 (by decide), hy 3 (by decide),
    hy 4 (by decide), Option.isSome_some, if_true, Option.bind_some, Function.update_apply, hA,
    Nat.zero_ne_one, if_false, OfNat.ofNat_ne_zero, OfNat.ofNat_ne_one, Nat.reduceEqDiff, one_ne_zero,
    OfNat.one_ne_ofNat, OfNat.zero_ne_ofNat]
  refine ⟨_, rfl, ?_, ?_⟩
  · simp only [bflyVal]
    generalize st.root ^ (fstride * m) = z at *
    have h6 : z ^ 6 = z := by rw [show z ^ 6 = z ^ 5 * z by ring, hq5, one_mul]
    have h8 : z ^ 8 = z ^ 3 := by rw [show z ^ 8 = z ^ 5 * z ^ 3 by ring, hq5, one_mul]
    have h9 : z ^ 9 = z ^ 4 := by rw [show z ^ 9 = z ^ 5 * z ^ 4 by ring, hq5, one_mul]
    have h12 : z ^ 12 = z ^ 2 := by
      rw [show z ^ 12 = z ^ 5 * z ^ 5 * z ^ 2 by ring, hq5, one_mul, one_mul]
    have h16 : z ^ 16 = z := by
      rw [show z ^ 16 = z ^ 5 * z ^ 5 * z ^ 5 * z by ring, hq5, one_mul, one_mul, one_mul]
    intro q hq
    interval_cases q <;>
    · simp only [bflyVal, Finset.sum_range_succ, Function.update_apply, hA, Finset.sum_range_zero,
        Nat.reduceMul, pow_zero, pow_one, if_true, zero_mul, mul_one, zero_add, one_mul,
        OfNat.ofNat_ne_one, if_false, OfNat.ofNat_ne_zero, Nat.reduceEqDiff, one_ne_zero,
        OfNat.one_ne_ofNat, OfNat.zero_ne_ofNat, Nat.zero_ne_one, mul_zero, h6, h8, h9, h12, h16,
        hq3, hq4]
      generalize z ^ 2 = z2
      congr 1
      apply Complex.ext <;> simp <;> ring
  · intro a ha
    simp [Function.update_apply, ha 0 (by decide), ha 1 (by decide), ha 2 (by decide),
      ha 3 (by decide), ha 4 (by decide)]

/-- One output of the generic butterfly. -/
theorem kfGenericOut_ok {st : KissState} (h : TwOK st) {fstride p k : Nat} (hp : 0 < p)
    (hk : fstride * k < st.nfft) (scratch : Mem ℂ) (y : Nat → ℂ)
    (hsc : ∀ q : Nat, q < p → scratch q = some (y q)) (o : Int) (F : Mem ℂ)
    (hF : (F (o + k)).isSome) :
    ∃ F', kfGenericOut st scratch fstride p o k F = some F' ∧
      F' (o + k) = some (∑ r ∈ Finset.range p, y r * st.root ^ (r * (fstride * k))) ∧
      ∀ a, a ≠ o + k → F' a = F a := by
  have h0 := hsc 0 hp
  simp only [Nat.cast_zero] at h0
  unfold kfGenericOut
  simp only [h0, Option.bind_eq_bind, Option.bind_some, Mem.set_eq hF]
  obtain ⟨s', h1, hfin⟩ := forFrom_inv
    (fun j (s : Int × Mem ℂ) => j ≤ p - 1 → s.1 = ((j * (fstride * k) % st.nfft : Nat) : Int) ∧
      s.2 (o + k) = some (∑ r ∈ Finset.range (j + 1), y r * st.root ^ (r * (fstride * k))) ∧
      ∀ a, a ≠ o + k → s.2 a = F a)
    (fun q (s : Int × Mem ℂ) => do
      let sq ← scratch q
      let w ← st.tw (if s.1 + fstride * k ≥ st.nfft then s.1 + fstride * k - st.nfft
        else s.1 + fstride * k)
      let c ← s.2 (o + k)
      let F ← s.2.set (o + k) (c + sq * w)
      some (if s.1 + fstride * k ≥ st.nfft then s.1 + fstride * k - st.nfft
        else s.1 + fstride * k, F)) 1 (p - 1)
    ((0 : Int), Function.update F (o + k) (some (y 0)))
    (fun _ => ⟨by simp, by simp, fun a ha => by simp [Function.update_apply, ha]⟩)
    (by
      intro j hj s hP
      obtain ⟨g1, g2, g3⟩ := hP hj.le
      have hidx : (if s.1 + (fstride : Int) * k ≥ st.nfft then s.1 + fstride * k - st.nfft
          else s.1 + fstride * k) = (((j + 1) * (fstride * k) % st.nfft : Nat) : Int) := by
        have hlt := Nat.mod_lt (j * (fstride * k)) h.pos
        have e : ((j + 1) * (fstride * k)) % st.nfft =
            (j * (fstride * k) % st.nfft + fstride * k) % st.nfft := by
          rw [show (j + 1) * (fstride * k) = j * (fstride * k) + fstride * k by ring, Nat.add_mod,
            Nat.mod_eq_of_lt hk]
        rw [e, g1]
        have e3 : ((fstride : Int) * k) = ((fstride * k : Nat) : Int) := by push_cast; rfl
        rw [e3]
        generalize j * (fstride * k) % st.nfft = a at *
        generalize fstride * k = b at *
        by_cases hc : a + b ≥ st.nfft
        · rw [if_pos (by omega), Nat.mod_eq_sub_mod hc, Nat.mod_eq_of_lt (by omega)]
          omega
        · rw [if_neg (by omega), Nat.mod_eq_of_lt (by omega)]
          omega
      have hsq := hsc (j + 1) (by omega)
      have e1 : (1 : Int) + j = ((j + 1 : Nat) : Int) := by push_cast; ring
      have hw := h.tw ((j + 1) * (fstride * k) % st.nfft) (Nat.mod_lt _ h.pos)
      have hroot : kissRoot st.nfft st.inverse ^ ((j + 1) * (fstride * k) % st.nfft) =
          st.root ^ ((j + 1) * (fstride * k)) := by
        conv_rhs => rw [← Nat.mod_add_div ((j + 1) * (fstride * k)) st.nfft]
        rw [pow_add, pow_mul, h.pow_nfft, one_pow, mul_one]; rfl
      have hs2 : (s.2 (o + k)).isSome := by rw [g2]; rfl
      rw [hroot] at hw
      simp only [hidx, e1, hsq, hw, g2, Option.bind_eq_bind, Option.bind_some, Mem.set_eq hs2]
      refine ⟨_, rfl, fun _ => ⟨rfl, ?_, ?_⟩⟩
      · simp only [Function.update_self]
        rw [Finset.sum_range_succ _ (j + 1)]
      · intro a ha
        simp only [Function.update_apply, if_neg ha]
        exact g3 a ha)
  obtain ⟨h2, h3, h4⟩ := hfin le_rfl
  refine ⟨s'.2, ?_, ?_, h4⟩
  · simp only [Option.bind_eq_bind] at h1
    rw [h1]; rfl
  · rw [h3, show p - 1 + 1 = p by omega]

theorem kfBflyGeneric_ok {st : KissState} (h : TwOK st) (junk : Int → ℂ) {fstride m p : Nat} (hp : 0 < p)
    (hm : 0 < m) (hN : fstride * (p * m) = st.nfft) (o : Int) :
    BflyOK st fstride m p o (fun F => kfBflyGeneric st junk F o fstride m p) := by
  intro F x hF
  obtain ⟨s', h1, h2, h3⟩ := bfly_loopS (S := Mem ℂ × Mem ℂ) Prod.snd
    (fun s => ∀ q : Nat, q < p → (s.1 q).isSome) p m o
    (fun u (s : Mem ℂ × Mem ℂ) => do
      let scratch ← forN p (fun q1 sc => copy1 s.2 sc q1 (o + (u + q1 * m))) s.1
      let F ← forN p (fun q1 F => kfGenericOut st scratch fstride p o (u + q1 * m) F) s.2
      some (scratch, F)) (bflyVal st fstride m p) (by
      intro u hu s y hi hy
      -- fill scratch
      obtain ⟨sc, c1, c2, c3⟩ := forN_inv (fun k (sc : Mem ℂ) =>
          (∀ q : Nat, q < k → q < p → sc q = some (y q)) ∧ ∀ q : Nat, q < p → (sc q).isSome)
        (fun q1 sc => copy1 s.2 sc q1 (o + (u + q1 * m))) p s.1
        ⟨fun q hq => absurd hq (by omega), hi⟩
        (by
          intro k hk sc ⟨g1, g2⟩
          have e : o + ((u : Int) + k * m) = o + u + k * m := by ring
          refine ⟨Function.update sc k (some (y k)), ?_, ?_, ?_⟩
          · simp only [copy1, e, hy k hk, Option.bind_some, Mem.set_eq (g2 k hk)]
          · intro q hq hqp
            by_cases hqk : q = k
            · subst hqk; simp
            · have : (q : Int) ≠ k := by exact_mod_cast hqk
              simp only [Function.update_apply, if_neg this]
              exact g1 q (by omega) hqp
          · intro q hq
            by_cases hqk : (q : Int) = k
            · rw [hqk]; simp
            · simp only [Function.update_apply, if_neg hqk]
              exact g2 q hq)
      -- outputs
      have hkN : ∀ q < p, fstride * (u + q * m) < st.nfft := by
        intro q hq
        rw [← hN]
        have hf : 0 < fstride := by
          rcases Nat.eq_zero_or_pos fstride with h0 | h0
          · have := h.pos; subst h0; simp at hN; omega
          · exact h0
        refine Nat.mul_lt_mul_of_pos_left ?_ hf
        have : (q + 1) * m ≤ p * m := Nat.mul_le_mul_right m hq
        have : (q + 1) * m = q * m + m := by ring
        omega
      have hval : ∀ q, (∑ r ∈ Finset.range p, y r * st.root ^ (r * (fstride * (u + q * m)))) =
          bflyVal st fstride m p u y q := by
        intro q
        unfold bflyVal
        refine Finset.sum_congr rfl fun r _ => ?_
        rw [mul_assoc, ← pow_mul, ← pow_add]
        congr 2; ring
      obtain ⟨F', d1, d2, d3, d4⟩ := forN_inv (fun k (G : Mem ℂ) =>
          (∀ q : Nat, q < k → q < p → G (o + u + q * m) = some (bflyVal st fstride m p u y q)) ∧
          (∀ q : Nat, q < p → (G (o + u + q * m)).isSome) ∧
          ∀ a, (∀ q < p, a ≠ o + u + q * m) → G a = s.2 a)
        (fun q1 F => kfGenericOut st sc fstride p o (u + q1 * m) F) p s.2
        ⟨fun q hq => absurd hq (by omega), fun q hq => by rw [hy q hq]; rfl, fun a _ => rfl⟩
        (by
          intro k hk G ⟨g1, g2, g3⟩
          have e : (((u + k * m : Nat)) : Int) = (u : Int) + k * m := by push_cast; ring
          have e' : o + ((u : Int) + k * m) = o + u + k * m := by ring
          have hG := g2 k hk
          rw [← e', ← e] at hG
          obtain ⟨G', f1, f2, f3⟩ := kfGenericOut_ok h hp (hkN k hk) sc y
            (fun q hq => c2 q hq hq) o G hG
          rw [e] at f1 f2 f3
          rw [e'] at f2 f3
          refine ⟨G', f1, ?_, ?_, ?_⟩
          · intro q hq hqp
            by_cases hqk : q = k
            · subst hqk; rw [f2, hval]
            · rw [f3 _ (by rw [Ne, addr_inj hm]; exact hqk)]
              exact g1 q (by omega) hqp
          · intro q hq
            by_cases hqk : q = k
            · subst hqk; rw [f2]; rfl
            · rw [f3 _ (by rw [Ne, addr_inj hm]; exact hqk)]
              exact g2 q hq
          · intro a ha
            rw [f3 _ (ha k hk)]
            exact g3 a ha)
      refine ⟨(sc, F'), ?_, c3, fun q hq => d2 q hq hq, d4⟩
      simp only [c1, d1, Option.bind_eq_bind, Option.bind_some])
    (Mem.ofFn p junk, F) x (by
      intro q hq
      simp only [Mem.ofFn]
      rw [if_pos (by omega)]; rfl) hF
  exact ⟨s'.2, by simp only [kfBflyGeneric]; rw [h1]; rfl, h2, h3⟩

/-- All butterflies. -/
theorem kfBfly_ok {st : KissState} (h : TwOK st) (junk : Int → ℂ) {fstride m p : Nat} (hp : 0 < p)
    (hm : 0 < m) (hN : fstride * (p * m) = st.nfft) (o : Int) :
    BflyOK st fstride m p o (fun F => kfBfly st junk F o fstride m p) := by
  unfold kfBfly
  by_cases h2 : p = 2
  · subst h2; simpa using kfBfly2_ok h hm hN o
  by_cases h3 : p = 3
  · subst h3; simpa using kfBfly3_ok h hm hN o
  by_cases h4 : p = 4
  · subst h4; simpa using kfBfly4_ok h hm hN o
  by_cases h5 : p = 5
  · subst h5; simpa using kfBfly5_ok h hm hN o
  simp only [if_neg h2, if_neg h3, if_neg h4, if_neg h5]
  exact kfBflyGeneric_ok h junk hp hm hN o

end FftMpi
