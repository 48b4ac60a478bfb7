import Verif.L2

/-!
# Lemmas: rounding errors of the built-in 1d FFT in the Euclidean norm
-/

noncomputable section

namespace FftMpi

open Complex Finset

theorem l2_swap {ι κ : Type} (s : Finset ι) (t : Finset κ) (f : ι → κ → ℝ) :
    l2 s (fun i => l2 t fun j => f i j) = l2 t fun j => l2 s fun i => f i j := by
  rw [l2_l2, l2_l2, sum_comm]

/-- A range in two steps. -/
theorem l2_range_split (p m : Nat) (f : Nat → ℝ) :
    l2 (range (p * m)) f = l2 (range p) fun q => l2 (range m) fun t => f (q + p * t) := by
  rw [l2_l2]
  unfold l2
  rw [sum_range_split_real]

theorem kissRoot_dft (n : Nat) (inv : Bool) (j k : Nat) :
    kissRoot n inv ^ (j * k) = exp ((if inv then 1 else -1) * (2 * Real.pi * I * j * k / n)) := by
  unfold kissRoot
  rw [← Complex.exp_nat_mul]
  congr 1
  push_cast
  ring

/-- The exact transform of a stage is a transform of its length. -/
theorem workVal_dft1 {st : KissState} (h : TwIn st) {fstride n : Nat} (hN : fstride * n = st.nfft) (x : Nat → ℂ)
    (k : Nat) : workVal st fstride n x k = dft1 n st.inverse x k := by
  have hz : st.root ^ fstride = kissRoot n st.inverse := kissRoot_pow h.pos hN.symm _
  unfold workVal dft1
  refine sum_congr rfl fun j _ => ?_
  rw [pow_mul, hz, kissRoot_dft]

/-- The exact butterfly is a transform of the inputs times twiddles. -/
theorem bflyVal_dft1 {st : KissState} (h : TwIn st) {fstride m p : Nat} (hN : fstride * (p * m) = st.nfft) (i : Nat)
    (y : Nat → ℂ) (q : Nat) :
    bflyVal st fstride m p i y q = dft1 p st.inverse (fun r => y r * st.root ^ (r * i * fstride)) q := by
  unfold bflyVal dft1
  refine sum_congr rfl fun r _ => ?_
  rw [root_zeta h hN, kissRoot_dft]

/-- A butterfly multiplies the norm with the square root of the radix. -/
theorem l2_bflyVal {st : KissState} (h : TwIn st) {fstride m p : Nat} (hN : fstride * (p * m) = st.nfft) (i : Nat)
    (y : Nat → ℂ) :
    l2 (range p) (fun q => ‖bflyVal st fstride m p i y q‖) = Real.sqrt p * l2 (range p) fun r => ‖y r‖ := by
  rw [l2_congr fun q _ => by rw [bflyVal_dft1 h hN], l2_dft1]
  congr 1
  refine l2_congr fun r _ => ?_
  rw [norm_mul, root_norm, mul_one]

theorem bflyVal_sub (st : KissState) (fstride m p i q : Nat) (y y' : Nat → ℂ) :
    bflyVal st fstride m p i y' q - bflyVal st fstride m p i y q =
      bflyVal st fstride m p i (fun r => y' r - y r) q := by
  unfold bflyVal
  rw [← sum_sub_distrib]
  exact sum_congr rfl fun r _ => by ring

/-- Growth of the error in the stages of a plan, in the Euclidean norm. -/
def growth2 (u d : ℝ) (factors : List (Nat × Nat)) : ℝ :=
  (factors.map fun f => 1 + Real.sqrt f.1 * stageErr u d f.1).prod

section
variable {a : Arith} {u d tiny big : ℝ}

theorem one_le_sqrt {p : Nat} (hp : 0 < p) : 1 ≤ Real.sqrt p := by
  rw [Real.one_le_sqrt]
  exact_mod_cast hp

theorem one_le_growth2 (hu : 0 ≤ u) (hd : 0 ≤ d) (factors : List (Nat × Nat)) : 1 ≤ growth2 u d factors := by
  induction factors with
  | nil => simp [growth2]
  | cons f l ih =>
    have := mul_nonneg (Real.sqrt_nonneg f.1) (stageErr_nonneg hu hd f.1)
    unfold growth2 at ih ⊢
    rw [List.map_cons, List.prod_cons]
    nlinarith

/-- One stage. -/
theorem bfly_l2 (R : RoundOK a u tiny big) (hd : 0 ≤ d) {st : KissState} (h : TwIn st) (hT : TwNear st d)
    {fstride m p : Nat} (hp : 0 < p) (hN : fstride * (p * m) = st.nfft) {i : Nat} (hi : i < m) (y y' : Nat → ℂ)
    (hb : 2 * (1 + stageErr u d p) * (∑ r ∈ range p, (‖y' r‖ + 2 * tiny)) ≤ big) :
    l2 (range p) (fun q => ‖a.bfly st fstride m p i y' q - bflyVal st fstride m p i y q‖) ≤
      Real.sqrt p * ((Real.sqrt p * stageErr u d p) * l2 (range p) (fun r => ‖y' r‖ + 2 * tiny) +
        l2 (range p) fun r => ‖y' r - y r‖) := by
  have hη := stageErr_nonneg R.u0 hd p
  have hA := l2_nonneg (range p) fun r => ‖y' r‖ + 2 * tiny
  have h1 : ∀ q ∈ range p, ‖a.bfly st fstride m p i y' q - bflyVal st fstride m p i y q‖ ≤
      stageErr u d p * (Real.sqrt p * l2 (range p) fun r => ‖y' r‖ + 2 * tiny) +
        ‖bflyVal st fstride m p i (fun r => y' r - y r) q‖ := by
    intro q hq
    have e1 := bfly_err R hd h hT hp hN hi (mem_range.mp hq) y' hb
    have e2 := norm_add_le (a.bfly st fstride m p i y' q - bflyVal st fstride m p i y' q)
      (bflyVal st fstride m p i y' q - bflyVal st fstride m p i y q)
    rw [sub_add_sub_cancel, bflyVal_sub] at e2
    have e3 := sum_le_l2 (range p) fun r => ‖y' r‖ + 2 * tiny
    rw [card_range] at e3
    have := mul_le_mul_of_nonneg_left e3 hη
    linarith
  refine (l2_mono' (fun _ _ => norm_nonneg _) h1).trans ((l2_add _ _ _).trans ?_)
  rw [l2_const _ (by positivity), card_range, l2_bflyVal h hN]
  apply le_of_eq
  ring

/-- All stages. -/
theorem work_l2 (R : RoundOK a u tiny big) (hd : 0 ≤ d) {st : KissState} (h : TwIn st) (hT : TwNear st d)
    (factors : List (Nat × Nat)) : ∀ (n fstride : Nat) (x : Nat → ℂ), FacChain n factors →
    fstride * n = st.nfft →
    2 * growth u d factors * (∑ j ∈ range n, (‖x j‖ + 2 * tiny)) ≤ big →
    l2 (range n) (fun k => ‖a.work st factors fstride x k - workVal st fstride n x k‖) ≤
      (growth2 u d factors - 1) * (Real.sqrt n * l2 (range n) fun j => ‖x j‖ + 2 * tiny) := by
  have hu := R.u0
  have ht := R.t0
  induction factors with
  | nil => intro n fstride x hc; exact absurd hc (by simp [FacChain])
  | cons pm rest ih =>
    obtain ⟨p, m⟩ := pm
    intro n fstride x hc hN hb
    obtain ⟨hp, hm, hpm, hrest⟩ := hc
    subst hpm
    have hη := stageErr_nonneg hu hd p
    have hg : growth u d ((p, m) :: rest) = (1 + stageErr u d p) * growth u d rest := by
      simp [growth]
    have hg2 : growth2 u d ((p, m) :: rest) = (1 + Real.sqrt p * stageErr u d p) * growth2 u d rest := by
      simp [growth2]
    have hgr := one_le_growth hu hd rest
    have hgr2 := one_le_growth2 hu hd rest
    -- inputs of the butterflies
    obtain ⟨y', hy'⟩ : ∃ y' : Nat → Nat → ℂ, y' = fun i r => if m = 1 then x r else
      a.work st rest (fstride * p) (fun t => x (r + p * t)) i := ⟨_, rfl⟩
    obtain ⟨y, hy⟩ : ∃ y : Nat → Nat → ℂ, y = fun i r =>
      workVal st (fstride * p) m (fun t => x (r + p * t)) i := ⟨_, rfl⟩
    obtain ⟨S, hSd⟩ : ∃ S : Nat → ℝ, S = fun r => ∑ t ∈ range m, (‖x (r + p * t)‖ + 2 * tiny) :=
      ⟨_, rfl⟩
    obtain ⟨A, hAd⟩ : ∃ A : Nat → ℝ, A = fun r => l2 (range m) fun t => ‖x (r + p * t)‖ + 2 * tiny :=
      ⟨_, rfl⟩
    have hS0 : ∀ r, 0 ≤ S r := fun r => by
      rw [hSd]; exact sum_nonneg fun t _ => by have := norm_nonneg (x (r + p * t)); linarith
    have hsum : ∑ j ∈ range (p * m), (‖x j‖ + 2 * tiny) = ∑ r ∈ range p, S r := by
      rw [sum_range_split_real, hSd]
    have hsum0 : 0 ≤ ∑ r ∈ range p, S r := sum_nonneg fun r _ => hS0 r
    have hSr : ∀ r < p, S r ≤ ∑ r ∈ range p, S r := fun r hr =>
      single_le_sum (f := S) (fun r _ => hS0 r) (mem_range.mpr hr)
    have hA0 : ∀ r, 0 ≤ A r := fun r => by rw [hAd]; exact l2_nonneg _ _
    have hAll : l2 (range (p * m)) (fun j => ‖x j‖ + 2 * tiny) = l2 (range p) A := by
      rw [l2_range_split, hAd]
    rw [hsum, hg] at hb
    have hbr : ∀ r < p, 2 * growth u d rest * S r ≤ big := by
      intro r hr
      refine le_trans ?_ hb
      calc 2 * growth u d rest * S r ≤ 2 * growth u d rest * ∑ r ∈ range p, S r :=
            mul_le_mul_of_nonneg_left (hSr r hr) (by linarith)
        _ ≤ _ := mul_le_mul_of_nonneg_right (by nlinarith) hsum0
    have hN' : fstride * p * m = st.nfft := by rw [← hN]; ring
    -- errors of the inputs, number by number
    have e1 : ∀ i < m, ∀ r < p, ‖y' i r - y i r‖ ≤ (growth u d rest - 1) * S r := by
      intro i hi r hr
      rw [hy', hy]
      simp only
      by_cases hm1 : m = 1
      · subst hm1
        rw [if_pos rfl]
        simp only [workVal, sum_range_one, Nat.mul_zero, Nat.add_zero, Nat.zero_mul, pow_zero, mul_one,
          sub_self, norm_zero]
        exact mul_nonneg (by linarith) (hS0 r)
      · rw [if_neg hm1]
        rw [if_neg hm1] at hrest
        have := hbr r hr
        rw [hSd] at this ⊢
        exact work_err R hd h hT rest m (fstride * p) (fun t => x (r + p * t)) hrest hN' this i hi
    have e2 : ∀ i r, ‖y i r‖ + 2 * tiny ≤ S r := by
      intro i r
      rw [hy, hSd]
      simp only
      have := workVal_norm st (fstride * p) m (fun t => x (r + p * t)) i
      rw [sum_add_distrib, sum_const, card_range, nsmul_eq_mul]
      have hm' : (1 : ℝ) ≤ m := by exact_mod_cast hm
      have : 2 * tiny ≤ m * (2 * tiny) := by nlinarith
      linarith
    have tri : ∀ i r, ‖y' i r‖ ≤ ‖y' i r - y i r‖ + ‖y i r‖ := by
      intro i r
      have := norm_add_le (y' i r - y i r) (y i r)
      simpa using this
    have e4 : ∀ i < m, ∑ r ∈ range p, (‖y' i r‖ + 2 * tiny) ≤ growth u d rest * ∑ r ∈ range p, S r := by
      intro i hi
      rw [mul_sum]
      refine sum_le_sum fun r hr => ?_
      have h1 := e1 i hi r (mem_range.mp hr)
      have h2 := e2 i r
      have h3 := tri i r
      linarith
    -- errors of the inputs, Euclidean norms
    have d1 : ∀ r < p, l2 (range m) (fun i => ‖y' i r - y i r‖) ≤ (growth2 u d rest - 1) * Real.sqrt m * A r := by
      intro r hr
      rw [hy', hy]
      simp only
      by_cases hm1 : m = 1
      · subst hm1
        simp only [if_pos]
        have z : l2 (range 1) (fun i => ‖x r - workVal st (fstride * p) 1 (fun t => x (r + p * t)) i‖) = 0 := by
          simp [l2, workVal]
        rw [z]
        exact mul_nonneg (mul_nonneg (by linarith) (Real.sqrt_nonneg _)) (hA0 r)
      · simp only [if_neg hm1]
        rw [if_neg hm1] at hrest
        have := hbr r hr
        rw [hSd] at this
        rw [hAd, mul_assoc]
        exact ih m (fstride * p) (fun t => x (r + p * t)) hrest hN' this
    have d2 : ∀ r, l2 (range m) (fun i => ‖y i r‖ + 2 * tiny) ≤ Real.sqrt m * A r := by
      intro r
      rw [hy, hAd]
      simp only [workVal_dft1 h hN']
      exact l2_dft1_add hm _ _ (by linarith)
    have d3 : ∀ r < p, l2 (range m) (fun i => ‖y' i r‖ + 2 * tiny) ≤ growth2 u d rest * Real.sqrt m * A r := by
      intro r hr
      have h1 := d1 r hr
      have h2 := d2 r
      have h3 : l2 (range m) (fun i => ‖y' i r‖ + 2 * tiny) ≤
          l2 (range m) (fun i => ‖y' i r - y i r‖ + (‖y i r‖ + 2 * tiny)) :=
        l2_mono' (fun i _ => by positivity) fun i _ => by have := tri i r; linarith
      have h4 := h3.trans (l2_add _ _ _)
      linarith
    have s0 := Real.sqrt_nonneg (m : ℝ)
    have D1 : l2 (range m) (fun i => l2 (range p) fun r => ‖y' i r - y i r‖) ≤
        (growth2 u d rest - 1) * Real.sqrt m * l2 (range p) A := by
      have c0 : 0 ≤ (growth2 u d rest - 1) * Real.sqrt m := mul_nonneg (by linarith) s0
      rw [l2_swap, ← l2_smul _ c0]
      exact l2_mono' (fun _ _ => l2_nonneg _ _) fun r hr => d1 r (mem_range.mp hr)
    have D3 : l2 (range m) (fun i => l2 (range p) fun r => ‖y' i r‖ + 2 * tiny) ≤
        growth2 u d rest * Real.sqrt m * l2 (range p) A := by
      have c0 : 0 ≤ growth2 u d rest * Real.sqrt m := mul_nonneg (by linarith) s0
      rw [l2_swap, ← l2_smul _ c0]
      exact l2_mono' (fun _ _ => l2_nonneg _ _) fun r hr => d3 r (mem_range.mp hr)
    -- the stage
    have hstage : ∀ i ∈ range m, l2 (range p) (fun q => ‖a.work st ((p, m) :: rest) fstride x (i + m * q) -
        workVal st fstride (p * m) x (i + m * q)‖) ≤
        Real.sqrt p * (Real.sqrt p * stageErr u d p) * l2 (range p) (fun r => ‖y' i r‖ + 2 * tiny) +
          Real.sqrt p * l2 (range p) fun r => ‖y' i r - y i r‖ := by
      intro i hi
      have hi := mem_range.mp hi
      have key := bfly_l2 R hd h hT hp hN hi (y i) (y' i) (by
        refine le_trans ?_ hb
        calc 2 * (1 + stageErr u d p) * ∑ r ∈ range p, (‖y' i r‖ + 2 * tiny)
            ≤ 2 * (1 + stageErr u d p) * (growth u d rest * ∑ r ∈ range p, S r) :=
              mul_le_mul_of_nonneg_left (e4 i hi) (by linarith)
          _ = _ := by ring)
      rw [mul_add, ← mul_assoc] at key
      refine le_trans (le_of_eq (l2_congr fun q _ => ?_)) key
      have m1 : (i + m * q) % m = i := by rw [Nat.add_mul_mod_self_left, Nat.mod_eq_of_lt hi]
      have m2 : (i + m * q) / m = q := by rw [Nat.add_mul_div_left _ _ hm, Nat.div_eq_of_lt hi, Nat.zero_add]
      rw [workVal_split h hN, m1, m2]
      have hwork : a.work st ((p, m) :: rest) fstride x (i + m * q) =
          a.bfly st fstride m p ((i + m * q) % m) (y' ((i + m * q) % m)) ((i + m * q) / m) := by
        rw [hy']; rfl
      rw [hwork, m1, m2, hy]
    have hL : l2 (range (p * m)) (fun k => ‖a.work st ((p, m) :: rest) fstride x k -
        workVal st fstride (p * m) x k‖) ≤
        Real.sqrt p * (Real.sqrt p * stageErr u d p) * (growth2 u d rest * Real.sqrt m * l2 (range p) A) +
          Real.sqrt p * ((growth2 u d rest - 1) * Real.sqrt m * l2 (range p) A) := by
      rw [Nat.mul_comm p m, l2_range_split, Nat.mul_comm m p]
      refine (l2_mono' (fun _ _ => l2_nonneg _ _) hstage).trans ((l2_add _ _ _).trans ?_)
      rw [l2_smul _ (by positivity), l2_smul _ (by positivity)]
      exact add_le_add (mul_le_mul_of_nonneg_left D3 (by positivity)) (mul_le_mul_of_nonneg_left D1 (by positivity))
    refine hL.trans (le_of_eq ?_)
    rw [hAll, hg2, Nat.cast_mul, Real.sqrt_mul (Nat.cast_nonneg p)]
    ring

/-- Relative error of a transform of a length `n` with no prime factors but 2, 3, 5, in the Euclidean norm. -/
def kissErr2 (u d : ℝ) (n : Nat) : ℝ := (1 + 9 / 4 * radixErr u d) ^ Nat.log 2 n - 1

theorem kissErr2_nonneg (hu : 0 ≤ u) (hd : 0 ≤ d) (n : Nat) : 0 ≤ kissErr2 u d n := by
  have h0 := radixErr_nonneg hu hd
  have : 1 ≤ (1 + 9 / 4 * radixErr u d) ^ Nat.log 2 n := one_le_pow₀ (by linarith)
  unfold kissErr2
  linarith

theorem kissErrSmooth_le2 (hu : 0 ≤ u) (hd : 0 ≤ d) (n : Nat) : kissErrSmooth u d n ≤ kissErr2 u d n := by
  have h0 := radixErr_nonneg hu hd
  have : (1 + radixErr u d) ^ Nat.log 2 n ≤ (1 + 9 / 4 * radixErr u d) ^ Nat.log 2 n := by
    gcongr
    linarith
  unfold kissErr2 kissErrSmooth
  linarith

theorem growth2_smooth (hu : 0 ≤ u) (hd : 0 ≤ d) (l : List (Nat × Nat)) : ∀ n, FacChain n l →
    (∀ e ∈ l, e.1 = 2 ∨ e.1 = 3 ∨ e.1 = 4 ∨ e.1 = 5) → growth2 u d l ≤ 1 + kissErr2 u d n := by
  have h0 := radixErr_nonneg hu hd
  induction l with
  | nil => intro n h; exact absurd h (by simp [FacChain])
  | cons f l ih =>
    obtain ⟨p, m⟩ := f
    rintro n ⟨hp, hm, rfl, hr⟩ hrad
    have hg : growth2 u d ((p, m) :: l) = (1 + Real.sqrt p * stageErr u d p) * growth2 u d l := by simp [growth2]
    have hl : growth2 u d l ≤ 1 + kissErr2 u d m := by
      by_cases h1 : m = 1
      · rw [if_pos h1] at hr
        subst hr; subst h1
        simp [growth2, kissErr2]
      · rw [if_neg h1] at hr
        exact ih m hr fun e he => hrad e (List.mem_cons_of_mem _ he)
    have hp5 := hrad (p, m) (List.mem_cons_self)
    have hp2 : 2 ≤ p := by
      simp only at hp5; omega
    have hst := stageErr_small hu hd hp5
    have hs0 := stageErr_nonneg hu hd p
    have hsq : Real.sqrt p ≤ 9 / 4 := by
      rw [Real.sqrt_le_left (by norm_num)]
      have : p ≤ 5 := by simp only at hp5; omega
      have : (p : ℝ) ≤ 5 := by exact_mod_cast this
      norm_num
      linarith
    have hgl := one_le_growth2 hu hd l
    rw [hg]
    unfold kissErr2 at hl ⊢
    have hlog := log_mul_le hp2 hm
    have a1 : (1 + 9 / 4 * radixErr u d) ^ (Nat.log 2 m + 1) ≤ (1 + 9 / 4 * radixErr u d) ^ Nat.log 2 (p * m) :=
      pow_le_pow_right₀ (by linarith) hlog
    have : (1 + Real.sqrt p * stageErr u d p) * growth2 u d l ≤
        (1 + 9 / 4 * radixErr u d) * (1 + 9 / 4 * radixErr u d) ^ Nat.log 2 m := by
      have h1 : growth2 u d l ≤ (1 + 9 / 4 * radixErr u d) ^ Nat.log 2 m := by linarith
      have h2 : Real.sqrt p * stageErr u d p ≤ 9 / 4 * radixErr u d := by
        have hst' : stageErr u d p ≤ radixErr u d := hst
        gcongr
      have h3 : 1 + Real.sqrt p * stageErr u d p ≤ 1 + 9 / 4 * radixErr u d := by linarith
      exact mul_le_mul h3 h1 (by linarith) (by linarith)
    rw [pow_succ] at a1
    linarith

end

end FftMpi
