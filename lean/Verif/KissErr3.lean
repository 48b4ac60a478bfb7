import Verif.KissErr2
import Verif.PropsKiss

/-!
# Lemmas: rounding errors of one stage and of the whole transform
-/

noncomputable section

namespace FftMpi

open Complex

theorem root_norm (st : KissState) (k : Nat) : ‖st.root ^ k‖ = 1 := by
  rw [norm_pow]
  unfold KissState.root
  rw [kissRoot_norm, one_pow]

/-- The twiddles of a plan have errors of at most `d`. -/
def TwNear (st : KissState) (d : ℝ) : Prop := ∀ i < st.nfft, ‖st.twf i - st.root ^ i‖ ≤ d

section

variable {a : Arith} {u d tiny big : ℝ}

theorem root_pow_nfft {st : KissState} (h : TwIn st) : st.root ^ st.nfft = 1 :=
  (kissRoot_prim h.pos _).pow_eq_one

theorem root_zeta {st : KissState} (h : TwIn st) {fstride m p : Nat} (hN : fstride * (p * m) = st.nfft) :
    st.root ^ (fstride * m) = kissRoot p st.inverse :=
  kissRoot_pow h.pos (by rw [← hN]; ring) _

theorem stageErr_nonneg (hu : 0 ≤ u) (hd : 0 ≤ d) (p : Nat) : 0 ≤ stageErr u d p := by
  have hM := one_le_twFac hu hd
  have hp := one_le_pow_u hu
  have hm := mulErr_nonneg hu
  have h1 : ∀ n : Nat, 1 ≤ (1 + d) * (1 + mulErr u) * (1 + u) ^ n := by
    intro n
    have := hp n
    change 1 ≤ twFac u d * (1 + u) ^ n
    nlinarith
  unfold stageErr
  split_ifs
  · have := h1 1; rw [pow_one] at this; linarith
  · have := h1 2; linarith
  · have := h1 5
    have h2 : (1 + d) * (1 + mulErr u) * (1 + u) ^ 5 ≤ (1 + d) ^ 2 * (1 + mulErr u) * (1 + u) ^ 5 := by
      have : 1 + d ≤ (1 + d) ^ 2 := by nlinarith
      gcongr
    linarith
  · exact le_rfl
  · have := h1 (p - 1); linarith

theorem re_err {z z' : ℂ} (h : ‖z' - z‖ ≤ d) : |z'.re - z.re| ≤ d := by
  rw [← sub_re]; exact (abs_re_le_norm _).trans h

theorem im_err {z z' : ℂ} (h : ‖z' - z‖ ≤ d) : |z'.im - z.im| ≤ d := by
  rw [← sub_im]; exact (abs_im_le_norm _).trans h

/-- One butterfly: the error compared with the exact butterfly on the same inputs. -/
theorem bfly_err (R : RoundOK a u tiny big) (hd : 0 ≤ d) {st : KissState} (h : TwIn st) (hT : TwNear st d)
    {fstride m p : Nat} (hp : 0 < p) (hN : fstride * (p * m) = st.nfft) {i q : Nat} (hi : i < m)
    (hq : q < p) (y : Nat → ℂ)
    (hb : 2 * (1 + stageErr u d p) * (∑ r ∈ Finset.range p, (‖y r‖ + 2 * tiny)) ≤ big) :
    ‖a.bfly st fstride m p i y q - bflyVal st fstride m p i y q‖ ≤
      stageErr u d p * ∑ r ∈ Finset.range p, (‖y r‖ + 2 * tiny) := by
  have hu := R.u0
  have ht := R.t0
  have hE := stageErr_nonneg hu hd p
  obtain ⟨A, hA⟩ : ∃ A : Nat → ℝ, ∀ r, A r = ‖y r‖ + 2 * tiny := ⟨_, fun r => rfl⟩
  have hA0 : ∀ r, 0 ≤ A r := fun r => by rw [hA]; have := norm_nonneg (y r); linarith
  simp only [← hA] at hb ⊢
  have hS0 : 0 ≤ ∑ r ∈ Finset.range p, A r := Finset.sum_nonneg fun r _ => hA0 r
  have hw : ∀ r < p, ‖st.root ^ (r * i * fstride)‖ ≤ 1 := fun r _ => (root_norm _ _).le
  have hw' : ∀ r < p, ‖st.twf (r * i * fstride) - st.root ^ (r * i * fstride)‖ ≤ d :=
    fun r hr => hT _ (h.idx hN hr hi)
  have hz := root_zeta h hN
  have hzn := root_norm st (fstride * m)
  have hb1 : ∀ G, G ≤ 2 * (1 + stageErr u d p) → G * ∑ r ∈ Finset.range p, A r ≤ big := fun G hG =>
    (mul_le_mul_of_nonneg_right hG hS0).trans hb
  -- reduction to a Near statement
  have fin : ∀ (G S : ℝ) (v v' : ℂ), Near tiny G S v v' → a.bfly st fstride m p i y q = v' →
      bflyVal st fstride m p i y q = v → (G - 1) * S = stageErr u d p * ∑ r ∈ Finset.range p, A r →
      ‖a.bfly st fstride m p i y q - bflyVal st fstride m p i y q‖ ≤
        stageErr u d p * ∑ r ∈ Finset.range p, A r := by
    intro G S v v' hn e1 e2 e3
    rw [e1, e2, ← e3]; exact hn.err
  by_cases h2 : p = 2
  · subst h2
    have hs : ∑ r ∈ Finset.range 2, A r = A 0 + A 1 := by simp [Finset.sum_range_succ]
    have hη : stageErr u d 2 = twFac u d * (1 + u) - 1 := by simp [stageErr, twFac]
    rw [kissRoot_two] at hz
    have := bf2_near R hd hA hw hw' (by
      rw [← hs]
      exact hb1 _ (by rw [hη] at hE ⊢; linarith)) q
    refine fin _ _ _ _ this (by simp [Arith.bfly]) ?_ (by rw [hη, hs])
    unfold bflyVal
    rw [hz]
    interval_cases q
    · simp [Finset.sum_range_succ]
    · simp [Finset.sum_range_succ]; ring
  by_cases h3 : p = 3
  · subst h3
    have hs : ∑ r ∈ Finset.range 3, A r = A 0 + (A 1 + A 2) := by simp [Finset.sum_range_succ]; ring
    have hη : stageErr u d 3 = 2 * ((1 + d) ^ 2 * (1 + mulErr u) * (1 + u) ^ 5 - 1) := by simp [stageErr]
    obtain ⟨hre, hsq, hcu⟩ := root3 st.inverse
    rw [← hz] at hre hsq hcu
    have hT1 := hT (fstride * m) (h.first (by decide) hN)
    have := bf3_near R hd (c := (st.root ^ (fstride * m)).im) (e := st.twf (fstride * m)) hA hw hw'
      (by rw [← hzn]; exact abs_im_le_norm _) (im_err hT1) (by
      rw [← hs]
      have := hb1 (2 * ((1 + d) ^ 2 * (1 + mulErr u) * (1 + u) ^ 5)) (by rw [hη] at hE ⊢; linarith)
      linarith) q
    refine fin _ _ _ _ this (by simp [Arith.bfly]) ?_ (by rw [hη, hs]; ring)
    unfold bflyVal
    generalize st.root ^ (fstride * m) = z at *
    have z1 : z = -(1 / 2) + I * z.im := by
      apply Complex.ext <;> simp [hre]
    have z2 : z ^ 2 = -(1 / 2) - I * z.im := by
      rw [hsq]; apply Complex.ext <;> simp [hre]
    have z4 : z ^ 4 = -(1 / 2) + I * z.im := by
      rw [show z ^ 4 = z ^ 3 * z by ring, hcu, one_mul]; exact z1
    interval_cases q
    · simp [Finset.sum_range_succ]; ring
    · simp only [Finset.sum_range_succ, Finset.sum_range_zero, zero_mul, pow_zero, mul_one, one_mul,
        zero_add, one_ne_zero, if_false, if_true, pow_one, z2]
      linear_combination (y 1 * st.root ^ (i * fstride)) * z1
    · simp only [Finset.sum_range_succ, Finset.sum_range_zero, zero_mul, pow_zero, mul_one, one_mul,
        zero_add, OfNat.ofNat_ne_zero, OfNat.ofNat_ne_one, if_false, Nat.reduceMul, z2, z4]
      ring
  by_cases h4 : p = 4
  · subst h4
    have hs : ∑ r ∈ Finset.range 4, A r = A 0 + A 2 + (A 1 + A 3) := by simp [Finset.sum_range_succ]; ring
    have hη : stageErr u d 4 = twFac u d * (1 + u) * (1 + u) - 1 := by simp [stageErr, twFac]; ring
    rw [kissRoot_four] at hz
    have := bf4_near R hd hA hw hw' (by
      rw [← hs]
      exact hb1 _ (by rw [hη] at hE ⊢; linarith)) st.inverse q
    refine fin _ _ _ _ this (by simp [Arith.bfly]) ?_ (by rw [hη, hs])
    unfold bflyVal
    rw [hz]
    have I4 : I ^ 4 = 1 := Complex.I_pow_four
    have I3 : I ^ 3 = -I := by rw [pow_succ, I_sq]; ring
    have I6 : I ^ 6 = -1 := by rw [show I ^ 6 = I ^ 4 * I ^ 2 by ring, I4, I_sq]; ring
    have I9 : I ^ 9 = I := by rw [show I ^ 9 = I ^ 4 * I ^ 4 * I by ring, I4]; ring
    have J2 : (-I) ^ 2 = -1 := by rw [neg_pow, I_sq]; norm_num
    have J3 : (-I) ^ 3 = I := by rw [neg_pow, I3]; norm_num
    have J4 : (-I) ^ 4 = 1 := by rw [neg_pow, I4]; norm_num
    have J6 : (-I) ^ 6 = -1 := by rw [neg_pow, I6]; norm_num
    have J9 : (-I) ^ 9 = -I := by rw [neg_pow, I9]; norm_num
    cases st.inverse <;> interval_cases q <;>
    · simp only [Finset.sum_range_succ, Finset.sum_range_zero, Nat.reduceMul, pow_zero, pow_one, if_true,
        zero_mul, mul_one, zero_add, one_mul, OfNat.ofNat_ne_one, if_false, OfNat.ofNat_ne_zero,
        Nat.reduceEqDiff, one_ne_zero, mul_zero, Bool.false_eq_true, 
        I_sq, I3, I4, I6, I9, J2, J3, J4, J6, J9]
      try simp
      try ring
  by_cases h5 : p = 5
  · subst h5
    have hs : ∑ r ∈ Finset.range 5, A r = A 0 + (A 1 + A 4) + (A 2 + A 3) := by
      simp [Finset.sum_range_succ]; ring
    have hη : stageErr u d 5 = 2 * ((1 + d) ^ 2 * (1 + mulErr u) * (1 + u) ^ 5 - 1) := by simp [stageErr]
    obtain ⟨hq4, hq3, hq5⟩ := root5 st.inverse
    rw [← hz] at hq3 hq4 hq5
    have hf1 := h.first (by decide) hN
    have hT1 := hT (fstride * m) hf1
    have hT2 := hT (fstride * 2 * m) (by
      have h1 : fstride * (5 * m) = 5 * (fstride * m) := by ring
      have h2 : fstride * 2 * m = 2 * (fstride * m) := by ring
      omega)
    have ez : st.root ^ (fstride * 2 * m) = (st.root ^ (fstride * m)) ^ 2 := by
      rw [← pow_mul]; congr 1; ring
    have hzn2 := root_norm st (fstride * 2 * m)
    rw [ez] at hT2 hzn2
    have := bf5_near R hd (c1 := (st.root ^ (fstride * m)).re) (t1 := (st.root ^ (fstride * m)).im)
      (c2 := ((st.root ^ (fstride * m)) ^ 2).re) (t2 := ((st.root ^ (fstride * m)) ^ 2).im)
      (ya := st.twf (fstride * m)) (yb := st.twf (fstride * 2 * m)) hA hw hw'
      (by rw [← hzn]; exact abs_re_le_norm _) (re_err hT1)
      (by rw [← hzn]; exact abs_im_le_norm _) (im_err hT1)
      (by rw [← hzn2]; exact abs_re_le_norm _) (re_err hT2)
      (by rw [← hzn2]; exact abs_im_le_norm _) (im_err hT2) (by
      rw [← hs]
      have := hb1 (2 * ((1 + d) ^ 2 * (1 + mulErr u) * (1 + u) ^ 5)) (by rw [hη] at hE ⊢; linarith)
      linarith) q
    refine fin _ _ _ _ this (by simp [Arith.bfly]) ?_ (by rw [hη, hs]; ring)
    unfold bflyVal
    generalize st.root ^ (fstride * m) = z at *
    have h6 : z ^ 6 = z := by rw [show z ^ 6 = z ^ 5 * z by ring, hq5, one_mul]
    have h8 : z ^ 8 = z ^ 3 := by rw [show z ^ 8 = z ^ 5 * z ^ 3 by ring, hq5, one_mul]
    have h9 : z ^ 9 = z ^ 4 := by rw [show z ^ 9 = z ^ 5 * z ^ 4 by ring, hq5, one_mul]
    have h12 : z ^ 12 = z ^ 2 := by
      rw [show z ^ 12 = z ^ 5 * z ^ 5 * z ^ 2 by ring, hq5, one_mul, one_mul]
    have h16 : z ^ 16 = z := by
      rw [show z ^ 16 = z ^ 5 * z ^ 5 * z ^ 5 * z by ring, hq5, one_mul, one_mul, one_mul]
    interval_cases q <;>
    · simp only [Finset.sum_range_succ, Finset.sum_range_zero,
        Nat.reduceMul, pow_zero, pow_one, if_true, zero_mul, mul_one, zero_add, one_mul,
        OfNat.ofNat_ne_one, if_false, OfNat.ofNat_ne_zero, Nat.reduceEqDiff, one_ne_zero,
        mul_zero, h6, h8, h9, h12, h16, hq3, hq4]
      generalize z ^ 2 = z2
      apply Complex.ext <;> simp <;> ring
  by_cases hp1 : p = 1
  · subst hp1
    have hq0 : q = 0 := by omega
    simp [Arith.bfly, Arith.bfg, bflyVal, hq0, stageErr]
  · have hη : stageErr u d p = twFac u d * (1 + u) ^ (p - 1) - 1 := by
      simp [stageErr, twFac, h2, h3, h4, h5, hp1]
    have hpow : ∀ k, st.root ^ (k % st.nfft) = st.root ^ k := by
      intro k
      conv_rhs => rw [← Nat.mod_add_div k st.nfft]
      rw [pow_add, pow_mul, root_pow_nfft h, one_pow, mul_one]
    have := bfg_near R hd (w := fun r => st.root ^ (r * (fstride * (i + q * m))))
      (w' := fun r => st.twf (r * (fstride * (i + q * m)) % st.nfft)) hA p
      (fun r _ => (root_norm _ _).le)
      (fun r _ => by
        have := hT (r * (fstride * (i + q * m)) % st.nfft) (Nat.mod_lt _ h.pos)
        rwa [hpow] at this)
      (by simp) (hb1 _ (by rw [hη] at hE ⊢; linarith)) (p - 1) (by omega)
    rw [show p - 1 + 1 = p by omega] at this
    refine fin _ _ _ _ this (by simp [Arith.bfly, h2, h3, h4, h5]) ?_ (by rw [hη])
    unfold bflyVal
    refine Finset.sum_congr rfl fun r _ => ?_
    rw [mul_assoc, ← pow_mul, ← pow_add]
    congr 2; ring

/-- The exact butterfly on perturbed inputs. -/
theorem bflyVal_diff (st : KissState) (fstride m p i q : Nat) (y y' : Nat → ℂ) :
    ‖bflyVal st fstride m p i y' q - bflyVal st fstride m p i y q‖ ≤ ∑ r ∈ Finset.range p, ‖y' r - y r‖ := by
  unfold bflyVal
  rw [← Finset.sum_sub_distrib]
  refine (norm_sum_le _ _).trans (Finset.sum_le_sum fun r _ => ?_)
  rw [← sub_mul, ← sub_mul, norm_mul, norm_mul, root_norm, mul_one, norm_pow, root_norm, one_pow, mul_one]

/-- A stage of the exact transform is a butterfly on the results of the preceding stage. -/
theorem workVal_split {st : KissState} (h : TwIn st) {fstride p m : Nat}
    (hN : fstride * (p * m) = st.nfft) (x : Nat → ℂ) (k : Nat) :
    workVal st fstride (p * m) x k = bflyVal st fstride m p (k % m)
      (fun r => workVal st (fstride * p) m (fun t => x (r + p * t)) (k % m)) (k / m) := by
  have hdiv : k = k % m + (k / m) * m := by rw [Nat.mul_comm]; exact (Nat.mod_add_div k m).symm
  generalize hkq : k / m = q at *
  generalize hku : k % m = i at *
  rw [hdiv]
  unfold bflyVal workVal
  rw [sum_range_split]
  refine Finset.sum_congr rfl fun r _ => ?_
  rw [Finset.sum_mul, Finset.sum_mul]
  refine Finset.sum_congr rfl fun t _ => ?_
  rw [mul_assoc, mul_assoc, ← pow_mul, ← pow_add, ← pow_add]
  congr 1
  have : fstride * ((r + p * t) * (i + q * m)) =
      (fstride * p * (t * i) + (r * i * fstride + fstride * m * (r * q))) + st.nfft * (t * q) := by
    rw [← hN]; ring
  rw [this, pow_add _ _ (st.nfft * (t * q)), pow_mul _ st.nfft, root_pow_nfft h, one_pow, mul_one]

theorem workVal_norm (st : KissState) (fstride n : Nat) (x : Nat → ℂ) (k : Nat) :
    ‖workVal st fstride n x k‖ ≤ ∑ j ∈ Finset.range n, ‖x j‖ := by
  unfold workVal
  refine (norm_sum_le _ _).trans (Finset.sum_le_sum fun r _ => ?_)
  rw [norm_mul, root_norm, mul_one]

/-- Growth of the error in the stages of a plan. -/
def growth (u d : ℝ) (factors : List (Nat × Nat)) : ℝ := (factors.map fun f => 1 + stageErr u d f.1).prod

theorem one_le_growth (hu : 0 ≤ u) (hd : 0 ≤ d) (factors : List (Nat × Nat)) : 1 ≤ growth u d factors := by
  induction factors with
  | nil => simp [growth]
  | cons f l ih =>
    have := stageErr_nonneg hu hd f.1
    unfold growth at ih ⊢
    rw [List.map_cons, List.prod_cons]
    nlinarith

theorem sum_range_split_real (p m : Nat) (f : Nat → ℝ) :
    ∑ j ∈ Finset.range (p * m), f j =
      ∑ q ∈ Finset.range p, ∑ t ∈ Finset.range m, f (q + p * t) := by
  rw [Finset.sum_comm]
  induction m with
  | zero => simp
  | succ m ih =>
    rw [Finset.sum_range_succ, ← ih, Nat.mul_succ, Finset.sum_range_add]
    congr 1
    exact Finset.sum_congr rfl fun q _ => by rw [Nat.add_comm]

/-- All stages. -/
theorem work_err (R : RoundOK a u tiny big) (hd : 0 ≤ d) {st : KissState} (h : TwIn st) (hT : TwNear st d)
    (factors : List (Nat × Nat)) : ∀ (n fstride : Nat) (x : Nat → ℂ), FacChain n factors →
    fstride * n = st.nfft →
    2 * growth u d factors * (∑ j ∈ Finset.range n, (‖x j‖ + 2 * tiny)) ≤ big → ∀ k < n,
    ‖a.work st factors fstride x k - workVal st fstride n x k‖ ≤
      (growth u d factors - 1) * ∑ j ∈ Finset.range n, (‖x j‖ + 2 * tiny) := by
  have hu := R.u0
  have ht := R.t0
  induction factors with
  | nil => intro n fstride x hc; exact absurd hc (by simp [FacChain])
  | cons pm rest ih =>
    obtain ⟨p, m⟩ := pm
    intro n fstride x hc hN hb k hk
    obtain ⟨hp, hm, hpm, hrest⟩ := hc
    subst hpm
    have hη := stageErr_nonneg hu hd p
    have hg : growth u d ((p, m) :: rest) = (1 + stageErr u d p) * growth u d rest := by
      simp [growth]
    have hgr := one_le_growth hu hd rest
    have hS : ∀ (s : Finset Nat) (f : Nat → Nat), 0 ≤ ∑ j ∈ s, (‖x (f j)‖ + 2 * tiny) := fun s f =>
      Finset.sum_nonneg fun j _ => by have := norm_nonneg (x (f j)); linarith
    -- inputs of the butterfly
    obtain ⟨y', hy'⟩ : ∃ y' : Nat → ℂ, y' = fun r => if m = 1 then x r else
      a.work st rest (fstride * p) (fun t => x (r + p * t)) (k % m) := ⟨_, rfl⟩
    obtain ⟨y, hy⟩ : ∃ y : Nat → ℂ, y = fun r =>
      workVal st (fstride * p) m (fun t => x (r + p * t)) (k % m) := ⟨_, rfl⟩
    obtain ⟨S, hSd⟩ : ∃ S : Nat → ℝ, S = fun r => ∑ t ∈ Finset.range m, (‖x (r + p * t)‖ + 2 * tiny) :=
      ⟨_, rfl⟩
    have hS0 : ∀ r, 0 ≤ S r := fun r => by rw [hSd]; exact hS _ _
    have hsum : ∑ j ∈ Finset.range (p * m), (‖x j‖ + 2 * tiny) = ∑ r ∈ Finset.range p, S r := by
      rw [sum_range_split_real, hSd]
    have hsum0 : 0 ≤ ∑ r ∈ Finset.range p, S r := Finset.sum_nonneg fun r _ => hS0 r
    have hSr : ∀ r < p, S r ≤ ∑ r ∈ Finset.range p, S r := fun r hr =>
      Finset.single_le_sum (f := S) (fun r _ => hS0 r) (Finset.mem_range.mpr hr)
    rw [hsum, hg] at hb
    have hbr : 2 * growth u d rest * ∑ r ∈ Finset.range p, S r ≤ big := by
      refine le_trans ?_ hb
      refine mul_le_mul_of_nonneg_right ?_ hsum0
      nlinarith
    have e1 : ∀ r < p, ‖y' r - y r‖ ≤ (growth u d rest - 1) * S r := by
      intro r hr
      rw [hy', hy]
      simp only
      by_cases hm1 : m = 1
      · subst hm1
        rw [if_pos rfl]
        simp only [workVal, Finset.sum_range_one, Nat.mul_zero, Nat.add_zero, Nat.zero_mul, pow_zero, mul_one,
          sub_self, norm_zero]
        have := hS0 r
        exact mul_nonneg (by linarith) this
      · rw [if_neg hm1]
        rw [if_neg hm1] at hrest
        rw [hSd]
        refine ih m (fstride * p) (fun t => x (r + p * t)) hrest (by rw [← hN]; ring) ?_ (k % m)
          (Nat.mod_lt _ hm)
        have := hSr r hr
        have h2 : 2 * growth u d rest * S r ≤ 2 * growth u d rest * ∑ r ∈ Finset.range p, S r :=
          mul_le_mul_of_nonneg_left this (by linarith)
        rw [hSd] at h2 hbr
        exact h2.trans hbr
    have e2 : ∀ r, ‖y r‖ + 2 * tiny ≤ S r := by
      intro r
      rw [hy, hSd]
      simp only
      have := workVal_norm st (fstride * p) m (fun t => x (r + p * t)) (k % m)
      rw [Finset.sum_add_distrib, Finset.sum_const, Finset.card_range, nsmul_eq_mul]
      have hm' : (1 : ℝ) ≤ m := by exact_mod_cast hm
      have : 2 * tiny ≤ m * (2 * tiny) := by nlinarith
      linarith
    have e3 : ∀ r < p, ‖y' r‖ + 2 * tiny ≤ growth u d rest * S r := by
      intro r hr
      have h1 := e1 r hr
      have h2 := e2 r
      have h3 : ‖y' r‖ ≤ ‖y r‖ + ‖y' r - y r‖ := by
        have := norm_add_le (y r) (y' r - y r)
        simpa using this
      linarith
    have e4 : ∑ r ∈ Finset.range p, (‖y' r‖ + 2 * tiny) ≤ growth u d rest * ∑ r ∈ Finset.range p, S r := by
      rw [Finset.mul_sum]
      exact Finset.sum_le_sum fun r hr => e3 r (Finset.mem_range.mp hr)
    have e5 : ∑ r ∈ Finset.range p, ‖y' r - y r‖ ≤ (growth u d rest - 1) * ∑ r ∈ Finset.range p, S r := by
      rw [Finset.mul_sum]
      exact Finset.sum_le_sum fun r hr => e1 r (Finset.mem_range.mp hr)
    have hqk : k / m < p := Nat.div_lt_of_lt_mul (by rw [Nat.mul_comm]; exact hk)
    have l1 := bfly_err R hd h hT hp hN (Nat.mod_lt k hm) hqk y' (by
      refine le_trans ?_ hb
      calc 2 * (1 + stageErr u d p) * ∑ r ∈ Finset.range p, (‖y' r‖ + 2 * tiny)
          ≤ 2 * (1 + stageErr u d p) * (growth u d rest * ∑ r ∈ Finset.range p, S r) :=
            mul_le_mul_of_nonneg_left e4 (by linarith)
        _ = _ := by ring)
    have l2 := bflyVal_diff st fstride m p (k % m) (k / m) y y'
    have hwork : a.work st ((p, m) :: rest) fstride x k = a.bfly st fstride m p (k % m) y' (k / m) := by
      rw [hy']; rfl
    rw [hwork, workVal_split h hN, hsum, hg]
    rw [hy] at l2 e5
    have l3 := norm_add_le (a.bfly st fstride m p (k % m) y' (k / m) -
      bflyVal st fstride m p (k % m) y' (k / m)) (bflyVal st fstride m p (k % m) y' (k / m) -
      bflyVal st fstride m p (k % m)
        (fun r => workVal st (fstride * p) m (fun t => x (r + p * t)) (k % m)) (k / m))
    rw [sub_add_sub_cancel] at l3
    have l4 : stageErr u d p * ∑ r ∈ Finset.range p, (‖y' r‖ + 2 * tiny) ≤
        stageErr u d p * (growth u d rest * ∑ r ∈ Finset.range p, S r) :=
      mul_le_mul_of_nonneg_left e4 hη
    nlinarith

end

end FftMpi
