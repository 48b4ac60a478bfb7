import Verif.KissBfly
import Verif.KissFactor

/-!
# Lemmas: `kf_work` and `kiss_fft` compute the DFT
-/

noncomputable section

namespace FftMpi

open Complex

theorem sum_range_split (p m : Nat) (f : Nat → ℂ) :
    ∑ j ∈ Finset.range (p * m), f j =
      ∑ q ∈ Finset.range p, ∑ t ∈ Finset.range m, f (q + p * t) := by
  rw [Finset.sum_comm]
  induction m with
  | zero => simp
  | succ m ih =>
    rw [Finset.sum_range_succ, ← ih, Nat.mul_succ, Finset.sum_range_add]
    congr 1
    exact Finset.sum_congr rfl fun q _ => by rw [Nat.add_comm]

/-- The DFT of `n` values with the root of the plan raised to `fstride`. -/
def workVal (st : KissState) (fstride n : Nat) (x : Nat → ℂ) (k : Nat) : ℂ :=
  ∑ j ∈ Finset.range n, x j * st.root ^ (fstride * (j * k))

theorem kfWork_ok {st : KissState} (h : TwOK st) (junk : Int → ℂ) (f : Mem ℂ) (inStride : Nat)
    (factors : List (Nat × Nat)) : ∀ (n fstride : Nat) (F : Mem ℂ) (o fo : Int) (x : Nat → ℂ),
    FacChain n factors → fstride * n = st.nfft →
    (∀ j < n, f (fo + j * (fstride * inStride)) = some (x j)) →
    (∀ k < n, (F (o + (k : Nat))).isSome) →
    ∃ F', kfWork st junk f inStride factors F o fo fstride = some F' ∧
      (∀ k < n, F' (o + (k : Nat)) = some (workVal st fstride n x k)) ∧
      ∀ a, (a < o ∨ o + n ≤ a) → F' a = F a := by
  induction factors with
  | nil => intro n fstride F o fo x hc; exact absurd hc (by simp [FacChain])
  | cons pm rest ih =>
    obtain ⟨p, m⟩ := pm
    intro n fstride F o fo x hc hN hf hF
    obtain ⟨hp, hm, hpm, hrest⟩ := hc
    subst hpm
    simp only [kfWork]
    rw [if_neg (by omega)]
    -- the p transforms of length m
    have hsub : ∃ F1, (if m = 1 then
        forN p (fun q F => copy1 f F (o + q) (fo + q * (fstride * inStride))) F
      else
        forN p (fun q F =>
          kfWork st junk f inStride rest F (o + q * m) (fo + q * (fstride * inStride)) (fstride * p)) F)
          = some F1 ∧
        (∀ q < p, ∀ u < m, F1 (o + u + q * m) =
          some (workVal st (fstride * p) m (fun t => x (q + p * t)) u)) ∧
        ∀ a, (a < o ∨ o + (p * m : Nat) ≤ a) → F1 a = F a := by
      by_cases hm1 : m = 1
      · subst hm1
        rw [if_pos rfl]
        obtain ⟨F1, h1, h2, h3, h4⟩ := forN_inv (fun k (G : Mem ℂ) =>
            (∀ q : Nat, q < k → q < p → G (o + q) = some (x q)) ∧
            (∀ q : Nat, q < p → (G (o + q)).isSome) ∧
            ∀ a, (a < o ∨ o + (p * 1 : Nat) ≤ a) → G a = F a)
          (fun q F => copy1 f F (o + q) (fo + q * (fstride * inStride))) p F
          ⟨fun q hq => absurd hq (by omega), fun q hq => hF q (by omega), fun a _ => rfl⟩
          (by
            intro k hk G ⟨g1, g2, g3⟩
            refine ⟨Function.update G (o + k) (some (x k)), ?_, ?_, ?_, ?_⟩
            · simp only [copy1, hf k (by omega), Option.bind_some, Mem.set_eq (g2 k hk)]
            · intro q hq hqp
              by_cases hqk : q = k
              · subst hqk; simp
              · have : o + (q : Int) ≠ o + k := by omega
                simp only [Function.update_apply, if_neg this]
                exact g1 q (by omega) hqp
            · intro q hq
              by_cases hqk : q = k
              · subst hqk; simp
              · have : o + (q : Int) ≠ o + k := by omega
                simp only [Function.update_apply, if_neg this]
                exact g2 q hq
            · intro a ha
              have : a ≠ o + k := by push_cast at ha; omega
              simp only [Function.update_apply, if_neg this]
              exact g3 a ha)
        refine ⟨F1, h1, ?_, h4⟩
        intro q hq u hu
        have hu0 : u = 0 := by omega
        subst hu0
        have := h2 q hq hq
        simp only [Nat.cast_zero, Nat.cast_one, mul_one, add_zero]
        rw [this]
        simp [workVal]
      · rw [if_neg hm1]
        rw [if_neg hm1] at hrest
        have hN' : fstride * p * m = st.nfft := by rw [← hN]; ring
        obtain ⟨F1, h1, h2, h3, h4⟩ := forN_inv (fun k (G : Mem ℂ) =>
            (∀ q : Nat, q < k → q < p → ∀ u < m, G (o + u + q * m) =
              some (workVal st (fstride * p) m (fun t => x (q + p * t)) u)) ∧
            (∀ q : Nat, q < p → ∀ u < m, (G (o + u + q * m)).isSome) ∧
            ∀ a, (a < o ∨ o + (p * m : Nat) ≤ a) → G a = F a)
          (fun q F =>
            kfWork st junk f inStride rest F (o + q * m) (fo + q * (fstride * inStride)) (fstride * p)) p F
          ⟨fun q hq => absurd hq (by omega), fun q hq u hu => by
              have h6 : (q + 1) * m ≤ p * m := Nat.mul_le_mul_right m hq
              have h7 : (q + 1) * m = q * m + m := by ring
              have := hF (u + q * m) (by omega)
              push_cast at this
              rwa [← add_assoc] at this, fun a _ => rfl⟩
          (by
            intro k hk G ⟨g1, g2, g3⟩
            obtain ⟨G', f1, f2, f3⟩ := ih m (fstride * p) G (o + k * m) (fo + k * (fstride * inStride))
              (fun t => x (k + p * t)) hrest hN'
              (by
                intro t ht
                have hlt : k + p * t < p * m := by
                  have : p * (t + 1) ≤ p * m := Nat.mul_le_mul_left p ht
                  have : p * (t + 1) = p * t + p := by ring
                  omega
                have := hf (k + p * t) hlt
                rw [← this]
                congr 1
                push_cast; ring)
              (by
                intro u hu
                have := g2 k hk u hu
                rw [show o + (k : Int) * m + u = o + u + k * m by ring]
                exact this)
            have hne : ∀ q u, u < m → q ≠ k → (o + (u : Int) + q * m < o + k * m ∨
                o + k * m + m ≤ o + (u : Int) + q * m) := by
              intro q u hu hqk
              rcases Nat.lt_or_gt_of_ne hqk with hlt | hgt
              · left
                have h6 : (q + 1) * m ≤ k * m := Nat.mul_le_mul_right m hlt
                have h7 : (q + 1) * m = q * m + m := by ring
                have h8 : ((q * m + m : Nat) : Int) ≤ (k * m : Nat) := by omega
                push_cast at h8
                omega
              · right
                have h6 : (k + 1) * m ≤ q * m := Nat.mul_le_mul_right m hgt
                have h7 : (k + 1) * m = k * m + m := by ring
                have h8 : ((k * m + m : Nat) : Int) ≤ (q * m : Nat) := by omega
                push_cast at h8
                omega
            refine ⟨G', f1, ?_, ?_, ?_⟩
            · intro q hq hqp u hu
              by_cases hqk : q = k
              · subst hqk
                rw [← f2 u hu]
                congr 1; ring
              · rw [f3 _ (hne q u hu hqk)]
                exact g1 q (by omega) hqp u hu
            · intro q hq u hu
              by_cases hqk : q = k
              · subst hqk
                rw [show o + (u : Int) + q * m = o + q * m + u by ring, f2 u hu]; rfl
              · rw [f3 _ (hne q u hu hqk)]
                exact g2 q hq u hu
            · intro a ha
              rw [f3 a ?_]
              · exact g3 a ha
              · have h6 : (k + 1) * m ≤ p * m := Nat.mul_le_mul_right m hk
                have h7 : (k + 1) * m = k * m + m := by ring
                have h8 : ((k * m + m : Nat) : Int) ≤ (p * m : Nat) := by omega
                have h9 : (0 : Int) ≤ k * m := by positivity
                push_cast at h8 ha
                omega)
        exact ⟨F1, h1, fun q hq u hu => h2 q hq hq u hu, h4⟩
    obtain ⟨F1, h1, h2, h3⟩ := hsub
    rw [h1]
    simp only [Option.bind_some]
    obtain ⟨F', k1, k2, k3⟩ := kfBfly_ok h junk hp hm hN o F1 _ h2
    refine ⟨F', k1, ?_, ?_⟩
    · intro k hk
      have hdiv : k = k % m + (k / m) * m := by rw [Nat.mul_comm]; exact (Nat.mod_add_div k m).symm
      have hu : k % m < m := Nat.mod_lt _ hm
      have hq : k / m < p := Nat.div_lt_of_lt_mul (by rw [Nat.mul_comm]; exact hk)
      have := k2 (k / m) hq (k % m) hu
      have e : o + ((k % m : Nat) : Int) + ((k / m : Nat) : Int) * m = o + k := by
        conv_rhs => rw [hdiv]
        push_cast; ring
      rw [e] at this
      rw [this]
      congr 1
      generalize hkq : k / m = q at *
      generalize hku : k % m = u at *
      rw [hdiv]
      unfold bflyVal workVal
      rw [sum_range_split]
      refine Finset.sum_congr rfl fun r _ => ?_
      rw [Finset.sum_mul, Finset.sum_mul]
      refine Finset.sum_congr rfl fun t _ => ?_
      rw [mul_assoc, mul_assoc, ← pow_mul, ← pow_add, ← pow_add]
      congr 1
      have : fstride * ((r + p * t) * (u + q * m)) =
          (fstride * p * (t * u) + (r * u * fstride + fstride * m * (r * q))) + st.nfft * (t * q) := by
        rw [← hN]; ring
      rw [this, pow_add _ _ (st.nfft * (t * q)), pow_mul _ st.nfft, h.pow_nfft, one_pow, mul_one]
    · intro a ha
      rw [k3 a (by push_cast at ha; exact ha), h3 a ha]

/-- `kiss_fft_alloc` makes a good plan. -/
theorem kissAlloc_ok {n : Nat} (hn : 1 ≤ n) (hs : n < 2 ^ 32) (inv : Bool) :
    ∃ st, kissAlloc n inv = some st ∧ st.nfft = n ∧ st.inverse = inv ∧ TwOK st ∧ FacChain n st.factors ∧
      (∀ a, (st.tw a).isSome ↔ 0 ≤ a ∧ a < n) := by
  obtain ⟨l, h1, h2, _⟩ := kfFactor_chain hn hs
  unfold kissAlloc
  rw [h1]
  refine ⟨_, rfl, rfl, rfl, ⟨hn, ?_⟩, h2, ?_⟩
  · intro i hi
    simp only at hi ⊢
    simp only [Mem.ofFn]
    rw [if_pos (by omega)]
    congr 1
    unfold kissRoot
    rw [← Complex.exp_nat_mul]
    have e : (i : ℂ) * ((if inv then 1 else -1) * (2 * Real.pi * I / n)) =
        ((((if inv then 2 * Real.pi else -2 * Real.pi) * (i : ℝ) / n : ℝ)) : ℂ) * I := by
      cases inv <;> simp <;> ring
    rw [e]
    apply Complex.ext
    · rw [Complex.exp_ofReal_mul_I_re]; simp
    · rw [Complex.exp_ofReal_mul_I_im]; simp
  · intro a
    simp only [Mem.ofFn]
    split_ifs <;> simp_all

end FftMpi
