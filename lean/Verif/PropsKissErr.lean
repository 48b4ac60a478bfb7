import Verif.KissErr3
import Mathlib.Analysis.Real.Pi.Bounds
import Mathlib.Data.Int.Log
import Mathlib.Algebra.Order.Round

/-!
# Property C55: rounding errors of the built-in 1d FFT

The assumptions on the floating-point operations are those of `RoundOK` (KissErr.lean).  `d` is a bound for the
errors of the twiddles; `C55_twiddle` derives one from the accuracy of `cos`, `sin` and `M_PI`.
-/

noncomputable section

namespace FftMpi

open Complex

/-- Relative error of a stage of radix 2, 3, 4 or 5. -/
def radixErr (u d : ℝ) : ℝ := 2 * ((1 + d) ^ 2 * (1 + (3 * u + 3 / 2 * u ^ 2)) * (1 + u) ^ 5 - 1)

/-- Relative error of a transform of any length `n`. -/
def kissErr (u d : ℝ) (n : Nat) : ℝ := (1 + radixErr u d) ^ Nat.log 2 n * (1 + u) ^ (n - 1) - 1

/-- Relative error of a transform of a length `n` with no prime factors but 2, 3, 5. -/
def kissErrSmooth (u d : ℝ) (n : Nat) : ℝ := (1 + radixErr u d) ^ Nat.log 2 n - 1

/-- The exact twiddle. -/
def exactTwiddle (n : Nat) (backward : Bool) (i : Nat) : ℂ :=
  exp ((if backward then 1 else -1) * (2 * Real.pi * I * i / n))

theorem mulErr_eq (u : ℝ) : mulErr u = 3 * u + 3 / 2 * u ^ 2 := by unfold mulErr; ring

theorem radixErr_nonneg {u d : ℝ} (hu : 0 ≤ u) (hd : 0 ≤ d) : 0 ≤ radixErr u d := by
  have := stageErr_nonneg hu hd 3
  simpa [stageErr, radixErr, mulErr_eq] using this

/-- Stages of radix at most 5. -/
theorem stageErr_small {u d : ℝ} (hu : 0 ≤ u) (hd : 0 ≤ d) {p : Nat} (hp : p = 2 ∨ p = 3 ∨ p = 4 ∨ p = 5) :
    stageErr u d p ≤ radixErr u d := by
  have hm := mulErr_nonneg hu
  have key : ∀ j ≤ 5, (1 + d) * (1 + mulErr u) * (1 + u) ^ j ≤ (1 + d) ^ 2 * (1 + mulErr u) * (1 + u) ^ 5 := by
    intro j hj
    have h1 : 1 + d ≤ (1 + d) ^ 2 := by nlinarith
    have h2 : (1 + u) ^ j ≤ (1 + u) ^ 5 := pow_le_pow_right₀ (by linarith) hj
    gcongr
  have h0 := radixErr_nonneg hu hd
  have e : radixErr u d = 2 * ((1 + d) ^ 2 * (1 + mulErr u) * (1 + u) ^ 5 - 1) := by
    rw [radixErr, mulErr_eq]
  rcases hp with rfl | rfl | rfl | rfl
  · have := key 1 (by decide)
    simp only [stageErr, if_true]
    rw [pow_one] at this
    linarith
  · simp [stageErr, e]
  · have := key 2 (by decide)
    simp [stageErr]
    linarith
  · simp [stageErr, e]

theorem stageErr_any {u d : ℝ} (hu : 0 ≤ u) (hd : 0 ≤ d) {p : Nat} (hp : 2 ≤ p) :
    1 + stageErr u d p ≤ (1 + radixErr u d) * (1 + u) ^ (p - 1) := by
  have h0 := radixErr_nonneg hu hd
  have hp1 := one_le_pow_u hu (p - 1)
  by_cases hs : p = 2 ∨ p = 3 ∨ p = 4 ∨ p = 5
  · have := stageErr_small hu hd hs
    nlinarith
  · have hm := mulErr_nonneg hu
    have e : stageErr u d p = (1 + d) * (1 + mulErr u) * (1 + u) ^ (p - 1) - 1 := by
      have h1 : p ≠ 1 := by omega
      push Not at hs
      simp [stageErr, hs, h1]
    have h2 : stageErr u d 2 = (1 + d) * (1 + mulErr u) * (1 + u) - 1 := by simp [stageErr]
    have h3 := stageErr_small hu hd (p := 2) (Or.inl rfl)
    have h4 : (1 + d) * (1 + mulErr u) ≤ (1 + d) * (1 + mulErr u) * (1 + u) := by
      have : 0 ≤ (1 + d) * (1 + mulErr u) := by positivity
      nlinarith
    rw [e]
    have : (1 + d) * (1 + mulErr u) ≤ 1 + radixErr u d := by linarith
    have h5 : (1 + d) * (1 + mulErr u) * (1 + u) ^ (p - 1) ≤ (1 + radixErr u d) * (1 + u) ^ (p - 1) :=
      mul_le_mul_of_nonneg_right this (by linarith)
    linarith

theorem log_mul_le {p m : Nat} (hp : 2 ≤ p) (hm : 1 ≤ m) : Nat.log 2 m + 1 ≤ Nat.log 2 (p * m) := by
  have h1 : Nat.log 2 (2 * m) = Nat.log 2 m + 1 := by
    rw [Nat.mul_comm]; exact Nat.log_mul_base (by decide) (by omega)
  rw [← h1]
  exact Nat.log_mono_right (Nat.mul_le_mul_right m hp)

theorem growth_any {u d : ℝ} (hu : 0 ≤ u) (hd : 0 ≤ d) (l : List (Nat × Nat)) : ∀ n, FacChain n l →
    growth u d l ≤ 1 + kissErr u d n := by
  have h0 := radixErr_nonneg hu hd
  induction l with
  | nil => intro n h; exact absurd h (by simp [FacChain])
  | cons f l ih =>
    obtain ⟨p, m⟩ := f
    rintro n ⟨hp, hm, rfl, hr⟩
    have hg : growth u d ((p, m) :: l) = (1 + stageErr u d p) * growth u d l := by simp [growth]
    have hl : growth u d l ≤ 1 + kissErr u d m := by
      by_cases h1 : m = 1
      · rw [if_pos h1] at hr
        subst hr; subst h1
        simp [growth, kissErr]
      · rw [if_neg h1] at hr
        exact ih m hr
    have hgl := one_le_growth hu hd l
    rw [hg]
    by_cases hp1 : p = 1
    · subst hp1
      simp only [stageErr, one_mul]
      simpa using hl
    · have hp2 : 2 ≤ p := by omega
      have hst := stageErr_any hu hd hp2
      have hs0 := stageErr_nonneg hu hd p
      unfold kissErr at hl ⊢
      have hlog := log_mul_le hp2 hm
      have hsub : (p - 1) + (m - 1) ≤ p * m - 1 := by
        obtain ⟨p', rfl⟩ : ∃ p', p = p' + 1 := ⟨p - 1, by omega⟩
        obtain ⟨m', rfl⟩ : ∃ m', m = m' + 1 := ⟨m - 1, by omega⟩
        have : (p' + 1) * (m' + 1) = p' * m' + p' + m' + 1 := by ring
        omega
      have hle : (1 + radixErr u d) ^ Nat.log 2 m * (1 + u) ^ (m - 1) * ((1 + radixErr u d) * (1 + u) ^ (p - 1)) ≤
          (1 + radixErr u d) ^ Nat.log 2 (p * m) * (1 + u) ^ (p * m - 1) := by
        calc _ = (1 + radixErr u d) ^ (Nat.log 2 m + 1) * (1 + u) ^ ((p - 1) + (m - 1)) := by
              rw [pow_succ, pow_add]; ring
          _ ≤ _ := by
              have a1 : (1 + radixErr u d) ^ (Nat.log 2 m + 1) ≤ (1 + radixErr u d) ^ Nat.log 2 (p * m) :=
                pow_le_pow_right₀ (by linarith) hlog
              have a2 : (1 + u) ^ ((p - 1) + (m - 1)) ≤ (1 + u) ^ (p * m - 1) :=
                pow_le_pow_right₀ (by linarith) hsub
              gcongr
      have : (1 + stageErr u d p) * growth u d l ≤ (1 + radixErr u d) * (1 + u) ^ (p - 1) *
          ((1 + radixErr u d) ^ Nat.log 2 m * (1 + u) ^ (m - 1)) := by
        have : growth u d l ≤ (1 + radixErr u d) ^ Nat.log 2 m * (1 + u) ^ (m - 1) := by linarith
        gcongr
      linarith

theorem growth_smooth {u d : ℝ} (hu : 0 ≤ u) (hd : 0 ≤ d) (l : List (Nat × Nat)) : ∀ n, FacChain n l →
    (∀ e ∈ l, e.1 = 2 ∨ e.1 = 3 ∨ e.1 = 4 ∨ e.1 = 5) → growth u d l ≤ 1 + kissErrSmooth u d n := by
  have h0 := radixErr_nonneg hu hd
  induction l with
  | nil => intro n h; exact absurd h (by simp [FacChain])
  | cons f l ih =>
    obtain ⟨p, m⟩ := f
    rintro n ⟨hp, hm, rfl, hr⟩ hrad
    have hg : growth u d ((p, m) :: l) = (1 + stageErr u d p) * growth u d l := by simp [growth]
    have hl : growth u d l ≤ 1 + kissErrSmooth u d m := by
      by_cases h1 : m = 1
      · rw [if_pos h1] at hr
        subst hr; subst h1
        simp [growth, kissErrSmooth]
      · rw [if_neg h1] at hr
        exact ih m hr fun e he => hrad e (List.mem_cons_of_mem _ he)
    have hp5 := hrad (p, m) (List.mem_cons_self)
    have hp2 : 2 ≤ p := by
      simp only at hp5; omega
    have hst := stageErr_small hu hd hp5
    have hs0 := stageErr_nonneg hu hd p
    have hgl := one_le_growth hu hd l
    rw [hg]
    unfold kissErrSmooth at hl ⊢
    have hlog := log_mul_le hp2 hm
    have a1 : (1 + radixErr u d) ^ (Nat.log 2 m + 1) ≤ (1 + radixErr u d) ^ Nat.log 2 (p * m) :=
      pow_le_pow_right₀ (by linarith) hlog
    have : (1 + stageErr u d p) * growth u d l ≤ (1 + radixErr u d) * (1 + radixErr u d) ^ Nat.log 2 m := by
      have : growth u d l ≤ (1 + radixErr u d) ^ Nat.log 2 m := by linarith
      have hst' : stageErr u d p ≤ radixErr u d := hst
      gcongr
    rw [pow_succ] at a1
    linarith

theorem exactTwiddle_root {st : KissState} {n : Nat} (hn : st.nfft = n) (i : Nat) :
    st.root ^ i = exactTwiddle n st.inverse i := by
  unfold KissState.root kissRoot exactTwiddle
  rw [hn, ← Complex.exp_nat_mul]
  congr 1
  ring

/-- The in-place transform with the factors of the plan. -/
theorem kissErr_core {a : Arith} {u tiny big d : ℝ} (R : RoundOK a u tiny big) (hd : 0 ≤ d) {n : Nat}
    (hn : 1 ≤ n) (hs : n < 2 ^ 31) (inv : Bool) {E : ℝ} (hE : ∀ l, kfFactor n = some l → growth u d l ≤ 1 + E)
    (htw : ∀ i < n, ‖a.twiddle n inv i - exactTwiddle n inv i‖ ≤ d) (junk junk' : Int → ℂ) (x : Nat → ℂ)
    (data : Mem ℂ) (o : Int) (hin : ∀ j < n, data (o + (j : Nat)) = some (x j))
    (hb : 2 * (1 + E) * (∑ j ∈ Finset.range n, (‖x j‖ + 2 * tiny)) ≤ big) :
    ∃ st, kissAllocF a n inv = some st ∧ ∃ data', kissInF a st junk junk' data o 1 = some data' ∧
      (∀ k < n, ∃ y, data' (o + (k : Nat)) = some y ∧
        ‖y - dft1 n inv x k‖ ≤ E * ∑ j ∈ Finset.range n, (‖x j‖ + 2 * tiny)) ∧
      ∀ b, (b < o ∨ o + n ≤ b) → data' b = data b := by
  have hu := R.u0
  have ht := R.t0
  obtain ⟨st, h1, h2, h3, h4, h5, h6, h7⟩ := kissAllocF_ok a hn (by omega) inv
  have hS : 0 ≤ ∑ j ∈ Finset.range n, (‖x j‖ + 2 * tiny) :=
    Finset.sum_nonneg fun j _ => by have := norm_nonneg (x j); linarith
  have hgE := hE _ h6
  have hT : TwNear st d := by
    intro i hi
    rw [h2] at hi
    rw [h7 i hi, exactTwiddle_root h2, h3]
    exact htw i hi
  obtain ⟨data', k1, k2, k3⟩ := kissInF_ok a h4 (by rw [h2]; exact h5) junk junk' x data o
    (by rw [h2]; exact hin)
  rw [h2] at k2 k3
  refine ⟨st, h1, data', k1, fun k hk => ⟨_, k2 k hk, ?_⟩, k3⟩
  have := work_err R hd h4 hT st.factors n 1 x h5 (by omega) (by
    refine le_trans ?_ hb
    refine mul_le_mul_of_nonneg_right ?_ hS
    linarith) k hk
  rw [workVal_eq_dft1 h2, h3] at this
  refine this.trans (mul_le_mul_of_nonneg_right ?_ hS)
  linarith

/-- **C55.**  Rounding errors.  If the operations round with relative error `u` and the twiddles have errors of
at most `d`, the in-place transform of length `n` runs without fault, every output differs from the DFT of the
inputs by at most `kissErr u d n` times the sum of the absolute values of the inputs (plus two tiny numbers each,
for underflows), and the rest of the array is unchanged.  The inputs must be so small that nothing overflows. -/
theorem C55_rounding {a : Arith} {u tiny big d : ℝ} (R : RoundOK a u tiny big) (hd : 0 ≤ d) {n : Nat}
    (hn : 1 ≤ n) (hs : n < 2 ^ 31) (inv : Bool)
    (htw : ∀ i < n, ‖a.twiddle n inv i - exactTwiddle n inv i‖ ≤ d) (junk junk' : Int → ℂ) (x : Nat → ℂ)
    (data : Mem ℂ) (o : Int) (hin : ∀ j < n, data (o + (j : Nat)) = some (x j))
    (hb : 2 * (1 + kissErr u d n) * (∑ j ∈ Finset.range n, (‖x j‖ + 2 * tiny)) ≤ big) :
    ∃ st, kissAllocF a n inv = some st ∧ ∃ data', kissInF a st junk junk' data o 1 = some data' ∧
      (∀ k < n, ∃ y, data' (o + (k : Nat)) = some y ∧
        ‖y - dft1 n inv x k‖ ≤ kissErr u d n * ∑ j ∈ Finset.range n, (‖x j‖ + 2 * tiny)) ∧
      ∀ b, (b < o ∨ o + n ≤ b) → data' b = data b := by
  refine kissErr_core R hd hn hs inv (fun l hl => ?_) htw junk junk' x data o hin hb
  obtain ⟨l', g1, g2, _⟩ := kfFactor_chain hn (by omega)
  rw [hl] at g1
  cases g1
  exact growth_any R.u0 hd l n g2

/-- **C55, lengths with the prime factors 2, 3, 5 only**: the error grows with the logarithm of the length. -/
theorem C55_rounding_smooth {a : Arith} {u tiny big d : ℝ} (R : RoundOK a u tiny big) (hd : 0 ≤ d) {n : Nat}
    (hn : 2 ≤ n) (hs : n < 2 ^ 31) (h5 : ∀ q : Nat, q.Prime → q ∣ n → q = 2 ∨ q = 3 ∨ q = 5) (inv : Bool)
    (htw : ∀ i < n, ‖a.twiddle n inv i - exactTwiddle n inv i‖ ≤ d) (junk junk' : Int → ℂ) (x : Nat → ℂ)
    (data : Mem ℂ) (o : Int) (hin : ∀ j < n, data (o + (j : Nat)) = some (x j))
    (hb : 2 * (1 + kissErrSmooth u d n) * (∑ j ∈ Finset.range n, (‖x j‖ + 2 * tiny)) ≤ big) :
    ∃ st, kissAllocF a n inv = some st ∧ ∃ data', kissInF a st junk junk' data o 1 = some data' ∧
      (∀ k < n, ∃ y, data' (o + (k : Nat)) = some y ∧
        ‖y - dft1 n inv x k‖ ≤ kissErrSmooth u d n * ∑ j ∈ Finset.range n, (‖x j‖ + 2 * tiny)) ∧
      ∀ b, (b < o ∨ o + n ≤ b) → data' b = data b := by
  refine kissErr_core R hd (by omega) hs inv (fun l hl => ?_) htw junk junk' x data o hin hb
  obtain ⟨l', g1, g2, g3, g4, g5⟩ := C19_kf_factor (n := n) (by omega) (by omega)
  obtain ⟨l'', k1, k2, _⟩ := kfFactor_chain (n := n) (by omega) (by omega)
  rw [hl] at g1 k1
  cases g1
  cases k1
  exact growth_smooth R.u0 hd l n k2 (g5 hn h5)

/-- Accuracy of the constant `M_PI`, of the operations of type `double` and of the functions `cos` and `sin` of the
C library (for arguments up to 7; those of the plans are at most `2π` and rounding). -/
structure TrigOK (a : Arith) (v c tiny big : ℝ) : Prop where
  v0 : 0 ≤ v
  t0 : 0 ≤ tiny
  c0 : 0 ≤ c
  pi : |a.pi - Real.pi| ≤ v * Real.pi
  dmul : ∀ x y, |x * y| ≤ big → |a.dmul x y - x * y| ≤ v * (|x * y| + tiny)
  ddiv : ∀ x y, |x / y| ≤ big → |a.ddiv x y - x / y| ≤ v * (|x / y| + tiny)
  ofInt : ∀ n : Int, |(n : ℝ)| ≤ big → |a.ofInt n - n| ≤ v * |(n : ℝ)|
  cos : ∀ x, |x| ≤ 7 → |a.cos x - Real.cos x| ≤ c
  sin : ∀ x, |x| ≤ 7 → |a.sin x - Real.sin x| ≤ c

/-- Error of the twiddles. -/
def twErr (u v c tiny : ℝ) : ℝ :=
  3 / 2 * (c + ((1 + v) ^ 4 - 1) * (2 * Real.pi + tiny) + u * (1 + c + tiny))

theorem twErr_le {u v c tiny t : ℝ} (hu : 0 ≤ u) (hv : 0 ≤ v) (t0 : 0 ≤ tiny) (ht : tiny ≤ t) :
    twErr u v c tiny ≤ 3 / 2 * (c + ((1 + v) ^ 4 - 1) * (2 * 3.15 + t) + u * (1 + c + t)) := by
  have hpi' := Real.pi_lt_d2
  have h1 : 0 ≤ (1 + v) ^ 4 - 1 := by
    have := one_le_pow_u hv 4
    linarith
  have h2 : ((1 + v) ^ 4 - 1) * (2 * Real.pi + tiny) ≤ ((1 + v) ^ 4 - 1) * (2 * 3.15 + t) :=
    mul_le_mul_of_nonneg_left (by linarith) h1
  have h3 : u * (1 + c + tiny) ≤ u * (1 + c + t) := mul_le_mul_of_nonneg_left (by linarith) hu
  unfold twErr
  linarith

theorem round_step {v tiny G A x x' y : ℝ} (hv : 0 ≤ v) (hx : |x| + tiny ≤ A) (h : |x' - x| ≤ (G - 1) * A)
    (hy : |y - x'| ≤ v * (|x'| + tiny)) : |y - x| ≤ (G * (1 + v) - 1) * A := by
  have h1 : |x'| ≤ |x| + |x' - x| := by
    have := abs_add_le x (x' - x)
    simpa using this
  have h2 : |y - x| ≤ |y - x'| + |x' - x| := abs_sub_le _ _ _
  have h3 : |x'| + tiny ≤ G * A := by linarith
  have h4 : v * (|x'| + tiny) ≤ v * (G * A) := mul_le_mul_of_nonneg_left h3 hv
  nlinarith

theorem abs_le_of_err {tiny G A x x' : ℝ} (ht : 0 ≤ tiny) (hx : |x| + tiny ≤ A) (h : |x' - x| ≤ (G - 1) * A) :
    |x'| ≤ G * A := by
  have h1 : |x'| ≤ |x| + |x' - x| := by
    have := abs_add_le x (x' - x)
    simpa using this
  linarith

/-- The phase, kissfft.h:455-456. -/
theorem phase_err {a : Arith} {v c tiny big : ℝ} (T : TrigOK a v c tiny big) (hv : v ≤ 1 / 100)
    (ht : tiny ≤ 1 / 100) {n : Nat} (hn : 1 ≤ n) (hbig : 8 * (n : ℝ) ≤ big) {i : Nat} (hi : i < n) {s : ℝ}
    (hs : |s| = 2) :
    |a.ddiv (a.dmul (a.dmul s a.pi) (i : Nat)) n - s * Real.pi * i / n| ≤
      ((1 + v) ^ 4 - 1) * (2 * Real.pi + tiny) := by
  have v0 := T.v0
  have t0 := T.t0
  have hpi := Real.pi_pos
  have hpi' := Real.pi_lt_d2
  have hnr : (1 : ℝ) ≤ n := by exact_mod_cast hn
  have hir : (i : ℝ) ≤ n := by exact_mod_cast hi.le
  have hi0 : (0 : ℝ) ≤ i := Nat.cast_nonneg i
  set A : ℝ := 2 * Real.pi + tiny with hA
  have hA0 : 0 ≤ A := by positivity
  have hA' : A ≤ 6.32 := by rw [hA]; norm_num at hpi' ⊢; linarith
  have pw : ∀ k ≤ 3, (1 + v) ^ k * A ≤ 8 := by
    intro k hk
    have : (1 + v) ^ k ≤ (1 + 1 / 100) ^ 3 := by
      calc (1 + v) ^ k ≤ (1 + v) ^ 3 := pow_le_pow_right₀ (by linarith) hk
        _ ≤ _ := by gcongr
    calc (1 + v) ^ k * A ≤ (1 + 1 / 100) ^ 3 * 6.32 := by gcongr
      _ ≤ 8 := by norm_num
  have hsp : |s * Real.pi| = 2 * Real.pi := by rw [abs_mul, hs, abs_of_pos hpi]
  -- `2.0*M_PI`
  have b0 : |s * a.pi - s * Real.pi| ≤ ((1 + v) - 1) * A := by
    rw [← mul_sub, abs_mul, hs]
    have := T.pi
    rw [hA]
    nlinarith [mul_nonneg v0 t0]
  have a0 : |s * Real.pi| + tiny ≤ A := by rw [hsp]
  have g0 : |s * a.pi| ≤ big := by
    have := abs_le_of_err t0 a0 b0
    have h2 := pw 1 (by decide)
    rw [pow_one] at h2
    linarith
  have b1 := round_step v0 a0 b0 (T.dmul _ _ g0)
  -- the product with `i`
  have a1 : |s * Real.pi * i| + tiny ≤ n * A := by
    rw [abs_mul, hsp, abs_of_nonneg hi0, hA]
    nlinarith
  have b1' : |a.dmul s a.pi * i - s * Real.pi * i| ≤ ((1 + v) * (1 + v) - 1) * (n * A) := by
    rw [← sub_mul, abs_mul, abs_of_nonneg hi0]
    have hg : 0 ≤ ((1 + v) * (1 + v) - 1) * A := by
      apply mul_nonneg _ hA0; nlinarith
    calc _ ≤ ((1 + v) * (1 + v) - 1) * A * n := by gcongr
      _ = _ := by ring
  have g1 : |a.dmul s a.pi * i| ≤ big := by
    have h1 := abs_le_of_err t0 a1 b1'
    have h2 := pw 2 (by decide)
    have h3 : (1 + v) * (1 + v) * (n * A) = n * ((1 + v) ^ 2 * A) := by ring
    rw [h3] at h1
    have : n * ((1 + v) ^ 2 * A) ≤ n * 8 := by gcongr
    linarith
  have b2 := round_step v0 a1 b1' (T.dmul _ _ g1)
  -- the quotient
  have a2 : |s * Real.pi * i / n| + tiny ≤ A := by
    rw [abs_div, abs_mul, hsp, abs_of_nonneg hi0, abs_of_nonneg (show (0 : ℝ) ≤ n by linarith), hA]
    have : 2 * Real.pi * i / n ≤ 2 * Real.pi := by
      rw [div_le_iff₀ (by linarith)]
      gcongr
    linarith
  have b2' : |a.dmul (a.dmul s a.pi) i / n - s * Real.pi * i / n| ≤ ((1 + v) * (1 + v) * (1 + v) - 1) * A := by
    rw [← sub_div, abs_div, abs_of_nonneg (show (0 : ℝ) ≤ n by linarith), div_le_iff₀ (by linarith)]
    calc _ ≤ _ := b2
      _ = _ := by ring
  have g2 : |a.dmul (a.dmul s a.pi) i / n| ≤ big := by
    have h1 := abs_le_of_err t0 a2 b2'
    have h2 := pw 3 (by decide)
    have h3 : (1 + v) * (1 + v) * (1 + v) = (1 + v) ^ 3 := by ring
    rw [h3] at h1
    linarith
  have b3 := round_step v0 a2 b2' (T.ddiv _ _ g2)
  have : (1 + v) * (1 + v) * (1 + v) * (1 + v) = (1 + v) ^ 4 := by ring
  rw [this] at b3
  exact b3

theorem conv_err {a : Arith} {u tiny big c D q y t : ℝ} (R : RoundOK a u tiny big) (hc : |y - q| ≤ c)
    (hq : |q| ≤ 1) (hD : |q - t| ≤ D) (hb : 1 + c ≤ big) : |a.conv y - t| ≤ c + D + u * (1 + c + tiny) := by
  have h1 : |y| ≤ 1 + c := by
    have := abs_add_le q (y - q)
    have e : q + (y - q) = y := by ring
    rw [e] at this
    linarith
  have h2 := R.conv y (h1.trans hb)
  have h3 : |a.conv y - t| ≤ |a.conv y - y| + (|y - q| + |q - t|) :=
    (abs_sub_le _ y _).trans (add_le_add le_rfl (abs_sub_le _ _ _))
  have h4 : u * (|y| + tiny) ≤ u * (1 + c + tiny) := mul_le_mul_of_nonneg_left (by linarith) R.u0
  linarith

theorem norm_le_parts {z : ℂ} {e : ℝ} (h1 : |z.re| ≤ e) (h2 : |z.im| ≤ e) : ‖z‖ ≤ 3 / 2 * e := by
  have he : 0 ≤ e := (abs_nonneg _).trans h1
  rw [← abs_of_nonneg (norm_nonneg z), ← abs_of_nonneg (show 0 ≤ 3 / 2 * e by linarith)]
  apply sq_le_sq.mp
  rw [← Complex.normSq_eq_norm_sq, Complex.normSq_apply]
  have := sq_le_sq' (by linarith [neg_abs_le z.re]) ((le_abs_self z.re).trans h1)
  have := sq_le_sq' (by linarith [neg_abs_le z.im]) ((le_abs_self z.im).trans h2)
  nlinarith

/-- **C55, the twiddles**: their error, from the accuracy of `M_PI`, `cos`, `sin` and the operations. -/
theorem C55_twiddle {a : Arith} {u v c tiny big : ℝ} (R : RoundOK a u tiny big) (T : TrigOK a v c tiny big)
    (hv : v ≤ 1 / 100) (ht : tiny ≤ 1 / 100) (hc : c ≤ 1) {n : Nat} (hn : 1 ≤ n) (hbig : 8 * (n : ℝ) ≤ big)
    (inv : Bool) : ∀ i < n, ‖a.twiddle n inv i - exactTwiddle n inv i‖ ≤ twErr u v c tiny := by
  intro i hi
  have hnr : (1 : ℝ) ≤ n := by exact_mod_cast hn
  have v0 := T.v0
  have t0 := T.t0
  have hpi := Real.pi_pos
  have hpi' := Real.pi_lt_d2
  have hb1 : 1 + c ≤ big := by linarith
  set s : ℝ := if inv then 2 else -2 with hsd
  have hs : |s| = 2 := by rw [hsd]; split <;> norm_num
  have hph := phase_err T hv ht hn hbig hi hs
  set ph : ℝ := s * Real.pi * i / n with hphd
  set ph' : ℝ := a.ddiv (a.dmul (a.dmul s a.pi) (i : Nat)) n with hphd'
  have hex : exactTwiddle n inv i = exp (ph * I) := by
    rw [exactTwiddle, hphd, hsd]
    congr 1
    cases inv <;> simp <;> ring
  have htw : a.twiddle n inv i = ⟨a.conv (a.cos ph'), a.conv (a.sin ph')⟩ := by
    rw [hphd', hsd]
    cases inv <;> simp [Arith.twiddle]
  have h7 : |ph'| ≤ 7 := by
    have a2 : |ph| + tiny ≤ 2 * Real.pi + tiny := by
      have hi0 : (0 : ℝ) ≤ i := Nat.cast_nonneg i
      have hir : (i : ℝ) ≤ n := by exact_mod_cast hi.le
      rw [hphd, abs_div, abs_mul, abs_mul, hs, abs_of_pos hpi, abs_of_nonneg hi0,
        abs_of_nonneg (show (0 : ℝ) ≤ n by linarith)]
      have : 2 * Real.pi * i / n ≤ 2 * Real.pi := by
        rw [div_le_iff₀ (by linarith)]
        gcongr
      linarith
    have := abs_le_of_err t0 a2 hph
    have h2 : (1 + v) ^ 4 * (2 * Real.pi + tiny) ≤ (1 + 1 / 100) ^ 4 * (2 * 3.15 + 1 / 100) := by
      gcongr
    have h3 : ((1 : ℝ) + 1 / 100) ^ 4 * (2 * 3.15 + 1 / 100) ≤ 7 := by norm_num
    linarith
  rw [hex, htw]
  unfold twErr
  apply norm_le_parts
  · rw [sub_re, exp_ofReal_mul_I_re]
    refine conv_err R (T.cos ph' h7) (Real.abs_cos_le_one _) ?_ hb1
    refine le_trans ?_ hph
    exact Real.abs_cos_sub_cos_le _ _
  · rw [sub_im, exp_ofReal_mul_I_im]
    refine conv_err R (T.sin ph' h7) (Real.abs_sin_le_one _) ?_ hb1
    refine le_trans ?_ hph
    exact Real.abs_sin_sub_sin_le _ _

/-- Transforms of lengths with the prime factors 2, 3, 5, with numbers for the errors. -/
theorem kissErr_numeric {a : Arith} {u tiny big d r E : ℝ} (R : RoundOK a u tiny big) (hd : 0 ≤ d)
    (hr : radixErr u d ≤ r) (hrE : (1 + r) ^ 30 ≤ 1 + E) (hE1 : E ≤ 1 / 2) {n : Nat}
    (hn : 2 ≤ n) (hs : n < 2 ^ 31) (h5 : ∀ q : Nat, q.Prime → q ∣ n → q = 2 ∨ q = 3 ∨ q = 5) (inv : Bool)
    (htw : ∀ i < n, ‖a.twiddle n inv i - exactTwiddle n inv i‖ ≤ d) (junk junk' : Int → ℂ) (x : Nat → ℂ)
    (data : Mem ℂ) (o : Int) (hin : ∀ j < n, data (o + (j : Nat)) = some (x j))
    (hb : 3 * (∑ j ∈ Finset.range n, (‖x j‖ + 2 * tiny)) ≤ big) :
    ∃ st, kissAllocF a n inv = some st ∧ ∃ data', kissInF a st junk junk' data o 1 = some data' ∧
      (∀ k < n, ∃ y, data' (o + (k : Nat)) = some y ∧
        ‖y - dft1 n inv x k‖ ≤ E * ∑ j ∈ Finset.range n, (‖x j‖ + 2 * tiny)) ∧
      ∀ b, (b < o ∨ o + n ≤ b) → data' b = data b := by
  have hu := R.u0
  have ht := R.t0
  have hS : 0 ≤ ∑ j ∈ Finset.range n, (‖x j‖ + 2 * tiny) :=
    Finset.sum_nonneg fun j _ => by have := norm_nonneg (x j); linarith
  have hr0 := radixErr_nonneg hu hd
  have hlog : Nat.log 2 n ≤ 30 := by
    have := Nat.log_lt_of_lt_pow (b := 2) (x := 31) (y := n) (by omega) hs
    omega
  have hE : kissErrSmooth u d n ≤ E := by
    unfold kissErrSmooth
    have h1 : (1 + radixErr u d) ^ Nat.log 2 n ≤ (1 + r) ^ 30 := by
      calc _ ≤ (1 + radixErr u d) ^ 30 := pow_le_pow_right₀ (by linarith) hlog
        _ ≤ _ := by gcongr
    linarith
  obtain ⟨st, h1, data', h2, h3, h4⟩ := C55_rounding_smooth R hd hn hs h5
    inv htw junk junk' x data o hin (by
      refine le_trans (mul_le_mul_of_nonneg_right ?_ hS) hb
      linarith)
  refine ⟨st, h1, data', h2, fun k hk => ?_, h4⟩
  obtain ⟨y, g1, g2⟩ := h3 k hk
  exact ⟨y, g1, g2.trans (mul_le_mul_of_nonneg_right hE hS)⟩

/-- **C55 in numbers, double precision** (`u = v = 2^-53`), with `cos` and `sin` accurate to `2^-52`: the error of
any transform of a length with the prime factors 2, 3, 5 is at most `2^-40` (`9.1e-13`) of the sum of the absolute
values of the inputs. -/
theorem C55_double {a : Arith} {tiny big : ℝ} (R : RoundOK a (1 / 2 ^ 53) tiny big)
    (T : TrigOK a (1 / 2 ^ 53) (1 / 2 ^ 52) tiny big) (ht : tiny ≤ 1 / 2 ^ 53) {n : Nat}
    (hn : 2 ≤ n) (hs : n < 2 ^ 31) (h5 : ∀ q : Nat, q.Prime → q ∣ n → q = 2 ∨ q = 3 ∨ q = 5)
    (hbig : 8 * (n : ℝ) ≤ big) (inv : Bool) (junk junk' : Int → ℂ) (x : Nat → ℂ)
    (data : Mem ℂ) (o : Int) (hin : ∀ j < n, data (o + (j : Nat)) = some (x j))
    (hb : 3 * (∑ j ∈ Finset.range n, (‖x j‖ + 2 * tiny)) ≤ big) :
    ∃ st, kissAllocF a n inv = some st ∧ ∃ data', kissInF a st junk junk' data o 1 = some data' ∧
      (∀ k < n, ∃ y, data' (o + (k : Nat)) = some y ∧
        ‖y - dft1 n inv x k‖ ≤ 1 / 2 ^ 40 * ∑ j ∈ Finset.range n, (‖x j‖ + 2 * tiny)) ∧
      ∀ b, (b < o ∨ o + n ≤ b) → data' b = data b := by
  have htw := C55_twiddle R T (by norm_num) (ht.trans (by norm_num)) (by norm_num) (n := n) (by omega) hbig inv
  have hd : twErr (1 / 2 ^ 53) (1 / 2 ^ 53) (1 / 2 ^ 52) tiny ≤ 1 / 2 ^ 47 := by
    exact (twErr_le (by positivity) (by positivity) T.t0 ht).trans (by norm_num)
  exact kissErr_numeric R (r := 1 / 2 ^ 45 + 1 / 2 ^ 49 + 1 / 2 ^ 70) (by positivity) (by unfold radixErr; norm_num)
    (by norm_num) (by norm_num) hn hs h5 inv (fun i hi => (htw i hi).trans hd) junk junk' x data o hin hb

/-- **C55 in numbers, single precision** (`u = 2^-24`; the twiddles are computed in double precision): the error
is at most `2^-14` of the sum of the absolute values of the inputs. -/
theorem C55_float {a : Arith} {tiny big : ℝ} (R : RoundOK a (1 / 2 ^ 24) tiny big)
    (T : TrigOK a (1 / 2 ^ 53) (1 / 2 ^ 52) tiny big) (ht : tiny ≤ 1 / 2 ^ 24) {n : Nat}
    (hn : 2 ≤ n) (hs : n < 2 ^ 31) (h5 : ∀ q : Nat, q.Prime → q ∣ n → q = 2 ∨ q = 3 ∨ q = 5)
    (hbig : 8 * (n : ℝ) ≤ big) (inv : Bool) (junk junk' : Int → ℂ) (x : Nat → ℂ)
    (data : Mem ℂ) (o : Int) (hin : ∀ j < n, data (o + (j : Nat)) = some (x j))
    (hb : 3 * (∑ j ∈ Finset.range n, (‖x j‖ + 2 * tiny)) ≤ big) :
    ∃ st, kissAllocF a n inv = some st ∧ ∃ data', kissInF a st junk junk' data o 1 = some data' ∧
      (∀ k < n, ∃ y, data' (o + (k : Nat)) = some y ∧
        ‖y - dft1 n inv x k‖ ≤ 1 / 2 ^ 14 * ∑ j ∈ Finset.range n, (‖x j‖ + 2 * tiny)) ∧
      ∀ b, (b < o ∨ o + n ≤ b) → data' b = data b := by
  have htw := C55_twiddle R T (by norm_num) (ht.trans (by norm_num)) (by norm_num) (n := n) (by omega) hbig inv
  have hd : twErr (1 / 2 ^ 24) (1 / 2 ^ 53) (1 / 2 ^ 52) tiny ≤ 1 / 2 ^ 23 := by
    exact (twErr_le (by positivity) (by positivity) T.t0 ht).trans (by norm_num)
  exact kissErr_numeric R (r := 25 / 2 ^ 24) (by positivity) (by unfold radixErr; norm_num)
    (by norm_num) (by norm_num) hn hs h5 inv (fun i hi => (htw i hi).trans hd) junk junk' x data o hin hb

/-! ## An arithmetic that rounds -/

/-- Rounding to 53 binary digits. -/
def rnd53 (x : ℝ) : ℝ := (round (x / (2 : ℝ) ^ (Int.log 2 |x| - 52)) : ℝ) * (2 : ℝ) ^ (Int.log 2 |x| - 52)

theorem rnd53_err (x : ℝ) : |rnd53 x - x| ≤ 1 / 2 ^ 53 * |x| := by
  unfold rnd53
  set e : ℝ := (2 : ℝ) ^ (Int.log 2 |x| - 52) with he
  have he0 : 0 < e := by positivity
  by_cases hx : x = 0
  · simp [hx]
  · have h1 : (2 : ℝ) ^ Int.log 2 |x| ≤ |x| := by
      have := Int.zpow_log_le_self (b := 2) (r := |x|) (by decide) (abs_pos.mpr hx)
      simpa using this
    have h2 : e = (2 : ℝ) ^ Int.log 2 |x| / 2 ^ 52 := by
      rw [he, zpow_sub₀ (by norm_num)]
      norm_num
    have h3 : |x / e - round (x / e)| ≤ 1 / 2 := abs_sub_round _
    have h4 : (round (x / e) : ℝ) * e - x = -((x / e - round (x / e)) * e) := by
      field_simp
      ring
    rw [h4, abs_neg, abs_mul, abs_of_pos he0]
    calc |x / e - round (x / e)| * e ≤ 1 / 2 * e := by gcongr
      _ = 1 / 2 ^ 53 * (2 : ℝ) ^ Int.log 2 |x| := by rw [h2]; ring
      _ ≤ _ := by gcongr

/-- Every operation exact, then rounded to 53 binary digits. -/
def arith53 : Arith where
  add x y := rnd53 (x + y)
  sub x y := rnd53 (x - y)
  mul x y := rnd53 (x * y)
  dmul x y := rnd53 (x * y)
  dsub x y := rnd53 (x - y)
  ddiv x y := rnd53 (x / y)
  conv := id
  ofInt n := rnd53 n
  pi := rnd53 Real.pi
  cos x := rnd53 (Real.cos x)
  sin x := rnd53 (Real.sin x)

theorem arith53_round (big : ℝ) : RoundOK arith53 (1 / 2 ^ 53) 0 big where
  u0 := by positivity
  t0 := le_rfl
  add x y _ := rnd53_err _
  sub x y _ := rnd53_err _
  mul x y _ := by rw [add_zero]; exact rnd53_err _
  dmul x y _ := by rw [add_zero]; exact rnd53_err _
  dsub x y _ := rnd53_err _
  conv x _ := by simp [arith53]

theorem arith53_trig (big : ℝ) : TrigOK arith53 (1 / 2 ^ 53) (1 / 2 ^ 52) 0 big where
  v0 := by positivity
  t0 := le_rfl
  c0 := by positivity
  pi := by
    have := rnd53_err Real.pi
    rwa [abs_of_pos Real.pi_pos] at this
  dmul x y _ := by rw [add_zero]; exact rnd53_err _
  ddiv x y _ := by rw [add_zero]; exact rnd53_err _
  ofInt n _ := rnd53_err _
  cos x _ := by
    have := rnd53_err (Real.cos x)
    have h := Real.abs_cos_le_one x
    show |rnd53 (Real.cos x) - Real.cos x| ≤ _
    norm_num at this ⊢
    linarith
  sin x _ := by
    have := rnd53_err (Real.sin x)
    have h := Real.abs_sin_le_one x
    show |rnd53 (Real.sin x) - Real.sin x| ≤ _
    norm_num at this ⊢
    linarith

/-- The arithmetic is not exact: `1 + 2^-54` is 1. -/
theorem arith53_inexact : arith53.add 1 (1 / 2 ^ 54) = 1 := by
  have hl : Int.log 2 |(1 : ℝ) + 1 / 2 ^ 54| = 0 := by
    have h0 : (0 : ℝ) < 1 + 1 / 2 ^ 54 := by positivity
    rw [abs_of_pos h0]
    apply le_antisymm
    · have := (Int.lt_zpow_iff_log_lt (R := ℝ) (b := 2) (by decide) (x := 1) h0).mp (by norm_num)
      omega
    · exact (Int.zpow_le_iff_le_log (R := ℝ) (b := 2) (by decide) (x := 0) h0).mp (by norm_num)
  show rnd53 _ = 1
  unfold rnd53
  rw [hl]
  have hr : round (((1 : ℝ) + 1 / 2 ^ 54) / (2 : ℝ) ^ ((0 : Int) - 52)) = 2 ^ 52 := by
    rw [round_eq, Int.floor_eq_iff]
    norm_num
  rw [hr]
  norm_num

/-- `C55_double` applies to it: transform of length 60, inputs `0, 1, …, 59`. -/
example (junk : Int → ℂ) : ∃ st, kissAllocF arith53 60 false = some st ∧ ∃ data',
    kissInF arith53 st junk junk (Mem.ofFn 60 fun i => (i : ℂ)) 0 1 = some data' ∧
    (∀ k < 60, ∃ y, data' (0 + (k : Nat)) = some y ∧ ‖y - dft1 60 false (fun j => (j : ℂ)) k‖ ≤ 1 / 2 ^ 40 * 1770) ∧
      ∀ b, (b < 0 ∨ 0 + 60 ≤ b) → data' b = Mem.ofFn 60 (fun i => (i : ℂ)) b := by
  have hsum : ∑ j ∈ Finset.range 60, (‖((j : Nat) : ℂ)‖ + 2 * (0 : ℝ)) = 1770 := by
    simp only [Complex.norm_natCast, mul_zero, add_zero]
    rw [← Nat.cast_sum]
    norm_num [Finset.sum_range_id]
  have := C55_double (arith53_round 6000) (arith53_trig 6000) (by positivity) (n := 60) (by decide) (by decide)
    (by
      intro q hq hd
      have : q ∣ 2 * 2 * 3 * 5 := hd
      rcases (Nat.Prime.dvd_mul hq).mp this with h | h
      · rcases (Nat.Prime.dvd_mul hq).mp h with h | h
        · rcases (Nat.Prime.dvd_mul hq).mp h with h | h <;>
            exact Or.inl ((Nat.prime_dvd_prime_iff_eq hq Nat.prime_two).mp h)
        · exact Or.inr (Or.inl ((Nat.prime_dvd_prime_iff_eq hq Nat.prime_three).mp h))
      · exact Or.inr (Or.inr ((Nat.prime_dvd_prime_iff_eq hq Nat.prime_five).mp h)))
    (by norm_num) false junk junk (fun j => (j : ℂ)) (Mem.ofFn 60 fun i => (i : ℂ)) 0
    (by intro j hj; simp [Mem.ofFn, hj]) (by rw [hsum]; norm_num)
  rw [hsum] at this
  exact_mod_cast this

end FftMpi
