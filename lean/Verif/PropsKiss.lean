import Verif.KissWork
import Mathlib.Tactic.NormNum.NatSqrt

/-!
# Properties C18 - C20: the built-in 1d FFT
-/

noncomputable section

namespace FftMpi

open Complex

/-- Specification: the discrete Fourier transform, forward with `exp(-2 pi i j k/n)`, backward with
`exp(+2 pi i j k/n)`, not normalised. -/
def dft1 (n : Nat) (backward : Bool) (x : Nat → ℂ) (k : Nat) : ℂ :=
  ∑ j ∈ Finset.range n, x j * exp ((if backward then 1 else -1) * (2 * Real.pi * I * j * k / n))

theorem workVal_eq_dft1 {st : KissState} {n : Nat} (hn : st.nfft = n) (x : Nat → ℂ) (k : Nat) :
    workVal st 1 n x k = dft1 n st.inverse x k := by
  unfold workVal dft1
  refine Finset.sum_congr rfl fun j _ => ?_
  congr 1
  unfold KissState.root kissRoot
  rw [hn, ← Complex.exp_nat_mul]
  congr 1
  push_cast
  ring

/-! ## C19 -/

/-- **C19.**  For every `n` (more than `int` can hold) `kf_factor` stores at most `MAXFACTORS` pairs, without
overflowing the array; the radices multiply to `n`; every pair holds a radix and the product of the
following radices; if `n` is at least 2 and 5-smooth all radices are 2, 3, 4 or 5. -/
theorem C19_kf_factor {n : Nat} (hn : 1 ≤ n) (hs : n < 2 ^ 32) :
    ∃ l : List (Nat × Nat), kfFactor n = some l ∧ l.length ≤ 32 ∧ (l.map Prod.fst).prod = n ∧
      (∀ i (h : i < l.length), l[i].2 = ((l.drop (i + 1)).map Prod.fst).prod) ∧
      (2 ≤ n → (∀ q : Nat, q.Prime → q ∣ n → q = 2 ∨ q = 3 ∨ q = 5) →
        ∀ e ∈ l, e.1 = 2 ∨ e.1 = 3 ∨ e.1 = 4 ∨ e.1 = 5) := by
  obtain ⟨l, h1, h2, h3, _⟩ := kfFactor_chain hn hs
  have key : ∀ (l : List (Nat × Nat)) (n : Nat), FacChain n l → (l.map Prod.fst).prod = n ∧
      ∀ i (h : i < l.length), l[i].2 = ((l.drop (i + 1)).map Prod.fst).prod := by
    intro l
    induction l with
    | nil => intro n h; exact absurd h (by simp [FacChain])
    | cons e l ih =>
      obtain ⟨p, m⟩ := e
      rintro n ⟨hp, hm, hpm, hr⟩
      have hprod : (l.map Prod.fst).prod = m ∧
          ∀ i (h : i < l.length), l[i].2 = ((l.drop (i + 1)).map Prod.fst).prod := by
        by_cases hm1 : m = 1
        · rw [if_pos hm1] at hr
          subst hr; subst hm1
          exact ⟨by simp, fun i h => absurd h (by simp)⟩
        · rw [if_neg hm1] at hr
          exact ih m hr
      refine ⟨by simp [hprod.1, hpm], ?_⟩
      intro i h
      cases i with
      | zero => simp [hprod.1]
      | succ i => simpa using hprod.2 i (by simpa using h)
  refine ⟨l, h1, h3, (key l n h2).1, (key l n h2).2, ?_⟩
  intro hn2 hsm
  exact kfLoop_smooth 32 4 n hn2 le_rfl hsm (by simp [KfInv]) l h1

/-- `n = 60` is stored as `4, 15, 3, 5, 5, 1`. -/
example : kfFactor 60 = some [(4, 15), (3, 5), (5, 1)] := by
  unfold kfFactor
  have hs : Nat.sqrt 60 = 7 := by norm_num
  rw [hs]
  simp [kfLoop, kfWhile, kfNextP, MAXFACTORS]

/-! ## C18 -/

/-- **C18, out of place** (`fin != fout`).  For every `n >= 1`, both directions, every stride and all data:
the plan is made, the transform runs without fault, output `k` is the DFT of the inputs, and nothing but the
`n` outputs changes.  `junk` is the content of memory that has been allocated but not written. -/
theorem C18_kiss_out {n : Nat} (hn : 1 ≤ n) (hs : n < 2 ^ 31) (inv : Bool) (junk : Int → ℂ) (x : Nat → ℂ)
    (stride : Nat) (fin fout : Mem ℂ) (fi o : Int)
    (hin : ∀ j < n, fin (fi + (j * stride : Nat)) = some (x j))
    (hout : ∀ k < n, (fout (o + (k : Nat))).isSome) :
    ∃ st, kissAlloc n inv = some st ∧ ∃ fout', kissOut st junk fin fi fout o stride = some fout' ∧
      (∀ k < n, fout' (o + (k : Nat)) = some (dft1 n inv x k)) ∧
      ∀ a, (a < o ∨ o + n ≤ a) → fout' a = fout a := by
  obtain ⟨st, h1, h2, h3, h4, h5, _⟩ := kissAlloc_ok hn (by omega) inv
  refine ⟨st, h1, ?_⟩
  obtain ⟨F', k1, k2, k3⟩ := kfWork_ok h4 junk fin stride st.factors n 1 fout o fi x h5 (by omega)
    (by
      intro j hj
      have := hin j hj
      push_cast at this ⊢
      rw [one_mul]; exact this) hout
  refine ⟨F', k1, ?_, k3⟩
  intro k hk
  rw [k2 k hk, workVal_eq_dft1 h2, h3]

/-- **C18, in place** (`fin == fout`), as used by `perform_ffts`. -/
theorem C18_kiss_in_place {n : Nat} (hn : 1 ≤ n) (hs : n < 2 ^ 31) (inv : Bool) (junk junk' : Int → ℂ)
    (x : Nat → ℂ) (data : Mem ℂ) (o : Int) (hin : ∀ j < n, data (o + (j : Nat)) = some (x j)) :
    ∃ st, kissAlloc n inv = some st ∧ ∃ data', kissIn st junk junk' data o 1 = some data' ∧
      (∀ k < n, data' (o + (k : Nat)) = some (dft1 n inv x k)) ∧
      ∀ a, (a < o ∨ o + n ≤ a) → data' a = data a := by
  obtain ⟨st, h1, h2, h3, h4, h5, _⟩ := kissAlloc_ok hn (by omega) inv
  refine ⟨st, h1, ?_⟩
  obtain ⟨F', k1, k2, k3⟩ := kfWork_ok h4 junk data 1 st.factors n 1 (Mem.ofFn st.nfft junk') 0 o x h5
    (by omega) (by simpa using hin) (by
      intro k hk
      simp only [Mem.ofFn]
      rw [if_pos (by omega)]; rfl)
  unfold kissIn
  rw [k1]
  simp only [Option.bind_some, memcpyM]
  rw [if_neg (by omega), h2]
  obtain ⟨G, g1, g2, g3, g4⟩ := forN_inv (fun k (G : Mem ℂ) =>
      (∀ q : Nat, q < k → q < n → G (o + q) = some (dft1 n inv x q)) ∧
      (∀ q : Nat, q < n → (G (o + q)).isSome) ∧ ∀ a, (a < o ∨ o + n ≤ a) → G a = data a)
    (fun t m => copy1 F' m (o + t) (0 + t)) n data
    ⟨fun q hq => absurd hq (by omega), fun q hq => by rw [hin q hq]; rfl, fun a _ => rfl⟩
    (by
      intro k hk G ⟨g1, g2, g3⟩
      refine ⟨Function.update G (o + k) (some (dft1 n inv x k)), ?_, ?_, ?_, ?_⟩
      · simp only [copy1, k2 k hk, Option.bind_some, Mem.set_eq (g2 k hk), workVal_eq_dft1 h2, h3]
      · intro q hq hqp
        by_cases hqk : q = k
        · subst hqk; simp
        · have : o + (q : Int) ≠ o + k := by omega
          simp only [Function.update_apply, if_neg this]
          exact g1 q (by omega) hqp
      · intro q hq
        by_cases hqk : q = k
        · subst hqk; simp
        · have : o + (q : Int) ≠ o + k := by omega
          simp only [Function.update_apply, if_neg this]
          exact g2 q hq
      · intro a ha
        have : a ≠ o + k := by omega
        simp only [Function.update_apply, if_neg this]
        exact g3 a ha)
  exact ⟨G, g1, fun k hk => g2 k hk hk, g4⟩

/-- A length 6 transform of a non-constant signal, backward. -/
example : ∃ st, kissAlloc 6 true = some st ∧ ∃ d, kissIn st (fun _ => 0) (fun _ => 0)
    (Mem.ofFn 6 fun j => (j : ℂ) + I) 0 1 = some d ∧
      d 1 = some (dft1 6 true (fun j => (j : ℂ) + I) 1) := by
  obtain ⟨st, h1, d, h2, h3, _⟩ := C18_kiss_in_place (n := 6) (by decide) (by decide) true (fun _ => 0)
    (fun _ => 0) (fun j => (j : ℂ) + I) (Mem.ofFn 6 fun j => (j : ℂ) + I) 0 (by
      intro j hj
      simp only [Mem.ofFn]
      rw [if_pos (by omega)]; simp)
  exact ⟨st, h1, d, h2, by simpa using h3 1 (by decide)⟩

/-! ## C20 -/

/-- **C20.**  Memory in which nothing is accessible but the `n` inputs at the given stride, the `n` outputs
and the `n` twiddles (indices `0..n-1`) suffices, for every content.  As an access elsewhere is a fault, the
code reads and writes nothing else; and all `n` outputs are written (they do not depend on the previous
contents `g` of the output array). -/
theorem C20_kiss_bounds {n : Nat} (hn : 1 ≤ n) (hs : n < 2 ^ 31) (inv : Bool) (junk : Int → ℂ)
    (x : Nat → ℂ) (stride : Nat) (hstride : 1 ≤ stride) (g g' : Int → ℂ) :
    ∃ st, kissAlloc n inv = some st ∧ (∀ a, (st.tw a).isSome ↔ 0 ≤ a ∧ a < n) ∧
      ∃ out : Mem ℂ, (∀ a, (out a).isSome ↔ 0 ≤ a ∧ a < n) ∧
        kissOut st junk
          (fun a => if 0 ≤ a ∧ a < n * stride ∧ a % stride = 0 then some (x (a / stride).toNat) else none) 0
          (Mem.ofFn n g) 0 stride = some out ∧
        kissOut st junk
          (fun a => if 0 ≤ a ∧ a < n * stride ∧ a % stride = 0 then some (x (a / stride).toNat) else none) 0
          (Mem.ofFn n g') 0 stride = some out := by
  obtain ⟨st, h1, h2, h3, h4, h5, h6⟩ := kissAlloc_ok hn (by omega) inv
  refine ⟨st, h1, h6, ?_⟩
  have hrun : ∀ g : Int → ℂ, kissOut st junk
      (fun a => if 0 ≤ a ∧ a < n * stride ∧ a % stride = 0 then some (x (a / stride).toNat) else none) 0
      (Mem.ofFn n g) 0 stride = some (Mem.ofFn n fun a => workVal st 1 n x a.toNat) := by
    intro g
    obtain ⟨F', k1, k2, k3⟩ := kfWork_ok h4 junk
      (fun a => if 0 ≤ a ∧ a < n * stride ∧ a % stride = 0 then some (x (a / stride).toNat) else none)
      stride st.factors n 1 (Mem.ofFn n g) 0 0 x h5 (by omega)
      (by
        intro j hj
        have hpos : (0 : Int) < stride := by exact_mod_cast hstride
        have e : (0 : Int) + j * ((1 : Nat) * stride) = j * stride := by push_cast; ring
        rw [e]
        have hlt : (j : Int) * stride < n * stride :=
          mul_lt_mul_of_pos_right (by exact_mod_cast hj) hpos
        rw [if_pos ⟨by positivity, hlt, Int.mul_emod_left _ _⟩,
          Int.mul_ediv_cancel _ hpos.ne']
        simp)
      (by
        intro k hk
        simp only [Mem.ofFn]
        rw [if_pos (by omega)]; rfl)
    unfold kissOut
    rw [k1]
    congr 1
    funext a
    by_cases ha : 0 ≤ a ∧ a < n
    · have e : (0 : Int) + (a.toNat : Nat) = a := by omega
      have := k2 a.toNat (by omega)
      rw [e] at this
      rw [this]
      simp only [Mem.ofFn]
      rw [if_pos ha]
    · rw [k3 a (by omega)]
      simp only [Mem.ofFn]
      rw [if_neg ha, if_neg ha]
  refine ⟨_, ?_, hrun g, hrun g'⟩
  intro a
  simp only [Mem.ofFn]
  split_ifs <;> simp_all

example : ∃ st, kissAlloc 12 false = some st ∧ (st.tw 11).isSome ∧ ¬ (st.tw 12).isSome := by
  obtain ⟨st, h1, h2, _⟩ := C20_kiss_bounds (n := 12) (by decide) (by decide) false (fun _ => 0)
    (fun _ => 0) 1 (by decide) (fun _ => 0) (fun _ => 0)
  exact ⟨st, h1, (h2 11).mpr (by decide), fun h => absurd ((h2 12).mp h) (by decide)⟩

end FftMpi
