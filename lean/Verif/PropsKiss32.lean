import Verif.Kiss32Lemmas
import Verif.PropsKiss

/-!
# Property C54: the integers of kissfft.h do not overflow
-/

noncomputable section

namespace FftMpi

open Complex

/-- Lengths for which the index arithmetic of kissfft.h is proved safe: all lengths up to 2^30, and up to the
largest `int` those that have no prime factors but 2, 3 and 5. -/
def KissLength (n : Nat) : Prop :=
  1 ≤ n ∧ n ≤ 2147483647 ∧ (n ≤ 1073741824 ∨ ∀ q : Nat, q.Prime → q ∣ n → q = 2 ∨ q = 3 ∨ q = 5)

theorem KissLength.radix {n : Nat} (h : KissLength n) {inv : Bool} {st : KissState}
    (hst : kissAlloc n inv = some st) : n ≤ 1073741824 ∨ ∀ e ∈ st.factors, Radix e.1 := by
  obtain ⟨h1, h2, h3⟩ := h
  rcases le_or_gt n 1073741824 with h4 | h4
  · exact Or.inl h4
  · right
    obtain ⟨l, k1, -, -, -, k5⟩ := C19_kf_factor h1 (by omega)
    unfold kissAlloc at hst
    rw [k1] at hst
    cases hst
    exact k5 (by omega) (h3.resolve_left (by omega))

/-- **C54, out of place.**  With `int` and `size_t` arithmetic a plan is made, and `kiss_fft_stride` computes
the DFT of the `n` values at distance `stride`, for all lengths of `KissLength`. -/
theorem C54_kiss_out {n : Nat} (h : KissLength n) (inv : Bool) (junk : Int → ℂ) (x : Nat → ℂ)
    (stride : Nat) (hstride : stride ≤ 2147483647) (fin fout : Mem ℂ) (fi o : Int)
    (hin : ∀ j < n, fin (fi + (j * stride : Nat)) = some (x j))
    (hout : ∀ k < n, (fout (o + (k : Nat))).isSome) :
    ∃ st, kissAlloc32 n inv = some st ∧ ∃ fout', kissOut32 st junk fin fi fout o stride = some fout' ∧
      (∀ k < n, fout' (o + (k : Nat)) = some (dft1 n inv x k)) ∧
      ∀ a, (a < o ∨ o + n ≤ a) → fout' a = fout a := by
  obtain ⟨h1, h2, h3⟩ := id h
  obtain ⟨st, k1, k2⟩ := C18_kiss_out h1 (by omega) inv junk x stride fin fout fi o hin hout
  refine ⟨st, by rw [kissAlloc32_eq h2]; exact k1, ?_⟩
  rw [(kiss32_eq h1 h2 (h.radix k1) k1 hstride junk junk).1]
  exact k2

/-- **C54, in place** (the only way fftMPI uses it). -/
theorem C54_kiss_in_place {n : Nat} (h : KissLength n) (inv : Bool) (junk junk' : Int → ℂ)
    (x : Nat → ℂ) (data : Mem ℂ) (o : Int) (hin : ∀ j < n, data (o + (j : Nat)) = some (x j)) :
    ∃ st, kissAlloc32 n inv = some st ∧ ∃ data', kissIn32 st junk junk' data o 1 = some data' ∧
      (∀ k < n, data' (o + (k : Nat)) = some (dft1 n inv x k)) ∧
      ∀ a, (a < o ∨ o + n ≤ a) → data' a = data a := by
  obtain ⟨h1, h2, h3⟩ := id h
  obtain ⟨st, k1, k2⟩ := C18_kiss_in_place h1 (by omega) inv junk junk' x data o hin
  refine ⟨st, by rw [kissAlloc32_eq h2]; exact k1, ?_⟩
  rw [(kiss32_eq h1 h2 (h.radix k1) k1 (by norm_num) junk junk').2]
  exact k2

/-- A 5-smooth length close to the largest `int`: 2^29 * 3 = 1610612736. -/
example : KissLength (2 ^ 29 * 3) := by
  refine ⟨by norm_num, by norm_num, Or.inr fun q hq hd => ?_⟩
  rcases (Nat.Prime.dvd_mul hq).mp hd with h | h
  · left; exact (Nat.prime_dvd_prime_iff_eq hq Nat.prime_two).mp (hq.dvd_of_dvd_pow h)
  · right; left; exact (Nat.prime_dvd_prime_iff_eq hq Nat.prime_three).mp h

/-- A backward transform of that length of a signal with values `j + i`. -/
example : ∃ st, kissAlloc32 (2 ^ 29 * 3) true = some st ∧ ∃ d, kissIn32 st (fun _ => 0) (fun _ => 0)
    (Mem.ofFn (2 ^ 29 * 3) fun j => (j : ℂ) + I) 0 1 = some d ∧
      d 1 = some (dft1 (2 ^ 29 * 3) true (fun j => (j : ℂ) + I) 1) := by
  have hl : KissLength (2 ^ 29 * 3) := by
    refine ⟨by norm_num, by norm_num, Or.inr fun q hq hd => ?_⟩
    rcases (Nat.Prime.dvd_mul hq).mp hd with h | h
    · left; exact (Nat.prime_dvd_prime_iff_eq hq Nat.prime_two).mp (hq.dvd_of_dvd_pow h)
    · right; left; exact (Nat.prime_dvd_prime_iff_eq hq Nat.prime_three).mp h
  obtain ⟨st, h1, d, h2, h3, _⟩ := C54_kiss_in_place hl true (fun _ => 0)
    (fun _ => 0) (fun j => (j : ℂ) + I) (Mem.ofFn (2 ^ 29 * 3) fun j => (j : ℂ) + I) 0 (by
      intro j hj
      simp only [Mem.ofFn]
      rw [if_pos ⟨by omega, by omega⟩]; simp)
  exact ⟨st, h1, d, h2, by simpa using h3 1 (by norm_num)⟩

/-- **The limit is real.**  For a length between 7/6 * 2^30 and the largest `int` with a prime factor of at
least 7, the plan is made, but every transform faults: in `kf_bfly_generic` the sum of two indices of twiddle
factors exceeds the range of `int`, the conversion gives a negative `twidx`, which is not corrected, and
`twiddles[twidx]` is outside the array.  (`FFT3d::setup` and `FFT2d::setup` reject such lengths.) -/
theorem C54_limit {n q : Nat} (hq : q.Prime) (h7 : 7 ≤ q) (hd : q ∣ n) (hn : 7516192768 ≤ 6 * n)
    (hmax : n ≤ 2147483647) (inv : Bool) :
    ∃ st, kissAlloc32 n inv = some st ∧
      (∀ junk fin fi fout o stride, kissOut32 st junk fin fi fout o stride = none) ∧
      ∀ junk junk' data o stride, kissIn32 st junk junk' data o stride = none := by
  have h1 : 1 ≤ n := by omega
  obtain ⟨st, k1, k2, -, -, k5, k6⟩ := kissAlloc_ok h1 (by omega) inv
  subst k2
  have hfac : ∃ e ∈ st.factors, 7 ≤ e.1 := by
    obtain ⟨l, l1, -, l3, -⟩ := C19_kf_factor h1 (by omega)
    have hl : st.factors = l := by
      unfold kissAlloc at k1
      rw [l1] at k1
      simp only [Option.map_some, Option.some.injEq] at k1
      rw [← k1]
    rw [hl]
    rw [← l3] at hd
    obtain ⟨a, ha, hqa⟩ := (Prime.dvd_prod_iff hq.prime).mp hd
    obtain ⟨e, he, rfl⟩ := List.mem_map.mp ha
    refine ⟨e, he, le_trans h7 (Nat.le_of_dvd ?_ hqa)⟩
    rcases Nat.eq_zero_or_pos e.1 with h0 | h0
    · exfalso
      have : (l.map Prod.fst).prod = 0 := List.prod_eq_zero (by rw [← h0]; exact List.mem_map_of_mem he)
      omega
    · exact h0
  have htw : ∀ a, a < 0 → st.tw a = none := by
    intro a ha
    have := k6 a
    cases h : st.tw a with
    | none => rfl
    | some v =>
      rw [h] at this
      have := this.mp rfl
      omega
  have main : ∀ junk fin stride F o fo, kfWork32 st junk fin stride st.factors F o fo 1 = none :=
    fun junk fin stride F o fo =>
      kfWork32_none hmax h1 htw hn junk fin st.factors st.nfft 1 F o fo k5 (by omega) hfac
  refine ⟨st, by rw [kissAlloc32_eq hmax]; exact k1, fun junk fin fi fout o stride => main _ _ _ _ _ _, ?_⟩
  intro junk junk' data o stride
  unfold kissIn32
  rw [main]
  rfl

/-- Such a length: 7 * 2^28. -/
example : ∃ st, kissAlloc32 (7 * 2 ^ 28) false = some st ∧
    ∀ junk junk' data o stride, kissIn32 st junk junk' data o stride = none := by
  obtain ⟨st, h1, -, h3⟩ := C54_limit (n := 7 * 2 ^ 28) (q := 7) (by norm_num) le_rfl ⟨2 ^ 28, rfl⟩ (by norm_num)
    (by norm_num) false
  exact ⟨st, h1, h3⟩

end FftMpi
