import Verif.Kiss32
import Verif.KissWork

/-!
# Lemmas: kissfft.h with C integers does what it does with unbounded integers
-/

noncomputable section

namespace FftMpi

open Complex

theorem u64_eq {x : Nat} (h : x ≤ 4611686018427387904) : u64 x = x := Nat.mod_eq_of_lt (by omega)

/-! ## Loops that carry a value along -/

theorem forFrom_carry {σ τ : Type} (f : Int → σ → Option σ) (g : Int → τ → Option τ) (φ : Int → σ → τ) :
    ∀ (k : Nat) (i : Int) (s : σ),
    (∀ j s, i ≤ j → j < i + k → g j (φ j s) = (f j s).map (φ (j + 1))) →
    forFrom i k g (φ i s) = (forFrom i k f s).map (φ (i + k)) := by
  intro k
  induction k with
  | zero => intro i s _; simp [forFrom]
  | succ k ih =>
    intro i s h
    simp only [forFrom]
    rw [h i s le_rfl (by push_cast; omega)]
    cases f i s with
    | none => rfl
    | some t =>
      simp only [Option.map_some, Option.bind_some]
      rw [ih (i + 1) t (fun j s h1 h2 => h j s (by omega) (by push_cast; omega)),
        show i + 1 + (k : Int) = i + ((k + 1 : Nat) : Int) by push_cast; ring]

theorem forN_carry {σ τ : Type} {f : Int → σ → Option σ} {g : Int → τ → Option τ} (φ : Int → σ → τ)
    {n : Nat} {s : σ} (h : ∀ (j : Int) s, 0 ≤ j → j < n → g j (φ j s) = (f j s).map (φ (j + 1))) :
    forN n g (φ 0 s) = (forN n f s).map (φ n) := by
  have := forFrom_carry f g φ n 0 s (fun j s h1 h2 => h j s h1 (by omega))
  simpa [forN] using this

theorem forN_ext {σ : Type} {f g : Int → σ → Option σ} {n : Nat} {s : σ}
    (h : ∀ (j : Int) s, 0 ≤ j → j < n → g j s = f j s) : forN n g s = forN n f s :=
  (forN_congr (fun _ _ => True) (by omega) trivial fun j s h1 h2 _ => ⟨h j s h1 h2, fun _ _ => trivial⟩).1

/-- A loop with an iteration that always faults. -/
theorem forFrom_none {σ : Type} (f : Int → σ → Option σ) (j : Int) (h : ∀ s, f j s = none) :
    ∀ (k : Nat) (i : Int) (s : σ), i ≤ j → j < i + k → forFrom i k f s = none := by
  intro k
  induction k with
  | zero => intro i s h1 h2; push_cast at h2; omega
  | succ k ih =>
    intro i s h1 h2
    simp only [forFrom]
    by_cases hij : i = j
    · subst hij; rw [h]; rfl
    · cases f i s with
      | none => rfl
      | some t => exact ih (i + 1) t (by omega) (by push_cast at h2; omega)

theorem forN_none {σ : Type} {f : Int → σ → Option σ} {n : Nat} {j : Int} (h0 : 0 ≤ j) (h1 : j < n)
    (h : ∀ s, f j s = none) (s : σ) : forN n f s = none :=
  forFrom_none f j h _ 0 s h0 (by simpa using h1)

/-! ## Plan -/

theorem kfWhile32_eq {fs n p : Nat} (hfs : fs ≤ 2147483645) (hp : p ≤ max 4 fs) :
    kfWhile32 fs n p = some (kfWhile fs n p) := by
  induction p using kfWhile.induct (floorSqrt := fs) (n := n) with
  | case1 p h => rw [kfWhile32, kfWhile, if_pos h, if_pos h]
  | case2 p h h' =>
    have e : ∃ q, kfNextP32 p = some q := by
      unfold kfNextP32
      split_ifs
      · exact ⟨_, rfl⟩
      · exact ⟨_, rfl⟩
      · rw [add32_eq (fits_of (by omega) (by omega))]; exact ⟨_, rfl⟩
    obtain ⟨q, e⟩ := e
    rw [kfWhile32, kfWhile, if_neg h, if_neg h, e, Option.bind_some, dif_pos h', dif_pos h']
  | case3 p h h' ih =>
    have e : ∃ q, kfNextP32 p = some q := by
      unfold kfNextP32
      split_ifs
      · exact ⟨_, rfl⟩
      · exact ⟨_, rfl⟩
      · rw [add32_eq (fits_of (by omega) (by omega))]; exact ⟨_, rfl⟩
    obtain ⟨q, e⟩ := e
    rw [kfWhile32, kfWhile, if_neg h, if_neg h, e, Option.bind_some, dif_neg h', dif_neg h',
      ih (by omega)]

/-- The new radix is small, or it is all that is left. -/
theorem kfWhile_le {fs n p : Nat} (hp : p ≤ max 4 fs) : kfWhile fs n p ≤ max 4 fs ∨ kfWhile fs n p = n := by
  induction p using kfWhile.induct (floorSqrt := fs) (n := n) with
  | case1 p h => left; rw [kfWhile, if_pos h]; exact hp
  | case2 p h h' => right; rw [kfWhile, if_neg h, dif_pos h']
  | case3 p h h' ih =>
    rw [kfWhile, if_neg h, dif_neg h']
    exact ih (by omega)

theorem kfLoop32_eq {fs : Nat} (hfs : fs ≤ 2147483645) : ∀ (slots p n : Nat), p ≤ max 4 fs →
    kfLoop32 fs slots p n = kfLoop fs slots p n := by
  intro slots
  induction slots with
  | zero => intro p n _; rfl
  | succ k ih =>
    intro p n hp
    simp only [kfLoop32, kfLoop]
    rw [kfWhile32_eq hfs hp]
    simp only [Option.bind_some]
    by_cases h : n / kfWhile fs n p > 1
    · rw [if_pos h, if_pos h]
      rcases kfWhile_le (n := n) hp with h1 | h1
      · rw [ih _ _ h1]
      · exfalso
        rw [h1] at h
        rcases Nat.eq_zero_or_pos n with h0 | h0
        · subst h0; simp at h
        · rw [Nat.div_self h0] at h; omega
    · rw [if_neg h, if_neg h]

theorem kissAlloc32_eq {n : Nat} (hn : n ≤ 2147483647) (inv : Bool) :
    kissAlloc32 n inv = kissAlloc n inv := by
  have h1 : Nat.sqrt n ≤ 2147483645 := by
    have := Nat.sqrt_le_sqrt hn
    have h2 : Nat.sqrt 2147483647 < 2147483645 := by
      rw [Nat.sqrt_lt']
      norm_num
    omega
  unfold kissAlloc32 kissAlloc kfFactor32 kfFactor
  rw [ck_eq (fits_of (by omega) (by omega)), Option.bind_some, sub32_eq ⟨by omega, by omega⟩, Option.bind_some,
    kfLoop32_eq h1 _ _ _ (by omega)]

/-! ## Butterflies -/

section

variable {st : KissState} {fstride m p : Nat}

/-- Nothing in one stage exceeds the length of the transform. -/
theorem stage_le (hN : fstride * (p * m) = st.nfft) (hn : 1 ≤ st.nfft) :
    fstride * m ≤ st.nfft ∧ fstride ≤ st.nfft ∧ m ≤ st.nfft ∧ p ≤ st.nfft ∧ p * m ≤ st.nfft ∧
      fstride * p ≤ st.nfft ∧ 1 ≤ fstride ∧ 1 ≤ p ∧ 1 ≤ m := by
  have h1 : fstride ≠ 0 := by rintro rfl; simp at hN; omega
  have h2 : p ≠ 0 := by rintro rfl; simp at hN; omega
  have h3 : m ≠ 0 := by rintro rfl; simp at hN; omega
  have d1 : fstride * m ∣ st.nfft := ⟨p, by rw [← hN]; ring⟩
  have d2 : fstride ∣ st.nfft := ⟨p * m, by rw [← hN]⟩
  have d3 : m ∣ st.nfft := ⟨fstride * p, by rw [← hN]; ring⟩
  have d4 : p ∣ st.nfft := ⟨fstride * m, by rw [← hN]; ring⟩
  have d5 : p * m ∣ st.nfft := ⟨fstride, by rw [← hN]; ring⟩
  have d6 : fstride * p ∣ st.nfft := ⟨m, by rw [← hN]; ring⟩
  refine ⟨Nat.le_of_dvd hn d1, Nat.le_of_dvd hn d2, Nat.le_of_dvd hn d3, Nat.le_of_dvd hn d4,
    Nat.le_of_dvd hn d5, Nat.le_of_dvd hn d6, by omega, by omega, by omega⟩

theorem kfBfly4_32_eq (hs : st.nfft ≤ 2147483647) (hn : 1 ≤ st.nfft) (hN : fstride * (p * m) = st.nfft)
    (F : Mem ℂ) (o : Int) : kfBfly4_32 st F o fstride m = kfBfly4 st F o fstride m := by
  obtain ⟨h1, h2, h3, h4, -, -⟩ := stage_le hN hn
  unfold kfBfly4_32 kfBfly4
  simp only [u64_eq (show 2 * m ≤ 4611686018427387904 by omega), u64_eq (show 3 * m ≤ 4611686018427387904 by omega),
    u64_eq (show fstride * 2 ≤ 4611686018427387904 by omega), u64_eq (show fstride * 3 ≤ 4611686018427387904 by omega)]
  push_cast
  rfl

theorem kfBfly3_32_eq (hs : st.nfft ≤ 2147483647) (hn : 1 ≤ st.nfft) (hN : fstride * (p * m) = st.nfft)
    (F : Mem ℂ) (o : Int) : kfBfly3_32 st F o fstride m = kfBfly3 st F o fstride m := by
  obtain ⟨h1, h2, h3, h4, -, -⟩ := stage_le hN hn
  unfold kfBfly3_32 kfBfly3
  simp only [u64_eq (show 2 * m ≤ 4611686018427387904 by omega), u64_eq (show fstride * m ≤ 4611686018427387904 by omega),
    u64_eq (show fstride * 2 ≤ 4611686018427387904 by omega)]
  push_cast
  rfl

theorem kfBfly5_32_eq (hs : st.nfft ≤ 2147483647) (hn : 1 ≤ st.nfft) (hN : fstride * (5 * m) = st.nfft)
    (F : Mem ℂ) (o : Int) : kfBfly5_32 st F o fstride m = kfBfly5 st F o fstride m := by
  obtain ⟨h1, h2, h3, -, h5, h6, h7, -⟩ := stage_le hN hn
  unfold kfBfly5_32 kfBfly5
  have e5 : fstride * 2 * m = 2 * (fstride * m) := by ring
  rw [u64_eq (show fstride * m ≤ 4611686018427387904 by omega), u64_eq (show fstride * 2 ≤ 4611686018427387904 by omega),
    u64_eq (show fstride * 2 * m ≤ 4611686018427387904 by omega), mul32_eq (fits_of (by omega) (by omega)),
    mul32_eq (fits_of (by omega) (by omega)), mul32_eq (fits_of (by omega) (by omega))]
  simp only [Option.bind_some]
  push_cast
  congr 1; funext ya; congr 1; funext yb
  refine forN_ext ?_
  intro u F u0 u1
  obtain ⟨v, rfl⟩ := Int.eq_ofNat_of_zero_le u0
  have hv : v < m := by omega
  have k1 : v * fstride ≤ m * fstride := Nat.mul_le_mul_right _ hv.le
  have k1' : m * fstride = fstride * m := Nat.mul_comm _ _
  have e : ∀ c : Nat, c ≤ 4 → mul32 c v = some (c * v) ∧
      ((u64 (((c : Int) * v).toNat * fstride) : Nat) : Int) = c * v * fstride := by
    intro c hc
    have : c * v ≤ 4 * v := Nat.mul_le_mul_right _ hc
    refine ⟨?_, ?_⟩
    · exact mul32_eq (fits_of (by positivity) (by exact_mod_cast (show c * v ≤ 2147483647 by omega)))
    · have : c * (v * fstride) ≤ 4 * (v * fstride) := Nat.mul_le_mul_right _ hc
      rw [show (c : Int) * v = ((c * v : Nat) : Int) by push_cast; rfl, Int.toNat_natCast, u64_eq (by rw [Nat.mul_assoc]; omega)]
      push_cast
      rfl
  obtain ⟨a2, b2⟩ := e 2 (by omega)
  obtain ⟨a3, b3⟩ := e 3 (by omega)
  obtain ⟨a4, b4⟩ := e 4 (by omega)
  have b1 : ((u64 ((v : Int).toNat * fstride) : Nat) : Int) = v * fstride := by
    rw [Int.toNat_natCast, u64_eq (by omega)]
    push_cast
    rfl
  simp only [Nat.cast_ofNat] at a2 a3 a4 b2 b3 b4
  refine bind_congr fun s0 => bind_congr fun f1 => bind_congr fun f2 => bind_congr fun f3 =>
    bind_congr fun f4 => ?_
  show ((st.tw ((u64 ((v : Int).toNat * fstride) : Nat) : Int)) >>= _) = _
  rw [b1]
  refine bind_congr fun w1 => ?_
  rw [a2]
  show (st.tw ((u64 ((2 * (v : Int)).toNat * fstride) : Nat) : Int) >>= _) = _
  rw [b2]
  refine bind_congr fun w2 => ?_
  rw [a3]
  show (st.tw ((u64 ((3 * (v : Int)).toNat * fstride) : Nat) : Int) >>= _) = _
  rw [b3]
  refine bind_congr fun w3 => ?_
  rw [a4]
  show (st.tw ((u64 ((4 * (v : Int)).toNat * fstride) : Nat) : Int) >>= _) = _
  rw [b4]

theorem twNext32_eq (hs : 2 * st.nfft ≤ 2147483649) {k twidx : Int} (hk : 0 ≤ fstride * k)
    (hk' : fstride * k < st.nfft) (h0 : 0 ≤ twidx) (h1 : twidx < st.nfft) :
    twNext32 st fstride k twidx =
      some (if twidx + fstride * k ≥ st.nfft then twidx + fstride * k - st.nfft else twidx + fstride * k) := by
  have e : wrap32 ((twidx + fstride * k) % 18446744073709551616) = twidx + fstride * k := by
    rw [Int.emod_eq_of_lt (by omega) (by omega)]
    exact wrap32_eq (fits_of (by omega) (by omega))
  unfold twNext32
  simp only [e]
  split_ifs
  · exact sub32_eq ⟨by omega, by omega⟩
  · rfl

theorem kfGenericOut32_eq (hs : 2 * st.nfft ≤ 2147483649) (hn : 1 ≤ st.nfft) {k : Int} (hk : 0 ≤ fstride * k)
    (hk' : fstride * k < st.nfft) (scratch : Mem ℂ) (o : Int) (F : Mem ℂ) :
    kfGenericOut32 st scratch fstride p o k F = kfGenericOut st scratch fstride p o k F := by
  unfold kfGenericOut32 kfGenericOut
  congr 1; funext s0; congr 1; funext F
  congr 1
  refine (forFrom_congr (fun _ (s : Int × Mem ℂ) => 0 ≤ s.1 ∧ s.1 < st.nfft) _ _ _ _ _ ⟨le_rfl, by simp only; omega⟩ ?_).1
  rintro q ⟨t, G⟩ - - ⟨h0, h1⟩
  refine ⟨?_, ?_⟩
  · simp only [twNext32_eq hs hk hk' h0 h1, Option.bind_eq_bind, Option.bind_some]
  · intro s' hs'
    simp only [Option.bind_eq_bind, Option.bind_eq_some_iff] at hs'
    obtain ⟨_, -, _, -, _, -, _, -, h⟩ := hs'
    cases h
    simp only at *
    split_ifs <;> omega

theorem kfBflyGeneric32_eq (hs : st.nfft ≤ 1073741824) (hn : 1 ≤ st.nfft) (hN : fstride * (p * m) = st.nfft)
    (junk : Int → ℂ) (F : Mem ℂ) (o : Int) :
    kfBflyGeneric32 st junk F o fstride m p = kfBflyGeneric st junk F o fstride m p := by
  obtain ⟨h1, h2, h3, h4, h5, h6, h7, h8, h9⟩ := stage_le hN hn
  unfold kfBflyGeneric32 kfBflyGeneric
  congr 1
  refine forN_ext ?_
  rintro u ⟨S, G⟩ u0 u1
  have hstep : ∀ j : Int, 0 ≤ j → j < p → u + j * m + m ≤ p * m + m ∧ 0 ≤ u + j * m ∧ u + j * m < p * m := by
    intro j j0 j1
    have a1 : (0 : Int) ≤ j * m := mul_nonneg j0 (by omega)
    have a2 : (j + 1) * m ≤ (p : Int) * m := mul_le_mul_of_nonneg_right (by omega) (by omega)
    have a3 : (j + 1) * (m : Int) = j * m + m := by ring
    omega
  have h5' : (p : Int) * m ≤ st.nfft := by exact_mod_cast h5
  have c1 : forN p (fun q1 (t : Int × Mem ℂ) => do
      let sc ← copy1 G t.2 q1 (o + t.1)
      let k ← add32 t.1 m
      some (k, sc)) (u, S) =
      (forN p (fun q1 sc => copy1 G sc q1 (o + (u + q1 * m))) S).map fun M => (u + p * m, M) := by
    have := forN_carry (f := fun q1 sc => copy1 G sc q1 (o + (u + q1 * m)))
      (g := fun q1 (t : Int × Mem ℂ) => do
        let sc ← copy1 G t.2 q1 (o + t.1)
        let k ← add32 t.1 m
        some (k, sc)) (fun q M => (u + q * m, M)) (n := p) (s := S) (by
        intro j M j0 j1
        obtain ⟨b1, b2, b3⟩ := hstep j j0 j1
        simp only
        rw [add32_eq (fits_of (by omega) (by omega)), show u + (j + 1) * (m : Int) = u + j * m + m by ring]
        cases copy1 G M j (o + (u + j * m)) <;> rfl)
    simpa using this
  simp only [c1]
  cases forN p (fun q1 sc => copy1 G sc q1 (o + (u + q1 * m))) S with
  | none => rfl
  | some sc =>
    simp only [Option.map_some, Option.bind_eq_bind, Option.bind_some]
    have c2 : forN p (fun _ (t : Int × Mem ℂ) => (kfGenericOut32 st sc fstride p o t.1 t.2).bind fun F =>
        (add32 t.1 m).bind fun k => some (k, F)) (u, G) =
        (forN p (fun q1 F => kfGenericOut st sc fstride p o (u + q1 * m) F) G).map fun M => (u + p * m, M) := by
      have := forN_carry (f := fun q1 F => kfGenericOut st sc fstride p o (u + q1 * m) F)
        (g := fun _ (t : Int × Mem ℂ) => (kfGenericOut32 st sc fstride p o t.1 t.2).bind fun F =>
        (add32 t.1 m).bind fun k => some (k, F)) (fun q M => (u + q * m, M)) (n := p) (s := G) (by
          intro j M j0 j1
          obtain ⟨b1, b2, b3⟩ := hstep j j0 j1
          have b4 : (fstride : Int) * (u + j * m) < fstride * (p * m) := mul_lt_mul_of_pos_left b3 (by omega)
          have b5 : (fstride : Int) * (p * m) = st.nfft := by exact_mod_cast hN
          simp only
          rw [kfGenericOut32_eq (by omega) hn (mul_nonneg (by omega) b2) (by omega),
            add32_eq (fits_of (by omega) (by omega)), show u + (j + 1) * (m : Int) = u + j * m + m by ring]
          cases kfGenericOut st sc fstride p o (u + j * m) M <;> rfl)
      simpa using this
    rw [c2]
    cases forN p (fun q1 F => kfGenericOut st sc fstride p o (u + q1 * m) F) G <;> rfl

/-- The radix has a butterfly of its own. -/
def Radix (p : Nat) : Prop := p = 2 ∨ p = 3 ∨ p = 4 ∨ p = 5

theorem kfBfly32_eq (hs : st.nfft ≤ 2147483647) (hg : st.nfft ≤ 1073741824 ∨ Radix p) (hn : 1 ≤ st.nfft)
    (hN : fstride * (p * m) = st.nfft) (junk : Int → ℂ) (F : Mem ℂ) (o : Int) :
    kfBfly32 st junk F o fstride m p = kfBfly st junk F o fstride m p := by
  unfold kfBfly32 kfBfly
  split_ifs with h2 h3 h4 h5
  · rfl
  · exact kfBfly3_32_eq hs hn hN F o
  · exact kfBfly4_32_eq hs hn hN F o
  · subst h5; exact kfBfly5_32_eq hs hn hN F o
  · refine kfBflyGeneric32_eq ?_ hn hN junk F o
    rcases hg with h | h
    · exact h
    · exact absurd h (by unfold Radix; omega)

end

/-! ## Transform -/

theorem kfWork32_eq {st : KissState} (hs : st.nfft ≤ 2147483647) (hn : 1 ≤ st.nfft) (junk : Int → ℂ) (f : Mem ℂ)
    {inStride : Nat} (hi : inStride ≤ 2147483647) : ∀ (factors : List (Nat × Nat)) (n fstride : Nat)
    (F : Mem ℂ) (o fo : Int), FacChain n factors → fstride * n = st.nfft →
    (st.nfft ≤ 1073741824 ∨ ∀ e ∈ factors, Radix e.1) →
    kfWork32 st junk f inStride factors F o fo fstride = kfWork st junk f inStride factors F o fo fstride := by
  intro factors
  induction factors with
  | nil => intro n fstride F o fo hc; exact absurd hc (by simp [FacChain])
  | cons pm rest ih =>
    obtain ⟨p, m⟩ := pm
    intro n fstride F o fo hc hN hg
    obtain ⟨hp, hm, hpm, hrest⟩ := hc
    subst hpm
    obtain ⟨h1, h2, h3, h4, h5, h6, h7, h8, h9⟩ := stage_le hN hn
    have h0 : ¬ (p = 0 ∨ m = 0) := by omega
    simp only [kfWork32, kfWork]
    rw [if_neg h0, if_neg h0]
    have h5' : (p : Int) * m ≤ st.nfft := by exact_mod_cast h5
    have e1 : u64 (fstride * inStride) = fstride * inStride := by
      have : fstride * inStride ≤ 2147483647 * 2147483647 := Nat.mul_le_mul (by omega) hi
      exact u64_eq (by omega)
    rw [mul32_eq (fits_of (by positivity) (by omega)), Option.bind_some, e1, u64_eq (show fstride * p ≤ 4611686018427387904 by omega)]
    have hb : ∀ F, kfBfly32 st junk F o fstride m p = kfBfly st junk F o fstride m p :=
      fun F => kfBfly32_eq hs (hg.imp_right fun h => h _ List.mem_cons_self) hn hN junk F o
    simp only [hb]
    push_cast
    congr 1
    by_cases hm1 : m = 1
    · rw [if_pos hm1, if_pos hm1]
    · rw [if_neg hm1, if_neg hm1]
      rw [if_neg hm1] at hrest
      refine forN_ext ?_
      intro q F _ _
      exact ih m (fstride * p) F _ _ hrest (by rw [← hN]; ring)
        (hg.imp_right fun h e he => h e (List.mem_cons_of_mem _ he))

/-- `kiss_fft` with C integers on a plan of `kiss_fft_alloc`. -/
theorem kiss32_eq {n : Nat} {inv : Bool} {st : KissState} (h1 : 1 ≤ n) (hs : n ≤ 2147483647)
    (hg : n ≤ 1073741824 ∨ ∀ e ∈ st.factors, Radix e.1) (hst : kissAlloc n inv = some st)
    {inStride : Nat} (hi : inStride ≤ 2147483647) (junk junk' : Int → ℂ) :
    (∀ fin fi fout o, kissOut32 st junk fin fi fout o inStride = kissOut st junk fin fi fout o inStride) ∧
    ∀ data o, kissIn32 st junk junk' data o inStride = kissIn st junk junk' data o inStride := by
  obtain ⟨st', k1, rfl, -, -, k5, -⟩ := kissAlloc_ok h1 (by omega) inv
  rw [hst] at k1
  cases k1
  refine ⟨fun fin fi fout o => ?_, fun data o => ?_⟩
  · exact kfWork32_eq hs h1 junk fin hi _ _ _ _ _ _ k5 (by omega) hg
  · unfold kissIn32 kissIn
    rw [kfWork32_eq hs h1 junk data hi _ _ _ _ _ _ k5 (by omega) hg]

/-! ## The generic butterfly with long transforms -/

section

variable {st : KissState} {fstride m p : Nat}

/-- The last output of a stage: with the third input the index of the twiddle factor is beyond the
range of `int`. -/
theorem kfGenericOut32_none (hs : st.nfft ≤ 2147483647) (hp : 6 ≤ p) {k : Int}
    (hk : fstride * k < st.nfft) (hbig : 1073741824 ≤ fstride * k) (htw : ∀ a, a < 0 → st.tw a = none)
    (scratch : Mem ℂ) (o : Int) (F : Mem ℂ) : kfGenericOut32 st scratch fstride p o k F = none := by
  unfold kfGenericOut32
  cases scratch 0 with
  | none => rfl
  | some s0 =>
    simp only [Option.bind_eq_bind, Option.bind_some]
    cases F.set (o + k) s0 with
    | none => rfl
    | some F =>
      simp only [Option.bind_some]
      obtain ⟨r, rfl⟩ : ∃ r, p = r + 3 := ⟨p - 3, by omega⟩
      simp only [show r + 3 - 1 = r + 1 + 1 by omega, forFrom]
      have e1 : twNext32 st fstride k 0 = some (fstride * k) := by
        have e : wrap32 ((0 + fstride * k) % 18446744073709551616) = fstride * k := by
          rw [zero_add, Int.emod_eq_of_lt (by omega) (by omega)]
          exact wrap32_eq (fits_of (by omega) (by omega))
        unfold twNext32
        simp only [e]
        rw [if_neg (by omega)]
      have e2 : ∃ t, twNext32 st fstride k (fstride * k) = some t ∧ t < 0 := by
        have e : wrap32 ((fstride * k + fstride * k) % 18446744073709551616) = fstride * k + fstride * k - 4294967296 := by
          rw [Int.emod_eq_of_lt (by omega) (by omega)]
          unfold wrap32
          omega
        refine ⟨fstride * k + fstride * k - 4294967296, ?_, by omega⟩
        unfold twNext32
        simp only [e]
        rw [if_neg (by omega)]
      obtain ⟨t, e2, ht⟩ := e2
      simp only [e1, Option.bind_some]
      cases scratch 1 with
      | none => rfl
      | some sq =>
        simp only [Option.bind_some]
        cases st.tw (fstride * k) with
        | none => rfl
        | some w =>
          simp only [Option.bind_some]
          cases F (o + k) with
          | none => rfl
          | some c =>
            simp only [Option.bind_some]
            cases F.set (o + k) (c + sq * w) with
            | none => rfl
            | some G =>
              simp only [Option.bind_some, e2, htw t ht, Option.bind_none]
              cases scratch (1 + 1) <;> rfl

theorem kfBflyGeneric32_none (hs : st.nfft ≤ 2147483647) (hp : 6 ≤ p) (hn : 1 ≤ st.nfft)
    (hN : fstride * (p * m) = st.nfft) (hbig : 1073741824 + fstride ≤ st.nfft)
    (htw : ∀ a, a < 0 → st.tw a = none) (junk : Int → ℂ) (F : Mem ℂ) (o : Int) :
    kfBflyGeneric32 st junk F o fstride m p = none := by
  obtain ⟨h1, h2, h3, h4, h5, h6, h7, h8, h9⟩ := stage_le hN hn
  unfold kfBflyGeneric32
  rw [forN_none (j := (m : Int) - 1) (by omega) (by omega)]
  · rfl
  rintro ⟨S, G⟩
  simp only
  generalize forN p _ ((m : Int) - 1, S) = x
  cases x with
  | none => rfl
  | some sc =>
    simp only [Option.bind_eq_bind, Option.bind_some]
    -- `k` follows the loop counter
    have key : ∀ (r : Nat) (i : Int) (G : Mem ℂ), i + r = p → 1 ≤ r → 0 ≤ i →
        forFrom i r (fun _ (t : Int × Mem ℂ) => (kfGenericOut32 st sc.2 fstride p o t.1 t.2).bind fun F =>
          (add32 t.1 m).bind fun k => some (k, F)) ((m : Int) - 1 + i * m, G) = none := by
      intro r
      induction r with
      | zero => intro i G _ h; omega
      | succ r ih =>
        intro i G hi _ h0
        simp only [forFrom]
        by_cases hr : r = 0
        · subst hr
          have hi' : i = p - 1 := by push_cast at hi; omega
          have e : (fstride : Int) * ((m : Int) - 1 + i * m) = st.nfft - fstride := by
            have : (fstride : Int) * (p * m) = st.nfft := by exact_mod_cast hN
            rw [hi', ← this]; ring
          rw [kfGenericOut32_none hs hp (by rw [e]; omega) (by rw [e]; omega) htw]
          rfl
        · cases kfGenericOut32 st sc.2 fstride p o ((m : Int) - 1 + i * m) G with
          | none => rfl
          | some G' =>
            simp only [Option.bind_some, add32]
            unfold ck
            split_ifs
            · simp only [Option.bind_some]
              have := ih (i + 1) G' (by push_cast at hi; omega) (by omega) (by omega)
              rw [show (m : Int) - 1 + (i + 1) * m = (m : Int) - 1 + i * m + m by ring] at this
              exact this
            · rfl
    have := key p 0 G (by simp) h8 le_rfl
    simp only [zero_mul, add_zero] at this
    simp only [forN, Int.toNat_natCast, this]
    rfl

theorem kfWork32_none {st : KissState} (hs : st.nfft ≤ 2147483647) (hn : 1 ≤ st.nfft)
    (htw : ∀ a, a < 0 → st.tw a = none) (hbig : 7516192768 ≤ 6 * st.nfft) (junk : Int → ℂ) (f : Mem ℂ)
    {inStride : Nat} : ∀ (factors : List (Nat × Nat)) (n fstride : Nat)
    (F : Mem ℂ) (o fo : Int), FacChain n factors → fstride * n = st.nfft → (∃ e ∈ factors, 7 ≤ e.1) →
    kfWork32 st junk f inStride factors F o fo fstride = none := by
  intro factors
  induction factors with
  | nil => intro n fstride F o fo hc; exact absurd hc (by simp [FacChain])
  | cons pm rest ih =>
    obtain ⟨p, m⟩ := pm
    intro n fstride F o fo hc hN hg
    obtain ⟨hp, hm, hpm, hrest⟩ := hc
    subst hpm
    obtain ⟨h1, h2, h3, h4, h5, h6, h7, h8, h9⟩ := stage_le hN hn
    simp only [kfWork32]
    rw [if_neg (by omega)]
    have h5' : (p : Int) * m ≤ st.nfft := by exact_mod_cast h5
    rw [mul32_eq (fits_of (by positivity) (by omega)), Option.bind_some]
    by_cases h7p : 7 ≤ p
    · have hb : ∀ F, kfBfly32 st junk F o fstride m p = none := by
        intro F
        unfold kfBfly32
        rw [if_neg (by omega), if_neg (by omega), if_neg (by omega), if_neg (by omega)]
        refine kfBflyGeneric32_none hs (by omega) hn hN ?_ htw junk F o
        have : fstride * 7 ≤ fstride * p := Nat.mul_le_mul_left _ h7p
        omega
      simp only [hb, Option.bind_fun_none]
    · obtain ⟨e, he, h7e⟩ := hg
      rcases List.mem_cons.mp he with rfl | he
      · exact absurd h7e h7p
      · by_cases hm1 : m = 1
        · rw [if_pos hm1] at hrest
          rw [hrest] at he
          exact absurd he (by simp)
        · rw [if_neg hm1, u64_eq (show fstride * p ≤ 4611686018427387904 by omega)]
          rw [if_neg hm1] at hrest
          rw [forN_none (j := 0) le_rfl (by omega)]
          · rfl
          · intro F
            exact ih m (fstride * p) F _ _ hrest (by rw [← hN]; ring) ⟨e, he, h7e⟩

end

end FftMpi
