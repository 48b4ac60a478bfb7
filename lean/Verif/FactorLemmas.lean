import Verif.FpLemmas
import Mathlib.Data.Real.Archimedean
import Mathlib.Data.Rat.Cast.Order

/-!
# Lemmas about divisors and processor grids
-/

namespace FftMpi

/-! ## Divisors -/

theorem sqroot_eq (n : Nat) : sqroot n = Nat.sqrt n := by
  unfold sqroot
  have : (Nat.sqrt n + 1) * (Nat.sqrt n + 1) > n := Nat.lt_succ_sqrt n
  simp [this]

theorem foldl_take (n : Nat) (l fs : List Nat) :
    l.foldl (fun fs i =>
      if n % i ≠ 0 then fs
      else if fs.length < NFACTOR then fs ++ [i]
      else fs) fs = fs ++ (l.filter fun i => n % i = 0).take (NFACTOR - fs.length) := by
  induction l generalizing fs with
  | nil => simp
  | cons x l ih =>
    simp only [List.foldl_cons]
    rw [ih]
    by_cases h : n % x = 0
    · simp only [h, ne_eq, not_true_eq_false, if_false, List.filter_cons, decide_true, if_true]
      by_cases hl : fs.length < NFACTOR
      · rw [if_pos hl]
        have e : NFACTOR - fs.length = (NFACTOR - (fs ++ [x]).length) + 1 := by
          simp only [List.length_append, List.length_cons, List.length_nil]; omega
        rw [e, List.take_succ_cons, List.append_assoc, List.singleton_append]
      · rw [if_neg hl]
        have e : NFACTOR - fs.length = 0 := by omega
        rw [e]; simp
    · simp [h]

/-- All divisors of `n` up to its square root, ascending. -/
def smallDivisors (n : Nat) : List Nat :=
  ((List.range (Nat.sqrt n)).map (· + 1)).filter fun i => n % i = 0

theorem factor_eq (n : Nat) : factor n = (smallDivisors n).take NFACTOR := by
  unfold factor
  rw [foldl_take, sqroot_eq]
  simp [smallDivisors]

theorem mem_smallDivisors {n d : Nat} (hn : 0 < n) :
    d ∈ smallDivisors n ↔ d ∣ n ∧ d * d ≤ n := by
  simp only [smallDivisors, List.mem_filter, List.mem_map, List.mem_range, decide_eq_true_eq]
  constructor
  · rintro ⟨⟨x, hx, rfl⟩, h⟩
    refine ⟨Nat.dvd_of_mod_eq_zero h, ?_⟩
    calc (x + 1) * (x + 1) ≤ Nat.sqrt n * Nat.sqrt n := Nat.mul_le_mul hx hx
      _ ≤ n := Nat.sqrt_le n
  · rintro ⟨h1, h2⟩
    have hpos : 0 < d := Nat.pos_of_dvd_of_pos h1 hn
    exact ⟨⟨d - 1, by have := Nat.le_sqrt.mpr h2; omega, by omega⟩, Nat.mod_eq_zero_of_dvd h1⟩

theorem smallDivisors_sorted (n : Nat) : (smallDivisors n).Pairwise (· < ·) := by
  unfold smallDivisors
  apply List.Pairwise.filter
  rw [List.pairwise_map]
  exact List.pairwise_lt_range.imp (fun h => by omega)

theorem factor_sorted (n : Nat) : (factor n).Pairwise (· < ·) := by
  rw [factor_eq]; exact (smallDivisors_sorted n).sublist (List.take_sublist _ _)

theorem mem_factor {n d : Nat} (hn : 0 < n) (h : d ∈ factor n) : d ∣ n ∧ d * d ≤ n := by
  rw [factor_eq] at h
  exact (mem_smallDivisors hn).mp (List.mem_of_mem_take h)

theorem one_mem_factor {n : Nat} (hn : 0 < n) : (factor n).getD 0 0 = 1 ∧ 0 < (factor n).length := by
  have h1 : 1 ∈ smallDivisors n := (mem_smallDivisors hn).mpr ⟨one_dvd n, by omega⟩
  have hs := smallDivisors_sorted n
  rw [factor_eq]
  cases hl : smallDivisors n with
  | nil => rw [hl] at h1; cases h1
  | cons x l =>
    rw [hl] at h1 hs
    have hx : x = 1 := by
      rcases List.mem_cons.mp h1 with h | h
      · exact h.symm
      · have h2 := (List.pairwise_cons.mp hs).1 1 h
        have h3 : x ∈ smallDivisors n := by rw [hl]; simp
        have := Nat.pos_of_dvd_of_pos ((mem_smallDivisors hn).mp h3).1 hn
        omega
    subst hx
    simp [NFACTOR]

/-! ## Search -/

/-- The factorisations that `procfactors` looks at. -/
def gridTriples (nprocs : Nat) : List (Nat × Nat × Nat) :=
  (List.range (factor nprocs).length).flatMap fun i =>
    (List.range' i ((factor nprocs).length - i)).flatMap fun j =>
      let a := (factor nprocs).getD i 0
      let b := (factor nprocs).getD j 0
      let c := nprocs / a / b
      if a * b * c ≠ nprocs then [] else if a > b ∨ b > c then [] else sixPerms a b c

/-- First minimum of a search. -/
theorem foldl_best {γ : Type} (area : γ → ℝ) (cs : List γ) (m0 : ℝ) (o : Option γ)
    (ho : ∀ c, o = some c → area c = m0) :
    let r := cs.foldl (fun (st : ℝ × Option γ) c => if area c < st.1 then (area c, some c) else st) (m0, o)
    r.1 ≤ m0 ∧ (∀ c ∈ cs, r.1 ≤ area c) ∧ (∀ c, r.2 = some c → area c = r.1) ∧
      (r.2 = o ∧ r.1 = m0 ∨ ∃ c ∈ cs, r.2 = some c ∧ r.1 < m0) := by
  induction cs generalizing m0 o with
  | nil => exact ⟨le_refl _, by simp, ho, Or.inl ⟨rfl, rfl⟩⟩
  | cons c cs ih =>
    simp only [List.foldl_cons]
    by_cases h : area c < m0
    · rw [if_pos h]
      obtain ⟨h1, h2, h3, h4⟩ := ih (area c) (some c) (by rintro _ ⟨⟩; rfl)
      refine ⟨h1.trans h.le, ?_, h3, Or.inr ?_⟩
      · intro d hd
        rcases List.mem_cons.mp hd with rfl | hd
        · exact h1
        · exact h2 d hd
      · rcases h4 with ⟨h5, h6⟩ | ⟨d, hd, h5, h6⟩
        · exact ⟨c, by simp, h5, by rw [h6]; exact h⟩
        · exact ⟨d, by simp [hd], h5, h6.trans h⟩
    · rw [if_neg h]
      obtain ⟨h1, h2, h3, h4⟩ := ih m0 o ho
      refine ⟨h1, ?_, h3, ?_⟩
      · intro d hd
        rcases List.mem_cons.mp hd with rfl | hd
        · exact h1.trans (not_lt.mp h)
        · exact h2 d hd
      · rcases h4 with h4 | ⟨d, hd, h5⟩
        · exact Or.inl h4
        · exact Or.inr ⟨d, by simp [hd], h5⟩

theorem procGrid_eq (fp : ℝ → ℝ) (nprocs nx ny nz : Nat) : procGrid fp nprocs nx ny nz =
    ((gridTriples nprocs).foldl (testGrid fp nx ny nz) (minarea0 fp nx ny nz, none)).2 := by
  unfold procGrid gridTriples
  simp only [List.foldl_flatMap]
  congr 2
  funext st i
  congr 1
  funext st j
  split_ifs <;> simp

theorem mem_gridTriples {nprocs : Nat} (hn : 0 < nprocs) {c : Nat × Nat × Nat}
    (h : c ∈ gridTriples nprocs) : c.1 * c.2.1 * c.2.2 = nprocs := by
  simp only [gridTriples, List.mem_flatMap] at h
  obtain ⟨i, _, j, _, h⟩ := h
  split_ifs at h with h1 h2
  · cases h
  · cases h
  · rw [not_not] at h1
    simp only [sixPerms, List.mem_cons, List.not_mem_nil, or_false] at h
    have e : ∀ a b c d : Nat, a * b * c = d → a * c * b = d ∧ b * a * c = d ∧ b * c * a = d ∧
        c * a * b = d ∧ c * b * a = d := by
      intro a b c d h; subst h
      refine ⟨?_, ?_, ?_, ?_, ?_⟩ <;> ring
    have := e _ _ _ _ h1
    rcases h with rfl | rfl | rfl | rfl | rfl | rfl
    · exact h1
    · exact this.1
    · exact this.2.1
    · exact this.2.2.1
    · exact this.2.2.2.1
    · exact this.2.2.2.2

/-- `(1,1,nprocs)` and its permutations are always looked at. -/
theorem base_mem_gridTriples {nprocs : Nat} (hn : 0 < nprocs) :
    (nprocs, 1, 1) ∈ gridTriples nprocs ∧ (1, nprocs, 1) ∈ gridTriples nprocs ∧
      (1, 1, nprocs) ∈ gridTriples nprocs := by
  obtain ⟨h1, h2⟩ := one_mem_factor hn
  have key : ∀ c ∈ sixPerms 1 1 nprocs, c ∈ gridTriples nprocs := by
    intro c hc
    simp only [gridTriples, List.mem_flatMap]
    refine ⟨0, List.mem_range.mpr h2, 0, ?_, ?_⟩
    · rw [List.mem_range'_1]; omega
    · simp only [h1, Nat.div_one]
      rw [if_neg (by omega), if_neg (by omega)]
      exact hc
  refine ⟨key _ ?_, key _ ?_, key _ ?_⟩ <;> simp [sixPerms]

/-- A sorted factorisation is looked at when its two smaller factors are in the list. -/
theorem sorted_mem_gridTriples {nprocs : Nat} (hn : 0 < nprocs) {a b c : Nat} (ha : a ∈ factor nprocs)
    (hb : b ∈ factor nprocs) (hab : a ≤ b) (hbc : b ≤ c) (h : a * b * c = nprocs) :
    ∀ t ∈ sixPerms a b c, t ∈ gridTriples nprocs := by
  intro t ht
  obtain ⟨i, hi, rfl⟩ := List.mem_iff_getElem.mp ha
  obtain ⟨j, hj, rfl⟩ := List.mem_iff_getElem.mp hb
  have hs := factor_sorted nprocs
  have hij : i ≤ j := by
    by_contra hc
    have := List.pairwise_iff_getElem.mp hs j i hj hi (by omega)
    omega
  have ga : (factor nprocs).getD i 0 = (factor nprocs)[i] := by simp [hi]
  have gb : (factor nprocs).getD j 0 = (factor nprocs)[j] := by simp [hj]
  simp only [gridTriples, List.mem_flatMap]
  refine ⟨i, List.mem_range.mpr hi, j, ?_, ?_⟩
  · rw [List.mem_range'_1]; omega
  · have pa : 0 < (factor nprocs)[i] := Nat.pos_of_dvd_of_pos (mem_factor hn ha).1 hn
    have pb : 0 < (factor nprocs)[j] := Nat.pos_of_dvd_of_pos (mem_factor hn hb).1 hn
    have hc : nprocs / (factor nprocs)[i] / (factor nprocs)[j] = c := by
      rw [Nat.div_div_eq_div_mul]
      exact Nat.div_eq_of_eq_mul_right (Nat.mul_pos pa pb) h.symm
    simp only [ga, gb, hc]
    rw [if_neg (by rw [h]; simp), if_neg (by omega)]
    exact ht

/-- Range of the numbers: sizes, quotients, areas. -/
theorem fp_quot {n i : Nat} (hn : 0 < n) (hn2 : n < 2 ^ 31) (hi : 0 < i) (hi2 : i ≤ 2 ^ 60) :
    1 / 2 ^ 60 ≤ (n : ℝ) / i ∧ (n : ℝ) / i ≤ 2 ^ 31 := by
  have hi' : (0 : ℝ) < i := by exact_mod_cast hi
  have hn' : (1 : ℝ) ≤ n := by exact_mod_cast hn
  have hn3 : (n : ℝ) ≤ 2 ^ 31 := by exact_mod_cast hn2.le
  have hi3 : (i : ℝ) ≤ 2 ^ 60 := by exact_mod_cast hi2
  refine ⟨?_, ?_⟩
  · apply div_le_div₀ (by linarith) hn' hi' hi3
  · exact (div_le_self (by linarith) (by exact_mod_cast hi)).trans hn3

/-- A rounded quotient is near the exact one. -/
theorem fp_quot_near {fp : ℝ → ℝ} {P : Nat} (R : FpOK P fp) {n i : Nat} (hn : 0 < n) (hn2 : n < 2 ^ 31) (hi : 0 < i)
    (hi2 : i ≤ 2 ^ 60) : NearR 2 ((n : ℝ) / i) (fp (fp (1 * n) / i)) := by
  have hn' : (1 : ℝ) ≤ n := by exact_mod_cast hn
  have hn3 : (n : ℝ) ≤ 2 ^ 31 := by exact_mod_cast hn2.le
  obtain ⟨q1, q2⟩ := fp_quot hn hn2 hi hi2
  have h1 : NearR 1 (n : ℝ) (fp (1 * n)) := by
    have := (NearR.refl (1 * (n : ℝ))).rnd R.rel (by omega) (by rw [one_mul]; exact le_trans (by norm_num) hn')
      (by rw [one_mul]; exact le_trans hn3 (by norm_num))
    rwa [one_mul] at this ⊢
  exact (h1.divNat (by linarith) i).rnd R.rel (by omega) (le_trans (by norm_num) q1) (le_trans q2 (by norm_num))

/-- Range of the area of a face. -/
theorem fp_face {m n i j : Nat} (hm : 0 < m) (hm2 : m < 2 ^ 31) (hn : 0 < n) (hn2 : n < 2 ^ 31) (hi : 0 < i)
    (hj : 0 < j) (hij : i * j ≤ 2 ^ 60) :
    1 / 2 ^ 60 ≤ (m : ℝ) / i * (n / j) ∧ (m : ℝ) / i * (n / j) ≤ 2 ^ 62 ∧ (m : ℝ) / i * (n / j) ≤ m * n := by
  have hi' : (1 : ℝ) ≤ i := by exact_mod_cast hi
  have hj' : (1 : ℝ) ≤ j := by exact_mod_cast hj
  have hm' : (1 : ℝ) ≤ m := by exact_mod_cast hm
  have hn' : (1 : ℝ) ≤ n := by exact_mod_cast hn
  have hm3 : (m : ℝ) ≤ 2 ^ 31 := by exact_mod_cast hm2.le
  have hn3 : (n : ℝ) ≤ 2 ^ 31 := by exact_mod_cast hn2.le
  have hij' : (i : ℝ) * j ≤ 2 ^ 60 := by exact_mod_cast hij
  have h1 : (m : ℝ) / i * (n / j) ≤ m * n := by
    rw [div_mul_div_comm]
    exact div_le_self (by positivity) (by nlinarith)
  have h2 : (m : ℝ) * n ≤ 2 ^ 31 * 2 ^ 31 := mul_le_mul hm3 hn3 (by linarith) (by norm_num)
  refine ⟨?_, ?_, h1⟩
  · rw [div_mul_div_comm]
    exact div_le_div₀ (by positivity) (by nlinarith) (by positivity) hij'
  · exact (h1.trans h2).trans (by norm_num)

/-- The computed area of a grid that does not divide an undivided dimension is near the exact one. -/
theorem surfarea_near {fp : ℝ → ℝ} {P : Nat} (R : FpOK P fp) {i j k nx ny nz : Nat} (hi : 0 < i) (hj : 0 < j) (hk : 0 < k)
    (hP : i * j * k = P) (hx : 0 < nx) (hy : 0 < ny) (hz : 0 < nz) (hx2 : nx < 2 ^ 31) (hy2 : ny < 2 ^ 31)
    (hz2 : nz < 2 ^ 31) (h1 : nx = 1 → i = 1) (h2 : ny = 1 → j = 1) (h3 : nz = 1 → k = 1) :
    NearR 7 ((nx : ℝ) / i * (ny / j) + ny / j * (nz / k) + nx / i * (nz / k)) (surfarea fp i j k nx ny nz) := by
  unfold surfarea
  rw [if_neg (by tauto), if_neg (by tauto), if_neg (by tauto)]
  have l := R.procs
  have lij : i * j ≤ 2 ^ 60 := by
    refine le_trans ?_ l; rw [← hP]; exact Nat.le_mul_of_pos_right _ hk
  have ljk : j * k ≤ 2 ^ 60 := by
    refine le_trans ?_ l; rw [← hP, mul_assoc]; exact Nat.le_mul_of_pos_left _ hi
  have lik : i * k ≤ 2 ^ 60 := by
    refine le_trans ?_ l; rw [← hP, mul_right_comm]; exact Nat.le_mul_of_pos_right _ hj
  have li : i ≤ 2 ^ 60 := (Nat.le_mul_of_pos_right _ hj).trans lij
  have lj : j ≤ 2 ^ 60 := (Nat.le_mul_of_pos_left _ hi).trans lij
  have lk : k ≤ 2 ^ 60 := (Nat.le_mul_of_pos_left _ hj).trans ljk
  have x0 : (0 : ℝ) ≤ (nx : ℝ) / i := by positivity
  have y0 : (0 : ℝ) ≤ (ny : ℝ) / j := by positivity
  have z0 : (0 : ℝ) ≤ (nz : ℝ) / k := by positivity
  obtain ⟨a1, a2, _⟩ := fp_face hx hx2 hy hy2 hi hj lij
  obtain ⟨b1, b2, _⟩ := fp_face hy hy2 hz hz2 hj hk ljk
  obtain ⟨c1, c2, _⟩ := fp_face hx hx2 hz hz2 hi hk lik
  have qx := fp_quot_near R hx hx2 hi li
  have qy := fp_quot_near R hy hy2 hj lj
  have qz := fp_quot_near R hz hz2 hk lk
  have u : ∀ t : ℝ, 1 / 2 ^ 60 ≤ t → 1 / 2 ^ 90 ≤ t := fun t h => le_trans (by norm_num) h
  have m1 := (qx.mul x0 y0 qy).rnd R.rel (by omega) (u _ a1) (a2.trans (by norm_num))
  have m2 := (qy.mul y0 z0 qz).rnd R.rel (by omega) (u _ b1) (b2.trans (by norm_num))
  have m3 := (qx.mul x0 z0 qz).rnd R.rel (by omega) (u _ c1) (c2.trans (by norm_num))
  have p0 : (0 : ℝ) ≤ 1 / 2 ^ 60 := by positivity
  have s1 := (m1.add m2).rnd R.rel (by omega) (u _ (le_add_of_le_of_nonneg a1 (p0.trans b1)))
    (le_trans (add_le_add a2 b2) (by norm_num))
  exact (s1.add (m3.mono (by omega) (p0.trans c1))).rnd R.rel (by omega)
    (u _ (le_add_of_le_of_nonneg (le_add_of_le_of_nonneg a1 (p0.trans b1)) (p0.trans c1)))
    (le_trans (add_le_add (add_le_add a2 b2) c2) (by norm_num))

/-- Twice the area of a face of the grid, as computed. -/
theorem twice_near {fp : ℝ → ℝ} {P : Nat} (R : FpOK P fp) {m n : Nat} (hm : 0 < m) (hn : 0 < n) (hm2 : m < 2 ^ 31)
    (hn2 : n < 2 ^ 31) : NearR 2 (2 * m * n : ℝ) (fp (fp (2 * m) * n)) ∧ (2 : ℝ) ≤ 2 * m * n ∧ 2 * m * n ≤ (2 : ℝ) ^ 63 := by
  have hm' : (1 : ℝ) ≤ m := by exact_mod_cast hm
  have hn' : (1 : ℝ) ≤ n := by exact_mod_cast hn
  have hm3 : (m : ℝ) ≤ 2 ^ 31 := by exact_mod_cast hm2.le
  have hn3 : (n : ℝ) ≤ 2 ^ 31 := by exact_mod_cast hn2.le
  have l1 : (2 : ℝ) ≤ 2 * m * n := by nlinarith
  have l2 : 2 * m * n ≤ (2 : ℝ) ^ 63 := by
    have : (m : ℝ) * n ≤ 2 ^ 31 * 2 ^ 31 := mul_le_mul hm3 hn3 (by linarith) (by norm_num)
    rw [mul_assoc]; norm_num at this ⊢; linarith
  refine ⟨?_, l1, l2⟩
  have h1 := (NearR.refl (2 * (m : ℝ))).rnd R.rel (by omega) (by norm_num; linarith)
    (le_trans (mul_le_mul_of_nonneg_left hm3 (by norm_num)) (by norm_num))
  exact (h1.mul (by positivity) (by positivity) (NearR.refl (n : ℝ))).rnd R.rel (by omega) (le_trans (by norm_num) l1)
    (le_trans l2 (by norm_num))

theorem minarea0_near {fp : ℝ → ℝ} {P : Nat} (R : FpOK P fp) {nx ny nz : Nat} (hx : 0 < nx) (hy : 0 < ny) (hz : 0 < nz)
    (hx2 : nx < 2 ^ 31) (hy2 : ny < 2 ^ 31) (hz2 : nz < 2 ^ 31) :
    NearR 4 (2 * nx * ny + 2 * ny * nz + 2 * nx * nz : ℝ) (minarea0 fp nx ny nz) ∧
      (2 * nx * ny + 2 * ny * nz + 2 * nx * nz : ℝ) ≤ 3 * 2 ^ 63 := by
  obtain ⟨a, a1, a2⟩ := twice_near R hx hy hx2 hy2
  obtain ⟨b, b1, b2⟩ := twice_near R hy hz hy2 hz2
  obtain ⟨c, c1, c2⟩ := twice_near R hx hz hx2 hz2
  refine ⟨?_, by linarith⟩
  have s1 := (a.add b).rnd R.rel (by omega) (le_trans (by norm_num) (add_le_add a1 b1))
    (le_trans (add_le_add a2 b2) (by norm_num))
  exact (s1.add (c.mono (by omega) (by positivity))).rnd R.rel (by omega)
    (le_trans (by norm_num) (add_le_add (add_le_add a1 b1) c1))
    (le_trans (add_le_add (add_le_add a2 b2) c2) (by norm_num))

/-- The surface area, when the grid does not divide an undivided dimension. -/
theorem surfarea_lt {fp : ℝ → ℝ} {P : Nat} (R : FpOK P fp) {i j k nx ny nz : Nat} (hi : 0 < i) (hj : 0 < j) (hk : 0 < k)
    (hP : i * j * k = P) (hx : 0 < nx) (hy : 0 < ny) (hz : 0 < nz) (hx2 : nx < 2 ^ 31) (hy2 : ny < 2 ^ 31)
    (hz2 : nz < 2 ^ 31) (h1 : nx = 1 → i = 1) (h2 : ny = 1 → j = 1) (h3 : nz = 1 → k = 1) :
    surfarea fp i j k nx ny nz < minarea0 fp nx ny nz := by
  have l := R.procs
  have lij : i * j ≤ 2 ^ 60 := by
    refine le_trans ?_ l; rw [← hP]; exact Nat.le_mul_of_pos_right _ hk
  have ljk : j * k ≤ 2 ^ 60 := by
    refine le_trans ?_ l; rw [← hP, mul_assoc]; exact Nat.le_mul_of_pos_left _ hi
  have lik : i * k ≤ 2 ^ 60 := by
    refine le_trans ?_ l; rw [← hP, mul_right_comm]; exact Nat.le_mul_of_pos_right _ hj
  obtain ⟨a1, _, a3⟩ := fp_face hx hx2 hy hy2 hi hj lij
  obtain ⟨b1, _, b3⟩ := fp_face hy hy2 hz hz2 hj hk ljk
  obtain ⟨c1, _, c3⟩ := fp_face hx hx2 hz hz2 hi hk lik
  have u := (surfarea_near R hi hj hk hP hx hy hz hx2 hy2 hz2 h1 h2 h3).hi
  have v := (minarea0_near R hx hy hz hx2 hy2 hz2).1.lo
  set s : ℝ := (nx : ℝ) / i * (ny / j) + ny / j * (nz / k) + nx / i * (nz / k)
  set t : ℝ := 2 * nx * ny + 2 * ny * nz + 2 * nx * nz with ht
  have st : 2 * s ≤ t := by rw [ht]; simp only [s]; nlinarith
  have t0 : 0 < t := by rw [ht]; positivity
  have e1 : (1 + 1 / 2 ^ 53 : ℝ) ^ 7 * s ≤ 3 / 2 * s := mul_le_mul_of_nonneg_right (by norm_num) (by positivity)
  have e2 : 4 / 5 * t ≤ (1 - 1 / 2 ^ 53 : ℝ) ^ 4 * t := mul_le_mul_of_nonneg_right (by norm_num) t0.le
  linarith

/-- A grid that divides an undivided dimension is never accepted (32 bit sizes). -/
theorem surfarea_big {fp : ℝ → ℝ} {P : Nat} (R : FpOK P fp) {i j k nx ny nz : Nat} (hx : 0 < nx) (hy : 0 < ny)
    (hz : 0 < nz) (hx2 : nx < 2 ^ 31) (hy2 : ny < 2 ^ 31) (hz2 : nz < 2 ^ 31)
    (h : ¬ ((nx = 1 → i = 1) ∧ (ny = 1 → j = 1) ∧ (nz = 1 → k = 1))) :
    ¬ surfarea fp i j k nx ny nz < minarea0 fp nx ny nz := by
  have hb : surfarea fp i j k nx ny nz = BIG := by
    unfold surfarea
    split_ifs with h1 h2 h3
    · rfl
    · rfl
    · rfl
    · exfalso; apply h
      refine ⟨fun e => ?_, fun e => ?_, fun e => ?_⟩
      · by_contra hc; exact h1 ⟨e, hc⟩
      · by_contra hc; exact h2 ⟨e, hc⟩
      · by_contra hc; exact h3 ⟨e, hc⟩
  rw [hb, not_lt]
  obtain ⟨a, b⟩ := minarea0_near R hx hy hz hx2 hy2 hz2
  refine a.hi.trans ?_
  calc _ ≤ (1 + 1 / 2 ^ 53 : ℝ) ^ 4 * (3 * 2 ^ 63) := mul_le_mul_of_nonneg_left b (by positivity)
    _ ≤ BIG := by unfold BIG; norm_num

/-- What the search returns. -/
theorem procGrid_spec {fp : ℝ → ℝ} {nprocs nx ny nz : Nat} (R : FpOK nprocs fp) (hn : 0 < nprocs) (hx : 0 < nx)
    (hy : 0 < ny) (hz : 0 < nz) (hx2 : nx < 2 ^ 31) (hy2 : ny < 2 ^ 31) (hz2 : nz < 2 ^ 31)
    (hdim : 2 ≤ nx ∨ 2 ≤ ny ∨ 2 ≤ nz) :
    ∃ c, procGrid fp nprocs nx ny nz = some c ∧ c.1 * c.2.1 * c.2.2 = nprocs ∧
      (nx = 1 → c.1 = 1) ∧ (ny = 1 → c.2.1 = 1) ∧ (nz = 1 → c.2.2 = 1) ∧ c ∈ gridTriples nprocs ∧
      ∀ t ∈ gridTriples nprocs, surfarea fp c.1 c.2.1 c.2.2 nx ny nz ≤ surfarea fp t.1 t.2.1 t.2.2 nx ny nz := by
  obtain ⟨h1, h2, h3, h4⟩ := foldl_best (fun c : Nat × Nat × Nat => surfarea fp c.1 c.2.1 c.2.2 nx ny nz)
    (gridTriples nprocs) (minarea0 fp nx ny nz) none (by rintro _ ⟨⟩)
  rw [procGrid_eq]
  change _ at h1
  have hf : (fun (st : ℝ × Option (Nat × Nat × Nat)) c =>
      if surfarea fp c.1 c.2.1 c.2.2 nx ny nz < st.1 then (surfarea fp c.1 c.2.1 c.2.2 nx ny nz, some c) else st) =
      testGrid fp nx ny nz := rfl
  rw [hf] at h1 h2 h3 h4
  set r := (gridTriples nprocs).foldl (testGrid fp nx ny nz) (minarea0 fp nx ny nz, none) with hr
  obtain ⟨b1, b2, b3⟩ := base_mem_gridTriples hn
  have hlt : r.1 < minarea0 fp nx ny nz := by
    rcases hdim with h | h | h
    · exact (h2 _ b1).trans_lt (surfarea_lt R hn one_pos one_pos (by simp) hx hy hz hx2 hy2 hz2 (by omega) (by simp)
        (by simp))
    · exact (h2 _ b2).trans_lt (surfarea_lt R one_pos hn one_pos (by simp) hx hy hz hx2 hy2 hz2 (by simp) (by omega)
        (by simp))
    · exact (h2 _ b3).trans_lt (surfarea_lt R one_pos one_pos hn (by simp) hx hy hz hx2 hy2 hz2 (by simp) (by simp)
        (by omega))
  rcases h4 with ⟨_, h5⟩ | ⟨c, hc, h5, h6⟩
  · rw [h5] at hlt; exact absurd hlt (lt_irrefl _)
  · have harea := h3 c h5
    have hok : (nx = 1 → c.1 = 1) ∧ (ny = 1 → c.2.1 = 1) ∧ (nz = 1 → c.2.2 = 1) := by
      by_contra hcon
      exact surfarea_big R hx hy hz hx2 hy2 hz2 hcon (by rw [harea]; exact h6)
    refine ⟨c, h5, mem_gridTriples hn hc, hok.1, hok.2.1, hok.2.2, hc, ?_⟩
    intro t ht
    rw [harea]; exact h2 t ht

/-! ## Exact arithmetic can be carried out on rational numbers -/

/-- The area, on rational numbers. -/
def surfareaQ (i j k nx ny nz : Nat) : ℚ :=
  if nx = 1 ∧ i ≠ 1 then 10 ^ 20
  else if ny = 1 ∧ j ≠ 1 then 10 ^ 20
  else if nz = 1 ∧ k ≠ 1 then 10 ^ 20
  else (nx : ℚ) / i * (ny / j) + ny / j * (nz / k) + nx / i * (nz / k)

theorem surfareaQ_cast (i j k nx ny nz : Nat) : ((surfareaQ i j k nx ny nz : ℚ) : ℝ) = surfarea id i j k nx ny nz := by
  unfold surfareaQ surfarea BIG
  split_ifs <;> push_cast <;> simp only [id, one_mul]

/-- One test, on rational numbers. -/
def testGridQ (nx ny nz : Nat) (st : ℚ × Option (Nat × Nat × Nat)) (c : Nat × Nat × Nat) :
    ℚ × Option (Nat × Nat × Nat) :=
  let newarea := surfareaQ c.1 c.2.1 c.2.2 nx ny nz
  if newarea < st.1 then (newarea, some c) else st

/-- The search, on rational numbers. -/
def procGridQ (nprocs nx ny nz : Nat) : Option (Nat × Nat × Nat) :=
  ((gridTriples nprocs).foldl (testGridQ nx ny nz) ((2 * nx * ny + 2 * ny * nz + 2 * nx * nz : ℚ), none)).2

theorem procGrid_id (nprocs nx ny nz : Nat) : procGrid id nprocs nx ny nz = procGridQ nprocs nx ny nz := by
  rw [procGrid_eq, procGridQ]
  have key : ∀ (l : List (Nat × Nat × Nat)) (st : ℚ × Option (Nat × Nat × Nat)),
      l.foldl (testGrid id nx ny nz) ((st.1 : ℝ), st.2) =
        (((l.foldl (testGridQ nx ny nz) st).1 : ℝ), (l.foldl (testGridQ nx ny nz) st).2) := by
    intro l
    induction l with
    | nil => intro st; rfl
    | cons c l ih =>
      intro st
      simp only [List.foldl_cons]
      rw [← ih]
      congr 1
      unfold testGrid testGridQ
      simp only [← surfareaQ_cast, Rat.cast_lt]
      split_ifs <;> rfl
  have := congrArg Prod.snd (key (gridTriples nprocs) ((2 * nx * ny + 2 * ny * nz + 2 * nx * nz : ℚ), none))
  simp only at this
  rw [← this]
  congr 2
  simp only [minarea0, id]
  push_cast
  rfl

/-! ## Search in two dimensions -/

/-- The factorisations that the 2d `procfactors` looks at. -/
def gridPairs (nprocs : Nat) : List (Nat × Nat) :=
  (List.range (factor nprocs).length).flatMap fun i =>
    (List.range' i ((factor nprocs).length - i)).flatMap fun _ =>
      let a := (factor nprocs).getD i 0
      let b := nprocs / a
      if a * b ≠ nprocs then [] else if a > b then [] else [(a, b), (b, a)]

theorem procGrid2_eq (fp : ℝ → ℝ) (nprocs nx ny : Nat) : procGrid2 fp nprocs nx ny =
    ((gridPairs nprocs).foldl (testGrid2 fp nx ny) (minarea2 fp nx ny, none)).2 := by
  unfold procGrid2 gridPairs
  simp only [List.foldl_flatMap]
  congr 2
  funext st i
  congr 1
  funext st j
  split_ifs <;> simp

theorem mem_gridPairs {nprocs : Nat} {c : Nat × Nat} (hc : c ∈ gridPairs nprocs) : c.1 * c.2 = nprocs := by
  simp only [gridPairs, List.mem_flatMap] at hc
  obtain ⟨i, _, j, _, hc⟩ := hc
  split_ifs at hc with h1 h2
  · cases hc
  · cases hc
  · rw [not_not] at h1
    simp only [List.mem_cons, List.not_mem_nil, or_false] at hc
    rcases hc with rfl | rfl
    · exact h1
    · rw [Nat.mul_comm]; exact h1

theorem gridPairs_head {nprocs : Nat} (hn : 0 < nprocs) : ∃ l, gridPairs nprocs = (1, nprocs) :: l := by
  obtain ⟨f1, f2⟩ := one_mem_factor hn
  obtain ⟨n, hn'⟩ : ∃ n, (factor nprocs).length = n + 1 := ⟨(factor nprocs).length - 1, by omega⟩
  simp only [gridPairs, hn', List.range_succ_eq_map, List.flatMap_cons, Nat.sub_zero, List.range'_succ, f1,
    Nat.div_one, one_mul, ne_eq, not_true_eq_false, if_false]
  rw [if_neg (by omega)]
  exact ⟨_, rfl⟩

/-- The computed area in two dimensions. -/
theorem surfarea2_near {fp : ℝ → ℝ} {P : Nat} (R : FpOK P fp) {i j nx ny : Nat} (hi : 0 < i) (hj : 0 < j)
    (hP : i * j = P) (hx : 2 ≤ nx) (hy : 2 ≤ ny) (hx2 : nx < 2 ^ 31) (hy2 : ny < 2 ^ 31) :
    NearR 5 ((nx : ℝ) / i * (ny / j)) (surfarea2 fp i j nx ny) := by
  unfold surfarea2
  rw [if_neg (by omega), if_neg (by omega)]
  have lij : i * j ≤ 2 ^ 60 := hP ▸ R.procs
  have li : i ≤ 2 ^ 60 := (Nat.le_mul_of_pos_right _ hj).trans lij
  have lj : j ≤ 2 ^ 60 := (Nat.le_mul_of_pos_left _ hi).trans lij
  obtain ⟨a1, a2, _⟩ := fp_face (by omega : 0 < nx) hx2 (by omega : 0 < ny) hy2 hi hj lij
  exact ((fp_quot_near R (by omega) hx2 hi li).mul (by positivity) (by positivity)
    (fp_quot_near R (by omega) hy2 hj lj)).rnd R.rel (by omega) (le_trans (by norm_num) a1) (a2.trans (by norm_num))

/-- What the search returns. -/
theorem procGrid2_spec {fp : ℝ → ℝ} {nprocs nx ny : Nat} (R : FpOK nprocs fp) (hn : 0 < nprocs) (hx : 2 ≤ nx)
    (hy : 2 ≤ ny) (hx2 : nx < 2 ^ 31) (hy2 : ny < 2 ^ 31) :
    ∃ c, procGrid2 fp nprocs nx ny = some c ∧ c.1 * c.2 = nprocs ∧
      ∀ t ∈ gridPairs nprocs, surfarea2 fp c.1 c.2 nx ny ≤ surfarea2 fp t.1 t.2 nx ny := by
  obtain ⟨h1, h2, h3, h4⟩ := foldl_best (fun c : Nat × Nat => surfarea2 fp c.1 c.2 nx ny)
    (gridPairs nprocs) (minarea2 fp nx ny) none (by rintro _ ⟨⟩)
  rw [procGrid2_eq]
  have hf : (fun (st : ℝ × Option (Nat × Nat)) c =>
      if surfarea2 fp c.1 c.2 nx ny < st.1 then (surfarea2 fp c.1 c.2 nx ny, some c) else st) =
      testGrid2 fp nx ny := rfl
  rw [hf] at h1 h2 h3 h4
  set r := (gridPairs nprocs).foldl (testGrid2 fp nx ny) (minarea2 fp nx ny, none) with hr
  obtain ⟨l, hl⟩ := gridPairs_head hn
  have hlt : r.1 < minarea2 fp nx ny := by
    refine (h2 (1, nprocs) (by rw [hl]; simp)).trans_lt ?_
    obtain ⟨a1, _, a3⟩ := fp_face (by omega : 0 < nx) hx2 (by omega : 0 < ny) hy2 one_pos hn (by simpa using R.procs)
    have u := (surfarea2_near R one_pos hn (by simp) hx hy hx2 hy2).hi
    obtain ⟨v, v1, _⟩ := twice_near R (by omega : 0 < nx) (by omega : 0 < ny) hx2 hy2
    have v' := v.lo
    unfold minarea2
    set s : ℝ := (nx : ℝ) / (1 : Nat) * (ny / nprocs)
    have e1 : (1 + 1 / 2 ^ 53 : ℝ) ^ 5 * s ≤ 3 / 2 * s := mul_le_mul_of_nonneg_right (by norm_num) (by positivity)
    have e2 : 4 / 5 * (2 * nx * ny : ℝ) ≤ (1 - 1 / 2 ^ 53 : ℝ) ^ 2 * (2 * nx * ny) :=
      mul_le_mul_of_nonneg_right (by norm_num) (by positivity)
    show surfarea2 fp 1 nprocs nx ny < _
    nlinarith
  rcases h4 with ⟨_, h5⟩ | ⟨c, hc, h5, h6⟩
  · rw [h5] at hlt; exact absurd hlt (lt_irrefl _)
  · exact ⟨c, h5, mem_gridPairs hc, fun t ht => by rw [h3 c h5]; exact h2 t ht⟩

/-! ## Coordinates and blocks -/

theorem gridCoords_bij {np : Nat × Nat × Nat} {P : Nat} (h : np.1 * np.2.1 * np.2.2 = P) (hP : 0 < P) :
    (∀ me < P, (gridCoords np me).1 < np.1 ∧ (gridCoords np me).2.1 < np.2.1 ∧
      (gridCoords np me).2.2 < np.2.2) ∧
    (∀ x y z, x < np.1 → y < np.2.1 → z < np.2.2 →
      (x + np.1 * (y + np.2.1 * z)) < P ∧ gridCoords np (x + np.1 * (y + np.2.1 * z)) = (x, y, z)) ∧
    (∀ me < P, me = (gridCoords np me).1 + np.1 * ((gridCoords np me).2.1 + np.2.1 * (gridCoords np me).2.2)) := by
  obtain ⟨a, b, c⟩ := np
  simp only at h
  have ha : 0 < a := by rcases Nat.eq_zero_or_pos a with h0 | h0; · subst h0; simp at h; omega
                        · exact h0
  have hb : 0 < b := by rcases Nat.eq_zero_or_pos b with h0 | h0; · subst h0; simp at h; omega
                        · exact h0
  simp only [gridCoords]
  refine ⟨?_, ?_, ?_⟩
  · intro me hme
    refine ⟨Nat.mod_lt _ ha, Nat.mod_lt _ hb, ?_⟩
    rw [Nat.div_lt_iff_lt_mul (Nat.mul_pos ha hb)]
    calc me < P := hme
      _ = c * (a * b) := by rw [← h]; ring
  · intro x y z hx hy hz
    have h1 : (x + a * (y + b * z)) / a = y + b * z := by
      rw [Nat.add_mul_div_left _ _ ha, Nat.div_eq_of_lt hx, zero_add]
    refine ⟨?_, ?_⟩
    · have h2 : y + b * z < b * c := by
        calc y + b * z < b + b * z := by omega
          _ = b * (z + 1) := by ring
          _ ≤ b * c := Nat.mul_le_mul_left b hz
      calc x + a * (y + b * z) < a + a * (y + b * z) := by omega
        _ = a * (y + b * z + 1) := by ring
        _ ≤ a * (b * c) := Nat.mul_le_mul_left a h2
        _ = P := by rw [← h]; ring
    · simp only [Prod.mk.injEq]
      refine ⟨?_, ?_, ?_⟩
      · rw [Nat.add_mul_mod_self_left, Nat.mod_eq_of_lt hx]
      · rw [h1, Nat.add_mul_mod_self_left, Nat.mod_eq_of_lt hy]
      · rw [← Nat.div_div_eq_div_mul, h1, Nat.add_mul_div_left _ _ hb, Nat.div_eq_of_lt hy, zero_add]
  · intro me _
    rw [← Nat.div_div_eq_div_mul, Nat.mod_add_div, Nat.mod_add_div]

theorem gridCoords2_bij {np : Nat × Nat} {P : Nat} (h : np.1 * np.2 = P) (hP : 0 < P) :
    (∀ me < P, (gridCoords2 np me).1 < np.1 ∧ (gridCoords2 np me).2 < np.2) ∧
    (∀ x y, x < np.1 → y < np.2 → (x + np.1 * y) < P ∧ gridCoords2 np (x + np.1 * y) = (x, y)) ∧
    (∀ me < P, me = (gridCoords2 np me).1 + np.1 * (gridCoords2 np me).2) := by
  obtain ⟨a, b⟩ := np
  simp only at h
  have ha : 0 < a := by rcases Nat.eq_zero_or_pos a with h0 | h0; · subst h0; simp at h; omega
                        · exact h0
  simp only [gridCoords2]
  refine ⟨?_, ?_, ?_⟩
  · intro me hme
    refine ⟨Nat.mod_lt _ ha, ?_⟩
    rw [Nat.div_lt_iff_lt_mul ha, Nat.mul_comm, h]; exact hme
  · intro x y hx hy
    refine ⟨?_, ?_⟩
    · calc x + a * y < a + a * y := by omega
        _ = a * (y + 1) := by ring
        _ ≤ a * b := Nat.mul_le_mul_left a hy
        _ = P := h
    · simp only [Prod.mk.injEq]
      exact ⟨by rw [Nat.add_mul_mod_self_left, Nat.mod_eq_of_lt hx],
        by rw [Nat.add_mul_div_left _ _ ha, Nat.div_eq_of_lt hx, zero_add]⟩
  · intro me _
    rw [Nat.mod_add_div]

/-- Block `ip` contains `x` iff `ip` is this number. -/
theorem block_owner {n np : Nat} (hnp : 0 < np) {x : Int} (h0 : 0 ≤ x) (h1 : x < n) :
    ∃ ip < np, blockLo ip n np ≤ x ∧ x ≤ blockHi ip n np := by
  obtain ⟨x, rfl⟩ := Int.eq_ofNat_of_zero_le h0
  have hx : x < n := by exact_mod_cast h1
  have hn : 0 < n := by omega
  -- the largest ip with ip*n/np ≤ x
  refine ⟨(x * np + np - 1) / n, ?_, ?_, ?_⟩
  · rw [Nat.div_lt_iff_lt_mul hn]
    have : (x + 1) * np ≤ n * np := Nat.mul_le_mul_right np hx
    have e : (x + 1) * np = x * np + np := by ring
    have e2 : n * np = np * n := by ring
    omega
  · unfold blockLo
    have h2 : (x * np + np - 1) / n * n ≤ x * np + np - 1 := Nat.div_mul_le_self _ _
    have h3 : ((x * np + np - 1) / n * n) / np < x + 1 := by
      rw [Nat.div_lt_iff_lt_mul hnp]
      have e : (x + 1) * np = x * np + np := by ring
      omega
    exact_mod_cast (by omega : ((x * np + np - 1) / n * n) / np ≤ x)
  · unfold blockHi
    have h2 : x * np + np - 1 < n * ((x * np + np - 1) / n + 1) := Nat.lt_mul_div_succ _ hn
    have h3 : x + 1 ≤ (((x * np + np - 1) / n + 1) * n) / np := by
      rw [Nat.le_div_iff_mul_le hnp]
      have e : (x + 1) * np = x * np + np := by ring
      have e2 : ((x * np + np - 1) / n + 1) * n = n * ((x * np + np - 1) / n + 1) := by ring
      omega
    omega

theorem block_mono {n np : Nat} {a b : Nat} (h : a ≤ b) : a * n / np ≤ b * n / np :=
  Nat.div_le_div_right (Nat.mul_le_mul_right n h)

theorem block_disjoint {n np a b : Nat} {x : Int} (ha : blockLo a n np ≤ x ∧ x ≤ blockHi a n np)
    (hb : blockLo b n np ≤ x ∧ x ≤ blockHi b n np) : a = b := by
  unfold blockLo blockHi at ha hb
  by_contra hne
  rcases Nat.lt_or_gt_of_ne hne with h | h
  · have := block_mono (n := n) (np := np) (show a + 1 ≤ b from h); omega
  · have := block_mono (n := n) (np := np) (show b + 1 ≤ a from h); omega

theorem block_inside {n np a : Nat} (ha : a < np) {x : Int}
    (h : blockLo a n np ≤ x ∧ x ≤ blockHi a n np) : 0 ≤ x ∧ x < n := by
  unfold blockLo blockHi at h
  have h1 := block_mono (n := n) (np := np) (show a + 1 ≤ np from ha)
  have h2 : np * n / np = n := Nat.mul_div_cancel_left n (by omega)
  have h3 : (0 : Int) ≤ ((a * n / np : Nat) : Int) := Int.natCast_nonneg _
  generalize a * n / np = y at *
  generalize (a + 1) * n / np = z at *
  omega

/-- Block sizes are `⌊n/np⌋` or `⌊n/np⌋ + 1`. -/
theorem block_size {n np a : Nat} (hnp : 0 < np) :
    ((n / np : Nat) : Int) ≤ blockHi a n np - blockLo a n np + 1 ∧
      blockHi a n np - blockLo a n np + 1 ≤ ((n / np : Nat) : Int) + 1 := by
  unfold blockLo blockHi
  have e : (a + 1) * n = a * n + n := by ring
  rw [e]
  have h1 : a * n / np + n / np ≤ (a * n + n) / np := by
    rw [Nat.add_div hnp]; split_ifs <;> omega
  have h2 : (a * n + n) / np ≤ a * n / np + n / np + 1 := by
    rw [Nat.add_div hnp]; split_ifs <;> omega
  omega

theorem block_lo_le_hi {n np a : Nat} : blockLo a n np ≤ blockHi a n np + 1 := by
  unfold blockLo blockHi
  have := block_mono (n := n) (np := np) (show a ≤ a + 1 by omega)
  omega

end FftMpi
