import Verif.Driver
import Verif.KissBfly
import Verif.Fft3dStages
import Verif.Fft2dStages

/-!
# Lemmas on the loops of the test programs
-/

noncomputable section

namespace FftMpi

namespace Driver

/-- `fill` writes `tgt` into the first `2*n` elements and nothing else. -/
def Fills (n : Int) (fill : Mem ℝ → Option (Mem ℝ)) (tgt : Int → ℝ) : Prop :=
  ∀ w, accessible w 0 (2 * n) → fill w = some fun x => if 0 ≤ x ∧ x < 2 * n then some (tgt x) else w x

/-- `check` returns the largest distance between the first `2*n` elements and `tgt`. -/
def Checks (n : Int) (check : Mem ℝ → Option ℝ) (tgt : Int → ℝ) : Prop :=
  ∀ (w : Mem ℝ) (v : Int → ℝ), (∀ x, 0 ≤ x → x < 2 * n → w x = some (v x)) →
    ∃ eps, check w = some eps ∧ 0 ≤ eps ∧ (∀ x, 0 ≤ x → x < 2 * n → |v x - tgt x| ≤ eps) ∧
      (eps = 0 ∨ ∃ x, 0 ≤ x ∧ x < 2 * n ∧ eps = |v x - tgt x|)

theorem forN_neg {σ : Type} {n : Int} (h : n ≤ 0) (body : Int → σ → Option σ) (s : σ) : forN n body s = some s := by
  unfold forN
  rw [Int.toNat_of_nonpos h]
  rfl

theorem set_some {w : Mem ℝ} {a : Int} (h : (w a).isSome) (v : ℝ) :
    w.set a v = some (Function.update w a (some v)) := by
  unfold Mem.set
  rw [if_pos h]

/-- The partly filled array. -/
def filled (k : Int) (tgt : Int → ℝ) (w : Mem ℝ) : Mem ℝ := fun x => if 0 ≤ x ∧ x < k then some (tgt x) else w x

theorem filled_zero (tgt : Int → ℝ) (w : Mem ℝ) : filled 0 tgt w = w := by
  funext x
  unfold filled
  rw [if_neg (by omega)]

theorem filled_set {n : Int} {w : Mem ℝ} (hw : accessible w 0 n) {k : Nat} (hk : (k : Int) < n) (tgt : Int → ℝ) :
    (filled k tgt w).set k (tgt k) = some (filled ((k + 1 : Nat) : Int) tgt w) := by
  have h0 : (filled k tgt w (k : Int)).isSome := by
    unfold filled
    rw [if_neg (by omega)]
    exact hw k (by omega) (by omega)
  rw [set_some h0]
  congr 1
  funext x
  unfold filled Function.update
  push_cast
  by_cases hx : x = k
  · subst hx
    rw [dif_pos rfl, if_pos (by omega)]
  · rw [dif_neg hx]
    by_cases h1 : 0 ≤ x ∧ x < k
    · rw [if_pos h1, if_pos (by omega)]
    · rw [if_neg h1, if_neg (by omega)]

theorem fillZero_fills (n : Int) : Fills n (fillZero n) fun _ => 0 := by
  intro w hw
  unfold fillZero
  rcases le_or_gt n 0 with hn | hn
  · rw [forN_neg (by omega)]
    congr 1
    funext x
    rw [if_neg (by omega)]
  obtain ⟨N, hN⟩ := Int.eq_ofNat_of_zero_le (show 0 ≤ 2 * n by omega)
  obtain ⟨w', h1, h2⟩ := forN_inv (fun k (u : Mem ℝ) => u = filled k (fun _ => 0) w)
    (fun m w => w.set m 0) N w (filled_zero _ w).symm (by
      rintro k hk u rfl
      exact ⟨_, filled_set hw (by omega) (fun _ => 0), rfl⟩)
  rw [hN, h1, h2]
  rfl

/-- Values at even and odd places. -/
def pairTgt (val : Int → ℝ) (x : Int) : ℝ := if x % 2 = 0 then val (x / 2) else 0

theorem fillAt_fills {γ : Type} {n : Int} {pt : Int → Option γ} {val : γ → ℝ} {v : Int → ℝ}
    (hpt : ∀ m, 0 ≤ m → m < n → ∃ g, pt m = some g ∧ val g = v m) :
    Fills n (fillAt n pt val) (pairTgt v) := by
  intro w hw
  unfold fillAt
  rcases le_or_gt n 0 with hn | hn
  · rw [forN_neg (by omega)]
    congr 1
    funext x
    rw [if_neg (by omega)]
  obtain ⟨N, rfl⟩ := Int.eq_ofNat_of_zero_le hn.le
  obtain ⟨w', h1, h2⟩ := forN_inv (fun k (u : Mem ℝ) => u = filled ((2 * k : Nat) : Int) (pairTgt v) w)
    (fun m w => (pt m).bind fun g => (w.set (2 * m) (val g)).bind fun w => w.set (2 * m + 1) 0) N w
    (filled_zero _ w).symm (by
      rintro k hk u rfl
      obtain ⟨g, hg, hv⟩ := hpt k (by omega) (by exact_mod_cast hk)
      refine ⟨_, ?_, rfl⟩
      have e1 : pairTgt v ((2 * k : Nat) : Int) = val g := by
        unfold pairTgt
        rw [if_pos (by omega), hv]
        congr 1
        omega
      have e2 : pairTgt v ((2 * k + 1 : Nat) : Int) = 0 := by
        unfold pairTgt
        rw [if_neg (by omega)]
      have s1 := filled_set hw (k := 2 * k) (by omega) (pairTgt v)
      have s2 := filled_set hw (k := 2 * k + 1) (by omega) (pairTgt v)
      rw [e1] at s1
      rw [e2] at s2
      simp only [hg, Option.bind_some]
      push_cast at s1 s2 ⊢
      rw [s1, Option.bind_some, s2]
      rfl)
  rw [show forN (N : Int) _ w = some w' from h1, h2]
  unfold filled
  push_cast
  rfl

/-! ## Comparing -/

theorem worse_eq (d e : ℝ) : worse d e = max d e := by
  unfold worse
  split_ifs with h
  · exact (max_eq_left (le_of_lt h)).symm
  · exact (max_eq_right (not_lt.mp h)).symm

/-- The maximum over the first `k` elements. -/
structure UpTo (k : Int) (v tgt : Int → ℝ) (eps : ℝ) : Prop where
  pos : 0 ≤ eps
  le : ∀ x, 0 ≤ x → x < k → |v x - tgt x| ≤ eps
  mem : eps = 0 ∨ ∃ x, 0 ≤ x ∧ x < k ∧ eps = |v x - tgt x|

theorem UpTo.zero (v tgt : Int → ℝ) : UpTo 0 v tgt 0 :=
  ⟨le_rfl, fun x h0 h1 => absurd h1 (by omega), Or.inl rfl⟩

theorem UpTo.next {k : Nat} {v tgt : Int → ℝ} {eps : ℝ} (h : UpTo k v tgt eps) :
    UpTo ((k + 1 : Nat) : Int) v tgt (worse |v k - tgt k| eps) := by
  rw [worse_eq]
  refine ⟨le_max_of_le_right h.pos, ?_, ?_⟩
  · intro x h0 h1
    by_cases hx : x = k
    · subst hx; exact le_max_left _ _
    · exact le_max_of_le_right (h.le x h0 (by push_cast at h1; omega))
  · rcases max_choice |v k - tgt k| eps with hm | hm
    · rw [hm]
      exact Or.inr ⟨k, by omega, by push_cast; omega, rfl⟩
    · rw [hm]
      rcases h.mem with h1 | ⟨x, h1, h2, h3⟩
      · exact Or.inl h1
      · exact Or.inr ⟨x, h1, by push_cast; omega, h3⟩

theorem UpTo.checks {k n : Int} (hk : k = 2 * n ∨ (k = 0 ∧ n ≤ 0)) {v tgt : Int → ℝ} {eps : ℝ} (h : UpTo k v tgt eps) :
    0 ≤ eps ∧ (∀ x, 0 ≤ x → x < 2 * n → |v x - tgt x| ≤ eps) ∧
      (eps = 0 ∨ ∃ x, 0 ≤ x ∧ x < 2 * n ∧ eps = |v x - tgt x|) := by
  rcases hk with rfl | ⟨rfl, hn⟩
  · exact ⟨h.pos, h.le, h.mem⟩
  · refine ⟨h.pos, fun x h0 h1 => by omega, ?_⟩
    rcases h.mem with h1 | ⟨x, h1, h2, h3⟩
    · exact Or.inl h1
    · omega

theorem checkZero_checks (n : Int) : Checks n (checkZero n) fun _ => 0 := by
  intro w v hw
  unfold checkZero
  rcases le_or_gt n 0 with hn | hn
  · rw [forN_neg (by omega)]
    exact ⟨0, rfl, (UpTo.zero v _).checks (Or.inr ⟨rfl, hn⟩)⟩
  obtain ⟨N, hN⟩ := Int.eq_ofNat_of_zero_le (show 0 ≤ 2 * n by omega)
  obtain ⟨e, h1, h2⟩ := forN_inv (fun k (e : ℝ) => UpTo k v (fun _ => 0) e)
    (fun m eps => (w m).map fun x => worse |x| eps) N 0 (UpTo.zero v _) (by
      intro k hk e he
      rw [hw k (by omega) (by omega)]
      refine ⟨_, rfl, ?_⟩
      have := he.next
      simpa using this)
  refine ⟨e, by rw [hN]; exact h1, ?_⟩
  exact h2.checks (Or.inl hN.symm)

theorem checkAt_checks {γ : Type} {n : Int} {pt : Int → Option γ} {val : γ → ℝ} {v : Int → ℝ}
    (hpt : ∀ m, 0 ≤ m → m < n → ∃ g, pt m = some g ∧ val g = v m) :
    Checks n (checkAt n pt val) (pairTgt v) := by
  intro w u hw
  unfold checkAt
  rcases le_or_gt n 0 with hn | hn
  · rw [forN_neg (by omega)]
    exact ⟨0, rfl, (UpTo.zero u _).checks (Or.inr ⟨rfl, hn⟩)⟩
  obtain ⟨N, rfl⟩ := Int.eq_ofNat_of_zero_le hn.le
  obtain ⟨e, h1, h2⟩ := forN_inv (fun k (e : ℝ) => UpTo ((2 * k : Nat) : Int) u (pairTgt v) e)
    (fun m eps => (pt m).bind fun g => (w (2 * m)).bind fun x => (w (2 * m + 1)).map fun y =>
      worse |y| (worse |x - val g| eps)) N 0 (UpTo.zero u _) (by
      intro k hk e he
      obtain ⟨g, hg, hv⟩ := hpt k (by omega) (by exact_mod_cast hk)
      have e1 : pairTgt v ((2 * k : Nat) : Int) = val g := by
        unfold pairTgt
        rw [if_pos (by omega), hv]
        congr 1
        omega
      have e2 : pairTgt v ((2 * k + 1 : Nat) : Int) = 0 := by
        unfold pairTgt
        rw [if_neg (by omega)]
      rw [hg, Option.bind_some, hw _ (by omega) (by omega), Option.bind_some, hw _ (by omega) (by omega)]
      refine ⟨_, rfl, ?_⟩
      have s2 := he.next.next
      rw [e1, e2, sub_zero] at s2
      push_cast at s2 ⊢
      exact s2)
  refine ⟨e, h1, h2.checks (Or.inl ?_)⟩
  push_cast
  rfl

/-! ## Random numbers -/

variable (rnd : ℝ → ℝ)

/-- The seed after `k` calls. -/
def seedAfter (seed : Int) (k : Nat) : Int := 16807 ^ k * seed % 2147483647

/-- One call of `random`: no overflow, and the seed is that of a multiplicative generator. -/
theorem random_eq {seed : Int} (h0 : 0 ≤ seed) (h1 : seed ≤ 2147483647) :
    random rnd seed = some (16807 * seed % 2147483647, rnd (rnd (1 / 2147483647) * (16807 * seed % 2147483647 : Int))) := by
  have ht : seed.tdiv 127773 = seed / 127773 := Int.tdiv_eq_ediv_of_nonneg h0
  unfold random
  simp only [ht]
  have hk0 : 0 ≤ seed / 127773 := by omega
  have hk1 : seed / 127773 ≤ 16807 := by omega
  have hr := Int.emod_add_mul_ediv seed 127773
  have hr0 : 0 ≤ seed % 127773 := by omega
  have hr1 : seed % 127773 < 127773 := by omega
  set k := seed / 127773 with hk
  set r := seed % 127773 with hr'
  have f1 : mul32 k 127773 = some (k * 127773) := ck_eq (by unfold Fits; constructor <;> omega)
  rw [f1, Option.bind_some]
  have f2 : sub32 seed (k * 127773) = some r := by
    rw [show r = seed - k * 127773 by omega]
    exact ck_eq (by unfold Fits; constructor <;> omega)
  rw [f2, Option.bind_some]
  have f3 : mul32 16807 r = some (16807 * r) := ck_eq (by unfold Fits; constructor <;> omega)
  rw [f3, Option.bind_some]
  have f4 : mul32 2836 k = some (2836 * k) := ck_eq (by unfold Fits; constructor <;> omega)
  rw [f4, Option.bind_some]
  have f5 : sub32 (16807 * r) (2836 * k) = some (16807 * r - 2836 * k) :=
    ck_eq (by unfold Fits; constructor <;> omega)
  rw [f5, Option.bind_some]
  by_cases hs : 16807 * r - 2836 * k < 0
  · rw [if_pos hs]
    have f6 : add32 (16807 * r - 2836 * k) 2147483647 = some (16807 * r - 2836 * k + 2147483647) :=
      ck_eq (by unfold Fits; constructor <;> omega)
    rw [f6, Option.map_some]
    have e : 16807 * r - 2836 * k + 2147483647 = 16807 * seed % 2147483647 := by omega
    rw [e]
  · rw [if_neg hs, Option.map_some]
    have e : 16807 * r - 2836 * k = 16807 * seed % 2147483647 := by omega
    rw [e]

theorem seedAfter_succ (seed : Int) (k : Nat) : 16807 * seedAfter seed k % 2147483647 = seedAfter seed (k + 1) := by
  unfold seedAfter
  rw [Int.mul_emod, Int.emod_emod_of_dvd _ (dvd_refl _), ← Int.mul_emod, pow_succ]
  congr 1
  ring

theorem seedAfter_range (seed : Int) (k : Nat) : 0 ≤ seedAfter seed k ∧ seedAfter seed k < 2147483647 :=
  ⟨Int.emod_nonneg _ (by norm_num), Int.emod_lt_of_pos _ (by norm_num)⟩

/-- The numbers in the array. -/
def randTgt (seed : Int) (x : Int) : ℝ := rnd (rnd (1 / 2147483647) * (seedAfter seed (x.toNat + 1) : Int))

/-- The seed inside the loop: the first one may be `2^31-1`. -/
def seedAt (seed : Int) (k : Nat) : Int := if k = 0 then seed else seedAfter seed k

theorem random_seedAt {seed : Int} (h0 : 0 ≤ seed) (h1 : seed ≤ 2147483647) (k : Nat) :
    random rnd (seedAt seed k) = some (seedAt seed (k + 1), randTgt rnd seed k) := by
  unfold seedAt randTgt
  rw [if_neg (Nat.succ_ne_zero k)]
  by_cases hk : k = 0
  · subst hk
    rw [if_pos rfl, random_eq rnd h0 h1]
    have : 16807 * seed % 2147483647 = seedAfter seed 1 := by unfold seedAfter; rw [pow_one]
    simp [this]
  · rw [if_neg hk, random_eq rnd (seedAfter_range seed k).1 (by have := (seedAfter_range seed k).2; omega),
      seedAfter_succ]
    simp

theorem fillRandom_fills {seed : Int} (h0 : 0 ≤ seed) (h1 : seed ≤ 2147483647) (n : Int) :
    Fills n (fillRandom rnd n seed) (randTgt rnd seed) := by
  intro w hw
  unfold fillRandom
  rcases le_or_gt n 0 with hn | hn
  · rw [forN_neg (by omega)]
    simp only [Option.map_some]
    congr 1
    funext x
    rw [if_neg (by omega)]
  obtain ⟨N, hN⟩ := Int.eq_ofNat_of_zero_le (show 0 ≤ 2 * n by omega)
  obtain ⟨w', k1, k2⟩ := forN_inv (fun k (u : Int × Mem ℝ) => u = (seedAt seed k, filled k (randTgt rnd seed) w))
    (fun m (s : Int × Mem ℝ) => (random rnd s.1).bind fun p => (s.2.set m p.2).map fun w => (p.1, w)) N (seed, w)
    (by rw [Nat.cast_zero, filled_zero]; rfl) (by
      rintro k hk u rfl
      refine ⟨_, ?_, rfl⟩
      simp only [random_seedAt rnd h0 h1, Option.bind_some]
      rw [filled_set hw (by omega) (randTgt rnd seed)]
      rfl)
  rw [hN, k1, k2]
  rfl

theorem checkRandom_checks {seed : Int} (h0 : 0 ≤ seed) (h1 : seed ≤ 2147483647) (n : Int) :
    Checks n (checkRandom rnd n seed) (randTgt rnd seed) := by
  intro w v hw
  unfold checkRandom
  rcases le_or_gt n 0 with hn | hn
  · rw [forN_neg (by omega)]
    exact ⟨0, rfl, (UpTo.zero v _).checks (Or.inr ⟨rfl, hn⟩)⟩
  obtain ⟨N, hN⟩ := Int.eq_ofNat_of_zero_le (show 0 ≤ 2 * n by omega)
  obtain ⟨e, k1, k2⟩ := forN_inv (fun k (e : Int × ℝ) => e.1 = seedAt seed k ∧ UpTo k v (randTgt rnd seed) e.2)
    (fun m (s : Int × ℝ) => (random rnd s.1).bind fun p => (w m).map fun x => (p.1, worse |x - p.2| s.2)) N (seed, 0)
    ⟨rfl, UpTo.zero v _⟩ (by
      rintro k hk ⟨s, e⟩ ⟨rfl, he⟩
      simp only [random_seedAt rnd h0 h1, Option.bind_some]
      rw [hw k (by omega) (by omega)]
      exact ⟨_, rfl, rfl, he.next⟩)
  refine ⟨e.2, by rw [hN, k1]; rfl, ?_⟩
  exact k2.2.checks (Or.inl hN.symm)

/-! ## Points of a box -/

theorem nfft3_eq {b : Box3} (h : b.Proper) : nfft3 b = b.count := by
  obtain ⟨h1, h2, h3⟩ := h
  unfold nfft3 Box3.count
  rw [max_eq_left h1, max_eq_left h2, max_eq_left h3]

theorem nfft2_eq {b : Box2} (h : b.Proper) : nfft2 b = b.count := by
  obtain ⟨h1, h2⟩ := h
  unfold nfft2 Box2.count
  rw [max_eq_left h1, max_eq_left h2]

/-- The indices computed from the place are those of the point stored there. -/
theorem point3_addr {b : Box3} {i j k : Int} (h : b.Has i j k) : point3 b (addr3 0 b 1 i j k 0) = some (i, j, k) := by
  obtain ⟨hi, hj, hk⟩ := h
  have hI : 0 < b.isize := by unfold Box3.isize; omega
  have hJ : 0 < b.jsize := by unfold Box3.jsize; omega
  unfold point3
  rw [if_neg (by omega)]
  have e : addr3 0 b 1 i j k 0 = ((k - b.klo) * b.jsize + (j - b.jlo)) * b.isize + (i - b.ilo) := by
    unfold addr3
    rw [if_pos rfl]
    ring
  rw [e]
  have i0 : 0 ≤ i - b.ilo := by omega
  have i1 : i - b.ilo < b.isize := by unfold Box3.isize; omega
  have j0 : 0 ≤ j - b.jlo := by omega
  have j1 : j - b.jlo < b.jsize := by unfold Box3.jsize; omega
  have k0 : 0 ≤ k - b.klo := by omega
  set x := i - b.ilo with hx
  set y := j - b.jlo with hy
  set z := k - b.klo with hz
  have p1 : 0 ≤ z * b.jsize + y := by positivity
  have p2 : 0 ≤ (z * b.jsize + y) * b.isize + x := by positivity
  have d1 : ((z * b.jsize + y) * b.isize + x) / b.isize = z * b.jsize + y := by
    rw [add_comm, Int.add_mul_ediv_right _ _ hI.ne', Int.ediv_eq_zero_of_lt i0 i1, zero_add]
  have m1 : ((z * b.jsize + y) * b.isize + x) % b.isize = x := by
    rw [add_comm, Int.add_mul_emod_self_right, Int.emod_eq_of_lt i0 i1]
  have d2 : (z * b.jsize + y) / b.jsize = z := by
    rw [add_comm, Int.add_mul_ediv_right _ _ hJ.ne', Int.ediv_eq_zero_of_lt j0 j1, zero_add]
  have m2 : (z * b.jsize + y) % b.jsize = y := by
    rw [add_comm, Int.add_mul_emod_self_right, Int.emod_eq_of_lt j0 j1]
  rw [Int.tmod_eq_emod_of_nonneg p2, Int.tdiv_eq_ediv_of_nonneg p2, Int.tdiv_eq_ediv_of_nonneg p2,
    m1, d1, Int.tmod_eq_emod_of_nonneg p1, m2, ← Int.ediv_ediv_of_nonneg hI.le, d1, d2]
  congr 2
  · omega
  · rw [Prod.mk.injEq]; omega

theorem point2_addr {b : Box2} {i j : Int} (h : b.Has i j) : point2 b (addr2 0 b 1 i j 0) = some (i, j) := by
  obtain ⟨hi, hj⟩ := h
  have hI : 0 < b.isize := by unfold Box2.isize; omega
  unfold point2
  rw [if_neg (by omega)]
  have e : addr2 0 b 1 i j 0 = (j - b.jlo) * b.isize + (i - b.ilo) := by
    unfold addr2
    rw [if_pos rfl]
    ring
  rw [e]
  have i0 : 0 ≤ i - b.ilo := by omega
  have i1 : i - b.ilo < b.isize := by unfold Box2.isize; omega
  have j0 : 0 ≤ j - b.jlo := by omega
  set x := i - b.ilo with hx
  set y := j - b.jlo with hy
  have p1 : 0 ≤ y * b.isize + x := by positivity
  rw [Int.tmod_eq_emod_of_nonneg p1, Int.tdiv_eq_ediv_of_nonneg p1, add_comm (y * b.isize),
    Int.add_mul_ediv_right _ _ hI.ne', Int.ediv_eq_zero_of_lt i0 i1, zero_add,
    Int.add_mul_emod_self_right, Int.emod_eq_of_lt i0 i1]
  rw [Option.some.injEq, Prod.mk.injEq]
  omega

/-- Every place below the number of points belongs to a point. -/
theorem point3_ok {b : Box3} (hb : b.Proper) {m : Int} (h0 : 0 ≤ m) (h1 : m < nfft3 b) :
    ∃ i j k, b.Has i j k ∧ addr3 0 b 1 i j k 0 = m ∧ point3 b m = some (i, j, k) := by
  rw [nfft3_eq hb] at h1
  obtain ⟨i, j, k, q, hh, hq, he⟩ := addr_of_lt (p := 0) (b := b) (x := 2 * m) (by omega) (by omega)
  rw [addr3_two] at he
  have e1 : addr3 0 b 1 i j k 0 = m := by omega
  exact ⟨i, j, k, hh, e1, by rw [← e1]; exact point3_addr hh⟩

theorem point2_ok {b : Box2} (hb : b.Proper) {m : Int} (h0 : 0 ≤ m) (h1 : m < nfft2 b) :
    ∃ i j, b.Has i j ∧ addr2 0 b 1 i j 0 = m ∧ point2 b m = some (i, j) := by
  rw [nfft2_eq hb, ← Box2.lift_count] at h1
  obtain ⟨i, j, k, q, hh, hq, he⟩ := addr_of_lt (p := 0) (b := b.lift) (x := 2 * m) (by omega) (by omega)
  rw [addr3_two] at he
  obtain ⟨hh', rfl⟩ := Box2.lift_has.mp hh
  rw [addr2_lift (Or.inl rfl)] at he
  have e1 : addr2 0 b 1 i j 0 = m := by omega
  exact ⟨i, j, hh', e1, by rw [← e1]; exact point2_addr hh'⟩

end Driver

end FftMpi
