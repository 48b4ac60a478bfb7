import Verif.DriverFl
import Verif.DriverRun
import Verif.PropsL22

/-!
# The loops of the test programs with rounding
-/

noncomputable section

namespace FftMpi

namespace Driver

variable {ar : Arith} {rnd : ℝ → ℝ}

/-! ## Storing and comparing -/

/-- `fill` writes the numbers `tgt`, exact or converted. -/
def FillsFl (ar : Arith) (n : Int) (fill : Mem ℝ → Option (Mem ℝ)) (tgt : Int → ℝ) : Prop :=
  ∃ s, (∀ x, s x = tgt x ∨ s x = ar.conv (tgt x)) ∧ Fills n fill s

/-- `check` returns the largest distance to `tgt`, where the distances are exact or computed by `dsub`. -/
def ChecksFl (ar : Arith) (n : Int) (check : Mem ℝ → Option ℝ) (tgt : Int → ℝ) : Prop :=
  ∀ (w : Mem ℝ) (v : Int → ℝ), (∀ x, 0 ≤ x → x < 2 * n → w x = some (v x)) →
    ∃ (d : Int → ℝ) (eps : ℝ), (∀ x, d x = |v x - tgt x| ∨ d x = |ar.dsub (v x) (tgt x)|) ∧ check w = some eps ∧
      0 ≤ eps ∧ (∀ x, 0 ≤ x → x < 2 * n → d x ≤ eps) ∧ (eps = 0 ∨ ∃ x, 0 ≤ x ∧ x < 2 * n ∧ eps = d x)

theorem Checks.fl {n : Int} {check : Mem ℝ → Option ℝ} {tgt : Int → ℝ} (h : Checks n check tgt) :
    ChecksFl ar n check tgt := by
  intro w v hw
  obtain ⟨eps, h1, h2, h3, h4⟩ := h w v hw
  exact ⟨fun x => |v x - tgt x|, eps, fun x => Or.inl rfl, h1, h2, h3, h4⟩

theorem fillRandomFl_fills {seed : Int} (h0 : 0 ≤ seed) (h1 : seed ≤ 2147483647) (n : Int) :
    Fills n (fillRandomFl ar rnd n seed) (fun x => ar.conv (randTgt rnd seed x)) := by
  intro w hw
  unfold fillRandomFl
  rcases le_or_gt n 0 with hn | hn
  · rw [forN_neg (by omega)]
    simp only [Option.map_some]
    congr 1
    funext x
    rw [if_neg (by omega)]
  obtain ⟨N, hN⟩ := Int.eq_ofNat_of_zero_le (show 0 ≤ 2 * n by omega)
  obtain ⟨w', k1, k2⟩ := forN_inv (fun k (u : Int × Mem ℝ) =>
      u = (seedAt seed k, filled k (fun x => ar.conv (randTgt rnd seed x)) w))
    (fun m (s : Int × Mem ℝ) => (random rnd s.1).bind fun p => (s.2.set m (ar.conv p.2)).map fun w => (p.1, w)) N
    (seed, w) (by rw [Nat.cast_zero, filled_zero]; rfl) (by
      rintro k hk u rfl
      refine ⟨_, ?_, rfl⟩
      simp only [random_seedAt rnd h0 h1, Option.bind_some]
      rw [filled_set hw (by omega) (fun x => ar.conv (randTgt rnd seed x))]
      rfl)
  rw [hN, k1, k2]
  rfl

/-- The maximum of nonnegative numbers. -/
theorem UpTo.toFl {k n : Int} (hk : k = 2 * n ∨ (k = 0 ∧ n ≤ 0)) {d : Int → ℝ} (hd : ∀ x, 0 ≤ d x) {eps : ℝ}
    (h : UpTo k d (fun _ => 0) eps) :
    0 ≤ eps ∧ (∀ x, 0 ≤ x → x < 2 * n → d x ≤ eps) ∧ (eps = 0 ∨ ∃ x, 0 ≤ x ∧ x < 2 * n ∧ eps = d x) := by
  have e : ∀ x, |d x - 0| = d x := fun x => by rw [sub_zero, abs_of_nonneg (hd x)]
  have := h.checks hk
  simpa only [e] using this

theorem UpTo.nextFl {k : Nat} {d : Int → ℝ} (hd : ∀ x, 0 ≤ d x) {eps : ℝ} (h : UpTo k d (fun _ => 0) eps) :
    UpTo ((k + 1 : Nat) : Int) d (fun _ => 0) (worse (d k) eps) := by
  have := h.next
  rwa [sub_zero, abs_of_nonneg (hd k)] at this

theorem checkAtFl_checks {γ : Type} {n : Int} {pt : Int → Option γ} {val : γ → ℝ} {v : Int → ℝ}
    (hpt : ∀ m, 0 ≤ m → m < n → ∃ g, pt m = some g ∧ val g = v m) :
    ChecksFl ar n (checkAtFl ar n pt val) (pairTgt v) := by
  intro w u hw
  set d : Int → ℝ := fun x => if x % 2 = 0 then |ar.dsub (u x) (pairTgt v x)| else |u x - pairTgt v x| with hdd
  have hd : ∀ x, 0 ≤ d x := by
    intro x
    rw [hdd]
    dsimp only
    split_ifs <;> exact abs_nonneg _
  have hor : ∀ x, d x = |u x - pairTgt v x| ∨ d x = |ar.dsub (u x) (pairTgt v x)| := by
    intro x
    rw [hdd]
    dsimp only
    split_ifs
    · exact Or.inr rfl
    · exact Or.inl rfl
  unfold checkAtFl
  rcases le_or_gt n 0 with hn | hn
  · rw [forN_neg (by omega)]
    exact ⟨d, 0, hor, rfl, (UpTo.zero d _).toFl (Or.inr ⟨rfl, hn⟩) hd⟩
  obtain ⟨N, rfl⟩ := Int.eq_ofNat_of_zero_le hn.le
  obtain ⟨e, h1, h2⟩ := forN_inv (fun k (e : ℝ) => UpTo ((2 * k : Nat) : Int) d (fun _ => 0) e)
    (fun m eps => (pt m).bind fun g => (w (2 * m)).bind fun x => (w (2 * m + 1)).map fun y =>
      worse |y| (worse |ar.dsub x (val g)| eps)) N 0 (UpTo.zero d _) (by
      intro k hk e he
      obtain ⟨g, hg, hv⟩ := hpt k (by omega) (by exact_mod_cast hk)
      have e1 : d ((2 * k : Nat) : Int) = |ar.dsub (u ((2 * k : Nat) : Int)) (val g)| := by
        have h : pairTgt v ((2 * k : Nat) : Int) = val g := by
          unfold pairTgt
          rw [if_pos (by omega), hv]
          congr 1
          omega
        rw [hdd]
        dsimp only
        rw [if_pos (by omega), h]
      have e2 : d ((2 * k + 1 : Nat) : Int) = |u ((2 * k + 1 : Nat) : Int)| := by
        have h : pairTgt v ((2 * k + 1 : Nat) : Int) = 0 := by
          unfold pairTgt
          rw [if_neg (by omega)]
        rw [hdd]
        dsimp only
        rw [if_neg (by omega), h, sub_zero]
      rw [hg, Option.bind_some, hw _ (by omega) (by omega), Option.bind_some, hw _ (by omega) (by omega)]
      refine ⟨_, rfl, ?_⟩
      have s2 := (he.nextFl hd).nextFl hd
      rw [e1, e2] at s2
      push_cast at s2 ⊢
      exact s2)
  refine ⟨d, e, hor, h1, h2.toFl (Or.inl ?_) hd⟩
  push_cast
  rfl

theorem checkRandomFl_checks {seed : Int} (h0 : 0 ≤ seed) (h1 : seed ≤ 2147483647) (n : Int) :
    ChecksFl ar n (checkRandomFl ar rnd n seed) (randTgt rnd seed) := by
  intro w v hw
  set d : Int → ℝ := fun x => |ar.dsub (v x) (randTgt rnd seed x)| with hdd
  have hd : ∀ x, 0 ≤ d x := fun x => abs_nonneg _
  unfold checkRandomFl
  rcases le_or_gt n 0 with hn | hn
  · rw [forN_neg (by omega)]
    exact ⟨d, 0, fun x => Or.inr rfl, rfl, (UpTo.zero d _).toFl (Or.inr ⟨rfl, hn⟩) hd⟩
  obtain ⟨N, hN⟩ := Int.eq_ofNat_of_zero_le (show 0 ≤ 2 * n by omega)
  obtain ⟨e, k1, k2⟩ := forN_inv (fun k (e : Int × ℝ) => e.1 = seedAt seed k ∧ UpTo k d (fun _ => 0) e.2)
    (fun m (s : Int × ℝ) => (random rnd s.1).bind fun p => (w m).map fun x => (p.1, worse |ar.dsub x p.2| s.2)) N
    (seed, 0) ⟨rfl, UpTo.zero d _⟩ (by
      rintro k hk ⟨s, e⟩ ⟨rfl, he⟩
      simp only [random_seedAt rnd h0 h1, Option.bind_some]
      rw [hw k (by omega) (by omega)]
      exact ⟨_, rfl, rfl, he.nextFl hd⟩)
  refine ⟨d, e.2, fun x => Or.inr rfl, by rw [hN, k1]; rfl, ?_⟩
  exact k2.2.toFl (Or.inl hN.symm) hd

theorem pair_conv {γ : Type} (pt : Int → Option γ) (val : γ → ℝ) (x : Int) :
    pairTgt (fun m => ((pt m).map fun g => ar.conv (val g)).getD 0) x = pairTgt (fun m => ((pt m).map val).getD 0) x ∨
    pairTgt (fun m => ((pt m).map fun g => ar.conv (val g)).getD 0) x =
      ar.conv (pairTgt (fun m => ((pt m).map val).getD 0) x) := by
  unfold pairTgt
  split_ifs
  · dsimp only
    cases pt (x / 2) with
    | none => exact Or.inl rfl
    | some g => exact Or.inr rfl
  · exact Or.inl rfl

theorem Opt3.initializeFl_fills {o : Opt3} {me : Nat} {b : Box3} (hb : b.Proper) (hs : SeedOk o.iflag me) :
    FillsFl ar (nfft3 b) (o.initializeFl ar rnd me b) (o.start rnd me b) := by
  have hpt : ∀ (val : Int × Int × Int → ℝ) (m : Int), 0 ≤ m → m < nfft3 b →
      ∃ g, point3 b m = some g ∧ val g = ((point3 b m).map val).getD 0 := by
    intro val m h0 h1
    obtain ⟨i, j, k, _, _, hp⟩ := point3_ok hb h0 h1
    exact ⟨_, hp, by rw [hp]; rfl⟩
  unfold Opt3.initializeFl Opt3.start
  rcases hi : o.iflag with _ | _ | _ | n
  · exact ⟨_, fun x => Or.inl rfl, fillZero_fills _⟩
  · exact ⟨_, pair_conv _ _, fillAt_fills (hpt _)⟩
  · exact ⟨_, pair_conv _ _, fillAt_fills (hpt _)⟩
  · exact ⟨_, fun x => Or.inr rfl, fillRandomFl_fills (hs n hi).1 (hs n hi).2 _⟩

theorem Opt3.validateFl_checks {o : Opt3} {me : Nat} {b : Box3} (hb : b.Proper) (hs : SeedOk o.iflag me) :
    ChecksFl ar (nfft3 b) (o.validateFl ar rnd me b) (o.start rnd me b) := by
  have hpt : ∀ (val : Int × Int × Int → ℝ) (m : Int), 0 ≤ m → m < nfft3 b →
      ∃ g, point3 b m = some g ∧ val g = ((point3 b m).map val).getD 0 := by
    intro val m h0 h1
    obtain ⟨i, j, k, _, _, hp⟩ := point3_ok hb h0 h1
    exact ⟨_, hp, by rw [hp]; rfl⟩
  unfold Opt3.validateFl Opt3.start
  rcases hi : o.iflag with _ | _ | _ | n
  · exact (checkZero_checks _).fl
  · exact checkAtFl_checks (hpt _)
  · exact checkAtFl_checks (hpt _)
  · exact checkRandomFl_checks (hs n hi).1 (hs n hi).2 _

theorem Opt2.initializeFl_fills {o : Opt2} {me : Nat} {b : Box2} (hb : b.Proper) (hs : SeedOk o.iflag me) :
    FillsFl ar (nfft2 b) (o.initializeFl ar rnd me b) (o.start rnd me b) := by
  have hpt : ∀ (val : Int × Int → ℝ) (m : Int), 0 ≤ m → m < nfft2 b →
      ∃ g, point2 b m = some g ∧ val g = ((point2 b m).map val).getD 0 := by
    intro val m h0 h1
    obtain ⟨i, j, _, _, hp⟩ := point2_ok hb h0 h1
    exact ⟨_, hp, by rw [hp]; rfl⟩
  unfold Opt2.initializeFl Opt2.start
  rcases hi : o.iflag with _ | _ | _ | n
  · exact ⟨_, fun x => Or.inl rfl, fillZero_fills _⟩
  · exact ⟨_, pair_conv _ _, fillAt_fills (hpt _)⟩
  · exact ⟨_, pair_conv _ _, fillAt_fills (hpt _)⟩
  · exact ⟨_, fun x => Or.inr rfl, fillRandomFl_fills (hs n hi).1 (hs n hi).2 _⟩

theorem Opt2.validateFl_checks {o : Opt2} {me : Nat} {b : Box2} (hb : b.Proper) (hs : SeedOk o.iflag me) :
    ChecksFl ar (nfft2 b) (o.validateFl ar rnd me b) (o.start rnd me b) := by
  have hpt : ∀ (val : Int × Int → ℝ) (m : Int), 0 ≤ m → m < nfft2 b →
      ∃ g, point2 b m = some g ∧ val g = ((point2 b m).map val).getD 0 := by
    intro val m h0 h1
    obtain ⟨i, j, _, _, hp⟩ := point2_ok hb h0 h1
    exact ⟨_, hp, by rw [hp]; rfl⟩
  unfold Opt2.validateFl Opt2.start
  rcases hi : o.iflag with _ | _ | _ | n
  · exact (checkZero_checks _).fl
  · exact checkAtFl_checks (hpt _)
  · exact checkAtFl_checks (hpt _)
  · exact checkRandomFl_checks (hs n hi).1 (hs n hi).2 _

/-! ## Size of the data -/

/-- The random numbers are between 0 and 1. -/
theorem randTgt_range (R : Rounding rnd) (seed x : Int) : 0 ≤ randTgt rnd seed x ∧ randTgt rnd seed x ≤ 1 := by
  obtain ⟨h0, h1⟩ := seedAfter_range seed (x.toNat + 1)
  unfold randTgt
  set s := seedAfter seed (x.toNat + 1)
  have r0 : rnd 0 = 0 := by simpa using R.int 0 (by norm_num)
  have r1 : rnd 1 = 1 := by simpa using R.int 1 (by norm_num)
  have k := R.rel (1 / 2147483647) (by norm_num) (by norm_num)
  rw [abs_le] at k
  have s0 : (0 : ℝ) ≤ (s : ℝ) := by exact_mod_cast h0
  have s1 : (s : ℝ) ≤ 2147483646 := by exact_mod_cast (show s ≤ 2147483646 by omega)
  have a0 : 0 ≤ rnd (1 / 2147483647) := by
    rw [← r0]
    exact R.mono (by norm_num)
  have a1 : rnd (1 / 2147483647) ≤ 1 / 2147483647 * (1 + 1 / 2 ^ 53) := by
    have := k.2
    linarith
  refine ⟨?_, ?_⟩
  · calc (0 : ℝ) = rnd 0 := r0.symm
      _ ≤ _ := R.mono (by positivity)
  · refine le_trans (R.mono ?_) r1.le
    calc rnd (1 / 2147483647) * (s : ℝ) ≤ 1 / 2147483647 * (1 + 1 / 2 ^ 53) * 2147483646 := by gcongr
      _ ≤ 1 := by norm_num

theorem pair_le {γ : Type} {pt : Int → Option γ} {val : γ → ℝ} {V : ℝ} (h0 : 0 ≤ V) {x : Int}
    (h : ∀ g, pt (x / 2) = some g → |val g| ≤ V) : |pairTgt (fun m => ((pt m).map val).getD 0) x| ≤ V := by
  unfold pairTgt
  split_ifs
  · dsimp only
    cases hp : pt (x / 2) with
    | none => simpa using h0
    | some g => exact h g hp
  · simpa using h0

/-! ## Sizes after several passes -/

/-- Bound of the norm of the exact numbers after `n` passes. -/
def grown (N tiny B : ℝ) : Nat → ℝ
  | 0 => B
  | n + 1 => grown N tiny B n * (1 + N * tiny) + Real.sqrt N * (2 * tiny)

theorem grown_nonneg {N tiny B : ℝ} (hN : 0 ≤ N) (ht : 0 ≤ tiny) (hB : 0 ≤ B) (n : Nat) : 0 ≤ grown N tiny B n := by
  induction n with
  | zero => exact hB
  | succ n ih =>
    unfold grown
    positivity

theorem grown_mono {N tiny B : ℝ} (hN : 0 ≤ N) (ht : 0 ≤ tiny) (hB : 0 ≤ B) (n : Nat) :
    grown N tiny B n ≤ grown N tiny B (n + 1) := by
  have h := grown_nonneg hN ht hB n
  have e : grown N tiny B (n + 1) = grown N tiny B n * (1 + N * tiny) + Real.sqrt N * (2 * tiny) := rfl
  have : 0 ≤ grown N tiny B n * (N * tiny) := by positivity
  have : 0 ≤ Real.sqrt N * (2 * tiny) := by positivity
  linarith

theorem grown_le {N tiny B : ℝ} (hN : 0 ≤ N) (ht : 0 ≤ tiny) (hB : 0 ≤ B) (n : Nat) :
    grown N tiny B n ≤ (1 + N * tiny) ^ n * (B + n * (Real.sqrt N * (2 * tiny))) := by
  induction n with
  | zero => simp [grown]
  | succ n ih =>
    have h1 : (1 : ℝ) ≤ (1 + N * tiny) ^ (n + 1) := one_le_pow₀ (by have : 0 ≤ N * tiny := by positivity
                                                                    linarith)
    have h2 : 0 ≤ Real.sqrt N * (2 * tiny) := by positivity
    have e : grown N tiny B (n + 1) = grown N tiny B n * (1 + N * tiny) + Real.sqrt N * (2 * tiny) := rfl
    calc grown N tiny B (n + 1) ≤ (1 + N * tiny) ^ n * (B + n * (Real.sqrt N * (2 * tiny))) * (1 + N * tiny) +
          (1 + N * tiny) ^ (n + 1) * (Real.sqrt N * (2 * tiny)) := by
          rw [e]
          have q : 0 ≤ 1 + N * tiny := by positivity
          have q2 : Real.sqrt N * (2 * tiny) ≤ (1 + N * tiny) ^ (n + 1) * (Real.sqrt N * (2 * tiny)) :=
            le_mul_of_one_le_left h2 h1
          have q3 := mul_le_mul_of_nonneg_right ih q
          linarith
      _ = _ := by push_cast; ring

theorem pow_small {x : ℝ} (hx : 0 ≤ x) (n : Nat) (h : n * x ≤ 1 / 32) : (1 + x) ^ n ≤ 1 + 17 / 16 * (n * x) := by
  induction n with
  | zero => simp
  | succ n ih =>
    have h0 : (0 : ℝ) ≤ n * x := by positivity
    push_cast at h ⊢
    have := ih (by linarith)
    calc (1 + x) ^ (n + 1) = (1 + x) ^ n * (1 + x) := pow_succ _ _
      _ ≤ (1 + 17 / 16 * (n * x)) * (1 + x) := by gcongr
      _ ≤ 1 + 17 / 16 * ((n + 1) * x) := by nlinarith

end Driver

end FftMpi
