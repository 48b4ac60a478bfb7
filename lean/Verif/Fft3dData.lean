import Verif.Fft3d
import Verif.Remap3dMain
import Verif.PropsKiss

/-!
# Effect of the local stages of an FFT: 1d FFTs, scaling, `memcpy`
-/

noncomputable section

namespace FftMpi

/-! ## Complex view -/

theorem cview_some {m : Mem ℝ} {k : Int} {z : ℂ} :
    cview m k = some z ↔ m (2 * k) = some z.re ∧ m (2 * k + 1) = some z.im := by
  unfold cview
  cases h1 : m (2 * k) with
  | none => simp
  | some x =>
    cases h2 : m (2 * k + 1) with
    | none => simp
    | some y =>
      simp only [Option.some.injEq]
      constructor
      · rintro rfl; exact ⟨rfl, rfl⟩
      · rintro ⟨rfl, rfl⟩; rfl

theorem cview_isSome {m : Mem ℝ} {k : Int} :
    (cview m k).isSome ↔ (m (2 * k)).isSome ∧ (m (2 * k + 1)).isSome := by
  unfold cview
  cases m (2 * k) <;> cases m (2 * k + 1) <;> simp

theorem cstore_re {m : Mem ℝ} {c : Mem ℂ} {k : Int} {z : ℂ} (h : c k = some z) :
    cstore m c (2 * k) = some z.re := by
  unfold cstore
  rw [show 2 * k / 2 = k by omega, h]
  simp

theorem cstore_im {m : Mem ℝ} {c : Mem ℂ} {k : Int} {z : ℂ} (h : c k = some z) :
    cstore m c (2 * k + 1) = some z.im := by
  unfold cstore
  rw [show (2 * k + 1) / 2 = k by omega, h]
  simp only
  rw [if_neg (by omega)]

theorem cview_cstore {m : Mem ℝ} {c : Mem ℂ} (hd : ∀ k, (c k).isSome = (cview m k).isSome) :
    cview (cstore m c) = c := by
  funext k
  cases h : c k with
  | some z => exact cview_some.mpr ⟨cstore_re h, cstore_im h⟩
  | none =>
    have h' : (cview m k).isSome = false := by rw [← hd k, h]; rfl
    have e : cview (cstore m c) k = cview m k := by
      unfold cview cstore
      rw [show 2 * k / 2 = k by omega, show (2 * k + 1) / 2 = k by omega, h]
    rw [e]
    simpa using h'

theorem cstore_dom {m : Mem ℝ} {c : Mem ℂ} (hd : ∀ k, (c k).isSome = (cview m k).isSome) (a : Int) :
    (cstore m c a).isSome = (m a).isSome := by
  unfold cstore
  cases h : c (a / 2) with
  | none => rfl
  | some z =>
    have h' : (cview m (a / 2)).isSome := by rw [← hd, h]; rfl
    obtain ⟨h1, h2⟩ := cview_isSome.mp h'
    simp only
    split_ifs with hp
    · rw [show 2 * (a / 2) = a by omega] at h1
      simp [h1]
    · rw [show 2 * (a / 2) + 1 = a by omega] at h2
      simp [h2]

/-- Elements whose complex number is not changed keep their value. -/
theorem cstore_eq {m : Mem ℝ} {c : Mem ℂ} {a : Int} (h : c (a / 2) = cview m (a / 2)) :
    cstore m c a = m a := by
  unfold cstore
  rw [h]
  cases h' : cview m (a / 2) with
  | none => rfl
  | some z =>
    obtain ⟨h1, h2⟩ := cview_some.mp h'
    simp only
    split_ifs with hp
    · rw [← h1]; congr 1; omega
    · rw [← h2]; congr 1; omega

/-! ## Loops with a stride -/

theorem forPtr_inv {σ : Type} (Q : Nat → σ → Prop) (body : Int → σ → Option σ) (N : Nat) (st : Int)
    (hst : 0 < st) (s : σ) (h0 : Q 0 s)
    (hs : ∀ k < N, ∀ s, Q k s → ∃ s', body (k * st) s = some s' ∧ Q (k + 1) s') :
    ∃ s', forPtr 0 (N * st) st body s = some s' ∧ Q N s' := by
  have key : ∀ (d k : Nat) (s : σ), k + d = N → Q k s →
      ∃ s', forPtr (k * st) (N * st) st body s = some s' ∧ Q N s' := by
    intro d
    induction d with
    | zero =>
      intro k s hk hq
      have : k = N := by omega
      subst this
      refine ⟨s, ?_, hq⟩
      rw [forPtr, dif_neg (by omega)]
    | succ d ih =>
      intro k s hk hq
      obtain ⟨s', h1, h2⟩ := hs k (by omega) s hq
      obtain ⟨s'', h3, h4⟩ := ih (k + 1) s' (by omega) h2
      refine ⟨s'', ?_, h4⟩
      have hlt : (k : Int) * st < N * st := by
        apply mul_lt_mul_of_pos_right _ hst
        omega
      rw [forPtr, dif_pos hlt, dif_pos hst, h1]
      simp only [Option.bind_some]
      rw [← h3]
      congr 1
      push_cast
      ring
  obtain ⟨s', h1, h2⟩ := key N 0 s (by omega) h0
  exact ⟨s', by simpa using h1, h2⟩

theorem forPtr_nonpos {σ : Type} (body : Int → σ → Option σ) {e : Int} (he : e ≤ 0) (st : Int) (s : σ) :
    forPtr 0 e st body s = some s := by
  rw [forPtr, dif_neg (by omega)]

/-! ## 1d FFTs on consecutive lines -/

/-- The plan of 1d FFTs of length `n` on `N` lines. -/
structure PlanOK (plan : Fft1d) (n N : Nat) : Prop where
  length : plan.length = n
  total : plan.total = N * n
  pos : 1 ≤ n
  small : n < 2 ^ 31
  fwd : kissAlloc n false = some plan.planForward
  bwd : kissAlloc n true = some plan.planBackward

/-- Code `run` that transforms each of the `N` lines of `n` points by `T`, and touches nothing else. -/
def LinesOK (run : Mem ℂ → Option (Mem ℂ)) (T : (Nat → ℂ) → Nat → ℂ) (n N : Nat) : Prop :=
  ∀ (data : Mem ℂ) (x : Nat → Nat → ℂ), (∀ t < N, ∀ j < n, data (t * n + j) = some (x t j)) →
    ∃ data', run data = some data' ∧ (∀ t < N, ∀ k < n, data' (t * n + k) = some (T (x t) k)) ∧
      ∀ a, (a < 0 ∨ (N * n : Int) ≤ a) → data' a = data a

/-- A loop over the lines. -/
theorem forPtr_lines {n N : Nat} (hpos' : 1 ≤ n) {T : (Nat → ℂ) → Nat → ℂ}
    (body : Int → Mem ℂ → Option (Mem ℂ))
    (hbody : ∀ (o : Int) (x : Nat → ℂ) (d : Mem ℂ), (∀ j < n, d (o + (j : Nat)) = some (x j)) →
      ∃ d', body o d = some d' ∧ (∀ k < n, d' (o + (k : Nat)) = some (T x k)) ∧
        ∀ b, (b < o ∨ o + n ≤ b) → d' b = d b) :
    LinesOK (forPtr 0 (N * n) n body) T n N := by
  intro data x hx
  have hpos : (0 : Int) < n := by omega
  obtain ⟨d, h1, h2, h3, h4⟩ := forPtr_inv (fun s (d : Mem ℂ) =>
      (∀ t < s, t < N → ∀ k < n, d (t * n + k) = some (T (x t) k)) ∧
      (∀ t, s ≤ t → t < N → ∀ k < n, d (t * n + k) = some (x t k)) ∧
      ∀ a, (a < 0 ∨ (N * n : Int) ≤ a) → d a = data a) body N n hpos data
    ⟨fun t ht => absurd ht (by omega), fun t _ ht k hk => hx t ht k hk, fun a _ => rfl⟩
    (by
      intro s hs d ⟨h1, h2, h3⟩
      obtain ⟨d', k1, k2, k3⟩ := hbody (s * n) (x s) d (fun j hj => h2 s le_rfl hs j hj)
      have far : ∀ t k : Nat, t ≠ s → k < n →
          ((t : Int) * n + k < s * n ∨ (s : Int) * n + n ≤ t * n + k) := by
        intro t k hts hk
        rcases Nat.lt_or_gt_of_ne hts with h | h
        · left
          have : (t + 1 : Int) * n ≤ s * n := by
            apply mul_le_mul_of_nonneg_right _ hpos.le
            omega
          have e : (t + 1 : Int) * n = t * n + n := by ring
          omega
        · right
          have : (s + 1 : Int) * n ≤ t * n := by
            apply mul_le_mul_of_nonneg_right _ hpos.le
            omega
          have e : (s + 1 : Int) * n = s * n + n := by ring
          omega
      refine ⟨d', k1, ?_, ?_, ?_⟩
      · intro t ht htN k hk
        by_cases hts : t = s
        · subst hts; exact k2 k hk
        · rw [k3 _ (far t k hts hk)]
          exact h1 t (by omega) htN k hk
      · intro t ht htN k hk
        rw [k3 _ (far t k (by omega) hk)]
        exact h2 t (by omega) htN k hk
      · intro a ha
        rw [k3 a, h3 a ha]
        have e1 : (s + 1 : Int) * n ≤ N * n := by
          apply mul_le_mul_of_nonneg_right _ hpos.le
          omega
        have e2 : (s + 1 : Int) * n = s * n + n := by ring
        have e3 : (0 : Int) ≤ s * n := by positivity
        omega)
  exact ⟨d, h1, fun t ht => h2 t ht ht, h4⟩

theorem performFfts_ok {plan : Fft1d} {n N : Nat} (hp : PlanOK plan n N) (J : Junk) (flag : Int) :
    LinesOK (performFfts J flag plan) (dft1 n (decide (flag ≠ 1))) n N := by
  have main : ∀ (back : Bool) (st : KissState), kissAlloc n back = some st →
      LinesOK (forPtr 0 plan.total plan.length (fun offset d =>
          kissIn st (J offset).1 (J offset).2 d offset 1)) (dft1 n back) n N := by
    intro back st hst
    rw [hp.total, hp.length]
    refine forPtr_lines hp.pos _ fun o x d hd => ?_
    obtain ⟨st', hst', d', k1, k2, k3⟩ := C18_kiss_in_place hp.pos hp.small back (J o).1 (J o).2 x d o hd
    rw [hst] at hst'
    cases hst'
    exact ⟨d', k1, k2, k3⟩
  intro data x hx
  unfold performFfts
  by_cases hf : flag = 1
  · rw [if_pos hf]
    have : decide (flag ≠ 1) = false := by simp [hf]
    rw [this]
    exact main false _ hp.fwd data x hx
  · rw [if_neg hf]
    have : decide (flag ≠ 1) = true := by simp [hf]
    rw [this]
    exact main true _ hp.bwd data x hx

/-! ## Grids stored in the arrays -/

/-- `X` on the grid, `X r` as seen by rank `r`. -/
abbrev Grid3 := Int → Int → Int → ℂ

/-- Array `u` of the owner of box `b` holds `X` in the storage order `permute`: real part first. -/
def HoldsBox (permute : Int) (b : Box3) (X : Grid3) (u : Mem ℝ) : Prop :=
  ∀ i j k, b.Has i j k → u (addr3 permute b 2 i j k 0) = some (X i j k).re ∧
    u (addr3 permute b 2 i j k 1) = some (X i j k).im

theorem addr3_two (permute : Int) (b : Box3) (i j k q : Int) :
    addr3 permute b 2 i j k q = 2 * addr3 permute b 1 i j k 0 + q := by
  unfold addr3
  split_ifs <;> ring

theorem holdsBox_cview {permute : Int} {b : Box3} {X : Grid3} {u : Mem ℝ} :
    HoldsBox permute b X u ↔
      ∀ i j k, b.Has i j k → cview u (addr3 permute b 1 i j k 0) = some (X i j k) := by
  unfold HoldsBox
  simp only [cview_some, addr3_two permute b _ _ _ 0, addr3_two permute b _ _ _ 1, add_zero]

/-- The grid function with the coordinates in storage order. -/
def rotGrid (permute : Int) (X : Grid3) : Grid3 := fun x y z =>
  if permute = 0 then X x y z else if permute = 1 then X z x y else X y z x

theorem rotGrid_rotPt (permute : Int) (X : Grid3) (i j k : Int) :
    rotGrid permute X (rotPt permute (i, j, k)).1 (rotPt permute (i, j, k)).2.1
      (rotPt permute (i, j, k)).2.2 = X i j k := by
  unfold rotGrid rotPt
  split_ifs <;> rfl

theorem rotPt_surj (permute : Int) (x y z : Int) : ∃ i j k, rotPt permute (i, j, k) = (x, y, z) := by
  unfold rotPt
  split_ifs
  · exact ⟨x, y, z, rfl⟩
  · exact ⟨z, x, y, rfl⟩
  · exact ⟨y, z, x, rfl⟩

theorem holdsBox_rot {permute : Int} {b : Box3} {X : Grid3} {u : Mem ℝ} :
    HoldsBox permute b X u ↔ HoldsBox 0 (rotBox permute b) (rotGrid permute X) u := by
  constructor
  · intro h x y z hxyz
    obtain ⟨i, j, k, e⟩ := rotPt_surj permute x y z
    have e1 : x = (rotPt permute (i, j, k)).1 := by rw [e]
    have e2 : y = (rotPt permute (i, j, k)).2.1 := by rw [e]
    have e3 : z = (rotPt permute (i, j, k)).2.2 := by rw [e]
    rw [e1, e2, e3, rotBox_has] at hxyz
    rw [e1, e2, e3, addr3_rot, addr3_rot, rotGrid_rotPt]
    exact h i j k hxyz
  · intro h i j k hb
    have := h _ _ _ ((rotBox_has permute b i j k).mpr hb)
    rwa [addr3_rot, addr3_rot, rotGrid_rotPt] at this

/-- 1d transform along the coordinate that is stored fastest. -/
def fftAlong (permute : Int) (n : Nat) (back : Bool) (X : Grid3) : Grid3 := fun i j k =>
  if permute = 0 then dft1 n back (fun t => X t j k) i.toNat
  else if permute = 1 then dft1 n back (fun t => X i t k) j.toNat
  else dft1 n back (fun t => X i j t) k.toNat

/-- A transform of lines along the coordinate that is stored fastest. -/
def lineAlong (permute : Int) (T : (Nat → ℂ) → Nat → ℂ) (X : Grid3) : Grid3 := fun i j k =>
  if permute = 0 then T (fun t => X t j k) i.toNat
  else if permute = 1 then T (fun t => X i t k) j.toNat
  else T (fun t => X i j t) k.toNat

theorem lineAlong_dft1 (permute : Int) (n : Nat) (back : Bool) :
    lineAlong permute (dft1 n back) = fftAlong permute n back := rfl

theorem rotGrid_lineAlong (permute : Int) (T : (Nat → ℂ) → Nat → ℂ) (X : Grid3) (x y z : Int) :
    rotGrid permute (lineAlong permute T X) x y z = T (fun t => rotGrid permute X t y z) x.toNat := by
  unfold rotGrid lineAlong
  split_ifs <;> simp_all

/-- The plan for box `b` stored in order `permute`: whole lines of `n` points. -/
structure BoxPlan (permute : Int) (b : Box3) (plan : Fft1d) (n : Nat) : Prop where
  lo : (rotBox permute b).ilo = 0
  hi : (rotBox permute b).ihi = n - 1
  proper : 0 ≤ (rotBox permute b).jsize ∧ 0 ≤ (rotBox permute b).ksize
  plan : PlanOK plan n ((rotBox permute b).jsize * (rotBox permute b).ksize).toNat

/-- Accessible part of the complex view. -/
theorem cview_accessible {u : Mem ℝ} {n : Int} (h : accessible u 0 (2 * n)) {k : Int} (h0 : 0 ≤ k)
    (h1 : k < n) : (cview u k).isSome :=
  cview_isSome.mpr ⟨h _ (by omega) (by omega), h _ (by omega) (by omega)⟩

/-- Such code on the lines of a box. -/
theorem linesBox_ok {permute : Int} {b : Box3} {n : Nat} (hn : 1 ≤ n) (hlo : (rotBox permute b).ilo = 0)
    (hhi : (rotBox permute b).ihi = n - 1)
    (hjk : 0 ≤ (rotBox permute b).jsize ∧ 0 ≤ (rotBox permute b).ksize)
    {run : Mem ℂ → Option (Mem ℂ)} {T : (Nat → ℂ) → Nat → ℂ}
    (hrun : LinesOK run T n ((rotBox permute b).jsize * (rotBox permute b).ksize).toNat)
    (X : Grid3) (u : Mem ℝ) (hu : HoldsBox permute b X u) :
    ∃ c, run (cview u) = some c ∧
      HoldsBox permute b (lineAlong permute T X) (cstore u c) ∧
      (∀ a, (cstore u c a).isSome = (u a).isSome) ∧
      ∀ a, (a < 0 ∨ 2 * b.vol ≤ a) → cstore u c a = u a := by
  obtain ⟨hj, hk⟩ := hjk
  have hvol : b.vol = (rotBox permute b).jsize * (rotBox permute b).ksize * n := by
    have e : (rotBox permute b).isize = n := by unfold Box3.isize; omega
    have e2 : (rotBox permute b).vol = b.vol := by
      unfold rotBox Box3.vol Box3.isize Box3.jsize Box3.ksize
      split_ifs <;> simp only <;> ring
    rw [← e2]; unfold Box3.vol; rw [e]; ring
  rw [holdsBox_rot, holdsBox_cview] at hu
  generalize hR : rotBox permute b = R at *
  generalize hY : rotGrid permute X = Y at *
  have hR1 : R.isize = n := by unfold Box3.isize; omega
  -- line number and position of a point
  have haddr : ∀ x y z, addr3 0 R 1 x y z 0 = ((z - R.klo) * R.jsize + (y - R.jlo)) * n + x := by
    intro x y z
    unfold addr3
    rw [if_pos rfl, hR1, hlo]
    ring
  have hN : ((R.jsize * R.ksize).toNat : Int) = R.jsize * R.ksize :=
    Int.toNat_of_nonneg (mul_nonneg hj hk)
  -- the lines
  have hline : ∀ t : Nat, t < (R.jsize * R.ksize).toNat → 0 < R.jsize ∧
      (R.jlo ≤ R.jlo + t % R.jsize ∧ R.jlo + t % R.jsize ≤ R.jhi) ∧
      (R.klo ≤ R.klo + t / R.jsize ∧ R.klo + t / R.jsize ≤ R.khi) := by
    intro t ht
    have ht' : (t : Int) < R.ksize * R.jsize := by rw [mul_comm, ← hN]; exact_mod_cast ht
    have hpos : 0 < R.jsize := by
      rcases hj.lt_or_eq with h | h
      · exact h
      · rw [← h] at ht'; simp at ht'; omega
    refine ⟨hpos, ?_, ?_⟩
    · have h1 := Int.emod_nonneg (t : Int) hpos.ne'
      have h2 := Int.emod_lt_of_pos (t : Int) hpos
      unfold Box3.jsize at h2 h1 ⊢
      omega
    · have h1 : 0 ≤ (t : Int) / R.jsize := Int.ediv_nonneg (by omega) hj
      have h2 : (t : Int) / R.jsize < R.ksize := Int.ediv_lt_of_lt_mul hpos ht'
      unfold Box3.ksize at h2
      omega
  obtain ⟨c, h1, h2, h3⟩ := hrun (cview u)
    (fun t j => Y j (R.jlo + t % R.jsize) (R.klo + t / R.jsize)) (by
      intro t ht j hjn
      obtain ⟨hpos, l1, l2⟩ := hline t ht
      have := hu j (R.jlo + t % R.jsize) (R.klo + t / R.jsize) ⟨by omega, l1, l2⟩
      rw [haddr] at this
      rw [← this]
      congr 2
      have e := Int.mul_ediv_add_emod (t : Int) R.jsize
      have : (R.klo + t / R.jsize - R.klo) * R.jsize + (R.jlo + t % R.jsize - R.jlo) = (t : Int) := by
        linarith [mul_comm R.jsize ((t : Int) / R.jsize)]
      rw [this])
  have hdom : ∀ k, (c k).isSome = (cview u k).isSome := by
    intro k
    by_cases hk' : k < 0 ∨ ((R.jsize * R.ksize).toNat * n : Int) ≤ k
    · rw [h3 k hk']
    · obtain ⟨hk1, hk2⟩ := not_or.mp hk'
      have hnpos : (0 : Int) < n := by omega
      have t1 : 0 ≤ k / n := Int.ediv_nonneg (by omega) hnpos.le
      have t2 : k / n < ((R.jsize * R.ksize).toNat : Int) := Int.ediv_lt_of_lt_mul hnpos (by omega)
      have t3 := Int.emod_nonneg k hnpos.ne'
      have t4 := Int.emod_lt_of_pos k hnpos
      have e : (((k / n).toNat : Nat) : Int) * n + ((k % n).toNat : Nat) = k := by
        rw [Int.toNat_of_nonneg t1, Int.toNat_of_nonneg t3, mul_comm]
        exact Int.mul_ediv_add_emod k n
      have g1 := h2 (k / n).toNat (by omega) (k % n).toNat (by omega)
      rw [e] at g1
      obtain ⟨hpos, l1, l2⟩ := hline (k / n).toNat (by omega)
      have g2 := hu (k % n).toNat _ _ ⟨by omega, l1, l2⟩
      rw [haddr] at g2
      have e2 := Int.mul_ediv_add_emod (((k / n).toNat : Nat) : Int) R.jsize
      have e3 : (R.klo + ((k / n).toNat : Int) / R.jsize - R.klo) * R.jsize +
          (R.jlo + ((k / n).toNat : Int) % R.jsize - R.jlo) = ((k / n).toNat : Int) := by
        linarith [mul_comm R.jsize (((k / n).toNat : Int) / R.jsize)]
      rw [e3, e] at g2
      simp [g1, g2]
  refine ⟨c, h1, ?_, cstore_dom hdom, ?_⟩
  · rw [holdsBox_rot, holdsBox_cview, hR, cview_cstore hdom]
    intro x y z hh
    rw [rotGrid_lineAlong, hY, haddr]
    have r1 : 0 ≤ y - R.jlo ∧ y - R.jlo < R.jsize := by
      obtain ⟨_, hy, _⟩ := hh; unfold Box3.jsize; omega
    have r2 : 0 ≤ z - R.klo ∧ z - R.klo < R.ksize := by
      obtain ⟨_, _, hz⟩ := hh; unfold Box3.ksize; omega
    have r3 := digit_range r1 r2
    have r4 : 0 ≤ x ∧ x < n := by obtain ⟨hx, _⟩ := hh; omega
    have hlt : ((z - R.klo) * R.jsize + (y - R.jlo)).toNat < (R.jsize * R.ksize).toNat := by
      have := mul_comm R.ksize R.jsize
      omega
    have g := h2 ((z - R.klo) * R.jsize + (y - R.jlo)).toNat hlt x.toNat (by omega)
    rw [Int.toNat_of_nonneg r3.1, Int.toNat_of_nonneg r4.1] at g
    rw [g]
    have e1 : ((z - R.klo) * R.jsize + (y - R.jlo)) % R.jsize = y - R.jlo := by
      rw [add_comm, Int.add_mul_emod_self_right, Int.emod_eq_of_lt r1.1 r1.2]
    have e2 : ((z - R.klo) * R.jsize + (y - R.jlo)) / R.jsize = z - R.klo := by
      rw [add_comm, Int.add_mul_ediv_right _ _ (by omega), Int.ediv_eq_zero_of_lt r1.1 r1.2]
      ring
    simp only [e1, e2]
    rw [show R.jlo + (y - R.jlo) = y by ring, show R.klo + (z - R.klo) = z by ring]
  · intro a ha
    apply cstore_eq
    apply h3
    rw [hvol] at ha
    have e : (((R.jsize * R.ksize).toNat * n : Int)) = R.jsize * R.ksize * n := by rw [hN]
    rw [e]
    omega

/-- `perform_ffts` on one rank. -/
theorem performBox_ok {permute : Int} {b : Box3} {plan : Fft1d} {n : Nat} (hp : BoxPlan permute b plan n)
    (J : Junk) (flag : Int) (X : Grid3) (u : Mem ℝ) (hu : HoldsBox permute b X u) :
    ∃ c, performFfts J flag plan (cview u) = some c ∧
      HoldsBox permute b (fftAlong permute n (decide (flag ≠ 1)) X) (cstore u c) ∧
      (∀ a, (cstore u c a).isSome = (u a).isSome) ∧
      ∀ a, (a < 0 ∨ 2 * b.vol ≤ a) → cstore u c a = u a :=
  linesBox_ok hp.plan.pos hp.lo hp.hi hp.proper
    (fun data x hx => performFfts_ok hp.plan J flag data x hx) X u hu

/-! ## Scaling -/

theorem scaleFfts_ok (norm : ℝ) (num : Nat) (data : Mem ℝ) (h : accessible data 0 (2 * num)) :
    ∃ d, scaleFfts norm num data = some d ∧
      (∀ k z, cview data k = some z → 0 ≤ k →
        cview d k = some (if k < num then (norm : ℂ) * z else z)) ∧
      (∀ a, (d a).isSome = (data a).isSome) ∧ ∀ a, (a < 0 ∨ 2 * (num : Int) ≤ a) → d a = data a := by
  obtain ⟨d, h1, h2, h3⟩ := forN_inv (fun s (d : Mem ℝ) =>
      (∀ a, 0 ≤ a → a < 2 * (s : Int) → d a = (data a).map (· * norm)) ∧
      (∀ a, (a < 0 ∨ 2 * (s : Int) ≤ a) → d a = data a))
    (fun i d => do
      let re ← d (2 * i)
      let d ← d.set (2 * i) (re * norm)
      let im ← d (2 * i + 1)
      d.set (2 * i + 1) (im * norm)) num data
    ⟨fun a h0 h1 => absurd h1 (by push_cast; omega), fun a _ => rfl⟩
    (by
      intro s hs d ⟨h1, h2⟩
      obtain ⟨x, hx⟩ := Option.isSome_iff_exists.mp (h (2 * s) (by omega) (by omega))
      obtain ⟨y, hy⟩ := Option.isSome_iff_exists.mp (h (2 * s + 1) (by omega) (by omega))
      have dx : d (2 * s) = some x := by rw [h2 _ (by omega), hx]
      have dy : d (2 * s + 1) = some y := by rw [h2 _ (by omega), hy]
      have hne : (2 * (s : Int) + 1) ≠ 2 * s := by omega
      have dy' : Function.update d (2 * (s : Int)) (some (x * norm)) (2 * s + 1) = some y := by
        rw [Function.update_of_ne hne]; exact dy
      refine ⟨Function.update (Function.update d (2 * (s : Int)) (some (x * norm))) (2 * s + 1)
        (some (y * norm)), ?_, ?_, ?_⟩
      · simp only [dx, dy', Option.bind_eq_bind, Option.bind_some,
          Mem.set_eq (show (d (2 * (s : Int))).isSome by rw [dx]; rfl),
          Mem.set_eq (show ((Function.update d (2 * (s : Int)) (some (x * norm))) (2 * s + 1)).isSome by
            rw [dy']; rfl)]
      · intro a h0 ha
        by_cases a1 : a = 2 * s + 1
        · subst a1; simp [hy]
        · rw [Function.update_of_ne a1]
          by_cases a2 : a = 2 * s
          · subst a2; simp [hx]
          · rw [Function.update_of_ne a2]
            exact h1 a h0 (by push_cast at ha; omega)
      · intro a ha
        rw [Function.update_of_ne (by push_cast at ha; omega),
          Function.update_of_ne (by push_cast at ha; omega)]
        exact h2 a (by push_cast at ha; omega))
  refine ⟨d, h1, ?_, ?_, h3⟩
  · intro k z hz hk
    obtain ⟨z1, z2⟩ := cview_some.mp hz
    rw [cview_some]
    split_ifs with hlt
    · rw [h2 _ (by omega) (by omega), h2 _ (by omega) (by omega), z1, z2]
      constructor
      · simp [mul_comm]
      · simp [mul_comm]
    · rw [h3 _ (by omega), h3 _ (by omega)]
      exact ⟨z1, z2⟩
  · intro a
    by_cases ha : 0 ≤ a ∧ a < 2 * (num : Int)
    · rw [h2 a ha.1 ha.2]; simp
    · rw [h3 a (by omega)]

/-! ## memcpy -/

theorem memcpyM_ok {α : Type} (src dst : Mem α) (num : Nat) (hs : accessible src 0 num)
    (hd : accessible dst 0 num) :
    ∃ d, memcpyM src dst 0 0 num = some d ∧
      (∀ a, d a = if 0 ≤ a ∧ a < num then src a else dst a) := by
  unfold memcpyM
  rw [if_neg (by omega)]
  obtain ⟨d, h1, h2⟩ := forN_inv (fun s (d : Mem α) =>
      ∀ a, d a = if 0 ≤ a ∧ a < (s : Int) then src a else dst a)
    (fun t m => copy1 src m (0 + t) (0 + t)) num dst
    (fun a => by rw [if_neg (by push_cast; omega)])
    (by
      intro s hs' d hd'
      obtain ⟨x, hx⟩ := Option.isSome_iff_exists.mp (hs s (by omega) (by omega))
      have hds : (d s).isSome := by
        rw [hd' s, if_neg (by omega)]
        exact hd s (by omega) (by omega)
      refine ⟨Function.update d (s : Int) (some x), ?_, ?_⟩
      · simp only [copy1, zero_add, hx, Option.bind_some, Mem.set_eq hds]
      · intro a
        by_cases ha : a = s
        · subst ha; simp [hx]
        · rw [Function.update_of_ne ha, hd' a]
          by_cases hb : 0 ≤ a ∧ a < (s : Int)
          · rw [if_pos hb, if_pos (by push_cast; omega)]
          · rw [if_neg hb, if_neg (by push_cast; omega)])
  exact ⟨d, h1, h2⟩

end FftMpi
