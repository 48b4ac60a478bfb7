import Verif.Driver32Lemmas
import Verif.PropsDriverOut

/-!
# C76: integer arithmetic of the test programs

`test3d` and `test2d` on 32-bit integers (`Driver32`): exactly when `proc_setup`, `grid_setup`, `initialize`,
`validate`, `output` and the statistics are free of overflow, and that the whole programs compute the same as the
programs with unbounded integers, of which C60 and C61 speak, whenever the sizes are within the limits of the library
(C49, C50).
-/

noncomputable section

namespace FftMpi

open Driver

variable {rnd : ℝ → ℝ}

/-! ## Processor grids and boxes -/

/-- **C76 (number of ranks).**  The search for a processor grid is free of overflow exactly if the number of ranks is
smaller than the largest `int`: the loops compare with `<=` and increment once more.  It then finds what the search on
unbounded integers finds. -/
theorem C76_procs_iff (R : Rounding rnd) {nx ny nz P : Nat} (hx : 0 < nx ∧ nx < 2 ^ 31) (hy : 0 < ny ∧ ny < 2 ^ 31)
    (hz : 0 < nz ∧ nz < 2 ^ 31) (hP : 0 < P) (hP' : (P : Int) ≤ int32Max) (p : Nat × Nat × Nat) :
    ((proc3d32 rnd nx ny nz P p).isSome ↔ (P : Int) < int32Max) ∧
      ((P : Int) < int32Max → proc3d32 rnd nx ny nz P p = some (proc3d rnd nx ny nz P p)) := by
  unfold int32Max at *
  have k : (P : Int) < 2147483647 → proc3d32 rnd nx ny nz P p = some (proc3d rnd nx ny nz P p) := by
    intro h
    obtain ⟨q, h1, -⟩ := proc3d_ok R hx.1 hy.1 hz.1 hP hx.2 hy.2 hz.2 p
    rw [h1]
    exact proc3d32_eq hP (by omega) h1
  refine ⟨⟨fun h => ?_, fun h => by rw [k h]; rfl⟩, k⟩
  by_contra hc
  unfold proc3d32 at h
  dsimp only at h
  rw [divLoop32_none (by omega)] at h
  cases h

/-- **C76 (number of ranks, `proc2d`).** -/
theorem C76_procs_iff_2d (R : Rounding rnd) {nx ny P : Nat} (hx : 0 < nx ∧ nx < 2 ^ 31) (hy : 0 < ny ∧ ny < 2 ^ 31)
    (hP : 0 < P) (hP' : (P : Int) ≤ int32Max) (p : Nat × Nat) :
    ((proc2d32 rnd nx ny P p).isSome ↔ (P : Int) < int32Max) ∧
      ((P : Int) < int32Max → proc2d32 rnd nx ny P p = some (proc2d rnd nx ny P p)) := by
  unfold int32Max at *
  have k : (P : Int) < 2147483647 → proc2d32 rnd nx ny P p = some (proc2d rnd nx ny P p) := by
    intro h
    obtain ⟨q, h1, -⟩ := proc2d_ok R hx.1 hy.1 hP hx.2 hy.2 p
    rw [h1]
    exact proc2d32_eq (by omega) h1
  refine ⟨⟨fun h => ?_, fun h => by rw [k h]; rfl⟩, k⟩
  by_contra hc
  unfold proc2d32 at h
  dsimp only at h
  rw [divLoop32_none (by omega)] at h
  cases h

/-- Both processor grids of test3d. -/
theorem grids3_32 (R : Rounding rnd) {o : Opt3} {P : Nat} (ho : o.Accepted P) (hP : (P : Int) < int32Max) :
    o.inGrid32 rnd P = some (o.inGrid rnd P) ∧ o.outGrid32 rnd P = some (o.outGrid rnd P) := by
  unfold Opt3.inGrid32 Opt3.inGrid Opt3.outGrid32 Opt3.outGrid
  rw [(C76_procs_iff R ho.nx ho.ny ho.nz ho.procs hP.le _).2 hP, (C76_procs_iff R ho.nx ho.ny ho.nz ho.procs hP.le _).2 hP,
    (C76_procs_iff_2d R ho.nx ho.ny ho.procs hP.le _).2 hP]
  constructor
  · split_ifs <;> rfl
  · split_ifs <;> rfl

theorem grids2_32 (R : Rounding rnd) {o : Opt2} {P : Nat} (ho : o.Accepted P) (hP : (P : Int) < int32Max) :
    o.inGrid32 rnd P = some (o.inGrid rnd P) := by
  unfold Opt2.inGrid32 Opt2.inGrid
  rw [(C76_procs_iff_2d R ho.nx ho.ny ho.procs hP.le _).2 hP]
  split_ifs <;> rfl

theorem in32_of {o : Opt3} {P : Nat} (ho : o.Accepted P) {b : Box3} (h : b.Proper ∧ b.Within o.nx o.ny o.nz) : In32 b := by
  have h1 := ho.nx.2
  have h2 := ho.ny.2
  have h3 := ho.nz.2
  exact ⟨h.1, o.nx, o.ny, o.nz, h.2, by omega, by omega, by omega⟩

theorem in32_2_of {o : Opt2} {P : Nat} (ho : o.Accepted P) {b : Box2} (h : b.Proper ∧ b.Within o.nx o.ny) : In32_2 b := by
  have h1 := ho.nx.2
  have h2 := ho.ny.2
  exact ⟨h.1, o.nx, o.ny, h.2, by omega, by omega⟩

/-- **C76 (`grid_setup`, 3d).**  The bounds are computed in `double` and never overflow (unlike those of the library,
`C49_bounds_iff`); `grid_setup` is free of overflow on all ranks exactly if all boxes have at most INT_MAX points, and
then yields the boxes of C60 and the numbers of their points. -/
theorem C76_grid_iff (R : Rounding rnd) {o : Opt3} {P : Nat} (ho : o.Accepted P) (hs : o.Small P) (hP : (P : Int) ≤ int32Max)
    {p q : Nat × Nat × Nat} (hp : p.1 * p.2.1 * p.2.2 = P) (hq : q.1 * q.2.1 * q.2.2 = P) :
    (∀ r < P, box3_32 rnd p o.nx o.ny o.nz r = some (box3 rnd p o.nx o.ny o.nz r)) ∧
    ((∀ r < P, (gridSetup3_32 rnd p q o.nx o.ny o.nz r).isSome) ↔
      ∀ r < P, (box3 rnd p o.nx o.ny o.nz r).count ≤ int32Max ∧ (box3 rnd q o.nx o.ny o.nz r).count ≤ int32Max) ∧
    ((∀ r < P, (box3 rnd p o.nx o.ny o.nz r).count ≤ int32Max ∧ (box3 rnd q o.nx o.ny o.nz r).count ≤ int32Max) →
      ∀ r < P, gridSetup3_32 rnd p q o.nx o.ny o.nz r =
        some ((box3 rnd p o.nx o.ny o.nz r, (box3 rnd p o.nx o.ny o.nz r).count),
          (box3 rnd q o.nx o.ny o.nz r, (box3 rnd q o.nx o.ny o.nz r).count))) := by
  unfold int32Max at *
  have n1 := ho.nx.2
  have n2 := ho.ny.2
  have n3 := ho.nz.2
  have B : ∀ {p : Nat × Nat × Nat}, p.1 * p.2.1 * p.2.2 = P → ∀ r < P,
      box3_32 rnd p o.nx o.ny o.nz r = some (box3 rnd p o.nx o.ny o.nz r) ∧ In32 (box3 rnd p o.nx o.ny o.nz r) := by
    intro p hp r hr
    have g := (box3_good R ho hs hp).2 r hr
    exact ⟨box3_32_eq R hp ho.procs (by omega) hr (by omega) (by omega) (by omega) g.1 g.2, in32_of ho g⟩
  have A : ∀ {p : Nat × Nat × Nat}, p.1 * p.2.1 * p.2.2 = P → (∀ r < P, (box3 rnd p o.nx o.ny o.nz r).count ≤ 2147483647) →
      ∀ r < P, nfft3_32 (box3 rnd p o.nx o.ny o.nz r) = some (box3 rnd p o.nx o.ny o.nz r).count := by
    intro p hp h r hr
    have e : ∀ r < P, box3 rnd p o.nx o.ny o.nz r = gridBox p o.nx o.ny o.nz r := fun r hr =>
      box3_eq R hp ho.procs ⟨ho.nx.1, hs.1⟩ ⟨ho.ny.1, hs.2.1⟩ ⟨ho.nz.1, hs.2.2⟩ hr
    obtain ⟨r', hr', h1⟩ := area_le hp ho.procs (n1 := o.nx) (n2 := o.ny) (n3 := o.nz) ho.nz.1 hr
    rw [← e r hr, ← e r' hr'] at h1
    have I := (B hp r hr).2
    rw [← nfft3_eq I.1]
    exact nfft3_32_eq I (le_trans h1 (h r' hr')) (by rw [nfft3_eq I.1]; exact h r hr)
  have C : ∀ (_ : ∀ r < P, (box3 rnd p o.nx o.ny o.nz r).count ≤ 2147483647 ∧ (box3 rnd q o.nx o.ny o.nz r).count ≤ 2147483647),
      ∀ r < P, gridSetup3_32 rnd p q o.nx o.ny o.nz r =
        some ((box3 rnd p o.nx o.ny o.nz r, (box3 rnd p o.nx o.ny o.nz r).count),
          (box3 rnd q o.nx o.ny o.nz r, (box3 rnd q o.nx o.ny o.nz r).count)) := by
    intro h r hr
    unfold gridSetup3_32
    rw [(B hp r hr).1, Option.bind_some, A hp (fun r hr => (h r hr).1) r hr, Option.bind_some, (B hq r hr).1,
      Option.bind_some, A hq (fun r hr => (h r hr).2) r hr, Option.map_some]
  refine ⟨fun r hr => (B hp r hr).1, ⟨fun h r hr => ?_, fun h r hr => by rw [C h r hr]; rfl⟩, C⟩
  have h' := h r hr
  have N : ∀ {b : Box3}, In32 b → b.count ≤ 2147483647 ∨ nfft3_32 b = none := by
    intro b I
    by_cases hb : b.count ≤ 2147483647
    · exact Or.inl hb
    · right
      have := mt (nfft3_32_iff I).1 (fun h => hb (by rw [← nfft3_eq I.1]; exact h.2))
      simpa using this
  unfold gridSetup3_32 at h'
  rw [(B hp r hr).1, Option.bind_some] at h'
  rcases N (B hp r hr).2 with c1 | c1
  · rcases N (B hq r hr).2 with c2 | c2
    · exact ⟨c1, c2⟩
    · rw [A hp (p := p) ?_ r hr, Option.bind_some, (B hq r hr).1, Option.bind_some, c2] at h'
      · cases h'
      · intro r hr
        rcases N (B hp r hr).2 with c | c
        · exact c
        · have h' := h r hr
          unfold gridSetup3_32 at h'
          rw [(B hp r hr).1, Option.bind_some, c] at h'
          cases h'
  · rw [c1] at h'
    cases h'

/-- **C76 (`grid_setup`, 2d).** -/
theorem C76_grid_iff_2d (R : Rounding rnd) {o : Opt2} {P : Nat} (ho : o.Accepted P) (hs : o.Small P)
    (hP : (P : Int) ≤ int32Max) {p q : Nat × Nat} (hp : p.1 * p.2 = P) (hq : q.1 * q.2 = P) {r : Nat} (hr : r < P) :
    box2_32 rnd p o.nx o.ny r = some (box2 rnd p o.nx o.ny r) ∧
    ((gridSetup2_32 rnd p q o.nx o.ny r).isSome ↔
      (box2 rnd p o.nx o.ny r).count ≤ int32Max ∧ (box2 rnd q o.nx o.ny r).count ≤ int32Max) ∧
    ((box2 rnd p o.nx o.ny r).count ≤ int32Max ∧ (box2 rnd q o.nx o.ny r).count ≤ int32Max →
      gridSetup2_32 rnd p q o.nx o.ny r =
        some ((box2 rnd p o.nx o.ny r, (box2 rnd p o.nx o.ny r).count),
          (box2 rnd q o.nx o.ny r, (box2 rnd q o.nx o.ny r).count))) := by
  unfold int32Max at *
  have n1 := ho.nx.2
  have n2 := ho.ny.2
  have B : ∀ {p : Nat × Nat}, p.1 * p.2 = P →
      box2_32 rnd p o.nx o.ny r = some (box2 rnd p o.nx o.ny r) ∧ In32_2 (box2 rnd p o.nx o.ny r) := by
    intro p hp
    have g := (box2_good R ho hs hp).2 r hr
    exact ⟨box2_32_eq R hp ho.procs (by omega) hr (by omega) (by omega) g.1 g.2, in32_2_of ho g⟩
  obtain ⟨b1, i1⟩ := B hp
  obtain ⟨b2, i2⟩ := B hq
  have C : (box2 rnd p o.nx o.ny r).count ≤ 2147483647 ∧ (box2 rnd q o.nx o.ny r).count ≤ 2147483647 →
      gridSetup2_32 rnd p q o.nx o.ny r =
        some ((box2 rnd p o.nx o.ny r, (box2 rnd p o.nx o.ny r).count),
          (box2 rnd q o.nx o.ny r, (box2 rnd q o.nx o.ny r).count)) := by
    rintro ⟨h1, h2⟩
    unfold gridSetup2_32
    rw [b1, Option.bind_some, nfft2_32_eq i1 (by rw [nfft2_eq i1.1]; exact h1), Option.bind_some, b2, Option.bind_some,
      nfft2_32_eq i2 (by rw [nfft2_eq i2.1]; exact h2), Option.map_some, nfft2_eq i1.1, nfft2_eq i2.1]
  refine ⟨b1, ⟨fun h => ?_, fun h => by rw [C h]; rfl⟩, C⟩
  have N : ∀ {b : Box2}, In32_2 b → b.count ≤ 2147483647 ∨ nfft2_32 b = none := by
    intro b I
    by_cases hb : b.count ≤ 2147483647
    · exact Or.inl hb
    · right
      have := mt (nfft2_32_iff I).1 (fun h => hb (by rw [← nfft2_eq I.1]; exact h))
      simpa using this
  unfold gridSetup2_32 at h
  rw [b1, Option.bind_some, b2] at h
  rcases N i1 with c1 | c1
  · rcases N i2 with c2 | c2
    · exact ⟨c1, c2⟩
    · simp only [Option.bind_some, c2, Option.map_none] at h
      rw [bind_none' _ fun _ => rfl] at h
      cases h
  · rw [c1] at h
    cases h

/-! ## `initialize`, `validate`, `output` -/

/-- What must fit an `int` in `initialize` and `validate`: the bound `2*nfft` of the loop (`zero`, random numbers) or
the largest index `2*nfft-1` (`step`, `index`), and with `index` the values `k+j+i+1`. -/
def Driver.Opt3.NoOverflow (o : Opt3) (b : Box3) : Prop :=
  match o.iflag with
  | .zero => 2 * b.count ≤ int32Max
  | .step => 2 * b.count - 1 ≤ int32Max
  | .index => 2 * b.count - 1 ≤ int32Max ∧ ∀ i j k, b.Has i j k → i + j + k + 1 ≤ int32Max
  | .random _ => 2 * b.count ≤ int32Max

def Driver.Opt2.NoOverflow (o : Opt2) (b : Box2) : Prop :=
  match o.iflag with
  | .zero => 2 * b.count ≤ int32Max
  | .step => 2 * b.count - 1 ≤ int32Max
  | .index => 2 * b.count - 1 ≤ int32Max ∧ ∀ i j, b.Has i j → i + j + 1 ≤ int32Max
  | .random _ => 2 * b.count ≤ int32Max

theorem has_nonneg {b : Box3} (I : In32 b) {i j k : Int} (h : b.Has i j k) : 0 ≤ i ∧ 0 ≤ j ∧ 0 ≤ k := by
  obtain ⟨-, nx, ny, nz, ⟨⟨w1, w2⟩, ⟨w3, w4⟩, w5, w6⟩, -⟩ := I
  unfold Box3.Has at h
  omega

theorem has_nonneg2 {b : Box2} (I : In32_2 b) {i j : Int} (h : b.Has i j) : 0 ≤ i ∧ 0 ≤ j := by
  obtain ⟨-, nx, ny, ⟨⟨w1, w2⟩, w3, w4⟩, -⟩ := I
  unfold Box2.Has at h
  omega

theorem index_val {b : Box3} (I : In32 b) (h : ∀ i j k, b.Has i j k → i + j + k + 1 ≤ 2147483647) {m : Int}
    {g : Int × Int × Int} (h0 : 0 ≤ m) (h1 : m < nfft3 b) (hg : point3 b m = some g) : indexAt3_32 g = some (indexAt3 g) := by
  obtain ⟨i, j, k, hh, -, hp⟩ := point3_ok I.1 h0 h1
  rw [hp] at hg
  cases hg
  exact indexAt3_32_eq (has_nonneg I hh) (h i j k hh)

theorem index_val2 {b : Box2} (I : In32_2 b) (h : ∀ i j, b.Has i j → i + j + 1 ≤ 2147483647) {m : Int}
    {g : Int × Int} (h0 : 0 ≤ m) (h1 : m < nfft2 b) (hg : point2 b m = some g) : indexAt2_32 g = some (indexAt2 g) := by
  obtain ⟨i, j, hh, -, hp⟩ := point2_ok I.1 h0 h1
  rw [hp] at hg
  cases hg
  exact indexAt2_32_eq (has_nonneg2 I hh) (h i j hh)

theorem initialize32_eq {o : Opt3} {P r : Nat} (ho : o.Accepted P) (hr : r < P) {b : Box3} (I : In32 b)
    (h : o.NoOverflow b) (w : Mem ℝ) : o.initialize32 rnd r b b.count w = o.initialize rnd r b w ∧
      o.validate32 rnd r b b.count w = o.validate rnd r b w := by
  have c0 := count_nonneg b
  have e := nfft3_eq I.1
  obtain ⟨s1, s2, -⟩ := I.sizes
  unfold Opt3.NoOverflow int32Max at h
  unfold Opt3.initialize32 Opt3.initialize Opt3.validate32 Opt3.validate
  cases hi : o.iflag with
  | zero =>
    simp only [hi] at h ⊢
    unfold fillZero32 fillZero checkZero32 checkZero
    rw [two_mul32 c0 h, Option.bind_some, Option.bind_some, e]
    exact ⟨rfl, rfl⟩
  | step =>
    simp only [hi] at h ⊢
    rw [s1, Option.bind_some, s2, Option.bind_some, Option.bind_some, Option.bind_some, e]
    have hp : ∀ m, 0 ≤ m → m < b.count → point3_32 b b.isize b.jsize m = point3 b m := fun m h0 h1 =>
      point3_32_eq I (by omega) h0 (by rw [e]; exact h1)
    exact ⟨fillAt32_eq h c0 hp (fun m g _ _ _ => rfl) w, checkAt32_eq h c0 hp (fun m g _ _ _ => rfl) w⟩
  | index =>
    simp only [hi] at h ⊢
    rw [s1, Option.bind_some, s2, Option.bind_some, Option.bind_some, Option.bind_some, e]
    have hp : ∀ m, 0 ≤ m → m < b.count → point3_32 b b.isize b.jsize m = point3 b m := fun m h0 h1 =>
      point3_32_eq I (by omega) h0 (by rw [e]; exact h1)
    exact ⟨fillAt32_eq h.1 c0 hp (fun m g h0 h1 hg => index_val I h.2 h0 (by rw [e]; exact h1) hg) w,
      checkAt32_eq h.1 c0 hp (fun m g h0 h1 hg => index_val I h.2 h0 (by rw [e]; exact h1) hg) w⟩
  | random n =>
    simp only [hi] at h ⊢
    have hs := ho.seed n hi r hr
    unfold fillRandom32 fillRandom checkRandom32 checkRandom
    rw [add32_eq (fits_of (by omega) (by omega)), Option.bind_some, Option.bind_some, two_mul32 c0 h, Option.bind_some,
      Option.bind_some, e]
    exact ⟨rfl, rfl⟩

theorem initialize32_none {o : Opt3} {r : Nat} {b : Box3} (I : In32 b) (hc : b.count ≤ int32Max)
    (h : ¬o.NoOverflow b) (w : Mem ℝ) : o.initialize32 rnd r b b.count w = none ∧ o.validate32 rnd r b b.count w = none := by
  have e := nfft3_eq I.1
  obtain ⟨s1, s2, -⟩ := I.sizes
  unfold Opt3.NoOverflow at h
  unfold int32Max at h hc
  unfold Opt3.initialize32 Opt3.validate32
  cases hi : o.iflag with
  | zero =>
    simp only [hi] at h ⊢
    unfold fillZero32 checkZero32
    rw [two_mul32_none (by omega)]
    exact ⟨rfl, rfl⟩
  | step =>
    simp only [hi] at h ⊢
    rw [s1, Option.bind_some, s2, Option.bind_some, Option.bind_some, Option.bind_some]
    exact ⟨fillAt32_none (by omega) _ _ _, checkAt32_none (by omega) _ _ _⟩
  | index =>
    simp only [hi] at h ⊢
    rw [s1, Option.bind_some, s2, Option.bind_some, Option.bind_some, Option.bind_some]
    by_cases h1 : 2 * b.count - 1 ≤ 2147483647
    · have h2 : ¬∀ i j k, b.Has i j k → i + j + k + 1 ≤ 2147483647 := fun h2 => h ⟨h1, h2⟩
      push Not at h2
      obtain ⟨i, j, k, hh, h2⟩ := h2
      have l0 : 0 ≤ addr3 0 b 1 i j k 0 ∧ addr3 0 b 1 i j k 0 < b.count := by
        have h1 := addr3_range (permute := 0) (nqty := 1) (q := 0) hh (by decide)
        have h2 := Box3.count_of_has hh
        omega
      have hv : ∀ g, point3_32 b b.isize b.jsize (addr3 0 b 1 i j k 0) = some g → indexAt3_32 g = none := by
        intro g hg
        rw [point3_32_eq I (by omega) l0.1 (by rw [e]; exact l0.2), point3_addr hh] at hg
        cases hg
        exact indexAt3_32_none h2
      exact ⟨fillAt32_none_val l0.1 l0.2 hv w, checkAt32_none_val l0.1 l0.2 hv w⟩
    · exact ⟨fillAt32_none (by omega) _ _ _, checkAt32_none (by omega) _ _ _⟩
  | random n =>
    simp only [hi] at h ⊢
    unfold fillRandom32 checkRandom32
    rw [two_mul32_none (by omega)]
    exact ⟨bind_none' _ fun _ => rfl, bind_none' _ fun _ => rfl⟩


theorem initialize32_2d_eq {o : Opt2} {P r : Nat} (ho : o.Accepted P) (hr : r < P) {b : Box2} (I : In32_2 b)
    (h : o.NoOverflow b) (w : Mem ℝ) : o.initialize32 rnd r b b.count w = o.initialize rnd r b w ∧
      o.validate32 rnd r b b.count w = o.validate rnd r b w := by
  have c0 : 0 ≤ b.count := by rw [← Box2.lift_count]; exact count_nonneg _
  have e := nfft2_eq I.1
  obtain ⟨s1, -⟩ := I.sizes
  unfold Opt2.NoOverflow int32Max at h
  unfold Opt2.initialize32 Opt2.initialize Opt2.validate32 Opt2.validate
  cases hi : o.iflag with
  | zero =>
    simp only [hi] at h ⊢
    unfold fillZero32 fillZero checkZero32 checkZero
    rw [two_mul32 c0 h, Option.bind_some, Option.bind_some, e]
    exact ⟨rfl, rfl⟩
  | step =>
    simp only [hi] at h ⊢
    rw [s1, Option.bind_some, Option.bind_some, e]
    have hp : ∀ m, 0 ≤ m → m < b.count → point2_32 b b.isize m = point2 b m := fun m h0 h1 =>
      point2_32_eq I (by omega) h0 (by rw [e]; exact h1)
    exact ⟨fillAt32_eq h c0 hp (fun m g _ _ _ => rfl) w, checkAt32_eq h c0 hp (fun m g _ _ _ => rfl) w⟩
  | index =>
    simp only [hi] at h ⊢
    rw [s1, Option.bind_some, Option.bind_some, e]
    have hp : ∀ m, 0 ≤ m → m < b.count → point2_32 b b.isize m = point2 b m := fun m h0 h1 =>
      point2_32_eq I (by omega) h0 (by rw [e]; exact h1)
    exact ⟨fillAt32_eq h.1 c0 hp (fun m g h0 h1 hg => index_val2 I h.2 h0 (by rw [e]; exact h1) hg) w,
      checkAt32_eq h.1 c0 hp (fun m g h0 h1 hg => index_val2 I h.2 h0 (by rw [e]; exact h1) hg) w⟩
  | random n =>
    simp only [hi] at h ⊢
    have hs := ho.seed n hi r hr
    unfold fillRandom32 fillRandom checkRandom32 checkRandom
    rw [add32_eq (fits_of (by omega) (by omega)), Option.bind_some, Option.bind_some, two_mul32 c0 h, Option.bind_some,
      Option.bind_some, e]
    exact ⟨rfl, rfl⟩

theorem initialize32_2d_none {o : Opt2} {r : Nat} {b : Box2} (I : In32_2 b) (hc : b.count ≤ int32Max)
    (h : ¬o.NoOverflow b) (w : Mem ℝ) : o.initialize32 rnd r b b.count w = none ∧ o.validate32 rnd r b b.count w = none := by
  have e := nfft2_eq I.1
  obtain ⟨s1, -⟩ := I.sizes
  unfold Opt2.NoOverflow at h
  unfold int32Max at h hc
  unfold Opt2.initialize32 Opt2.validate32
  cases hi : o.iflag with
  | zero =>
    simp only [hi] at h ⊢
    unfold fillZero32 checkZero32
    rw [two_mul32_none (by omega)]
    exact ⟨rfl, rfl⟩
  | step =>
    simp only [hi] at h ⊢
    rw [s1, Option.bind_some, Option.bind_some]
    exact ⟨fillAt32_none (by omega) _ _ _, checkAt32_none (by omega) _ _ _⟩
  | index =>
    simp only [hi] at h ⊢
    rw [s1, Option.bind_some, Option.bind_some]
    by_cases h1 : 2 * b.count - 1 ≤ 2147483647
    · have h2 : ¬∀ i j, b.Has i j → i + j + 1 ≤ 2147483647 := fun h2 => h ⟨h1, h2⟩
      push Not at h2
      obtain ⟨i, j, hh, h2⟩ := h2
      have l0 : 0 ≤ addr2 0 b 1 i j 0 ∧ addr2 0 b 1 i j 0 < b.count := by
        have h1 := addr2_range (permute := 0) (Or.inl rfl) (nqty := 1) (q := 0) hh (by decide)
        omega
      have hv : ∀ g, point2_32 b b.isize (addr2 0 b 1 i j 0) = some g → indexAt2_32 g = none := by
        intro g hg
        rw [point2_32_eq I (by omega) l0.1 (by rw [e]; exact l0.2), point2_addr hh] at hg
        cases hg
        exact indexAt2_32_none h2
      exact ⟨fillAt32_none_val l0.1 l0.2 hv w, checkAt32_none_val l0.1 l0.2 hv w⟩
    · exact ⟨fillAt32_none (by omega) _ _ _, checkAt32_none (by omega) _ _ _⟩
  | random n =>
    simp only [hi] at h ⊢
    unfold fillRandom32 checkRandom32
    rw [two_mul32_none (by omega)]
    exact ⟨bind_none' _ fun _ => rfl, bind_none' _ fun _ => rfl⟩

/-- Elements of an accessible array. -/
theorem values_of {w : Mem ℝ} {n : Int} (hw : accessible w 0 (2 * n)) :
    ∃ v : Int → ℝ, ∀ x, 0 ≤ x → x < 2 * n → w x = some (v x) := by
  refine ⟨fun x => (w x).getD 0, fun x h0 h1 => ?_⟩
  have := hw x (by omega) (by omega)
  obtain ⟨y, hy⟩ := Option.isSome_iff_exists.mp this
  simp [hy]

/-- **C76 (`initialize` and `validate`, 3d).**  For a box in a grid of `int` dimensions with at most INT_MAX points and
an array for the points: `initialize` and `validate` are free of overflow exactly under `NoOverflow`, and then do what
the functions on unbounded integers do. -/
theorem C76_initialize_iff {o : Opt3} {P r : Nat} (ho : o.Accepted P) (hr : r < P) {b : Box3} (hb : b.Proper)
    (hw : b.Within o.nx o.ny o.nz) (hc : b.count ≤ int32Max) {w : Mem ℝ} (hm : accessible w 0 (2 * b.count)) :
    ((o.initialize32 rnd r b b.count w).isSome ↔ o.NoOverflow b) ∧
    ((o.validate32 rnd r b b.count w).isSome ↔ o.NoOverflow b) ∧
    (o.NoOverflow b → o.initialize32 rnd r b b.count w = o.initialize rnd r b w ∧
      o.validate32 rnd r b b.count w = o.validate rnd r b w) := by
  have I := in32_of ho ⟨hb, hw⟩
  by_cases h : o.NoOverflow b
  · obtain ⟨h1, h2⟩ := initialize32_eq (rnd := rnd) ho hr I h w
    have f1 := Opt3.initialize_fills rnd hb (seedOk3 ho hr) w (by rw [nfft3_eq hb]; exact hm)
    obtain ⟨v, hv⟩ := values_of hm
    obtain ⟨eps, f2, -⟩ := Opt3.validate_checks rnd hb (seedOk3 ho hr) w v (by rw [nfft3_eq hb]; exact hv)
    refine ⟨⟨fun _ => h, fun _ => by rw [h1, f1]; rfl⟩, ⟨fun _ => h, fun _ => by rw [h2, f2]; rfl⟩, fun _ => ⟨h1, h2⟩⟩
  · obtain ⟨h1, h2⟩ := initialize32_none (rnd := rnd) (r := r) I hc h w
    rw [h1, h2]
    simp [h]

/-- **C76 (`initialize` and `validate`, 2d).** -/
theorem C76_initialize_iff_2d {o : Opt2} {P r : Nat} (ho : o.Accepted P) (hr : r < P) {b : Box2} (hb : b.Proper)
    (hw : b.Within o.nx o.ny) (hc : b.count ≤ int32Max) {w : Mem ℝ} (hm : accessible w 0 (2 * b.count)) :
    ((o.initialize32 rnd r b b.count w).isSome ↔ o.NoOverflow b) ∧
    ((o.validate32 rnd r b b.count w).isSome ↔ o.NoOverflow b) ∧
    (o.NoOverflow b → o.initialize32 rnd r b b.count w = o.initialize rnd r b w ∧
      o.validate32 rnd r b b.count w = o.validate rnd r b w) := by
  have I := in32_2_of ho ⟨hb, hw⟩
  by_cases h : o.NoOverflow b
  · obtain ⟨h1, h2⟩ := initialize32_2d_eq (rnd := rnd) ho hr I h w
    have f1 := Opt2.initialize_fills rnd hb (seedOk2 ho hr) w (by rw [nfft2_eq hb]; exact hm)
    obtain ⟨v, hv⟩ := values_of hm
    obtain ⟨eps, f2, -⟩ := Opt2.validate_checks rnd hb (seedOk2 ho hr) w v (by rw [nfft2_eq hb]; exact hv)
    refine ⟨⟨fun _ => h, fun _ => by rw [h1, f1]; rfl⟩, ⟨fun _ => h, fun _ => by rw [h2, f2]; rfl⟩, fun _ => ⟨h1, h2⟩⟩
  · obtain ⟨h1, h2⟩ := initialize32_2d_none (rnd := rnd) (r := r) I hc h w
    rw [h1, h2]
    simp [h]

/-- **C76 (`output`).**  With at most 2^30 points (the last index `2*m+1` fits), and for the final partition if no rank
has more points on input than on output (C63), `output` is free of overflow. -/
theorem C76_output {o : Opt3} {P : Nat} (ho : o.Accepted P) {b b' : Box3} (hb : b.Proper ∧ b.Within o.nx o.ny o.nz)
    (hb' : b'.Proper ∧ b'.Within o.nx o.ny o.nz) (h : 2 * b.count - 1 ≤ int32Max) (h' : b'.count ≤ int32Max) (w : Mem ℝ) :
    output3_32 0 b b' b.count w = output3 0 b b' w ∧
      (b.count ≤ b'.count → output3_32 1 b b' b.count w = output3 1 b b' w) := by
  unfold int32Max at *
  have I := in32_of ho hb
  have I' := in32_of ho hb'
  have c0 := count_nonneg b
  have e := nfft3_eq hb.1
  have e' := nfft3_eq hb'.1
  obtain ⟨s1, s2, -⟩ := I.sizes
  obtain ⟨t1, t2, -⟩ := I'.sizes
  unfold output3_32 output3
  constructor
  · dsimp only
    simp only [if_true]
    rw [s1, Option.bind_some, s2, Option.bind_some, e]
    exact printed32_eq h c0 (fun m h0 h1 => point3_32_eq I (by omega) h0 (by rw [e]; exact h1)) w
  · intro hc
    dsimp only
    simp only [one_ne_zero, if_false]
    rw [t1, Option.bind_some, t2, Option.bind_some, e]
    exact printed32_eq h c0 (fun m h0 h1 => point3_32_eq I' (by omega) h0 (by omega)) w

/-- **C76 (`output`, 2d).** -/
theorem C76_output_2d {o : Opt2} {P : Nat} (ho : o.Accepted P) {b b' : Box2} (hb : b.Proper ∧ b.Within o.nx o.ny)
    (hb' : b'.Proper ∧ b'.Within o.nx o.ny) (h : 2 * b.count - 1 ≤ int32Max) (h' : b'.count ≤ int32Max) (w : Mem ℝ) :
    output2_32 0 b b' b.count w = output2 0 b b' w ∧
      (b.count ≤ b'.count → output2_32 1 b b' b.count w = output2 1 b b' w) := by
  unfold int32Max at *
  have I := in32_2_of ho hb
  have I' := in32_2_of ho hb'
  have c0 : 0 ≤ b.count := by rw [← Box2.lift_count]; exact count_nonneg _
  have e := nfft2_eq hb.1
  have e' := nfft2_eq hb'.1
  obtain ⟨s1, -⟩ := I.sizes
  obtain ⟨t1, -⟩ := I'.sizes
  unfold output2_32 output2
  constructor
  · dsimp only
    simp only [if_true]
    rw [s1, Option.bind_some, e]
    exact printed32_eq h c0 (fun m h0 h1 => point2_32_eq I (by omega) h0 (by rw [e]; exact h1)) w
  · intro hc
    dsimp only
    simp only [one_ne_zero, if_false]
    rw [t1, Option.bind_some, e]
    exact printed32_eq h c0 (fun m h0 h1 => point2_32_eq I' (by omega) h0 (by omega)) w

/-! ## Statistics and memory -/

/-- **C76 (`timing`).**  `nfft = 2*nloop` overflows exactly if more than 2^30-1 passes were asked for in the modes 0
and 1. -/
theorem C76_count_iff {mode : Nat} {nloop : Int} (h0 : 0 ≤ nloop) :
    ((count32 mode nloop).isSome ↔ (mode < 2 → nloop ≤ 1073741823)) ∧
      ((mode < 2 → nloop ≤ 1073741823) → count32 mode nloop = some (if mode < 2 then 2 * nloop else nloop)) := by
  unfold count32
  by_cases h : mode < 2
  · simp only [h, if_true, true_imp_iff]
    rw [mul32_iff (by omega) h0]
    exact ⟨by omega, fun h1 => two_mul32 h0 (by omega)⟩
  · simp [h]

/-- **C76 (`allocate`).**  The number of bytes is computed in 64 bits and never overflows; the same number in `tune`,
computed from `user_fftsize*2` in 32 bits (fft3d.cpp:776, 906, 949; fft2d.cpp:727, 855, 895), overflows from 2^30
points on. -/
theorem C76_bytes {sz fftsize : Int} (hs : 0 ≤ sz ∧ sz ≤ 16) (hf : 0 ≤ fftsize ∧ fftsize ≤ int32Max) :
    gridBytes64 sz fftsize = some (sz * 2 * fftsize) ∧ ((tuneBytes32 sz fftsize).isSome ↔ 2 * fftsize ≤ int32Max) ∧
      (2 * fftsize ≤ int32Max → tuneBytes32 sz fftsize = some (sz * 2 * fftsize)) := by
  unfold int32Max at *
  have h1 : 0 ≤ sz * 2 * fftsize := mul_nonneg (by omega) hf.1
  have h2 : sz * 2 * fftsize ≤ 32 * 2147483647 := by nlinarith
  unfold gridBytes64 mul64 ck64 tuneBytes32
  rw [if_pos (by unfold Fits64; omega), Option.bind_some, if_pos (by unfold Fits64; omega)]
  have h3 := mul32_iff hf.1 (by norm_num : (0 : Int) ≤ 2)
  refine ⟨rfl, ?_, ?_⟩
  · rw [Option.isSome_map, h3]
    omega
  · intro h
    rw [mul32_eq (fits_of (by omega) (by omega)), Option.map_some]
    congr 1
    ring

/-! ## Whole programs -/

theorem loop3_32_eq {f f' : Fft3 ℝ} (h : ∀ J scaled remaponly flag ai ao,
    f'.compute32 J scaled remaponly flag ai ao = f.compute J scaled remaponly flag ai ao) (rflag : Bool) (mode : Nat)
    (J J' : Nat → Nat → Junk) (n : Nat) : loop3_32 f' rflag mode J J' n = loop3 f rflag mode J J' n := by
  induction n with
  | zero => rfl
  | succ n ih =>
    unfold loop3_32 loop3
    rw [ih, h, h]

theorem loop2_32_eq {f f' : Fft2 ℝ} (h : ∀ J scaled remaponly flag ai ao,
    f'.compute32 J scaled remaponly flag ai ao = f.compute J scaled remaponly flag ai ao) (rflag : Bool) (mode : Nat)
    (J J' : Nat → Nat → Junk) (n : Nat) : loop2_32 f' rflag mode J J' n = loop2 f rflag mode J J' n := by
  induction n with
  | zero => rfl
  | succ n ih =>
    unfold loop2_32 loop2
    rw [ih, h, h]

theorem small_count {b : Box3} (hv : 4 * (max 1 b.isize * max 1 b.jsize * max 1 b.ksize) ≤ int32Max) :
    2 * b.count ≤ int32Max := by
  have c0 := count_nonneg b
  have : b.count ≤ max 1 b.isize * max 1 b.jsize * max 1 b.ksize := by
    unfold Box3.count
    have a1 : max b.isize 0 ≤ max 1 b.isize := by omega
    have a2 : max b.jsize 0 ≤ max 1 b.jsize := by omega
    have a3 : max b.ksize 0 ≤ max 1 b.ksize := by omega
    have p1 : 0 ≤ max b.isize 0 := by omega
    have p2 : 0 ≤ max b.jsize 0 := by omega
    have p3 : 0 ≤ max b.ksize 0 := by omega
    exact mul_le_mul (mul_le_mul a1 a2 p2 (by omega)) a3 p3 (by positivity)
  omega

theorem small_count2 {b : Box2} (hv : 4 * (max 1 b.isize * max 1 b.jsize) ≤ int32Max) :
    2 * b.count ≤ int32Max := by
  have c0 : 0 ≤ b.count := by rw [← Box2.lift_count]; exact count_nonneg _
  have : b.count ≤ max 1 b.isize * max 1 b.jsize := by
    unfold Box2.count
    have a1 : max b.isize 0 ≤ max 1 b.isize := by omega
    have a2 : max b.jsize 0 ≤ max 1 b.jsize := by omega
    have p2 : 0 ≤ max b.jsize 0 := by omega
    exact mul_le_mul a1 a2 p2 (by omega)
  omega

theorem epsmax_congr {P : Nat} {u v : Nat → Option ℝ} (h : ∀ r < P, u r = v r) : epsmax P u = epsmax P v := by
  induction P with
  | zero => rfl
  | succ P ih =>
    cases P with
    | zero => exact h 0 (by omega)
    | succ P =>
      unfold epsmax
      rw [ih fun r hr => h r (by omega), h (P + 1) (by omega)]

/-- **C76 (test3d).**  Whatever `test3d` is asked to do within the limits of the library (`Args3.Small`, C49; an
`FFT_SCALAR` has at least 2 bytes), no `int` operation from `proc_setup` to `validate` overflows, and every rank
executes the program of the model with unbounded integers: the boxes, the objects, `initialize`, the timed loop,
`validate` and the first `output` agree. -/
theorem C76_test3d_same (R : Rounding rnd) {o : Opt3} {P : Nat} (ho : o.Accepted P) (hs : o.Small P) {sz : Int}
    (hsz : 2 ≤ sz) {a : Args3} (ha : o.args rnd P = some a) (hv : a.Valid P) (hsm : a.Small sz P o.eflag) :
    ∃ (p q : Nat × Nat × Nat) (f f' : Nat → Fft3 ℝ),
      o.inGrid32 rnd P = some (some p) ∧ o.outGrid32 rnd P = some (some q) ∧
      SetUp3 P a o.settings f ∧ SetUp3_32 sz P a o.settings f' ∧
      ∀ r < P, gridSetup3_32 rnd p q o.nx o.ny o.nz r =
          some ((a.ins r, (a.ins r).count), (a.outs r, (a.outs r).count)) ∧
        (f' r).fftsize = (f r).fftsize ∧ (f' r).sendsize = (f r).sendsize ∧ (f' r).recvsize = (f r).recvsize ∧
        (∀ J J', o.run32 rnd r (a.ins r) (a.ins r).count (f' r) J J' = o.run rnd r (a.ins r) (f r) J J') ∧
        (∀ w, o.validate32 rnd r (a.ins r) (a.ins r).count w = o.validate rnd r (a.ins r) w) ∧
        ∀ w, output3_32 0 (a.ins r) (a.outs r) (a.ins r).count w = output3 0 (a.ins r) (a.outs r) w := by
  have hst : o.settings.Valid := by
    unfold Settings.Valid Opt3.settings
    exact ho.pflag
  have hP := hsm.boxes.procs
  have hP0 := ho.procs
  obtain ⟨g1, g2⟩ := grids3_32 R ho (by unfold int32Max at *; omega)
  obtain ⟨p, h1, h2⟩ := inGrid3_ok R ho
  obtain ⟨q, h3, h4⟩ := outGrid3_ok R ho
  obtain ⟨f, S⟩ := setUp3_exists hv hst
  have H := fun (r : Nat) (hr : r < P) => C49_partial (st := o.settings) hsm hv hst r hr
  have D : ∀ r, ∃ f' : Fft3 ℝ, r < P → fft3Setup32 sz P r a o.settings = some (.ok f') := by
    intro r
    by_cases hr : r < P
    · obtain ⟨_, f', _, h, _⟩ := H r hr
      exact ⟨f', fun _ => h⟩
    · exact ⟨f r, fun h => absurd h hr⟩
  choose f' hf' using D
  have ha' := ha
  unfold Opt3.args at ha'
  rw [h1, h3] at ha'
  simp only [Option.bind_some, Option.map_some, Option.some.injEq] at ha'
  obtain ⟨g, hg, -⟩ := setupGrids_ok hv.round hv.procs hv.fast hv.mid hv.slow o.eflag
  have V : ∀ r < P, ∀ b, b = a.ins r ∨ b = a.outs r → 4 * (max 1 b.isize * max 1 b.jsize * max 1 b.ksize) ≤ int32Max := by
    intro r hr b hb
    exact hsm.boxes.vol g hg r hr b (by tauto)
  have i1 : ∀ r, a.ins r = box3 rnd p o.nx o.ny o.nz r := fun r => by rw [← ha']
  have i2 : ∀ r, a.outs r = box3 rnd q o.nx o.ny o.nz r := fun r => by rw [← ha']
  have G1 := (box3_good R ho hs h2).2
  have G2 := (box3_good R ho hs h4).2
  refine ⟨p, q, f, f', by rw [g1, h1], by rw [g2, h3], S, fun r hr => hf' r hr, ?_⟩
  intro r hr
  obtain ⟨k1, k1', q1, q2, ⟨-, -, q3, q4, q5⟩, q6, -⟩ := H r hr
  have e1 := (S.result r hr).symm.trans q1
  have e2 := (hf' r hr).symm.trans q2
  simp only [Option.some.injEq, Except.ok.injEq] at e1 e2
  have b1 : (a.ins r).Proper ∧ (a.ins r).Within o.nx o.ny o.nz := by rw [i1]; exact G1 r hr
  have b2 : (a.outs r).Proper ∧ (a.outs r).Within o.nx o.ny o.nz := by rw [i2]; exact G2 r hr
  have c1 := small_count (V r hr _ (Or.inl rfl))
  have c2 := small_count (V r hr _ (Or.inr rfl))
  have nofl : o.NoOverflow (a.ins r) := by
    unfold Opt3.NoOverflow
    cases o.iflag with
    | zero => exact c1
    | step => simp only; omega
    | random n => exact c1
    | index =>
      refine ⟨by omega, fun i j k hh => ?_⟩
      obtain ⟨⟨w1, w2⟩, ⟨w3, w4⟩, w5, w6⟩ := b1.2
      have d : ∀ n : Int, 0 ≤ n → 2 * sz * n ≤ int32Max → 4 * n ≤ int32Max := by
        intro n h0 h
        have : 2 * n ≤ sz * n := mul_le_mul_of_nonneg_right hsz h0
        have e : 2 * sz * n = 2 * (sz * n) := by ring
        omega
      have d1 := d o.nx (by omega) (hsm.boxes.bytes o.nx (Or.inl (by rw [← ha'])))
      have d2 := d o.ny (by omega) (hsm.boxes.bytes o.ny (Or.inr (Or.inl (by rw [← ha']))))
      have d3 := d o.nz (by omega) (hsm.boxes.bytes o.nz (Or.inr (Or.inr (by rw [← ha']))))
      unfold Box3.Has at hh
      unfold int32Max at *
      omega
  have I1 := in32_of ho b1
  refine ⟨?_, by rw [e1, e2, q3], by rw [e1, e2, q4], by rw [e1, e2, q5], fun J J' => ?_,
    fun w => (initialize32_eq ho hr I1 nofl w).2, fun w => (C76_output ho b1 b2 (by omega) (by
      have := count_nonneg (a.outs r); omega) w).1⟩
  · rw [i1, i2]
    refine (C76_grid_iff R ho hs (by unfold int32Max at *; omega) h2 h4).2.2 ?_ r hr
    intro r hr
    have c1 := small_count (b := box3 rnd p o.nx o.ny o.nz r) (by rw [← i1]; exact V r hr _ (Or.inl rfl))
    have c2 := small_count (b := box3 rnd q o.nx o.ny o.nz r) (by rw [← i2]; exact V r hr _ (Or.inr rfl))
    have := count_nonneg (box3 rnd p o.nx o.ny o.nz r)
    have := count_nonneg (box3 rnd q o.nx o.ny o.nz r)
    omega
  · unfold Opt3.run32 Opt3.run
    have e3 : o.initialize32 rnd r (a.ins r) (a.ins r).count = o.initialize rnd r (a.ins r) :=
      funext fun w => (initialize32_eq ho hr I1 nofl w).1
    rw [e3, e1, e2, loop3_32_eq q6]

/-- **C76 (test3d in mode 0).**  `C61_test3d` on 32-bit integers: within the limits of the library the validation
prints 0. -/
theorem C76_test3d (R : Rounding rnd) {o : Opt3} {P : Nat} (ho : o.Accepted P) (hs : o.Small P)
    (hx : Supported o.nx) (hy : Supported o.ny) (hz : Supported o.nz) (hm : o.mode = 0) (hp : o.pin = o.pout) {sz : Int}
    (hsz : 2 ≤ sz) (hsm : ∀ a, o.args rnd P = some a → a.Small sz P o.eflag) :
    ∃ (a : Args3) (f : Nat → Fft3 ℝ), o.args rnd P = some a ∧ SetUp3_32 sz P a o.settings f ∧
      ∀ (e : Bool) (J J' : Nat → Nat → Nat → Junk) (m : Nat → LMem ℝ),
        (∀ r < P, accessible ((m r).ub 0) 0 (2 * (f r).fftsize) ∧ accessible (m r).sb 0 (f r).sendsize ∧
          accessible (m r).rb 0 (f r).recvsize) →
        ∃ m', Terminates e P (fun r => o.run32 rnd r (a.ins r) (a.ins r).count (f r) (J r) (J' r)) m m' ∧
          epsmax P (fun r => o.validate32 rnd r (a.ins r) (a.ins r).count ((m' r).ub 0)) = some 0 := by
  obtain ⟨a, f, ha, hf, H⟩ := C61_test3d R ho hs hx hy hz hm hp
  obtain ⟨a', ha', hv, -⟩ := C60_args_valid R ho hs hx hy hz
  rw [ha] at ha'
  cases ha'
  obtain ⟨p, q, g, f', -, -, S, S', K⟩ := C76_test3d_same R ho hs hsz ha hv (hsm a ha)
  have eg : ∀ r < P, g r = f r := by
    intro r hr
    have := (S.result r hr).symm.trans (hf r hr)
    simpa using this
  refine ⟨a, f', ha, S', ?_⟩
  intro e J J' m hmem
  obtain ⟨m', t1, t2⟩ := H e J J' m (fun r hr => by
    obtain ⟨-, k1, k2, k3, -⟩ := K r hr
    rw [← eg r hr, ← k1, ← k2, ← k3]
    exact hmem r hr)
  refine ⟨m', t1.congr fun r hr => ?_, ?_⟩
  · rw [← eg r hr]
    exact (K r hr).2.2.2.2.1 _ _
  · rw [← t2]
    exact epsmax_congr fun r hr => (K r hr).2.2.2.2.2.1 _

/-- **C76 (test2d).**  The same for `test2d` within the limits of C50. -/
theorem C76_test2d_same (R : Rounding rnd) {o : Opt2} {P : Nat} (ho : o.Accepted P) (hs : o.Small P) {w sz : Int}
    (hsz : 1 ≤ sz) (hw : 8 = w * sz) (hpf : o.pflag = 2 → w = 1) {a : Args2} (ha : o.args rnd P = some a) (hv : a.Valid P)
    (hsm : a.Small P o.eflag) :
    ∃ (p q : Nat × Nat) (f f' : Nat → Fft2 ℝ),
      o.inGrid32 rnd P = some (some p) ∧ o.outGrid P = some q ∧
      SetUp2 w P a o.settings f ∧ SetUp2_32 w sz P a o.settings f' ∧
      ∀ r < P, gridSetup2_32 rnd p q o.nx o.ny r =
          some ((a.ins r, (a.ins r).count), (a.outs r, (a.outs r).count)) ∧
        (f' r).fftsize = (f r).fftsize ∧ (f' r).sendsize = (f r).sendsize ∧ (f' r).recvsize = (f r).recvsize ∧
        (∀ J J', o.run32 rnd r (a.ins r) (a.ins r).count (f' r) J J' = o.run rnd r (a.ins r) (f r) J J') ∧
        (∀ w, o.validate32 rnd r (a.ins r) (a.ins r).count w = o.validate rnd r (a.ins r) w) ∧
        ∀ w, output2_32 0 (a.ins r) (a.outs r) (a.ins r).count w = output2 0 (a.ins r) (a.outs r) w := by
  have hst : o.settings.Valid2 w := by
    unfold Settings.Valid2 FlagOk2 Opt2.settings
    have := ho.pflag
    tauto
  have hP := hsm.boxes.procs
  have hP0 := ho.procs
  have g1 := grids2_32 R ho (by unfold int32Max at *; omega)
  obtain ⟨p, h1, h2⟩ := inGrid2_ok R ho
  obtain ⟨q, h3, h4⟩ := outGrid2_ok ho
  obtain ⟨f, S⟩ := setUp2_exists hv hst
  have H := fun (r : Nat) (hr : r < P) => C50_partial (st := o.settings) hsz hw hsm hv hst r hr
  have D : ∀ r, ∃ f' : Fft2 ℝ, r < P → fft2Setup32 w sz P r a o.settings = some (.ok f') := by
    intro r
    by_cases hr : r < P
    · obtain ⟨_, f', _, h, _⟩ := H r hr
      exact ⟨f', fun _ => h⟩
    · exact ⟨f r, fun h => absurd h hr⟩
  choose f' hf' using D
  have ha' := ha
  unfold Opt2.args at ha'
  rw [h1, h3] at ha'
  simp only [Option.bind_some, Option.map_some, Option.some.injEq] at ha'
  obtain ⟨g, hg, -⟩ := setupBrick2_ok hv.round hv.procs hv.fast hv.slow o.eflag
  have V : ∀ r < P, ∀ b, b = a.ins r ∨ b = a.outs r → 4 * (max 1 b.isize * max 1 b.jsize) ≤ int32Max := by
    intro r hr b hb
    exact hsm.boxes.vol g hg r hr b (by tauto)
  have i1 : ∀ r, a.ins r = box2 rnd p o.nx o.ny r := fun r => by rw [← ha']
  have i2 : ∀ r, a.outs r = box2 rnd q o.nx o.ny r := fun r => by rw [← ha']
  have G1 := (box2_good R ho hs h2).2
  have G2 := (box2_good R ho hs h4).2
  refine ⟨p, q, f, f', by rw [g1, h1], h3, S, fun r hr => hf' r hr, ?_⟩
  intro r hr
  obtain ⟨k1, k1', q1, q2, ⟨-, -, q3, q4, q5⟩, q6, -⟩ := H r hr
  have e1 := (S.result r hr).symm.trans q1
  have e2 := (hf' r hr).symm.trans q2
  simp only [Option.some.injEq, Except.ok.injEq] at e1 e2
  have b1 : (a.ins r).Proper ∧ (a.ins r).Within o.nx o.ny := by rw [i1]; exact G1 r hr
  have b2 : (a.outs r).Proper ∧ (a.outs r).Within o.nx o.ny := by rw [i2]; exact G2 r hr
  have c1 := small_count2 (V r hr _ (Or.inl rfl))
  have c2 := small_count2 (V r hr _ (Or.inr rfl))
  have z1 : 0 ≤ (a.ins r).count := by rw [← Box2.lift_count]; exact count_nonneg _
  have z2 : 0 ≤ (a.outs r).count := by rw [← Box2.lift_count]; exact count_nonneg _
  have nofl : o.NoOverflow (a.ins r) := by
    unfold Opt2.NoOverflow
    cases o.iflag with
    | zero => exact c1
    | step => simp only; omega
    | random n => exact c1
    | index =>
      refine ⟨by omega, fun i j hh => ?_⟩
      obtain ⟨⟨w1, w2⟩, w3, w4⟩ := b1.2
      have d1 := hsm.boxes.bytes o.nx (Or.inl (by rw [← ha']))
      have d2 := hsm.boxes.bytes o.ny (Or.inr (by rw [← ha']))
      unfold Box2.Has at hh
      unfold int32Max at *
      omega
  have I1 := in32_2_of ho b1
  refine ⟨?_, by rw [e1, e2, q3], by rw [e1, e2, q4], by rw [e1, e2, q5], fun J J' => ?_,
    fun w => (initialize32_2d_eq ho hr I1 nofl w).2, fun w => (C76_output_2d ho b1 b2 (by omega) (by omega) w).1⟩
  · rw [i1] at c1 z1
    rw [i2] at c2 z2
    rw [i1, i2]
    exact (C76_grid_iff_2d R ho hs (by unfold int32Max at *; omega) h2 h4 hr).2.2 ⟨by omega, by omega⟩
  · unfold Opt2.run32 Opt2.run
    have e3 : o.initialize32 rnd r (a.ins r) (a.ins r).count = o.initialize rnd r (a.ins r) :=
      funext fun w => (initialize32_2d_eq ho hr I1 nofl w).1
    rw [e3, e1, e2, loop2_32_eq q6]

/-- **C76 (test2d in mode 0).**  `C61_test2d` on 32-bit integers. -/
theorem C76_test2d (R : Rounding rnd) {o : Opt2} {P : Nat} (ho : o.Accepted P) (hs : o.Small P) {w sz : Int}
    (hsz : 1 ≤ sz) (hw : 8 = w * sz) (hpf : o.pflag = 2 → w = 1) (hx : Supported o.nx) (hy : Supported o.ny)
    (hm : o.mode = 0) (hp : o.pin = o.pout) (hg : o.pin ≠ (0, 0)) (hsm : ∀ a, o.args rnd P = some a → a.Small P o.eflag) :
    ∃ (a : Args2) (f : Nat → Fft2 ℝ), o.args rnd P = some a ∧ SetUp2_32 w sz P a o.settings f ∧
      ∀ (e : Bool) (J J' : Nat → Nat → Nat → Junk) (m : Nat → LMem ℝ),
        (∀ r < P, accessible ((m r).ub 0) 0 (2 * (f r).fftsize) ∧ accessible (m r).sb 0 (f r).sendsize ∧
          accessible (m r).rb 0 (f r).recvsize) →
        ∃ m', Terminates e P (fun r => o.run32 rnd r (a.ins r) (a.ins r).count (f r) (J r) (J' r)) m m' ∧
          epsmax P (fun r => o.validate32 rnd r (a.ins r) (a.ins r).count ((m' r).ub 0)) = some 0 := by
  obtain ⟨a, f, ha, hf, H⟩ := C61_test2d R ho hs hpf hx hy hm hp hg
  obtain ⟨a', ha', hv, -⟩ := C60_args_valid_2d_partial R ho hs hx hy (Or.inl hm)
  rw [ha] at ha'
  cases ha'
  obtain ⟨p, q, g, f', -, -, S, S', K⟩ := C76_test2d_same R ho hs hsz hw hpf ha hv (hsm a ha)
  have eg : ∀ r < P, g r = f r := by
    intro r hr
    have := (S.result r hr).symm.trans (hf r hr)
    simpa using this
  refine ⟨a, f', ha, S', ?_⟩
  intro e J J' m hmem
  obtain ⟨m', t1, t2⟩ := H e J J' m (fun r hr => by
    obtain ⟨-, k1, k2, k3, -⟩ := K r hr
    rw [← eg r hr, ← k1, ← k2, ← k3]
    exact hmem r hr)
  refine ⟨m', t1.congr fun r hr => ?_, ?_⟩
  · rw [← eg r hr]
    exact (K r hr).2.2.2.2.1 _ _
  · rw [← t2]
    exact epsmax_congr fun r hr => (K r hr).2.2.2.2.2.1 _

/-! ## Examples and limits -/

/-- Grids that are small as a whole are within the limits of the library. -/
theorem small_of_grid3 (R : Rounding rnd) {o : Opt3} {P : Nat} (ho : o.Accepted P) (hs : o.Small P)
    (hx : Supported o.nx) (hy : Supported o.ny) (hz : Supported o.nz) {sz : Int} (hsz : 1 ≤ sz)
    (hP : 7 * (P : Int) ≤ int32Max) (hg : 4 * ((o.nx : Int) * o.ny * o.nz) ≤ int32Max)
    (hb : ∀ n, n = o.nx ∨ n = o.ny ∨ n = o.nz → 2 * sz * n ≤ int32Max ∧ (P : Int) * n ≤ int32Max) {a : Args3}
    (ha : o.args rnd P = some a) : a.Small sz P o.eflag := by
  obtain ⟨a', ha', hv, d1, d2, d3⟩ := C60_args_valid R ho hs hx hy hz
  rw [ha] at ha'
  cases ha'
  obtain ⟨p, h1, h2⟩ := inGrid3_ok R ho
  obtain ⟨q, h3, h4⟩ := outGrid3_ok R ho
  have i2 : ∀ r, a.outs r = box3 rnd q o.nx o.ny o.nz r := by
    intro r
    unfold Opt3.args at ha
    rw [h1, h3] at ha
    simp only [Option.bind_some, Option.map_some, Option.some.injEq] at ha
    rw [← ha]
  refine ⟨Args3.SmallBoxes.of_grid hsz hv hP (by rw [d1, d2, d3]; exact hg) ?_ ?_ _, ?_⟩
  · rintro n (h | h | h)
    · rw [h, d1]; exact (hb _ (Or.inl rfl)).1
    · rw [h, d2]; exact (hb _ (Or.inr (Or.inl rfl))).1
    · rw [h, d3]; exact (hb _ (Or.inr (Or.inr rfl))).1
  · intro r hr
    rw [i2, d1, d2, d3]
    exact ((box3_good R ho hs h4).2 r hr).2
  · rintro n (h | h | h)
    · rw [h, d1]; exact (hb _ (Or.inl rfl)).2
    · rw [h, d2]; exact (hb _ (Or.inr (Or.inl rfl))).2
    · rw [h, d3]; exact (hb _ (Or.inr (Or.inr rfl))).2

/-- The hypotheses of `C76_test3d` with 7 ranks, a 60 x 8 x 8 grid of `double`, random data and 10 passes. -/
example : let o : Opt3 := { default3 with iflag := .random 1, nloop := 10, nx := 60 }
    ∃ (a : Args3) (f : Nat → Fft3 ℝ), o.args rnd53 7 = some a ∧ SetUp3_32 8 7 a o.settings f := by
  intro o
  have ho : o.Accepted 7 := { default3_accepted (P := 7) (by decide) with
    nx := by decide
    seed := by
      intro n hn r hr
      cases hn
      omega }
  have hs : o.Small 7 := by simp [o, Opt3.Small, default3]
  have hx : Supported o.nx := supported_of (k := 3) (by decide) (by decide)
  have hy : Supported o.ny := supported_of (k := 3) (by decide) (by decide)
  have hz : Supported o.nz := supported_of (k := 3) (by decide) (by decide)
  obtain ⟨a, f, h1, h2, -⟩ := C76_test3d rounding53 ho hs hx hy hz rfl rfl (sz := 8) (by norm_num) fun a ha =>
    small_of_grid3 rounding53 ho hs hx hy hz (by norm_num) (by norm_num [int32Max]) (by norm_num [int32Max, o, default3])
      (by rintro n (rfl | rfl | rfl) <;> norm_num [int32Max, o, default3]) ha
  exact ⟨a, f, h1, h2⟩

theorem small_of_grid2 (R : Rounding rnd) {o : Opt2} {P : Nat} (ho : o.Accepted P) (hs : o.Small P)
    (hx : Supported o.nx) (hy : Supported o.ny) (hm : o.mode = 0 ∨ o.mode = 2)
    (hP : 7 * (P : Int) ≤ int32Max) (hg : 4 * ((o.nx : Int) * o.ny) ≤ int32Max)
    (hb : ∀ n, n = o.nx ∨ n = o.ny → 16 * (n : Int) ≤ int32Max ∧ (P : Int) * n ≤ int32Max) {a : Args2}
    (ha : o.args rnd P = some a) : a.Small P o.eflag := by
  obtain ⟨a', ha', hv, d1, d2⟩ := C60_args_valid_2d_partial R ho hs hx hy hm
  rw [ha] at ha'
  cases ha'
  obtain ⟨p, h1, h2⟩ := inGrid2_ok R ho
  obtain ⟨q, h3, h4⟩ := outGrid2_ok ho
  have i2 : ∀ r, a.outs r = box2 rnd q o.nx o.ny r := by
    intro r
    unfold Opt2.args at ha
    rw [h1, h3] at ha
    simp only [Option.bind_some, Option.map_some, Option.some.injEq] at ha
    rw [← ha]
  refine ⟨Args2.SmallBoxes.of_grid hv hP (by rw [d1, d2]; exact hg) ?_ ?_ _, ?_⟩
  · rintro n (h | h)
    · rw [h, d1]; exact (hb _ (Or.inl rfl)).1
    · rw [h, d2]; exact (hb _ (Or.inr rfl)).1
  · intro r hr
    rw [i2, d1, d2]
    exact ((box2_good R ho hs h4).2 r hr).2
  · rintro n (h | h)
    · rw [h, d1]; exact (hb _ (Or.inl rfl)).2
    · rw [h, d2]; exact (hb _ (Or.inr rfl)).2

/-- The hypotheses of `C76_test2d` with 6 ranks as a 2 x 3 grid, a 60 x 8 grid of `double`, and `-i index`. -/
example : let o : Opt2 := { default2 with iflag := .index, nx := 60, pin := (2, 3), pout := (2, 3) }
    ∃ (a : Args2) (f : Nat → Fft2 ℝ), o.args rnd53 6 = some a ∧ SetUp2_32 1 8 6 a o.settings f := by
  intro o
  have ho : o.Accepted 6 :=
    { procs := by decide
      nx := by decide
      ny := by decide
      pin := Or.inr rfl
      pout := Or.inr rfl
      seed := by intro n hn; cases hn
      mode := by decide
      pflag := Or.inr (Or.inr rfl) }
  have hs : o.Small 6 := by simp [o, Opt2.Small, default2]
  have hx : Supported o.nx := supported_of (k := 3) (by decide) (by decide)
  have hy : Supported o.ny := supported_of (k := 3) (by decide) (by decide)
  obtain ⟨a, f, h1, h2, -⟩ := C76_test2d rounding53 ho hs (w := 1) (sz := 8) (by norm_num) (by norm_num) (fun _ => rfl)
    hx hy rfl rfl (by simp [o]) fun a ha =>
    small_of_grid2 rounding53 ho hs hx hy (Or.inl rfl) (by norm_num [int32Max]) (by norm_num [int32Max, o, default2])
      (by rintro n (rfl | rfl) <;> norm_num [int32Max, o, default2]) ha
  exact ⟨a, f, h1, h2⟩

/-- The hypotheses of `C76_grid_iff` with a grid that is too large for one rank: `grid_setup` overflows for a grid of
2048 x 1024 x 1024 points on one rank and does not on two. -/
example : let o : Opt3 := { default3 with nx := 2048, ny := 1024, nz := 1024 }
    ¬(∀ r < 1, (gridSetup3_32 rnd53 (1, 1, 1) (1, 1, 1) o.nx o.ny o.nz r).isSome) ∧
      ∀ r < 2, (gridSetup3_32 rnd53 (1, 2, 1) (2, 1, 1) o.nx o.ny o.nz r).isSome := by
  intro o
  have acc : ∀ P, 0 < P → o.Accepted P := fun P hP => { default3_accepted (P := P) hP with
    nx := by decide
    ny := by decide
    nz := by decide }
  have B : ∀ {P : Nat}, 0 < P → o.Small P → ∀ {p : Nat × Nat × Nat}, p.1 * p.2.1 * p.2.2 = P → ∀ r < P,
      box3 rnd53 p o.nx o.ny o.nz r = gridBox p 2048 1024 1024 r := fun hP hs _ hp r hr =>
    box3_eq rounding53 hp hP ⟨by decide, hs.1⟩ ⟨by decide, hs.2.1⟩ ⟨by decide, hs.2.2⟩ hr
  have s1 : o.Small 1 := by simp [o, Opt3.Small]
  have s2 : o.Small 2 := by simp [o, Opt3.Small]
  constructor
  · rw [(C76_grid_iff rounding53 (acc 1 (by decide)) s1 (by norm_num [int32Max]) (by rfl) (by rfl)).2.1]
    intro h
    have := (h 0 (by decide)).1
    rw [B (by decide) s1 (by rfl) 0 (by decide)] at this
    revert this
    decide +kernel
  · rw [(C76_grid_iff rounding53 (acc 2 (by decide)) s2 (by norm_num [int32Max]) (by rfl) (by rfl)).2.1]
    intro r hr
    rw [B (by decide) s2 (by rfl) r hr, B (by decide) s2 (by rfl) r hr]
    revert r
    decide +kernel

/-- **C76 (`index` and `zero` differ).**  A rank with few points can still overflow: 8 ranks along x with
nx = 2147483647, ny = 2, nz = 1.  Rank 7 has 2^29 points, `initialize` is free of overflow with `zero` and `step`, and
undefined with `index`, since the value at the last point is 2^31. -/
theorem C76_index_false : let b := gridBox (8, 1, 1) 2147483647 2 1 7
    b.Proper ∧ b.Within 2147483647 2 1 ∧ 2 * b.count ≤ int32Max ∧
    ∀ o : Opt3, (o.nx = 2147483647 ∧ o.ny = 2 ∧ o.nz = 1) → (o.iflag = .zero ∨ o.iflag = .step → o.NoOverflow b) ∧
      (o.iflag = .index → ∀ w, o.initialize32 rnd 7 b b.count w = none) := by
  intro b
  have eb : b = ⟨1879048191, 2147483646, 0, 1, 0, 0⟩ := by decide +kernel
  have hp : b.Proper := by rw [eb]; simp [Box3.Proper, Box3.isize, Box3.jsize, Box3.ksize]
  have hw : b.Within 2147483647 2 1 := by rw [eb]; simp [Box3.Within]
  have hc : b.count = 536870912 := by rw [eb]; decide +kernel
  have I : In32 b := ⟨hp, 2147483647, 2, 1, hw, by norm_num, by norm_num, by norm_num⟩
  refine ⟨hp, hw, by rw [hc]; norm_num [int32Max], ?_⟩
  intro o ho
  constructor
  · rintro (h | h) <;> unfold Opt3.NoOverflow <;> rw [h] <;> simp only <;> rw [hc] <;> norm_num [int32Max]
  · intro h w
    refine (initialize32_none I (by rw [hc]; norm_num [int32Max]) ?_ w).1
    unfold Opt3.NoOverflow
    rw [h]
    rintro ⟨-, h2⟩
    have := h2 2147483646 1 0 (by rw [eb]; simp [Box3.Has])
    norm_num [int32Max] at this

/-- A box of exactly 2^30 points: `step` is free of overflow, since the last index is INT_MAX, but `zero` is not, since
the bound of its loop is 2^31. -/
example (o : Opt3) : let b : Box3 := ⟨0, 1023, 0, 1023, 0, 1023⟩
    (o.iflag = .step → o.NoOverflow b) ∧ (o.iflag = .zero → ¬o.NoOverflow b) := by
  intro b
  have hc : b.count = 1073741824 := by decide +kernel
  constructor
  · intro h; unfold Opt3.NoOverflow; rw [h]; simp only; rw [hc]; norm_num [int32Max]
  · intro h; unfold Opt3.NoOverflow; rw [h]; simp only; rw [hc]; norm_num [int32Max]

/-- `-n 1073741824` in mode 0. -/
example : count32 0 1073741824 = none ∧ count32 2 1073741824 = some 1073741824 ∧ count32 0 1073741823 = some 2147483646 := by
  decide

/-- The library allows 2^30 points and more for `fftsize`, `allocate` can handle them, `tune` cannot. -/
example : gridBytes64 8 1073741824 = some 17179869184 ∧ tuneBytes32 8 1073741824 = none := by decide

end FftMpi
