import Verif.PackageLemmas
import Verif.PropsFft3dBad
import Verif.PropsFft2dMore
import Verif.PropsFft2d

/-!
# C52: the 1d FFT package makes no difference

The claim: whichever package the code is compiled for, `setup` returns the same sizes and every call leaves
the same data, namely those that all the other properties (proved for KISS) say.

It is false for MKL on ranks that have no 1d FFT to do in some dimension: the number of transforms given to
the library is 0 (`C52_mkl_false`, `C52_mkl_false_2d`).  It is false for FFTW3 on arrays that are not aligned:
the plans are made for aligned arrays, the documentation does not tell users to align theirs
(`C52_fftw3_false`, `C52_fftw3_false_2d`).  Otherwise it holds (`C52_same_partial`, `C52_same_2d_partial`).
-/

noncomputable section

namespace FftMpi

/-! ## Programs that fail at once -/

/-- A program whose first instruction is local code that has no result does not terminate properly. -/
theorem not_terminates_of_head {α : Type} {e : Bool} {P : Nat} {p : Nat → List (Instr α)}
    {m m' : Nat → LMem α} {r : Nat} (hr : r < P) {g : LMem α → Option (LMem α)} {rest : List (Instr α)}
    (hp : p r = .loc g :: rest) (hg : g (m r) = none) : ¬ Terminates e P p m m' := by
  intro h
  refine h.safe 0 _ (.refl _) r ⟨?_, Or.inl fun ch => ?_⟩
  · simp [initCfg, hr, hp]
  · simp [initCfg, hr, hp, act, hg]

/-! ## 3d -/

/-- The objects that `setup` makes on all ranks with package `b`. -/
def SetUp3L (b : Package) (P : Nat) (a : Args3) (st : Settings) (g : Nat → Fft3L) : Prop :=
  ∀ r < P, fft3SetupL b P r a st = some (.ok (g r))

theorem SetUp3L.like {b : Package} {P : Nat} {a : Args3} {st : Settings} {f : Nat → Fft3 ℝ}
    {g : Nat → Fft3L} (S : SetUp3 P a st f) (G : SetUp3L b P a st g) : ∀ r < P, (g r).Like b (f r) := by
  intro r hr
  obtain ⟨x, h1, h2⟩ := fft3SetupL_like (b := b) S.args (S.result r hr)
  rw [G r hr] at h1
  simp only [Option.some.injEq, Except.ok.injEq] at h1
  rw [h1]; exact h2

theorem setUp3L_exists (b : Package) {P : Nat} {a : Args3} {st : Settings} (hv : a.Valid P) (hst : st.Valid) :
    ∃ g, SetUp3L b P a st g := by
  obtain ⟨f, S⟩ := setUp3_exists hv hst
  have H := fun (r : Nat) (hr : r < P) => fft3SetupL_like (b := b) hv (S.result r hr)
  refine ⟨fun r => if hr : r < P then (H r hr).choose else (H 0 hv.procs).choose, fun r hr => ?_⟩
  simp only [dif_pos hr]
  exact (H r hr).choose_spec.1

/-- **C52, partial.**  For all valid arguments, settings and packages: `setup` succeeds and returns the sizes
it returns with KISS; and every execution of `compute` and `only_1d_ffts` with KISS, in either direction, with
one or two arrays, is also what the code for the package does under every schedule.  Missing: MKL on ranks
without 1d FFTs, FFTW3 on arrays that are not aligned (`Usable`), see the counterexamples below. -/
theorem C52_same_partial (b : Package) {P : Nat} {a : Args3} {st : Settings} {f : Nat → Fft3 ℝ}
    (S : SetUp3 P a st f) :
    (∃ g, SetUp3L b P a st g) ∧
    ∀ g, SetUp3L b P a st g →
      (∀ r < P, (g r).insize = (f r).insize ∧ (g r).outsize = (f r).outsize ∧ (g r).fftsize = (f r).fftsize ∧
        (g r).sendsize = (f r).sendsize ∧ (g r).recvsize = (f r).recvsize) ∧
      ∀ (e : Bool) (al : Nat → Nat → Bool) (J : Nat → Nat → Junk) (flag : Int) (ai ao : Nat)
        (m m' : Nat → LMem ℝ), (∀ r < P, (g r).Usable b (al r) ao) →
        (∀ scaled remaponly,
          Terminates e P (fun r => (f r).compute (J r) scaled remaponly flag ai ao) m m' →
          Terminates e P (fun r => (g r).compute b (al r) scaled remaponly flag ai ao) m m') ∧
        (Terminates e P (fun r => (f r).only1d (J r) flag ao) m m' →
          Terminates e P (fun r => (g r).only1d (al r) flag ao) m m') := by
  refine ⟨setUp3L_exists b S.args S.settings, fun g G => ?_⟩
  have L := SetUp3L.like S G
  refine ⟨fun r hr => ⟨(L r hr).insize, (L r hr).outsize, (L r hr).fftsize, (L r hr).sendsize,
    (L r hr).recvsize⟩, fun e al J flag ai ao m m' hu => ?_⟩
  obtain ⟨c, rfl, rfl, rfl, _, R⟩ := S.ready
  have K := fun (r : Nat) (hr : r < c.P) (scaled remaponly : Bool) =>
    (L r hr).refines (R.planFast r hr).plan (R.planMid r hr).plan (R.planSlow r hr).plan (hu r hr) (J r)
      scaled remaponly flag ai
  exact ⟨fun scaled remaponly h => h.refine fun r hr => (K r hr scaled remaponly).1,
    fun h => h.refine fun r hr => (K r hr false false).2⟩

/-- **C52 with C21, partial.**  A forward `compute` in place with any of the packages computes the 3d DFT.
Missing: as for `C52_same_partial`. -/
theorem C52_forward_dft_partial {b : Package} {P : Nat} {a : Args3} {st : Settings} (hv : a.Valid P)
    (hst : st.Valid) {g : Nat → Fft3L} (G : SetUp3L b P a st g) (e : Bool) (al : Nat → Nat → Bool)
    (scaled : Bool) {n : Nat} {X : Grid3} {m : Nat → LMem ℝ} (hu : ∀ r < P, (g r).Usable b (al r) n)
    (hX : Holds P 0 a.ins n X m)
    (hd : ∀ r < P, accessible ((m r).ub n) 0 (2 * (g r).fftsize))
    (hs : ∀ r < P, accessible (m r).sb 0 (g r).sendsize)
    (hr : ∀ r < P, accessible (m r).rb 0 (g r).recvsize) :
    ∃ m', Terminates e P (fun r => (g r).compute b (al r) scaled false 1 n n) m m' ∧
      Holds P a.permute a.outs n (a.dft false X) m' := by
  obtain ⟨f, S⟩ := setUp3_exists hv hst
  obtain ⟨h1, h2⟩ := (C52_same_partial b S).2 g G
  have hb : Bufs P f n m := by
    refine ⟨fun r hr' => ?_, fun r hr' => ?_, fun r hr' => ?_⟩
    · rw [← (h1 r hr').2.2.1]; exact hd r hr'
    · rw [← (h1 r hr').2.2.2.1]; exact hs r hr'
    · rw [← (h1 r hr').2.2.2.2]; exact hr r hr'
  obtain ⟨m', k1, k2, -⟩ := C21_forward_dft S e (fun _ _ _ => (0, 0)) scaled hX hb
  exact ⟨m', (h2 e al (fun _ _ _ => (0, 0)) 1 n n m m' hu).1 scaled false k1, k2⟩

/-- On one rank the condition for MKL always holds. -/
theorem usable_one {a : Args3} {st : Settings} {f : Nat → Fft3 ℝ} {g : Nat → Fft3L} (S : SetUp3 1 a st f)
    (G : SetUp3L .mkl 1 a st g) (al : Nat → Bool) (ao : Nat) : (g 0).Usable .mkl al ao := by
  have L := SetUp3L.like S G 0 (by decide)
  obtain ⟨c, hP, rfl, rfl, _, R⟩ := S.ready
  have h0 : 0 < c.P := by omega
  have d1 := R.args.fast; have d2 := R.args.mid; have d3 := R.args.slow
  have one : ∀ {p : Int} {b : Box3} {plan : Fft1d} {n : Nat}, BoxPlan p b plan n →
      plan.total = plan.n * plan.length → 1 ≤ (rotBox p b).jsize → 1 ≤ (rotBox p b).ksize → 1 ≤ plan.n := by
    intro p b plan n hp hw hj hk
    have e1 := hp.plan.total
    have e2 := hp.plan.length
    have e3 := hp.plan.pos
    rw [hw, e2] at e1
    have e4 := mul_right_cancel₀ (by omega : (n : Int) ≠ 0) e1
    rw [e4, Int.toNat_of_nonneg (by positivity)]
    nlinarith
  have own : ∀ {bs : Nat → Box3}, Tiles3 c.P bs c.a.nfast c.a.nmid c.a.nslow →
      1 ≤ (bs 0).isize ∧ 1 ≤ (bs 0).jsize ∧ 1 ≤ (bs 0).ksize := by
    intro bs hb
    obtain ⟨r, hr, h1, h2, h3⟩ := hb.owner 0 0 0 (by omega) (by omega) (by omega)
    have : r = 0 := by omega
    subst this
    unfold Box3.isize Box3.jsize Box3.ksize
    omega
  have t1 := own (fastBox_tiles R.args R.grids)
  have t2 := own (midBox_tiles R.args R.grids)
  have t3 := own (slowBox_tiles R.args R.grids)
  refine ⟨fun _ => ⟨?_, ?_, ?_⟩, fun h => by cases h⟩
  · rw [L.fftFast.n]
    exact one (R.planFast 0 h0) L.fftFast.whole t1.2.1 t1.2.2
  · rw [L.fftMid.n]
    exact one (R.planMid 0 h0) L.fftMid.whole t2.2.2 t2.1
  · rw [L.fftSlow.n]
    exact one (R.planSlow 0 h0) L.fftSlow.whole t3.1 t3.2.1

/-- The hypotheses can be met with each package: MKL on one rank, FFTW2 on two, FFTW3 on two with aligned
arrays. -/
example : (∃ f g, SetUp3 1 oneArgs ⟨2, 0, 2⟩ f ∧ SetUp3L .mkl 1 oneArgs ⟨2, 0, 2⟩ g ∧
      ∀ r < 1, (g r).Usable .mkl (fun _ => false) 0) ∧
    (∃ f g, SetUp3 2 (demo3 1) ⟨2, 1, 2⟩ f ∧ SetUp3L .fftw2 2 (demo3 1) ⟨2, 1, 2⟩ g ∧
      ∀ r < 2, (g r).Usable .fftw2 (fun _ => false) 0) ∧
    (∃ f g, SetUp3 2 (demo3 1) ⟨2, 1, 2⟩ f ∧ SetUp3L .fftw3 2 (demo3 1) ⟨2, 1, 2⟩ g ∧
      ∀ r < 2, (g r).Usable .fftw3 (fun _ => true) 0) := by
  have s1 : Settings.Valid ⟨2, 0, 2⟩ := by simp [Settings.Valid]
  have s2 : Settings.Valid ⟨2, 1, 2⟩ := by simp [Settings.Valid]
  have hv := demo3_valid 1 (by decide)
  refine ⟨?_, ?_, ?_⟩
  · obtain ⟨f, S⟩ := setUp3_exists oneArgs_valid s1
    obtain ⟨g, G⟩ := setUp3L_exists .mkl oneArgs_valid s1
    refine ⟨f, g, S, G, fun r hr => ?_⟩
    have : r = 0 := by omega
    subst this
    exact usable_one S G _ _
  · obtain ⟨f, S⟩ := setUp3_exists hv s2
    obtain ⟨g, G⟩ := setUp3L_exists .fftw2 hv s2
    exact ⟨f, g, S, G, fun r hr => ⟨fun h => (nomatch h), fun h => (nomatch h)⟩⟩
  · obtain ⟨f, S⟩ := setUp3_exists hv s2
    obtain ⟨g, G⟩ := setUp3L_exists .fftw3 hv s2
    exact ⟨f, g, S, G, fun r hr => ⟨fun h => (nomatch h), fun _ => rfl⟩⟩

/-- Two ranks, a 2 x 2 x 2 grid, everything on rank 0. -/
def idleArgs : Args3 where
  nfast := 2
  nmid := 2
  nslow := 2
  ins r := if r = 0 then ⟨0, 1, 0, 1, 0, 1⟩ else ⟨0, 1, 0, -1, 0, 1⟩
  outs r := if r = 0 then ⟨0, 1, 0, 1, 0, 1⟩ else ⟨0, 1, 0, -1, 0, 1⟩
  permute := 0

theorem idleArgs_tiles : Tiles3 2 (fun r => if r = 0 then ⟨0, 1, 0, 1, 0, 1⟩ else ⟨0, 1, 0, -1, 0, 1⟩) 2 2 2 where
  inside := by
    intro r hr i j k h
    simp only [Box3.Has] at h ⊢
    split_ifs at h <;> simp only at h <;> omega
  owner := by
    intro i j k hi hj hk
    exact ⟨0, by omega, by simp only [Box3.Has, if_true]; omega⟩
  disjoint := by
    intro r hr s hs i j k h1 h2
    simp only [Box3.Has] at h1 h2
    split_ifs at h1 h2 <;> simp only at h1 h2 <;> omega

theorem idleArgs_valid : idleArgs.Valid 2 where
  procs := by decide
  fast := by simp [idleArgs]
  mid := by simp [idleArgs]
  slow := by simp [idleArgs]
  factors := by
    intro n hn
    simp only [idleArgs] at hn
    rcases hn with rfl | rfl | rfl <;> exact fiveSmooth_of_dvd (m := 2) (k := 1) rfl (by decide)
  tilesIn := idleArgs_tiles
  tilesOut := idleArgs_tiles
  properIn := by
    intro r hr
    interval_cases r <;> simp [idleArgs, Box3.Proper, Box3.Within, Box3.isize, Box3.jsize, Box3.ksize]
  properOut := by
    intro r hr
    interval_cases r <;> simp [idleArgs, Box3.Proper, Box3.isize, Box3.jsize, Box3.ksize]
  permute := by simp [idleArgs]

/-- The first instruction of a forward `compute` in place if every rank owns whole rows. -/
theorem Fft3L.compute_head (b : Package) {g : Fft3L} (hp : g.prefast = none) (al : Nat → Bool) (scaled : Bool)
    (n : Nat) : ∃ rest, g.compute b al scaled false 1 n n = .loc (performLocL al 1 g.fftFast n) :: rest := by
  unfold Fft3L.compute
  rw [if_pos (Or.inl rfl), hp]
  simp [remapOrCopy]

/-- **C52 is false for MKL.**  Everything is on rank 0 of 2, rank 1 has no data (doc/api_setup.txt allows
this).  With KISS `compute` terminates; with MKL rank 1 asks the library for 0 transforms
(fft3d.cpp:1465-1466), for which it specifies no result. -/
theorem C52_mkl_false : ∃ (P : Nat) (a : Args3) (st : Settings) (f : Nat → Fft3 ℝ) (g : Nat → Fft3L)
    (m : Nat → LMem ℝ), SetUp3 P a st f ∧ SetUp3L .mkl P a st g ∧ Holds P 0 a.ins 0 (fun _ _ _ => 1) m ∧
    Bufs P f 0 m ∧
    (∀ (e : Bool) (J : Nat → Nat → Junk) (scaled : Bool), ∃ m', Terminates e P (fun r => (f r).compute (J r) scaled false 1 0 0) m m') ∧
    ∀ (e : Bool) (al : Nat → Nat → Bool) (scaled : Bool) (m' : Nat → LMem ℝ), ¬ Terminates e P (fun r => (g r).compute .mkl (al r) scaled false 1 0 0) m m' := by
  have s1 : Settings.Valid ⟨2, 0, 2⟩ := by simp [Settings.Valid]
  obtain ⟨f, S⟩ := setUp3_exists idleArgs_valid s1
  obtain ⟨g, G⟩ := setUp3L_exists .mkl idleArgs_valid s1
  obtain ⟨m, hm⟩ := S.mem_in fun _ _ _ => 1
  refine ⟨2, idleArgs, ⟨2, 0, 2⟩, f, g, m, S, G, (hm 0).1, (hm 0).2, fun e J scaled => ?_,
    fun e al scaled m' => ?_⟩
  · obtain ⟨m', h, -⟩ := C21_forward_dft S e J scaled (hm 0).1 (hm 0).2
    exact ⟨m', h⟩
  · have L := SetUp3L.like S G 1 (by decide)
    obtain ⟨c, hP, ha, -, -, R⟩ := S.ready
    have h1 : 1 < c.P := by omega
    have hpre : preflag c.P c.a = false := by
      rw [← Bool.not_eq_true, preflag_iff, hP, ha]
      rintro ⟨r, hr, h⟩
      interval_cases r <;> simp [idleArgs] at h
    have hnone : (g 1).prefast = none := by
      rw [L.prefast, R.prefast 1 h1]
      have : preflag (c.on 1).P (c.on 1).a = false := hpre
      simp [Create.prefastO, this]
    obtain ⟨rest, hrest⟩ := Fft3L.compute_head .mkl hnone (al 1) scaled 0
    refine not_terminates_of_head (r := 1) (by decide) hrest ?_
    have hbox : c.fast 1 = ⟨0, 1, 0, -1, 0, 1⟩ := by
      have : c.fast 1 = fastBox c.P c.a c.g 1 := rfl
      rw [this]
      unfold fastBox
      rw [if_pos hpre, ha]
      rfl
    have hB := R.planFast 1 h1
    rw [hbox] at hB
    have ht : (g 1).fftFast.total = 0 := by
      rw [L.fftFast.total, hB.plan.total]
      simp [rotBox, Box3.jsize, Box3.ksize]
    unfold performLocL performFftsL
    rw [L.fftFast.plan, ht]
    simp [libPlan, mklPlan, dftiCreate, dftiCompute]

/-- **C52 is false for FFTW3.**  One rank, a 2 x 2 x 2 grid, an array that is not aligned.  With KISS
`compute` terminates; with FFTW3 the array does not meet the requirement of the plan (made with `NULL` arrays
and without `FFTW_UNALIGNED`, fft3d.cpp:1588-1608). -/
theorem C52_fftw3_false : ∃ (P : Nat) (a : Args3) (st : Settings) (f : Nat → Fft3 ℝ) (g : Nat → Fft3L)
    (m : Nat → LMem ℝ), SetUp3 P a st f ∧ SetUp3L .fftw3 P a st g ∧ Holds P 0 a.ins 0 (fun _ _ _ => 1) m ∧
    Bufs P f 0 m ∧
    (∀ (e : Bool) (J : Nat → Nat → Junk) (scaled : Bool), ∃ m', Terminates e P (fun r => (f r).compute (J r) scaled false 1 0 0) m m') ∧
    ∀ (e : Bool) (al : Nat → Nat → Bool) (scaled : Bool) (m' : Nat → LMem ℝ), al 0 0 = false →
      ¬ Terminates e P (fun r => (g r).compute .fftw3 (al r) scaled false 1 0 0) m m' := by
  have s1 : Settings.Valid ⟨2, 0, 2⟩ := by simp [Settings.Valid]
  obtain ⟨f, S⟩ := setUp3_exists oneArgs_valid s1
  obtain ⟨g, G⟩ := setUp3L_exists .fftw3 oneArgs_valid s1
  obtain ⟨m, hm⟩ := S.mem_in fun _ _ _ => 1
  refine ⟨1, oneArgs, ⟨2, 0, 2⟩, f, g, m, S, G, (hm 0).1, (hm 0).2, fun e J scaled => ?_,
    fun e al scaled m' hal => ?_⟩
  · obtain ⟨m', h, -⟩ := C21_forward_dft S e J scaled (hm 0).1 (hm 0).2
    exact ⟨m', h⟩
  · have L := SetUp3L.like S G 0 (by decide)
    obtain ⟨c, hP, ha, -, -, R⟩ := S.ready
    have h1 : 0 < c.P := by omega
    have hpre : preflag c.P c.a = false := by
      rw [← Bool.not_eq_true, preflag_iff, hP, ha]
      rintro ⟨r, hr, h⟩
      interval_cases r; simp [oneArgs] at h
    have hnone : (g 0).prefast = none := by
      rw [L.prefast, R.prefast 0 h1]
      have : preflag (c.on 0).P (c.on 0).a = false := hpre
      simp [Create.prefastO, this]
    obtain ⟨rest, hrest⟩ := Fft3L.compute_head .fftw3 hnone (al 0) scaled 0
    refine not_terminates_of_head (r := 0) (by decide) hrest ?_
    unfold performLocL performFftsL
    rw [L.fftFast.plan]
    simp [libPlan, fftw3Plan, fftw3, hal]

/-! ## 2d -/

/-- The objects that `setup` makes on all ranks with package `b`. -/
def SetUp2L (b : Package) (w : Int) (P : Nat) (a : Args2) (st : Settings) (g : Nat → Fft2L) : Prop :=
  ∀ r < P, fft2SetupL b w P r a st = some (.ok (g r))

theorem SetUp2L.like {b : Package} {w : Int} {P : Nat} {a : Args2} {st : Settings} {f : Nat → Fft2 ℝ}
    {g : Nat → Fft2L} (S : SetUp2 w P a st f) (G : SetUp2L b w P a st g) : ∀ r < P, (g r).Like b (f r) := by
  intro r hr
  obtain ⟨x, h1, h2⟩ := fft2SetupL_like (b := b) S.args (S.result r hr)
  rw [G r hr] at h1
  simp only [Option.some.injEq, Except.ok.injEq] at h1
  rw [h1]; exact h2

theorem setUp2L_exists (b : Package) {w : Int} {P : Nat} {a : Args2} {st : Settings} (hv : a.Valid P)
    (hst : st.Valid2 w) : ∃ g, SetUp2L b w P a st g := by
  obtain ⟨f, S⟩ := setUp2_exists hv hst
  have H := fun (r : Nat) (hr : r < P) => fft2SetupL_like (b := b) hv (S.result r hr)
  refine ⟨fun r => if hr : r < P then (H r hr).choose else (H 0 hv.procs).choose, fun r hr => ?_⟩
  simp only [dif_pos hr]
  exact (H r hr).choose_spec.1

/-- **C52 in 2d, partial**: as `C52_same_partial`. -/
theorem C52_same_2d_partial (b : Package) {w : Int} {P : Nat} {a : Args2} {st : Settings} {f : Nat → Fft2 ℝ}
    (S : SetUp2 w P a st f) :
    (∃ g, SetUp2L b w P a st g) ∧
    ∀ g, SetUp2L b w P a st g →
      (∀ r < P, (g r).insize = (f r).insize ∧ (g r).outsize = (f r).outsize ∧ (g r).fftsize = (f r).fftsize ∧
        (g r).sendsize = (f r).sendsize ∧ (g r).recvsize = (f r).recvsize) ∧
      ∀ (e : Bool) (al : Nat → Nat → Bool) (J : Nat → Nat → Junk) (flag : Int) (ai ao : Nat)
        (m m' : Nat → LMem ℝ), (∀ r < P, (g r).Usable b (al r) ao) →
        (∀ scaled remaponly,
          Terminates e P (fun r => (f r).compute (J r) scaled remaponly flag ai ao) m m' →
          Terminates e P (fun r => (g r).compute b (al r) scaled remaponly flag ai ao) m m') ∧
        (Terminates e P (fun r => (f r).only1d (J r) flag ao) m m' →
          Terminates e P (fun r => (g r).only1d (al r) flag ao) m m') := by
  refine ⟨setUp2L_exists b S.args S.settings, fun g G => ?_⟩
  have L := SetUp2L.like S G
  refine ⟨fun r hr => ⟨(L r hr).insize, (L r hr).outsize, (L r hr).fftsize, (L r hr).sendsize,
    (L r hr).recvsize⟩, fun e al J flag ai ao m m' hu => ?_⟩
  obtain ⟨c, rfl, rfl, rfl, rfl, _, R⟩ := S.ready
  have K := fun (r : Nat) (hr : r < c.P) (scaled remaponly : Bool) =>
    (L r hr).refines (R.planFast r hr).plan (R.planSlow r hr).plan (hu r hr) (J r) scaled remaponly flag ai
  exact ⟨fun scaled remaponly h => h.refine fun r hr => (K r hr scaled remaponly).1,
    fun h => h.refine fun r hr => (K r hr false false).2⟩

/-- **C52 with C41, partial.**  A forward `compute` in place with any of the packages computes the 2d DFT. -/
theorem C52_forward_dft_2d_partial {b : Package} {w : Int} {P : Nat} {a : Args2} {st : Settings}
    (hv : a.Valid P) (hst : st.Valid2 w) {g : Nat → Fft2L} (G : SetUp2L b w P a st g) (e : Bool)
    (al : Nat → Nat → Bool) (scaled : Bool) {n : Nat} {X : Grid2} {m : Nat → LMem ℝ}
    (hu : ∀ r < P, (g r).Usable b (al r) n) (hX : Holds2 P 0 a.ins n X m)
    (hd : ∀ r < P, accessible ((m r).ub n) 0 (2 * (g r).fftsize))
    (hs : ∀ r < P, accessible (m r).sb 0 (g r).sendsize)
    (hr : ∀ r < P, accessible (m r).rb 0 (g r).recvsize) :
    ∃ m', Terminates e P (fun r => (g r).compute b (al r) scaled false 1 n n) m m' ∧
      Holds2 P a.permute a.outs n (a.dft false X) m' := by
  obtain ⟨f, S⟩ := setUp2_exists hv hst
  obtain ⟨h1, h2⟩ := (C52_same_2d_partial b S).2 g G
  have hb : Bufs2 P f n m := by
    refine ⟨fun r hr' => ?_, fun r hr' => ?_, fun r hr' => ?_⟩
    · rw [← (h1 r hr').2.2.1]; exact hd r hr'
    · rw [← (h1 r hr').2.2.2.1]; exact hs r hr'
    · rw [← (h1 r hr').2.2.2.2]; exact hr r hr'
  obtain ⟨m', k1, k2, -⟩ := C41_forward_dft S e (fun _ _ _ => (0, 0)) scaled hX hb
  exact ⟨m', (h2 e al (fun _ _ _ => (0, 0)) 1 n n m m' hu).1 scaled false k1, k2⟩

/-- The hypotheses can be met: FFTW2 on two ranks, FFTW3 on two ranks with aligned arrays. -/
example : (∃ f g, SetUp2 1 2 (plane2 1) ⟨2, 1, 2⟩ f ∧ SetUp2L .fftw2 1 2 (plane2 1) ⟨2, 1, 2⟩ g ∧
      ∀ r < 2, (g r).Usable .fftw2 (fun _ => false) 0) ∧
    (∃ f g, SetUp2 1 2 (plane2 1) ⟨2, 1, 2⟩ f ∧ SetUp2L .fftw3 1 2 (plane2 1) ⟨2, 1, 2⟩ g ∧
      ∀ r < 2, (g r).Usable .fftw3 (fun _ => true) 0) := by
  have s2 : Settings.Valid2 1 ⟨2, 1, 2⟩ := by simp [Settings.Valid2, FlagOk2]
  have hv := plane2_valid 1 (by decide)
  obtain ⟨f, S⟩ := setUp2_exists hv s2
  refine ⟨?_, ?_⟩
  · obtain ⟨g, G⟩ := setUp2L_exists .fftw2 hv s2
    exact ⟨f, g, S, G, fun r hr => ⟨fun h => (nomatch h), fun h => (nomatch h)⟩⟩
  · obtain ⟨g, G⟩ := setUp2L_exists .fftw3 hv s2
    exact ⟨f, g, S, G, fun r hr => ⟨fun h => (nomatch h), fun _ => rfl⟩⟩

/-- Two ranks, a 2 x 2 grid, everything on rank 0. -/
def idleArgs2 : Args2 where
  nfast := 2
  nslow := 2
  ins r := if r = 0 then ⟨0, 1, 0, 1⟩ else ⟨0, 1, 0, -1⟩
  outs r := if r = 0 then ⟨0, 1, 0, 1⟩ else ⟨0, 1, 0, -1⟩
  permute := 0

theorem idleArgs2_tiles : Tiles2 2 (fun r => if r = 0 then ⟨0, 1, 0, 1⟩ else ⟨0, 1, 0, -1⟩) 2 2 where
  inside := by
    intro r hr i j h
    simp only [Box2.Has] at h ⊢
    split_ifs at h <;> simp only at h <;> omega
  owner := by
    intro i j hi hj
    exact ⟨0, by omega, by simp only [Box2.Has, if_true]; omega⟩
  disjoint := by
    intro r hr s hs i j h1 h2
    simp only [Box2.Has] at h1 h2
    split_ifs at h1 h2 <;> simp only at h1 h2 <;> omega

theorem idleArgs2_valid : idleArgs2.Valid 2 where
  procs := by decide
  fast := by simp [idleArgs2]
  slow := by simp [idleArgs2]
  factors := by
    intro n hn
    simp only [idleArgs2] at hn
    rcases hn with rfl | rfl <;> exact smooth_two
  tilesIn := idleArgs2_tiles
  tilesOut := idleArgs2_tiles
  properIn := by
    intro r hr
    interval_cases r <;> simp [idleArgs2, Box2.Proper, Box2.Within, Box2.isize, Box2.jsize]
  properOut := by
    intro r hr
    interval_cases r <;> simp [idleArgs2, Box2.Proper, Box2.isize, Box2.jsize]
  permute := by simp [idleArgs2]

theorem Fft2L.compute_head (b : Package) {g : Fft2L} (hp : g.prefast = none) (al : Nat → Bool) (scaled : Bool)
    (n : Nat) : ∃ rest, g.compute b al scaled false 1 n n = .loc (performLocL al 1 g.fftFast n) :: rest := by
  unfold Fft2L.compute
  rw [if_pos (Or.inl rfl), hp]
  simp [remapOrCopy2]

/-- **C52 is false for MKL in 2d**: as `C52_mkl_false` (fft2d.cpp:1310-1311). -/
theorem C52_mkl_false_2d : ∃ (P : Nat) (a : Args2) (st : Settings) (f : Nat → Fft2 ℝ) (g : Nat → Fft2L)
    (m : Nat → LMem ℝ), SetUp2 1 P a st f ∧ SetUp2L .mkl 1 P a st g ∧ Holds2 P 0 a.ins 0 (fun _ _ => 1) m ∧
    Bufs2 P f 0 m ∧
    (∀ (e : Bool) (J : Nat → Nat → Junk) (scaled : Bool), ∃ m', Terminates e P (fun r => (f r).compute (J r) scaled false 1 0 0) m m') ∧
    ∀ (e : Bool) (al : Nat → Nat → Bool) (scaled : Bool) (m' : Nat → LMem ℝ), ¬ Terminates e P (fun r => (g r).compute .mkl (al r) scaled false 1 0 0) m m' := by
  have s1 : Settings.Valid2 1 ⟨2, 0, 2⟩ := by simp [Settings.Valid2, FlagOk2]
  obtain ⟨f, S⟩ := setUp2_exists idleArgs2_valid s1
  obtain ⟨g, G⟩ := setUp2L_exists .mkl idleArgs2_valid s1
  obtain ⟨m, hm⟩ := S.mem_in fun _ _ => 1
  refine ⟨2, idleArgs2, ⟨2, 0, 2⟩, f, g, m, S, G, (hm 0).1, (hm 0).2, fun e J scaled => ?_,
    fun e al scaled m' => ?_⟩
  · obtain ⟨m', h, -⟩ := C41_forward_dft S e J scaled (hm 0).1 (hm 0).2
    exact ⟨m', h⟩
  · have L := SetUp2L.like S G 1 (by decide)
    obtain ⟨c, -, hP, ha, -, -, R⟩ := S.ready
    have h1 : 1 < c.P := by omega
    have hpre : preflag2 c.P c.a = false := by
      rw [← Bool.not_eq_true, preflag2_iff, hP, ha]
      rintro ⟨r, hr, h⟩
      interval_cases r <;> simp [idleArgs2] at h
    have hnone : (g 1).prefast = none := by
      rw [L.prefast, R.prefast 1 h1]
      have : preflag2 (c.on 1).P (c.on 1).a = false := hpre
      simp [Create2.prefastO, this]
    obtain ⟨rest, hrest⟩ := Fft2L.compute_head .mkl hnone (al 1) scaled 0
    refine not_terminates_of_head (r := 1) (by decide) hrest ?_
    have hbox : c.fast 1 = ⟨0, 1, 0, -1⟩ := by
      have : c.fast 1 = fastBox2 c.P c.a 1 := rfl
      rw [this]
      unfold fastBox2
      rw [if_pos hpre, ha]
      rfl
    have hB := R.planFast 1 h1
    rw [hbox] at hB
    have ht : (g 1).fftFast.total = 0 := by
      rw [L.fftFast.total, hB.plan.total]
      simp [rotBox, Box3.jsize, Box3.ksize, Box2.lift]
    unfold performLocL performFftsL
    rw [L.fftFast.plan, ht]
    simp [libPlan, mklPlan, dftiCreate, dftiCompute]

/-- **C52 is false for FFTW3 in 2d**: as `C52_fftw3_false` (fft2d.cpp:1406-1419). -/
theorem C52_fftw3_false_2d : ∃ (P : Nat) (a : Args2) (st : Settings) (f : Nat → Fft2 ℝ) (g : Nat → Fft2L)
    (m : Nat → LMem ℝ), SetUp2 1 P a st f ∧ SetUp2L .fftw3 1 P a st g ∧ Holds2 P 0 a.ins 0 (fun _ _ => 1) m ∧
    Bufs2 P f 0 m ∧
    (∀ (e : Bool) (J : Nat → Nat → Junk) (scaled : Bool), ∃ m', Terminates e P (fun r => (f r).compute (J r) scaled false 1 0 0) m m') ∧
    ∀ (e : Bool) (al : Nat → Nat → Bool) (scaled : Bool) (m' : Nat → LMem ℝ), al 0 0 = false →
      ¬ Terminates e P (fun r => (g r).compute .fftw3 (al r) scaled false 1 0 0) m m' := by
  have s1 : Settings.Valid2 1 ⟨2, 0, 2⟩ := by simp [Settings.Valid2, FlagOk2]
  obtain ⟨f, S⟩ := setUp2_exists oneArgs2_valid s1
  obtain ⟨g, G⟩ := setUp2L_exists .fftw3 oneArgs2_valid s1
  obtain ⟨m, hm⟩ := S.mem_in fun _ _ => 1
  refine ⟨1, oneArgs2, ⟨2, 0, 2⟩, f, g, m, S, G, (hm 0).1, (hm 0).2, fun e J scaled => ?_,
    fun e al scaled m' hal => ?_⟩
  · obtain ⟨m', h, -⟩ := C41_forward_dft S e J scaled (hm 0).1 (hm 0).2
    exact ⟨m', h⟩
  · have L := SetUp2L.like S G 0 (by decide)
    obtain ⟨c, -, hP, ha, -, -, R⟩ := S.ready
    have h1 : 0 < c.P := by omega
    have hpre : preflag2 c.P c.a = false := by
      rw [← Bool.not_eq_true, preflag2_iff, hP, ha]
      rintro ⟨r, hr, h⟩
      interval_cases r; simp [oneArgs2] at h
    have hnone : (g 0).prefast = none := by
      rw [L.prefast, R.prefast 0 h1]
      have : preflag2 (c.on 0).P (c.on 0).a = false := hpre
      simp [Create2.prefastO, this]
    obtain ⟨rest, hrest⟩ := Fft2L.compute_head .fftw3 hnone (al 0) scaled 0
    refine not_terminates_of_head (r := 0) (by decide) hrest ?_
    unfold performLocL performFftsL
    rw [L.fftFast.plan]
    simp [libPlan, fftw3Plan, fftw3, hal]

end FftMpi
