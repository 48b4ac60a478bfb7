import Verif.Fft3d32Main
import Verif.PropsFft3d

/-!
# C49: integer arithmetic of `FFT3d`

The claim "if every rank's box, in the input, the output and each layout, is small, then `setup` computes
its layouts, sizes and remaps without integer overflow" is false: the block bounds `ip*n/np` and
`(ip+1)*n/np - 1` multiply a rank coordinate by a grid dimension in `int` (`C49_false`,
`C49_bounds_iff`).  With the additional limit that `P*n` fits an `int` it holds, and the programs that
`compute`, `only_1d_ffts`, `only_remaps`, `only_one_remap` then execute are those of the model with
unbounded integers, for which C21 to C30 are proved (`C49_partial`).  Missing from the full claim: that
limit; the index arithmetic inside `kissfft.h`.
-/

noncomputable section

namespace FftMpi

/-- `setup` on 32-bit integers succeeds on every rank, the sizes are those computed without overflow, and
every later call executes the same program. -/
theorem C49_partial {sz : Int} {P : Nat} {a : Args3} {st : Settings} (hs : a.Small sz P st.exchange)
    (hv : a.Valid P) (hst : st.Valid) (me : Nat) (hme : me < P) :
    ∃ f f' : Fft3 ℝ, fft3Setup P me a st = some (.ok f) ∧ fft3Setup32 sz P me a st = some (.ok f') ∧
      (f'.insize = boxSize (a.ins me) ∧ f'.outsize = boxSize (a.outs me) ∧ f'.fftsize = f.fftsize ∧
        f'.sendsize = f.sendsize ∧ f'.recvsize = f.recvsize) ∧
      (∀ J scaled remaponly flag ai ao,
        f'.compute32 J scaled remaponly flag ai ao = f.compute J scaled remaponly flag ai ao) ∧
      (∀ J flag ai, f'.only1d32 J flag ai = f.only1d J flag ai) ∧
      (∀ flag ai ao, f'.onlyRemaps32 flag ai ao = f.onlyRemaps flag ai ao) ∧
      (∀ flag which ai ao, f'.onlyOneRemap32 flag which ai ao = f.onlyOneRemap flag which ai ao) := by
  obtain ⟨f, f', h1, h2, h3, h4, h5, h6⟩ := fft3Setup32_sim (α := ℝ) hs hv hst hme
  refine ⟨f, f', h1, h2, ⟨?_, ?_, h3.fftsize, h3.sendsize, h3.recvsize⟩, h3.progs h4 h5 h6⟩
  · rw [h3.insize]
    unfold fft3Setup at h1
    rw [hv.check] at h1
    simp only [Option.bind_eq_bind, Option.bind_eq_some_iff] at h1
    obtain ⟨g, -, x, hx, h1⟩ := h1
    cases h1
    obtain ⟨_, _, _, -, hm⟩ := setupMain_eq (α := ℝ) (c := ⟨P, me, a, st, g⟩) hst hme hv
    rw [hm] at hx
    cases hx
    rfl
  · rw [h3.outsize]
    unfold fft3Setup at h1
    rw [hv.check] at h1
    simp only [Option.bind_eq_bind, Option.bind_eq_some_iff] at h1
    obtain ⟨g, -, x, hx, h1⟩ := h1
    cases h1
    obtain ⟨_, _, _, -, hm⟩ := setupMain_eq (α := ℝ) (c := ⟨P, me, a, st, g⟩) hst hme hv
    rw [hm] at hx
    cases hx
    rfl

/-! ## A condition on the whole grid -/

theorem max_le_of {s n : Int} (hs : s ≤ n) (hn : 2 ≤ n) : max 1 s ≤ n := max_le (by omega) hs

/-- If the whole grid has at most 2^29 - 1 points, the boxes are small. -/
theorem Args3.SmallBoxes.of_grid {sz : Int} (hsz : 1 ≤ sz) {P : Nat} {a : Args3} (hv : a.Valid P)
    (hP : 7 * (P : Int) ≤ int32Max) (hg : 4 * (a.nfast * a.nmid * a.nslow) ≤ int32Max)
    (hb : ∀ n, (n = a.nfast ∨ n = a.nmid ∨ n = a.nslow) → 2 * sz * n ≤ int32Max)
    (ho : ∀ r < P, (a.outs r).Within a.nfast a.nmid a.nslow) (ex : Int) : a.SmallBoxes sz P ex := by
  refine ⟨hsz, hP, hb, ho, ?_⟩
  intro g hg' r hr b hb'
  obtain ⟨g0, hg0, hok⟩ := setupGrids_ok hv.round hv.procs hv.fast hv.mid hv.slow ex
  rw [hg'] at hg0
  cases hg0
  have h1 := hv.fast; have h2 := hv.mid; have h3 := hv.slow
  have hw : b.Within a.nfast a.nmid a.nslow := by
    rcases hb' with e | e | e | e | e | ⟨he, e⟩ <;> rw [e]
    · exact (hv.properIn r hr).2
    · exact ho r hr
    · exact fastBox_within hv hok hr
    · exact midBox_within hv hok hr
    · exact slowBox_within hv hok ho hr
    · exact brickBox_within hv hok he hr
  obtain ⟨⟨w1, w1'⟩, ⟨w2, w2'⟩, w3, w3'⟩ := hw
  have s1 : max 1 b.isize ≤ a.nfast := max_le_of (by unfold Box3.isize; omega) h1.1
  have s2 : max 1 b.jsize ≤ a.nmid := max_le_of (by unfold Box3.jsize; omega) h2.1
  have s3 : max 1 b.ksize ≤ a.nslow := max_le_of (by unfold Box3.ksize; omega) h3.1
  have p1 : 0 ≤ max 1 b.isize := by omega
  have p2 : 0 ≤ max 1 b.jsize := by omega
  have p3 : 0 ≤ max 1 b.ksize := by omega
  have := mul_le3 p1 p2 p3 s1 s2 s3
  omega

/-- The hypotheses of `C49_partial` can be met: 2 ranks, a 4 x 4 x 4 grid, `double`. -/
example : ∃ f f' : Fft3 ℝ, fft3Setup 2 1 (demo3 1) ⟨2, 1, 2⟩ = some (.ok f) ∧
    fft3Setup32 8 2 1 (demo3 1) ⟨2, 1, 2⟩ = some (.ok f') ∧
    ∀ J flag ai ao, f'.compute32 J true false flag ai ao = f.compute J true false flag ai ao := by
  have hv := demo3_valid 1 (by decide)
  have hs : (demo3 1).Small 8 2 1 := by
    refine ⟨Args3.SmallBoxes.of_grid (by norm_num) hv (by norm_num [int32Max])
      (by norm_num [int32Max, demo3]) ?_ ?_ 1, ?_⟩
    · rintro n (h | h | h) <;> subst h <;> norm_num [int32Max, demo3]
    · intro r hr
      interval_cases r <;> norm_num [Box3.Within, demo3]
    · rintro n (h | h | h) <;> subst h <;> norm_num [int32Max, demo3]
  obtain ⟨f, f', h1, h2, -, h3, -⟩ := C49_partial (st := ⟨2, 1, 2⟩) hs hv (by simp [Settings.Valid]) 1
    (by norm_num)
  exact ⟨f, f', h1, h2, fun J flag ai ao => h3 J true false flag ai ao⟩

/-! ## The limit on `P*n` is needed -/

/-- The bounds of the blocks of one dimension are computed without overflow for all coordinates exactly if
the number of blocks times the dimension fits an `int`. -/
theorem C49_bounds_iff {n np : Nat} (hn : 0 < n) (hnp : 0 < np) (hnp' : np < 2147483648) :
    (∀ ip : Nat, ip < np → ∃ lo hi, blockLo32 ip n np = some lo ∧ blockHi32 ip n np = some hi) ↔
      np * n ≤ 2147483647 := by
  constructor
  · intro h
    by_contra hc
    obtain ⟨lo, hi, -, h2⟩ := h (np - 1) (by omega)
    unfold blockHi32 at h2
    have e : (((np - 1 : Nat) : Int) + 1) = np := by omega
    rw [add32_eq (by rw [e]; exact fits_of (by omega) (by omega)), Option.bind_some, e] at h2
    have : mul32 (np : Int) n = none := by
      unfold mul32 ck
      rw [if_neg]
      unfold Fits
      rw [← Nat.cast_mul]
      omega
    rw [this] at h2
    cases h2
  · intro h ip hip
    exact ⟨_, _, blockLo32_eq hip h, blockHi32_eq hip hn h⟩

example : ∀ ip : Nat, ip < 2000 → ∃ lo hi, blockLo32 ip 1000000 2000 = some lo ∧
    blockHi32 ip 1000000 2000 = some hi := by
  exact_mod_cast (C49_bounds_iff (n := 1000000) (np := 2000) (by norm_num) (by norm_num)
    (by norm_num)).mpr (by norm_num)

/-- 65536 ranks with 4 points each of a 2 x 65536 x 2 grid. -/
def thin : Args3 where
  nfast := 2
  nmid := 65536
  nslow := 2
  ins r := ⟨0, 1, r, r, 0, 1⟩
  outs r := ⟨0, 1, r, r, 0, 1⟩
  permute := 0

theorem thin_tiles : Tiles3 65536 (fun r => ⟨0, 1, r, r, 0, 1⟩) 2 65536 2 where
  inside := by
    rintro r hr i j k ⟨h1, h2, h3⟩
    simp only at h1 h2 h3
    omega
  owner := by
    intro i j k h1 h2 h3
    refine ⟨j.toNat, by omega, ?_⟩
    simp only [Box3.Has]
    omega
  disjoint := by
    rintro r hr s hs i j k ⟨_, h2, _⟩ ⟨_, h3, _⟩
    simp only at h2 h3
    omega

theorem thin_valid : thin.Valid 65536 where
  procs := by norm_num
  fast := by norm_num [thin]
  mid := by norm_num [thin]
  slow := by norm_num [thin]
  factors := by
    intro n hn p hp hd
    left
    have : p ∣ 2 ^ 16 := by
      rcases hn with h | h | h <;> subst h <;> simp only [thin] at hd
      · exact (by exact_mod_cast hd : p ∣ 2).trans ⟨2 ^ 15, by norm_num⟩
      · exact_mod_cast hd
      · exact (by exact_mod_cast hd : p ∣ 2).trans ⟨2 ^ 15, by norm_num⟩
    exact (Nat.prime_dvd_prime_iff_eq hp Nat.prime_two).mp (hp.dvd_of_dvd_pow this)
  tilesIn := thin_tiles
  tilesOut := thin_tiles
  properIn := by
    intro r hr
    refine ⟨⟨by norm_num [Box3.isize, thin], by norm_num [Box3.jsize, thin],
      by norm_num [Box3.ksize, thin]⟩, ?_⟩
    simp only [Box3.Within, thin]
    omega
  properOut := by
    intro r _
    exact ⟨by norm_num [Box3.isize, thin], by norm_num [Box3.jsize, thin], by norm_num [Box3.ksize, thin]⟩
  permute := Or.inl rfl

theorem thin_grids : setupGrids 65536 thin 0 =
    some ⟨(1, 65536, 1), (256, 1, 256), (1, 65536, 1), (0, 0, 0)⟩ := by
  have h1 : procGrid id 65536 1 65536 2 = some (1, 65536, 1) := by rw [procGrid_id]; decide +kernel
  have h2 : procGrid id 65536 2 1 2 = some (256, 1, 256) := by rw [procGrid_id]; decide +kernel
  have h3 : procGrid id 65536 2 65536 1 = some (1, 65536, 1) := by rw [procGrid_id]; decide +kernel
  simp [setupGrids, thin, h1, h2, h3]

theorem thin_small : thin.SmallBoxes 8 65536 0 := by
  refine Args3.SmallBoxes.of_grid (by norm_num) thin_valid (by norm_num [int32Max])
    (by norm_num [int32Max, thin]) ?_ ?_ 0
  · rintro n (h | h | h) <;> subst h <;> norm_num [int32Max, thin]
  · intro r hr
    simp only [Box3.Within, thin]
    omega

theorem setup32_none {sz : Int} {P me : Nat} {a : Args3} {st : Settings} {g : Grids}
    (hc : setupCheck32 P me a = some none) (hg : setupGrids32 P me a st.exchange = some g)
    (h : slowBox32 P a g me = none) :
    (fft3Setup32 sz P me a st : Option (Except SetupErr (Fft3 ℝ))) = none := by
  have : (setupMain32 sz ⟨P, me, a, st, g⟩ : Option (Fft3 ℝ)) = none := by
    unfold setupMain32
    cases fastBox32 P a g me with
    | none => rfl
    | some x =>
      cases midBox32 a g me with
      | none => rfl
      | some y =>
        change (slowBox32 P a g me).bind _ = none
        rw [h]
        rfl
  unfold fft3Setup32
  rw [hc]
  simp only [Option.bind_some, hg, Option.bind_eq_bind, this, Option.bind_none]

theorem setup_some {P me : Nat} {a : Args3} {st : Settings} (hv : a.Valid P) (hst : st.Valid)
    (hme : me < P) : ∃ f : Fft3 ℝ, fft3Setup P me a st = some (.ok f) := by
  obtain ⟨g, hg, -⟩ := setupGrids_ok hv.round hv.procs hv.fast hv.mid hv.slow st.exchange
  obtain ⟨_, _, _, -, hm⟩ := setupMain_eq (α := ℝ) (c := ⟨P, me, a, st, g⟩) hst hme hv
  obtain ⟨F, hF⟩ : ∃ F : Fft3 ℝ, setupMain ⟨P, me, a, st, g⟩ = some F := ⟨_, hm⟩
  refine ⟨F, ?_⟩
  unfold fft3Setup
  rw [hv.check]
  simp only [hg, Option.bind_eq_bind, Option.bind_some, hF]

theorem thin_slow : slowBox32 65536 thin ⟨(1, 65536, 1), (256, 1, 256), (1, 65536, 1), (0, 0, 0)⟩ 65535 =
    none := by
  have hflag : slowflag 65536 thin = true := by
    rw [slowflag, allMax_true]
    exact ⟨0, by norm_num, by simp [thin]⟩
  unfold slowBox32
  rw [hflag]
  decide +kernel

/-- Without the limit on `P*n` the claim is false: the arguments are valid, all boxes are small (each rank
passes 4 points in and out), yet `setup` overflows on the last rank, when it computes the slow layout. -/
theorem C49_false : thin.Valid 65536 ∧ thin.SmallBoxes 8 65536 0 ∧
    (∀ me < 65536, ∃ f : Fft3 ℝ, fft3Setup 65536 me thin ⟨0, 0, 0⟩ = some (.ok f)) ∧
    (fft3Setup32 8 65536 65535 thin ⟨0, 0, 0⟩ : Option (Except SetupErr (Fft3 ℝ))) = none := by
  have hst : (Settings.mk 0 0 0).Valid := by simp [Settings.Valid]
  refine ⟨thin_valid, thin_small, fun me hme => setup_some thin_valid hst hme, ?_⟩
  obtain ⟨g, hg, hok⟩ := setupGrids_ok thin_valid.round thin_valid.procs thin_valid.fast thin_valid.mid thin_valid.slow 0
  have hG := thin_small.good (st := ⟨0, 0, 0⟩) thin_valid hst hg hok (me := 65535) (by norm_num)
  have h1 := setupCheck32_eq thin_small thin_valid (hG.ins.box 65535 (by norm_num))
  have h2 := setupGrids32_eq thin_small thin_valid (show 65535 < 65536 by norm_num) hg hok
  rw [thin_grids] at hg
  have hg' := Option.some.inj hg
  rw [← hg'] at h2
  exact setup32_none h1 h2 thin_slow

/-! ## The check of the input indices -/

/-- Input boxes of two ranks, the second with `in_ihi = INT_MAX`. -/
def hugeIndex : Args3 where
  nfast := 4
  nmid := 4
  nslow := 4
  ins r := if r = 0 then ⟨0, 3, 0, 3, 0, 3⟩ else ⟨0, 2147483647, 0, 3, 0, 3⟩
  outs _ := ⟨0, 3, 0, 3, 0, 3⟩
  permute := 0

/-- The check that should reject indices outside the grid overflows itself for the largest index:
`in_ilo > in_ihi+1` (fft3d.cpp:259) comes before `in_ihi >= nfast`. -/
theorem C49_check_false : setupCheck 2 hugeIndex = some .indices ∧ setupCheck32 2 1 hugeIndex = none ∧
    setupCheck32 2 0 hugeIndex = some (some .indices) := by
  decide +kernel

end FftMpi
