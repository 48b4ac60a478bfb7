import Verif.Fft2d32Main
import Verif.PropsFftInt
import Verif.PropsFft2d

/-!
# C49, C50: the 32-bit programs compute the DFT; integer arithmetic of `FFT2d`

C50 is the claim of C49 for `FFT2d`.  It is false for the same reason (`C50_false`, `C50_check_false`);
with the limit on `P*n` it holds (`C50_partial`).

`C49_forward_dft_partial`, `C50_forward_dft_partial` combine C49 and C50 with C21 and C41: the functions
with 32-bit integers, from the arguments of `setup` to the result of `compute`, give the DFT.  Missing from
the full claims: the limit on `P*n`; the index arithmetic inside `kissfft.h`.
-/

noncomputable section

namespace FftMpi

/-! ## 3d -/

/-- The objects that `setup` makes on all ranks with 32-bit integers. -/
def SetUp3_32 (sz : Int) (P : Nat) (a : Args3) (st : Settings) (f : Nat → Fft3 ℝ) : Prop :=
  ∀ r < P, fft3Setup32 sz P r a st = some (.ok (f r))

/-- Within the limits of C49 `setup` with 32-bit integers succeeds on all ranks, and a forward `compute` in
place on arrays and buffers of the sizes it returns computes the 3d DFT. -/
theorem C49_forward_dft_partial {sz : Int} {P : Nat} {a : Args3} {st : Settings}
    (hs : a.Small sz P st.exchange) (hv : a.Valid P) (hst : st.Valid) :
    (∃ f, SetUp3_32 sz P a st f) ∧
    ∀ f, SetUp3_32 sz P a st f → ∀ (e : Bool) (J : Nat → Nat → Junk) (scaled : Bool) (n : Nat) (X : Grid3)
      (m : Nat → LMem ℝ), Holds P 0 a.ins n X m → Bufs P f n m →
      ∃ m', Terminates e P (fun r => (f r).compute32 (J r) scaled false 1 n n) m m' ∧
        Holds P a.permute a.outs n (a.dft false X) m' ∧ Kept P f n m m' := by
  have H := fun (r : Nat) (hr : r < P) => C49_partial hs hv hst r hr
  constructor
  · refine ⟨fun r => if hr : r < P then (H r hr).choose_spec.choose else (H 0 hv.procs).choose_spec.choose,
      fun r hr => ?_⟩
    simp only [dif_pos hr]
    exact (H r hr).choose_spec.choose_spec.2.1
  · intro f' hf e J scaled n X m hX hb
    obtain ⟨f, S⟩ := setUp3_exists hv hst
    have K : ∀ r < P, ((f' r).fftsize = (f r).fftsize ∧ (f' r).sendsize = (f r).sendsize ∧
        (f' r).recvsize = (f r).recvsize) ∧
        (f' r).compute32 (J r) scaled false 1 n n = (f r).compute (J r) scaled false 1 n n := by
      intro r hr
      obtain ⟨g, g', h1, h2, ⟨-, -, h3, h4, h5⟩, h6, -⟩ := H r hr
      have e1 := (S.result r hr).symm.trans h1
      have e2 := (hf r hr).symm.trans h2
      simp only [Option.some.injEq, Except.ok.injEq] at e1 e2
      rw [e1, e2]
      exact ⟨⟨h3, h4, h5⟩, h6 _ _ _ _ _ _⟩
    have hb' : Bufs P f n m := by
      refine ⟨fun r hr => ?_, fun r hr => ?_, fun r hr => ?_⟩
      · rw [← (K r hr).1.1]; exact hb.data r hr
      · rw [← (K r hr).1.2.1]; exact hb.sb r hr
      · rw [← (K r hr).1.2.2]; exact hb.rb r hr
    obtain ⟨m', h1, h2, h3⟩ := C21_forward_dft S e J scaled hX hb'
    refine ⟨m', h1.congr fun r hr => (K r hr).2, h2, fun r hr => ?_⟩
    rw [(K r hr).1.1]
    exact h3 r hr

/-- The hypotheses of `C49_forward_dft_partial` can be met: 2 ranks, a 4 x 4 x 4 grid, `double`. -/
example : ∃ f, SetUp3_32 8 2 (demo3 1) ⟨2, 1, 2⟩ f ∧
    ∃ m, Holds 2 0 (demo3 1).ins 0 (fun i j k => i + 10 * j + 100 * k) m ∧ Bufs 2 f 0 m := by
  have hv := demo3_valid 1 (by decide)
  have hs : (demo3 1).Small 8 2 1 := by
    refine ⟨Args3.SmallBoxes.of_grid (by norm_num) hv (by norm_num [int32Max])
      (by norm_num [int32Max, demo3]) ?_ ?_ 1, ?_⟩
    · rintro n (h | h | h) <;> subst h <;> norm_num [int32Max, demo3]
    · intro r hr
      interval_cases r <;> norm_num [Box3.Within, demo3]
    · rintro n (h | h | h) <;> subst h <;> norm_num [int32Max, demo3]
  have hst : Settings.Valid ⟨2, 1, 2⟩ := by simp [Settings.Valid]
  obtain ⟨f', hf⟩ := (C49_forward_dft_partial (st := ⟨2, 1, 2⟩) hs hv hst).1
  obtain ⟨f, S⟩ := setUp3_exists hv hst
  obtain ⟨m, h⟩ := S.mem_in fun i j k => i + 10 * j + 100 * k
  refine ⟨f', hf, m, (h 0).1, ?_⟩
  have K : ∀ r < 2, (f' r).fftsize = (f r).fftsize ∧ (f' r).sendsize = (f r).sendsize ∧
      (f' r).recvsize = (f r).recvsize := by
    intro r hr
    obtain ⟨g, g', h1, h2, ⟨-, -, h3, h4, h5⟩, -⟩ := C49_partial (st := ⟨2, 1, 2⟩) hs hv hst r hr
    have e1 := (S.result r hr).symm.trans h1
    have e2 := (hf r hr).symm.trans h2
    simp only [Option.some.injEq, Except.ok.injEq] at e1 e2
    rw [e1, e2]
    exact ⟨h3, h4, h5⟩
  have hb := (h 0).2
  refine ⟨fun r hr => ?_, fun r hr => ?_, fun r hr => ?_⟩
  · rw [(K r hr).1]; exact hb.data r hr
  · rw [(K r hr).2.1]; exact hb.sb r hr
  · rw [(K r hr).2.2]; exact hb.rb r hr

/-! ## 2d -/

/-- `setup` on 32-bit integers succeeds on every rank, the sizes are those computed without overflow, and
every later call executes the same program.  `w*sz = sizeof(double)`. -/
theorem C50_partial {w sz : Int} (hsz : 1 ≤ sz) (hw : 8 = w * sz) {P : Nat} {a : Args2} {st : Settings}
    (hs : a.Small P st.exchange) (hv : a.Valid P) (hst : st.Valid2 w) (me : Nat) (hme : me < P) :
    ∃ f f' : Fft2 ℝ, fft2Setup w P me a st = some (.ok f) ∧ fft2Setup32 w sz P me a st = some (.ok f') ∧
      (f'.insize = boxSize2 (a.ins me) ∧ f'.outsize = boxSize2 (a.outs me) ∧ f'.fftsize = f.fftsize ∧
        f'.sendsize = f.sendsize ∧ f'.recvsize = f.recvsize) ∧
      (∀ J scaled remaponly flag ai ao,
        f'.compute32 J scaled remaponly flag ai ao = f.compute J scaled remaponly flag ai ao) ∧
      (∀ J flag ai, f'.only1d32 J flag ai = f.only1d J flag ai) ∧
      (∀ flag ai ao, f'.onlyRemaps32 flag ai ao = f.onlyRemaps flag ai ao) ∧
      (∀ flag which ai ao, f'.onlyOneRemap32 flag which ai ao = f.onlyOneRemap flag which ai ao) := by
  obtain ⟨f, f', h1, h2, h3, h4, h5, h6, h7⟩ := fft2Setup32_sim (α := ℝ) hsz hw hs hv hst hme
  exact ⟨f, f', h1, h2, ⟨h3.insize.trans h6, h3.outsize.trans h7, h3.fftsize, h3.sendsize, h3.recvsize⟩,
    h3.progs h4 h5⟩

/-- The objects that `setup` makes on all ranks with 32-bit integers. -/
def SetUp2_32 (w sz : Int) (P : Nat) (a : Args2) (st : Settings) (f : Nat → Fft2 ℝ) : Prop :=
  ∀ r < P, fft2Setup32 w sz P r a st = some (.ok (f r))

/-- Within the limits of C50 `setup` with 32-bit integers succeeds on all ranks, and a forward `compute` in
place on arrays and buffers of the sizes it returns computes the 2d DFT. -/
theorem C50_forward_dft_partial {w sz : Int} (hsz : 1 ≤ sz) (hw : 8 = w * sz) {P : Nat} {a : Args2}
    {st : Settings} (hs : a.Small P st.exchange) (hv : a.Valid P) (hst : st.Valid2 w) :
    (∃ f, SetUp2_32 w sz P a st f) ∧
    ∀ f, SetUp2_32 w sz P a st f → ∀ (e : Bool) (J : Nat → Nat → Junk) (scaled : Bool) (n : Nat) (X : Grid2)
      (m : Nat → LMem ℝ), Holds2 P 0 a.ins n X m → Bufs2 P f n m →
      ∃ m', Terminates e P (fun r => (f r).compute32 (J r) scaled false 1 n n) m m' ∧
        Holds2 P a.permute a.outs n (a.dft false X) m' ∧ Kept2 P f n m m' := by
  have H := fun (r : Nat) (hr : r < P) => C50_partial hsz hw hs hv hst r hr
  constructor
  · refine ⟨fun r => if hr : r < P then (H r hr).choose_spec.choose else (H 0 hv.procs).choose_spec.choose,
      fun r hr => ?_⟩
    simp only [dif_pos hr]
    exact (H r hr).choose_spec.choose_spec.2.1
  · intro f' hf e J scaled n X m hX hb
    obtain ⟨f, S⟩ := setUp2_exists hv hst
    have K : ∀ r < P, ((f' r).fftsize = (f r).fftsize ∧ (f' r).sendsize = (f r).sendsize ∧
        (f' r).recvsize = (f r).recvsize) ∧
        (f' r).compute32 (J r) scaled false 1 n n = (f r).compute (J r) scaled false 1 n n := by
      intro r hr
      obtain ⟨g, g', h1, h2, ⟨-, -, h3, h4, h5⟩, h6, -⟩ := H r hr
      have e1 := (S.result r hr).symm.trans h1
      have e2 := (hf r hr).symm.trans h2
      simp only [Option.some.injEq, Except.ok.injEq] at e1 e2
      rw [e1, e2]
      exact ⟨⟨h3, h4, h5⟩, h6 _ _ _ _ _ _⟩
    have hb' : Bufs2 P f n m := by
      refine ⟨fun r hr => ?_, fun r hr => ?_, fun r hr => ?_⟩
      · rw [← (K r hr).1.1]; exact hb.data r hr
      · rw [← (K r hr).1.2.1]; exact hb.sb r hr
      · rw [← (K r hr).1.2.2]; exact hb.rb r hr
    obtain ⟨m', h1, h2, h3⟩ := C41_forward_dft S e J scaled hX hb'
    refine ⟨m', h1.congr fun r hr => (K r hr).2, h2, fun r hr => ?_⟩
    rw [(K r hr).1.1]
    exact h3 r hr

/-! ## A condition on the whole grid -/

/-- If the whole grid has at most 2^29 - 1 points, the boxes are small. -/
theorem Args2.SmallBoxes.of_grid {P : Nat} {a : Args2} (hv : a.Valid P)
    (hP : 7 * (P : Int) ≤ int32Max) (hg : 4 * (a.nfast * a.nslow) ≤ int32Max)
    (hb : ∀ n, (n = a.nfast ∨ n = a.nslow) → 16 * n ≤ int32Max)
    (ho : ∀ r < P, (a.outs r).Within a.nfast a.nslow) (ex : Int) : a.SmallBoxes P ex := by
  refine ⟨hP, hb, ho, ?_⟩
  intro g hg' r hr b hb'
  obtain ⟨g0, hg0, hok⟩ := setupBrick2_ok hv.round hv.procs hv.fast hv.slow ex
  rw [hg'] at hg0
  cases hg0
  have h1 := hv.fast; have h3 := hv.slow
  have hw : b.Within a.nfast a.nslow := by
    rcases hb' with e | e | e | e | ⟨he, e⟩ <;> rw [e]
    · exact (hv.properIn r hr).2
    · exact ho r hr
    · exact fastBox2_within hv hr
    · exact slowBox2_within hv ho hr
    · exact brickBox2_within hv hok he hr
  obtain ⟨⟨w1, w1'⟩, w3, w3'⟩ := hw
  have s1 : max 1 b.isize ≤ a.nfast := max_le_of (by unfold Box2.isize; omega) h1.1
  have s3 : max 1 b.jsize ≤ a.nslow := max_le_of (by unfold Box2.jsize; omega) h3.1
  have := mul_le2 (show 0 ≤ max 1 b.isize by omega) (show 0 ≤ max 1 b.jsize by omega) s1 s3
  omega

theorem plane2_small (p : Int) (hp : p = 0 ∨ p = 1) (ex : Int) : (plane2 p).Small 2 ex := by
  refine ⟨Args2.SmallBoxes.of_grid (plane2_valid p hp) (by norm_num [int32Max])
    (by norm_num [int32Max, plane2]) ?_ ?_ ex, ?_⟩
  · rintro n (h | h) <;> subst h <;> norm_num [int32Max, plane2]
  · intro r hr
    interval_cases r <;> norm_num [Box2.Within, plane2]
  · rintro n (h | h) <;> subst h <;> norm_num [int32Max, plane2]

/-- The hypotheses of `C50_partial` and `C50_forward_dft_partial` can be met: 2 ranks, a 2 x 4 grid, in
double precision. -/
example : (plane2 1).Small 2 1 ∧ (plane2 1).Valid 2 ∧ Settings.Valid2 1 ⟨2, 1, 2⟩ ∧ (8 : Int) = 1 * 8 ∧
    ∃ f, SetUp2_32 1 8 2 (plane2 1) ⟨2, 1, 2⟩ f ∧
      ∃ m, Holds2 2 0 (plane2 1).ins 0 (fun i j => i + 10 * j) m ∧ Bufs2 2 f 0 m := by
  have hv := plane2_valid 1 (by decide)
  have hs := plane2_small 1 (by decide) 1
  have hst : Settings.Valid2 1 ⟨2, 1, 2⟩ := by simp [Settings.Valid2, FlagOk2]
  refine ⟨hs, hv, hst, by norm_num, ?_⟩
  obtain ⟨f', hf⟩ := (C50_forward_dft_partial (w := 1) (sz := 8) (by norm_num) (by norm_num)
    (st := ⟨2, 1, 2⟩) hs hv hst).1
  obtain ⟨f, S⟩ := setUp2_exists hv hst
  obtain ⟨m, h⟩ := S.mem_in fun i j => i + 10 * j
  refine ⟨f', hf, m, (h 0).1, ?_⟩
  have K : ∀ r < 2, (f' r).fftsize = (f r).fftsize ∧ (f' r).sendsize = (f r).sendsize ∧
      (f' r).recvsize = (f r).recvsize := by
    intro r hr
    obtain ⟨g, g', h1, h2, ⟨-, -, h3, h4, h5⟩, -⟩ := C50_partial (w := 1) (sz := 8) (by norm_num)
      (by norm_num) (st := ⟨2, 1, 2⟩) hs hv hst r hr
    have e1 := (S.result r hr).symm.trans h1
    have e2 := (hf r hr).symm.trans h2
    simp only [Option.some.injEq, Except.ok.injEq] at e1 e2
    rw [e1, e2]
    exact ⟨h3, h4, h5⟩
  have hb := (h 0).2
  refine ⟨fun r hr => ?_, fun r hr => ?_, fun r hr => ?_⟩
  · rw [(K r hr).1]; exact hb.data r hr
  · rw [(K r hr).2.1]; exact hb.sb r hr
  · rw [(K r hr).2.2]; exact hb.rb r hr

/-! ## The limit on `P*n` is needed -/

/-- 65536 ranks with 2 points each of a 65536 x 2 grid. -/
def thin2 : Args2 where
  nfast := 65536
  nslow := 2
  ins r := ⟨r, r, 0, 1⟩
  outs r := ⟨r, r, 0, 1⟩
  permute := 0

theorem thin2_tiles : Tiles2 65536 (fun r => ⟨r, r, 0, 1⟩) 65536 2 where
  inside := by
    rintro r hr i j ⟨h1, h2⟩
    simp only at h1 h2
    omega
  owner := by
    intro i j h1 h2
    refine ⟨i.toNat, by omega, ?_⟩
    simp only [Box2.Has]
    omega
  disjoint := by
    rintro r hr s hs i j ⟨h2, _⟩ ⟨h3, _⟩
    simp only at h2 h3
    omega

theorem thin2_valid : thin2.Valid 65536 where
  procs := by norm_num
  fast := by norm_num [thin2]
  slow := by norm_num [thin2]
  factors := by
    intro n hn p hp hd
    left
    have : p ∣ 2 ^ 16 := by
      rcases hn with h | h <;> subst h <;> simp only [thin2] at hd
      · exact_mod_cast hd
      · exact (by exact_mod_cast hd : p ∣ 2).trans ⟨2 ^ 15, by norm_num⟩
    exact (Nat.prime_dvd_prime_iff_eq hp Nat.prime_two).mp (hp.dvd_of_dvd_pow this)
  tilesIn := thin2_tiles
  tilesOut := thin2_tiles
  properIn := by
    intro r hr
    refine ⟨⟨by norm_num [Box2.isize, thin2], by norm_num [Box2.jsize, thin2]⟩, ?_⟩
    simp only [Box2.Within, thin2]
    omega
  properOut := by
    intro r _
    exact ⟨by norm_num [Box2.isize, thin2], by norm_num [Box2.jsize, thin2]⟩
  permute := Or.inl rfl

theorem thin2_small : thin2.SmallBoxes 65536 0 := by
  refine Args2.SmallBoxes.of_grid thin2_valid (by norm_num [int32Max])
    (by norm_num [int32Max, thin2]) ?_ ?_ 0
  · rintro n (h | h) <;> subst h <;> norm_num [int32Max, thin2]
  · intro r hr
    simp only [Box2.Within, thin2]
    omega

theorem setup2_32_none {w sz : Int} {P me : Nat} {a : Args2} {st : Settings} {g : Nat × Nat}
    (hc : setupCheck2_32 P me a = some none) (hg : setupBrick2_32 P me a st.exchange = some g)
    (h : slowBox2_32 P a me = none) :
    (fft2Setup32 w sz P me a st : Option (Except SetupErr (Fft2 ℝ))) = none := by
  have : (setupMain2_32 sz ⟨w, P, me, a, st, g⟩ : Option (Fft2 ℝ)) = none := by
    unfold setupMain2_32
    cases fastBox2_32 P a me with
    | none => rfl
    | some x =>
      change (slowBox2_32 P a me).bind _ = none
      rw [h]
      rfl
  unfold fft2Setup32
  rw [hc]
  simp only [Option.bind_some, hg, Option.bind_eq_bind, this, Option.bind_none]

theorem thin2_slow : slowBox2_32 65536 thin2 65535 = none := by
  have hflag : slowflag2 65536 thin2 = true := by
    rw [slowflag2, allMax_true]
    exact ⟨0, by norm_num, by simp [thin2]⟩
  unfold slowBox2_32
  rw [hflag]
  decide +kernel

/-- Without the limit on `P*n` the claim is false: the arguments are valid, all boxes are small (each rank
passes 2 points in and out), yet `setup` overflows on the last rank, when it computes the slow layout. -/
theorem C50_false : thin2.Valid 65536 ∧ thin2.SmallBoxes 65536 0 ∧
    (∀ me < 65536, ∃ f : Fft2 ℝ, fft2Setup 1 65536 me thin2 ⟨0, 0, 0⟩ = some (.ok f)) ∧
    (fft2Setup32 1 8 65536 65535 thin2 ⟨0, 0, 0⟩ : Option (Except SetupErr (Fft2 ℝ))) = none := by
  have hst : Settings.Valid2 1 ⟨0, 0, 0⟩ := by simp [Settings.Valid2, FlagOk2]
  obtain ⟨f, S⟩ := setUp2_exists thin2_valid hst
  refine ⟨thin2_valid, thin2_small, fun me hme => ⟨f me, S.result me hme⟩, ?_⟩
  obtain ⟨g, hg, hok⟩ := setupBrick2_ok thin2_valid.round thin2_valid.procs thin2_valid.fast thin2_valid.slow 0
  have hG := thin2_small.good (w := 1) (sz := 8) (by norm_num) (by norm_num) (st := ⟨0, 0, 0⟩) thin2_valid
    hst hg hok (me := 65535) (by norm_num)
  exact setup2_32_none (setupCheck2_32_eq thin2_small thin2_valid (hG.ins.box 65535 (by norm_num)))
    (setupBrick2_32_eq thin2_small thin2_valid (by norm_num) hg hok) thin2_slow

/-- Input boxes of two ranks, the second with `in_ihi = INT_MAX`. -/
def hugeIndex2 : Args2 where
  nfast := 4
  nslow := 4
  ins r := if r = 0 then ⟨0, 3, 0, 3⟩ else ⟨0, 2147483647, 0, 3⟩
  outs _ := ⟨0, 3, 0, 3⟩
  permute := 0

/-- The check that should reject indices outside the grid overflows itself for the largest index. -/
theorem C50_check_false : setupCheck2 2 hugeIndex2 = some .indices ∧ setupCheck2_32 2 1 hugeIndex2 = none ∧
    setupCheck2_32 2 0 hugeIndex2 = some (some .indices) := by
  decide +kernel

end FftMpi
