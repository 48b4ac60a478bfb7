import Verif.PropsFft3dBad
import Verif.PropsFft2dMore

/-!
# C51: what `only_one_remap` does

The layouts of a transform are numbered: 0 is the input layout, 1 the layout with whole rows in the first
dimension, 2 in the second, 3 in the third, 4 the output layout (2d: 0, 1, 2, 3).  Claim:
`only_one_remap(in,out,1,which)` takes the data in `in` from layout `which-1` to layout `which` in `out`, and
`only_one_remap(in,out,-1,which)` takes it back, for `in = out` and for separate arrays.

Proved for `in = out`, and for separate arrays where the code has one remap to do (`OneRemap`).  False
otherwise: with `exchange = 1` the second of the two remaps reads `in` again, fft3d.cpp:1116-1121
(`C51_pair_false`); if there is no remap to do, half of the data is copied (`which = 1`) or nothing at all
(`which = 4`, `C51_last_false`).
-/

noncomputable section

namespace FftMpi

/-! ## 3d -/

/-- The layouts of a 3d transform: `box k r` is what rank `r` owns in layout `k`, `perm k` the order in which
it is stored. -/
structure Layouts3 (P : Nat) (a : Args3) where
  box : Nat → Nat → Box3
  perm : Nat → Int
  first : box 0 = a.ins ∧ perm 0 = 0
  last : box 4 = a.outs ∧ perm 4 = a.permute
  order : perm 1 = 0 ∧ perm 2 = 1 ∧ perm 3 = 2
  tiles : ∀ k ≤ 4, Tiles3 P (box k) a.nfast a.nmid a.nslow
  rows1 : ∀ r < P, (box 1 r).ilo = 0 ∧ (box 1 r).ihi = a.nfast - 1
  rows2 : ∀ r < P, (box 2 r).jlo = 0 ∧ (box 2 r).jhi = a.nmid - 1
  rows3 : ∀ r < P, (box 3 r).klo = 0 ∧ (box 3 r).khi = a.nslow - 1

/-- Stage `k` consists of exactly one remap. -/
def OneRemap (P : Nat) (a : Args3) (st : Settings) (k : Nat) : Prop :=
  if k = 1 then SplitRows P a else if k = 4 then SplitCols P a else st.exchange = 0

theorem Ready.extraFits_of {c : Create} {f : Nat → Fft3 ℝ} (R : Ready c f) {m : Nat → LMem ℝ} {n : Nat}
    (hs : inoutSame c.P c.a = false) (hb : Bufs c.P f n m) (hr : RoomBack c.P c.a c.st m) :
    ∃ f' : Nat → Fft3 ℝ, Ready c f' ∧ ExtraFits c f' ∧ Bufs c.P f' n m ∧
      (∀ r, (f' r).fftsize = (f r).fftsize) ∧
      ∀ r flag which ai ao, (f' r).onlyOneRemap flag which ai ao = (f r).onlyOneRemap flag which ai ao := by
  obtain ⟨s, t, hx, hB⟩ := R.roomFits hr hs
  exact ⟨_, R.atLeast s t, hx, hB n hb, fun _ => rfl, fun _ _ _ _ _ => rfl⟩

/-- **C51, partial.**  There are layouts 0 to 4 such that `only_one_remap` takes the data from each to the next,
forward, and from each to the one before, backward (if input and output layout are the same, backward is
forward).  Conditions: `in = out`, or the stage consists of one remap; backward with `exchange = 1` larger
buffers than `setup` returns, see C25. -/
theorem C51_one_remap_partial {P : Nat} {a : Args3} {st : Settings} {f : Nat → Fft3 ℝ} (S : SetUp3 P a st f) :
    ∃ L : Layouts3 P a, ∀ (e : Bool) (k : Nat), 1 ≤ k → k ≤ 4 → ∀ (ai ao : Nat),
      (ai = ao ∨ OneRemap P a st k) → ∀ (X : Grid3) (m : Nat → LMem ℝ), Bufs P f ao m →
      (Holds P (L.perm (k - 1)) (L.box (k - 1)) ai X m → ∀ flag : Int, (flag = 1 ∨ SameLayout P a) →
        ∃ m', Terminates e P (fun r => (f r).onlyOneRemap flag k ai ao) m m' ∧
          Holds P (L.perm k) (L.box k) ao X m' ∧ Kept P f ao m m') ∧
      (Holds P (L.perm k) (L.box k) ai X m → RoomBack P a st m → ¬ SameLayout P a →
        ∃ m', Terminates e P (fun r => (f r).onlyOneRemap (-1) k ai ao) m m' ∧
          Holds P (L.perm (k - 1)) (L.box (k - 1)) ao X m' ∧ Kept P f ao m m') := by
  obtain ⟨c, rfl, rfl, rfl, _, R⟩ := S.ready
  refine ⟨⟨fun k => match k with | 0 => c.a.ins | 1 => c.fast | 2 => c.mid | 3 => c.slow | _ => c.a.outs,
    fun k => match k with | 0 => 0 | 1 => 0 | 2 => 1 | 3 => 2 | _ => c.a.permute, ⟨rfl, rfl⟩, ⟨rfl, rfl⟩,
    ⟨rfl, rfl, rfl⟩, ?_, fun r hr => fastBox_full hr, fun r _ => midBox_full r,
    fun r hr => slowBox_full hr⟩, ?_⟩
  · intro k hk
    interval_cases k
    · exact R.ins_tiles
    · exact R.fast_tiles
    · exact R.mid_tiles
    · exact R.slow_tiles
    · exact R.outs_tiles
  intro e k h1 h4 ai ao hio X m hb
  have stop : ∀ {q : Nat → List (Instr ℝ)} {g : Nat → Fft3 ℝ} {flag : Int} {p : Int} {bs : Nat → Box3},
      (∀ r, (g r).fftsize = (f r).fftsize) →
      (∃ m', Step e c.P (fsz g) ao q m m' ∧ Holds c.P p bs ao X m') →
      (∀ r < c.P, (f r).onlyOneRemap flag k ai ao = q r) →
      ∃ m', Terminates e c.P (fun r => (f r).onlyOneRemap flag k ai ao) m m' ∧
          Holds c.P p bs ao X m' ∧ Kept c.P f ao m m' := by
    rintro q g flag p bs hg ⟨m', s, h⟩ hq
    refine ⟨m', (s.congr hq).ok.terminates, h, fun r hr => ?_⟩
    have := s.kept r hr
    rwa [hg r] at this
  constructor
  · intro hX flag hflag
    have hf : ∀ r < c.P, flag = 1 ∨ (f r).same = true := by
      intro r hr
      rcases hflag with h | ⟨h0, h⟩
      · exact Or.inl h
      · exact Or.inr (by rw [R.same r hr]; exact inoutSame_of h0 h)
    interval_cases k
    · exact stop (fun _ => rfl) (R.pre_step e (hio.imp_right fun h => preflag_iff.mpr (by
        simpa [OneRemap] using h)) hX hb) fun r hr => by
          unfold Fft3.onlyOneRemap; rw [if_pos (hf r hr), if_pos (by norm_num)]
    · exact stop (fun _ => rfl) (R.fastmid_step e (hio.imp_right fun h => by simpa [OneRemap] using h) hX hb)
        fun r hr => by
          unfold Fft3.onlyOneRemap; rw [if_pos (hf r hr), if_neg (by norm_num), if_pos (by norm_num)]
    · exact stop (fun _ => rfl) (R.midslow_step e (hio.imp_right fun h => by simpa [OneRemap] using h) hX hb)
        fun r hr => by
          unfold Fft3.onlyOneRemap
          rw [if_pos (hf r hr), if_neg (by norm_num), if_neg (by norm_num), if_pos (by norm_num)]
    · exact stop (fun _ => rfl) (R.postslow_step e (hio.imp_right fun h => postflag_of_split R.args.procs (by
        simpa [OneRemap] using h)) hX hb) fun r hr => by
          unfold Fft3.onlyOneRemap
          rw [if_pos (hf r hr), if_neg (by norm_num), if_neg (by norm_num), if_neg (by norm_num),
            if_pos (by norm_num)]
  · intro hX hroom hsame
    have hs : inoutSame c.P c.a = false := by
      rw [← Bool.not_eq_true]
      exact fun h => hsame (R.same_layout h)
    obtain ⟨g, R', hE, hb', hsz, hprog⟩ := R.extraFits_of hs hb hroom
    have hf : ∀ r < c.P, ¬ ((-1 : Int) = 1 ∨ (g r).same = true) := by
      intro r hr
      rw [R'.same r hr, hs]
      decide
    interval_cases k
    · exact stop hsz (R'.postfast_step e hs (hio.imp_right fun h => preflag_iff.mpr (by
        simpa [OneRemap] using h)) hX hb') fun r hr => by
          rw [← hprog]
          unfold Fft3.onlyOneRemap
          rw [if_neg (hf r hr), if_neg (by norm_num), if_neg (by norm_num), if_neg (by norm_num),
            if_pos (by norm_num)]
    · exact stop hsz (R'.midfast_step e hs hE (hio.imp_right fun h => by simpa [OneRemap] using h) hX hb')
        fun r hr => by
          rw [← hprog]
          unfold Fft3.onlyOneRemap
          rw [if_neg (hf r hr), if_neg (by norm_num), if_neg (by norm_num), if_pos (by norm_num)]
    · exact stop hsz (R'.slowmid_step e hs (hio.imp_right fun h => by simpa [OneRemap] using h) hX hb')
        fun r hr => by
          rw [← hprog]
          unfold Fft3.onlyOneRemap
          rw [if_neg (hf r hr), if_neg (by norm_num), if_pos (by norm_num)]
    · exact stop hsz (R'.preslow_step e hs (hio.imp_right fun h => postflag_of_split R.args.procs (by
        simpa [OneRemap] using h)) hX hb') fun r hr => by
          rw [← hprog]
          unfold Fft3.onlyOneRemap; rw [if_neg (hf r hr), if_pos (by norm_num)]

/-- The hypotheses of `C51_one_remap_partial` can be met, both with `in = out` and with separate arrays. -/
example : ∃ f, SetUp3 2 (demo3 1) ⟨2, 0, 2⟩ f ∧ OneRemap 2 (demo3 1) ⟨2, 0, 2⟩ 2 ∧
    OneRemap 2 (demo3 1) ⟨2, 0, 2⟩ 4 ∧ ¬ SameLayout 2 (demo3 1) ∧
    ∃ m, ∀ n, Holds 2 0 (demo3 1).ins n (fun i j k => i + 10 * j + 100 * k) m ∧ Bufs 2 f n m ∧
      RoomBack 2 (demo3 1) ⟨2, 0, 2⟩ m := by
  obtain ⟨f, S⟩ := setUp3_exists (demo3_valid 1 (by decide)) (st := ⟨2, 0, 2⟩) (by simp [Settings.Valid])
  obtain ⟨m, h⟩ := S.mem_in fun i j k => i + 10 * j + 100 * k
  exact ⟨f, S, rfl, Or.inl (by simp [demo3]), fun h => absurd h.1 (by simp [demo3]), m,
    fun n => ⟨(h n).1, (h n).2, Or.inl rfl⟩⟩

/-! ### Separate arrays -/

/-- With `exchange = 1` and separate arrays, `only_one_remap(in,out,1,2)` takes what is in `in`, read as if it
were in the brick layout, to layout 2: the first of its two remaps has no effect on the result. -/
theorem Ready.fastmid_pair {c : Create} {f : Nat → Fft3 ℝ} (R : Ready c f) (e : Bool)
    (hx : c.st.exchange ≠ 0) {ai ao : Nat} (hio : ai ≠ ao) {Y : Grid3} {m : Nat → LMem ℝ}
    (hbi : Bufs c.P f ai m) (hb : Bufs c.P f ao m) (hY : Holds c.P 0 c.brick ai Y m) :
    ∃ m', Step e c.P (fsz f) ao (fun r => remapIf (f r).fastmid ai ao) m m' ∧
      Holds c.P 1 c.mid ao Y m' := by
  obtain ⟨X, hX⟩ := Ready.some_holds R.fast_tiles 0 (fun r hr => R.size_fast hr) hbi.data
  obtain ⟨m1, h1, h2⟩ := R.step e 1 c.bp (ins := c.fast) (outs := c.brick) zero_ok zero_ok
    (by decide : (0 : Int) = (0 + 0) % 3) (fun _ => rfl) (fun _ => rfl) R.fast_tiles (R.brick_tiles hx)
    (fun r hr => R.size_brick hx hr) hX hb (fun r hr => R.fwd r hr (c.on r).fastmidR1 (by
      have : ¬ (c.on r).st.exchange = 0 := hx
      simp [Create.fwdSizes, this]))
  have hY1 : Holds c.P 0 c.brick ai Y m1 := by
    intro r hr
    rw [h1.other r hr ai hio]
    exact hY r hr
  obtain ⟨m2, h3, h4⟩ := R.step e 2 c.bp (ins := c.brick) (outs := c.mid) zero_ok one_ok
    (by decide : (1 : Int) = (0 + 1) % 3) (fun _ => rfl) (fun _ => rfl) (R.brick_tiles hx) R.mid_tiles
    (fun r hr => R.size_mid hr) hY1 (hb.congr h1.dom) (fun r hr => R.fwd r hr (c.on r).fastmidR2 (by
      have : ¬ (c.on r).st.exchange = 0 := hx
      simp [Create.fwdSizes, this]))
  refine ⟨m2, (h1.append h3).congr ?_, h4⟩
  intro r hr
  have : ¬ (c.on r).st.exchange = 0 := hx
  rw [R.fastmid r hr]
  simp [Create.fastmidP, this, remapIf, RemapPair.prog, Create.double]
  rfl

/-- **C51 is false for separate arrays and `exchange = 1`.**  4 x 2 x 2 grid, two ranks, arrays 0 and 1 with the
same contents on every rank: `only_one_remap(data,data,1,2)` and `only_one_remap(in,data,1,2)` with the
other array as `in` give different results. -/
theorem C51_pair_false : ∃ (P : Nat) (a : Args3) (st : Settings) (f : Nat → Fft3 ℝ) (m : Nat → LMem ℝ),
    SetUp3 P a st f ∧ Bufs P f 0 m ∧ Bufs P f 1 m ∧ (∀ r < P, (m r).ub 0 = (m r).ub 1) ∧
    ∀ e, ∃ m' m'', Terminates e P (fun r => (f r).onlyOneRemap 1 2 1 1) m m' ∧
      Terminates e P (fun r => (f r).onlyOneRemap 1 2 0 1) m m'' ∧
      (m' 0).ub 1 2 = some 0 ∧ (m'' 0).ub 1 2 = some 2 := by
  obtain ⟨f, S⟩ := setUp3_exists bufArgs_valid (st := ⟨0, 1, 0⟩) (by simp [Settings.Valid])
  obtain ⟨c, hP, ha, hst, hg, R⟩ := S.ready
  have hcg : c.g = ⟨(1, 1, 2), (2, 1, 1), (2, 1, 1), (2, 1, 1)⟩ := by
    have := bufGrids.symm.trans hg
    exact (Option.some.inj this).symm
  have hx : c.st.exchange ≠ 0 := by rw [hst]; decide
  have h0 : 0 < c.P := by rw [hP]; decide
  have efast : c.fast 0 = ⟨0, 3, 0, 1, 0, 1⟩ := by
    unfold Create.fast; rw [hP, ha, hcg]; decide +kernel
  have ebrick : c.brick 0 = ⟨0, 1, 0, 1, 0, 1⟩ := by
    unfold Create.brick; rw [ha, hcg]; decide +kernel
  have emid : c.mid 0 = ⟨0, 1, 0, 1, 0, 1⟩ := by
    unfold Create.mid; rw [ha, hcg]; decide +kernel
  have efasts : ∀ r < c.P, c.fast r = c.a.ins r := by
    intro r _
    have : preflag c.P c.a = false := by rw [hP, ha]; decide +kernel
    simp [Create.fast, fastBox, this]
  let m := memOf f 0 bufArgs.ins (fun i _ _ => i) (fun r => (f r).sendsize) (fun r => (f r).recvsize)
  have hb : ∀ n, Bufs c.P f n m := fun n => memOf_bufs n (fun _ _ => le_rfl) (fun _ _ => le_rfl)
  have hX : ∀ n, Holds c.P 0 c.fast n (fun i _ _ => i) m := by
    intro n r hr
    rw [efasts r hr]
    have h := R.size_ins hr
    rw [ha] at h ⊢
    exact arrayOf_holds h
  refine ⟨2, bufArgs, _, f, m, S, hP ▸ hb 0, hP ▸ hb 1, fun _ _ => rfl, fun e => ?_⟩
  obtain ⟨Y, hY⟩ := Ready.some_holds (R.brick_tiles hx) 0 (fun r hr => R.size_brick hx hr) (hb 0).data
  obtain ⟨m', s', g'⟩ := R.fastmid_step e (Or.inl rfl) (hX 1) (hb 1)
  obtain ⟨m'', s'', g''⟩ := R.fastmid_pair e hx (ai := 0) (ao := 1) (by decide) (hb 0) (hb 1) hY
  have hp : ∀ ai, ∀ r < c.P, (f r).onlyOneRemap 1 2 ai 1 = remapIf (f r).fastmid ai 1 := by
    intro ai r _
    unfold Fft3.onlyOneRemap
    rw [if_pos (Or.inl rfl), if_neg (by norm_num), if_pos rfl]
  have t' := (s'.congr (hp 1)).ok.terminates
  have t'' := (s''.congr (hp 0)).ok.terminates
  rw [hP] at t' t''
  refine ⟨m', m'', t', t'', ?_, ?_⟩
  · have := (g' 0 h0 0 1 0 (by rw [emid]; norm_num [Box3.Has])).1
    rw [emid] at this
    simpa [addr3, Box3.isize, Box3.jsize, Box3.ksize] using this
  · have k1 := (g'' 0 h0 0 1 0 (by rw [emid]; norm_num [Box3.Has])).1
    have k2 := (hY 0 h0 0 1 0 (by rw [ebrick]; norm_num [Box3.Has])).1
    have k3 := (hX 0 0 h0 2 0 0 (by rw [efast]; norm_num [Box3.Has])).1
    rw [emid] at k1
    rw [ebrick] at k2
    rw [efast] at k3
    norm_num [addr3, Box3.isize, Box3.jsize, Box3.ksize] at k1 k2 k3
    rw [k1, ← k2, k3]

/-- If every rank owns whole columns of the output and `permute = 2`, `only_one_remap(in,out,1,4)` does nothing
at all, also for separate arrays. -/
theorem C51_last_false {P : Nat} {a : Args3} {st : Settings} {f : Nat → Fft3 ℝ} (S : SetUp3 P a st f)
    (h : ¬ SplitCols P a) (e : Bool) (ai ao : Nat) (m : Nat → LMem ℝ) :
    ∃ m', Terminates e P (fun r => (f r).onlyOneRemap 1 4 ai ao) m m' ∧ ∀ r < P, (m' r).ub ao = (m r).ub ao := by
  obtain ⟨c, rfl, rfl, rfl, _, R⟩ := S.ready
  have h' : c.a.permute = 2 ∧ ∀ r < c.P, (c.a.outs r).klo = 0 ∧ (c.a.outs r).khi = c.a.nslow - 1 := by
    unfold SplitCols at h
    push Not at h
    exact ⟨h.1, fun r hr => h.2 r hr⟩
  have hs : slowflag c.P c.a = false := allMax_false.mpr fun r hr => by simp [h'.1, h'.2 r hr]
  have hpost : postflag c.P c.a c.g = false := allMax_false.mpr fun r hr => by simp [slowBox, hs, h'.1]
  refine ⟨m, ((Step.nil m (size := fsz f) (ao := ao)).congr fun r hr => ?_).ok.terminates, fun _ _ => rfl⟩
  have : postflag (c.on r).P (c.on r).a (c.on r).g = false := hpost
  unfold Fft3.onlyOneRemap
  rw [if_pos (Or.inl rfl), if_neg (by norm_num), if_neg (by norm_num), if_neg (by norm_num), if_pos rfl,
    R.postslow r hr]
  simp [Create.postslowO, this, remapIf]

/-- If every rank owns whole rows of the input, `only_one_remap(in,out,1,1)` with separate arrays copies
`insize` real numbers, although the data has `insize` complex numbers. -/
theorem C51_first_false {P : Nat} {a : Args3} {st : Settings} {f : Nat → Fft3 ℝ} (S : SetUp3 P a st f)
    (h : ¬ SplitRows P a) (e : Bool) {ai ao : Nat} (hio : ai ≠ ao) {m : Nat → LMem ℝ} (hbi : Bufs P f ai m)
    (hb : Bufs P f ao m) : ∃ m', Terminates e P (fun r => (f r).onlyOneRemap 1 1 ai ao) m m' ∧
      ∀ r < P, ∀ x, (m' r).ub ao x = if 0 ≤ x ∧ x < boxSize (a.ins r) then (m r).ub ai x else (m r).ub ao x := by
  obtain ⟨c, rfl, rfl, rfl, _, R⟩ := S.ready
  have hpre : preflag c.P c.a = false := by
    rw [← Bool.not_eq_true]
    exact fun k => h (preflag_iff.mp k)
  obtain ⟨m1, s1, h1⟩ := Ready.copy_any (c := c) (f := f) (m := m) e (fun r => (f r).insize) (ai := ai)
    (ao := ao) (fun r hr => (R.insize_range hr).1) (fun r hr => (R.insize_range hr).2) hbi.data hb.data
  refine ⟨m1, (s1.congr fun r hr => ?_).ok.terminates, fun r hr x => ?_⟩
  · have : preflag (c.on r).P (c.on r).a = false := hpre
    unfold Fft3.onlyOneRemap
    rw [if_pos (Or.inl rfl), if_pos rfl, R.prefast r hr]
    simp [Create.prefastO, this, remapOrCopy, hio]
  · rw [h1 r hr x, R.insize r hr]

/-- Arguments as in `C51_last_false` and `C51_first_false`. -/
example : (∃ f, SetUp3 2 (demo3 2) ⟨2, 1, 2⟩ f) ∧ ¬ SplitCols 2 (demo3 2) ∧ ¬ SplitRows 2 (demo3 2) := by
  refine ⟨setUp3_exists (demo3_valid 2 (by decide)) (by simp [Settings.Valid]), ?_, ?_⟩
  · rintro (h | ⟨r, hr, h⟩)
    · exact h rfl
    · exact h ⟨rfl, rfl⟩
  · rintro ⟨r, hr, h⟩
    exact h ⟨rfl, rfl⟩

/-! ## 2d -/

/-- The layouts of a 2d transform. -/
structure Layouts2 (P : Nat) (a : Args2) where
  box : Nat → Nat → Box2
  perm : Nat → Int
  first : box 0 = a.ins ∧ perm 0 = 0
  last : box 3 = a.outs ∧ perm 3 = a.permute
  order : perm 1 = 0 ∧ perm 2 = 1
  tiles : ∀ k ≤ 3, Tiles2 P (box k) a.nfast a.nslow
  rows1 : ∀ r < P, (box 1 r).ilo = 0 ∧ (box 1 r).ihi = a.nfast - 1
  rows2 : ∀ r < P, (box 2 r).jlo = 0 ∧ (box 2 r).jhi = a.nslow - 1

/-- Stage `k` consists of exactly one remap. -/
def OneRemap2 (P : Nat) (a : Args2) (st : Settings) (k : Nat) : Prop :=
  if k = 1 then SplitRows2 P a else if k = 3 then SplitCols2 P a else st.exchange = 0

/-- **C51 in 2d, partial.**  As `C51_one_remap_partial`; here the buffers returned by `setup` suffice in both
directions. -/
theorem C51_one_remap_2d_partial {w : Int} {P : Nat} {a : Args2} {st : Settings} {f : Nat → Fft2 ℝ}
    (S : SetUp2 w P a st f) :
    ∃ L : Layouts2 P a, ∀ (e : Bool) (k : Nat), 1 ≤ k → k ≤ 3 → ∀ (ai ao : Nat),
      (ai = ao ∨ OneRemap2 P a st k) → ∀ (X : Grid2) (m : Nat → LMem ℝ), Bufs2 P f ao m →
      (Holds2 P (L.perm (k - 1)) (L.box (k - 1)) ai X m → ∀ flag : Int, (flag = 1 ∨ SameLayout2 P a) →
        ∃ m', Terminates e P (fun r => (f r).onlyOneRemap flag k ai ao) m m' ∧
          Holds2 P (L.perm k) (L.box k) ao X m' ∧ Kept2 P f ao m m') ∧
      (Holds2 P (L.perm k) (L.box k) ai X m → ¬ SameLayout2 P a →
        ∃ m', Terminates e P (fun r => (f r).onlyOneRemap (-1) k ai ao) m m' ∧
          Holds2 P (L.perm (k - 1)) (L.box (k - 1)) ao X m' ∧ Kept2 P f ao m m') := by
  obtain ⟨c, rfl, rfl, rfl, rfl, _, R⟩ := S.ready
  refine ⟨⟨fun k => match k with | 0 => c.a.ins | 1 => c.fast | 2 => c.slow | _ => c.a.outs,
    fun k => match k with | 0 => 0 | 1 => 0 | 2 => 1 | _ => c.a.permute, ⟨rfl, rfl⟩, ⟨rfl, rfl⟩,
    ⟨rfl, rfl⟩, ?_, fun r hr => fastBox2_full hr, fun r hr => slowBox2_full hr⟩, ?_⟩
  · intro k hk
    interval_cases k
    · exact R.ins_tiles
    · exact R.fast_tiles
    · exact R.slow_tiles
    · exact R.outs_tiles
  intro e k h1 h4 ai ao hio X m hb
  have stop : ∀ {q : Nat → List (Instr ℝ)} {flag : Int} {p : Int} {bs : Nat → Box2},
      (∃ m', Step e c.P (fsz2 f) ao q m m' ∧ Holds2 c.P p bs ao X m') →
      (∀ r < c.P, (f r).onlyOneRemap flag k ai ao = q r) →
      ∃ m', Terminates e c.P (fun r => (f r).onlyOneRemap flag k ai ao) m m' ∧
          Holds2 c.P p bs ao X m' ∧ Kept2 c.P f ao m m' := by
    rintro q flag p bs ⟨m', s, h⟩ hq
    exact ⟨m', (s.congr hq).ok.terminates, h, s.kept2⟩
  constructor
  · intro hX flag hflag
    have hf : ∀ r < c.P, flag = 1 ∨ (f r).same = true := by
      intro r hr
      rcases hflag with h | ⟨h0, h⟩
      · exact Or.inl h
      · exact Or.inr (by rw [R.same r hr]; exact inoutSame2_of h0 h)
    interval_cases k
    · exact stop (R.pre_step e (hio.imp_right fun h => preflag2_iff.mpr (by
        simpa [OneRemap2] using h)) hX hb) fun r hr => by
          unfold Fft2.onlyOneRemap; rw [if_pos (hf r hr), if_pos (by norm_num)]
    · exact stop (R.fastslow_step e (hio.imp_right fun h => by simpa [OneRemap2] using h) hX hb)
        fun r hr => by
          unfold Fft2.onlyOneRemap; rw [if_pos (hf r hr), if_neg (by norm_num), if_pos (by norm_num)]
    · exact stop (R.postslow_step e (hio.imp_right fun h => postflag2_of_split R.args.procs (by
        simpa [OneRemap2] using h)) hX hb) fun r hr => by
          unfold Fft2.onlyOneRemap
          rw [if_pos (hf r hr), if_neg (by norm_num), if_neg (by norm_num), if_pos (by norm_num)]
  · intro hX hsame
    have hs : inoutSame2 c.P c.a = false := by
      rw [← Bool.not_eq_true]
      exact fun h => hsame (R.same_layout h)
    have hf : ∀ r < c.P, ¬ ((-1 : Int) = 1 ∨ (f r).same = true) := by
      intro r hr
      rw [R.same r hr, hs]
      decide
    interval_cases k
    · exact stop (R.postfast_step e hs (hio.imp_right fun h => preflag2_iff.mpr (by
        simpa [OneRemap2] using h)) hX hb) fun r hr => by
          unfold Fft2.onlyOneRemap
          rw [if_neg (hf r hr), if_neg (by norm_num), if_neg (by norm_num), if_pos (by norm_num)]
    · exact stop (R.slowfast_step e hs (hio.imp_right fun h => by simpa [OneRemap2] using h) hX hb)
        fun r hr => by
          unfold Fft2.onlyOneRemap
          rw [if_neg (hf r hr), if_neg (by norm_num), if_pos (by norm_num)]
    · exact stop (R.preslow_step e hs (hio.imp_right fun h => postflag2_of_split R.args.procs (by
        simpa [OneRemap2] using h)) hX hb) fun r hr => by
          unfold Fft2.onlyOneRemap; rw [if_neg (hf r hr), if_pos (by norm_num)]

/-- The hypotheses of `C51_one_remap_2d_partial` can be met. -/
example : ∃ f, SetUp2 1 2 crossArgs2 ⟨2, 0, 2⟩ f ∧ (∀ k, 1 ≤ k → k ≤ 3 → OneRemap2 2 crossArgs2 ⟨2, 0, 2⟩ k) ∧
    ¬ SameLayout2 2 crossArgs2 ∧
    ∃ m, ∀ n, Holds2 2 0 crossArgs2.ins n (fun i j => i + 10 * j) m ∧ Bufs2 2 f n m := by
  obtain ⟨f, S⟩ := setUp2_exists (w := 1) crossArgs2_valid (st := ⟨2, 0, 2⟩)
    (by simp [Settings.Valid2, FlagOk2])
  obtain ⟨m, h⟩ := S.mem_in fun i j => i + 10 * j
  refine ⟨f, S, ?_, fun h => ?_, m, h⟩
  · intro k h1 h3
    interval_cases k
    · exact ⟨0, by decide, by simp [crossArgs2]⟩
    · rfl
    · exact Or.inl (by simp [crossArgs2])
  · have := h.2 0 (by decide)
    simp [crossArgs2] at this

/-- With `exchange = 1` and separate arrays, `only_one_remap(in,out,1,2)` takes what is in `in`, read as if it
were in the brick layout, to layout 2. -/
theorem Ready2.fastslow_pair {c : Create2} {f : Nat → Fft2 ℝ} (R : Ready2 c f) (e : Bool)
    (hx : c.st.exchange ≠ 0) {ai ao : Nat} (hio : ai ≠ ao) {Y : Grid2} {m : Nat → LMem ℝ}
    (hbi : Bufs2 c.P f ai m) (hb : Bufs2 c.P f ao m) (hY : Holds2 c.P 0 c.brick ai Y m) :
    ∃ m', Step e c.P (fsz2 f) ao (fun r => remapIf2 (f r).fastslow ai ao) m m' ∧
      Holds2 c.P 1 c.slow ao Y m' := by
  obtain ⟨X, hX⟩ := Ready2.some_holds R.fast_tiles (Or.inl rfl) (fun r hr => R.size_fast hr) hbi.data
  obtain ⟨m1, h1, h2⟩ := R.step e 1 c.bp (ins := c.fast) (outs := c.brick) zero_ok zero_ok
    (by decide : (0 : Int) = (0 + 0) % 2) (fun _ => rfl) (fun _ => rfl) R.fast_tiles (R.brick_tiles hx)
    (fun r hr => R.size_brick hx hr) hX hb (fun r hr => R.fwd r hr (c.on r).fastslowR1 (by
      have : ¬ (c.on r).st.exchange = 0 := hx
      simp [Create2.fwdSizes, this]))
  have hY1 : Holds2 c.P 0 c.brick ai Y m1 := by
    intro r hr
    rw [h1.other r hr ai hio]
    exact hY r hr
  obtain ⟨m2, h3, h4⟩ := R.step e 2 c.bp (ins := c.brick) (outs := c.slow) zero_ok one_ok
    (by decide : (1 : Int) = (0 + 1) % 2) (fun _ => rfl) (fun _ => rfl) (R.brick_tiles hx) R.slow_tiles
    (fun r hr => R.size_slow hr) hY1 (hb.congr h1.dom) (fun r hr => R.fwd r hr (c.on r).fastslowR2 (by
      have : ¬ (c.on r).st.exchange = 0 := hx
      simp [Create2.fwdSizes, this]))
  refine ⟨m2, (h1.append h3).congr ?_, h4⟩
  intro r hr
  have : ¬ (c.on r).st.exchange = 0 := hx
  rw [R.fastslow r hr]
  simp [Create2.fastslowP, this, remapIf2, RemapPair2.prog, Create2.double]
  rfl

/-- **C51 in 2d is false for separate arrays and `exchange = 1`.**  2 x 2 grid, rank 0 owns the whole input;
arrays 0 and 1 have the same contents on every rank: with `in = out` and with separate arrays,
`only_one_remap` gives different results. -/
theorem C51_pair_false_2d : ∃ (P : Nat) (a : Args2) (st : Settings) (f : Nat → Fft2 ℝ) (m : Nat → LMem ℝ),
    SetUp2 1 P a st f ∧ Bufs2 P f 0 m ∧ Bufs2 P f 1 m ∧ (∀ r < P, (m r).ub 0 = (m r).ub 1) ∧
    ∀ e, ∃ m' m'', Terminates e P (fun r => (f r).onlyOneRemap 1 2 1 1) m m' ∧
      Terminates e P (fun r => (f r).onlyOneRemap 1 2 0 1) m m'' ∧
      (m' 0).ub 1 2 = some 1 ∧ (m'' 0).ub 1 2 = some 0 := by
  obtain ⟨f, S⟩ := setUp2_exists (w := 1) moved2_valid (st := ⟨0, 1, 0⟩)
    (by simp [Settings.Valid2, FlagOk2])
  obtain ⟨c, -, hP, ha, hst, hg, R⟩ := S.ready
  have hcg : c.g = (1, 2) := by
    have : setupBrick2 2 moved2 1 = some (1, 2) :=
      C16_2d_always_slabs (nprocs := 2) (by decide) (by decide) (by decide)
    exact (Option.some.inj (this.symm.trans hg)).symm
  have hx : c.st.exchange ≠ 0 := by rw [hst]; decide
  have h0 : 0 < c.P := by rw [hP]; decide
  have h1 : 1 < c.P := by rw [hP]; decide
  have ebrick : c.brick 1 = ⟨0, 1, 1, 1⟩ := by
    unfold Create2.brick; rw [ha, hcg]; decide +kernel
  have eslow : c.slow 0 = ⟨0, 0, 0, 1⟩ := by
    unfold Create2.slow; rw [hP, ha]; decide +kernel
  have efasts : ∀ r < c.P, c.fast r = moved2.ins r := by
    intro r _
    have : preflag2 c.P c.a = false := by rw [hP, ha]; decide +kernel
    rw [← ha]
    simp [Create2.fast, fastBox2, this]
  let m : Nat → LMem ℝ := fun r => constMem2 f (fun _ => if r = 0 then 1 else 0) r
  have hb : ∀ n, Bufs2 c.P f n m := fun n =>
    ⟨fun r hr => (constMem2_bufs c.P f _ n).data r hr, fun r hr => (constMem2_bufs c.P f _ n).sb r hr,
      fun r hr => (constMem2_bufs c.P f _ n).rb r hr⟩
  have hX : ∀ n, Holds2 c.P 0 c.fast n (fun _ _ => 1) m := by
    intro n r hr
    by_cases hr0 : r = 0
    · have := constMem2_holds (P := c.P) (f := f) (fun _ => 1) n (Or.inl rfl) (fun r hr => R.size_fast hr) r hr
      simp only [m, hr0, if_true]
      rw [hr0] at this
      simpa using this
    · intro i j hh
      rw [efasts r hr] at hh
      simp only [moved2, hr0, if_false, Box2.Has] at hh
      omega
  refine ⟨2, moved2, _, f, m, S, hP ▸ hb 0, hP ▸ hb 1, fun _ _ => rfl, fun e => ?_⟩
  obtain ⟨Y, hY⟩ := Ready2.some_holds (R.brick_tiles hx) (Or.inl rfl) (fun r hr => R.size_brick hx hr) (hb 0).data
  obtain ⟨m', s', g'⟩ := R.fastslow_step e (Or.inl rfl) (hX 1) (hb 1)
  obtain ⟨m'', s'', g''⟩ := R.fastslow_pair e hx (ai := 0) (ao := 1) (by decide) (hb 0) (hb 1) hY
  have hp : ∀ ai, ∀ r < c.P, (f r).onlyOneRemap 1 2 ai 1 = remapIf2 (f r).fastslow ai 1 := by
    intro ai r _
    unfold Fft2.onlyOneRemap
    rw [if_pos (Or.inl rfl), if_neg (by norm_num), if_pos rfl]
  have t' := (s'.congr (hp 1)).ok.terminates
  have t'' := (s''.congr (hp 0)).ok.terminates
  rw [hP] at t' t''
  refine ⟨m', m'', t', t'', ?_, ?_⟩
  · have := (g' 0 h0 0 1 (by rw [eslow]; norm_num [Box2.Has])).1
    rw [eslow] at this
    simpa [addr2, Box2.isize, Box2.jsize] using this
  · have k1 := (g'' 0 h0 0 1 (by rw [eslow]; norm_num [Box2.Has])).1
    have k2 := (hY 1 h1 0 1 (by rw [ebrick]; norm_num [Box2.Has])).1
    have k3 : (m 1).ub 0 0 = some 0 := by
      have h := (hb 0).data 1 h1 0 le_rfl
        (by
          have := R.size_brick hx h1
          rw [ebrick] at this
          norm_num [Box2.count, Box2.isize, Box2.jsize] at this
          omega)
      simp only [m, constMem2] at h ⊢
      split_ifs at h ⊢ <;> simp_all
    rw [eslow] at k1
    rw [ebrick] at k2
    norm_num [addr2, Box2.isize, Box2.jsize] at k1 k2
    rw [k1, ← k2, k3]

/-- If every rank owns whole columns of the output and `permute = 1`, `only_one_remap(in,out,1,3)` does nothing
at all, also for separate arrays. -/
theorem C51_last_false_2d {w : Int} {P : Nat} {a : Args2} {st : Settings} {f : Nat → Fft2 ℝ}
    (S : SetUp2 w P a st f) (h : ¬ SplitCols2 P a) (e : Bool) (ai ao : Nat) (m : Nat → LMem ℝ) :
    ∃ m', Terminates e P (fun r => (f r).onlyOneRemap 1 3 ai ao) m m' ∧ ∀ r < P, (m' r).ub ao = (m r).ub ao := by
  obtain ⟨c, rfl, rfl, rfl, rfl, _, R⟩ := S.ready
  have h' : c.a.permute = 1 ∧ ∀ r < c.P, (c.a.outs r).jlo = 0 ∧ (c.a.outs r).jhi = c.a.nslow - 1 := by
    unfold SplitCols2 at h
    push Not at h
    exact ⟨h.1, fun r hr => h.2 r hr⟩
  have hs : slowflag2 c.P c.a = false := allMax_false.mpr fun r hr => by simp [h'.1, h'.2 r hr]
  have hpost : postflag2 c.P c.a = false := allMax_false.mpr fun r hr => by simp [slowBox2, hs, h'.1]
  refine ⟨m, ((Step.nil m (size := fsz2 f) (ao := ao)).congr fun r hr => ?_).ok.terminates, fun _ _ => rfl⟩
  have : postflag2 (c.on r).P (c.on r).a = false := hpost
  unfold Fft2.onlyOneRemap
  rw [if_pos (Or.inl rfl), if_neg (by norm_num), if_neg (by norm_num), if_pos rfl, R.postslow r hr]
  simp [Create2.postslowO, this, remapIf2]

/-- If every rank owns whole rows of the input, `only_one_remap(in,out,1,1)` with separate arrays copies
`insize` real numbers, although the data has `insize` complex numbers. -/
theorem C51_first_false_2d {w : Int} {P : Nat} {a : Args2} {st : Settings} {f : Nat → Fft2 ℝ}
    (S : SetUp2 w P a st f) (h : ¬ SplitRows2 P a) (e : Bool) {ai ao : Nat} (hio : ai ≠ ao)
    {m : Nat → LMem ℝ} (hbi : Bufs2 P f ai m) (hb : Bufs2 P f ao m) :
    ∃ m', Terminates e P (fun r => (f r).onlyOneRemap 1 1 ai ao) m m' ∧
      ∀ r < P, ∀ x, (m' r).ub ao x = if 0 ≤ x ∧ x < boxSize2 (a.ins r) then (m r).ub ai x else (m r).ub ao x := by
  obtain ⟨c, rfl, rfl, rfl, rfl, _, R⟩ := S.ready
  have hpre : preflag2 c.P c.a = false := by
    rw [← Bool.not_eq_true]
    exact fun k => h (preflag2_iff.mp k)
  obtain ⟨m1, s1, h1⟩ := Ready2.copy_any (c := c) (f := f) (m := m) e (fun r => (f r).insize) (ai := ai)
    (ao := ao) (fun r hr => (R.insize_range hr).1) (fun r hr => (R.insize_range hr).2) hbi.data hb.data
  refine ⟨m1, (s1.congr fun r hr => ?_).ok.terminates, fun r hr x => ?_⟩
  · have : preflag2 (c.on r).P (c.on r).a = false := hpre
    unfold Fft2.onlyOneRemap
    rw [if_pos (Or.inl rfl), if_pos rfl, R.prefast r hr]
    simp [Create2.prefastO, this, remapOrCopy2, hio]
  · rw [h1 r hr x, R.insize r hr]

/-- Arguments as in `C51_last_false_2d` and `C51_first_false_2d`. -/
example : (∃ f, SetUp2 1 2 (plane2 1) ⟨2, 1, 2⟩ f) ∧ ¬ SplitCols2 2 (plane2 1) ∧ ¬ SplitRows2 2 (plane2 1) := by
  refine ⟨setUp2_exists (plane2_valid 1 (by decide)) (by simp [Settings.Valid2, FlagOk2]), ?_, ?_⟩
  · rintro (h | ⟨r, hr, h⟩)
    · exact h rfl
    · exact h ⟨rfl, rfl⟩
  · rintro ⟨r, hr, h⟩
    exact h ⟨rfl, rfl⟩

end FftMpi
