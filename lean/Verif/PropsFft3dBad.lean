import Verif.PropsFft3dBuf

/-!
# Properties of `FFT3d` that the code violates in part: buffer sizes (C25), separate arrays (C26), checks
of the layouts (C29)
-/

noncomputable section

namespace FftMpi

/-- A rank that cannot execute its first instruction after a correct stage fails in some execution. -/
theorem StageOK.fails {α : Type} {e : Bool} {P : Nat} {prog p q : Nat → List (Instr α)} {m m1 : Nat → LMem α}
    (h : StageOK e P p m m1) (hp : ∀ r < P, prog r = p r ++ q r) {r0 : Nat} (hr : r0 < P) (hq : q r0 ≠ [])
    (hf : ∀ ch, act (⟨q r0, m1 r0, [], none⟩ : RankSt α) ch = none) :
    ∃ k c, Run e k (initCfg P prog m) c ∧ Fails c r0 := by
  obtain ⟨n, hn⟩ := h.reach q (initCfg P prog m)
    (by intro r hr; simp [initCfg, hr, hp r hr]) (fun _ => rfl)
  refine ⟨n, _, hn, ?_, Or.inl ?_⟩
  · simp only [hr, if_true]
    intro h
    exact hq h.1
  · simp only [hr, if_true]
    exact hf

/-- 4 x 2 x 2 grid on two ranks.  Rank 0 owns the whole input, output is split in the first dimension and
stored with the third dimension fastest. -/
def bufArgs : Args3 where
  nfast := 4
  nmid := 2
  nslow := 2
  ins r := if r = 0 then ⟨0, 3, 0, 1, 0, 1⟩ else ⟨0, 3, 0, -1, 0, 1⟩
  outs r := ⟨2 * r, 2 * r + 1, 0, 1, 0, 1⟩
  permute := 2

theorem bufArgs_valid : bufArgs.Valid 2 where
  procs := by decide
  fast := by simp [bufArgs]
  mid := by simp [bufArgs]
  slow := by simp [bufArgs]
  factors := by
    intro n hn
    simp only [bufArgs] at hn
    rcases hn with rfl | rfl | rfl
    · exact fiveSmooth_of_dvd (m := 4) (k := 2) rfl (by decide)
    · exact fiveSmooth_of_dvd (m := 2) (k := 1) rfl (by decide)
    · exact fiveSmooth_of_dvd (m := 2) (k := 1) rfl (by decide)
  tilesIn :=
    { inside := by
        intro r hr i j k h
        simp only [bufArgs] at h ⊢
        split_ifs at h <;> simp only [Box3.Has] at h <;> omega
      owner := by
        intro i j k hi hj hk
        simp only [bufArgs] at hi hj hk
        exact ⟨0, by omega, by simp only [bufArgs, if_true, Box3.Has]; omega⟩
      disjoint := by
        intro r hr s hs i j k h1 h2
        simp only [bufArgs] at h1 h2
        split_ifs at h1 h2 <;> simp only [Box3.Has] at h1 h2 <;> omega }
  tilesOut :=
    { inside := by
        intro r hr i j k h
        simp only [bufArgs, Box3.Has] at h ⊢
        omega
      owner := by
        intro i j k hi hj hk
        simp only [bufArgs] at hi hj hk
        refine ⟨(i / 2).toNat, by omega, ?_⟩
        simp only [bufArgs, Box3.Has]
        omega
      disjoint := by
        intro r hr s hs i j k h1 h2
        simp only [bufArgs, Box3.Has] at h1 h2
        omega }
  properIn := by
    intro r hr
    simp only [bufArgs]
    split_ifs <;> simp [Box3.Proper, Box3.Within, Box3.isize, Box3.jsize, Box3.ksize]
  properOut := by
    intro r hr
    simp only [bufArgs, Box3.Proper, Box3.isize, Box3.jsize, Box3.ksize]
    omega
  permute := by simp [bufArgs]

theorem gridTriples_two : gridTriples 2 = [(1, 1, 2), (1, 2, 1), (1, 1, 2), (1, 2, 1), (2, 1, 1), (2, 1, 1)] := by
  simp only [gridTriples, factor_eq, smallDivisors, show Nat.sqrt 2 = 1 by norm_num]
  decide +kernel

theorem bufGrids : setupGrids 2 bufArgs 1 = some ⟨(1, 1, 2), (2, 1, 1), (2, 1, 1), (2, 1, 1)⟩ := by
  have e4 : bufArgs.nfast.toNat = 4 := rfl
  have e2 : bufArgs.nmid.toNat = 2 := rfl
  have e2' : bufArgs.nslow.toNat = 2 := rfl
  have ef : bufArgs.fp = id := rfl
  have g1 : procGrid id 2 1 2 2 = some (1, 1, 2) := by
    rw [procGrid_eq, gridTriples_two]
    norm_num [testGrid, surfarea, BIG, minarea0]
  have g2 : procGrid id 2 4 1 2 = some (2, 1, 1) := by
    rw [procGrid_eq, gridTriples_two]
    norm_num [testGrid, surfarea, BIG, minarea0]
  have g3 : procGrid id 2 4 2 1 = some (2, 1, 1) := by
    rw [procGrid_eq, gridTriples_two]
    norm_num [testGrid, surfarea, BIG, minarea0]
  have g4 : procGrid id 2 4 2 2 = some (2, 1, 1) := by
    rw [procGrid_eq, gridTriples_two]
    norm_num [testGrid, surfarea, BIG, minarea0]
  unfold setupGrids
  simp only [e4, e2, e2', ef, g1, g2, g3, Option.bind_eq_bind, Option.bind_some]
  simp [g4]

/-- What rank `me` knows when it makes the remaps. -/
def bufC (me : Nat) : Create :=
  ⟨2, me, bufArgs, ⟨0, 1, 0⟩, ⟨(1, 1, 2), (2, 1, 1), (2, 1, 1), (2, 1, 1)⟩⟩

theorem bufC_sizes : ((((bufC 1).fwdSizes (α := ℝ) ++ if inoutSame (bufC 1).P (bufC 1).a then []
    else (bufC 1).invSizes).foldl bump (0, 0))) = (0, 16) := by decide +kernel

/-- The sizes which `setup` returns on rank 1. -/
theorem bufSizes {f : Nat → Fft3 ℝ} (S : SetUp3 2 bufArgs ⟨0, 1, 0⟩ f) :
    (f 1).sendsize = 0 ∧ (f 1).recvsize = 16 := by
  obtain ⟨_, _, _, _, h⟩ := setupMain_eq (α := ℝ) (c := bufC 1) S.settings (by decide) S.args
  have hf := S.result 1 (by decide)
  unfold fft3Setup at hf
  rw [S.args.check] at hf
  simp only [show ({ collective := 0, exchange := 1, packflag := 0 } : Settings).exchange = 1 from rfl,
    bufGrids, Option.bind_eq_bind, Option.bind_some] at hf
  change ((setupMain (bufC 1)).bind fun f => _) = _ at hf
  rw [h] at hf
  simp only [Option.bind_some, Option.some.injEq, Except.ok.injEq] at hf
  rw [← hf]
  simp only [bufC_sizes]
  exact ⟨trivial, trivial⟩

/-- On rank 1, the second remap of `remap_midfast` packs 16 values to the send buffer at once. -/
theorem bufR2_prog (n : Nat) : ∃ (ent : SEnt PackPlan3) (rest : List (Instr ℝ)),
    ((bufC 1).midfastR2 (α := ℝ)).prog n n = .loc (packSb (some pack_3d_array) n 0 ent) :: rest ∧
    ent.plan.Ok ∧ ∃ s ps, packPairs ent.off 0 ent.plan = (0, s) :: ps := by
  refine ⟨_, _, rfl, ?_, _, _, rfl⟩
  constructor <;> decide +kernel

/-- Packing to a buffer without any elements is an access outside of the buffer. -/
theorem packSb_none {n : Nat} {ent : SEnt PackPlan3} {m : LMem ℝ} (h : ent.plan.Ok) {s : Int}
    {ps : List (Int × Int)} (hp : packPairs ent.off 0 ent.plan = (0, s) :: ps) (hm : m.sb 0 = none) :
    packSb (some pack_3d_array) n 0 ent m = none := by
  simp only [packSb, Option.bind_some, pack_3d_array_eq _ _ _ _ _ h, hp, copyAll, copy1, Mem.set, hm]
  cases m.ub n s <;> simp

/-- **C25 is false in general.**  4 x 2 x 2 grid, two ranks, `collective = 0`, `exchange = 1`,
`packflag = 0`.  `setup` returns `sendsize = 0` and `recvsize = 16` on rank 1.  With buffers of these sizes
the backward `compute` does not complete in either mode of `MPI_Send`, whatever the final memory: there is
an execution in which rank 1 accesses its send buffer out of bounds (in the second remap of
`remap_midfast`, whose sizes are ignored, fft3d.cpp:1368-1375). -/
theorem C25_false : ∃ (P : Nat) (a : Args3) (st : Settings) (f : Nat → Fft3 ℝ) (m : Nat → LMem ℝ),
    SetUp3 P a st f ∧ (f 1).sendsize = 0 ∧ (f 1).recvsize = 16 ∧ Bufs P f 0 m ∧
    ∀ (e : Bool) (J : Nat → Nat → Junk), (∀ m', ¬ Terminates e P
      (fun r => (f r).compute (J r) false false (-1) 0 0) m m') ∧
      ∃ k c, Run e k (initCfg P (fun r => (f r).compute (J r) false false (-1) 0 0) m) c ∧ Fails c 1 := by
  obtain ⟨f, S⟩ := setUp3_exists bufArgs_valid (st := ⟨0, 1, 0⟩) (by simp [Settings.Valid])
  have hsz := bufSizes S
  obtain ⟨c, hP, ha, hst, hg, R⟩ := S.ready
  have hcg : c.g = ⟨(1, 1, 2), (2, 1, 1), (2, 1, 1), (2, 1, 1)⟩ := by
    have := bufGrids.symm.trans hg
    exact (Option.some.inj this).symm
  have hc : ∀ r, c.on r = bufC r := by
    intro r
    unfold Create.on bufC
    rw [hP, ha, hst, hcg]
  have hs : inoutSame c.P c.a = false := by rw [hP, ha]; decide +kernel
  have hx : c.st.exchange ≠ 0 := by rw [hst]; decide
  let m := memOf f 0 bufArgs.ins (fun _ _ _ => 0) (fun r => (f r).sendsize) (fun r => (f r).recvsize)
  have hb : Bufs c.P f 0 m := memOf_bufs 0 (fun _ _ => le_rfl) (fun _ _ => le_rfl)
  refine ⟨2, bufArgs, _, f, m, S, hsz.1, hsz.2, hP ▸ hb, ?_⟩
  intro e J
  obtain ⟨m1, s1⟩ := R.preslow_any e hs hb hb
  have b1 := hb.congr s1.dom
  obtain ⟨X1, h1⟩ := Ready.some_holds R.slow_tiles 2 (fun r hr => R.size_slow hr) b1.data
  obtain ⟨m2, s2, _⟩ := R.fftSlow_step e (fun r => J r 2) (-1) h1
  have b2 := b1.congr s2.dom
  obtain ⟨m3, s3⟩ := R.slowmid_any e hs b2 b2
  have b3 := b2.congr s3.dom
  obtain ⟨X3, h3⟩ := Ready.some_holds R.mid_tiles 1 (fun r hr => R.size_mid hr) b3.data
  obtain ⟨m4, s4, _⟩ := R.fftMid_step e (fun r => J r 1) (-1) h3
  have b4 := b3.congr s4.dom
  obtain ⟨m5, s5⟩ := R.step_any e 9 c.bp (ins := fun r => jki (c.mid r)) (outs := fun r => jki (c.brick r))
    Ready.one_ok Ready.zero_ok (fun _ => rfl) (fun _ => rfl) R.mid_tiles (R.brick_tiles hx)
    (fun r hr => R.size_mid hr) (fun r hr => R.size_brick hx hr) b4 b4
    (fun r hr => R.inv hs r hr (c.on r).midfastR1 (by
      have : ¬ (c.on r).st.exchange = 0 := hx
      simp [Create.invSizes, this]))
  have s := (((s1.append s2).append s3).append s4).append s5
  have hsb : (m5 1).sb 0 = none := by
    have h := (s.dom 1 (by rw [hP]; decide)).2.1 0
    have h0 : (m 1).sb 0 = none := by simp [m, memOf, hsz.1]
    rw [h0] at h
    simpa using h
  obtain ⟨ent, rest, hprog, hok, x, ps, hpairs⟩ := bufR2_prog 0
  have hq : ∀ r < c.P, (f r).compute (J r) false false (-1) 0 0 =
      (remapOrCopy (f r).preslow (f r).outsize 0 0 ++ [.loc (performLoc (J r 2) (-1) (f r).fftSlow 0)] ++
        remapIf (f r).slowmid 0 0 ++ [.loc (performLoc (J r 1) (-1) (f r).fftMid 0)] ++
        ((c.on r).midfastR1 (α := ℝ)).prog 0 0) ++ (((c.on r).midfastR2 (α := ℝ)).prog 0 0 ++
        [.loc (performLoc (J r 0) (-1) (f r).fftFast 0)] ++ remapIf (f r).postfast 0 0) := by
    intro r hr
    unfold Fft3.compute
    rw [if_neg (by rw [R.same r hr, hs]; decide), R.midfast r hr, hs]
    have : ¬ (c.on r).st.exchange = 0 := hx
    simp [Create.midfastP, this, remapIf, RemapPair.prog, Create.double]
  have hfail : ∀ ch, act (⟨((c.on 1).midfastR2 (α := ℝ)).prog 0 0 ++
      [.loc (performLoc (J 1 0) (-1) (f 1).fftFast 0)] ++ remapIf (f 1).postfast 0 0, m5 1, [], none⟩ :
        RankSt ℝ) ch = none := by
    intro ch
    rw [hc, hprog]
    simp only [act, List.cons_append, packSb_none hok hpairs hsb, Option.map_none]
  have hex := s.ok.fails (prog := fun r => (f r).compute (J r) false false (-1) 0 0)
    (q := fun r => ((c.on r).midfastR2 (α := ℝ)).prog 0 0 ++
      [.loc (performLoc (J r 0) (-1) (f r).fftFast 0)] ++ remapIf (f r).postfast 0 0)
    hq (r0 := 1) (by rw [hP]; decide) (by rw [hc, hprog]; simp) hfail
  rw [hP] at hex
  obtain ⟨k, c', hrun, hf⟩ := hex
  exact ⟨fun m' T => T.safe k c' hrun 1 hf, k, c', hrun, hf⟩

/-! ## C26 -/

/-- Some rank does not own whole rows of the input grid. -/
def SplitRows (P : Nat) (a : Args3) : Prop := ∃ r < P, ¬ ((a.ins r).ilo = 0 ∧ (a.ins r).ihi = a.nfast - 1)

/-- The output is not stored with the third dimension fastest, or some rank does not own whole columns. -/
def SplitCols (P : Nat) (a : Args3) : Prop :=
  a.permute ≠ 2 ∨ ∃ r < P, ¬ ((a.outs r).klo = 0 ∧ (a.outs r).khi = a.nslow - 1)

/-- Input and output layout are the same. -/
def SameLayout (P : Nat) (a : Args3) : Prop := a.permute = 0 ∧ ∀ r < P, a.ins r = a.outs r

theorem preflag_iff {P : Nat} {a : Args3} : preflag P a = true ↔ SplitRows P a := by
  unfold preflag SplitRows
  rw [allMax_true]
  simp only [Bool.not_eq_true', Bool.and_eq_false_iff, decide_eq_false_iff_not, not_and_or]

theorem postflag_of_split {P : Nat} {a : Args3} {g : Grids} (hP : 0 < P) (h : SplitCols P a) :
    postflag P a g = true := by
  unfold postflag
  rw [allMax_true]
  by_cases hp : a.permute = 2
  · rcases h with h | ⟨r, hr, h⟩
    · exact absurd hp h
    · refine ⟨r, hr, ?_⟩
      have hs : slowflag P a = true := by
        unfold slowflag
        rw [allMax_true]
        exact ⟨r, hr, by simpa [hp, not_and_or, or_iff_not_imp_left] using h⟩
      have : ¬ ((a.outs r).klo = (slowBox P a g r).klo ∧ (a.outs r).khi = (slowBox P a g r).khi) := by
        simpa [slowBox, hs] using h
      simp only [Bool.not_eq_true', Bool.and_eq_false_iff, decide_eq_false_iff_not]
      by_cases h1 : (a.outs r).klo = (slowBox P a g r).klo
      · exact Or.inr fun h2 => this ⟨h1, h2⟩
      · exact Or.inl (Or.inr h1)
  · exact ⟨0, hP, by simp [hp]⟩

theorem HoldsScaled.sameOn {P : Nat} {p : Int} {bs : Nat → Box3} {n : Nat} {X : Grid3} {s : ℝ} {num : Nat → Int}
    {m m' : Nat → LMem ℝ} (h : HoldsScaled P p bs n X s num m) (h' : HoldsScaled P p bs n X s num m') :
    SameOn P bs n m m' :=
  fun r hr _ h0 h1 => (h r hr).eq (h' r hr) h0 h1

/-- **C26, forward, partial.**  If some rank does not own whole rows of the input (so that `compute` starts
with a remap) then `compute(in,out,1)` with separate arrays gives the values of `compute(out,out,1)`, and
leaves everything but `out` unchanged.  Missing: inputs of which every rank owns whole rows, see
`C26_forward_false`. -/
theorem C26_forward_partial {P : Nat} {a : Args3} {st : Settings} {f : Nat → Fft3 ℝ} (S : SetUp3 P a st f)
    (e : Bool) (J J' : Nat → Nat → Junk) (scaled remaponly : Bool) {ai ao : Nat} (hsplit : SplitRows P a)
    {X : Grid3} {m m0 : Nat → LMem ℝ} (hX : Holds P 0 a.ins ai X m) (hb : Bufs P f ao m)
    (hX0 : Holds P 0 a.ins ao X m0) (hb0 : Bufs P f ao m0) :
    ∃ m' m0', Terminates e P (fun r => (f r).compute (J r) scaled remaponly 1 ai ao) m m' ∧
      Terminates e P (fun r => (f r).compute (J' r) scaled remaponly 1 ao ao) m0 m0' ∧
      SameOn P a.outs ao m' m0' ∧ Kept P f ao m m' := by
  obtain ⟨c, rfl, rfl, rfl, _, R⟩ := S.ready
  obtain ⟨m', s, h⟩ := R.compute_fwd e J scaled remaponly (flag := 1) (Or.inl rfl) (ai := ai) (ao := ao)
    (Or.inr (preflag_iff.mpr hsplit)) hX hb
  obtain ⟨m0', s0, h0⟩ := R.compute_fwd e J' scaled remaponly (flag := 1) (Or.inl rfl) (ai := ao) (ao := ao)
    (Or.inl rfl) hX0 hb0
  rw [if_neg (by simp)] at h h0
  exact ⟨m', m0', s.ok.terminates, s0.ok.terminates, h.sameOn h0, s.kept⟩

/-- Backward `compute` with separate arrays, in the two cases in which it works. -/
theorem Ready.back_apart {c : Create} {f : Nat → Fft3 ℝ} (R : Ready c f) (e : Bool) (J : Nat → Nat → Junk)
    (scaled remaponly : Bool) {ai ao : Nat}
    (hc : (SameLayout c.P c.a ∧ SplitRows c.P c.a) ∨ (¬ SameLayout c.P c.a ∧ ¬ SplitRows c.P c.a ∧ SplitCols c.P c.a))
    {X : Grid3} {m : Nat → LMem ℝ} (hX : Holds c.P c.a.permute c.a.outs ai X m) (hb : Bufs c.P f ao m)
    (hr : RoomBack c.P c.a c.st m) :
    ∃ m', Step e c.P (fsz f) ao (fun r => (f r).compute (J r) scaled remaponly (-1) ai ao) m m' ∧
      (if scaled ∧ ¬ remaponly then
        HoldsScaled c.P 0 c.a.ins ao (Ready.effect c remaponly (-1) X) (1 / c.a.N)
          (fun r => boxSize (c.a.outs r)) m'
      else Holds c.P 0 c.a.ins ao (Ready.effect c remaponly (-1) X) m') := by
  rcases hc with ⟨⟨hp, hl⟩, hsplit⟩ | ⟨hs, hrows, hcols⟩
  · have hX' : Holds c.P 0 c.a.ins ai X m := by
      intro r hr
      rw [hl r hr, ← hp]
      exact hX r hr
    obtain ⟨m', s, h⟩ := R.compute_fwd e J scaled remaponly (flag := -1) (Or.inr (inoutSame_of hp hl))
      (ai := ai) (ao := ao) (Or.inr (preflag_iff.mpr hsplit)) hX' hb
    refine ⟨m', s, ?_⟩
    simp only [true_and] at h
    split_ifs at h ⊢
    · intro r hr
      have := h r hr
      rw [hp, ← hl r hr] at this
      exact this
    · intro r hr
      have := h r hr
      rw [hp, ← hl r hr] at this
      exact this
  · have hs' : inoutSame c.P c.a = false := by
      rw [← Bool.not_eq_true]
      intro h
      exact hs (R.same_layout h)
    have hpre : preflag c.P c.a = false := by
      rw [← Bool.not_eq_true]
      exact fun h => hrows (preflag_iff.mp h)
    have hpost := postflag_of_split (g := c.g) R.args.procs hcols
    obtain ⟨s, t, hx, hB⟩ := R.roomFits hr hs'
    obtain ⟨m', s, g⟩ := (R.atLeast s t).compute_inv e hs' hx J scaled remaponly (flag := -1)
      (by decide) (ai := ai) (ao := ao) (Or.inr ⟨hpost, hpre⟩) hX (hB ao hb)
    exact ⟨m', s, by simpa only [true_and, Ready.N, Args3.N] using g⟩

/-- **C26, backward, partial.**  `compute(in,out,-1)` with separate arrays gives the values of
`compute(out,out,-1)` in two cases: the layouts are the same and split in the first dimension; or they are
different, every rank owns whole rows of the input (no last remap) and the transform starts with a remap.
Missing: all other cases, see `C26_backward_false`; also buffers as in C25. -/
theorem C26_backward_partial {P : Nat} {a : Args3} {st : Settings} {f : Nat → Fft3 ℝ} (S : SetUp3 P a st f)
    (e : Bool) (J J' : Nat → Nat → Junk) (scaled remaponly : Bool) {ai ao : Nat}
    (hc : (SameLayout P a ∧ SplitRows P a) ∨ (¬ SameLayout P a ∧ ¬ SplitRows P a ∧ SplitCols P a))
    {X : Grid3} {m m0 : Nat → LMem ℝ} (hX : Holds P a.permute a.outs ai X m) (hb : Bufs P f ao m)
    (hr : RoomBack P a st m) (hX0 : Holds P a.permute a.outs ao X m0) (hb0 : Bufs P f ao m0)
    (hr0 : RoomBack P a st m0) :
    ∃ m' m0', Terminates e P (fun r => (f r).compute (J r) scaled remaponly (-1) ai ao) m m' ∧
      Terminates e P (fun r => (f r).compute (J' r) scaled remaponly (-1) ao ao) m0 m0' ∧
      SameOn P a.ins ao m' m0' ∧ Kept P f ao m m' := by
  obtain ⟨c, rfl, rfl, rfl, _, R⟩ := S.ready
  obtain ⟨m0', s0, h0⟩ := R.back e J' scaled remaponly hX0 hb0 hr0
  obtain ⟨m', s, h⟩ := R.back_apart e J scaled remaponly hc hX hb hr
  refine ⟨m', m0', s.ok.terminates, s0.ok.terminates, ?_, s.kept⟩
  split_ifs at h h0 with hh
  · exact h.sameOn h0
  · exact h.sameOn h0

/-- Memory whose array `n` consists of the complex numbers `v n`. -/
def constMem (f : Nat → Fft3 ℝ) (v : Nat → ℝ) (r : Nat) : LMem ℝ where
  ub n x := if 0 ≤ x ∧ x < 2 * (f r).fftsize then some (if x % 2 = 0 then v n else 0) else none
  sb x := if 0 ≤ x ∧ x < (f r).sendsize then some 0 else none
  rb x := if 0 ≤ x ∧ x < (f r).recvsize then some 0 else none

theorem constMem_bufs (P : Nat) (f : Nat → Fft3 ℝ) (v : Nat → ℝ) (n : Nat) : Bufs P f n (constMem f v) where
  data r hr := by
    intro x h0 h1
    simp only [constMem]
    rw [if_pos (by omega)]; rfl
  sb r hr := by
    intro x h0 h1
    simp only [constMem]
    rw [if_pos (by omega)]; rfl
  rb r hr := by
    intro x h0 h1
    simp only [constMem]
    rw [if_pos (by omega)]; rfl

theorem constMem_holds {P : Nat} {f : Nat → Fft3 ℝ} (v : Nat → ℝ) (n : Nat) (p : Int) {bs : Nat → Box3}
    (hs : ∀ r < P, (bs r).count ≤ (f r).fftsize) : Holds P p bs n (fun _ _ _ => (v n : ℂ)) (constMem f v) := by
  intro r hr i j k hh
  have hc := Box3.count_of_has hh
  have := hs r hr
  have r0 := addr3_range (permute := p) (nqty := 2) (q := 0) hh (by decide)
  have r1 := addr3_range (permute := p) (nqty := 2) (q := 1) hh (by decide)
  have e0 := addr3_two p (bs r) i j k 0
  have e1 := addr3_two p (bs r) i j k 1
  simp only [constMem]
  rw [if_pos (by omega), if_pos (by omega), if_pos (by omega), if_neg (by omega)]
  simp

/-- One rank owns everything. -/
def oneArgs : Args3 where
  nfast := 2
  nmid := 2
  nslow := 2
  ins _ := ⟨0, 1, 0, 1, 0, 1⟩
  outs _ := ⟨0, 1, 0, 1, 0, 1⟩
  permute := 0

theorem oneArgs_tiles : Tiles3 1 (fun _ => ⟨0, 1, 0, 1, 0, 1⟩) 2 2 2 where
  inside := by
    intro r hr i j k h
    simp only [Box3.Has] at h ⊢
    omega
  owner := by
    intro i j k hi hj hk
    exact ⟨0, by omega, by simp only [Box3.Has]; omega⟩
  disjoint := by
    intro r hr s hs i j k h1 h2
    omega

theorem oneArgs_valid : oneArgs.Valid 1 where
  procs := by decide
  fast := by simp [oneArgs]
  mid := by simp [oneArgs]
  slow := by simp [oneArgs]
  factors := by
    intro n hn
    simp only [oneArgs] at hn
    rcases hn with rfl | rfl | rfl <;> exact fiveSmooth_of_dvd (m := 2) (k := 1) rfl (by decide)
  tilesIn := oneArgs_tiles
  tilesOut := oneArgs_tiles
  properIn := by simp [oneArgs, Box3.Proper, Box3.Within, Box3.isize, Box3.jsize, Box3.ksize]
  properOut := by simp [oneArgs, Box3.Proper, Box3.isize, Box3.jsize, Box3.ksize]
  permute := by simp [oneArgs]

/-- **C26 is false in general (forward).**  One rank, 2 x 2 x 2 grid, `in` holds ones, `out` zeros.
`compute(in,out,1)` leaves 4 at the origin of `out`, `compute(out,out,1)` with ones in `out` leaves 8:
`memcpy` copies only half of the data (fft3d.cpp:570: the count is in complex numbers, the unit is
`sizeof(FFT_SCALAR)`). -/
theorem C26_forward_false : ∃ (P : Nat) (a : Args3) (st : Settings) (f : Nat → Fft3 ℝ)
    (m m0 m' m0' : Nat → LMem ℝ), SetUp3 P a st f ∧
    Holds P 0 a.ins 0 (fun _ _ _ => 1) m ∧ Bufs P f 0 m ∧ Bufs P f 1 m ∧
    Holds P 0 a.ins 1 (fun _ _ _ => 1) m0 ∧ Bufs P f 1 m0 ∧
    Terminates false P (fun r => (f r).compute (fun _ _ => (0, 0)) false false 1 0 1) m m' ∧
    Terminates false P (fun r => (f r).compute (fun _ _ => (0, 0)) false false 1 1 1) m0 m0' ∧
    (m' 0).ub 1 0 = some 4 ∧ (m0' 0).ub 1 0 = some 8 := by
  obtain ⟨f, S⟩ := setUp3_exists oneArgs_valid (st := ⟨2, 0, 2⟩) (by simp [Settings.Valid])
  obtain ⟨c, hP, ha, hst, hg, R⟩ := S.ready
  have hpre : preflag c.P c.a = false := by rw [hP, ha]; decide +kernel
  let m := constMem f fun n => if n = 0 then 1 else 0
  let m0 := constMem f fun _ => 1
  have hfull : ∀ r < c.P, c.fast r = ⟨0, 1, 0, 1, 0, 1⟩ := by
    intro r _
    have : c.fast r = c.a.ins r := by simp [Create.fast, fastBox, hpre]
    rw [this, ha, oneArgs]
  have hsz : ∀ r < c.P, 8 ≤ (f r).fftsize ∧ (f r).insize = 8 := by
    intro r hr
    have h1 := R.size_ins hr
    have h2 := R.insize r hr
    rw [ha] at h1 h2
    refine ⟨?_, h2.trans (by simp [boxSize, oneArgs])⟩
    simpa [oneArgs, Box3.count, Box3.isize, Box3.jsize, Box3.ksize] using h1
  have hX : Holds 1 0 oneArgs.ins 0 (fun _ _ _ => 1) m := by
    have h := constMem_holds (P := c.P) (f := f) (fun n => if n = 0 then 1 else 0) 0 0 (fun r hr => R.size_ins hr)
    rw [hP, ha] at h
    simpa using h
  have hX0 : Holds 1 0 oneArgs.ins 1 (fun _ _ _ => 1) m0 := by
    have h := constMem_holds (P := c.P) (f := f) (fun n => 1) 1 0 (fun r hr => R.size_ins hr)
    rw [hP, ha] at h
    simpa using h
  obtain ⟨m1, s1, h1⟩ := Ready.copy_any (c := c) (f := f) (m := m) false (fun r => (f r).insize) (ai := 0) (ao := 1)
    (fun r hr => (R.insize_range hr).1) (fun r hr => (R.insize_range hr).2) (constMem_bufs _ _ _ _).data
    (constMem_bufs _ _ _ _).data
  have hY : Holds c.P 0 c.fast 1 (fun _ _ k => if k = 0 then 1 else 0) m1 := by
    intro r hr i j k hh
    rw [hfull r hr] at hh ⊢
    have h8 := hsz r hr
    simp only [h1 r hr, h8.2, m, constMem]
    simp only [Box3.Has] at hh
    simp only [addr3, Box3.isize, Box3.jsize, Box3.ksize]
    have hi : i = 0 ∨ i = 1 := by omega
    have hj : j = 0 ∨ j = 1 := by omega
    have hk : k = 0 ∨ k = 1 := by omega
    rcases hi with rfl | rfl <;> rcases hj with rfl | rfl <;> rcases hk with rfl | rfl <;>
      norm_num <;> omega
  obtain ⟨m2, s2, h2⟩ := R.fwd_rest false (fun _ _ _ => (0, 0)) 1 hY ((constMem_bufs _ _ _ _).congr s1.dom)
  obtain ⟨m0', t0, g0, _⟩ := C21_forward_dft S false (fun _ _ _ => (0, 0)) false hX0 (constMem_bufs _ _ _ _)
  refine ⟨1, oneArgs, _, f, m, m0, m2, m0', S, hX, constMem_bufs _ _ _ _, constMem_bufs _ _ _ _, hX0,
    constMem_bufs _ _ _ _, ?_, t0, ?_, ?_⟩
  · have := (s1.append s2).congr (p' := fun r => (f r).compute (fun _ _ => (0, 0)) false false 1 0 1) (by
      intro r hr
      unfold Fft3.compute
      have : preflag (c.on r).P (c.on r).a = false := hpre
      rw [if_pos (Or.inl rfl), R.prefast r hr]
      simp [Create.prefastO, this, remapOrCopy])
    rw [hP] at this
    exact this.ok.terminates
  · have h := (h2 0 (by omega) 0 0 0 (by simp [ha, oneArgs, Box3.Has])).1
    rw [ha] at h
    simp only [Ready.spec, ha, dft3_eq, kern_zero] at h
    norm_num [oneArgs, addr3, Finset.sum_range_succ, show Int.toNat 2 = 2 from rfl] at h
    exact h
  · have h := (g0 0 (by omega) 0 0 0 (by simp [oneArgs, Box3.Has])).1
    simp only [dft3_eq, kern_zero] at h
    norm_num [oneArgs, addr3, Finset.sum_range_succ, show Int.toNat 2 = 2 from rfl] at h
    exact h

/-- Input split in the first dimension, output in the second. -/
def crossArgs : Args3 where
  nfast := 2
  nmid := 2
  nslow := 2
  ins r := ⟨r, r, 0, 1, 0, 1⟩
  outs r := ⟨0, 1, r, r, 0, 1⟩
  permute := 0

theorem crossArgs_valid : crossArgs.Valid 2 where
  procs := by decide
  fast := by simp [crossArgs]
  mid := by simp [crossArgs]
  slow := by simp [crossArgs]
  factors := by
    intro n hn
    simp only [crossArgs] at hn
    rcases hn with rfl | rfl | rfl <;> exact fiveSmooth_of_dvd (m := 2) (k := 1) rfl (by decide)
  tilesIn :=
    { inside := by
        intro r hr i j k h
        simp only [crossArgs, Box3.Has] at h ⊢
        omega
      owner := by
        intro i j k hi hj hk
        simp only [crossArgs] at hi hj hk
        exact ⟨i.toNat, by omega, by simp only [crossArgs, Box3.Has]; omega⟩
      disjoint := by
        intro r hr s hs i j k h1 h2
        simp only [crossArgs, Box3.Has] at h1 h2
        omega }
  tilesOut :=
    { inside := by
        intro r hr i j k h
        simp only [crossArgs, Box3.Has] at h ⊢
        omega
      owner := by
        intro i j k hi hj hk
        simp only [crossArgs] at hi hj hk
        exact ⟨j.toNat, by omega, by simp only [crossArgs, Box3.Has]; omega⟩
      disjoint := by
        intro r hr s hs i j k h1 h2
        simp only [crossArgs, Box3.Has] at h1 h2
        omega }
  properIn := by
    intro r hr
    simp only [crossArgs, Box3.Proper, Box3.Within, Box3.isize, Box3.jsize, Box3.ksize]
    omega
  properOut := by
    intro r hr
    simp only [crossArgs, Box3.Proper, Box3.isize, Box3.jsize, Box3.ksize]
    omega
  permute := by simp [crossArgs]

/-- **C26 is false in general (backward).**  Two ranks, 2 x 2 x 2 grid, ones in both arrays.
`compute(in,out,-1)` leaves ones in `out`: the last remap reads `in` again (fft3d.cpp:601), so nothing of
the transform is left.  `compute(out,out,-1)` gives 8 at the origin. -/
theorem C26_backward_false : ∃ (P : Nat) (a : Args3) (st : Settings) (f : Nat → Fft3 ℝ)
    (m m' m0' : Nat → LMem ℝ), SetUp3 P a st f ∧ RoomBack P a st m ∧
    (∀ n, Holds P a.permute a.outs n (fun _ _ _ => 1) m ∧ Bufs P f n m) ∧
    Terminates false P (fun r => (f r).compute (fun _ _ => (0, 0)) false false (-1) 0 1) m m' ∧
    Terminates false P (fun r => (f r).compute (fun _ _ => (0, 0)) false false (-1) 1 1) m m0' ∧
    Holds P 0 a.ins 1 (fun _ _ _ => 1) m' ∧ (m0' 0).ub 1 0 = some 8 := by
  obtain ⟨f, S⟩ := setUp3_exists crossArgs_valid (st := ⟨2, 0, 2⟩) (by simp [Settings.Valid])
  obtain ⟨c, hP, ha, hst, hg, R⟩ := S.ready
  have hpre : preflag c.P c.a = true := by rw [hP, ha]; decide +kernel
  have hs : inoutSame c.P c.a = false := by rw [hP, ha]; decide +kernel
  have hx : Ready.ExtraFits c f := fun hx => by rw [hst] at hx; exact absurd rfl hx
  let m := constMem f fun _ => 1
  have hb : ∀ n, Bufs c.P f n m := fun n => constMem_bufs _ _ _ _
  have hX : ∀ n, Holds c.P c.a.permute c.a.outs n (fun _ _ _ => 1) m := by
    intro n
    have h := constMem_holds (P := c.P) (f := f) (fun _ => 1) n c.a.permute (fun r hr => R.size_outs hr)
    simpa using h
  have hF : Holds c.P 0 c.fast 0 (fun _ _ _ => 1) m := by
    have h := constMem_holds (P := c.P) (f := f) (fun _ => 1) 0 0 (fun r hr => R.size_fast hr)
    simpa using h
  obtain ⟨m1, s1⟩ := R.preslow_any false hs (hb 0) (hb 1)
  have b1 := (hb 1).congr s1.dom
  obtain ⟨X1, h1⟩ := Ready.some_holds R.slow_tiles 2 (fun r hr => R.size_slow hr) b1.data
  obtain ⟨m2, s2, _⟩ := R.inv_rest false hs hx (fun _ _ _ => (0, 0)) (-1) h1 b1
  have s12 := s1.append s2
  have hF2 : Holds c.P 0 c.fast 0 (fun _ _ _ => 1) m2 := by
    intro r hr
    rw [s12.other r hr 0 (by decide)]
    exact hF r hr
  obtain ⟨m3, s3, h3⟩ := R.postfast_step false hs (Or.inr hpre) hF2 ((hb 1).congr s12.dom)
  obtain ⟨m0', s0, h0⟩ := R.compute_back false (fun _ => hx) (fun _ _ _ => (0, 0)) false false (hX 1) (hb 1)
  have t : Terminates false c.P (fun r => (f r).compute (fun _ _ => (0, 0)) false false (-1) 0 1) m m3 := by
    refine ((s12.append s3).congr ?_).ok.terminates
    intro r hr
    unfold Fft3.compute
    rw [if_neg (by rw [R.same r hr, hs]; decide)]
    simp
  have t0 := s0.ok.terminates
  rw [hP] at t t0 h3
  rw [ha] at h3
  refine ⟨2, crossArgs, _, f, m, m3, m0', S, Or.inl rfl, ?_, t, t0, h3, ?_⟩
  · intro n
    have h1 := hX n
    have h2 := hb n
    rw [hP] at h1 h2
    rw [ha] at h1
    exact ⟨h1, h2⟩
  · rw [if_neg (by simp), ha] at h0
    have h := (h0 0 (by rw [hP]; decide) 0 0 0 (by simp [crossArgs, Box3.Has])).1
    simp only [Ready.effect, Bool.false_eq_true, if_false, Ready.spec, dft3_eq, kern_zero, ha] at h
    norm_num [crossArgs, addr3, Finset.sum_range_succ, show Int.toNat 2 = 2 from rfl] at h
    exact h

/-- Example for `C26_forward_partial`: every array holds `X`. -/
example (st : Settings) (hst : st.Valid) (X : Grid3) : SplitRows 2 crossArgs ∧
    ∃ (f : Nat → Fft3 ℝ) (m : Nat → LMem ℝ), SetUp3 2 crossArgs st f ∧
      ∀ n, Holds 2 0 crossArgs.ins n X m ∧ Bufs 2 f n m := by
  obtain ⟨f, S⟩ := setUp3_exists crossArgs_valid hst
  obtain ⟨m, h⟩ := S.mem_in X
  exact ⟨⟨0, by decide, by simp [crossArgs]⟩, f, m, S, h⟩

/-- Example for `C26_backward_partial`. -/
example (X : Grid3) : (¬ SameLayout 2 moved ∧ ¬ SplitRows 2 moved ∧ SplitCols 2 moved) ∧
    ∃ (f : Nat → Fft3 ℝ) (m : Nat → LMem ℝ), SetUp3 2 moved ⟨2, 0, 2⟩ f ∧
      RoomBack 2 moved ⟨2, 0, 2⟩ m ∧ ∀ n, Holds 2 moved.permute moved.outs n X m ∧ Bufs 2 f n m := by
  obtain ⟨f, S⟩ := setUp3_exists moved_valid (st := ⟨2, 0, 2⟩) (by simp [Settings.Valid])
  obtain ⟨m, h⟩ := S.mem_out X
  refine ⟨⟨?_, ?_, ?_⟩, f, m, S, Or.inl rfl, h⟩
  · rintro ⟨_, h⟩
    have := h 0 (by decide)
    simp [moved] at this
  · rintro ⟨r, _, h⟩
    apply h
    simp only [moved]
    split_ifs <;> simp
  · exact Or.inl (by simp [moved])

/-! ## C29 -/

/-- If as many points are owned as there are, and every point has an owner, then no point has two. -/
theorem disjoint_of_cover {P : Nat} {bs : Nat → Box3} {n1 n2 n3 : Int} (h1 : 0 ≤ n1) (h2 : 0 ≤ n2)
    (h3 : 0 ≤ n3) (hc : ∀ i j k : Int, (0 ≤ i ∧ i < n1) → (0 ≤ j ∧ j < n2) → (0 ≤ k ∧ k < n3) →
      ∃ r < P, (bs r).Has i j k)
    (hs : ∑ r ∈ Finset.range P, (bs r).count = n1 * n2 * n3) : Disjoint3 P bs := by
  intro r hr s hsP i j k hr1 hs1
  by_contra hne
  have hsub : (wholeBox n1 n2 n3).pts ⊆ (Finset.range P).biUnion fun t =>
      if t = r then (bs t).pts.erase (i, j, k) else (bs t).pts := by
    intro p hp
    rw [Box3.mem_pts, wholeBox_has] at hp
    obtain ⟨t, ht, hh⟩ := hc _ _ _ hp.1 hp.2.1 hp.2.2
    simp only [Finset.mem_biUnion, Finset.mem_range]
    by_cases e : p = (i, j, k)
    · refine ⟨s, hsP, ?_⟩
      rw [if_neg (fun h => hne h.symm), Box3.mem_pts, e]
      exact hs1
    · refine ⟨t, ht, ?_⟩
      split_ifs
      · exact Finset.mem_erase.mpr ⟨e, (Box3.mem_pts _ _).mpr hh⟩
      · exact (Box3.mem_pts _ _).mpr hh
  have hle := (Finset.card_le_card hsub).trans Finset.card_biUnion_le
  have hlt : ∑ t ∈ Finset.range P, (if t = r then (bs t).pts.erase (i, j, k) else (bs t).pts).card <
      ∑ t ∈ Finset.range P, (bs t).pts.card := by
    apply Finset.sum_lt_sum
    · intro t _
      split_ifs
      · exact Finset.card_le_card (Finset.erase_subset _ _)
      · exact le_rfl
    · refine ⟨r, Finset.mem_range.mpr hr, ?_⟩
      rw [if_pos rfl]
      exact Finset.card_erase_lt_of_mem ((Box3.mem_pts _ _).mpr hr1)
  have hcount : ((∑ t ∈ Finset.range P, (bs t).pts.card : Nat) : Int) = n1 * n2 * n3 := by
    rw [← hs]
    push_cast
    exact Finset.sum_congr rfl fun t _ => Box3.card_pts _
  have hw := Box3.card_pts (wholeBox n1 n2 n3)
  rw [wholeBox_count h1 h2 h3] at hw
  omega

/-- `setup` accepts whatever passes its checks. -/
theorem fft3Setup_of_check {P me : Nat} {a : Args3} {st : Settings} (hme : me < P)
    (h : setupCheck P a = none) (hst : st.Valid) (hp : a.permute = 0 ∨ a.permute = 1 ∨ a.permute = 2)
    (h1 : a.nfast < 2 ^ 31) (h2 : a.nmid < 2 ^ 31) (h3 : a.nslow < 2 ^ 31) (hr : FpOK P a.fp) :
    ∃ f : Fft3 ℝ, fft3Setup P me a st = some (.ok f) := by
  obtain ⟨⟨d1, d2, d3⟩, _⟩ := setupCheck_none.mp h
  obtain ⟨g, hg, _⟩ := setupGrids_ok (P := P) hr (by omega) ⟨d1, h1⟩ ⟨d2, h2⟩ ⟨d3, h3⟩ st.exchange
  obtain ⟨_, _, _, _, hm⟩ := setupMain_eq' (α := ℝ) (c := ⟨P, me, a, st, g⟩) hst hme ⟨d1, h1⟩ ⟨d2, h2⟩
    ⟨d3, h3⟩ hp
  unfold fft3Setup
  rw [h]
  simp only [hg, Option.bind_eq_bind, Option.bind_some, hm]
  exact ⟨_, rfl⟩

theorem check_of_fft3Setup {P me : Nat} {a : Args3} {st : Settings} {f : Fft3 ℝ}
    (h : fft3Setup P me a st = some (.ok f)) : setupCheck P a = none := by
  unfold fft3Setup at h
  cases hc : setupCheck P a with
  | none => rfl
  | some e => rw [hc] at h; simp at h

/-- **C29, partial.**  If `setup` is accepted on a rank, then on every rank the input box has its indices
within the grid, and the numbers of points add up to the grid.  So the input boxes either are a tiling, or
have both an overlap and a gap.  Missing: rejection of input boxes that have both (`C29_false`), and any
check of the output boxes (`C29_outputs_false`). -/
theorem C29_checks_partial {P me : Nat} {a : Args3} {st : Settings} {f : Fft3 ℝ}
    (h : fft3Setup P me a st = some (.ok f)) :
    (2 ≤ a.nfast ∧ 2 ≤ a.nmid ∧ 2 ≤ a.nslow) ∧
    (∀ r < P, (a.ins r).Proper ∧ (a.ins r).Within a.nfast a.nmid a.nslow) ∧
    (Tiles3 P a.ins a.nfast a.nmid a.nslow ∨
      ((∃ r < P, ∃ s < P, r ≠ s ∧ ∃ i j k, (a.ins r).Has i j k ∧ (a.ins s).Has i j k) ∧
        ∃ i j k : Int, (0 ≤ i ∧ i < a.nfast) ∧ (0 ≤ j ∧ j < a.nmid) ∧ (0 ≤ k ∧ k < a.nslow) ∧
          ∀ r < P, ¬ (a.ins r).Has i j k)) := by
  obtain ⟨hd, _, hw, hs⟩ := setupCheck_none.mp (check_of_fft3Setup h)
  refine ⟨hd, hw, ?_⟩
  have hin : ∀ r < P, ∀ i j k, (a.ins r).Has i j k →
      (0 ≤ i ∧ i < a.nfast) ∧ (0 ≤ j ∧ j < a.nmid) ∧ (0 ≤ k ∧ k < a.nslow) := by
    intro r hr i j k hh
    have := (hw r hr).2
    unfold Box3.Within at this
    unfold Box3.Has at hh
    omega
  by_cases hdis : Disjoint3 P a.ins
  · exact Or.inl (tiles_of_count (by omega) (by omega) (by omega) hdis hin hs)
  · right
    constructor
    · by_contra hno
      apply hdis
      intro r hr s hs' i j k h1 h2
      by_contra hne
      exact hno ⟨r, hr, s, hs', hne, i, j, k, h1, h2⟩
    · by_contra hno
      apply hdis
      apply disjoint_of_cover (n1 := a.nfast) (n2 := a.nmid) (n3 := a.nslow) (by omega) (by omega) (by omega) _ hs
      intro i j k hi hj hk
      by_contra hne
      push Not at hne
      exact hno ⟨i, j, k, hi, hj, hk, hne⟩

/-- **C29: no false alarms.**  With valid arguments `setup` is accepted on every rank. -/
theorem C29_valid_accepted {P : Nat} {a : Args3} {st : Settings} (hv : a.Valid P) (hst : st.Valid) :
    ∀ r < P, ∃ f : Fft3 ℝ, fft3Setup P r a st = some (.ok f) := by
  obtain ⟨f, S⟩ := setUp3_exists hv hst
  exact fun r hr => ⟨f r, S.result r hr⟩

example : ∃ f : Fft3 ℝ, fft3Setup 2 1 (demo3 0) ⟨2, 0, 2⟩ = some (.ok f) :=
  C29_valid_accepted (demo3_valid 0 (by decide)) (by simp [Settings.Valid]) 1 (by decide)

/-- Two ranks own the same half of the grid. -/
def twiceArgs : Args3 where
  nfast := 2
  nmid := 2
  nslow := 2
  ins _ := ⟨0, 1, 0, 1, 0, 0⟩
  outs r := ⟨0, 1, 0, 1, r, r⟩
  permute := 0

theorem smooth_two : FiveSmooth 2 := fiveSmooth_of_dvd (m := 2) (k := 1) rfl (by decide)

/-- **C29 is false in general.**  Two ranks own the same half of the grid and nobody owns the other half:
`setup` is accepted on both ranks. -/
theorem C29_false : ∃ (P : Nat) (a : Args3) (st : Settings), P = 2 ∧ st.Valid ∧
    (∀ r < P, ∃ f : Fft3 ℝ, fft3Setup P r a st = some (.ok f)) ∧ a.ins 0 = a.ins 1 ∧
    ∀ r < P, ¬ (a.ins r).Has 0 0 (a.nslow - 1) := by
  refine ⟨2, twiceArgs, ⟨2, 0, 2⟩, rfl, by simp [Settings.Valid], ?_, rfl, ?_⟩
  · intro r hr
    refine fft3Setup_of_check hr (setupCheck_none.mpr ⟨by simp [twiceArgs], ?_, ?_, ?_⟩)
      (by simp [Settings.Valid]) (by simp [twiceArgs]) (by simp [twiceArgs]) (by simp [twiceArgs])
      (by simp [twiceArgs]) (fpOK_id (by norm_num))
    · exact ⟨smooth_two, smooth_two, smooth_two⟩
    · simp [twiceArgs, Box3.Proper, Box3.Within, Box3.isize, Box3.jsize, Box3.ksize]
    · simp [twiceArgs, Box3.count, Box3.isize, Box3.jsize, Box3.ksize]
  · simp [twiceArgs, Box3.Has]

/-- One rank, output box outside of the grid. -/
def strayArgs : Args3 := { oneArgs with outs := fun _ => ⟨5, 6, -3, -1, 0, 7⟩ }

/-- **C29: output boxes are not checked at all.** -/
theorem C29_outputs_false : ∃ (a : Args3) (st : Settings) (f : Fft3 ℝ), st.Valid ∧
    fft3Setup 1 0 a st = some (.ok f) ∧ ∀ i j k : Int, (a.outs 0).Has i j k →
      ¬ ((0 ≤ i ∧ i < a.nfast) ∧ (0 ≤ j ∧ j < a.nmid) ∧ (0 ≤ k ∧ k < a.nslow)) := by
  obtain ⟨f, hf⟩ := fft3Setup_of_check (P := 1) (me := 0) (a := strayArgs) (st := ⟨2, 0, 2⟩) (by decide)
    (by
      have := oneArgs_valid.check
      exact this) (by simp [Settings.Valid]) (by simp [strayArgs, oneArgs]) (by simp [strayArgs, oneArgs])
    (by simp [strayArgs, oneArgs]) (by simp [strayArgs, oneArgs]) (fpOK_id (by norm_num))
  refine ⟨strayArgs, _, f, by simp [Settings.Valid], hf, ?_⟩
  intro i j k h
  simp only [strayArgs, Box3.Has] at h
  simp only [strayArgs, oneArgs]
  omega

end FftMpi
