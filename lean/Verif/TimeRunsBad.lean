import Verif.TimeRunsLemmas
import Verif.PropsFft3dBad

/-!
# A grid of the test program with a send buffer that is too small

3 x 2 x 2 points on two ranks, split in the third dimension on input and in the first on output.
-/

noncomputable section

namespace FftMpi

/-- A rank that posts a receive after a correct stage and cannot execute its next instruction fails in some execution. -/
theorem StageOK.fails_irecv {α : Type} {e : Bool} {P : Nat} {prog p q : Nat → List (Instr α)} {m m1 : Nat → LMem α}
    (h : StageOK e P p m m1) (hp : ∀ r < P, prog r = p r ++ q r) {r0 : Nat} (hr : r0 < P) {id src : Nat} {loc size : Int}
    {f : LMem α → Option (LMem α)} {rest : List (Instr α)} (hq : q r0 = .irecv id src loc size :: .loc f :: rest)
    (hf : ∀ rb, f { m1 r0 with rb := rb } = none) :
    ∃ k c, Run e k (initCfg P prog m) c ∧ Fails c r0 := by
  by_cases ha : 0 ≤ size ∧ accessible (m1 r0).rb loc size
  · obtain ⟨n, hn⟩ := h.reach q (initCfg P prog m)
      (by intro r hr; simp [initCfg, hr, hp r hr]) (fun _ => rfl)
    have hs : step e ⟨fun r => if r < P then ⟨q r, m1 r, [], none⟩ else (initCfg P prog m).rank r, (initCfg P prog m).chan⟩ r0 0 =
        some ⟨Function.update (fun r => if r < P then ⟨q r, m1 r, [], none⟩ else (initCfg P prog m).rank r) r0
          ⟨.loc f :: rest, { m1 r0 with rb := hideBlk (m1 r0).rb loc size }, [⟨id, src, loc, size⟩], none⟩,
          (initCfg P prog m).chan⟩ := by
      simp [step, act, hr, hq, ha]
    refine ⟨_, _, hn.trans (.step r0 0 hs (.refl _)), ?_, Or.inl ?_⟩
    · simp
    · intro ch
      simp [act, hf]
  · refine h.fails hp hr (by rw [hq]; simp) fun ch => ?_
    rw [hq]
    simp only [act, List.not_mem_nil, false_implies, implies_true, and_true, if_neg ha]

def overArgs : Args3 where
  nfast := 3
  nmid := 2
  nslow := 2
  ins r := ⟨0, 2, 0, 1, r, r⟩
  outs r := ⟨r, 2 * r, 0, 1, 0, 1⟩
  permute := 0

theorem overArgs_valid : overArgs.Valid 2 where
  procs := by decide
  fast := by simp [overArgs]
  mid := by simp [overArgs]
  slow := by simp [overArgs]
  factors := by
    intro n hn
    simp only [overArgs] at hn
    rcases hn with rfl | rfl | rfl
    · exact fiveSmooth_of_dvd (m := 3) (k := 1) rfl (by decide)
    · exact fiveSmooth_of_dvd (m := 2) (k := 1) rfl (by decide)
    · exact fiveSmooth_of_dvd (m := 2) (k := 1) rfl (by decide)
  tilesIn :=
    { inside := by
        intro r hr i j k h
        simp only [overArgs, Box3.Has] at h ⊢
        omega
      owner := by
        intro i j k hi hj hk
        simp only [overArgs] at hi hj hk
        refine ⟨k.toNat, by omega, ?_⟩
        simp only [overArgs, Box3.Has]
        omega
      disjoint := by
        intro r hr s hs i j k h1 h2
        simp only [overArgs, Box3.Has] at h1 h2
        omega }
  tilesOut :=
    { inside := by
        intro r hr i j k h
        simp only [overArgs, Box3.Has] at h ⊢
        omega
      owner := by
        intro i j k hi hj hk
        simp only [overArgs] at hi hj hk
        refine ⟨if i = 0 then 0 else 1, by split_ifs <;> omega, ?_⟩
        simp only [overArgs, Box3.Has]
        split_ifs <;> push_cast <;> omega
      disjoint := by
        intro r hr s hs i j k h1 h2
        simp only [overArgs, Box3.Has] at h1 h2
        omega }
  properIn := by
    intro r hr
    simp only [overArgs, Box3.Proper, Box3.Within, Box3.isize, Box3.jsize, Box3.ksize]
    omega
  properOut := by
    intro r hr
    simp only [overArgs, Box3.Proper, Box3.isize, Box3.jsize, Box3.ksize]
    omega
  permute := by simp [overArgs]

theorem overGrids : setupGrids 2 overArgs 1 = some ⟨(1, 1, 2), (2, 1, 1), (2, 1, 1), (2, 1, 1)⟩ := by
  have e3 : overArgs.nfast.toNat = 3 := rfl
  have e2 : overArgs.nmid.toNat = 2 := rfl
  have e2' : overArgs.nslow.toNat = 2 := rfl
  have ef : overArgs.fp = id := rfl
  have g1 : procGrid id 2 1 2 2 = some (1, 1, 2) := by
    rw [procGrid_eq, gridTriples_two]
    norm_num [testGrid, surfarea, BIG, minarea0]
  have g2 : procGrid id 2 3 1 2 = some (2, 1, 1) := by
    rw [procGrid_eq, gridTriples_two]
    norm_num [testGrid, surfarea, BIG, minarea0]
  have g3 : procGrid id 2 3 2 1 = some (2, 1, 1) := by
    rw [procGrid_eq, gridTriples_two]
    norm_num [testGrid, surfarea, BIG, minarea0]
  have g4 : procGrid id 2 3 2 2 = some (2, 1, 1) := by
    rw [procGrid_eq, gridTriples_two]
    norm_num [testGrid, surfarea, BIG, minarea0]
  unfold setupGrids
  simp only [e3, e2, e2', ef, g1, g2, g3, Option.bind_eq_bind, Option.bind_some]
  simp [g4]

/-- What rank `me` knows when it makes the remaps. -/
def overC (me : Nat) : Create :=
  ⟨2, me, overArgs, ⟨0, 1, 2⟩, ⟨(1, 1, 2), (2, 1, 1), (2, 1, 1), (2, 1, 1)⟩⟩

theorem overC_sizes : ((((overC 1).fwdSizes (α := ℝ) ++ if inoutSame (overC 1).P (overC 1).a then []
    else (overC 1).invSizes).foldl bump (0, 0))) = (4, 16) := by decide +kernel

/-- The size of the send buffer which `setup` returns on rank 1. -/
theorem overSize {f : Nat → Fft3 ℝ} (S : SetUp3 2 overArgs ⟨0, 1, 2⟩ f) : (f 1).sendsize = 4 := by
  obtain ⟨_, _, _, _, h⟩ := setupMain_eq (α := ℝ) (c := overC 1) S.settings (by decide) S.args
  have hf := S.result 1 (by decide)
  unfold fft3Setup at hf
  rw [S.args.check] at hf
  simp only [show ({ collective := 0, exchange := 1, packflag := 2 } : Settings).exchange = 1 from rfl,
    overGrids, Option.bind_eq_bind, Option.bind_some] at hf
  change ((setupMain (overC 1)).bind fun f => _) = _ at hf
  rw [h] at hf
  simp only [Option.bind_some, Option.some.injEq, Except.ok.injEq] at hf
  rw [← hf]
  simp only [overC_sizes]

/-- On rank 1, the second remap of `remap_midfast` packs 8 values to the send buffer. -/
theorem overR2_prog (n : Nat) : ∃ (ent : SEnt PackPlan3) (rest : List (Instr ℝ)),
    ((overC 1).midfastR2 (α := ℝ)).prog n n = .irecv 0 0 0 4 :: .loc (packSb (some pack_3d_memcpy) n 0 ent) :: rest ∧
    ent.plan.Ok ∧ ∃ s, (4, s) ∈ packPairs ent.off 0 ent.plan := by
  refine ⟨_, _, rfl, ?_, ?_⟩
  · constructor <;> decide +kernel
  · exact ⟨8, by decide +kernel⟩

theorem copyAll_none {α : Type} {ps : List (Int × Int)} {src dst : Mem α} {d s : Int} (h : (d, s) ∈ ps) (hd : dst d = none) :
    copyAll ps src dst = none := by
  induction ps generalizing dst with
  | nil => cases h
  | cons x ps ih =>
    obtain ⟨d', s'⟩ := x
    unfold copyAll copy1
    cases hs : src s' with
    | none => rfl
    | some v =>
      simp only [Option.bind_some, Mem.set]
      cases hd' : dst d' with
      | none => simp
      | some u =>
        simp only [Option.isSome_some, if_true, Option.bind_some]
        rcases List.mem_cons.mp h with h | h
        · obtain ⟨rfl, rfl⟩ := Prod.mk.inj h
          rw [hd] at hd'; cases hd'
        · refine ih h ?_
          have : d ≠ d' := by rintro rfl; rw [hd] at hd'; cases hd'
          simp [this, hd]

theorem packSb_short {n : Nat} {ent : SEnt PackPlan3} {m : LMem ℝ} (h : ent.plan.Ok) {s : Int}
    (hp : (4, s) ∈ packPairs ent.off 0 ent.plan) (hm : m.sb 4 = none) :
    packSb (some pack_3d_memcpy) n 0 ent m = none := by
  simp only [packSb, Option.bind_some, pack_3d_memcpy_eq _ _ _ _ _ h, copyAll_none hp hm, Option.map_none]

/-- The backward `compute` after a stage that completes. -/
theorem over_fails {f : Nat → Fft3 ℝ} (S : SetUp3 2 overArgs ⟨0, 1, 2⟩ f) (e : Bool) (J : Nat → Nat → Junk) (scaled : Bool)
    {n : Nat} {p q prog : Nat → List (Instr ℝ)} {m0 m : Nat → LMem ℝ} (s0 : Step e 2 (fsz f) n p m0 m)
    (hb0 : Bufs 2 f n m0) (h4 : (m0 1).sb 4 = none)
    (hp : ∀ r < 2, prog r = p r ++ (f r).compute (J r) scaled false (-1) n n ++ q r) :
    ∃ k c, Run e k (initCfg 2 prog m0) c ∧ Fails c 1 := by
  obtain ⟨c, hP, ha, hst, hg, R⟩ := S.ready
  have hcg : c.g = ⟨(1, 1, 2), (2, 1, 1), (2, 1, 1), (2, 1, 1)⟩ := by
    have := overGrids.symm.trans hg
    exact (Option.some.inj this).symm
  have hc : ∀ r, c.on r = overC r := by
    intro r
    unfold Create.on overC
    rw [hP, ha, hst, hcg]
  have hs : inoutSame c.P c.a = false := by rw [hP, ha]; decide +kernel
  have hx : c.st.exchange ≠ 0 := by rw [hst]; decide
  rw [← hP] at s0 hb0
  have hb := hb0.congr s0.dom
  obtain ⟨m1, s1⟩ := R.preslow_any e hs hb hb
  have b1 := hb.congr s1.dom
  obtain ⟨X1, h1⟩ := Ready.some_holds R.slow_tiles 2 (fun r hr => R.size_slow hr) b1.data
  obtain ⟨m2, s2, _⟩ := R.fftSlow_step e (fun r => J r 2) (-1) h1
  have b2 := b1.congr s2.dom
  obtain ⟨m3, s3⟩ := R.slowmid_any e hs b2 b2
  have b3 := b2.congr s3.dom
  obtain ⟨X3, h3⟩ := Ready.some_holds R.mid_tiles 1 (fun r hr => R.size_mid hr) b3.data
  obtain ⟨m4, s4, _⟩ := R.fftMid_step e (fun r => J r 1) (-1) h3
  have b4 := b3.congr s4.dom
  obtain ⟨m5, s5⟩ := R.step_any e 9 c.bp (ins := fun r => jki (c.mid r)) (outs := fun r => jki (c.brick r))
    Ready.one_ok Ready.zero_ok (fun _ => rfl) (fun _ => rfl) R.mid_tiles (R.brick_tiles hx)
    (fun r hr => R.size_mid hr) (fun r hr => R.size_brick hx hr) b4 b4
    (fun r hr => R.inv hs r hr (c.on r).midfastR1 (by
      have : ¬ (c.on r).st.exchange = 0 := hx
      simp [Create.invSizes, this]))
  have s := s0.append ((((s1.append s2).append s3).append s4).append s5)
  have hsb : (m5 1).sb 4 = none := by
    have h := (s.dom 1 (by rw [hP]; decide)).2.1 4
    rw [h4] at h
    simpa using h
  obtain ⟨ent, rest, hprog, hok, x, hpairs⟩ := overR2_prog n
  have hq : ∀ r < c.P, prog r =
      (p r ++ (remapOrCopy (f r).preslow (f r).outsize n n ++ [.loc (performLoc (J r 2) (-1) (f r).fftSlow n)] ++
        remapIf (f r).slowmid n n ++ [.loc (performLoc (J r 1) (-1) (f r).fftMid n)] ++
        ((c.on r).midfastR1 (α := ℝ)).prog n n)) ++ (((c.on r).midfastR2 (α := ℝ)).prog n n ++
        ([.loc (performLoc (J r 0) (-1) (f r).fftFast n)] ++ remapIf (f r).postfast n n ++
        (if scaled then [.loc (scaleLoc (f r).norm (f r).normnum n)] else []) ++ q r)) := by
    intro r hr
    rw [hp r (by rw [← hP]; exact hr)]
    unfold Fft3.compute
    rw [if_neg (by rw [R.same r hr, hs]; decide), R.midfast r hr, hs]
    have : ¬ (c.on r).st.exchange = 0 := hx
    simp [Create.midfastP, this, remapIf, RemapPair.prog, Create.double]
  have hex := s.ok.fails_irecv (prog := prog) (q := fun r => ((c.on r).midfastR2 (α := ℝ)).prog n n ++
        ([.loc (performLoc (J r 0) (-1) (f r).fftFast n)] ++ remapIf (f r).postfast n n ++
        (if scaled then [.loc (scaleLoc (f r).norm (f r).normnum n)] else []) ++ q r))
    hq (r0 := 1) (by rw [hP]; decide) (by rw [hc, hprog]; rfl) (fun rb => packSb_short hok hpairs hsb)
  rw [hP] at hex
  exact hex

end FftMpi
