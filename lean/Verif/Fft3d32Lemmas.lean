import Verif.Fft3d32
import Verif.FftIntLemmas
import Verif.PropsInt
import Verif.Fft3dStages

/-!
# `FFT3d` with 32-bit integers does the same as with unbounded integers
-/

noncomputable section

namespace FftMpi

variable {α : Type}

open Create

/-! ## Same programs -/

/-- The remap `r'` executes with 32-bit integers the program of `r`. -/
structure Remap3.Sim (r r' : Remap3 α) : Prop where
  send : r'.obj.sendsize = r.obj.sendsize
  recv : r'.obj.recvsize = r.obj.recvsize
  prog : ∀ ai ao, r'.prog32 ai ao = r.prog ai ao

/-- The same for one or two remaps. -/
structure RemapPair.Sim (p p' : RemapPair α) : Prop where
  none_iff : p'.extra = none ↔ p.extra = none
  prog : ∀ ai ao, p'.prog32 ai ao = p.prog ai ao

/-- The same for an optional pair. -/
structure PairSim (o o' : Option (RemapPair α)) : Prop where
  none_iff : o' = none ↔ o = none
  prog : ∀ p p', o = some p → o' = some p' → p.Sim p'

theorem PairSim.none : PairSim (none : Option (RemapPair α)) none := ⟨by simp, by simp⟩

theorem PairSim.some {p p' : RemapPair α} (h : p.Sim p') : PairSim (some p) (some p') := by
  refine ⟨by simp, ?_⟩
  rintro _ _ ⟨⟩ ⟨⟩
  exact h

theorem PairSim.remapIf {o o' : Option (RemapPair α)} (h : PairSim o o') (ai ao : Nat) :
    remapIf32 o' ai ao = remapIf o ai ao := by
  cases o with
  | none => rw [h.none_iff.mpr rfl]; rfl
  | some p =>
    cases o' with
    | none => have := h.none_iff.mp rfl; cases this
    | some p' => exact (h.prog p p' rfl rfl).prog ai ao

theorem PairSim.remapOrCopy {o o' : Option (RemapPair ℝ)} (h : PairSim o o') (n : Int) (ai ao : Nat) :
    remapOrCopy32 o' n ai ao = remapOrCopy o n ai ao := by
  cases o with
  | none => rw [h.none_iff.mpr rfl]; rfl
  | some p =>
    cases o' with
    | none => have := h.none_iff.mp rfl; cases this
    | some p' => exact (h.prog p p' rfl rfl).prog ai ao

theorem single_sim {r r' : Remap3 α} (h : r.Sim r') : (single r).Sim (single r') := by
  refine ⟨by simp [single], fun ai ao => ?_⟩
  simp [RemapPair.prog32, RemapPair.prog, single, h.prog]

theorem double_sim {r r' x x' : Remap3 α} (h : r.Sim r') (h2 : x.Sim x') :
    (double r x).Sim (double r' x') := by
  refine ⟨by simp [double], fun ai ao => ?_⟩
  simp [RemapPair.prog32, RemapPair.prog, double, h.prog, h2.prog]

theorem bump_sim {r r' : Remap3 α} (h : r.Sim r') (s : Int × Int) : bump s r' = bump s r := by
  unfold bump
  rw [h.send, h.recv]

/-- The object made with 32-bit integers behaves as the other one. -/
structure Fft3.Sim (f f' : Fft3 α) : Prop where
  same : f'.same = f.same
  prefast : PairSim f.prefast f'.prefast
  fastmid : PairSim f.fastmid f'.fastmid
  midslow : PairSim f.midslow f'.midslow
  postslow : PairSim f.postslow f'.postslow
  preslow : PairSim f.preslow f'.preslow
  slowmid : PairSim f.slowmid f'.slowmid
  midfast : PairSim f.midfast f'.midfast
  postfast : PairSim f.postfast f'.postfast
  insize : f'.insize = f.insize
  outsize : f'.outsize = f.outsize
  fftsize : f'.fftsize = f.fftsize
  sendsize : f'.sendsize = f.sendsize
  recvsize : f'.recvsize = f.recvsize
  fftFast : f'.fftFast = f.fftFast
  fftMid : f'.fftMid = f.fftMid
  fftSlow : f'.fftSlow = f.fftSlow
  norm : f'.norm = f.norm
  normnum : f'.normnum = f.normnum

/-! ## Boxes -/

/-- A box that is small enough, for complex data. -/
structure GoodBox (sz : Int) (b : Box3) : Prop where
  int : b.InInt
  vol : 4 * (max 1 b.isize * max 1 b.jsize * max 1 b.ksize) ≤ 2147483647
  bytes : 2 * b.isize * sz ≤ 2147483647 ∧ 2 * b.jsize * sz ≤ 2147483647 ∧ 2 * b.ksize * sz ≤ 2147483647
  hi : b.ihi ≤ 1073741823 ∧ b.jhi ≤ 1073741823 ∧ b.khi ≤ 1073741823

/-- Disjoint small boxes. -/
structure GoodBoxes (sz : Int) (P : Nat) (bs : Nat → Box3) : Prop where
  disjoint : Disjoint3 P bs
  box : ∀ r < P, GoodBox sz (bs r)

theorem GoodBox.jki {sz : Int} {b : Box3} (h : GoodBox sz b) : GoodBox sz (jki b) := by
  obtain ⟨⟨h1, h2, h3, h4, h5, h6⟩, hv, ⟨b1, b2, b3⟩, ⟨c1, c2, c3⟩⟩ := h
  refine ⟨⟨h2, h3, h1, h5, h6, h4⟩, ?_, ⟨b2, b3, b1⟩, ⟨c2, c3, c1⟩⟩
  change 4 * (max 1 b.jsize * max 1 b.ksize * max 1 b.isize) ≤ _
  rw [mul_comm (max 1 b.jsize * max 1 b.ksize), ← mul_assoc (max 1 b.isize)]
  exact hv

theorem GoodBox.kij {sz : Int} {b : Box3} (h : GoodBox sz b) : GoodBox sz (kij b) := h.jki.jki

theorem GoodBoxes.jki {sz : Int} {P : Nat} {bs : Nat → Box3} (h : GoodBoxes sz P bs) :
    GoodBoxes sz P fun r => jki (bs r) :=
  ⟨rotBox_disjoint 1 h.disjoint, fun r hr => (h.box r hr).jki⟩

theorem GoodBoxes.kij {sz : Int} {P : Nat} {bs : Nat → Box3} (h : GoodBoxes sz P bs) :
    GoodBoxes sz P fun r => kij (bs r) :=
  ⟨rotBox_disjoint 2 h.disjoint, fun r hr => (h.box r hr).kij⟩

/-- The remap that `newRemap32` makes. -/
def mkRemap32 (sz : Int) (c : Create) (inst : Nat) (collective : Bool) (ins outs : Nat → Box3)
    (permute : Int) : Remap3 α where
  obj := (remapSetup32 (dim3_32 sz) c.P c.me ins outs 2 permute c.st.packflag collective).getD dummyObj
  collective := collective
  inst := inst

/-- Small boxes satisfy the conditions of C48. -/
theorem good_small {sz : Int} {P : Nat} {ins outs : Nat → Box3} (hP : 7 * (P : Int) ≤ int32Max)
    (h1 : GoodBoxes sz P ins) (h2 : GoodBoxes sz P outs) (permute packflag : Int) (coll : Bool)
    (inst : Nat) : Call3.Small sz P ⟨ins, outs, 2, permute, packflag, coll, inst, 0, 0⟩ := by
  have key : ∀ b, GoodBox sz b → 2 * max 1 b.isize * max 1 b.jsize * max 1 b.ksize ≤ int32Max := by
    intro b hb
    have := hb.vol
    have e : 2 * max 1 b.isize * max 1 b.jsize * max 1 b.ksize =
      2 * (max 1 b.isize * max 1 b.jsize * max 1 b.ksize) := by ring
    rw [e]
    unfold int32Max
    omega
  constructor
  · exact hP
  · exact fun r hr => ⟨(h1.box r hr).int, (h2.box r hr).int⟩
  · exact fun r hr => key _ (h1.box r hr)
  · exact fun r hr => key _ (h2.box r hr)
  · intro r hr
    have g := h1.box r hr
    obtain ⟨n1, n2, n3⟩ := g.int.nonneg
    have hv := g.vol
    have := mul_le3 (a := (ins r).isize) (b := (ins r).jsize) (c := 1) (A := max 1 (ins r).isize)
      (B := max 1 (ins r).jsize) (C := max 1 (ins r).ksize) n1 n2 (by omega) (le_max_right _ _)
      (le_max_right _ _) (le_max_left _ _)
    have := g.hi.1
    change (ins r).isize * (ins r).jsize + (ins r).ihi ≤ _
    unfold int32Max
    omega
  · exact fun _ r hr => (h1.box r hr).bytes.1
  · exact fun _ _ r hr => (h2.box r hr).bytes.1
  · intro _ _ r hr
    have g := h2.box r hr
    obtain ⟨n1, n2, n3⟩ := g.int.nonneg
    have hv := g.vol
    have := mul_le3 (a := (outs r).isize) (b := (outs r).jsize) (c := (outs r).ksize)
      (A := max 1 (outs r).isize) (B := max 1 (outs r).jsize) (C := max 1 (outs r).ksize) n1 n2 n3
      (le_max_right _ _) (le_max_right _ _) (le_max_right _ _)
    change 2 * (2 * (outs r).isize * (outs r).jsize * (outs r).ksize) ≤ _
    have e : 2 * (2 * (outs r).isize * (outs r).jsize * (outs r).ksize) =
      4 * ((outs r).isize * (outs r).jsize * (outs r).ksize) := by ring
    rw [e]
    unfold int32Max
    omega

theorem newRemap32_eq {sz : Int} (hsz : 1 ≤ sz) {c : Create} (hst : c.st.Valid) (hme : c.me < c.P)
    (hP : 7 * (c.P : Int) ≤ int32Max) (inst : Nat) (coll : Bool)
    {ins outs : Nat → Box3} (h1 : GoodBoxes sz c.P ins) (h2 : GoodBoxes sz c.P outs) {permute : Int}
    (hp : permute = 0 ∨ permute = 1 ∨ permute = 2) :
    (newRemap32 sz c inst coll ins outs permute : Option (Remap3 α)) =
      some (mkRemap32 sz c inst coll ins outs permute) ∧
    (mkRemap c inst coll ins outs permute : Remap3 α).Sim (mkRemap32 sz c inst coll ins outs permute) := by
  obtain ⟨o, ho⟩ := remapSetup3_some (α := α) hst hme coll ins outs hp
  have hs := good_small hP h1 h2 permute c.st.packflag coll inst
  have hv : Call3.Valid c.P ⟨ins, outs, 2, permute, c.st.packflag, coll, inst, 0, 0⟩ :=
    ⟨h1.disjoint, by norm_num, hp, hst⟩
  obtain ⟨o', ho', -, -, -, -, -, -, h3, h4, h5⟩ :=
    (hs.safe (α := α) hv h2.disjoint hme).main hme (hs.copies hsz hv hme) coll ho
  change remapSetup32 (dim3_32 sz) c.P c.me ins outs 2 permute c.st.packflag coll = some o' at ho'
  refine ⟨by simp only [newRemap32, mkRemap32, ho', Option.map_some, Option.getD_some], ?_, ?_, ?_⟩
  · simp only [mkRemap32, mkRemap, ho', ho, Option.getD_some]; exact h3
  · simp only [mkRemap32, mkRemap, ho', ho, Option.getD_some]; exact h4
  · intro ai ao
    simp only [Remap3.prog32, Remap3.prog, mkRemap32, mkRemap, ho', ho, Option.getD_some]
    exact h5 _ _ _ _

/-- All the boxes of a setup are small. -/
structure Create.Good (sz : Int) (c : Create) : Prop where
  size : 1 ≤ sz
  st : c.st.Valid
  me : c.me < c.P
  procs : 7 * (c.P : Int) ≤ int32Max
  permute : c.a.permute = 0 ∨ c.a.permute = 1 ∨ c.a.permute = 2
  ins : GoodBoxes sz c.P c.a.ins
  outs : GoodBoxes sz c.P c.a.outs
  fast : GoodBoxes sz c.P c.fast
  mid : GoodBoxes sz c.P c.mid
  slow : GoodBoxes sz c.P c.slow
  brick : c.st.exchange ≠ 0 → GoodBoxes sz c.P c.brick

theorem forwardCreate32_sim {sz : Int} {c : Create} (h : c.Good sz) (s : Int × Int) :
    ∃ F : Forward α, forwardCreate32 sz c s = some (F, (c.fwdSizes (α := α)).foldl bump s) ∧
      PairSim c.prefastO F.prefast ∧ (c.fastmidP).Sim F.fastmid ∧ (c.midslowP).Sim F.midslow ∧
      PairSim c.postslowO F.postslow := by
  obtain ⟨np, hnp, hnp'⟩ : ∃ np, newpermute c.a.permute = some np ∧ (np = 0 ∨ np = 1 ∨ np = 2) := by
    rcases h.permute with h | h | h <;> rw [h] <;> simp [newpermute]
  have key := fun (i : Nat) (b : Bool) {x y : Nat → Box3} (hx : GoodBoxes sz c.P x)
    (hy : GoodBoxes sz c.P y) {p : Int} (hp : p = 0 ∨ p = 1 ∨ p = 2) =>
      newRemap32_eq (α := α) h.size h.st h.me h.procs i b hx hy hp
  obtain ⟨p1, q1⟩ := key 0 c.bp h.ins h.fast (p := 0) (by decide)
  obtain ⟨p2, q2⟩ := key 5 c.bp h.slow.kij h.outs.kij hnp'
  have u1 := fun s => bump_sim q1 s
  have u2 := fun s => bump_sim q2 s
  by_cases h2 : c.st.exchange = 0
  · obtain ⟨p3, q3⟩ := key 1 c.pp h.fast h.mid (p := 1) (by decide)
    obtain ⟨p4, q4⟩ := key 3 c.pp h.mid.jki h.slow.jki (p := 1) (by decide)
    have u3 := fun s => bump_sim q3 s
    have u4 := fun s => bump_sim q4 s
    by_cases h1 : preflag c.P c.a = true <;> by_cases h3 : postflag c.P c.a c.g = true <;>
    · unfold forwardCreate32
      simp only [prefastO, fastmidP, midslowP, postslowO, prefastR, fastmidR, midslowR, postslowR,
        fwdSizes, Option.getD_some, List.nil_append, List.append_nil, List.cons_append, List.foldl_cons,
        List.foldl_nil, h1, h2, h3, if_true, if_false, Bool.false_eq_true, p1, p2, p3, p4, hnp,
        Option.bind_eq_bind, Option.bind_some, u1, u2, u3, u4]
      refine ⟨_, rfl, ?_, single_sim q3, single_sim q4, ?_⟩
      · first
          | exact PairSim.none
          | exact PairSim.some (single_sim q1)
      · first
          | exact PairSim.none
          | exact PairSim.some (single_sim q2)
  · have hb := h.brick h2
    obtain ⟨p3, q3⟩ := key 1 c.bp h.fast hb (p := 0) (by decide)
    obtain ⟨p4, q4⟩ := key 2 c.bp hb h.mid (p := 1) (by decide)
    obtain ⟨p5, q5⟩ := key 3 c.bp h.mid.jki hb.jki (p := 0) (by decide)
    obtain ⟨p6, q6⟩ := key 4 c.bp hb.jki h.slow.jki (p := 1) (by decide)
    have u3 := fun s => bump_sim q3 s
    have u4 := fun s => bump_sim q4 s
    have u5 := fun s => bump_sim q5 s
    have u6 := fun s => bump_sim q6 s
    by_cases h1 : preflag c.P c.a = true <;> by_cases h3 : postflag c.P c.a c.g = true <;>
    · unfold forwardCreate32
      simp only [prefastO, fastmidP, midslowP, postslowO, prefastR, fastmidR1, fastmidR2, midslowR1,
        midslowR2, postslowR,
        fwdSizes, Option.getD_some, List.nil_append, List.append_nil, List.cons_append, List.foldl_cons,
        List.foldl_nil, h1, h2, h3, if_true, if_false, Bool.false_eq_true, p1, p2, p3, p4, p5, p6, hnp,
        Option.bind_eq_bind, Option.bind_some, u1, u2, u3, u4, u5, u6]
      refine ⟨_, rfl, ?_, double_sim q3 q4, double_sim q5 q6, ?_⟩
      · first
          | exact PairSim.none
          | exact PairSim.some (single_sim q1)
      · first
          | exact PairSim.none
          | exact PairSim.some (single_sim q2)

theorem newPreslow32_sim {sz : Int} {c : Create} (h : c.Good sz) :
    ∃ r : Remap3 α, newPreslow32 sz c = some r ∧ (c.preslowR).Sim r := by
  have key := fun (i : Nat) (b : Bool) {x y : Nat → Box3} (hx : GoodBoxes sz c.P x)
    (hy : GoodBoxes sz c.P y) {p : Int} (hp : p = 0 ∨ p = 1 ∨ p = 2) =>
      newRemap32_eq (α := α) h.size h.st h.me h.procs i b hx hy hp
  unfold newPreslow32 preslowR
  rcases h.permute with e | e | e
  · obtain ⟨p, q⟩ := key 6 c.bp h.outs h.slow (p := 2) (by decide)
    simp only [e, if_true]
    exact ⟨_, p, q⟩
  · obtain ⟨p, q⟩ := key 6 c.bp h.outs.jki h.slow.jki (p := 1) (by decide)
    refine ⟨mkRemap32 sz c 6 c.bp (fun r => jki (c.a.outs r)) (fun r => jki (c.slow r)) 1, ?_, ?_⟩
    · simpa only [e, one_ne_zero, if_false, if_true] using p
    · simpa only [e, one_ne_zero, if_false, if_true] using q
  · obtain ⟨p, q⟩ := key 6 c.bp h.outs.kij h.slow.kij (p := 0) (by decide)
    refine ⟨mkRemap32 sz c 6 c.bp (fun r => kij (c.a.outs r)) (fun r => kij (c.slow r)) 0, ?_, ?_⟩
    · rw [e, if_neg (by decide), if_neg (by decide), if_pos rfl]
      exact p
    · rw [e, if_neg (by decide), if_neg (by decide)]
      exact q

theorem inverseCreate32_sim {sz : Int} {c : Create} (h : c.Good sz) (s : Int × Int) :
    ∃ F : Inverse α, inverseCreate32 sz c s = some (F, (c.invSizes (α := α)).foldl bump s) ∧
      PairSim c.preslowO F.preslow ∧ (c.slowmidP).Sim F.slowmid ∧ (c.midfastP).Sim F.midfast ∧
      PairSim c.postfastO F.postfast := by
  have key := fun (i : Nat) (b : Bool) {x y : Nat → Box3} (hx : GoodBoxes sz c.P x)
    (hy : GoodBoxes sz c.P y) {p : Int} (hp : p = 0 ∨ p = 1 ∨ p = 2) =>
      newRemap32_eq (α := α) h.size h.st h.me h.procs i b hx hy hp
  obtain ⟨p1, q1⟩ := key 11 c.bp h.fast h.ins (p := 0) (by decide)
  obtain ⟨r2, p2, q2⟩ := newPreslow32_sim (α := α) h
  have u1 := fun s => bump_sim q1 s
  have u2 := fun s => bump_sim q2 s
  by_cases h2 : c.st.exchange = 0
  · obtain ⟨p3, q3⟩ := key 7 c.pp h.slow.kij h.mid.kij (p := 2) (by decide)
    obtain ⟨p4, q4⟩ := key 9 c.pp h.mid.jki h.fast.jki (p := 2) (by decide)
    have u3 := fun s => bump_sim q3 s
    have u4 := fun s => bump_sim q4 s
    by_cases h1 : preflag c.P c.a = true <;> by_cases h3 : postflag c.P c.a c.g = true <;>
    · unfold inverseCreate32
      simp only [preslowO, slowmidP, midfastP, postfastO, slowmidR, midfastR, postfastR,
        invSizes, Option.getD_some, List.nil_append, List.append_nil, List.cons_append, List.foldl_cons,
        List.foldl_nil, h1, h2, h3, if_true, if_false, Bool.false_eq_true, p1, p2, p3, p4,
        Option.bind_eq_bind, Option.bind_some, u1, u2, u3, u4]
      refine ⟨_, rfl, ?_, single_sim q3, single_sim q4, ?_⟩
      · first
          | exact PairSim.none
          | exact PairSim.some (single_sim q2)
      · first
          | exact PairSim.none
          | exact PairSim.some (single_sim q1)
  · have hb := h.brick h2
    obtain ⟨p3, q3⟩ := key 7 c.bp h.slow.kij hb.kij (p := 0) (by decide)
    obtain ⟨p4, q4⟩ := key 8 c.bp hb.kij h.mid.kij (p := 2) (by decide)
    obtain ⟨p5, q5⟩ := key 9 c.bp h.mid.jki hb.jki (p := 0) (by decide)
    obtain ⟨p6, q6⟩ := key 10 c.bp hb.jki h.fast.jki (p := 2) (by decide)
    have u3 := fun s => bump_sim q3 s
    have u4 := fun s => bump_sim q4 s
    have u5 := fun s => bump_sim q5 s
    by_cases h1 : preflag c.P c.a = true <;> by_cases h3 : postflag c.P c.a c.g = true <;>
    · unfold inverseCreate32
      simp only [preslowO, slowmidP, midfastP, postfastO, slowmidR1, slowmidR2, midfastR1,
        midfastR2, postfastR,
        invSizes, Option.getD_some, List.nil_append, List.append_nil, List.cons_append, List.foldl_cons,
        List.foldl_nil, h1, h2, h3, if_true, if_false, Bool.false_eq_true, p1, p2, p3, p4, p5, p6,
        Option.bind_eq_bind, Option.bind_some, u1, u2, u3, u4, u5]
      refine ⟨_, rfl, ?_, double_sim q3 q4, double_sim q5 q6, ?_⟩
      · first
          | exact PairSim.none
          | exact PairSim.some (single_sim q2)
      · first
          | exact PairSim.none
          | exact PairSim.some (single_sim q1)

end FftMpi
