import Verif.Fft2d32
import Verif.Fft3d32Main
import Verif.Fft2dStages

/-!
# `FFT2d` with 32-bit integers does the same as with unbounded integers
-/

noncomputable section

namespace FftMpi

variable {α : Type}

open Create2

/-! ## Same programs -/

/-- The remap `r'` executes with 32-bit integers the program of `r`. -/
structure Remap2.Sim (r r' : Remap2 α) : Prop where
  send : r'.obj.sendsize = r.obj.sendsize
  recv : r'.obj.recvsize = r.obj.recvsize
  prog : ∀ ai ao, r'.prog32 ai ao = r.prog ai ao

/-- The same for one or two remaps. -/
structure RemapPair2.Sim (p p' : RemapPair2 α) : Prop where
  none_iff : p'.extra = none ↔ p.extra = none
  prog : ∀ ai ao, p'.prog32 ai ao = p.prog ai ao

/-- The same for an optional pair. -/
structure PairSim2 (o o' : Option (RemapPair2 α)) : Prop where
  none_iff : o' = none ↔ o = none
  prog : ∀ p p', o = some p → o' = some p' → p.Sim p'

theorem PairSim2.none : PairSim2 (none : Option (RemapPair2 α)) none := ⟨by simp, by simp⟩

theorem PairSim2.some {p p' : RemapPair2 α} (h : p.Sim p') : PairSim2 (some p) (some p') := by
  refine ⟨by simp, ?_⟩
  rintro _ _ ⟨⟩ ⟨⟩
  exact h

theorem PairSim2.remapIf {o o' : Option (RemapPair2 α)} (h : PairSim2 o o') (ai ao : Nat) :
    remapIf2_32 o' ai ao = remapIf2 o ai ao := by
  cases o with
  | none => rw [h.none_iff.mpr rfl]; rfl
  | some p =>
    cases o' with
    | none => have := h.none_iff.mp rfl; cases this
    | some p' => exact (h.prog p p' rfl rfl).prog ai ao

theorem PairSim2.remapOrCopy {o o' : Option (RemapPair2 ℝ)} (h : PairSim2 o o') (n : Int) (ai ao : Nat) :
    remapOrCopy2_32 o' n ai ao = remapOrCopy2 o n ai ao := by
  cases o with
  | none => rw [h.none_iff.mpr rfl]; rfl
  | some p =>
    cases o' with
    | none => have := h.none_iff.mp rfl; cases this
    | some p' => exact (h.prog p p' rfl rfl).prog ai ao

theorem single2_sim {r r' : Remap2 α} (h : r.Sim r') : (single r).Sim (single r') := by
  refine ⟨by simp [single], fun ai ao => ?_⟩
  simp [RemapPair2.prog32, RemapPair2.prog, single, h.prog]

theorem double2_sim {r r' x x' : Remap2 α} (h : r.Sim r') (h2 : x.Sim x') :
    (double r x).Sim (double r' x') := by
  refine ⟨by simp [double], fun ai ao => ?_⟩
  simp [RemapPair2.prog32, RemapPair2.prog, double, h.prog, h2.prog]

theorem bump2_sim {r r' : Remap2 α} (h : r.Sim r') (s : Int × Int) : bump2 s r' = bump2 s r := by
  unfold bump2
  rw [h.send, h.recv]

/-- The object made with 32-bit integers behaves as the other one. -/
structure Fft2.Sim (f f' : Fft2 α) : Prop where
  same : f'.same = f.same
  prefast : PairSim2 f.prefast f'.prefast
  fastslow : PairSim2 f.fastslow f'.fastslow
  postslow : PairSim2 f.postslow f'.postslow
  preslow : PairSim2 f.preslow f'.preslow
  slowfast : PairSim2 f.slowfast f'.slowfast
  postfast : PairSim2 f.postfast f'.postfast
  insize : f'.insize = f.insize
  outsize : f'.outsize = f.outsize
  fftsize : f'.fftsize = f.fftsize
  sendsize : f'.sendsize = f.sendsize
  recvsize : f'.recvsize = f.recvsize
  fftFast : f'.fftFast = f.fftFast
  fftSlow : f'.fftSlow = f.fftSlow
  norm : f'.norm = f.norm
  normnum : f'.normnum = f.normnum

/-! ## Boxes -/

/-- A box that is small enough, for complex data. -/
structure GoodBox2 (b : Box2) : Prop where
  int : b.InInt
  vol : 4 * (max 1 b.isize * max 1 b.jsize) ≤ 2147483647
  bytes : 2 * b.isize * 8 ≤ 2147483647 ∧ 2 * b.jsize * 8 ≤ 2147483647
  hi : b.ihi ≤ 1073741823 ∧ b.jhi ≤ 1073741823

/-- Disjoint small boxes. -/
structure GoodBoxes2 (P : Nat) (bs : Nat → Box2) : Prop where
  disjoint : Disjoint2 P bs
  box : ∀ r < P, GoodBox2 (bs r)

theorem GoodBox2.ji {b : Box2} (h : GoodBox2 b) : GoodBox2 (ji b) := by
  obtain ⟨⟨h1, h2, h4, h5⟩, hv, ⟨b1, b2⟩, ⟨c1, c2⟩⟩ := h
  refine ⟨⟨h2, h1, h5, h4⟩, ?_, ⟨b2, b1⟩, ⟨c2, c1⟩⟩
  change 4 * (max 1 b.jsize * max 1 b.isize) ≤ _
  rw [mul_comm (max 1 b.jsize)]
  exact hv

theorem GoodBoxes2.ji {P : Nat} {bs : Nat → Box2} (h : GoodBoxes2 P bs) :
    GoodBoxes2 P fun r => ji (bs r) :=
  ⟨rotBox2_disjoint 1 h.disjoint, fun r hr => (h.box r hr).ji⟩

/-- The remap that `newRemap2_32` makes. -/
def mkRemap2_32 (sz : Int) (c : Create2) (inst : Nat) (collective : Bool) (ins outs : Nat → Box2)
    (permute : Int) : Remap2 α where
  obj := (remapSetup32 (dim2_32 sz) c.P c.me ins outs 2 permute c.st.packflag collective).getD dummyObj2
  collective := collective
  inst := inst

/-- Small boxes satisfy the conditions of C48. -/
theorem good2_small {P : Nat} {ins outs : Nat → Box2} (hP : 7 * (P : Int) ≤ int32Max)
    (h1 : GoodBoxes2 P ins) (h2 : GoodBoxes2 P outs) (w permute packflag : Int) (coll : Bool)
    (inst : Nat) : Call2.Small P ⟨w, ins, outs, 2, permute, packflag, coll, inst, 0, 0⟩ := by
  have key : ∀ b, GoodBox2 b → 2 * max 1 b.isize * max 1 b.jsize ≤ int32Max := by
    intro b hb
    have := hb.vol
    have e : 2 * max 1 b.isize * max 1 b.jsize = 2 * (max 1 b.isize * max 1 b.jsize) := by ring
    rw [e]
    unfold int32Max
    omega
  constructor
  · exact hP
  · exact fun r hr => ⟨(h1.box r hr).int, (h2.box r hr).int⟩
  · exact fun r hr => key _ (h1.box r hr)
  · exact fun r hr => key _ (h2.box r hr)
  · intro r hr
    have g := h1.box r hr
    obtain ⟨n1, n2⟩ := g.int.nonneg
    have hv := g.vol
    have := mul_le2 (a := (ins r).isize) (b := (ins r).jsize) (A := max 1 (ins r).isize)
      (B := max 1 (ins r).jsize) n1 n2 (le_max_right _ _) (le_max_right _ _)
    have := g.hi.1
    change (ins r).isize * (ins r).jsize + (ins r).ihi ≤ _
    unfold int32Max
    omega
  · exact fun _ r hr => (h1.box r hr).bytes.1
  · exact fun _ _ r hr => (h2.box r hr).bytes.1
  · intro _ _ r hr
    have g := h2.box r hr
    obtain ⟨n1, n2⟩ := g.int.nonneg
    have hv := g.vol
    have := mul_le2 (a := (outs r).isize) (b := (outs r).jsize)
      (A := max 1 (outs r).isize) (B := max 1 (outs r).jsize) n1 n2 (le_max_right _ _) (le_max_right _ _)
    change 2 * (2 * (outs r).isize * (outs r).jsize) ≤ _
    have e : 2 * (2 * (outs r).isize * (outs r).jsize) = 4 * ((outs r).isize * (outs r).jsize) := by ring
    rw [e]
    unfold int32Max
    omega

theorem newRemap2_32_eq {sz : Int} (hsz : 1 ≤ sz) {c : Create2} (hw : 8 = c.w * sz) (hst : c.st.Valid2 c.w)
    (hme : c.me < c.P) (hP : 7 * (c.P : Int) ≤ int32Max) (inst : Nat) (coll : Bool)
    {ins outs : Nat → Box2} (h1 : GoodBoxes2 c.P ins) (h2 : GoodBoxes2 c.P outs) {permute : Int}
    (hp : permute = 0 ∨ permute = 1) :
    (newRemap2_32 sz c inst coll ins outs permute : Option (Remap2 α)) =
      some (mkRemap2_32 sz c inst coll ins outs permute) ∧
    (mkRemap2 c inst coll ins outs permute : Remap2 α).Sim (mkRemap2_32 sz c inst coll ins outs permute) := by
  obtain ⟨o, ho⟩ := remapSetup2_some (α := α) hst hme coll ins outs hp
  have hs := good2_small hP h1 h2 c.w permute c.st.packflag coll inst
  have hv : Call2.Valid c.P ⟨c.w, ins, outs, 2, permute, c.st.packflag, coll, inst, 0, 0⟩ :=
    ⟨h1.disjoint, by norm_num, hp, hst⟩
  obtain ⟨o', ho', -, -, -, -, -, -, h3, h4, h5⟩ :=
    (hs.safe (α := α) (sz := sz) hv h2.disjoint hme).main hme (hs.copies hsz hw hv hme) coll ho
  change remapSetup32 (dim2_32 sz) c.P c.me ins outs 2 permute c.st.packflag coll = some o' at ho'
  refine ⟨by simp only [newRemap2_32, mkRemap2_32, ho', Option.map_some, Option.getD_some], ?_, ?_, ?_⟩
  · simp only [mkRemap2_32, mkRemap2, ho', ho, Option.getD_some]; exact h3
  · simp only [mkRemap2_32, mkRemap2, ho', ho, Option.getD_some]; exact h4
  · intro ai ao
    simp only [Remap2.prog32, Remap2.prog, mkRemap2_32, mkRemap2, ho', ho, Option.getD_some]
    exact h5 _ _ _ _

/-- All the boxes of a setup are small. -/
structure Create2.Good (sz : Int) (c : Create2) : Prop where
  size : 1 ≤ sz
  word : 8 = c.w * sz
  st : c.st.Valid2 c.w
  me : c.me < c.P
  procs : 7 * (c.P : Int) ≤ int32Max
  permute : c.a.permute = 0 ∨ c.a.permute = 1
  ins : GoodBoxes2 c.P c.a.ins
  outs : GoodBoxes2 c.P c.a.outs
  fast : GoodBoxes2 c.P c.fast
  slow : GoodBoxes2 c.P c.slow
  brick : c.st.exchange ≠ 0 → GoodBoxes2 c.P c.brick

theorem forwardCreate2_32_sim {sz : Int} {c : Create2} (h : c.Good sz) (s : Int × Int) :
    ∃ F : Forward2 α, forwardCreate2_32 sz c s = some (F, (c.fwdSizes (α := α)).foldl bump2 s) ∧
      PairSim2 c.prefastO F.prefast ∧ (c.fastslowP).Sim F.fastslow ∧ PairSim2 c.postslowO F.postslow := by
  obtain ⟨np, hnp, hnp'⟩ : ∃ np, newpermute2 c.a.permute = some np ∧ (np = 0 ∨ np = 1) := by
    rcases h.permute with h | h <;> rw [h] <;> simp [newpermute2]
  have key := fun (i : Nat) (b : Bool) {x y : Nat → Box2} (hx : GoodBoxes2 c.P x)
    (hy : GoodBoxes2 c.P y) {p : Int} (hp : p = 0 ∨ p = 1) =>
      newRemap2_32_eq (α := α) h.size h.word h.st h.me h.procs i b hx hy hp
  obtain ⟨p1, q1⟩ := key 0 c.bp h.ins h.fast (p := 0) (by decide)
  obtain ⟨p2, q2⟩ := key 3 c.bp h.slow.ji h.outs.ji hnp'
  have u1 := fun s => bump2_sim q1 s
  have u2 := fun s => bump2_sim q2 s
  by_cases h2 : c.st.exchange = 0
  · obtain ⟨p3, q3⟩ := key 1 c.pp h.fast h.slow (p := 1) (by decide)
    have u3 := fun s => bump2_sim q3 s
    by_cases h1 : preflag2 c.P c.a = true <;> by_cases h3 : postflag2 c.P c.a = true <;>
    · unfold forwardCreate2_32
      simp only [prefastO, fastslowP, postslowO, prefastR, fastslowR, postslowR,
        fwdSizes, Option.getD_some, List.nil_append, List.append_nil, List.cons_append, List.foldl_cons,
        List.foldl_nil, h1, h2, h3, if_true, if_false, Bool.false_eq_true, p1, p2, p3, hnp,
        Option.bind_eq_bind, Option.bind_some, u1, u2, u3]
      refine ⟨_, rfl, ?_, single2_sim q3, ?_⟩
      · first
          | exact PairSim2.none
          | exact PairSim2.some (single2_sim q1)
      · first
          | exact PairSim2.none
          | exact PairSim2.some (single2_sim q2)
  · have hb := h.brick h2
    obtain ⟨p3, q3⟩ := key 1 c.bp h.fast hb (p := 0) (by decide)
    obtain ⟨p4, q4⟩ := key 2 c.bp hb h.slow (p := 1) (by decide)
    have u3 := fun s => bump2_sim q3 s
    have u4 := fun s => bump2_sim q4 s
    by_cases h1 : preflag2 c.P c.a = true <;> by_cases h3 : postflag2 c.P c.a = true <;>
    · unfold forwardCreate2_32
      simp only [prefastO, fastslowP, postslowO, prefastR, fastslowR1, fastslowR2, postslowR,
        fwdSizes, Option.getD_some, List.nil_append, List.append_nil, List.cons_append, List.foldl_cons,
        List.foldl_nil, h1, h2, h3, if_true, if_false, Bool.false_eq_true, p1, p2, p3, p4, hnp,
        Option.bind_eq_bind, Option.bind_some, u1, u2, u3, u4]
      refine ⟨_, rfl, ?_, double2_sim q3 q4, ?_⟩
      · first
          | exact PairSim2.none
          | exact PairSim2.some (single2_sim q1)
      · first
          | exact PairSim2.none
          | exact PairSim2.some (single2_sim q2)

theorem newPreslow2_32_sim {sz : Int} {c : Create2} (h : c.Good sz) :
    ∃ r : Remap2 α, newPreslow2_32 sz c = some r ∧ (c.preslowR).Sim r := by
  have key := fun (i : Nat) (b : Bool) {x y : Nat → Box2} (hx : GoodBoxes2 c.P x)
    (hy : GoodBoxes2 c.P y) {p : Int} (hp : p = 0 ∨ p = 1) =>
      newRemap2_32_eq (α := α) h.size h.word h.st h.me h.procs i b hx hy hp
  unfold newPreslow2_32 preslowR
  rcases h.permute with e | e
  · obtain ⟨p, q⟩ := key 4 c.bp h.outs h.slow (p := 1) (by decide)
    simp only [e, if_true]
    exact ⟨_, p, q⟩
  · obtain ⟨p, q⟩ := key 4 c.bp h.outs.ji h.slow.ji (p := 0) (by decide)
    refine ⟨mkRemap2_32 sz c 4 c.bp (fun r => ji (c.a.outs r)) (fun r => ji (c.slow r)) 0, ?_, ?_⟩
    · simpa only [e, one_ne_zero, if_false, if_true] using p
    · simpa only [e, one_ne_zero, if_false, if_true] using q

theorem inverseCreate2_32_sim {sz : Int} {c : Create2} (h : c.Good sz) (s : Int × Int) :
    ∃ F : Inverse2 α, inverseCreate2_32 sz c s = some (F, (c.invSizes (α := α)).foldl bump2 s) ∧
      PairSim2 c.preslowO F.preslow ∧ (c.slowfastP).Sim F.slowfast ∧ PairSim2 c.postfastO F.postfast := by
  have key := fun (i : Nat) (b : Bool) {x y : Nat → Box2} (hx : GoodBoxes2 c.P x)
    (hy : GoodBoxes2 c.P y) {p : Int} (hp : p = 0 ∨ p = 1) =>
      newRemap2_32_eq (α := α) h.size h.word h.st h.me h.procs i b hx hy hp
  obtain ⟨p1, q1⟩ := key 7 c.bp h.fast h.ins (p := 0) (by decide)
  obtain ⟨r2, p2, q2⟩ := newPreslow2_32_sim (α := α) h
  have u1 := fun s => bump2_sim q1 s
  have u2 := fun s => bump2_sim q2 s
  by_cases h2 : c.st.exchange = 0
  · obtain ⟨p3, q3⟩ := key 5 c.pp h.slow.ji h.fast.ji (p := 1) (by decide)
    have u3 := fun s => bump2_sim q3 s
    by_cases h1 : preflag2 c.P c.a = true <;> by_cases h3 : postflag2 c.P c.a = true <;>
    · unfold inverseCreate2_32
      simp only [preslowO, slowfastP, postfastO, slowfastR, postfastR,
        invSizes, Option.getD_some, List.nil_append, List.append_nil, List.cons_append, List.foldl_cons,
        List.foldl_nil, h1, h2, h3, if_true, if_false, Bool.false_eq_true, p1, p2, p3,
        Option.bind_eq_bind, Option.bind_some, u1, u2, u3]
      refine ⟨_, rfl, ?_, single2_sim q3, ?_⟩
      · first
          | exact PairSim2.none
          | exact PairSim2.some (single2_sim q2)
      · first
          | exact PairSim2.none
          | exact PairSim2.some (single2_sim q1)
  · have hb := h.brick h2
    obtain ⟨p3, q3⟩ := key 5 c.bp h.slow.ji hb.ji (p := 0) (by decide)
    obtain ⟨p4, q4⟩ := key 6 c.bp hb.ji h.fast.ji (p := 1) (by decide)
    have u3 := fun s => bump2_sim q3 s
    have u4 := fun s => bump2_sim q4 s
    by_cases h1 : preflag2 c.P c.a = true <;> by_cases h3 : postflag2 c.P c.a = true <;>
    · unfold inverseCreate2_32
      simp only [preslowO, slowfastP, postfastO, slowfastR1, slowfastR2, postfastR,
        invSizes, Option.getD_some, List.nil_append, List.append_nil, List.cons_append, List.foldl_cons,
        List.foldl_nil, h1, h2, h3, if_true, if_false, Bool.false_eq_true, p1, p2, p3, p4,
        Option.bind_eq_bind, Option.bind_some, u1, u2, u3, u4]
      refine ⟨_, rfl, ?_, double2_sim q3 q4, ?_⟩
      · first
          | exact PairSim2.none
          | exact PairSim2.some (single2_sim q2)
      · first
          | exact PairSim2.none
          | exact PairSim2.some (single2_sim q1)

end FftMpi
