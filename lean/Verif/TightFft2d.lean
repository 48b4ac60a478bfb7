import Verif.TightFft3d
import Verif.PropsFft2dUse

/-!
# What `FFT2d::compute` needs of the buffers
-/

noncomputable section

namespace FftMpi

/-- No instruction of the remap makes a location of the buffers accessible, and all locations below the sizes are
touched. -/
def Tight2 (x : Remap2 ℝ) : Prop :=
  ∀ ai ao, (∀ i ∈ x.prog ai ao, ITame i) ∧
    (∀ y, 0 ≤ y → y < x.obj.sendsize → ∃ i ∈ x.prog ai ao, NeedsS i y) ∧
    (∀ y, 0 ≤ y → y < x.obj.recvsize → ∃ i ∈ x.prog ai ao, NeedsR i y)

theorem rotBox2_covered {P : Nat} {bs bs' : Nat → Box2} {n1 n2 : Int} (p : Int) (T : Tiles2 P bs n1 n2)
    (T' : Tiles2 P bs' n1 n2) : Covered2 P (fun r => rotBox2 p (bs r)) (fun r => rotBox2 p (bs' r)) := by
  intro r hr x y h
  obtain ⟨i, j, e⟩ := rotPt2_surj p x y
  have e1 : x = (rotPt2 p i j).1 := by rw [e]
  have e2 : y = (rotPt2 p i j).2 := by rw [e]
  rw [e1, e2] at h ⊢
  rw [rotBox2_has] at h
  have hin := T'.inside r hr i j h
  obtain ⟨q, hq, hh⟩ := T.owner i j hin.1 hin.2
  exact ⟨q, hq, (rotBox2_has p (bs q) i j).mpr hh⟩

theorem rotBox2_proper {p : Int} {b : Box2} (h : b.Proper) : (rotBox2 p b).Proper := by
  unfold rotBox2
  split_ifs
  · exact h
  · exact ⟨h.2, h.1⟩

theorem mkRemap2_tight {c : Create2} (hst : c.st.Valid2 c.w) (inst : Nat) (coll : Bool) {ins outs bs bs' : Nat → Box2}
    {p q : Int} (hq : q = 0 ∨ q = 1) (hins : ∀ r, ins r = rotBox2 p (bs r)) (houts : ∀ r, outs r = rotBox2 p (bs' r))
    {n1 n2 : Int} (T : Tiles2 c.P bs n1 n2) (T' : Tiles2 c.P bs' n1 n2) (hp : ∀ r < c.P, (bs' r).Proper) {r : Nat}
    (hr : r < c.P) : Tight2 (mkRemap2 (α := ℝ) (c.on r) inst coll ins outs q) := by
  intro ai ao
  have ei : ins = fun r => rotBox2 p (bs r) := funext hins
  let C : Call2 := { w := c.w, ins, outs, nqty := 2, permute := q, packflag := c.st.packflag,
                     collective := coll, inst, ai, ao }
  have hv : C.Valid c.P :=
    { disjoint := by
        change Disjoint2 c.P ins
        rw [ei]; exact rotBox2_disjoint p T.disjoint
      nqty := (by decide : (1 : Int) ≤ 2)
      permute := hq
      packflag := hst }
  have hs : C.Setup c.P (fun r => (mkRemap2 (α := ℝ) (c.on r) inst coll ins outs q).obj) := by
    intro r hr
    obtain ⟨o, ho⟩ := remapSetup2_some (α := ℝ) hst hr coll ins outs hq
    change remapSetup (dim2 c.w) c.P r ins outs 2 q c.st.packflag coll =
      some ((remapSetup (dim2 c.w) c.P r ins outs 2 q c.st.packflag coll).getD dummyObj2)
    rw [ho]; rfl
  have G := geom2 (α := ℝ) (P := c.P) (ins := ins) (outs := outs) hv.nqty hv.permute hv.packflag
  refine ⟨prog_tame G hr (hs r hr) _ _ _, ?_⟩
  refine remap2_needs hv hs (fun _ r hr => ?_) (fun _ => ?_) hr
  · change (outs r).Proper
    rw [houts]; exact rotBox2_proper (hp r hr)
  · change Covered2 c.P ins outs
    rw [ei, funext houts]
    exact rotBox2_covered p T T'

/-! ## The parts of a plan -/

namespace Ready2

variable {c : Create2} {f : Nat → Fft2 ℝ} (R : Ready2 c f)
include R

theorem fwd_tight {r : Nat} (hr : r < c.P) : ∀ x ∈ (c.on r).fwdSizes (α := ℝ), Tight2 x := by
  intro x hx
  have pf : ∀ r < c.P, (c.fast r).Proper := fun r hr => R.fast_proper hr
  have ps : ∀ r < c.P, (c.slow r).Proper := fun r hr => R.slow_proper hr
  have pb : ∀ r < c.P, (c.brick r).Proper := fun r _ => brick_proper r
  have po : ∀ r < c.P, (c.a.outs r).Proper := fun r hr => R.args.properOut r hr
  have np : (newpermute2 c.a.permute).getD 0 = 0 ∨ (newpermute2 c.a.permute).getD 0 = 1 := by
    rcases R.args.permute with h | h <;> rw [h] <;> simp [newpermute2]
  unfold Create2.fwdSizes at hx
  rw [List.mem_append, List.mem_append] at hx
  rcases hx with (hx | hx) | hx
  · split_ifs at hx
    · rw [List.mem_singleton] at hx
      subst hx
      exact mkRemap2_tight (p := 0) R.st 0 c.bp (Or.inl rfl) (fun _ => rfl) (fun _ => rfl) R.ins_tiles R.fast_tiles pf hr
    · cases hx
  · split_ifs at hx with h
    · rw [List.mem_singleton] at hx
      subst hx
      exact mkRemap2_tight (p := 0) R.st 1 c.pp (Or.inr rfl) (fun _ => rfl) (fun _ => rfl) R.fast_tiles R.slow_tiles ps hr
    · have hb := R.brick_tiles h
      simp only [List.mem_cons, List.not_mem_nil, or_false] at hx
      rcases hx with rfl | rfl
      · exact mkRemap2_tight (p := 0) R.st 1 c.bp (Or.inl rfl) (fun _ => rfl) (fun _ => rfl) R.fast_tiles hb pb hr
      · exact mkRemap2_tight (p := 0) R.st 2 c.bp (Or.inr rfl) (fun _ => rfl) (fun _ => rfl) hb R.slow_tiles ps hr
  · split_ifs at hx
    · rw [List.mem_singleton] at hx
      subst hx
      exact mkRemap2_tight (p := 1) R.st 3 c.bp np (fun _ => rfl) (fun _ => rfl) R.slow_tiles R.outs_tiles po hr
    · cases hx

theorem inv_tight {r : Nat} (hr : r < c.P) : ∀ x ∈ (c.on r).invSizes (α := ℝ), Tight2 x := by
  intro x hx
  have pf : ∀ r < c.P, (c.fast r).Proper := fun r hr => R.fast_proper hr
  have ps : ∀ r < c.P, (c.slow r).Proper := fun r hr => R.slow_proper hr
  have pb : ∀ r < c.P, (c.brick r).Proper := fun r _ => brick_proper r
  have pi : ∀ r < c.P, (c.a.ins r).Proper := fun r hr => (R.args.properIn r hr).1
  unfold Create2.invSizes at hx
  rw [List.mem_append, List.mem_append] at hx
  rcases hx with (hx | hx) | hx
  · split_ifs at hx
    · rw [List.mem_singleton] at hx
      subst hx
      unfold Create2.preslowR
      split_ifs
      · exact mkRemap2_tight (p := 0) R.st 4 c.bp (Or.inr rfl) (fun _ => rfl) (fun _ => rfl) R.outs_tiles R.slow_tiles ps hr
      · exact mkRemap2_tight (p := 1) R.st 4 c.bp (Or.inl rfl) (fun _ => rfl) (fun _ => rfl) R.outs_tiles R.slow_tiles ps hr
    · cases hx
  · split_ifs at hx with h
    · rw [List.mem_singleton] at hx
      subst hx
      exact mkRemap2_tight (p := 1) R.st 5 c.pp (Or.inr rfl) (fun _ => rfl) (fun _ => rfl) R.slow_tiles R.fast_tiles pf hr
    · have hb := R.brick_tiles h
      simp only [List.mem_cons, List.not_mem_nil, or_false] at hx
      rcases hx with rfl | rfl
      · exact mkRemap2_tight (p := 1) R.st 5 c.bp (Or.inl rfl) (fun _ => rfl) (fun _ => rfl) R.slow_tiles hb pb hr
      · exact mkRemap2_tight (p := 1) R.st 6 c.bp (Or.inr rfl) (fun _ => rfl) (fun _ => rfl) hb R.fast_tiles pf hr
  · split_ifs at hx
    · rw [List.mem_singleton] at hx
      subst hx
      exact mkRemap2_tight (p := 0) R.st 7 c.bp (Or.inl rfl) (fun _ => rfl) (fun _ => rfl) R.fast_tiles R.ins_tiles pi hr
    · cases hx

end Ready2

/-! ## The instructions of `compute` -/

/-- `x` is one of the remaps of the pair, if there is one. -/
def InPair2 (x : Remap2 ℝ) (p : Option (RemapPair2 ℝ)) : Prop := ∃ q, p = some q ∧ (x = q.remap2d ∨ q.extra = some x)

theorem inPair2_none {x : Remap2 ℝ} : InPair2 x none ↔ False := by simp [InPair2]

theorem inPair2_single {x y : Remap2 ℝ} : InPair2 x (some (Create2.single y)) ↔ x = y := by
  simp [InPair2, Create2.single]

theorem inPair2_double {x y z : Remap2 ℝ} : InPair2 x (some (Create2.double y z)) ↔ x = y ∨ x = z := by
  simp [InPair2, Create2.double, eq_comm]

theorem remapIf2_mem {p : Option (RemapPair2 ℝ)} {ai ao : Nat} {i : Instr ℝ} :
    i ∈ remapIf2 p ai ao ↔ ∃ x, InPair2 x p ∧ i ∈ x.prog ai ao := by
  unfold remapIf2 InPair2
  cases p with
  | none => simp
  | some p =>
    simp only [Option.some.injEq]
    unfold RemapPair2.prog
    rw [List.mem_append]
    constructor
    · rintro (h | h)
      · exact ⟨_, ⟨p, rfl, Or.inl rfl⟩, h⟩
      · cases hx : p.extra with
        | none => rw [hx] at h; cases h
        | some x =>
          rw [hx] at h
          exact ⟨x, ⟨p, rfl, Or.inr hx⟩, h⟩
    · rintro ⟨x, ⟨q, rfl, rfl | h⟩, hi⟩
      · exact Or.inl hi
      · right; rw [h]; exact hi

theorem remapOrCopy2_mem {p : Option (RemapPair2 ℝ)} {n : Int} {ai ao : Nat} {i : Instr ℝ} :
    i ∈ remapOrCopy2 p n ai ao ↔
      (∃ x, InPair2 x p ∧ i ∈ x.prog ai ao) ∨ (p = none ∧ ai ≠ ao ∧ i = .loc (memcpyLoc ai ao n)) := by
  rw [← remapIf2_mem]
  unfold remapOrCopy2 remapIf2
  cases p with
  | none => dsimp only; split_ifs with h <;> simp [h]
  | some p => simp

/-- The remaps of one direction of `compute`. -/
def Fft2.uses (f : Fft2 ℝ) (flag : Int) (x : Remap2 ℝ) : Prop :=
  if flag = 1 ∨ f.same then InPair2 x f.prefast ∨ InPair2 x f.fastslow ∨ InPair2 x f.postslow
  else InPair2 x f.preslow ∨ InPair2 x f.slowfast ∨ InPair2 x f.postfast

/-- `compute` runs the program of each remap of its direction. -/
theorem compute2_has {f : Fft2 ℝ} {J : Nat → Junk} {scaled remaponly : Bool} {flag : Int} {ai ao : Nat} {x : Remap2 ℝ}
    (h : f.uses flag x) : ∃ a b, ∀ i ∈ x.prog a b, i ∈ f.compute J scaled remaponly flag ai ao := by
  unfold Fft2.uses at h
  unfold Fft2.compute
  split_ifs at h with hf
  · rw [if_pos hf]
    rcases h with h | h | h
    · refine ⟨ai, ao, fun i hi => ?_⟩
      simp only [List.mem_append]
      exact Or.inl (Or.inl (Or.inl (remapOrCopy2_mem.mpr (Or.inl ⟨x, h, hi⟩))))
    all_goals
      refine ⟨ao, ao, fun i hi => ?_⟩
      have hm := remapIf2_mem.mpr ⟨x, h, hi⟩
      simp only [List.mem_append]
      left
      first
        | exact Or.inr hm
        | (left; right; split_ifs <;> (try simp only [List.mem_append]) <;> tauto)
  · rw [if_neg hf]
    rcases h with h | h | h
    · refine ⟨ai, ao, fun i hi => ?_⟩
      simp only [List.mem_append]
      exact Or.inl (Or.inl (Or.inl (remapOrCopy2_mem.mpr (Or.inl ⟨x, h, hi⟩))))
    · refine ⟨ao, ao, fun i hi => ?_⟩
      have hm := remapIf2_mem.mpr ⟨x, h, hi⟩
      simp only [List.mem_append]
      left; left; right; split_ifs <;> (try simp only [List.mem_append]) <;> tauto
    · refine ⟨ai, ao, fun i hi => ?_⟩
      have hm := remapIf2_mem.mpr ⟨x, h, hi⟩
      simp only [List.mem_append]
      exact Or.inl (Or.inr hm)

/-- `compute` makes no location of the buffers accessible. -/
theorem compute2_tame {f : Fft2 ℝ} {J : Nat → Junk} {scaled remaponly : Bool} {flag : Int} {ai ao : Nat}
    (h : ∀ x, f.uses flag x → Tight2 x) : ∀ i ∈ f.compute J scaled remaponly flag ai ao, ITame i := by
  have hcp : ∀ p n, (∀ x, InPair2 x p → Tight2 x) → ∀ i ∈ remapOrCopy2 p n ai ao, ITame i := by
    intro p n hp i hi
    rcases remapOrCopy2_mem.mp hi with ⟨x, hx, hi⟩ | ⟨_, _, rfl⟩
    · exact (hp x hx ai ao).1 i hi
    · exact memcpyLoc_tame _ _ _
  have hif : ∀ p a b, (∀ x, InPair2 x p → Tight2 x) → ∀ i ∈ remapIf2 p a b, ITame i := by
    intro p a b hp i hi
    obtain ⟨x, hx, hi⟩ := remapIf2_mem.mp hi
    exact (hp x hx a b).1 i hi
  have hpl : ∀ K plan, ∀ i ∈ ([.loc (performLoc K flag plan ao)] : List (Instr ℝ)), ITame i := by
    intro K plan i hi
    rw [List.mem_singleton] at hi
    subst hi
    exact performLoc_tame _ _ _ _
  unfold Fft2.uses at h
  intro i hi
  unfold Fft2.compute at hi
  rw [List.mem_append] at hi
  rcases hi with hi | hi
  · split_ifs at h hi with hf
    all_goals
      simp only [List.mem_append] at hi
      have h1 := fun x hx => h x (Or.inl hx)
      have h2 := fun x hx => h x (Or.inr (Or.inl hx))
      have h3 := fun x hx => h x (Or.inr (Or.inr hx))
      rcases hi with (hi | hi) | hi
      · exact hcp _ _ h1 i hi
      · first
          | exact hif _ _ _ h2 i hi
          | (rcases hi with (hi | hi) | hi
             · exact hpl _ _ i hi
             · exact hif _ _ _ h2 i hi
             · exact hpl _ _ i hi)
      · exact hif _ _ _ h3 i hi
  · split_ifs at hi
    · rw [List.mem_singleton] at hi
      subst hi
      exact scaleLoc_tame _ _ _
    · cases hi

/-- What `compute` needs of the buffers. -/
theorem compute2_needs {e : Bool} {P : Nat} {f : Nat → Fft2 ℝ} {J : Nat → Nat → Junk} {scaled remaponly : Bool} {flag : Int}
    {ai ao : Nat} {m m' : Nat → LMem ℝ} {r : Nat} (hr : r < P) (ht : ∀ x, (f r).uses flag x → Tight2 x)
    (h : Terminates e P (fun r => (f r).compute (J r) scaled remaponly flag ai ao) m m') {x : Remap2 ℝ}
    (hx : (f r).uses flag x) : accessible (m r).sb 0 x.obj.sendsize ∧ accessible (m r).rb 0 x.obj.recvsize := by
  have hn := h.needs hr (compute2_tame ht)
  obtain ⟨a, b, hab⟩ := compute2_has (J := J r) (scaled := scaled) (remaponly := remaponly) (ai := ai) (ao := ao) hx
  obtain ⟨_, hS, hR⟩ := ht x hx a b
  constructor
  · intro y h0 h1
    obtain ⟨i, hi, hy⟩ := hS y h0 (by omega)
    exact (hn i (hab i hi) y).1 hy
  · intro y h0 h1
    obtain ⟨i, hi, hy⟩ := hR y h0 (by omega)
    exact (hn i (hab i hi) y).2 hy

namespace Ready2

variable {c : Create2} {f : Nat → Fft2 ℝ} (R : Ready2 c f)
include R

theorem uses_fwd {flag : Int} (hf : flag = 1 ∨ inoutSame2 c.P c.a = true) {r : Nat} (hr : r < c.P) (x : Remap2 ℝ) :
    (f r).uses flag x ↔ x ∈ (c.on r).fwdSizes (α := ℝ) := by
  unfold Fft2.uses
  rw [if_pos (by rw [R.same r hr]; exact hf), R.prefast r hr, R.fastslow r hr, R.postslow r hr]
  unfold Create2.fwdSizes Create2.prefastO Create2.fastslowP Create2.postslowO
  split_ifs <;> simp only [inPair2_none, inPair2_single, inPair2_double, List.mem_append, List.mem_cons, List.not_mem_nil,
      or_false, false_or, or_assoc]

theorem uses_inv {flag : Int} (hf : flag ≠ 1) (hs : inoutSame2 c.P c.a = false) {r : Nat} (hr : r < c.P) (x : Remap2 ℝ) :
    (f r).uses flag x ↔ x ∈ (c.on r).invSizes (α := ℝ) := by
  unfold Fft2.uses
  rw [if_neg (by rw [R.same r hr, hs]; simpa using hf), R.preslow r hr, R.slowfast r hr, R.postfast r hr, hs]
  rw [if_neg Bool.false_ne_true, if_neg Bool.false_ne_true, if_neg Bool.false_ne_true]
  unfold Create2.invSizes Create2.preslowO Create2.slowfastP Create2.postfastO
  split_ifs <;> simp only [inPair2_none, inPair2_single, inPair2_double, List.mem_append, List.mem_cons, List.not_mem_nil,
      or_false, false_or, or_assoc]

end Ready2

end FftMpi
