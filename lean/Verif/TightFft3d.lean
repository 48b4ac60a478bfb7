import Verif.PropsTightRemap
import Verif.PropsFft3dBuf

/-!
# What `FFT3d::compute` needs of the buffers
-/

noncomputable section

namespace FftMpi

/-- No instruction of the remap makes a location of the buffers accessible, and all locations below the sizes are
touched. -/
def Tight (x : Remap3 ℝ) : Prop :=
  ∀ ai ao, (∀ i ∈ x.prog ai ao, ITame i) ∧
    (∀ y, 0 ≤ y → y < x.obj.sendsize → ∃ i ∈ x.prog ai ao, NeedsS i y) ∧
    (∀ y, 0 ≤ y → y < x.obj.recvsize → ∃ i ∈ x.prog ai ao, NeedsR i y)

theorem rotBox_covered {P : Nat} {bs bs' : Nat → Box3} {n1 n2 n3 : Int} (p : Int) (T : Tiles3 P bs n1 n2 n3)
    (T' : Tiles3 P bs' n1 n2 n3) : Covered3 P (fun r => rotBox p (bs r)) (fun r => rotBox p (bs' r)) := by
  intro r hr x y z h
  obtain ⟨i, j, k, e⟩ := rotPt_surj p x y z
  have e1 : x = (rotPt p (i, j, k)).1 := by rw [e]
  have e2 : y = (rotPt p (i, j, k)).2.1 := by rw [e]
  have e3 : z = (rotPt p (i, j, k)).2.2 := by rw [e]
  rw [e1, e2, e3] at h ⊢
  rw [rotBox_has] at h
  have hin := T'.inside r hr i j k h
  obtain ⟨q, hq, hh⟩ := T.owner i j k hin.1 hin.2.1 hin.2.2
  exact ⟨q, hq, (rotBox_has p (bs q) i j k).mpr hh⟩

theorem mkRemap_tight {c : Create} (hst : c.st.Valid) (inst : Nat) (coll : Bool) {ins outs bs bs' : Nat → Box3} {p q : Int}
    (hq : q = 0 ∨ q = 1 ∨ q = 2) (hins : ∀ r, ins r = rotBox p (bs r)) (houts : ∀ r, outs r = rotBox p (bs' r))
    {n1 n2 n3 : Int} (T : Tiles3 c.P bs n1 n2 n3) (T' : Tiles3 c.P bs' n1 n2 n3) (hp : ∀ r < c.P, (bs' r).Proper) {r : Nat}
    (hr : r < c.P) : Tight (mkRemap (α := ℝ) (c.on r) inst coll ins outs q) := by
  intro ai ao
  obtain ⟨hv, hs⟩ := mkRemap_call hst inst coll (outs := outs) hq hins T.disjoint ai ao
  have G := geom3 (α := ℝ) (P := c.P) (ins := ins) (outs := outs) hv.nqty hv.permute hv.packflag
  refine ⟨prog_tame G hr (hs r hr) _ _ _, ?_⟩
  refine remap3_needs hv hs (fun _ r hr => ?_) (fun _ => ?_) hr
  · change (outs r).Proper
    rw [houts]; exact rotBox_proper (hp r hr)
  · change Covered3 c.P ins outs
    rw [funext hins, funext houts]
    exact rotBox_covered p T T'

/-! ## The parts of a plan -/

namespace Ready

variable {c : Create} {f : Nat → Fft3 ℝ} (R : Ready c f)
include R

theorem fwd_tight {r : Nat} (hr : r < c.P) : ∀ x ∈ (c.on r).fwdSizes (α := ℝ), Tight x := by
  intro x hx
  have pf : ∀ r < c.P, (c.fast r).Proper := fun r hr => R.fast_proper hr
  have ps : ∀ r < c.P, (c.slow r).Proper := fun r hr => R.slow_proper hr
  have pm : ∀ r < c.P, (c.mid r).Proper := fun r _ => R.mid_proper r
  have pb : ∀ r < c.P, (c.brick r).Proper := fun r _ => brick_proper r
  have po : ∀ r < c.P, (c.a.outs r).Proper := fun r hr => R.args.properOut r hr
  have np : (newpermute c.a.permute).getD 0 = 0 ∨ (newpermute c.a.permute).getD 0 = 1 ∨
      (newpermute c.a.permute).getD 0 = 2 := by
    rcases R.args.permute with h | h | h <;> rw [h] <;> simp [newpermute]
  unfold Create.fwdSizes at hx
  rw [List.mem_append, List.mem_append] at hx
  rcases hx with (hx | hx) | hx
  · split_ifs at hx
    · rw [List.mem_singleton] at hx
      subst hx
      exact mkRemap_tight (p := 0) R.st 0 c.bp zero_ok (fun _ => rfl) (fun _ => rfl) R.ins_tiles R.fast_tiles pf hr
    · cases hx
  · split_ifs at hx with h
    · simp only [List.mem_cons, List.not_mem_nil, or_false] at hx
      rcases hx with rfl | rfl
      · exact mkRemap_tight (p := 0) R.st 1 c.pp one_ok (fun _ => rfl) (fun _ => rfl) R.fast_tiles R.mid_tiles pm hr
      · exact mkRemap_tight (p := 1) R.st 3 c.pp one_ok (fun _ => rfl) (fun _ => rfl) R.mid_tiles R.slow_tiles ps hr
    · have hb := R.brick_tiles h
      simp only [List.mem_cons, List.not_mem_nil, or_false] at hx
      rcases hx with rfl | rfl | rfl | rfl
      · exact mkRemap_tight (p := 0) R.st 1 c.bp zero_ok (fun _ => rfl) (fun _ => rfl) R.fast_tiles hb pb hr
      · exact mkRemap_tight (p := 0) R.st 2 c.bp one_ok (fun _ => rfl) (fun _ => rfl) hb R.mid_tiles pm hr
      · exact mkRemap_tight (p := 1) R.st 3 c.bp zero_ok (fun _ => rfl) (fun _ => rfl) R.mid_tiles hb pb hr
      · exact mkRemap_tight (p := 1) R.st 4 c.bp one_ok (fun _ => rfl) (fun _ => rfl) hb R.slow_tiles ps hr
  · split_ifs at hx
    · rw [List.mem_singleton] at hx
      subst hx
      exact mkRemap_tight (p := 2) R.st 5 c.bp np (fun _ => rfl) (fun _ => rfl) R.slow_tiles R.outs_tiles po hr
    · cases hx

theorem inv_tight {r : Nat} (hr : r < c.P) : ∀ x ∈ (c.on r).invSizes (α := ℝ), Tight x := by
  intro x hx
  have pf : ∀ r < c.P, (c.fast r).Proper := fun r hr => R.fast_proper hr
  have ps : ∀ r < c.P, (c.slow r).Proper := fun r hr => R.slow_proper hr
  have pm : ∀ r < c.P, (c.mid r).Proper := fun r _ => R.mid_proper r
  have pb : ∀ r < c.P, (c.brick r).Proper := fun r _ => brick_proper r
  have pi : ∀ r < c.P, (c.a.ins r).Proper := fun r hr => (R.args.properIn r hr).1
  unfold Create.invSizes at hx
  rw [List.mem_append, List.mem_append] at hx
  rcases hx with (hx | hx) | hx
  · split_ifs at hx
    · rw [List.mem_singleton] at hx
      subst hx
      unfold Create.preslowR
      split_ifs
      · exact mkRemap_tight (p := 0) R.st 6 c.bp two_ok (fun _ => rfl) (fun _ => rfl) R.outs_tiles R.slow_tiles ps hr
      · exact mkRemap_tight (p := 1) R.st 6 c.bp one_ok (fun _ => rfl) (fun _ => rfl) R.outs_tiles R.slow_tiles ps hr
      · exact mkRemap_tight (p := 2) R.st 6 c.bp zero_ok (fun _ => rfl) (fun _ => rfl) R.outs_tiles R.slow_tiles ps hr
    · cases hx
  · split_ifs at hx with h
    · simp only [List.mem_cons, List.not_mem_nil, or_false] at hx
      rcases hx with rfl | rfl
      · exact mkRemap_tight (p := 2) R.st 7 c.pp two_ok (fun _ => rfl) (fun _ => rfl) R.slow_tiles R.mid_tiles pm hr
      · exact mkRemap_tight (p := 1) R.st 9 c.pp two_ok (fun _ => rfl) (fun _ => rfl) R.mid_tiles R.fast_tiles pf hr
    · have hb := R.brick_tiles h
      simp only [List.mem_cons, List.not_mem_nil, or_false] at hx
      rcases hx with rfl | rfl | rfl
      · exact mkRemap_tight (p := 2) R.st 7 c.bp zero_ok (fun _ => rfl) (fun _ => rfl) R.slow_tiles hb pb hr
      · exact mkRemap_tight (p := 2) R.st 8 c.bp two_ok (fun _ => rfl) (fun _ => rfl) hb R.mid_tiles pm hr
      · exact mkRemap_tight (p := 1) R.st 9 c.bp zero_ok (fun _ => rfl) (fun _ => rfl) R.mid_tiles hb pb hr
  · split_ifs at hx
    · rw [List.mem_singleton] at hx
      subst hx
      exact mkRemap_tight (p := 0) R.st 11 c.bp zero_ok (fun _ => rfl) (fun _ => rfl) R.fast_tiles R.ins_tiles pi hr
    · cases hx

theorem extra_tight (h : c.st.exchange ≠ 0) {r : Nat} (hr : r < c.P) : Tight ((c.on r).midfastR2 (α := ℝ)) :=
  mkRemap_tight (p := 1) R.st 10 c.bp two_ok (fun _ => rfl) (fun _ => rfl) (R.brick_tiles h) R.fast_tiles
    (fun _ hr => R.fast_proper hr) hr

end Ready

/-! ## The instructions of `compute` -/

theorem performLoc_tame (J : Junk) (flag : Int) (plan : Fft1d) (ao : Nat) : LTame (performLoc J flag plan ao) := by
  intro s s' h
  unfold performLoc at h
  rw [Option.map_eq_some_iff] at h
  obtain ⟨_, _, rfl⟩ := h
  exact ⟨fun _ h => h, fun _ h => h⟩

theorem scaleLoc_tame (norm : ℝ) (n : Int) (ao : Nat) : LTame (scaleLoc norm n ao) := by
  intro s s' h
  unfold scaleLoc at h
  rw [Option.map_eq_some_iff] at h
  obtain ⟨_, _, rfl⟩ := h
  exact ⟨fun _ h => h, fun _ h => h⟩

theorem memcpyLoc_tame (ai ao : Nat) (n : Int) : LTame (memcpyLoc ai ao n) := by
  intro s s' h
  unfold memcpyLoc at h
  rw [Option.map_eq_some_iff] at h
  obtain ⟨_, _, rfl⟩ := h
  exact ⟨fun _ h => h, fun _ h => h⟩

/-- The instructions of a pair of remaps. -/
theorem pair_mem {p : RemapPair ℝ} {ai ao : Nat} {i : Instr ℝ} :
    i ∈ p.prog ai ao ↔ i ∈ p.remap3d.prog ai ao ∨ ∃ x, p.extra = some x ∧ i ∈ x.prog ai ao := by
  unfold RemapPair.prog
  rw [List.mem_append]
  cases p.extra with
  | none => simp
  | some x => simp

/-- `x` is one of the remaps of the pair, if there is one. -/
def InPair (x : Remap3 ℝ) (p : Option (RemapPair ℝ)) : Prop := ∃ q, p = some q ∧ (x = q.remap3d ∨ q.extra = some x)

theorem inPair_none {x : Remap3 ℝ} : InPair x none ↔ False := by simp [InPair]

theorem inPair_single {x y : Remap3 ℝ} : InPair x (some (Create.single y)) ↔ x = y := by
  simp [InPair, Create.single]

theorem inPair_double {x y z : Remap3 ℝ} : InPair x (some (Create.double y z)) ↔ x = y ∨ x = z := by
  simp [InPair, Create.double, eq_comm]

theorem remapIf_mem {p : Option (RemapPair ℝ)} {ai ao : Nat} {i : Instr ℝ} :
    i ∈ remapIf p ai ao ↔ ∃ x, InPair x p ∧ i ∈ x.prog ai ao := by
  unfold remapIf InPair
  cases p with
  | none => simp
  | some p =>
    simp only [Option.some.injEq]
    rw [pair_mem]
    constructor
    · rintro (h | ⟨x, h1, h2⟩)
      · exact ⟨_, ⟨p, rfl, Or.inl rfl⟩, h⟩
      · exact ⟨x, ⟨p, rfl, Or.inr h1⟩, h2⟩
    · rintro ⟨x, ⟨q, rfl, rfl | h⟩, hi⟩
      · exact Or.inl hi
      · exact Or.inr ⟨x, h, hi⟩

theorem remapOrCopy_mem {p : Option (RemapPair ℝ)} {n : Int} {ai ao : Nat} {i : Instr ℝ} :
    i ∈ remapOrCopy p n ai ao ↔ (∃ x, InPair x p ∧ i ∈ x.prog ai ao) ∨ (p = none ∧ ai ≠ ao ∧ i = .loc (memcpyLoc ai ao n)) := by
  rw [← remapIf_mem]
  unfold remapOrCopy remapIf
  cases p with
  | none => dsimp only; split_ifs with h <;> simp [h]
  | some p => simp

/-- The remaps of one direction of `compute`. -/
def Fft3.uses (f : Fft3 ℝ) (flag : Int) (x : Remap3 ℝ) : Prop :=
  if flag = 1 ∨ f.same then InPair x f.prefast ∨ InPair x f.fastmid ∨ InPair x f.midslow ∨ InPair x f.postslow
  else InPair x f.preslow ∨ InPair x f.slowmid ∨ InPair x f.midfast ∨ InPair x f.postfast

/-- `compute` runs the program of each remap of its direction. -/
theorem compute_has {f : Fft3 ℝ} {J : Nat → Junk} {scaled remaponly : Bool} {flag : Int} {ai ao : Nat} {x : Remap3 ℝ}
    (h : f.uses flag x) : ∃ a b, ∀ i ∈ x.prog a b, i ∈ f.compute J scaled remaponly flag ai ao := by
  unfold Fft3.uses at h
  unfold Fft3.compute
  split_ifs at h with hf
  · rw [if_pos hf]
    rcases h with h | h | h | h
    · refine ⟨ai, ao, fun i hi => ?_⟩
      simp only [List.mem_append]
      exact Or.inl (Or.inl (Or.inl (remapOrCopy_mem.mpr (Or.inl ⟨x, h, hi⟩))))
    all_goals
      refine ⟨ao, ao, fun i hi => ?_⟩
      have hm := remapIf_mem.mpr ⟨x, h, hi⟩
      simp only [List.mem_append]
      left
      first
        | exact Or.inr hm
        | (left; right; split_ifs <;> simp only [List.mem_append] <;> tauto)
  · rw [if_neg hf]
    rcases h with h | h | h | h
    · refine ⟨ai, ao, fun i hi => ?_⟩
      simp only [List.mem_append]
      exact Or.inl (Or.inl (Or.inl (remapOrCopy_mem.mpr (Or.inl ⟨x, h, hi⟩))))
    · refine ⟨ao, ao, fun i hi => ?_⟩
      have hm := remapIf_mem.mpr ⟨x, h, hi⟩
      simp only [List.mem_append]
      left; left; right; split_ifs <;> simp only [List.mem_append] <;> tauto
    · refine ⟨ao, ao, fun i hi => ?_⟩
      have hm := remapIf_mem.mpr ⟨x, h, hi⟩
      simp only [List.mem_append]
      left; left; right; split_ifs <;> simp only [List.mem_append] <;> tauto
    · refine ⟨ai, ao, fun i hi => ?_⟩
      have hm := remapIf_mem.mpr ⟨x, h, hi⟩
      simp only [List.mem_append]
      exact Or.inl (Or.inr hm)

/-- `compute` makes no location of the buffers accessible. -/
theorem compute_tame {f : Fft3 ℝ} {J : Nat → Junk} {scaled remaponly : Bool} {flag : Int} {ai ao : Nat}
    (h : ∀ x, f.uses flag x → Tight x) : ∀ i ∈ f.compute J scaled remaponly flag ai ao, ITame i := by
  have hcp : ∀ p n, (∀ x, InPair x p → Tight x) → ∀ i ∈ remapOrCopy p n ai ao, ITame i := by
    intro p n hp i hi
    rcases remapOrCopy_mem.mp hi with ⟨x, hx, hi⟩ | ⟨_, _, rfl⟩
    · exact (hp x hx ai ao).1 i hi
    · exact memcpyLoc_tame _ _ _
  have hif : ∀ p a b, (∀ x, InPair x p → Tight x) → ∀ i ∈ remapIf p a b, ITame i := by
    intro p a b hp i hi
    obtain ⟨x, hx, hi⟩ := remapIf_mem.mp hi
    exact (hp x hx a b).1 i hi
  have hpl : ∀ K plan, ∀ i ∈ ([.loc (performLoc K flag plan ao)] : List (Instr ℝ)), ITame i := by
    intro K plan i hi
    rw [List.mem_singleton] at hi
    subst hi
    exact performLoc_tame _ _ _ _
  unfold Fft3.uses at h
  intro i hi
  unfold Fft3.compute at hi
  rw [List.mem_append] at hi
  rcases hi with hi | hi
  · split_ifs at h hi with hf
    all_goals
      simp only [List.mem_append] at hi
      have h1 := fun x hx => h x (Or.inl hx)
      have h2 := fun x hx => h x (Or.inr (Or.inl hx))
      have h3 := fun x hx => h x (Or.inr (Or.inr (Or.inl hx)))
      have h4 := fun x hx => h x (Or.inr (Or.inr (Or.inr hx)))
      rcases hi with (hi | hi) | hi
      · exact hcp _ _ h1 i hi
      · first
          | (rcases hi with hi | hi
             · exact hif _ _ _ h2 i hi
             · exact hif _ _ _ h3 i hi)
          | (rcases hi with (((hi | hi) | hi) | hi) | hi
             · exact hpl _ _ i hi
             · exact hif _ _ _ h2 i hi
             · exact hpl _ _ i hi
             · exact hif _ _ _ h3 i hi
             · exact hpl _ _ i hi)
      · exact hif _ _ _ h4 i hi
  · split_ifs at hi
    · rw [List.mem_singleton] at hi
      subst hi
      exact scaleLoc_tame _ _ _
    · cases hi

/-- What `compute` needs of the buffers. -/
theorem compute_needs {e : Bool} {P : Nat} {f : Nat → Fft3 ℝ} {J : Nat → Nat → Junk} {scaled remaponly : Bool} {flag : Int}
    {ai ao : Nat} {m m' : Nat → LMem ℝ} {r : Nat} (hr : r < P) (ht : ∀ x, (f r).uses flag x → Tight x)
    (h : Terminates e P (fun r => (f r).compute (J r) scaled remaponly flag ai ao) m m') {x : Remap3 ℝ}
    (hx : (f r).uses flag x) : accessible (m r).sb 0 x.obj.sendsize ∧ accessible (m r).rb 0 x.obj.recvsize := by
  have hn := h.needs hr (compute_tame ht)
  obtain ⟨a, b, hab⟩ := compute_has (J := J r) (scaled := scaled) (remaponly := remaponly) (ai := ai) (ao := ao) hx
  obtain ⟨_, hS, hR⟩ := ht x hx a b
  constructor
  · intro y h0 h1
    obtain ⟨i, hi, hy⟩ := hS y h0 (by omega)
    exact (hn i (hab i hi) y).1 hy
  · intro y h0 h1
    obtain ⟨i, hi, hy⟩ := hR y h0 (by omega)
    exact (hn i (hab i hi) y).2 hy

namespace Ready

variable {c : Create} {f : Nat → Fft3 ℝ} (R : Ready c f)
include R

theorem uses_fwd {flag : Int} (hf : flag = 1 ∨ inoutSame c.P c.a = true) {r : Nat} (hr : r < c.P) (x : Remap3 ℝ) :
    (f r).uses flag x ↔ x ∈ (c.on r).fwdSizes (α := ℝ) := by
  unfold Fft3.uses
  rw [if_pos (by rw [R.same r hr]; exact hf), R.prefast r hr, R.fastmid r hr, R.midslow r hr, R.postslow r hr]
  unfold Create.fwdSizes Create.prefastO Create.fastmidP Create.midslowP Create.postslowO
  by_cases h2 : (c.on r).st.exchange = 0
  · rw [if_pos h2, if_pos h2, if_pos h2]
    split_ifs <;> simp only [inPair_none, inPair_single, List.mem_append, List.mem_cons, List.not_mem_nil,
      or_false, false_or, or_assoc]
  · rw [if_neg h2, if_neg h2, if_neg h2]
    split_ifs <;> simp only [inPair_none, inPair_single, inPair_double, List.mem_append, List.mem_cons, List.not_mem_nil,
      or_false, false_or, or_assoc]

theorem uses_inv {flag : Int} (hf : flag ≠ 1) (hs : inoutSame c.P c.a = false) {r : Nat} (hr : r < c.P) (x : Remap3 ℝ) :
    (f r).uses flag x ↔ x ∈ (c.on r).invSizes (α := ℝ) ∨ (c.st.exchange ≠ 0 ∧ x = (c.on r).midfastR2) := by
  unfold Fft3.uses
  rw [if_neg (by rw [R.same r hr, hs]; simpa using hf), R.preslow r hr, R.slowmid r hr, R.midfast r hr, R.postfast r hr, hs]
  rw [if_neg Bool.false_ne_true, if_neg Bool.false_ne_true, if_neg Bool.false_ne_true, if_neg Bool.false_ne_true]
  unfold Create.invSizes Create.preslowO Create.slowmidP Create.midfastP Create.postfastO
  have e : c.st.exchange = (c.on r).st.exchange := rfl
  rw [e]
  by_cases h2 : (c.on r).st.exchange = 0
  · rw [if_pos h2, if_pos h2, if_pos h2]
    split_ifs <;> simp only [inPair_none, inPair_single, List.mem_append, List.mem_cons, List.not_mem_nil,
      or_false, false_or, or_assoc, h2, ne_eq, not_true_eq_false, false_and]
  · rw [if_neg h2, if_neg h2, if_neg h2]
    split_ifs <;> simp only [inPair_none, inPair_single, inPair_double, List.mem_append, List.mem_cons, List.not_mem_nil,
      or_false, false_or, or_assoc, h2, ne_eq, not_false_eq_true, true_and]
    all_goals
      generalize (x = (c.on r).slowmidR1) = A1
      generalize (x = (c.on r).slowmidR2) = A2
      generalize (x = (c.on r).midfastR1) = A3
      generalize (x = (c.on r).midfastR2) = A4
      generalize (x = (c.on r).preslowR) = A5
      generalize (x = (c.on r).postfastR) = A6
      tauto

end Ready

end FftMpi
