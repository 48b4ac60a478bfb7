import Verif.PropsFft3dUse

/-!
# Properties of `FFT3d`: buffer sizes, separate arrays, rejected arguments

C25, C26 and C29 do not hold as claimed; the `_false` theorems are the counterexamples, the `_partial`
theorems say what does hold.
-/

noncomputable section

namespace FftMpi

/-! ## C25 -/

/-- The remap objects of a `RemapPair`. -/
def pairObjs {α : Type} : Option (RemapPair α) → List (Remap3 α)
  | none => []
  | some p => p.remap3d :: p.extra.toList

/-- All remaps of an `FFT3d` except the second one of `remap_midfast`. -/
def Fft3.mostRemaps (f : Fft3 ℝ) : List (Remap3 ℝ) :=
  pairObjs f.prefast ++ pairObjs f.fastmid ++ pairObjs f.midslow ++ pairObjs f.postslow ++
  pairObjs f.preslow ++ pairObjs f.slowmid ++ (f.midfast.map RemapPair.remap3d).toList ++ pairObjs f.postfast

/-- The second remap of `remap_midfast`. -/
def Fft3.lastRemap (f : Fft3 ℝ) : List (Remap3 ℝ) := (f.midfast.bind RemapPair.extra).toList

section objs

variable (c : Create) (x : Remap3 ℝ)

theorem objs_prefast (h : x ∈ pairObjs c.prefastO) : x ∈ c.fwdSizes := by
  unfold Create.prefastO at h
  unfold Create.fwdSizes
  split_ifs at h <;> simp_all [pairObjs, Create.single]
theorem objs_fastmid (h : x ∈ pairObjs (some c.fastmidP)) : x ∈ c.fwdSizes := by
  unfold Create.fastmidP at h
  unfold Create.fwdSizes
  by_cases h0 : c.st.exchange = 0 <;>
    simp only [h0, pairObjs, Create.single, Create.double, if_true, if_false, Option.toList_none,
      Option.toList_some, List.mem_cons, List.mem_append, List.not_mem_nil, or_false] at h ⊢ <;>
    first
    | exact Or.inl (Or.inr (Or.inl h))
    | exact Or.inl (Or.inr (Or.inr h))
    | (rcases h with h | h <;> simp only [h, true_or, or_true])
theorem objs_midslow (h : x ∈ pairObjs (some c.midslowP)) : x ∈ c.fwdSizes := by
  unfold Create.midslowP at h
  unfold Create.fwdSizes
  by_cases h0 : c.st.exchange = 0 <;>
    simp only [h0, pairObjs, Create.single, Create.double, if_true, if_false, Option.toList_none,
      Option.toList_some, List.mem_cons, List.mem_append, List.not_mem_nil, or_false] at h ⊢ <;>
    first
    | exact Or.inl (Or.inr (Or.inl h))
    | exact Or.inl (Or.inr (Or.inr h))
    | (rcases h with h | h <;> simp only [h, true_or, or_true])
theorem objs_postslow (h : x ∈ pairObjs c.postslowO) : x ∈ c.fwdSizes := by
  unfold Create.postslowO at h
  unfold Create.fwdSizes
  split_ifs at h <;> simp_all [pairObjs, Create.single]
theorem objs_preslow (h : x ∈ pairObjs c.preslowO) : x ∈ c.invSizes := by
  unfold Create.preslowO at h
  unfold Create.invSizes
  split_ifs at h <;> simp_all [pairObjs, Create.single]
theorem objs_slowmid (h : x ∈ pairObjs (some c.slowmidP)) : x ∈ c.invSizes := by
  unfold Create.slowmidP at h
  unfold Create.invSizes
  by_cases h0 : c.st.exchange = 0 <;>
    simp only [h0, pairObjs, Create.single, Create.double, if_true, if_false, Option.toList_none,
      Option.toList_some, List.mem_cons, List.mem_append, List.not_mem_nil, or_false] at h ⊢ <;>
    first
    | exact Or.inl (Or.inr (Or.inl h))
    | exact Or.inl (Or.inr (Or.inr h))
    | (rcases h with h | h <;> simp only [h, true_or, or_true])
theorem objs_midfast : (c.midfastP (α := ℝ)).remap3d ∈ c.invSizes := by
  unfold Create.midfastP
  unfold Create.invSizes
  by_cases h0 : c.st.exchange = 0 <;> simp [h0, Create.single, Create.double]
theorem objs_postfast (h : x ∈ pairObjs c.postfastO) : x ∈ c.invSizes := by
  unfold Create.postfastO at h
  unfold Create.invSizes
  split_ifs at h <;> simp_all [pairObjs, Create.single]

end objs

/-- Buffers of the sizes returned by `setup` suffice for all remaps but one. -/
theorem Ready.most_fit {c : Create} {f : Nat → Fft3 ℝ} (R : Ready c f) {r : Nat} (hr : r < c.P) :
    ∀ x ∈ (f r).mostRemaps, x.obj.sendsize ≤ (f r).sendsize ∧ x.obj.recvsize ≤ (f r).recvsize := by
  intro x hx
  unfold Fft3.mostRemaps at hx
  rw [R.prefast r hr, R.fastmid r hr, R.midslow r hr, R.postslow r hr, R.preslow r hr, R.slowmid r hr,
    R.midfast r hr, R.postfast r hr] at hx
  simp only [List.mem_append, or_assoc] at hx
  rcases hx with h | h | h | h | h
  · exact R.fwd r hr x (objs_prefast _ x h)
  · exact R.fwd r hr x (objs_fastmid _ x h)
  · exact R.fwd r hr x (objs_midslow _ x h)
  · exact R.fwd r hr x (objs_postslow _ x h)
  · cases hs : inoutSame c.P c.a with
    | true => rw [hs] at h; simp [pairObjs] at h
    | false =>
      rw [hs] at h
      simp only [Bool.false_eq_true, if_false] at h
      apply R.inv hs r hr x
      rcases h with h | h | h | h
      · exact objs_preslow _ x h
      · exact objs_slowmid _ x h
      · simp only [Option.map_some, Option.toList_some, List.mem_singleton] at h
        rw [h]; exact objs_midfast _
      · exact objs_postfast _ x h

namespace Ready

variable {c : Create} {f : Nat → Fft3 ℝ} (R : Ready c f)

include R

theorem insize_range {r : Nat} (hr : r < c.P) : 0 ≤ (f r).insize ∧ (f r).insize ≤ 2 * (f r).fftsize := by
  rw [R.insize r hr, boxSize_eq_count (R.args.properIn r hr).1]
  have := count_nonneg (c.a.ins r); have := R.size_ins hr
  omega

theorem outsize_range {r : Nat} (hr : r < c.P) : 0 ≤ (f r).outsize ∧ (f r).outsize ≤ 2 * (f r).fftsize := by
  rw [R.outsize r hr, boxSize_eq_count (R.args.properOut r hr)]
  have := count_nonneg (c.a.outs r); have := R.size_outs hr
  omega

/-- A remap whose buffers fit, whatever the arrays contain. -/
theorem step_any (e : Bool) (inst : Nat) (coll : Bool) {ins outs bs bs' : Nat → Box3} {p q : Int}
    (hp : p = 0 ∨ p = 1 ∨ p = 2) (hq : q = 0 ∨ q = 1 ∨ q = 2)
    (hins : ∀ r, ins r = rotBox p (bs r)) (houts : ∀ r, outs r = rotBox p (bs' r))
    (T : Tiles3 c.P bs c.a.nfast c.a.nmid c.a.nslow) (T' : Tiles3 c.P bs' c.a.nfast c.a.nmid c.a.nslow)
    (hsi : ∀ r < c.P, (bs r).count ≤ (f r).fftsize)
    (hso : ∀ r < c.P, (bs' r).count ≤ (f r).fftsize) {ai ao : Nat} {m : Nat → LMem ℝ}
    (hbi : Bufs c.P f ai m) (hb : Bufs c.P f ao m)
    (hx : ∀ r < c.P,
      (mkRemap (α := ℝ) (c.on r) inst coll ins outs q).obj.sendsize ≤ (f r).sendsize ∧
      (mkRemap (α := ℝ) (c.on r) inst coll ins outs q).obj.recvsize ≤ (f r).recvsize) :
    ∃ m', Step e c.P (fsz f) ao
        (fun r => (mkRemap (α := ℝ) (c.on r) inst coll ins outs q).prog ai ao) m m' := by
  obtain ⟨X, hX⟩ := some_holds T p hsi hbi.data
  obtain ⟨m', h, _⟩ := R.step e inst coll hp hq rfl hins houts T T' hso hX hb hx
  exact ⟨m', h⟩


/-- `remap_fastmid`. -/
theorem fastmid_any (e : Bool) {ai ao : Nat} {m : Nat → LMem ℝ} (hbi : Bufs c.P f ai m)
    (hb : Bufs c.P f ao m) :
    ∃ m', Step e c.P (fsz f) ao (fun r => remapIf (f r).fastmid ai ao) m m' := by
  by_cases hx : c.st.exchange = 0
  · obtain ⟨m', h⟩ := R.step_any e 1 c.pp (ins := c.fast) (outs := c.mid) zero_ok one_ok
      (fun _ => rfl) (fun _ => rfl) R.fast_tiles R.mid_tiles (fun r hr => R.size_fast hr)
      (fun r hr => R.size_mid hr) hbi hb (fun r hr => R.fwd r hr (c.on r).fastmidR (by
        have : (c.on r).st.exchange = 0 := hx
        simp [Create.fwdSizes, this]))
    refine ⟨m', h.congr ?_⟩
    intro r hr
    have : (c.on r).st.exchange = 0 := hx
    rw [R.fastmid r hr]
    simp only [Create.fastmidP, this, if_true, Bool.false_eq_true, if_false, remapIf, RemapPair.prog, Create.single,
      List.append_nil]
    rfl
  · obtain ⟨m1, h1⟩ := R.step_any e 1 c.bp (ins := c.fast) (outs := c.brick) zero_ok zero_ok
      (fun _ => rfl) (fun _ => rfl) R.fast_tiles (R.brick_tiles hx) (fun r hr => R.size_fast hr)
      (fun r hr => R.size_brick hx hr) hbi hb (fun r hr => R.fwd r hr (c.on r).fastmidR1 (by
        have : ¬ (c.on r).st.exchange = 0 := hx
        simp [Create.fwdSizes, this]))
    obtain ⟨m2, h2⟩ := R.step_any e 2 c.bp (ins := c.brick) (outs := c.mid) zero_ok one_ok
      (fun _ => rfl) (fun _ => rfl) (R.brick_tiles hx) R.mid_tiles (fun r hr => R.size_brick hx hr)
      (fun r hr => R.size_mid hr) (hbi.congr h1.dom) (hb.congr h1.dom) (fun r hr => R.fwd r hr (c.on r).fastmidR2 (by
        have : ¬ (c.on r).st.exchange = 0 := hx
        simp [Create.fwdSizes, this]))
    refine ⟨m2, (h1.append h2).congr ?_⟩
    intro r hr
    have : ¬ (c.on r).st.exchange = 0 := hx
    rw [R.fastmid r hr]
    simp only [Create.fastmidP, this, if_false, Bool.false_eq_true, remapIf, RemapPair.prog, Create.double]
    rfl

/-- `remap_midslow`. -/
theorem midslow_any (e : Bool) {ai ao : Nat} {m : Nat → LMem ℝ} (hbi : Bufs c.P f ai m)
    (hb : Bufs c.P f ao m) :
    ∃ m', Step e c.P (fsz f) ao (fun r => remapIf (f r).midslow ai ao) m m' := by
  by_cases hx : c.st.exchange = 0
  · obtain ⟨m', h⟩ := R.step_any e 3 c.pp (ins := fun r => jki (c.mid r)) (outs := fun r => jki (c.slow r)) one_ok one_ok
      (fun _ => rfl) (fun _ => rfl) R.mid_tiles R.slow_tiles (fun r hr => R.size_mid hr)
      (fun r hr => R.size_slow hr) hbi hb (fun r hr => R.fwd r hr (c.on r).midslowR (by
        have : (c.on r).st.exchange = 0 := hx
        simp [Create.fwdSizes, this]))
    refine ⟨m', h.congr ?_⟩
    intro r hr
    have : (c.on r).st.exchange = 0 := hx
    rw [R.midslow r hr]
    simp only [Create.midslowP, this, if_true, Bool.false_eq_true, if_false, remapIf, RemapPair.prog, Create.single,
      List.append_nil]
    rfl
  · obtain ⟨m1, h1⟩ := R.step_any e 3 c.bp (ins := fun r => jki (c.mid r)) (outs := fun r => jki (c.brick r)) one_ok zero_ok
      (fun _ => rfl) (fun _ => rfl) R.mid_tiles (R.brick_tiles hx) (fun r hr => R.size_mid hr)
      (fun r hr => R.size_brick hx hr) hbi hb (fun r hr => R.fwd r hr (c.on r).midslowR1 (by
        have : ¬ (c.on r).st.exchange = 0 := hx
        simp [Create.fwdSizes, this]))
    obtain ⟨m2, h2⟩ := R.step_any e 4 c.bp (ins := fun r => jki (c.brick r)) (outs := fun r => jki (c.slow r)) one_ok one_ok
      (fun _ => rfl) (fun _ => rfl) (R.brick_tiles hx) R.slow_tiles (fun r hr => R.size_brick hx hr)
      (fun r hr => R.size_slow hr) (hbi.congr h1.dom) (hb.congr h1.dom) (fun r hr => R.fwd r hr (c.on r).midslowR2 (by
        have : ¬ (c.on r).st.exchange = 0 := hx
        simp [Create.fwdSizes, this]))
    refine ⟨m2, (h1.append h2).congr ?_⟩
    intro r hr
    have : ¬ (c.on r).st.exchange = 0 := hx
    rw [R.midslow r hr]
    simp only [Create.midslowP, this, if_false, Bool.false_eq_true, remapIf, RemapPair.prog, Create.double]
    rfl

/-- `remap_slowmid`. -/
theorem slowmid_any (e : Bool) (hs : inoutSame c.P c.a = false) {ai ao : Nat} {m : Nat → LMem ℝ} (hbi : Bufs c.P f ai m)
    (hb : Bufs c.P f ao m) :
    ∃ m', Step e c.P (fsz f) ao (fun r => remapIf (f r).slowmid ai ao) m m' := by
  by_cases hx : c.st.exchange = 0
  · obtain ⟨m', h⟩ := R.step_any e 7 c.pp (ins := fun r => kij (c.slow r)) (outs := fun r => kij (c.mid r)) two_ok two_ok
      (fun _ => rfl) (fun _ => rfl) R.slow_tiles R.mid_tiles (fun r hr => R.size_slow hr)
      (fun r hr => R.size_mid hr) hbi hb (fun r hr => R.inv hs r hr (c.on r).slowmidR (by
        have : (c.on r).st.exchange = 0 := hx
        simp [Create.invSizes, this]))
    refine ⟨m', h.congr ?_⟩
    intro r hr
    have : (c.on r).st.exchange = 0 := hx
    rw [R.slowmid r hr, hs]
    simp only [Create.slowmidP, this, if_true, Bool.false_eq_true, if_false, remapIf, RemapPair.prog, Create.single,
      List.append_nil]
    rfl
  · obtain ⟨m1, h1⟩ := R.step_any e 7 c.bp (ins := fun r => kij (c.slow r)) (outs := fun r => kij (c.brick r)) two_ok zero_ok
      (fun _ => rfl) (fun _ => rfl) R.slow_tiles (R.brick_tiles hx) (fun r hr => R.size_slow hr)
      (fun r hr => R.size_brick hx hr) hbi hb (fun r hr => R.inv hs r hr (c.on r).slowmidR1 (by
        have : ¬ (c.on r).st.exchange = 0 := hx
        simp [Create.invSizes, this]))
    obtain ⟨m2, h2⟩ := R.step_any e 8 c.bp (ins := fun r => kij (c.brick r)) (outs := fun r => kij (c.mid r)) two_ok two_ok
      (fun _ => rfl) (fun _ => rfl) (R.brick_tiles hx) R.mid_tiles (fun r hr => R.size_brick hx hr)
      (fun r hr => R.size_mid hr) (hbi.congr h1.dom) (hb.congr h1.dom) (fun r hr => R.inv hs r hr (c.on r).slowmidR2 (by
        have : ¬ (c.on r).st.exchange = 0 := hx
        simp [Create.invSizes, this]))
    refine ⟨m2, (h1.append h2).congr ?_⟩
    intro r hr
    have : ¬ (c.on r).st.exchange = 0 := hx
    rw [R.slowmid r hr, hs]
    simp only [Create.slowmidP, this, if_false, Bool.false_eq_true, remapIf, RemapPair.prog, Create.double]
    rfl

/-- `remap_midfast`. -/
theorem midfast_any (e : Bool) (hs : inoutSame c.P c.a = false) (hX2 : ExtraFits c f) {ai ao : Nat} {m : Nat → LMem ℝ} (hbi : Bufs c.P f ai m)
    (hb : Bufs c.P f ao m) :
    ∃ m', Step e c.P (fsz f) ao (fun r => remapIf (f r).midfast ai ao) m m' := by
  by_cases hx : c.st.exchange = 0
  · obtain ⟨m', h⟩ := R.step_any e 9 c.pp (ins := fun r => jki (c.mid r)) (outs := fun r => jki (c.fast r)) one_ok two_ok
      (fun _ => rfl) (fun _ => rfl) R.mid_tiles R.fast_tiles (fun r hr => R.size_mid hr)
      (fun r hr => R.size_fast hr) hbi hb (fun r hr => R.inv hs r hr (c.on r).midfastR (by
        have : (c.on r).st.exchange = 0 := hx
        simp [Create.invSizes, this]))
    refine ⟨m', h.congr ?_⟩
    intro r hr
    have : (c.on r).st.exchange = 0 := hx
    rw [R.midfast r hr, hs]
    simp only [Create.midfastP, this, if_true, Bool.false_eq_true, if_false, remapIf, RemapPair.prog, Create.single,
      List.append_nil]
    rfl
  · obtain ⟨m1, h1⟩ := R.step_any e 9 c.bp (ins := fun r => jki (c.mid r)) (outs := fun r => jki (c.brick r)) one_ok zero_ok
      (fun _ => rfl) (fun _ => rfl) R.mid_tiles (R.brick_tiles hx) (fun r hr => R.size_mid hr)
      (fun r hr => R.size_brick hx hr) hbi hb (fun r hr => R.inv hs r hr (c.on r).midfastR1 (by
        have : ¬ (c.on r).st.exchange = 0 := hx
        simp [Create.invSizes, this]))
    obtain ⟨m2, h2⟩ := R.step_any e 10 c.bp (ins := fun r => jki (c.brick r)) (outs := fun r => jki (c.fast r)) one_ok two_ok
      (fun _ => rfl) (fun _ => rfl) (R.brick_tiles hx) R.fast_tiles (fun r hr => R.size_brick hx hr)
      (fun r hr => R.size_fast hr) (hbi.congr h1.dom) (hb.congr h1.dom) (fun r hr => hX2 hx r hr)
    refine ⟨m2, (h1.append h2).congr ?_⟩
    intro r hr
    have : ¬ (c.on r).st.exchange = 0 := hx
    rw [R.midfast r hr, hs]
    simp only [Create.midfastP, this, if_false, Bool.false_eq_true, remapIf, RemapPair.prog, Create.double]
    rfl

/-- `remap_prefast` or the copy. -/
theorem pre_any (e : Bool) {ai ao : Nat} {m : Nat → LMem ℝ} (hbi : Bufs c.P f ai m) (hb : Bufs c.P f ao m) :
    ∃ m', Step e c.P (fsz f) ao (fun r => remapOrCopy (f r).prefast (f r).insize ai ao) m m' := by
  by_cases hpre : ai = ao ∨ preflag c.P c.a = true
  · obtain ⟨X, hX⟩ := Ready.some_holds R.ins_tiles 0 (fun r hr => R.size_ins hr) hbi.data
    obtain ⟨m1, s1, _⟩ := R.pre_step e hpre hX hb
    exact ⟨m1, s1⟩
  · obtain ⟨m1, s1, _⟩ := Ready.copy_any (c := c) (f := f) e (fun r => (f r).insize) (ai := ai) (ao := ao)
      (fun r hr => (R.insize_range hr).1) (fun r hr => (R.insize_range hr).2) hbi.data hb.data
    refine ⟨m1, s1.congr ?_⟩
    intro r hr
    rw [not_or, Bool.not_eq_true] at hpre
    have : preflag (c.on r).P (c.on r).a = false := hpre.2
    rw [R.prefast r hr]
    simp [Create.prefastO, this, remapOrCopy, hpre.1]

/-- `remap_preslow` or the copy. -/
theorem preslow_any (e : Bool) (hs : inoutSame c.P c.a = false) {ai ao : Nat} {m : Nat → LMem ℝ}
    (hbi : Bufs c.P f ai m) (hb : Bufs c.P f ao m) :
    ∃ m', Step e c.P (fsz f) ao (fun r => remapOrCopy (f r).preslow (f r).outsize ai ao) m m' := by
  by_cases hpost : ai = ao ∨ postflag c.P c.a c.g = true
  · obtain ⟨X, hX⟩ := Ready.some_holds R.outs_tiles c.a.permute (fun r hr => R.size_outs hr) hbi.data
    obtain ⟨m1, s1, _⟩ := R.preslow_step e hs hpost hX hb
    exact ⟨m1, s1⟩
  · obtain ⟨m1, s1, _⟩ := Ready.copy_any (c := c) (f := f) e (fun r => (f r).outsize) (ai := ai) (ao := ao)
      (fun r hr => (R.outsize_range hr).1) (fun r hr => (R.outsize_range hr).2) hbi.data hb.data
    refine ⟨m1, s1.congr ?_⟩
    intro r hr
    rw [not_or, Bool.not_eq_true] at hpost
    have : postflag (c.on r).P (c.on r).a (c.on r).g = false := hpost.2
    rw [R.preslow r hr, hs]
    simp [Create.preslowO, this, remapOrCopy, hpost.1]

/-- `remap_postslow`. -/
theorem postslow_any (e : Bool) {ai ao : Nat} {m : Nat → LMem ℝ} (hbi : Bufs c.P f ai m)
    (hb : Bufs c.P f ao m) : ∃ m', Step e c.P (fsz f) ao (fun r => remapIf (f r).postslow ai ao) m m' := by
  by_cases hpost : postflag c.P c.a c.g = true
  · obtain ⟨X, hX⟩ := Ready.some_holds R.slow_tiles 2 (fun r hr => R.size_slow hr) hbi.data
    obtain ⟨m1, s1, _⟩ := R.postslow_step e (Or.inr hpost) hX hb
    exact ⟨m1, s1⟩
  · refine ⟨m, (Step.nil m).congr ?_⟩
    intro r hr
    have : postflag (c.on r).P (c.on r).a (c.on r).g = false := (Bool.not_eq_true _).mp hpost
    rw [R.postslow r hr]
    simp [Create.postslowO, this, remapIf]

/-- `remap_postfast`. -/
theorem postfast_any (e : Bool) (hs : inoutSame c.P c.a = false) {ai ao : Nat} {m : Nat → LMem ℝ}
    (hbi : Bufs c.P f ai m) (hb : Bufs c.P f ao m) :
    ∃ m', Step e c.P (fsz f) ao (fun r => remapIf (f r).postfast ai ao) m m' := by
  by_cases hpre : preflag c.P c.a = true
  · obtain ⟨X, hX⟩ := Ready.some_holds R.fast_tiles 0 (fun r hr => R.size_fast hr) hbi.data
    obtain ⟨m1, s1, _⟩ := R.postfast_step e hs (Or.inr hpre) hX hb
    exact ⟨m1, s1⟩
  · refine ⟨m, (Step.nil m).congr ?_⟩
    intro r hr
    have : preflag (c.on r).P (c.on r).a = false := (Bool.not_eq_true _).mp hpre
    rw [R.postfast r hr, hs]
    simp [Create.postfastO, this, remapIf]

/-- `only_one_remap` stays in bounds. -/
theorem one_any (e : Bool) (flag which : Int)
    (hX2 : flag ≠ 1 → inoutSame c.P c.a = false → ExtraFits c f) {ai ao : Nat} {m : Nat → LMem ℝ}
    (hbi : Bufs c.P f ai m) (hb : Bufs c.P f ao m) :
    ∃ m', Step e c.P (fsz f) ao (fun r => (f r).onlyOneRemap flag which ai ao) m m' := by
  have main : ∀ (p : Nat → List (Instr ℝ)), (∃ m', Step e c.P (fsz f) ao p m m') →
      (∀ r < c.P, (f r).onlyOneRemap flag which ai ao = p r) →
      ∃ m', Step e c.P (fsz f) ao (fun r => (f r).onlyOneRemap flag which ai ao) m m' :=
    fun p ⟨m', h⟩ hp => ⟨m', h.congr hp⟩
  by_cases hf : flag = 1 ∨ inoutSame c.P c.a = true
  · have hf' : ∀ r < c.P, flag = 1 ∨ (f r).same = true := fun r hr => by rw [R.same r hr]; exact hf
    by_cases h1 : which = 1
    · exact main _ (R.pre_any e hbi hb) fun r hr => by
        unfold Fft3.onlyOneRemap; rw [if_pos (hf' r hr), if_pos h1]
    by_cases h2 : which = 2
    · exact main _ (R.fastmid_any e hbi hb) fun r hr => by
        unfold Fft3.onlyOneRemap; rw [if_pos (hf' r hr), if_neg h1, if_pos h2]
    by_cases h3 : which = 3
    · exact main _ (R.midslow_any e hbi hb) fun r hr => by
        unfold Fft3.onlyOneRemap; rw [if_pos (hf' r hr), if_neg h1, if_neg h2, if_pos h3]
    by_cases h4 : which = 4
    · exact main _ (R.postslow_any e hbi hb) fun r hr => by
        unfold Fft3.onlyOneRemap; rw [if_pos (hf' r hr), if_neg h1, if_neg h2, if_neg h3, if_pos h4]
    exact main _ ⟨m, Step.nil m⟩ fun r hr => by
        unfold Fft3.onlyOneRemap; rw [if_pos (hf' r hr), if_neg h1, if_neg h2, if_neg h3, if_neg h4]
  · have hf' : ∀ r < c.P, ¬ (flag = 1 ∨ (f r).same = true) := fun r hr => by rw [R.same r hr]; exact hf
    rw [not_or, Bool.not_eq_true] at hf
    have hs := hf.2
    by_cases h4 : which = 4
    · exact main _ (R.preslow_any e hs hbi hb) fun r hr => by
        unfold Fft3.onlyOneRemap; rw [if_neg (hf' r hr), if_pos h4]
    by_cases h3 : which = 3
    · exact main _ (R.slowmid_any e hs hbi hb) fun r hr => by
        unfold Fft3.onlyOneRemap; rw [if_neg (hf' r hr), if_neg h4, if_pos h3]
    by_cases h2 : which = 2
    · exact main _ (R.midfast_any e hs (hX2 hf.1 hs) hbi hb) fun r hr => by
        unfold Fft3.onlyOneRemap; rw [if_neg (hf' r hr), if_neg h4, if_neg h3, if_pos h2]
    by_cases h1 : which = 1
    · exact main _ (R.postfast_any e hs hbi hb) fun r hr => by
        unfold Fft3.onlyOneRemap; rw [if_neg (hf' r hr), if_neg h4, if_neg h3, if_neg h2, if_pos h1]
    exact main _ ⟨m, Step.nil m⟩ fun r hr => by
        unfold Fft3.onlyOneRemap; rw [if_neg (hf' r hr), if_neg h4, if_neg h3, if_neg h2, if_neg h1]

/-- `only_remaps` stays in bounds. -/
theorem remaps_any (e : Bool) (flag : Int)
    (hX2 : flag ≠ 1 → inoutSame c.P c.a = false → ExtraFits c f) {ai ao : Nat} {m : Nat → LMem ℝ}
    (hbi : Bufs c.P f ai m) (hb : Bufs c.P f ao m) :
    ∃ m', Step e c.P (fsz f) ao (fun r => (f r).onlyRemaps flag ai ao) m m' := by
  by_cases hf : flag = 1 ∨ inoutSame c.P c.a = true
  · obtain ⟨m1, s1⟩ := R.pre_any e hbi hb
    have b1 := hb.congr s1.dom
    obtain ⟨m2, s2⟩ := R.fastmid_any e b1 b1
    have b2 := b1.congr s2.dom
    obtain ⟨m3, s3⟩ := R.midslow_any e b2 b2
    have b3 := b2.congr s3.dom
    obtain ⟨m4, s4⟩ := R.postslow_any e b3 b3
    refine ⟨m4, (((s1.append s2).append s3).append s4).congr ?_⟩
    intro r hr
    unfold Fft3.onlyRemaps
    rw [if_pos (by rw [R.same r hr]; exact hf)]
  · have hf' := hf
    rw [not_or, Bool.not_eq_true] at hf
    have hs := hf.2
    obtain ⟨m1, s1⟩ := R.preslow_any e hs hbi hb
    have b1 := hb.congr s1.dom
    obtain ⟨m2, s2⟩ := R.slowmid_any e hs b1 b1
    have b2 := b1.congr s2.dom
    obtain ⟨m3, s3⟩ := R.midfast_any e hs (hX2 hf.1 hs) b2 b2
    have b3 := b2.congr s3.dom
    obtain ⟨m4, s4⟩ := R.postfast_any e hs b3 b3
    refine ⟨m4, (((s1.append s2).append s3).append s4).congr ?_⟩
    intro r hr
    unfold Fft3.onlyRemaps
    rw [if_neg (by rw [R.same r hr]; exact hf')]

end Ready

/-- **C25, partial: what the sizes cover.**  The buffer sizes returned by `setup` are at least those that any
of the remaps needs, except the second remap of `remap_midfast` (fft3d.cpp:1368-1375 does not take its sizes
into account). -/
theorem C25_sizes_partial {P : Nat} {a : Args3} {st : Settings} {f : Nat → Fft3 ℝ} (S : SetUp3 P a st f)
    {r : Nat} (hr : r < P) : ∀ x ∈ (f r).mostRemaps,
      x.obj.sendsize ≤ (f r).sendsize ∧ x.obj.recvsize ≤ (f r).recvsize := by
  obtain ⟨c, rfl, rfl, rfl, _, R⟩ := S.ready
  exact R.most_fit hr

/-- **C25, partial: behaviour.**  With buffers of exactly the sizes returned by `setup`, `compute`,
`only_remaps` and `only_one_remap` complete without an access outside of any array or buffer, whatever the
arrays contain, with any arrays, in every schedule - in the forward direction, or without the brick stage,
or if input and output layout are the same.  Missing: the backward direction with `exchange = 1` and
different layouts, see `C25_false`. -/
theorem C25_buffers_partial {P : Nat} {a : Args3} {st : Settings} {f : Nat → Fft3 ℝ} (S : SetUp3 P a st f)
    (e : Bool) (J : Nat → Nat → Junk) (scaled remaponly : Bool) (flag which : Int)
    (hc : flag = 1 ∨ st.exchange = 0 ∨ (a.permute = 0 ∧ ∀ r < P, a.ins r = a.outs r)) {ai ao : Nat}
    {m : Nat → LMem ℝ} (hbi : Bufs P f ai m) (hb : Bufs P f ao m) :
    (∃ m', Terminates e P (fun r => (f r).compute (J r) scaled remaponly flag ai ao) m m') ∧
    (∃ m', Terminates e P (fun r => (f r).onlyRemaps flag ai ao) m m') ∧
    (∃ m', Terminates e P (fun r => (f r).onlyOneRemap flag which ai ao) m m') := by
  obtain ⟨c, rfl, rfl, rfl, _, R⟩ := S.ready
  have hX2 : flag ≠ 1 → inoutSame c.P c.a = false → Ready.ExtraFits c f := by
    intro h1 hs hx
    rcases hc with h | h | ⟨h0, h⟩
    · exact absurd h h1
    · exact absurd h hx
    · rw [inoutSame_of h0 h] at hs; cases hs
  obtain ⟨m1, s1⟩ := R.any flag hX2 e J scaled remaponly ai ao hbi hb
  obtain ⟨m2, s2⟩ := R.remaps_any e flag hX2 hbi hb
  obtain ⟨m3, s3⟩ := R.one_any e flag which hX2 hbi hb
  exact ⟨⟨m1, s1.ok.terminates⟩, ⟨m2, s2.ok.terminates⟩, m3, s3.ok.terminates⟩

example (st : Settings) (hst : st.Valid) (X : Grid3) : ∃ f m, SetUp3 2 (demo3 0) st f ∧ Bufs 2 f 0 m ∧
    Bufs 2 f 1 m := by
  obtain ⟨f, S⟩ := setUp3_exists (demo3_valid 0 (by decide)) hst
  obtain ⟨m, h⟩ := S.mem_in X
  exact ⟨f, m, S, (h 0).2, (h 1).2⟩

end FftMpi
