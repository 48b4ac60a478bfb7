import Verif.PropsFft2dUse
import Verif.PropsFft3dBad

/-!
# Properties of `FFT2d`: buffer sizes (C25), separate arrays (C26), checks of the layouts (C29), agreement
of the ranks (C38)

The 2d analogues of `PropsFft3dBuf.lean` and `PropsFft3dBad.lean`.  In 2d, C25 holds without restriction:
`FFT2d::remap_inverse_create` takes the sizes of all remaps into account.
-/

noncomputable section

namespace FftMpi

/-! ## C25 -/

/-- The remap objects of a `RemapPair2`. -/
def pairObjs2 {α : Type} : Option (RemapPair2 α) → List (Remap2 α)
  | none => []
  | some p => p.remap2d :: p.extra.toList

/-- All remaps of an `FFT2d`. -/
def Fft2.remaps (f : Fft2 ℝ) : List (Remap2 ℝ) :=
  pairObjs2 f.prefast ++ pairObjs2 f.fastslow ++ pairObjs2 f.postslow ++
  pairObjs2 f.preslow ++ pairObjs2 f.slowfast ++ pairObjs2 f.postfast

section objs

variable (c : Create2) (x : Remap2 ℝ)

theorem objs2_fwd (h : x ∈ pairObjs2 c.prefastO ++ pairObjs2 (some c.fastslowP) ++ pairObjs2 c.postslowO) :
    x ∈ c.fwdSizes := by
  unfold Create2.prefastO Create2.fastslowP Create2.postslowO at h
  unfold Create2.fwdSizes
  by_cases h1 : preflag2 c.P c.a = true <;> by_cases h2 : c.st.exchange = 0 <;>
    by_cases h3 : postflag2 c.P c.a = true <;>
    simpa [h1, h2, h3, pairObjs2, Create2.single, Create2.double] using h

theorem objs2_inv (h : x ∈ pairObjs2 c.preslowO ++ pairObjs2 (some c.slowfastP) ++ pairObjs2 c.postfastO) :
    x ∈ c.invSizes := by
  unfold Create2.preslowO Create2.slowfastP Create2.postfastO at h
  unfold Create2.invSizes
  by_cases h1 : preflag2 c.P c.a = true <;> by_cases h2 : c.st.exchange = 0 <;>
    by_cases h3 : postflag2 c.P c.a = true <;>
    simpa [h1, h2, h3, pairObjs2, Create2.single, Create2.double] using h

end objs

namespace Ready2

variable {c : Create2} {f : Nat → Fft2 ℝ} (R : Ready2 c f)

include R

/-- Buffers of the sizes returned by `setup` suffice for all remaps. -/
theorem all_fit {r : Nat} (hr : r < c.P) :
    ∀ x ∈ (f r).remaps, x.obj.sendsize ≤ (f r).sendsize ∧ x.obj.recvsize ≤ (f r).recvsize := by
  intro x hx
  unfold Fft2.remaps at hx
  rw [R.prefast r hr, R.fastslow r hr, R.postslow r hr, R.preslow r hr, R.slowfast r hr, R.postfast r hr] at hx
  rw [List.append_assoc, List.append_assoc] at hx
  rcases List.mem_append.mp hx with h | h
  · exact R.fwd r hr x (objs2_fwd _ x h)
  · rw [← List.append_assoc] at h
    cases hs : inoutSame2 c.P c.a with
    | true => rw [hs] at h; simp [pairObjs2] at h
    | false =>
      rw [hs] at h
      simp only [Bool.false_eq_true, if_false] at h
      exact R.inv hs r hr x (objs2_inv _ x h)

/-- A remap whose buffers fit, whatever the arrays contain. -/
theorem step_any (e : Bool) (inst : Nat) (coll : Bool) {ins outs bs bs' : Nat → Box2} {p q : Int}
    (hp : p = 0 ∨ p = 1) (hq : q = 0 ∨ q = 1)
    (hins : ∀ r, ins r = rotBox2 p (bs r)) (houts : ∀ r, outs r = rotBox2 p (bs' r))
    (T : Tiles2 c.P bs c.a.nfast c.a.nslow) (T' : Tiles2 c.P bs' c.a.nfast c.a.nslow)
    (hsi : ∀ r < c.P, (bs r).count ≤ (f r).fftsize)
    (hso : ∀ r < c.P, (bs' r).count ≤ (f r).fftsize) {ai ao : Nat} {m : Nat → LMem ℝ}
    (hbi : Bufs2 c.P f ai m) (hb : Bufs2 c.P f ao m)
    (hx : ∀ r < c.P,
      (mkRemap2 (α := ℝ) (c.on r) inst coll ins outs q).obj.sendsize ≤ (f r).sendsize ∧
      (mkRemap2 (α := ℝ) (c.on r) inst coll ins outs q).obj.recvsize ≤ (f r).recvsize) :
    ∃ m', Step e c.P (fsz2 f) ao
        (fun r => (mkRemap2 (α := ℝ) (c.on r) inst coll ins outs q).prog ai ao) m m' := by
  obtain ⟨X, hX⟩ := Ready2.some_holds T hp hsi hbi.data
  obtain ⟨m', h, _⟩ := R.step e inst coll hp hq rfl hins houts T T' hso hX hb hx
  exact ⟨m', h⟩

/-- `remap_fastslow`. -/
theorem fastslow_any (e : Bool) {ai ao : Nat} {m : Nat → LMem ℝ} (hbi : Bufs2 c.P f ai m)
    (hb : Bufs2 c.P f ao m) :
    ∃ m', Step e c.P (fsz2 f) ao (fun r => remapIf2 (f r).fastslow ai ao) m m' := by
  by_cases hx : c.st.exchange = 0
  · obtain ⟨m', h⟩ := R.step_any e 1 c.pp (ins := c.fast) (outs := c.slow) zero_ok one_ok
      (fun _ => rfl) (fun _ => rfl) R.fast_tiles R.slow_tiles (fun r hr => R.size_fast hr)
      (fun r hr => R.size_slow hr) hbi hb (fun r hr => R.fwd r hr (c.on r).fastslowR (by
        have : (c.on r).st.exchange = 0 := hx
        simp [Create2.fwdSizes, this]))
    refine ⟨m', h.congr ?_⟩
    intro r hr
    have : (c.on r).st.exchange = 0 := hx
    rw [R.fastslow r hr]
    simp only [Create2.fastslowP, this, if_true, remapIf2, RemapPair2.prog, Create2.single,
      List.append_nil]
    rfl
  · obtain ⟨m1, h1⟩ := R.step_any e 1 c.bp (ins := c.fast) (outs := c.brick) zero_ok zero_ok
      (fun _ => rfl) (fun _ => rfl) R.fast_tiles (R.brick_tiles hx) (fun r hr => R.size_fast hr)
      (fun r hr => R.size_brick hx hr) hbi hb (fun r hr => R.fwd r hr (c.on r).fastslowR1 (by
        have : ¬ (c.on r).st.exchange = 0 := hx
        simp [Create2.fwdSizes, this]))
    obtain ⟨m2, h2⟩ := R.step_any e 2 c.bp (ins := c.brick) (outs := c.slow) zero_ok one_ok
      (fun _ => rfl) (fun _ => rfl) (R.brick_tiles hx) R.slow_tiles (fun r hr => R.size_brick hx hr)
      (fun r hr => R.size_slow hr) (hbi.congr h1.dom) (hb.congr h1.dom)
      (fun r hr => R.fwd r hr (c.on r).fastslowR2 (by
        have : ¬ (c.on r).st.exchange = 0 := hx
        simp [Create2.fwdSizes, this]))
    refine ⟨m2, (h1.append h2).congr ?_⟩
    intro r hr
    have : ¬ (c.on r).st.exchange = 0 := hx
    rw [R.fastslow r hr]
    simp only [Create2.fastslowP, this, if_false, remapIf2, RemapPair2.prog, Create2.double]
    rfl

/-- `remap_slowfast`. -/
theorem slowfast_any (e : Bool) (hs : inoutSame2 c.P c.a = false) {ai ao : Nat} {m : Nat → LMem ℝ}
    (hbi : Bufs2 c.P f ai m) (hb : Bufs2 c.P f ao m) :
    ∃ m', Step e c.P (fsz2 f) ao (fun r => remapIf2 (f r).slowfast ai ao) m m' := by
  by_cases hx : c.st.exchange = 0
  · obtain ⟨m', h⟩ := R.step_any e 5 c.pp (ins := fun r => ji (c.slow r)) (outs := fun r => ji (c.fast r))
      one_ok one_ok (fun _ => rfl) (fun _ => rfl) R.slow_tiles R.fast_tiles (fun r hr => R.size_slow hr)
      (fun r hr => R.size_fast hr) hbi hb (fun r hr => R.inv hs r hr (c.on r).slowfastR (by
        have : (c.on r).st.exchange = 0 := hx
        simp [Create2.invSizes, this]))
    refine ⟨m', h.congr ?_⟩
    intro r hr
    have : (c.on r).st.exchange = 0 := hx
    rw [R.slowfast r hr, hs]
    simp only [Create2.slowfastP, this, if_true, Bool.false_eq_true, if_false, remapIf2, RemapPair2.prog,
      Create2.single, List.append_nil]
    rfl
  · obtain ⟨m1, h1⟩ := R.step_any e 5 c.bp (ins := fun r => ji (c.slow r)) (outs := fun r => ji (c.brick r))
      one_ok zero_ok (fun _ => rfl) (fun _ => rfl) R.slow_tiles (R.brick_tiles hx)
      (fun r hr => R.size_slow hr) (fun r hr => R.size_brick hx hr) hbi hb
      (fun r hr => R.inv hs r hr (c.on r).slowfastR1 (by
        have : ¬ (c.on r).st.exchange = 0 := hx
        simp [Create2.invSizes, this]))
    obtain ⟨m2, h2⟩ := R.step_any e 6 c.bp (ins := fun r => ji (c.brick r)) (outs := fun r => ji (c.fast r))
      one_ok one_ok (fun _ => rfl) (fun _ => rfl) (R.brick_tiles hx) R.fast_tiles
      (fun r hr => R.size_brick hx hr) (fun r hr => R.size_fast hr) (hbi.congr h1.dom) (hb.congr h1.dom)
      (fun r hr => R.inv hs r hr (c.on r).slowfastR2 (by
        have : ¬ (c.on r).st.exchange = 0 := hx
        simp [Create2.invSizes, this]))
    refine ⟨m2, (h1.append h2).congr ?_⟩
    intro r hr
    have : ¬ (c.on r).st.exchange = 0 := hx
    rw [R.slowfast r hr, hs]
    simp only [Create2.slowfastP, this, if_false, Bool.false_eq_true, remapIf2, RemapPair2.prog, Create2.double]
    rfl

/-- `remap_postslow`. -/
theorem postslow_any (e : Bool) {ai ao : Nat} {m : Nat → LMem ℝ} (hbi : Bufs2 c.P f ai m)
    (hb : Bufs2 c.P f ao m) : ∃ m', Step e c.P (fsz2 f) ao (fun r => remapIf2 (f r).postslow ai ao) m m' := by
  by_cases hpost : postflag2 c.P c.a = true
  · obtain ⟨X, hX⟩ := Ready2.some_holds R.slow_tiles (Or.inr rfl) (fun r hr => R.size_slow hr) hbi.data
    obtain ⟨m1, s1, _⟩ := R.postslow_step e (Or.inr hpost) hX hb
    exact ⟨m1, s1⟩
  · refine ⟨m, (Step.nil m).congr ?_⟩
    intro r hr
    have : postflag2 (c.on r).P (c.on r).a = false := (Bool.not_eq_true _).mp hpost
    rw [R.postslow r hr]
    simp [Create2.postslowO, this, remapIf2]

/-- `remap_postfast`. -/
theorem postfast_any (e : Bool) (hs : inoutSame2 c.P c.a = false) {ai ao : Nat} {m : Nat → LMem ℝ}
    (hbi : Bufs2 c.P f ai m) (hb : Bufs2 c.P f ao m) :
    ∃ m', Step e c.P (fsz2 f) ao (fun r => remapIf2 (f r).postfast ai ao) m m' := by
  by_cases hpre : preflag2 c.P c.a = true
  · obtain ⟨X, hX⟩ := Ready2.some_holds R.fast_tiles (Or.inl rfl) (fun r hr => R.size_fast hr) hbi.data
    obtain ⟨m1, s1, _⟩ := R.postfast_step e hs (Or.inr hpre) hX hb
    exact ⟨m1, s1⟩
  · refine ⟨m, (Step.nil m).congr ?_⟩
    intro r hr
    have : preflag2 (c.on r).P (c.on r).a = false := (Bool.not_eq_true _).mp hpre
    rw [R.postfast r hr, hs]
    simp [Create2.postfastO, this, remapIf2]

/-- `only_one_remap` stays in bounds. -/
theorem one_any (e : Bool) (flag which : Int) {ai ao : Nat} {m : Nat → LMem ℝ}
    (hbi : Bufs2 c.P f ai m) (hb : Bufs2 c.P f ao m) :
    ∃ m', Step e c.P (fsz2 f) ao (fun r => (f r).onlyOneRemap flag which ai ao) m m' := by
  have main : ∀ (p : Nat → List (Instr ℝ)), (∃ m', Step e c.P (fsz2 f) ao p m m') →
      (∀ r < c.P, (f r).onlyOneRemap flag which ai ao = p r) →
      ∃ m', Step e c.P (fsz2 f) ao (fun r => (f r).onlyOneRemap flag which ai ao) m m' :=
    fun p ⟨m', h⟩ hp => ⟨m', h.congr hp⟩
  by_cases hf : flag = 1 ∨ inoutSame2 c.P c.a = true
  · have hf' : ∀ r < c.P, flag = 1 ∨ (f r).same = true := fun r hr => by rw [R.same r hr]; exact hf
    by_cases h1 : which = 1
    · exact main _ (R.pre_any e hbi hb) fun r hr => by
        unfold Fft2.onlyOneRemap; rw [if_pos (hf' r hr), if_pos h1]
    by_cases h2 : which = 2
    · exact main _ (R.fastslow_any e hbi hb) fun r hr => by
        unfold Fft2.onlyOneRemap; rw [if_pos (hf' r hr), if_neg h1, if_pos h2]
    by_cases h3 : which = 3
    · exact main _ (R.postslow_any e hbi hb) fun r hr => by
        unfold Fft2.onlyOneRemap; rw [if_pos (hf' r hr), if_neg h1, if_neg h2, if_pos h3]
    exact main _ ⟨m, Step.nil m⟩ fun r hr => by
        unfold Fft2.onlyOneRemap; rw [if_pos (hf' r hr), if_neg h1, if_neg h2, if_neg h3]
  · have hf' : ∀ r < c.P, ¬ (flag = 1 ∨ (f r).same = true) := fun r hr => by rw [R.same r hr]; exact hf
    rw [not_or, Bool.not_eq_true] at hf
    have hs := hf.2
    by_cases h3 : which = 3
    · exact main _ (R.preslow_any e hs hbi hb) fun r hr => by
        unfold Fft2.onlyOneRemap; rw [if_neg (hf' r hr), if_pos h3]
    by_cases h2 : which = 2
    · exact main _ (R.slowfast_any e hs hbi hb) fun r hr => by
        unfold Fft2.onlyOneRemap; rw [if_neg (hf' r hr), if_neg h3, if_pos h2]
    by_cases h1 : which = 1
    · exact main _ (R.postfast_any e hs hbi hb) fun r hr => by
        unfold Fft2.onlyOneRemap; rw [if_neg (hf' r hr), if_neg h3, if_neg h2, if_pos h1]
    exact main _ ⟨m, Step.nil m⟩ fun r hr => by
        unfold Fft2.onlyOneRemap; rw [if_neg (hf' r hr), if_neg h3, if_neg h2, if_neg h1]

/-- `only_remaps` stays in bounds. -/
theorem remaps_any (e : Bool) (flag : Int) {ai ao : Nat} {m : Nat → LMem ℝ}
    (hbi : Bufs2 c.P f ai m) (hb : Bufs2 c.P f ao m) :
    ∃ m', Step e c.P (fsz2 f) ao (fun r => (f r).onlyRemaps flag ai ao) m m' := by
  by_cases hf : flag = 1 ∨ inoutSame2 c.P c.a = true
  · obtain ⟨m1, s1⟩ := R.pre_any e hbi hb
    have b1 := hb.congr s1.dom
    obtain ⟨m2, s2⟩ := R.fastslow_any e b1 b1
    have b2 := b1.congr s2.dom
    obtain ⟨m4, s4⟩ := R.postslow_any e b2 b2
    refine ⟨m4, ((s1.append s2).append s4).congr ?_⟩
    intro r hr
    unfold Fft2.onlyRemaps
    rw [if_pos (by rw [R.same r hr]; exact hf)]
  · have hf' := hf
    rw [not_or, Bool.not_eq_true] at hf
    have hs := hf.2
    obtain ⟨m1, s1⟩ := R.preslow_any e hs hbi hb
    have b1 := hb.congr s1.dom
    obtain ⟨m2, s2⟩ := R.slowfast_any e hs b1 b1
    have b2 := b1.congr s2.dom
    obtain ⟨m4, s4⟩ := R.postfast_any e hs b2 b2
    refine ⟨m4, ((s1.append s2).append s4).congr ?_⟩
    intro r hr
    unfold Fft2.onlyRemaps
    rw [if_neg (by rw [R.same r hr]; exact hf')]

end Ready2

/-- **C25 in 2d: what the sizes cover.**  The buffer sizes returned by `FFT2d::setup` are at least those that
any of the remaps needs. -/
theorem C25_sizes_2d {w : Int} {P : Nat} {a : Args2} {st : Settings} {f : Nat → Fft2 ℝ} (S : SetUp2 w P a st f)
    {r : Nat} (hr : r < P) : ∀ x ∈ (f r).remaps,
      x.obj.sendsize ≤ (f r).sendsize ∧ x.obj.recvsize ≤ (f r).recvsize := by
  obtain ⟨c, rfl, rfl, rfl, rfl, _, R⟩ := S.ready
  exact R.all_fit hr

/-- **C25 in 2d: behaviour.**  With buffers of exactly the sizes returned by `setup`, `compute`,
`only_remaps` and `only_one_remap` complete without an access outside of any array or buffer, whatever the
arrays contain, with any arrays, in every schedule, in both directions. -/
theorem C25_buffers_2d {w : Int} {P : Nat} {a : Args2} {st : Settings} {f : Nat → Fft2 ℝ}
    (S : SetUp2 w P a st f) (e : Bool) (J : Nat → Nat → Junk) (scaled remaponly : Bool) (flag which : Int)
    {ai ao : Nat} {m : Nat → LMem ℝ} (hbi : Bufs2 P f ai m) (hb : Bufs2 P f ao m) :
    (∃ m', Terminates e P (fun r => (f r).compute (J r) scaled remaponly flag ai ao) m m') ∧
    (∃ m', Terminates e P (fun r => (f r).onlyRemaps flag ai ao) m m') ∧
    (∃ m', Terminates e P (fun r => (f r).onlyOneRemap flag which ai ao) m m') := by
  obtain ⟨c, rfl, rfl, rfl, rfl, _, R⟩ := S.ready
  obtain ⟨m1, s1⟩ := R.any flag e J scaled remaponly ai ao hbi hb
  obtain ⟨m2, s2⟩ := R.remaps_any e flag hbi hb
  obtain ⟨m3, s3⟩ := R.one_any e flag which hbi hb
  exact ⟨⟨m1, s1.ok.terminates⟩, ⟨m2, s2.ok.terminates⟩, m3, s3.ok.terminates⟩

example (w : Int) (st : Settings) (hst : st.Valid2 w) (X : Grid2) : ∃ f m, SetUp2 w 2 (plane2 0) st f ∧
    Bufs2 2 f 0 m ∧ Bufs2 2 f 1 m := by
  obtain ⟨f, S⟩ := setUp2_exists (plane2_valid 0 (by decide)) hst
  obtain ⟨m, h⟩ := S.mem_in X
  exact ⟨f, m, S, (h 0).2, (h 1).2⟩

/-! ## C26 -/

/-- Some rank does not own whole rows of the input grid. -/
def SplitRows2 (P : Nat) (a : Args2) : Prop := ∃ r < P, ¬ ((a.ins r).ilo = 0 ∧ (a.ins r).ihi = a.nfast - 1)

/-- The output is not stored with the second dimension fastest, or some rank does not own whole columns. -/
def SplitCols2 (P : Nat) (a : Args2) : Prop :=
  a.permute ≠ 1 ∨ ∃ r < P, ¬ ((a.outs r).jlo = 0 ∧ (a.outs r).jhi = a.nslow - 1)

/-- Input and output layout are the same. -/
def SameLayout2 (P : Nat) (a : Args2) : Prop := a.permute = 0 ∧ ∀ r < P, a.ins r = a.outs r

theorem preflag2_iff {P : Nat} {a : Args2} : preflag2 P a = true ↔ SplitRows2 P a := by
  unfold preflag2 SplitRows2
  rw [allMax_true]
  simp only [Bool.not_eq_true', Bool.and_eq_false_iff, decide_eq_false_iff_not, not_and_or]

theorem postflag2_of_split {P : Nat} {a : Args2} (hP : 0 < P) (h : SplitCols2 P a) :
    postflag2 P a = true := by
  unfold postflag2
  rw [allMax_true]
  by_cases hp : a.permute = 1
  · rcases h with h | ⟨r, hr, h⟩
    · exact absurd hp h
    · refine ⟨r, hr, ?_⟩
      have hs : slowflag2 P a = true := by
        unfold slowflag2
        rw [allMax_true]
        exact ⟨r, hr, by simpa [hp, not_and_or, or_iff_not_imp_left] using h⟩
      have : ¬ ((a.outs r).jlo = (slowBox2 P a r).jlo ∧ (a.outs r).jhi = (slowBox2 P a r).jhi) := by
        simpa [slowBox2, hs] using h
      simp only [Bool.not_eq_true', Bool.and_eq_false_iff, decide_eq_false_iff_not]
      by_cases h1 : (a.outs r).jlo = (slowBox2 P a r).jlo
      · exact Or.inr fun h2 => this ⟨h1, h2⟩
      · exact Or.inl (Or.inr h1)
  · exact ⟨0, hP, by simp [hp]⟩

theorem inoutSame2_of {P : Nat} {a : Args2} (hp : a.permute = 0) (hl : ∀ r < P, a.ins r = a.outs r) :
    inoutSame2 P a = true := by
  unfold inoutSame2
  rw [Bool.not_eq_true', allMax_false]
  intro r hr
  simp [hl r hr, hp]

theorem HoldsScaled2.sameOn {P : Nat} {p : Int} (hp : p = 0 ∨ p = 1) {bs : Nat → Box2} {n : Nat} {X : Grid2}
    {s : ℝ} {num : Nat → Int} {m m' : Nat → LMem ℝ} (h : HoldsScaled2 P p bs n X s num m)
    (h' : HoldsScaled2 P p bs n X s num m') : SameOn2 P bs n m m' :=
  fun r hr _ h0 h1 => (h r hr).eq hp (h' r hr) h0 h1

/-- **C26 in 2d, forward, partial.**  As `C26_forward_partial`.  Missing: inputs of which every rank owns
whole rows, see `C26_forward_false_2d`. -/
theorem C26_forward_2d_partial {w : Int} {P : Nat} {a : Args2} {st : Settings} {f : Nat → Fft2 ℝ}
    (S : SetUp2 w P a st f)
    (e : Bool) (J J' : Nat → Nat → Junk) (scaled remaponly : Bool) {ai ao : Nat} (hsplit : SplitRows2 P a)
    {X : Grid2} {m m0 : Nat → LMem ℝ} (hX : Holds2 P 0 a.ins ai X m) (hb : Bufs2 P f ao m)
    (hX0 : Holds2 P 0 a.ins ao X m0) (hb0 : Bufs2 P f ao m0) :
    ∃ m' m0', Terminates e P (fun r => (f r).compute (J r) scaled remaponly 1 ai ao) m m' ∧
      Terminates e P (fun r => (f r).compute (J' r) scaled remaponly 1 ao ao) m0 m0' ∧
      SameOn2 P a.outs ao m' m0' ∧ Kept2 P f ao m m' := by
  obtain ⟨c, rfl, rfl, rfl, rfl, _, R⟩ := S.ready
  obtain ⟨m', s, h⟩ := R.compute_fwd e J scaled remaponly (flag := 1) (Or.inl rfl) (ai := ai) (ao := ao)
    (Or.inr (preflag2_iff.mpr hsplit)) hX hb
  obtain ⟨m0', s0, h0⟩ := R.compute_fwd e J' scaled remaponly (flag := 1) (Or.inl rfl) (ai := ao) (ao := ao)
    (Or.inl rfl) hX0 hb0
  rw [if_neg (by simp)] at h h0
  exact ⟨m', m0', s.ok.terminates, s0.ok.terminates, h.sameOn R.args.permute h0, s.kept2⟩

/-- Backward `compute` with separate arrays, in the two cases in which it works. -/
theorem Ready2.back_apart {c : Create2} {f : Nat → Fft2 ℝ} (R : Ready2 c f) (e : Bool) (J : Nat → Nat → Junk)
    (scaled remaponly : Bool) {ai ao : Nat}
    (hc : (SameLayout2 c.P c.a ∧ SplitRows2 c.P c.a) ∨ (¬ SameLayout2 c.P c.a ∧ ¬ SplitRows2 c.P c.a ∧ SplitCols2 c.P c.a))
    {X : Grid2} {m : Nat → LMem ℝ} (hX : Holds2 c.P c.a.permute c.a.outs ai X m) (hb : Bufs2 c.P f ao m) :
    ∃ m', Step e c.P (fsz2 f) ao (fun r => (f r).compute (J r) scaled remaponly (-1) ai ao) m m' ∧
      (if scaled ∧ ¬ remaponly then
        HoldsScaled2 c.P 0 c.a.ins ao (Ready2.effect c remaponly (-1) X) (1 / Ready2.N c)
          (fun r => boxSize2 (c.a.outs r)) m'
      else Holds2 c.P 0 c.a.ins ao (Ready2.effect c remaponly (-1) X) m') := by
  rcases hc with ⟨⟨hp, hl⟩, hsplit⟩ | ⟨hs, hrows, hcols⟩
  · have hX' : Holds2 c.P 0 c.a.ins ai X m := by
      intro r hr
      rw [hl r hr, ← hp]
      exact hX r hr
    obtain ⟨m', s, h⟩ := R.compute_fwd e J scaled remaponly (flag := -1) (Or.inr (inoutSame2_of hp hl))
      (ai := ai) (ao := ao) (Or.inr (preflag2_iff.mpr hsplit)) hX' hb
    refine ⟨m', s, ?_⟩
    simp only [true_and] at h
    split_ifs at h ⊢
    · intro r hr
      have := h r hr
      rw [hp, ← hl r hr] at this
      exact this
    · intro r hr
      have := h r hr
      rw [hp, ← hl r hr] at this
      exact this
  · have hs' : inoutSame2 c.P c.a = false := by
      rw [← Bool.not_eq_true]
      intro h
      exact hs (R.same_layout h)
    have hpre : preflag2 c.P c.a = false := by
      rw [← Bool.not_eq_true]
      exact fun h => hrows (preflag2_iff.mp h)
    have hpost := postflag2_of_split R.args.procs hcols
    obtain ⟨m', s, g⟩ := R.compute_inv e hs' J scaled remaponly (flag := -1)
      (by decide) (ai := ai) (ao := ao) (Or.inr ⟨hpost, hpre⟩) hX hb
    exact ⟨m', s, by simpa only [true_and] using g⟩

/-- **C26 in 2d, backward, partial.**  As `C26_backward_partial`.  Missing: all other cases, see
`C26_backward_false_2d`. -/
theorem C26_backward_2d_partial {w : Int} {P : Nat} {a : Args2} {st : Settings} {f : Nat → Fft2 ℝ}
    (S : SetUp2 w P a st f)
    (e : Bool) (J J' : Nat → Nat → Junk) (scaled remaponly : Bool) {ai ao : Nat}
    (hc : (SameLayout2 P a ∧ SplitRows2 P a) ∨ (¬ SameLayout2 P a ∧ ¬ SplitRows2 P a ∧ SplitCols2 P a))
    {X : Grid2} {m m0 : Nat → LMem ℝ} (hX : Holds2 P a.permute a.outs ai X m) (hb : Bufs2 P f ao m)
    (hX0 : Holds2 P a.permute a.outs ao X m0) (hb0 : Bufs2 P f ao m0) :
    ∃ m' m0', Terminates e P (fun r => (f r).compute (J r) scaled remaponly (-1) ai ao) m m' ∧
      Terminates e P (fun r => (f r).compute (J' r) scaled remaponly (-1) ao ao) m0 m0' ∧
      SameOn2 P a.ins ao m' m0' ∧ Kept2 P f ao m m' := by
  obtain ⟨c, rfl, rfl, rfl, rfl, _, R⟩ := S.ready
  obtain ⟨m0', s0, h0⟩ := R.compute_back e J' scaled remaponly hX0 hb0
  obtain ⟨m', s, h⟩ := R.back_apart e J scaled remaponly hc hX hb
  refine ⟨m', m0', s.ok.terminates, s0.ok.terminates, ?_, s.kept2⟩
  split_ifs at h h0 with hh
  · exact h.sameOn (Or.inl rfl) h0
  · exact h.sameOn (Or.inl rfl) h0

/-- Memory whose array `n` consists of the complex numbers `v n`. -/
def constMem2 (f : Nat → Fft2 ℝ) (v : Nat → ℝ) (r : Nat) : LMem ℝ where
  ub n x := if 0 ≤ x ∧ x < 2 * (f r).fftsize then some (if x % 2 = 0 then v n else 0) else none
  sb x := if 0 ≤ x ∧ x < (f r).sendsize then some 0 else none
  rb x := if 0 ≤ x ∧ x < (f r).recvsize then some 0 else none

theorem constMem2_bufs (P : Nat) (f : Nat → Fft2 ℝ) (v : Nat → ℝ) (n : Nat) : Bufs2 P f n (constMem2 f v) where
  data r hr := by
    intro x h0 h1
    simp only [constMem2]
    rw [if_pos (by omega)]; rfl
  sb r hr := by
    intro x h0 h1
    simp only [constMem2]
    rw [if_pos (by omega)]; rfl
  rb r hr := by
    intro x h0 h1
    simp only [constMem2]
    rw [if_pos (by omega)]; rfl

theorem constMem2_holds {P : Nat} {f : Nat → Fft2 ℝ} (v : Nat → ℝ) (n : Nat) {p : Int} (hp : p = 0 ∨ p = 1)
    {bs : Nat → Box2} (hs : ∀ r < P, (bs r).count ≤ (f r).fftsize) :
    Holds2 P p bs n (fun _ _ => (v n : ℂ)) (constMem2 f v) := by
  rw [holds2_lift hp]
  intro r hr i j k hh
  replace hh : (bs r).lift.Has i j k := hh
  have hc := Box3.count_of_has hh
  have := hs r hr
  rw [← Box2.lift_count] at this
  have r0 := addr3_range (permute := p) (nqty := 2) (q := 0) hh (by decide)
  have r1 := addr3_range (permute := p) (nqty := 2) (q := 1) hh (by decide)
  have e0 := addr3_two p (bs r).lift i j k 0
  have e1 := addr3_two p (bs r).lift i j k 1
  simp only [constMem2, liftGrid]
  rw [if_pos (by omega), if_pos (by omega), if_pos (by omega), if_neg (by omega)]
  simp

/-- One rank owns everything. -/
def oneArgs2 : Args2 where
  nfast := 2
  nslow := 2
  ins _ := ⟨0, 1, 0, 1⟩
  outs _ := ⟨0, 1, 0, 1⟩
  permute := 0

theorem oneArgs2_tiles : Tiles2 1 (fun _ => ⟨0, 1, 0, 1⟩) 2 2 where
  inside := by
    intro r hr i j h
    simp only [Box2.Has] at h ⊢
    omega
  owner := by
    intro i j hi hj
    exact ⟨0, by omega, by simp only [Box2.Has]; omega⟩
  disjoint := by
    intro r hr s hs i j h1 h2
    omega

theorem oneArgs2_valid : oneArgs2.Valid 1 where
  procs := by decide
  fast := by simp [oneArgs2]
  slow := by simp [oneArgs2]
  factors := by
    intro n hn
    simp only [oneArgs2] at hn
    rcases hn with rfl | rfl <;> exact smooth_two
  tilesIn := oneArgs2_tiles
  tilesOut := oneArgs2_tiles
  properIn := by simp [oneArgs2, Box2.Proper, Box2.Within, Box2.isize, Box2.jsize]
  properOut := by simp [oneArgs2, Box2.Proper, Box2.isize, Box2.jsize]
  permute := by simp [oneArgs2]

/-- **C26 is false in general in 2d (forward).**  One rank, 2 x 2 grid, `in` holds ones, `out` zeros.
`compute(in,out,1)` leaves 2 at the origin of `out`, `compute(out,out,1)` with ones in `out` leaves 4:
`memcpy` copies only half of the data (fft2d.cpp:536). -/
theorem C26_forward_false_2d : ∃ (P : Nat) (a : Args2) (st : Settings) (f : Nat → Fft2 ℝ)
    (m m0 m' m0' : Nat → LMem ℝ), SetUp2 1 P a st f ∧
    Holds2 P 0 a.ins 0 (fun _ _ => 1) m ∧ Bufs2 P f 0 m ∧ Bufs2 P f 1 m ∧
    Holds2 P 0 a.ins 1 (fun _ _ => 1) m0 ∧ Bufs2 P f 1 m0 ∧
    Terminates false P (fun r => (f r).compute (fun _ _ => (0, 0)) false false 1 0 1) m m' ∧
    Terminates false P (fun r => (f r).compute (fun _ _ => (0, 0)) false false 1 1 1) m0 m0' ∧
    (m' 0).ub 1 0 = some 2 ∧ (m0' 0).ub 1 0 = some 4 := by
  obtain ⟨f, S⟩ := setUp2_exists (w := 1) oneArgs2_valid (st := ⟨2, 0, 2⟩) (by simp [Settings.Valid2, FlagOk2])
  obtain ⟨c, hw, hP, ha, hst, hg, R⟩ := S.ready
  have hpre : preflag2 c.P c.a = false := by rw [hP, ha]; decide +kernel
  let m := constMem2 f fun n => if n = 0 then 1 else 0
  let m0 := constMem2 f fun _ => 1
  have hfull : ∀ r < c.P, c.fast r = ⟨0, 1, 0, 1⟩ := by
    intro r _
    have : c.fast r = c.a.ins r := by simp [Create2.fast, fastBox2, hpre]
    rw [this, ha, oneArgs2]
  have hsz : ∀ r < c.P, 4 ≤ (f r).fftsize ∧ (f r).insize = 4 := by
    intro r hr
    have h1 := R.size_ins hr
    have h2 := R.insize r hr
    rw [ha] at h1 h2
    refine ⟨?_, h2.trans (by simp [boxSize2, oneArgs2])⟩
    simpa [oneArgs2, Box2.count, Box2.isize, Box2.jsize] using h1
  have hX : Holds2 1 0 oneArgs2.ins 0 (fun _ _ => 1) m := by
    have h := constMem2_holds (P := c.P) (f := f) (fun n => if n = 0 then 1 else 0) 0 (p := 0) (Or.inl rfl)
      (fun r hr => R.size_ins hr)
    rw [hP, ha] at h
    simpa using h
  have hX0 : Holds2 1 0 oneArgs2.ins 1 (fun _ _ => 1) m0 := by
    have h := constMem2_holds (P := c.P) (f := f) (fun n => 1) 1 (p := 0) (Or.inl rfl)
      (fun r hr => R.size_ins hr)
    rw [hP, ha] at h
    simpa using h
  obtain ⟨m1, s1, h1⟩ := Ready2.copy_any (c := c) (f := f) (m := m) false (fun r => (f r).insize) (ai := 0)
    (ao := 1) (fun r hr => (R.insize_range hr).1) (fun r hr => (R.insize_range hr).2)
    (constMem2_bufs _ _ _ _).data (constMem2_bufs _ _ _ _).data
  have hY : Holds2 c.P 0 c.fast 1 (fun _ j => if j = 0 then 1 else 0) m1 := by
    intro r hr i j hh
    rw [hfull r hr] at hh ⊢
    have h8 := hsz r hr
    simp only [h1 r hr, h8.2, m, constMem2]
    simp only [Box2.Has] at hh
    simp only [addr2, Box2.isize, Box2.jsize]
    have hi : i = 0 ∨ i = 1 := by omega
    have hj : j = 0 ∨ j = 1 := by omega
    rcases hi with rfl | rfl <;> rcases hj with rfl | rfl <;> norm_num <;> omega
  obtain ⟨m2, s2, h2⟩ := R.fwd_rest false (fun _ _ _ => (0, 0)) 1 hY ((constMem2_bufs _ _ _ _).congr s1.dom)
  obtain ⟨m0', t0, g0, _⟩ := C41_forward_dft S false (fun _ _ _ => (0, 0)) false hX0 (constMem2_bufs _ _ _ _)
  refine ⟨1, oneArgs2, _, f, m, m0, m2, m0', S, hX, constMem2_bufs _ _ _ _, constMem2_bufs _ _ _ _, hX0,
    constMem2_bufs _ _ _ _, ?_, t0, ?_, ?_⟩
  · have := (s1.append s2).congr (p' := fun r => (f r).compute (fun _ _ => (0, 0)) false false 1 0 1) (by
      intro r hr
      unfold Fft2.compute
      have : preflag2 (c.on r).P (c.on r).a = false := hpre
      rw [if_pos (Or.inl rfl), R.prefast r hr]
      simp [Create2.prefastO, this, remapOrCopy2])
    rw [hP] at this
    exact this.ok.terminates
  · have h := (h2 0 (by omega) 0 0 (by simp [ha, oneArgs2, Box2.Has])).1
    rw [ha] at h
    simp only [Ready2.spec, ha, dft2_eq, kern_zero] at h
    norm_num [oneArgs2, addr2, Finset.sum_range_succ, show Int.toNat 2 = 2 from rfl] at h
    exact h
  · have h := (g0 0 (by omega) 0 0 (by simp [oneArgs2, Box2.Has])).1
    simp only [Args2.dft, dft2_eq, kern_zero] at h
    norm_num [oneArgs2, addr2, Finset.sum_range_succ, show Int.toNat 2 = 2 from rfl] at h
    exact h

/-- Input split in the first dimension, output in the second. -/
def crossArgs2 : Args2 where
  nfast := 2
  nslow := 2
  ins r := ⟨r, r, 0, 1⟩
  outs r := ⟨0, 1, r, r⟩
  permute := 0

theorem crossArgs2_valid : crossArgs2.Valid 2 where
  procs := by decide
  fast := by simp [crossArgs2]
  slow := by simp [crossArgs2]
  factors := by
    intro n hn
    simp only [crossArgs2] at hn
    rcases hn with rfl | rfl <;> exact smooth_two
  tilesIn :=
    { inside := by
        intro r hr i j h
        simp only [crossArgs2, Box2.Has] at h ⊢
        omega
      owner := by
        intro i j hi hj
        simp only [crossArgs2] at hi hj
        exact ⟨i.toNat, by omega, by simp only [crossArgs2, Box2.Has]; omega⟩
      disjoint := by
        intro r hr s hs i j h1 h2
        simp only [crossArgs2, Box2.Has] at h1 h2
        omega }
  tilesOut :=
    { inside := by
        intro r hr i j h
        simp only [crossArgs2, Box2.Has] at h ⊢
        omega
      owner := by
        intro i j hi hj
        simp only [crossArgs2] at hi hj
        exact ⟨j.toNat, by omega, by simp only [crossArgs2, Box2.Has]; omega⟩
      disjoint := by
        intro r hr s hs i j h1 h2
        simp only [crossArgs2, Box2.Has] at h1 h2
        omega }
  properIn := by
    intro r hr
    simp only [crossArgs2, Box2.Proper, Box2.Within, Box2.isize, Box2.jsize]
    omega
  properOut := by
    intro r hr
    simp only [crossArgs2, Box2.Proper, Box2.isize, Box2.jsize]
    omega
  permute := by simp [crossArgs2]

/-- **C26 is false in general in 2d (backward).**  Two ranks, 2 x 2 grid, ones in both arrays.
`compute(in,out,-1)` leaves ones in `out`: the last remap reads `in` again (fft2d.cpp:561), so nothing of
the transform is left.  `compute(out,out,-1)` gives 4 at the origin. -/
theorem C26_backward_false_2d : ∃ (P : Nat) (a : Args2) (st : Settings) (f : Nat → Fft2 ℝ)
    (m m' m0' : Nat → LMem ℝ), SetUp2 1 P a st f ∧
    (∀ n, Holds2 P a.permute a.outs n (fun _ _ => 1) m ∧ Bufs2 P f n m) ∧
    Terminates false P (fun r => (f r).compute (fun _ _ => (0, 0)) false false (-1) 0 1) m m' ∧
    Terminates false P (fun r => (f r).compute (fun _ _ => (0, 0)) false false (-1) 1 1) m m0' ∧
    Holds2 P 0 a.ins 1 (fun _ _ => 1) m' ∧ (m0' 0).ub 1 0 = some 4 := by
  obtain ⟨f, S⟩ := setUp2_exists (w := 1) crossArgs2_valid (st := ⟨2, 0, 2⟩) (by simp [Settings.Valid2, FlagOk2])
  obtain ⟨c, hw, hP, ha, hst, hg, R⟩ := S.ready
  have hpre : preflag2 c.P c.a = true := by rw [hP, ha]; decide +kernel
  have hs : inoutSame2 c.P c.a = false := by rw [hP, ha]; decide +kernel
  let m := constMem2 f fun _ => 1
  have hb : ∀ n, Bufs2 c.P f n m := fun n => constMem2_bufs _ _ _ _
  have hX : ∀ n, Holds2 c.P c.a.permute c.a.outs n (fun _ _ => 1) m := by
    intro n
    have h := constMem2_holds (P := c.P) (f := f) (fun _ => 1) n R.args.permute (fun r hr => R.size_outs hr)
    simpa using h
  have hF : Holds2 c.P 0 c.fast 0 (fun _ _ => 1) m := by
    have h := constMem2_holds (P := c.P) (f := f) (fun _ => 1) 0 (p := 0) (Or.inl rfl)
      (fun r hr => R.size_fast hr)
    simpa using h
  obtain ⟨m1, s1⟩ := R.preslow_any false hs (hb 0) (hb 1)
  have b1 := (hb 1).congr s1.dom
  obtain ⟨X1, h1⟩ := Ready2.some_holds R.slow_tiles (Or.inr rfl) (fun r hr => R.size_slow hr) b1.data
  obtain ⟨m2, s2, _⟩ := R.inv_rest false hs (fun _ _ _ => (0, 0)) (-1) h1 b1
  have s12 := s1.append s2
  have hF2 : Holds2 c.P 0 c.fast 0 (fun _ _ => 1) m2 := by
    intro r hr
    rw [s12.other r hr 0 (by decide)]
    exact hF r hr
  obtain ⟨m3, s3, h3⟩ := R.postfast_step false hs (Or.inr hpre) hF2 ((hb 1).congr s12.dom)
  obtain ⟨m0', s0, h0⟩ := R.compute_back false (fun _ _ _ => (0, 0)) false false (hX 1) (hb 1)
  have t : Terminates false c.P (fun r => (f r).compute (fun _ _ => (0, 0)) false false (-1) 0 1) m m3 := by
    refine ((s12.append s3).congr ?_).ok.terminates
    intro r hr
    unfold Fft2.compute
    rw [if_neg (by rw [R.same r hr, hs]; decide)]
    simp
  have t0 := s0.ok.terminates
  rw [hP] at t t0 h3
  rw [ha] at h3
  refine ⟨2, crossArgs2, _, f, m, m3, m0', S, ?_, t, t0, h3, ?_⟩
  · intro n
    have h1 := hX n
    have h2 := hb n
    rw [hP] at h1 h2
    rw [ha] at h1
    exact ⟨h1, h2⟩
  · rw [if_neg (by simp), ha] at h0
    have h := (h0 0 (by rw [hP]; decide) 0 0 (by simp [crossArgs2, Box2.Has])).1
    simp only [Ready2.effect, Bool.false_eq_true, if_false, Ready2.spec, dft2_eq, kern_zero, ha] at h
    norm_num [crossArgs2, addr2, Finset.sum_range_succ, show Int.toNat 2 = 2 from rfl] at h
    exact h

/-- Example for `C26_forward_2d_partial`: every array holds `X`. -/
example (w : Int) (st : Settings) (hst : st.Valid2 w) (X : Grid2) : SplitRows2 2 crossArgs2 ∧
    ∃ (f : Nat → Fft2 ℝ) (m : Nat → LMem ℝ), SetUp2 w 2 crossArgs2 st f ∧
      ∀ n, Holds2 2 0 crossArgs2.ins n X m ∧ Bufs2 2 f n m := by
  obtain ⟨f, S⟩ := setUp2_exists crossArgs2_valid hst
  obtain ⟨m, h⟩ := S.mem_in X
  exact ⟨⟨0, by decide, by simp [crossArgs2]⟩, f, m, S, h⟩

/-- Example for `C26_backward_2d_partial`. -/
example (w : Int) (st : Settings) (hst : st.Valid2 w) (X : Grid2) :
    (¬ SameLayout2 2 moved2 ∧ ¬ SplitRows2 2 moved2 ∧ SplitCols2 2 moved2) ∧
    ∃ (f : Nat → Fft2 ℝ) (m : Nat → LMem ℝ), SetUp2 w 2 moved2 st f ∧
      ∀ n, Holds2 2 moved2.permute moved2.outs n X m ∧ Bufs2 2 f n m := by
  obtain ⟨f, S⟩ := setUp2_exists moved2_valid hst
  obtain ⟨m, h⟩ := S.mem_out X
  refine ⟨⟨?_, ?_, ?_⟩, f, m, S, h⟩
  · rintro ⟨_, h⟩
    have := h 0 (by decide)
    simp [moved2] at this
  · rintro ⟨r, _, h⟩
    apply h
    simp only [moved2]
    split_ifs <;> simp
  · exact Or.inl (by simp [moved2])

/-! ## C29 -/

/-- `setup` accepts whatever passes its checks. -/
theorem fft2Setup_of_check {w : Int} {P me : Nat} {a : Args2} {st : Settings} (hme : me < P)
    (h : setupCheck2 P a = none) (hst : st.Valid2 w) (hp : a.permute = 0 ∨ a.permute = 1)
    (h1 : a.nfast < 2 ^ 31) (h3 : a.nslow < 2 ^ 31) (hr : FpOK P a.fp) :
    ∃ f : Fft2 ℝ, fft2Setup w P me a st = some (.ok f) := by
  obtain ⟨⟨d1, d3⟩, _⟩ := setupCheck2_none.mp h
  obtain ⟨g, hg, _⟩ := setupBrick2_ok (P := P) hr (by omega) ⟨d1, h1⟩ ⟨d3, h3⟩ st.exchange
  obtain ⟨_, _, _, hm⟩ := setupMain2_eq (α := ℝ) (c := ⟨w, P, me, a, st, g⟩) hst hme ⟨d1, h1⟩ ⟨d3, h3⟩ hp
  unfold fft2Setup
  rw [h]
  simp only [hg, Option.bind_eq_bind, Option.bind_some, hm]
  exact ⟨_, rfl⟩

theorem check_of_fft2Setup {w : Int} {P me : Nat} {a : Args2} {st : Settings} {f : Fft2 ℝ}
    (h : fft2Setup w P me a st = some (.ok f)) : setupCheck2 P a = none := by
  unfold fft2Setup at h
  cases hc : setupCheck2 P a with
  | none => rfl
  | some e => rw [hc] at h; simp at h

/-- **C29 in 2d, partial.**  If `setup` is accepted on a rank, then on every rank the input box has its
indices within the grid, and the numbers of points add up to the grid.  So the input boxes either are a
tiling, or have both an overlap and a gap.  Missing: rejection of input boxes that have both
(`C29_false_2d`), and any check of the output boxes (`C29_outputs_false_2d`). -/
theorem C29_checks_2d_partial {w : Int} {P me : Nat} {a : Args2} {st : Settings} {f : Fft2 ℝ}
    (h : fft2Setup w P me a st = some (.ok f)) :
    (2 ≤ a.nfast ∧ 2 ≤ a.nslow) ∧
    (∀ r < P, (a.ins r).Proper ∧ (a.ins r).Within a.nfast a.nslow) ∧
    (Tiles2 P a.ins a.nfast a.nslow ∨
      ((∃ r < P, ∃ s < P, r ≠ s ∧ ∃ i j, (a.ins r).Has i j ∧ (a.ins s).Has i j) ∧
        ∃ i j : Int, (0 ≤ i ∧ i < a.nfast) ∧ (0 ≤ j ∧ j < a.nslow) ∧
          ∀ r < P, ¬ (a.ins r).Has i j)) := by
  obtain ⟨hd, _, hw, hs⟩ := setupCheck2_none.mp (check_of_fft2Setup h)
  refine ⟨hd, hw, ?_⟩
  have hin : ∀ r < P, ∀ i j, (a.ins r).Has i j →
      (0 ≤ i ∧ i < a.nfast) ∧ (0 ≤ j ∧ j < a.nslow) := by
    intro r hr i j hh
    have := (hw r hr).2
    unfold Box2.Within at this
    unfold Box2.Has at hh
    omega
  by_cases hdis : Disjoint2 P a.ins
  · exact Or.inl (tiles_of_count2 (by omega) (by omega) hdis hin hs)
  · right
    constructor
    · by_contra hno
      apply hdis
      intro r hr s hs' i j h1 h2
      by_contra hne
      exact hno ⟨r, hr, s, hs', hne, i, j, h1, h2⟩
    · by_contra hno
      apply hdis
      have hd3 := disjoint_of_cover (P := P) (bs := fun r => (a.ins r).lift) (n1 := a.nfast) (n2 := a.nslow)
        (n3 := 1) (by omega) (by omega) (by decide) (by
          intro i j k hi hj hk
          by_contra hne
          push Not at hne
          refine hno ⟨i, j, hi, hj, fun r hr hh => hne r hr ?_⟩
          rw [Box2.lift_has]
          exact ⟨hh, by omega⟩) (by simpa [Box2.lift_count] using hs)
      intro r hr s hs' i j h1 h2
      exact hd3 r hr s hs' i j 0 (Box2.lift_has.mpr ⟨h1, rfl⟩) (Box2.lift_has.mpr ⟨h2, rfl⟩)

/-- **C29 in 2d: no false alarms.**  With valid arguments `setup` is accepted on every rank. -/
theorem C29_valid_accepted_2d {w : Int} {P : Nat} {a : Args2} {st : Settings} (hv : a.Valid P)
    (hst : st.Valid2 w) : ∀ r < P, ∃ f : Fft2 ℝ, fft2Setup w P r a st = some (.ok f) := by
  obtain ⟨f, S⟩ := setUp2_exists hv hst
  exact fun r hr => ⟨f r, S.result r hr⟩

example : ∃ f : Fft2 ℝ, fft2Setup 1 2 1 (plane2 0) ⟨2, 0, 2⟩ = some (.ok f) :=
  C29_valid_accepted_2d (plane2_valid 0 (by decide)) (by simp [Settings.Valid2, FlagOk2]) 1 (by decide)

/-- Two ranks own the same half of the grid. -/
def twiceArgs2 : Args2 where
  nfast := 2
  nslow := 2
  ins _ := ⟨0, 1, 0, 0⟩
  outs r := ⟨0, 1, r, r⟩
  permute := 0

/-- **C29 is false in general in 2d.**  Two ranks own the same half of the grid and nobody owns the other
half: `setup` is accepted on both ranks. -/
theorem C29_false_2d : ∃ (P : Nat) (a : Args2) (st : Settings), P = 2 ∧ st.Valid2 1 ∧
    (∀ r < P, ∃ f : Fft2 ℝ, fft2Setup 1 P r a st = some (.ok f)) ∧ a.ins 0 = a.ins 1 ∧
    ∀ r < P, ¬ (a.ins r).Has 0 (a.nslow - 1) := by
  refine ⟨2, twiceArgs2, ⟨2, 0, 2⟩, rfl, by simp [Settings.Valid2, FlagOk2], ?_, rfl, ?_⟩
  · intro r hr
    refine fft2Setup_of_check hr (setupCheck2_none.mpr ⟨by simp [twiceArgs2], ?_, ?_, ?_⟩)
      (by simp [Settings.Valid2, FlagOk2]) (by simp [twiceArgs2]) (by simp [twiceArgs2]) (by simp [twiceArgs2])
      (fpOK_id (by norm_num))
    · exact ⟨smooth_two, smooth_two⟩
    · simp [twiceArgs2, Box2.Proper, Box2.Within, Box2.isize, Box2.jsize]
    · simp [twiceArgs2, Box2.count, Box2.isize, Box2.jsize]
  · simp [twiceArgs2, Box2.Has]

/-- One rank, output box outside of the grid. -/
def strayArgs2 : Args2 := { oneArgs2 with outs := fun _ => ⟨5, 6, -3, -1⟩ }

/-- **C29 in 2d: output boxes are not checked at all.** -/
theorem C29_outputs_false_2d : ∃ (a : Args2) (st : Settings) (f : Fft2 ℝ), st.Valid2 1 ∧
    fft2Setup 1 1 0 a st = some (.ok f) ∧ (∃ i j, (a.outs 0).Has i j) ∧ ∀ i j : Int, (a.outs 0).Has i j →
      ¬ ((0 ≤ i ∧ i < a.nfast) ∧ (0 ≤ j ∧ j < a.nslow)) := by
  obtain ⟨f, hf⟩ := fft2Setup_of_check (w := 1) (P := 1) (me := 0) (a := strayArgs2) (st := ⟨2, 0, 2⟩) (by decide)
    (by
      have := oneArgs2_valid.check
      rw [setupCheck2_none] at this ⊢
      exact this)
    (by simp [Settings.Valid2, FlagOk2]) (by simp [strayArgs2, oneArgs2]) (by simp [strayArgs2, oneArgs2])
    (by simp [strayArgs2, oneArgs2]) (fpOK_id (by norm_num))
  refine ⟨strayArgs2, _, f, by simp [Settings.Valid2, FlagOk2], hf, ⟨5, -3, by simp [strayArgs2, Box2.Has]⟩, ?_⟩
  intro i j hh
  simp only [strayArgs2, oneArgs2, Box2.Has] at hh ⊢
  omega

/-! ## C38 -/

/-- Which remap (its communicator) a rank runs, and whether as a collective operation. -/
def Remap2.kind {α : Type} (x : Remap2 α) : Nat × Bool := (x.inst, x.collective)

def RemapPair2.kinds {α : Type} (p : RemapPair2 α) : List (Nat × Bool) :=
  p.remap2d.kind :: match p.extra with
    | none => []
    | some x => [x.kind]

def kindsOf2 {α : Type} : Option (RemapPair2 α) → List (Nat × Bool)
  | none => []
  | some p => p.kinds

/-- The remaps that `compute` runs on a rank, in order. -/
def Fft2.sequence (f : Fft2 ℝ) (flag : Int) : List (Nat × Bool) :=
  if flag = 1 ∨ f.same then
    kindsOf2 f.prefast ++ kindsOf2 f.fastslow ++ kindsOf2 f.postslow
  else
    kindsOf2 f.preslow ++ kindsOf2 f.slowfast ++ kindsOf2 f.postfast

section kinds

variable (c : Create2) (r : Nat)

theorem kinds2_prefast : kindsOf2 (c.on r).prefastO (α := ℝ) = kindsOf2 c.prefastO (α := ℝ) := by
  change kindsOf2 (if preflag2 c.P c.a then _ else _) = kindsOf2 (if preflag2 c.P c.a then _ else _)
  split_ifs <;> rfl
theorem kinds2_postslow : kindsOf2 (c.on r).postslowO (α := ℝ) = kindsOf2 c.postslowO (α := ℝ) := by
  change kindsOf2 (if postflag2 c.P c.a then _ else _) = kindsOf2 (if postflag2 c.P c.a then _ else _)
  split_ifs <;> rfl
theorem kinds2_postfast : kindsOf2 (c.on r).postfastO (α := ℝ) = kindsOf2 c.postfastO (α := ℝ) := by
  change kindsOf2 (if preflag2 c.P c.a then _ else _) = kindsOf2 (if preflag2 c.P c.a then _ else _)
  split_ifs <;> rfl
theorem kind2_preslow : ((c.on r).preslowR (α := ℝ)).kind = (c.preslowR (α := ℝ)).kind := by
  unfold Create2.preslowR
  change Remap2.kind (if c.a.permute = 0 then _ else _) = _
  split_ifs <;> rfl
theorem kinds2_preslow : kindsOf2 (c.on r).preslowO (α := ℝ) = kindsOf2 c.preslowO (α := ℝ) := by
  change kindsOf2 (if postflag2 c.P c.a then _ else _) = kindsOf2 (if postflag2 c.P c.a then _ else _)
  split_ifs
  · exact congrArg (fun x => [x]) (kind2_preslow c r)
  · rfl
theorem kinds2_fastslow : kindsOf2 (some (c.on r).fastslowP) (α := ℝ) = kindsOf2 (some c.fastslowP) (α := ℝ) := by
  change RemapPair2.kinds (if c.st.exchange = 0 then _ else _) = RemapPair2.kinds (if c.st.exchange = 0 then _ else _)
  split_ifs <;> rfl
theorem kinds2_slowfast : kindsOf2 (some (c.on r).slowfastP) (α := ℝ) = kindsOf2 (some c.slowfastP) (α := ℝ) := by
  change RemapPair2.kinds (if c.st.exchange = 0 then _ else _) = RemapPair2.kinds (if c.st.exchange = 0 then _ else _)
  split_ifs <;> rfl

end kinds

/-- **C38 in 2d.**  For all boxes that pass the checks of `setup` (they need not even tile the grid, and the
output boxes may be anything), all ranks run the same sequence of remaps, each with the same choice between
collective and point-to-point communication; and the 1d FFTs have the same lengths on all ranks. -/
theorem C38_ranks_agree_2d {w : Int} {P : Nat} {a : Args2} {st : Settings} (hst : st.Valid2 w)
    (hp : a.permute = 0 ∨ a.permute = 1)
    (hn : a.nfast < 2 ^ 31 ∧ a.nslow < 2 ^ 31) {r s : Nat} (hr : r < P) (hs : s < P)
    {f g : Fft2 ℝ} (hf : fft2Setup w P r a st = some (.ok f)) (hg : fft2Setup w P s a st = some (.ok g))
    (flag : Int) :
    f.sequence flag = g.sequence flag ∧ f.same = g.same ∧
      f.fftFast.length = g.fftFast.length ∧ f.fftSlow.length = g.fftSlow.length := by
  unfold fft2Setup at hf hg
  cases hc : setupCheck2 P a with
  | some x => rw [hc] at hf; simp at hf
  | none =>
    rw [hc] at hf hg
    obtain ⟨hd, _⟩ := setupCheck2_none.mp hc
    cases hgr : setupBrick2 P a st.exchange with
    | none => rw [hgr] at hf; simp at hf
    | some gr =>
      simp only [hgr, Option.bind_eq_bind, Option.bind_some] at hf hg
      have h1 : (2 ≤ a.nfast ∧ a.nfast < 2 ^ 31) := by omega
      have h3 : (2 ≤ a.nslow ∧ a.nslow < 2 ^ 31) := by omega
      obtain ⟨x1, x3, e1, ef⟩ := setupMain2_eq (α := ℝ) (c := ⟨w, P, r, a, st, gr⟩) hst hr h1 h3 hp
      obtain ⟨y1, y3, e2, eg⟩ := setupMain2_eq (α := ℝ) (c := ⟨w, P, s, a, st, gr⟩) hst hs h1 h3 hp
      obtain ⟨x1', x3', e1', fx⟩ := setupFfts2_ok (c := ⟨w, P, r, a, st, gr⟩) h1 h3
      obtain ⟨y1', y3', e2', fy⟩ := setupFfts2_ok (c := ⟨w, P, s, a, st, gr⟩) h1 h3
      rw [e1] at e1'
      rw [e2] at e2'
      cases e1'
      cases e2'
      rw [ef] at hf
      rw [eg] at hg
      simp only [Option.bind_some, Option.some.injEq, Except.ok.injEq] at hf hg
      refine ⟨?_, ?_, ?_, ?_⟩
      · let c : Create2 := ⟨w, P, r, a, st, gr⟩
        have k1 := kinds2_prefast c s
        have k2 := kinds2_fastslow c s
        have k4 := kinds2_postslow c s
        have k5 := kinds2_preslow c s
        have k6 := kinds2_slowfast c s
        have k8 := kinds2_postfast c s
        simp only [c, Create2.on] at k1 k2 k4 k5 k6 k8
        rw [← hf, ← hg]
        unfold Fft2.sequence
        dsimp only
        rw [k1, k2, k4]
        cases inoutSame2 P a with
        | true => rw [if_pos (Or.inr rfl), if_pos (Or.inr rfl)]
        | false =>
          simp only [Bool.false_eq_true, if_false]
          rw [k5, k6, k8]
      · rw [← hf, ← hg]
      · rw [← hf, ← hg]; exact fx.1.1.trans fy.1.1.symm
      · rw [← hf, ← hg]; exact fx.2.1.trans fy.2.1.symm

/-- With bricks and different layouts: the remaps of the forward direction of the running example. -/
example : ∃ f g : Fft2 ℝ, fft2Setup 1 2 0 (plane2 1) ⟨0, 1, 2⟩ = some (.ok f) ∧
    fft2Setup 1 2 1 (plane2 1) ⟨0, 1, 2⟩ = some (.ok g) ∧
    f.sequence 1 = g.sequence 1 := by
  have hst : (⟨0, 1, 2⟩ : Settings).Valid2 1 := by simp [Settings.Valid2, FlagOk2]
  obtain ⟨f, S⟩ := setUp2_exists (plane2_valid 1 (by decide)) hst
  have h0 := S.result 0 (by decide)
  have h1 := S.result 1 (by decide)
  exact ⟨f 0, f 1, h0, h1, (C38_ranks_agree_2d hst (by decide) (by simp [plane2]) (by decide) (by decide)
    h0 h1 1).1⟩

end FftMpi
