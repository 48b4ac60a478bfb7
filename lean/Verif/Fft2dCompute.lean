import Verif.Fft2dStages
import Verif.Dft2

/-!
# The stages of 2d `compute`, one by one
-/

noncomputable section

namespace FftMpi

/-- Array `ao` has room for `fftsize` complex numbers, the buffers have the sizes returned by `setup`. -/
structure Bufs2 (P : Nat) (f : Nat → Fft2 ℝ) (ao : Nat) (m : Nat → LMem ℝ) : Prop where
  data : ∀ r < P, accessible ((m r).ub ao) 0 (2 * (f r).fftsize)
  sb : ∀ r < P, accessible (m r).sb 0 (f r).sendsize
  rb : ∀ r < P, accessible (m r).rb 0 (f r).recvsize

theorem Bufs2.congr {P : Nat} {f : Nat → Fft2 ℝ} {ao : Nat} {m m' : Nat → LMem ℝ} (h : Bufs2 P f ao m)
    (hd : SameDom P m m') : Bufs2 P f ao m' where
  data r hr := accessible_congr ((hd r hr).1 _) (h.data r hr)
  sb r hr := accessible_congr (hd r hr).2.1 (h.sb r hr)
  rb r hr := accessible_congr (hd r hr).2.2 (h.rb r hr)

/-- The array size passed around: `fftsize` of each rank. -/
abbrev fsz2 (f : Nat → Fft2 ℝ) : Nat → Int := fun r => (f r).fftsize

namespace Ready2

variable {c : Create2} {f : Nat → Fft2 ℝ} (R : Ready2 c f)
include R

theorem ins_tiles : Tiles2 c.P c.a.ins c.a.nfast c.a.nslow := R.args.tilesIn
theorem outs_tiles : Tiles2 c.P c.a.outs c.a.nfast c.a.nslow := R.args.tilesOut
theorem fast_tiles : Tiles2 c.P c.fast c.a.nfast c.a.nslow := fastBox2_tiles R.args
theorem slow_tiles : Tiles2 c.P c.slow c.a.nfast c.a.nslow := slowBox2_tiles R.args
theorem brick_tiles (h : c.st.exchange ≠ 0) : Tiles2 c.P c.brick c.a.nfast c.a.nslow :=
  brickBox2_tiles R.args R.grids h

theorem fast_proper {r : Nat} (hr : r < c.P) : (c.fast r).Proper := fastBox2_proper R.args hr
theorem slow_proper {r : Nat} (hr : r < c.P) : (c.slow r).Proper := slowBox2_proper R.args hr
omit R in
theorem brick_proper (r : Nat) : (c.brick r).Proper := brickBox2_proper r

omit R in
theorem fftSize_ge (r : Nat) : boxSize2 (c.a.ins r) ≤ fftSize2 (c.on r) ∧ boxSize2 (c.a.outs r) ≤ fftSize2 (c.on r) ∧
    boxSize2 (c.fast r) ≤ fftSize2 (c.on r) ∧
    boxSize2 (c.slow r) ≤ fftSize2 (c.on r) ∧
    (c.st.exchange ≠ 0 → boxSize2 (c.brick r) ≤ fftSize2 (c.on r)) := by
  have e : fftSize2 (c.on r) = if c.st.exchange ≠ 0 then
      max (max (max (max (boxSize2 (c.a.ins r)) (boxSize2 (c.a.outs r))) (boxSize2 (c.fast r)))
        (boxSize2 (c.slow r))) (boxSize2 (c.brick r))
      else max (max (max (boxSize2 (c.a.ins r)) (boxSize2 (c.a.outs r))) (boxSize2 (c.fast r)))
        (boxSize2 (c.slow r)) := rfl
  rw [e]
  by_cases h : c.st.exchange = 0
  · rw [if_neg (by simpa using h)]
    refine ⟨by simp, by simp, by simp, by simp, fun h' => absurd h h'⟩
  · rw [if_pos h]
    refine ⟨by simp, by simp, by simp, by simp, fun _ => by simp⟩

theorem size_ins {r : Nat} (hr : r < c.P) : (c.a.ins r).count ≤ (f r).fftsize := by
  rw [R.fftsize r hr, ← boxSize2_eq_count (R.args.properIn r hr).1]
  exact (fftSize_ge r).1

theorem size_outs {r : Nat} (hr : r < c.P) : (c.a.outs r).count ≤ (f r).fftsize := by
  rw [R.fftsize r hr, ← boxSize2_eq_count (R.args.properOut r hr)]
  exact (fftSize_ge r).2.1

theorem size_fast {r : Nat} (hr : r < c.P) : (c.fast r).count ≤ (f r).fftsize := by
  rw [R.fftsize r hr, ← boxSize2_eq_count (R.fast_proper hr)]
  exact (fftSize_ge r).2.2.1

theorem size_slow {r : Nat} (hr : r < c.P) : (c.slow r).count ≤ (f r).fftsize := by
  rw [R.fftsize r hr, ← boxSize2_eq_count (R.slow_proper hr)]
  exact (fftSize_ge r).2.2.2.1

theorem size_brick (hx : c.st.exchange ≠ 0) {r : Nat} (hr : r < c.P) :
    (c.brick r).count ≤ (f r).fftsize := by
  rw [R.fftsize r hr, ← boxSize2_eq_count (brick_proper r)]
  exact (fftSize_ge r).2.2.2.2 hx

/-! ### Remaps -/

/-- A remap whose buffers fit. -/
theorem step (e : Bool) (inst : Nat) (coll : Bool) {ins outs bs bs' : Nat → Box2} {p q s : Int}
    (hp : p = 0 ∨ p = 1) (hq : q = 0 ∨ q = 1)
    (hs : s = (p + q) % 2) (hins : ∀ r, ins r = rotBox2 p (bs r)) (houts : ∀ r, outs r = rotBox2 p (bs' r))
    (T : Tiles2 c.P bs c.a.nfast c.a.nslow) (T' : Tiles2 c.P bs' c.a.nfast c.a.nslow)
    (hsize : ∀ r < c.P, (bs' r).count ≤ (f r).fftsize) {ai ao : Nat} {X : Grid2} {m : Nat → LMem ℝ}
    (hX : Holds2 c.P p bs ai X m) (hb : Bufs2 c.P f ao m)
    (hx : ∀ r < c.P,
      (mkRemap2 (α := ℝ) (c.on r) inst coll ins outs q).obj.sendsize ≤ (f r).sendsize ∧
      (mkRemap2 (α := ℝ) (c.on r) inst coll ins outs q).obj.recvsize ≤ (f r).recvsize) :
    ∃ m', Step e c.P (fsz2 f) ao
        (fun r => (mkRemap2 (α := ℝ) (c.on r) inst coll ins outs q).prog ai ao) m m' ∧
      Holds2 c.P s bs' ao X m' :=
  remapStep2 e R.st inst coll hp hq hs hins houts T T' hsize hX hb.data
    (fun r hr => accessible_mono (hb.sb r hr) (hx r hr).1)
    (fun r hr => accessible_mono (hb.rb r hr) (hx r hr).2)

omit R in
theorem zero_ok : (0 : Int) = 0 ∨ (0 : Int) = 1 := by decide
omit R in
theorem one_ok : (1 : Int) = 0 ∨ (1 : Int) = 1 := by decide

/-- `remap_prefast`. -/
theorem prefast_step (e : Bool) (hpre : preflag2 c.P c.a = true) {ai ao : Nat} {X : Grid2}
    {m : Nat → LMem ℝ} (hX : Holds2 c.P 0 c.a.ins ai X m) (hb : Bufs2 c.P f ao m) :
    ∃ m', Step e c.P (fsz2 f) ao (fun r => remapIf2 (f r).prefast ai ao) m m' ∧
      Holds2 c.P 0 c.fast ao X m' := by
  obtain ⟨m', h1, h2⟩ := R.step e 0 c.bp (ins := c.a.ins) (outs := c.fast) zero_ok zero_ok
    (by decide : (0 : Int) = (0 + 0) % 2) (fun _ => rfl) (fun _ => rfl) R.ins_tiles R.fast_tiles
    (fun r hr => R.size_fast hr) hX hb (fun r hr => R.fwd r hr (c.on r).prefastR (by
      have : preflag2 (c.on r).P (c.on r).a = true := hpre
      simp [Create2.fwdSizes, this]))
  refine ⟨m', h1.congr ?_, h2⟩
  intro r hr
  have : preflag2 (c.on r).P (c.on r).a = true := hpre
  rw [R.prefast r hr]
  simp [Create2.prefastO, this, remapIf2, RemapPair2.prog, Create2.single]
  rfl

/-- The start of a forward transform: `remap_prefast`, or nothing if the input is in fast pencils. -/
theorem pre_step (e : Bool) {ai ao : Nat} (hio : ai = ao ∨ preflag2 c.P c.a = true) {X : Grid2}
    {m : Nat → LMem ℝ} (hX : Holds2 c.P 0 c.a.ins ai X m) (hb : Bufs2 c.P f ao m) :
    ∃ m', Step e c.P (fsz2 f) ao (fun r => remapOrCopy2 (f r).prefast (f r).insize ai ao) m m' ∧
      Holds2 c.P 0 c.fast ao X m' := by
  by_cases hpre : preflag2 c.P c.a = true
  · obtain ⟨m', h1, h2⟩ := R.prefast_step e hpre hX hb
    refine ⟨m', h1.congr ?_, h2⟩
    intro r hr
    have : preflag2 (c.on r).P (c.on r).a = true := hpre
    rw [R.prefast r hr]
    simp [Create2.prefastO, this, remapIf2, remapOrCopy2]
  · have hai : ai = ao := by simpa [hpre] using hio
    subst hai
    rw [Bool.not_eq_true] at hpre
    refine ⟨m, (Step.nil m).congr ?_, ?_⟩
    · intro r hr
      have : preflag2 (c.on r).P (c.on r).a = false := hpre
      rw [R.prefast r hr]
      simp [Create2.prefastO, this, remapOrCopy2]
    · intro r hr
      have : c.fast r = c.a.ins r := by simp [Create2.fast, fastBox2, hpre]
      rw [this]
      exact hX r hr

/-- `remap_fastslow`. -/
theorem fastslow_step (e : Bool) {ai ao : Nat} (hio : ai = ao ∨ c.st.exchange = 0) {X : Grid2} {m : Nat → LMem ℝ}
    (hX : Holds2 c.P 0 c.fast ai X m) (hb : Bufs2 c.P f ao m) :
    ∃ m', Step e c.P (fsz2 f) ao (fun r => remapIf2 (f r).fastslow ai ao) m m' ∧
      Holds2 c.P 1 c.slow ao X m' := by
  by_cases hx : c.st.exchange = 0
  · obtain ⟨m', h1, h2⟩ := R.step e 1 c.pp (ins := c.fast) (outs := c.slow) zero_ok one_ok
      (by decide : (1 : Int) = (0 + 1) % 2) (fun _ => rfl) (fun _ => rfl) R.fast_tiles R.slow_tiles
      (fun r hr => R.size_slow hr) hX hb (fun r hr => R.fwd r hr (c.on r).fastslowR (by
        have : (c.on r).st.exchange = 0 := hx
        simp [Create2.fwdSizes, this]))
    refine ⟨m', h1.congr ?_, h2⟩
    intro r hr
    have : (c.on r).st.exchange = 0 := hx
    rw [R.fastslow r hr]
    simp [Create2.fastslowP, this, remapIf2, RemapPair2.prog, Create2.single]
    rfl
  · have hai : ai = ao := hio.resolve_right hx
    subst hai
    obtain ⟨m1, h1, h2⟩ := R.step e 1 c.bp (ins := c.fast) (outs := c.brick) zero_ok zero_ok
      (by decide : (0 : Int) = (0 + 0) % 2) (fun _ => rfl) (fun _ => rfl) R.fast_tiles (R.brick_tiles hx)
      (fun r hr => R.size_brick hx hr) hX hb (fun r hr => R.fwd r hr (c.on r).fastslowR1 (by
        have : ¬ (c.on r).st.exchange = 0 := hx
        simp [Create2.fwdSizes, this]))
    obtain ⟨m2, h3, h4⟩ := R.step e 2 c.bp (ins := c.brick) (outs := c.slow) zero_ok one_ok
      (by decide : (1 : Int) = (0 + 1) % 2) (fun _ => rfl) (fun _ => rfl) (R.brick_tiles hx) R.slow_tiles
      (fun r hr => R.size_slow hr) h2 (hb.congr h1.dom) (fun r hr => R.fwd r hr (c.on r).fastslowR2 (by
        have : ¬ (c.on r).st.exchange = 0 := hx
        simp [Create2.fwdSizes, this]))
    refine ⟨m2, (h1.append h3).congr ?_, h4⟩
    intro r hr
    have : ¬ (c.on r).st.exchange = 0 := hx
    rw [R.fastslow r hr]
    simp [Create2.fastslowP, this, remapIf2, RemapPair2.prog, Create2.double]
    rfl

/-- No post-remap: the output layout is the slow pencil layout. -/
theorem post_false (h : postflag2 c.P c.a = false) :
    c.a.permute = 1 ∧ ∀ r < c.P, c.a.outs r = c.slow r := by
  have hh := allMax_false.mp h
  have key : ∀ r < c.P, c.a.permute = 1 ∧ c.a.outs r = c.slow r := by
    intro r hr
    have := hh r hr
    simp only [Bool.not_eq_false', Bool.and_eq_true, decide_eq_true_eq] at this
    obtain ⟨⟨⟨⟨g0, g1⟩, g2⟩, g3⟩, g4⟩ := this
    refine ⟨g0, ?_⟩
    change c.a.outs r = slowBox2 c.P c.a r
    cases h1 : c.a.outs r
    cases h2 : slowBox2 c.P c.a r
    rw [h1, h2] at g1 g2 g3 g4
    simp only at g1 g2 g3 g4
    rw [g1, g2, g3, g4]
  exact ⟨(key 0 R.args.procs).1, fun r hr => (key r hr).2⟩

/-- The end of a forward transform: `remap_postslow`, or nothing. -/
theorem postslow_step (e : Bool) {ai ao : Nat} (hio : ai = ao ∨ postflag2 c.P c.a = true) {X : Grid2}
    {m : Nat → LMem ℝ} (hX : Holds2 c.P 1 c.slow ai X m) (hb : Bufs2 c.P f ao m) :
    ∃ m', Step e c.P (fsz2 f) ao (fun r => remapIf2 (f r).postslow ai ao) m m' ∧
      Holds2 c.P c.a.permute c.a.outs ao X m' := by
  by_cases hpost : postflag2 c.P c.a = true
  · obtain ⟨np, hnp, hnp1, hnp2⟩ : ∃ np, newpermute2 c.a.permute = some np ∧
        (np = 0 ∨ np = 1) ∧ c.a.permute = (1 + np) % 2 := by
      rcases R.args.permute with h | h <;> rw [h] <;> simp [newpermute2]
    obtain ⟨m', h1, h2⟩ := R.step e 3 c.bp (ins := fun r => ji (c.slow r))
      (outs := fun r => ji (c.a.outs r)) (q := np) one_ok hnp1 hnp2 (fun _ => rfl) (fun _ => rfl)
      R.slow_tiles R.outs_tiles (fun r hr => R.size_outs hr) hX hb (fun r hr => by
        have := R.fwd r hr (c.on r).postslowR (by
          have : postflag2 (c.on r).P (c.on r).a = true := hpost
          simp [Create2.fwdSizes, this])
        have e : (c.on r).postslowR (α := ℝ) = mkRemap2 (c.on r) 3 c.bp (fun r => ji (c.slow r))
            (fun r => ji (c.a.outs r)) np := by
          change mkRemap2 (c.on r) 3 c.bp (fun r => ji (c.slow r))
            (fun r => ji (c.a.outs r)) ((newpermute2 c.a.permute).getD 0) = _
          rw [hnp]; rfl
        rwa [e] at this)
    refine ⟨m', h1.congr ?_, h2⟩
    intro r hr
    have : postflag2 (c.on r).P (c.on r).a = true := hpost
    rw [R.postslow r hr]
    simp only [Create2.postslowO, this, remapIf2, RemapPair2.prog, Create2.single, if_true, List.append_nil]
    change (mkRemap2 (c.on r) 3 c.bp (fun r => ji (c.slow r))
            (fun r => ji (c.a.outs r)) ((newpermute2 c.a.permute).getD 0)).prog ai ao = _
    rw [hnp]; rfl
  · have hai : ai = ao := by simpa [hpost] using hio
    subst hai
    rw [Bool.not_eq_true] at hpost
    obtain ⟨hp, ho⟩ := R.post_false hpost
    refine ⟨m, (Step.nil m).congr ?_, ?_⟩
    · intro r hr
      have : postflag2 (c.on r).P (c.on r).a = false := hpost
      rw [R.postslow r hr]
      simp [Create2.postslowO, this, remapIf2]
    · intro r hr
      rw [ho r hr, hp]
      exact hX r hr

/-! ### Remaps of the inverse transform -/

/-- The start of an inverse transform: `remap_preslow`, or nothing. -/
theorem preslow_step (e : Bool) (hs : inoutSame2 c.P c.a = false) {ai ao : Nat}
    (hio : ai = ao ∨ postflag2 c.P c.a = true) {X : Grid2} {m : Nat → LMem ℝ}
    (hX : Holds2 c.P c.a.permute c.a.outs ai X m) (hb : Bufs2 c.P f ao m) :
    ∃ m', Step e c.P (fsz2 f) ao (fun r => remapOrCopy2 (f r).preslow (f r).outsize ai ao) m m' ∧
      Holds2 c.P 1 c.slow ao X m' := by
  by_cases hpost : postflag2 c.P c.a = true
  · have mem : ∀ r < c.P, ((c.on r).preslowR (α := ℝ)).obj.sendsize ≤ (f r).sendsize ∧
        ((c.on r).preslowR (α := ℝ)).obj.recvsize ≤ (f r).recvsize := fun r hr => R.inv hs r hr _ (by
      have : postflag2 (c.on r).P (c.on r).a = true := hpost
      simp [Create2.invSizes, this])
    obtain ⟨m', h1, h2⟩ : ∃ m', Step e c.P (fsz2 f) ao
        (fun r => ((c.on r).preslowR (α := ℝ)).prog ai ao) m m' ∧ Holds2 c.P 1 c.slow ao X m' := by
      rcases R.args.permute with h | h
      · have e0 : ∀ r, (c.on r).preslowR (α := ℝ) = mkRemap2 (c.on r) 4 c.bp c.a.outs c.slow 1 := by
          intro r
          have : (c.on r).a.permute = 0 := h
          simp only [Create2.preslowR, this, if_true]; rfl
        simp only [e0] at mem ⊢
        rw [h] at hX
        exact R.step e 4 c.bp (ins := c.a.outs) (outs := c.slow) zero_ok one_ok
          (by decide : (1 : Int) = (0 + 1) % 2) (fun _ => rfl) (fun _ => rfl) R.outs_tiles R.slow_tiles
          (fun r hr => R.size_slow hr) hX hb mem
      · have e0 : ∀ r, (c.on r).preslowR (α := ℝ) = mkRemap2 (c.on r) 4 c.bp (fun r => ji (c.a.outs r))
            (fun r => ji (c.slow r)) 0 := by
          intro r
          have : (c.on r).a.permute = 1 := h
          simp [Create2.preslowR, this]; rfl
        simp only [e0] at mem ⊢
        rw [h] at hX
        exact R.step e 4 c.bp (ins := fun r => ji (c.a.outs r)) (outs := fun r => ji (c.slow r)) one_ok zero_ok
          (by decide : (1 : Int) = (1 + 0) % 2) (fun _ => rfl) (fun _ => rfl) R.outs_tiles R.slow_tiles
          (fun r hr => R.size_slow hr) hX hb mem
    refine ⟨m', h1.congr ?_, h2⟩
    intro r hr
    have : postflag2 (c.on r).P (c.on r).a = true := hpost
    rw [R.preslow r hr, hs]
    simp [Create2.preslowO, this, remapOrCopy2, RemapPair2.prog, Create2.single]
  · have hai : ai = ao := by simpa [hpost] using hio
    subst hai
    rw [Bool.not_eq_true] at hpost
    obtain ⟨hp, ho⟩ := R.post_false hpost
    refine ⟨m, (Step.nil m).congr ?_, ?_⟩
    · intro r hr
      have : postflag2 (c.on r).P (c.on r).a = false := hpost
      rw [R.preslow r hr, hs]
      simp [Create2.preslowO, this, remapOrCopy2]
    · intro r hr
      have := hX r hr
      rwa [ho r hr, hp] at this

/-- `remap_slowfast`. -/
theorem slowfast_step (e : Bool) (hs : inoutSame2 c.P c.a = false) {ai ao : Nat}
    (hio : ai = ao ∨ c.st.exchange = 0) {X : Grid2} {m : Nat → LMem ℝ}
    (hX : Holds2 c.P 1 c.slow ai X m) (hb : Bufs2 c.P f ao m) :
    ∃ m', Step e c.P (fsz2 f) ao (fun r => remapIf2 (f r).slowfast ai ao) m m' ∧
      Holds2 c.P 0 c.fast ao X m' := by
  by_cases hx : c.st.exchange = 0
  · obtain ⟨m', h1, h2⟩ := R.step e 5 c.pp (ins := fun r => ji (c.slow r)) (outs := fun r => ji (c.fast r))
      one_ok one_ok (by decide : (0 : Int) = (1 + 1) % 2) (fun _ => rfl) (fun _ => rfl) R.slow_tiles
      R.fast_tiles (fun r hr => R.size_fast hr) hX hb (fun r hr => R.inv hs r hr (c.on r).slowfastR (by
        have : (c.on r).st.exchange = 0 := hx
        simp [Create2.invSizes, this]))
    refine ⟨m', h1.congr ?_, h2⟩
    intro r hr
    have : (c.on r).st.exchange = 0 := hx
    rw [R.slowfast r hr, hs]
    simp [Create2.slowfastP, this, remapIf2, RemapPair2.prog, Create2.single]
    rfl
  · have hai : ai = ao := hio.resolve_right hx
    subst hai
    obtain ⟨m1, h1, h2⟩ := R.step e 5 c.bp (ins := fun r => ji (c.slow r)) (outs := fun r => ji (c.brick r))
      one_ok zero_ok (by decide : (1 : Int) = (1 + 0) % 2) (fun _ => rfl) (fun _ => rfl) R.slow_tiles
      (R.brick_tiles hx) (fun r hr => R.size_brick hx hr) hX hb
      (fun r hr => R.inv hs r hr (c.on r).slowfastR1 (by
        have : ¬ (c.on r).st.exchange = 0 := hx
        simp [Create2.invSizes, this]))
    obtain ⟨m2, h3, h4⟩ := R.step e 6 c.bp (ins := fun r => ji (c.brick r)) (outs := fun r => ji (c.fast r))
      one_ok one_ok (by decide : (0 : Int) = (1 + 1) % 2) (fun _ => rfl) (fun _ => rfl) (R.brick_tiles hx)
      R.fast_tiles (fun r hr => R.size_fast hr) h2 (hb.congr h1.dom)
      (fun r hr => R.inv hs r hr (c.on r).slowfastR2 (by
        have : ¬ (c.on r).st.exchange = 0 := hx
        simp [Create2.invSizes, this]))
    refine ⟨m2, (h1.append h3).congr ?_, h4⟩
    intro r hr
    have : ¬ (c.on r).st.exchange = 0 := hx
    rw [R.slowfast r hr, hs]
    simp [Create2.slowfastP, this, remapIf2, RemapPair2.prog, Create2.double]
    rfl

/-- The end of an inverse transform: `remap_postfast`, or nothing.  The remap reads array `ai`. -/
theorem postfast_step (e : Bool) (hs : inoutSame2 c.P c.a = false) {ai ao : Nat}
    (hio : ai = ao ∨ preflag2 c.P c.a = true) {X : Grid2} {m : Nat → LMem ℝ}
    (hX : Holds2 c.P 0 c.fast ai X m) (hb : Bufs2 c.P f ao m) :
    ∃ m', Step e c.P (fsz2 f) ao (fun r => remapIf2 (f r).postfast ai ao) m m' ∧
      Holds2 c.P 0 c.a.ins ao X m' := by
  by_cases hpre : preflag2 c.P c.a = true
  · obtain ⟨m', h1, h2⟩ := R.step e 7 c.bp (ins := c.fast) (outs := c.a.ins) zero_ok zero_ok
      (by decide : (0 : Int) = (0 + 0) % 2) (fun _ => rfl) (fun _ => rfl) R.fast_tiles R.ins_tiles
      (fun r hr => R.size_ins hr) hX hb (fun r hr => R.inv hs r hr (c.on r).postfastR (by
        have : preflag2 (c.on r).P (c.on r).a = true := hpre
        simp [Create2.invSizes, this]))
    refine ⟨m', h1.congr ?_, h2⟩
    intro r hr
    have : preflag2 (c.on r).P (c.on r).a = true := hpre
    rw [R.postfast r hr, hs]
    simp [Create2.postfastO, this, remapIf2, RemapPair2.prog, Create2.single]
    rfl
  · have hai : ai = ao := by simpa [hpre] using hio
    subst hai
    rw [Bool.not_eq_true] at hpre
    refine ⟨m, (Step.nil m).congr ?_, ?_⟩
    · intro r hr
      have : preflag2 (c.on r).P (c.on r).a = false := hpre
      rw [R.postfast r hr, hs]
      simp [Create2.postfastO, this, remapIf2]
    · intro r hr
      have : c.fast r = c.a.ins r := by simp [Create2.fast, fastBox2, hpre]
      rw [← this]
      exact hX r hr

/-! ### 1d FFTs -/

theorem fftFast_step (e : Bool) (J : Nat → Junk) (flag : Int) {ao : Nat} {X : Grid2} {m : Nat → LMem ℝ}
    (hX : Holds2 c.P 0 c.fast ao X m) :
    ∃ m', Step e c.P (fsz2 f) ao (fun r => [.loc (performLoc (J r) flag (f r).fftFast ao)]) m m' ∧
      Holds2 c.P 0 c.fast ao (fftAlong2 0 c.a.nfast.toNat (decide (flag ≠ 1)) X) m' :=
  fftStep2 e (Or.inl rfl) R.planFast (fun _ hr => R.size_fast hr) (fun _ hr => R.fast_proper hr) J flag hX

theorem fftSlow_step (e : Bool) (J : Nat → Junk) (flag : Int) {ao : Nat} {X : Grid2} {m : Nat → LMem ℝ}
    (hX : Holds2 c.P 1 c.slow ao X m) :
    ∃ m', Step e c.P (fsz2 f) ao (fun r => [.loc (performLoc (J r) flag (f r).fftSlow ao)]) m m' ∧
      Holds2 c.P 1 c.slow ao (fftAlong2 1 c.a.nslow.toNat (decide (flag ≠ 1)) X) m' :=
  fftStep2 e (Or.inr rfl) R.planSlow (fun _ hr => R.size_slow hr) (fun _ hr => R.slow_proper hr) J flag hX

end Ready2

end FftMpi
