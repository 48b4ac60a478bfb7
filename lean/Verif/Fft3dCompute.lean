import Verif.Fft3dStages

/-!
# The stages of `compute`, one by one and composed
-/

noncomputable section

namespace FftMpi

theorem accessible_mono {α : Type} {m : Mem α} {n n' : Int} (h : accessible m 0 n) (hn : n' ≤ n) :
    accessible m 0 n' := fun a h0 h1 => h a h0 (by omega)

/-- Array `ao` has room for `fftsize` complex numbers, the buffers have the sizes returned by `setup`. -/
structure Bufs (P : Nat) (f : Nat → Fft3 ℝ) (ao : Nat) (m : Nat → LMem ℝ) : Prop where
  data : ∀ r < P, accessible ((m r).ub ao) 0 (2 * (f r).fftsize)
  sb : ∀ r < P, accessible (m r).sb 0 (f r).sendsize
  rb : ∀ r < P, accessible (m r).rb 0 (f r).recvsize

theorem Bufs.congr {P : Nat} {f : Nat → Fft3 ℝ} {ao : Nat} {m m' : Nat → LMem ℝ} (h : Bufs P f ao m)
    (hd : SameDom P m m') : Bufs P f ao m' where
  data r hr := accessible_congr ((hd r hr).1 _) (h.data r hr)
  sb r hr := accessible_congr (hd r hr).2.1 (h.sb r hr)
  rb r hr := accessible_congr (hd r hr).2.2 (h.rb r hr)

theorem vol_eq_count {b : Box3} (h : b.Proper) : b.vol = b.count := by
  obtain ⟨h1, h2, h3⟩ := h
  unfold Box3.vol Box3.count
  rw [max_eq_left h1, max_eq_left h2, max_eq_left h3]

/-- The array size passed around: `fftsize` of each rank. -/
abbrev fsz (f : Nat → Fft3 ℝ) : Nat → Int := fun r => (f r).fftsize

namespace Ready

variable {c : Create} {f : Nat → Fft3 ℝ} (R : Ready c f)
include R

theorem ins_tiles : Tiles3 c.P c.a.ins c.a.nfast c.a.nmid c.a.nslow := R.args.tilesIn
theorem outs_tiles : Tiles3 c.P c.a.outs c.a.nfast c.a.nmid c.a.nslow := R.args.tilesOut
theorem fast_tiles : Tiles3 c.P c.fast c.a.nfast c.a.nmid c.a.nslow := fastBox_tiles R.args R.grids
theorem mid_tiles : Tiles3 c.P c.mid c.a.nfast c.a.nmid c.a.nslow := midBox_tiles R.args R.grids
theorem slow_tiles : Tiles3 c.P c.slow c.a.nfast c.a.nmid c.a.nslow := slowBox_tiles R.args R.grids
theorem brick_tiles (h : c.st.exchange ≠ 0) : Tiles3 c.P c.brick c.a.nfast c.a.nmid c.a.nslow :=
  brickBox_tiles R.args R.grids h

theorem fast_proper {r : Nat} (hr : r < c.P) : (c.fast r).Proper := fastBox_proper R.args R.grids hr
theorem mid_proper (r : Nat) : (c.mid r).Proper := midBox_proper R.args R.grids r
theorem slow_proper {r : Nat} (hr : r < c.P) : (c.slow r).Proper := slowBox_proper R.args R.grids hr
omit R in
theorem brick_proper (r : Nat) : (c.brick r).Proper := brickBox_proper r

/-! ### C24: `fftsize` covers every layout -/

omit R in
theorem fftSize_ge (r : Nat) : boxSize (c.a.ins r) ≤ fftSize (c.on r) ∧ boxSize (c.a.outs r) ≤ fftSize (c.on r) ∧
    boxSize (c.fast r) ≤ fftSize (c.on r) ∧ boxSize (c.mid r) ≤ fftSize (c.on r) ∧
    boxSize (c.slow r) ≤ fftSize (c.on r) ∧
    (c.st.exchange ≠ 0 → boxSize (c.brick r) ≤ fftSize (c.on r)) := by
  have e : fftSize (c.on r) = if c.st.exchange ≠ 0 then
      max (max (max (max (max (boxSize (c.a.ins r)) (boxSize (c.a.outs r))) (boxSize (c.fast r)))
        (boxSize (c.mid r))) (boxSize (c.slow r))) (boxSize (c.brick r))
      else max (max (max (max (boxSize (c.a.ins r)) (boxSize (c.a.outs r))) (boxSize (c.fast r)))
        (boxSize (c.mid r))) (boxSize (c.slow r)) := rfl
  rw [e]
  by_cases h : c.st.exchange = 0
  · rw [if_neg (by simpa using h)]
    refine ⟨by simp, by simp, by simp, by simp, by simp, fun h' => absurd h h'⟩
  · rw [if_pos h]
    refine ⟨by simp, by simp, by simp, by simp, by simp, fun _ => by simp⟩

theorem size_ins {r : Nat} (hr : r < c.P) : (c.a.ins r).count ≤ (f r).fftsize := by
  rw [R.fftsize r hr, ← boxSize_eq_count (R.args.properIn r hr).1]
  exact (fftSize_ge r).1

theorem size_outs {r : Nat} (hr : r < c.P) : (c.a.outs r).count ≤ (f r).fftsize := by
  rw [R.fftsize r hr, ← boxSize_eq_count (R.args.properOut r hr)]
  exact (fftSize_ge r).2.1

theorem size_fast {r : Nat} (hr : r < c.P) : (c.fast r).count ≤ (f r).fftsize := by
  rw [R.fftsize r hr, ← boxSize_eq_count (R.fast_proper hr)]
  exact (fftSize_ge r).2.2.1

theorem size_mid {r : Nat} (hr : r < c.P) : (c.mid r).count ≤ (f r).fftsize := by
  rw [R.fftsize r hr, ← boxSize_eq_count (R.mid_proper r)]
  exact (fftSize_ge r).2.2.2.1

theorem size_slow {r : Nat} (hr : r < c.P) : (c.slow r).count ≤ (f r).fftsize := by
  rw [R.fftsize r hr, ← boxSize_eq_count (R.slow_proper hr)]
  exact (fftSize_ge r).2.2.2.2.1

theorem size_brick (hx : c.st.exchange ≠ 0) {r : Nat} (hr : r < c.P) :
    (c.brick r).count ≤ (f r).fftsize := by
  rw [R.fftsize r hr, ← boxSize_eq_count (brick_proper r)]
  exact (fftSize_ge r).2.2.2.2.2 hx

/-! ### Remaps -/

/-- A remap whose buffers fit. -/
theorem step (e : Bool) (inst : Nat) (coll : Bool) {ins outs bs bs' : Nat → Box3} {p q s : Int}
    (hp : p = 0 ∨ p = 1 ∨ p = 2) (hq : q = 0 ∨ q = 1 ∨ q = 2)
    (hs : s = (p + q) % 3) (hins : ∀ r, ins r = rotBox p (bs r)) (houts : ∀ r, outs r = rotBox p (bs' r))
    (T : Tiles3 c.P bs c.a.nfast c.a.nmid c.a.nslow) (T' : Tiles3 c.P bs' c.a.nfast c.a.nmid c.a.nslow)
    (hsize : ∀ r < c.P, (bs' r).count ≤ (f r).fftsize) {ai ao : Nat} {X : Grid3} {m : Nat → LMem ℝ}
    (hX : Holds c.P p bs ai X m) (hb : Bufs c.P f ao m)
    (hx : ∀ r < c.P,
      (mkRemap (α := ℝ) (c.on r) inst coll ins outs q).obj.sendsize ≤ (f r).sendsize ∧
      (mkRemap (α := ℝ) (c.on r) inst coll ins outs q).obj.recvsize ≤ (f r).recvsize) :
    ∃ m', Step e c.P (fsz f) ao
        (fun r => (mkRemap (α := ℝ) (c.on r) inst coll ins outs q).prog ai ao) m m' ∧
      Holds c.P s bs' ao X m' :=
  remapStep e R.st inst coll hp hq hs hins houts T T' hsize hX hb.data
    (fun r hr => accessible_mono (hb.sb r hr) (hx r hr).1)
    (fun r hr => accessible_mono (hb.rb r hr) (hx r hr).2)

omit R in
theorem zero_ok : (0 : Int) = 0 ∨ (0 : Int) = 1 ∨ (0 : Int) = 2 := by decide
omit R in
theorem one_ok : (1 : Int) = 0 ∨ (1 : Int) = 1 ∨ (1 : Int) = 2 := by decide
omit R in
theorem two_ok : (2 : Int) = 0 ∨ (2 : Int) = 1 ∨ (2 : Int) = 2 := by decide

/-- `remap_prefast`. -/
theorem prefast_step (e : Bool) (hpre : preflag c.P c.a = true) {ai ao : Nat} {X : Grid3}
    {m : Nat → LMem ℝ} (hX : Holds c.P 0 c.a.ins ai X m) (hb : Bufs c.P f ao m) :
    ∃ m', Step e c.P (fsz f) ao (fun r => remapIf (f r).prefast ai ao) m m' ∧
      Holds c.P 0 c.fast ao X m' := by
  obtain ⟨m', h1, h2⟩ := R.step e 0 c.bp (ins := c.a.ins) (outs := c.fast) zero_ok zero_ok
    (by decide : (0 : Int) = (0 + 0) % 3) (fun _ => rfl) (fun _ => rfl) R.ins_tiles R.fast_tiles
    (fun r hr => R.size_fast hr) hX hb (fun r hr => R.fwd r hr (c.on r).prefastR (by
      have : preflag (c.on r).P (c.on r).a = true := hpre
      simp [Create.fwdSizes, this]))
  refine ⟨m', h1.congr ?_, h2⟩
  intro r hr
  have : preflag (c.on r).P (c.on r).a = true := hpre
  rw [R.prefast r hr]
  simp [Create.prefastO, this, remapIf, RemapPair.prog, Create.single]
  rfl

/-- The start of a forward transform: `remap_prefast`, or nothing if the input is in fast pencils. -/
theorem pre_step (e : Bool) {ai ao : Nat} (hio : ai = ao ∨ preflag c.P c.a = true) {X : Grid3}
    {m : Nat → LMem ℝ} (hX : Holds c.P 0 c.a.ins ai X m) (hb : Bufs c.P f ao m) :
    ∃ m', Step e c.P (fsz f) ao (fun r => remapOrCopy (f r).prefast (f r).insize ai ao) m m' ∧
      Holds c.P 0 c.fast ao X m' := by
  by_cases hpre : preflag c.P c.a = true
  · obtain ⟨m', h1, h2⟩ := R.prefast_step e hpre hX hb
    refine ⟨m', h1.congr ?_, h2⟩
    intro r hr
    have : preflag (c.on r).P (c.on r).a = true := hpre
    rw [R.prefast r hr]
    simp [Create.prefastO, this, remapIf, remapOrCopy]
  · have hai : ai = ao := by simpa [hpre] using hio
    subst hai
    rw [Bool.not_eq_true] at hpre
    refine ⟨m, (Step.nil m).congr ?_, ?_⟩
    · intro r hr
      have : preflag (c.on r).P (c.on r).a = false := hpre
      rw [R.prefast r hr]
      simp [Create.prefastO, this, remapOrCopy]
    · intro r hr
      have : c.fast r = c.a.ins r := by simp [Create.fast, fastBox, hpre]
      rw [this]
      exact hX r hr

/-- `remap_fastmid`. -/
theorem fastmid_step (e : Bool) {ai ao : Nat} (hio : ai = ao ∨ c.st.exchange = 0) {X : Grid3} {m : Nat → LMem ℝ}
    (hX : Holds c.P 0 c.fast ai X m) (hb : Bufs c.P f ao m) :
    ∃ m', Step e c.P (fsz f) ao (fun r => remapIf (f r).fastmid ai ao) m m' ∧
      Holds c.P 1 c.mid ao X m' := by
  by_cases hx : c.st.exchange = 0
  · obtain ⟨m', h1, h2⟩ := R.step e 1 c.pp (ins := c.fast) (outs := c.mid) zero_ok one_ok
      (by decide : (1 : Int) = (0 + 1) % 3) (fun _ => rfl) (fun _ => rfl) R.fast_tiles R.mid_tiles
      (fun r hr => R.size_mid hr) hX hb (fun r hr => R.fwd r hr (c.on r).fastmidR (by
        have : (c.on r).st.exchange = 0 := hx
        simp [Create.fwdSizes, this]))
    refine ⟨m', h1.congr ?_, h2⟩
    intro r hr
    have : (c.on r).st.exchange = 0 := hx
    rw [R.fastmid r hr]
    simp [Create.fastmidP, this, remapIf, RemapPair.prog, Create.single]
    rfl
  · have hai : ai = ao := hio.resolve_right hx
    subst hai
    obtain ⟨m1, h1, h2⟩ := R.step e 1 c.bp (ins := c.fast) (outs := c.brick) zero_ok zero_ok
      (by decide : (0 : Int) = (0 + 0) % 3) (fun _ => rfl) (fun _ => rfl) R.fast_tiles (R.brick_tiles hx)
      (fun r hr => R.size_brick hx hr) hX hb (fun r hr => R.fwd r hr (c.on r).fastmidR1 (by
        have : ¬ (c.on r).st.exchange = 0 := hx
        simp [Create.fwdSizes, this]))
    obtain ⟨m2, h3, h4⟩ := R.step e 2 c.bp (ins := c.brick) (outs := c.mid) zero_ok one_ok
      (by decide : (1 : Int) = (0 + 1) % 3) (fun _ => rfl) (fun _ => rfl) (R.brick_tiles hx) R.mid_tiles
      (fun r hr => R.size_mid hr) h2 (hb.congr h1.dom) (fun r hr => R.fwd r hr (c.on r).fastmidR2 (by
        have : ¬ (c.on r).st.exchange = 0 := hx
        simp [Create.fwdSizes, this]))
    refine ⟨m2, (h1.append h3).congr ?_, h4⟩
    intro r hr
    have : ¬ (c.on r).st.exchange = 0 := hx
    rw [R.fastmid r hr]
    simp [Create.fastmidP, this, remapIf, RemapPair.prog, Create.double]
    rfl

/-- `remap_midslow`. -/
theorem midslow_step (e : Bool) {ai ao : Nat} (hio : ai = ao ∨ c.st.exchange = 0) {X : Grid3} {m : Nat → LMem ℝ}
    (hX : Holds c.P 1 c.mid ai X m) (hb : Bufs c.P f ao m) :
    ∃ m', Step e c.P (fsz f) ao (fun r => remapIf (f r).midslow ai ao) m m' ∧
      Holds c.P 2 c.slow ao X m' := by
  by_cases hx : c.st.exchange = 0
  · obtain ⟨m', h1, h2⟩ := R.step e 3 c.pp (ins := fun r => jki (c.mid r)) (outs := fun r => jki (c.slow r))
      one_ok one_ok (by decide : (2 : Int) = (1 + 1) % 3) (fun _ => rfl) (fun _ => rfl) R.mid_tiles
      R.slow_tiles (fun r hr => R.size_slow hr) hX hb (fun r hr => R.fwd r hr (c.on r).midslowR (by
        have : (c.on r).st.exchange = 0 := hx
        simp [Create.fwdSizes, this]))
    refine ⟨m', h1.congr ?_, h2⟩
    intro r hr
    have : (c.on r).st.exchange = 0 := hx
    rw [R.midslow r hr]
    simp [Create.midslowP, this, remapIf, RemapPair.prog, Create.single]
    rfl
  · have hai : ai = ao := hio.resolve_right hx
    subst hai
    obtain ⟨m1, h1, h2⟩ := R.step e 3 c.bp (ins := fun r => jki (c.mid r)) (outs := fun r => jki (c.brick r))
      one_ok zero_ok (by decide : (1 : Int) = (1 + 0) % 3) (fun _ => rfl) (fun _ => rfl) R.mid_tiles
      (R.brick_tiles hx) (fun r hr => R.size_brick hx hr) hX hb
      (fun r hr => R.fwd r hr (c.on r).midslowR1 (by
        have : ¬ (c.on r).st.exchange = 0 := hx
        simp [Create.fwdSizes, this]))
    obtain ⟨m2, h3, h4⟩ := R.step e 4 c.bp (ins := fun r => jki (c.brick r)) (outs := fun r => jki (c.slow r))
      one_ok one_ok (by decide : (2 : Int) = (1 + 1) % 3) (fun _ => rfl) (fun _ => rfl) (R.brick_tiles hx)
      R.slow_tiles (fun r hr => R.size_slow hr) h2 (hb.congr h1.dom)
      (fun r hr => R.fwd r hr (c.on r).midslowR2 (by
        have : ¬ (c.on r).st.exchange = 0 := hx
        simp [Create.fwdSizes, this]))
    refine ⟨m2, (h1.append h3).congr ?_, h4⟩
    intro r hr
    have : ¬ (c.on r).st.exchange = 0 := hx
    rw [R.midslow r hr]
    simp [Create.midslowP, this, remapIf, RemapPair.prog, Create.double]
    rfl

/-- No post-remap: the output layout is the slow pencil layout. -/
theorem post_false (h : postflag c.P c.a c.g = false) :
    c.a.permute = 2 ∧ ∀ r < c.P, c.a.outs r = c.slow r := by
  have hh := allMax_false.mp h
  have key : ∀ r < c.P, c.a.permute = 2 ∧ c.a.outs r = c.slow r := by
    intro r hr
    have := hh r hr
    simp only [Bool.not_eq_false', Bool.and_eq_true, decide_eq_true_eq] at this
    obtain ⟨⟨⟨⟨⟨⟨g0, g1⟩, g2⟩, g3⟩, g4⟩, g5⟩, g6⟩ := this
    refine ⟨g0, ?_⟩
    change c.a.outs r = slowBox c.P c.a c.g r
    cases h1 : c.a.outs r
    cases h2 : slowBox c.P c.a c.g r
    rw [h1, h2] at g1 g2 g3 g4 g5 g6
    simp only at g1 g2 g3 g4 g5 g6
    rw [g1, g2, g3, g4, g5, g6]
  exact ⟨(key 0 R.args.procs).1, fun r hr => (key r hr).2⟩

/-- The end of a forward transform: `remap_postslow`, or nothing. -/
theorem postslow_step (e : Bool) {ai ao : Nat} (hio : ai = ao ∨ postflag c.P c.a c.g = true) {X : Grid3}
    {m : Nat → LMem ℝ} (hX : Holds c.P 2 c.slow ai X m) (hb : Bufs c.P f ao m) :
    ∃ m', Step e c.P (fsz f) ao (fun r => remapIf (f r).postslow ai ao) m m' ∧
      Holds c.P c.a.permute c.a.outs ao X m' := by
  by_cases hpost : postflag c.P c.a c.g = true
  · obtain ⟨np, hnp, hnp1, hnp2⟩ : ∃ np, newpermute c.a.permute = some np ∧
        (np = 0 ∨ np = 1 ∨ np = 2) ∧ c.a.permute = (2 + np) % 3 := by
      rcases R.args.permute with h | h | h <;> rw [h] <;> simp [newpermute]
    obtain ⟨m', h1, h2⟩ := R.step e 5 c.bp (ins := fun r => kij (c.slow r))
      (outs := fun r => kij (c.a.outs r)) (q := np) two_ok hnp1 hnp2 (fun _ => rfl) (fun _ => rfl)
      R.slow_tiles R.outs_tiles (fun r hr => R.size_outs hr) hX hb (fun r hr => by
        have := R.fwd r hr (c.on r).postslowR (by
          have : postflag (c.on r).P (c.on r).a (c.on r).g = true := hpost
          simp [Create.fwdSizes, this])
        have e : (c.on r).postslowR (α := ℝ) = mkRemap (c.on r) 5 c.bp (fun r => kij (c.slow r))
            (fun r => kij (c.a.outs r)) np := by
          change mkRemap (c.on r) 5 c.bp (fun r => kij (c.slow r))
            (fun r => kij (c.a.outs r)) ((newpermute c.a.permute).getD 0) = _
          rw [hnp]; rfl
        rwa [e] at this)
    refine ⟨m', h1.congr ?_, h2⟩
    intro r hr
    have : postflag (c.on r).P (c.on r).a (c.on r).g = true := hpost
    rw [R.postslow r hr]
    simp only [Create.postslowO, this, remapIf, RemapPair.prog, Create.single, if_true, List.append_nil]
    change (mkRemap (c.on r) 5 c.bp (fun r => kij (c.slow r))
            (fun r => kij (c.a.outs r)) ((newpermute c.a.permute).getD 0)).prog ai ao = _
    rw [hnp]; rfl
  · have hai : ai = ao := by simpa [hpost] using hio
    subst hai
    rw [Bool.not_eq_true] at hpost
    obtain ⟨hp, ho⟩ := R.post_false hpost
    refine ⟨m, (Step.nil m).congr ?_, ?_⟩
    · intro r hr
      have : postflag (c.on r).P (c.on r).a (c.on r).g = false := hpost
      rw [R.postslow r hr]
      simp [Create.postslowO, this, remapIf]
    · intro r hr
      rw [ho r hr, hp]
      exact hX r hr

/-! ### Remaps of the inverse transform -/

/-- The start of an inverse transform: `remap_preslow`, or nothing. -/
theorem preslow_step (e : Bool) (hs : inoutSame c.P c.a = false) {ai ao : Nat}
    (hio : ai = ao ∨ postflag c.P c.a c.g = true) {X : Grid3} {m : Nat → LMem ℝ}
    (hX : Holds c.P c.a.permute c.a.outs ai X m) (hb : Bufs c.P f ao m) :
    ∃ m', Step e c.P (fsz f) ao (fun r => remapOrCopy (f r).preslow (f r).outsize ai ao) m m' ∧
      Holds c.P 2 c.slow ao X m' := by
  by_cases hpost : postflag c.P c.a c.g = true
  · have mem : ∀ r < c.P, ((c.on r).preslowR (α := ℝ)).obj.sendsize ≤ (f r).sendsize ∧
        ((c.on r).preslowR (α := ℝ)).obj.recvsize ≤ (f r).recvsize := fun r hr => R.inv hs r hr _ (by
      have : postflag (c.on r).P (c.on r).a (c.on r).g = true := hpost
      simp [Create.invSizes, this])
    obtain ⟨m', h1, h2⟩ : ∃ m', Step e c.P (fsz f) ao
        (fun r => ((c.on r).preslowR (α := ℝ)).prog ai ao) m m' ∧ Holds c.P 2 c.slow ao X m' := by
      rcases R.args.permute with h | h | h
      · have e0 : ∀ r, (c.on r).preslowR (α := ℝ) = mkRemap (c.on r) 6 c.bp c.a.outs c.slow 2 := by
          intro r
          have : (c.on r).a.permute = 0 := h
          simp only [Create.preslowR, this, if_true]; rfl
        simp only [e0] at mem ⊢
        rw [h] at hX
        exact R.step e 6 c.bp (ins := c.a.outs) (outs := c.slow) zero_ok two_ok
          (by decide : (2 : Int) = (0 + 2) % 3) (fun _ => rfl) (fun _ => rfl) R.outs_tiles R.slow_tiles
          (fun r hr => R.size_slow hr) hX hb mem
      · have e0 : ∀ r, (c.on r).preslowR (α := ℝ) = mkRemap (c.on r) 6 c.bp (fun r => jki (c.a.outs r))
            (fun r => jki (c.slow r)) 1 := by
          intro r
          have : (c.on r).a.permute = 1 := h
          simp [Create.preslowR, this]; rfl
        simp only [e0] at mem ⊢
        rw [h] at hX
        exact R.step e 6 c.bp (ins := fun r => jki (c.a.outs r)) (outs := fun r => jki (c.slow r)) one_ok one_ok
          (by decide : (2 : Int) = (1 + 1) % 3) (fun _ => rfl) (fun _ => rfl) R.outs_tiles R.slow_tiles
          (fun r hr => R.size_slow hr) hX hb mem
      · have e0 : ∀ r, (c.on r).preslowR (α := ℝ) = mkRemap (c.on r) 6 c.bp (fun r => kij (c.a.outs r))
            (fun r => kij (c.slow r)) 0 := by
          intro r
          have : (c.on r).a.permute = 2 := h
          simp [Create.preslowR, this]; rfl
        simp only [e0] at mem ⊢
        rw [h] at hX
        exact R.step e 6 c.bp (ins := fun r => kij (c.a.outs r)) (outs := fun r => kij (c.slow r)) two_ok
          zero_ok (by decide : (2 : Int) = (2 + 0) % 3) (fun _ => rfl) (fun _ => rfl) R.outs_tiles
          R.slow_tiles (fun r hr => R.size_slow hr) hX hb mem
    refine ⟨m', h1.congr ?_, h2⟩
    intro r hr
    have : postflag (c.on r).P (c.on r).a (c.on r).g = true := hpost
    rw [R.preslow r hr, hs]
    simp [Create.preslowO, this, remapOrCopy, RemapPair.prog, Create.single]
  · have hai : ai = ao := by simpa [hpost] using hio
    subst hai
    rw [Bool.not_eq_true] at hpost
    obtain ⟨hp, ho⟩ := R.post_false hpost
    refine ⟨m, (Step.nil m).congr ?_, ?_⟩
    · intro r hr
      have : postflag (c.on r).P (c.on r).a (c.on r).g = false := hpost
      rw [R.preslow r hr, hs]
      simp [Create.preslowO, this, remapOrCopy]
    · intro r hr
      have := hX r hr
      rwa [ho r hr, hp] at this

/-- `remap_slowmid`. -/
theorem slowmid_step (e : Bool) (hs : inoutSame c.P c.a = false) {ai ao : Nat}
    (hio : ai = ao ∨ c.st.exchange = 0) {X : Grid3} {m : Nat → LMem ℝ}
    (hX : Holds c.P 2 c.slow ai X m) (hb : Bufs c.P f ao m) :
    ∃ m', Step e c.P (fsz f) ao (fun r => remapIf (f r).slowmid ai ao) m m' ∧
      Holds c.P 1 c.mid ao X m' := by
  by_cases hx : c.st.exchange = 0
  · obtain ⟨m', h1, h2⟩ := R.step e 7 c.pp (ins := fun r => kij (c.slow r)) (outs := fun r => kij (c.mid r))
      two_ok two_ok (by decide : (1 : Int) = (2 + 2) % 3) (fun _ => rfl) (fun _ => rfl) R.slow_tiles
      R.mid_tiles (fun r hr => R.size_mid hr) hX hb (fun r hr => R.inv hs r hr (c.on r).slowmidR (by
        have : (c.on r).st.exchange = 0 := hx
        simp [Create.invSizes, this]))
    refine ⟨m', h1.congr ?_, h2⟩
    intro r hr
    have : (c.on r).st.exchange = 0 := hx
    rw [R.slowmid r hr, hs]
    simp [Create.slowmidP, this, remapIf, RemapPair.prog, Create.single]
    rfl
  · have hai : ai = ao := hio.resolve_right hx
    subst hai
    obtain ⟨m1, h1, h2⟩ := R.step e 7 c.bp (ins := fun r => kij (c.slow r)) (outs := fun r => kij (c.brick r))
      two_ok zero_ok (by decide : (2 : Int) = (2 + 0) % 3) (fun _ => rfl) (fun _ => rfl) R.slow_tiles
      (R.brick_tiles hx) (fun r hr => R.size_brick hx hr) hX hb
      (fun r hr => R.inv hs r hr (c.on r).slowmidR1 (by
        have : ¬ (c.on r).st.exchange = 0 := hx
        simp [Create.invSizes, this]))
    obtain ⟨m2, h3, h4⟩ := R.step e 8 c.bp (ins := fun r => kij (c.brick r)) (outs := fun r => kij (c.mid r))
      two_ok two_ok (by decide : (1 : Int) = (2 + 2) % 3) (fun _ => rfl) (fun _ => rfl) (R.brick_tiles hx)
      R.mid_tiles (fun r hr => R.size_mid hr) h2 (hb.congr h1.dom)
      (fun r hr => R.inv hs r hr (c.on r).slowmidR2 (by
        have : ¬ (c.on r).st.exchange = 0 := hx
        simp [Create.invSizes, this]))
    refine ⟨m2, (h1.append h3).congr ?_, h4⟩
    intro r hr
    have : ¬ (c.on r).st.exchange = 0 := hx
    rw [R.slowmid r hr, hs]
    simp [Create.slowmidP, this, remapIf, RemapPair.prog, Create.double]
    rfl

omit R in
/-- The second remap of `remap_midfast`, whose sizes `setup` does not count, fits into the buffers. -/
def ExtraFits (c : Create) (f : Nat → Fft3 ℝ) : Prop :=
  c.st.exchange ≠ 0 → ∀ r < c.P, ((c.on r).midfastR2 (α := ℝ)).obj.sendsize ≤ (f r).sendsize ∧
    ((c.on r).midfastR2 (α := ℝ)).obj.recvsize ≤ (f r).recvsize

/-- `remap_midfast`. -/
theorem midfast_step (e : Bool) (hs : inoutSame c.P c.a = false) (hX2 : ExtraFits c f) {ai ao : Nat}
    (hio : ai = ao ∨ c.st.exchange = 0) {X : Grid3}
    {m : Nat → LMem ℝ} (hX : Holds c.P 1 c.mid ai X m) (hb : Bufs c.P f ao m) :
    ∃ m', Step e c.P (fsz f) ao (fun r => remapIf (f r).midfast ai ao) m m' ∧
      Holds c.P 0 c.fast ao X m' := by
  by_cases hx : c.st.exchange = 0
  · obtain ⟨m', h1, h2⟩ := R.step e 9 c.pp (ins := fun r => jki (c.mid r)) (outs := fun r => jki (c.fast r))
      one_ok two_ok (by decide : (0 : Int) = (1 + 2) % 3) (fun _ => rfl) (fun _ => rfl) R.mid_tiles
      R.fast_tiles (fun r hr => R.size_fast hr) hX hb (fun r hr => R.inv hs r hr (c.on r).midfastR (by
        have : (c.on r).st.exchange = 0 := hx
        simp [Create.invSizes, this]))
    refine ⟨m', h1.congr ?_, h2⟩
    intro r hr
    have : (c.on r).st.exchange = 0 := hx
    rw [R.midfast r hr, hs]
    simp [Create.midfastP, this, remapIf, RemapPair.prog, Create.single]
    rfl
  · have hai : ai = ao := hio.resolve_right hx
    subst hai
    obtain ⟨m1, h1, h2⟩ := R.step e 9 c.bp (ins := fun r => jki (c.mid r)) (outs := fun r => jki (c.brick r))
      one_ok zero_ok (by decide : (1 : Int) = (1 + 0) % 3) (fun _ => rfl) (fun _ => rfl) R.mid_tiles
      (R.brick_tiles hx) (fun r hr => R.size_brick hx hr) hX hb
      (fun r hr => R.inv hs r hr (c.on r).midfastR1 (by
        have : ¬ (c.on r).st.exchange = 0 := hx
        simp [Create.invSizes, this]))
    obtain ⟨m2, h3, h4⟩ := R.step e 10 c.bp (ins := fun r => jki (c.brick r)) (outs := fun r => jki (c.fast r))
      one_ok two_ok (by decide : (0 : Int) = (1 + 2) % 3) (fun _ => rfl) (fun _ => rfl) (R.brick_tiles hx)
      R.fast_tiles (fun r hr => R.size_fast hr) h2 (hb.congr h1.dom)
      (fun r hr => hX2 hx r hr)
    refine ⟨m2, (h1.append h3).congr ?_, h4⟩
    intro r hr
    have : ¬ (c.on r).st.exchange = 0 := hx
    rw [R.midfast r hr, hs]
    simp [Create.midfastP, this, remapIf, RemapPair.prog, Create.double]
    rfl

/-- The end of an inverse transform: `remap_postfast`, or nothing.  The remap reads array `ai`. -/
theorem postfast_step (e : Bool) (hs : inoutSame c.P c.a = false) {ai ao : Nat}
    (hio : ai = ao ∨ preflag c.P c.a = true) {X : Grid3} {m : Nat → LMem ℝ}
    (hX : Holds c.P 0 c.fast ai X m) (hb : Bufs c.P f ao m) :
    ∃ m', Step e c.P (fsz f) ao (fun r => remapIf (f r).postfast ai ao) m m' ∧
      Holds c.P 0 c.a.ins ao X m' := by
  by_cases hpre : preflag c.P c.a = true
  · obtain ⟨m', h1, h2⟩ := R.step e 11 c.bp (ins := c.fast) (outs := c.a.ins) zero_ok zero_ok
      (by decide : (0 : Int) = (0 + 0) % 3) (fun _ => rfl) (fun _ => rfl) R.fast_tiles R.ins_tiles
      (fun r hr => R.size_ins hr) hX hb (fun r hr => R.inv hs r hr (c.on r).postfastR (by
        have : preflag (c.on r).P (c.on r).a = true := hpre
        simp [Create.invSizes, this]))
    refine ⟨m', h1.congr ?_, h2⟩
    intro r hr
    have : preflag (c.on r).P (c.on r).a = true := hpre
    rw [R.postfast r hr, hs]
    simp [Create.postfastO, this, remapIf, RemapPair.prog, Create.single]
    rfl
  · have hai : ai = ao := by simpa [hpre] using hio
    subst hai
    rw [Bool.not_eq_true] at hpre
    refine ⟨m, (Step.nil m).congr ?_, ?_⟩
    · intro r hr
      have : preflag (c.on r).P (c.on r).a = false := hpre
      rw [R.postfast r hr, hs]
      simp [Create.postfastO, this, remapIf]
    · intro r hr
      have : c.fast r = c.a.ins r := by simp [Create.fast, fastBox, hpre]
      rw [← this]
      exact hX r hr

/-! ### 1d FFTs -/

theorem fftFast_step (e : Bool) (J : Nat → Junk) (flag : Int) {ao : Nat} {X : Grid3} {m : Nat → LMem ℝ}
    (hX : Holds c.P 0 c.fast ao X m) :
    ∃ m', Step e c.P (fsz f) ao (fun r => [.loc (performLoc (J r) flag (f r).fftFast ao)]) m m' ∧
      Holds c.P 0 c.fast ao (fftAlong 0 c.a.nfast.toNat (decide (flag ≠ 1)) X) m' :=
  fftStep e R.planFast (fun r hr => by
    rw [vol_eq_count (R.fast_proper hr)]; exact R.size_fast hr) J flag hX

theorem fftMid_step (e : Bool) (J : Nat → Junk) (flag : Int) {ao : Nat} {X : Grid3} {m : Nat → LMem ℝ}
    (hX : Holds c.P 1 c.mid ao X m) :
    ∃ m', Step e c.P (fsz f) ao (fun r => [.loc (performLoc (J r) flag (f r).fftMid ao)]) m m' ∧
      Holds c.P 1 c.mid ao (fftAlong 1 c.a.nmid.toNat (decide (flag ≠ 1)) X) m' :=
  fftStep e R.planMid (fun r hr => by
    rw [vol_eq_count (R.mid_proper r)]; exact R.size_mid hr) J flag hX

theorem fftSlow_step (e : Bool) (J : Nat → Junk) (flag : Int) {ao : Nat} {X : Grid3} {m : Nat → LMem ℝ}
    (hX : Holds c.P 2 c.slow ao X m) :
    ∃ m', Step e c.P (fsz f) ao (fun r => [.loc (performLoc (J r) flag (f r).fftSlow ao)]) m m' ∧
      Holds c.P 2 c.slow ao (fftAlong 2 c.a.nslow.toNat (decide (flag ≠ 1)) X) m' :=
  fftStep e R.planSlow (fun r hr => by
    rw [vol_eq_count (R.slow_proper hr)]; exact R.size_slow hr) J flag hX

end Ready

end FftMpi
