import Verif.Fft3dCompute
import Verif.Dft3

/-!
# `compute` as a whole
-/

noncomputable section

namespace FftMpi

theorem Holds.congr {P : Nat} {p : Int} {bs : Nat → Box3} {n : Nat} {X Y : Grid3} {m : Nat → LMem ℝ}
    {n1 n2 n3 : Int} (T : Tiles3 P bs n1 n2 n3)
    (h : ∀ i j k : Int, (0 ≤ i ∧ i < n1) → (0 ≤ j ∧ j < n2) → (0 ≤ k ∧ k < n3) → X i j k = Y i j k)
    (hX : Holds P p bs n X m) : Holds P p bs n Y m := by
  intro r hr i j k hh
  obtain ⟨h1, h2, h3⟩ := T.inside r hr i j k hh
  rw [← h i j k h1 h2 h3]
  exact hX r hr i j k hh

/-- Each rank's array holds `X`, but only the first `num r` complex numbers have been multiplied by `s`. -/
def HoldsScaled (P : Nat) (p : Int) (bs : Nat → Box3) (n : Nat) (X : Grid3) (s : ℝ) (num : Nat → Int)
    (m : Nat → LMem ℝ) : Prop :=
  ∀ r < P, HoldsBox p (bs r)
    (fun i j k => if addr3 p (bs r) 1 i j k 0 < num r then (s : ℂ) * X i j k else X i j k) ((m r).ub n)

/-- Enough elements are scaled. -/
theorem HoldsScaled.all {P : Nat} {p : Int} {bs : Nat → Box3} {n : Nat} {X : Grid3} {s : ℝ}
    {num : Nat → Int} {m : Nat → LMem ℝ} (h : HoldsScaled P p bs n X s num m)
    (hn : ∀ r < P, (bs r).count ≤ num r) : Holds P p bs n (fun i j k => (s : ℂ) * X i j k) m := by
  intro r hr i j k hh
  have := h r hr i j k hh
  have hlt : addr3 p (bs r) 1 i j k 0 < num r := by
    have h1 := addr3_range (permute := p) (nqty := 1) (q := 0) hh (by decide)
    have h2 := Box3.count_of_has hh
    have h3 := hn r hr
    omega
  simpa [hlt] using this

/-- `scale_ffts` on every rank. -/
theorem scaleStep (e : Bool) {P : Nat} {size : Nat → Int} {ao : Nat} {p : Int} {bs : Nat → Box3} {X : Grid3}
    {m : Nat → LMem ℝ} (norm : ℝ) (num : Nat → Int) (hX : Holds P p bs ao X m)
    (h0 : ∀ r < P, 0 ≤ num r) (hnum : ∀ r < P, num r ≤ size r)
    (hd : ∀ r < P, accessible ((m r).ub ao) 0 (2 * size r)) (fn : Nat → ℝ) (fnum : Nat → Int)
    (e1 : ∀ r < P, fn r = norm) (e2 : ∀ r < P, fnum r = num r) :
    ∃ m', Step e P size ao (fun r => [.loc (scaleLoc (fn r) (fnum r) ao)]) m m' ∧
      HoldsScaled P p bs ao X norm num m' := by
  have key : ∀ r, ∃ d, r < P → scaleFfts (fn r) (fnum r) ((m r).ub ao) = some d ∧
      (∀ k z, cview ((m r).ub ao) k = some z → 0 ≤ k →
        cview d k = some (if k < num r then (norm : ℂ) * z else z)) ∧
      (∀ a, (d a).isSome = ((m r).ub ao a).isSome) ∧
      ∀ a, (a < 0 ∨ 2 * num r ≤ a) → d a = (m r).ub ao a := by
    intro r
    by_cases hr : r < P
    · have en : (((num r).toNat : Nat) : Int) = num r := by have := h0 r hr; omega
      obtain ⟨d, g1, g2, g3, g4⟩ := scaleFfts_ok norm (num r).toNat ((m r).ub ao) (by
        rw [en]
        exact accessible_mono (hd r hr) (by have := hnum r hr; omega))
      rw [en] at g1 g2 g4
      exact ⟨d, fun _ => ⟨by rw [e1 r hr, e2 r hr]; exact g1, g2, g3, g4⟩⟩
    · exact ⟨fun _ => none, fun h => absurd h hr⟩
  choose d hd' using key
  obtain ⟨m', h1, h2⟩ := locStep e (size := size) (ao := ao) (m := m)
    (fun r => scaleLoc (fn r) (fnum r) ao) d
    (by intro r hr; simp [scaleLoc, (hd' r hr).1])
    (fun r hr => (hd' r hr).2.2.1)
    (by
      intro r hr x hx
      apply (hd' r hr).2.2.2
      have := hnum r hr
      omega)
  refine ⟨m', h1, ?_⟩
  intro r hr
  rw [holdsBox_cview]
  intro i j k hh
  rw [h2 r hr]
  have g := holdsBox_cview.mp (hX r hr) i j k hh
  exact (hd' r hr).2.1 _ _ g (addr3_range (permute := p) (nqty := 1) (q := 0) hh (by decide)).1

/-! ## From `setup` -/

theorem fft3Setup_ready {P : Nat} {a : Args3} {st : Settings} {f : Nat → Fft3 ℝ} (hv : a.Valid P)
    (hst : st.Valid) (hf : ∀ r < P, fft3Setup P r a st = some (.ok (f r))) :
    ∃ c : Create, c.P = P ∧ c.a = a ∧ c.st = st ∧ setupGrids P a st.exchange = some c.g ∧ Ready c f := by
  obtain ⟨g, hg, hgo⟩ := setupGrids_ok hv.round hv.procs hv.fast hv.mid hv.slow st.exchange
  refine ⟨⟨P, 0, a, st, g⟩, rfl, rfl, rfl, hg, ready_of_main hv hst hg hgo ?_⟩
  intro r hr
  have h := hf r hr
  unfold fft3Setup at h
  rw [hv.check] at h
  simp only [hg, Option.bind_eq_bind, Option.bind_some] at h
  change setupMain { P := P, me := r, a := a, st := st, g := g } = some (f r)
  cases hm : setupMain (α := ℝ) { P := P, me := r, a := a, st := st, g := g } with
  | none => rw [hm] at h; simp at h
  | some x =>
    rw [hm] at h
    simp only [Option.bind_some, Option.some.injEq, Except.ok.injEq] at h
    rw [h]

/-- `setup` succeeds. -/
theorem fft3Setup_exists {P : Nat} {a : Args3} {st : Settings} (hv : a.Valid P) (hst : st.Valid) :
    ∃ f : Nat → Fft3 ℝ, ∀ r < P, fft3Setup P r a st = some (.ok (f r)) := by
  obtain ⟨g, hg, hgo⟩ := setupGrids_ok hv.round hv.procs hv.fast hv.mid hv.slow st.exchange
  have main : ∀ r < P, ∃ x : Fft3 ℝ, fft3Setup P r a st = some (.ok x) := by
    intro r hr
    obtain ⟨_, _, _, _, h2⟩ := setupMain_eq (α := ℝ) (c := ⟨P, r, a, st, g⟩) hst hr hv
    unfold fft3Setup
    rw [hv.check]
    simp only [hg, Option.bind_eq_bind, Option.bind_some, h2]
    exact ⟨_, rfl⟩
  obtain ⟨x0, _⟩ := main 0 hv.procs
  have : ∀ r, ∃ x : Fft3 ℝ, r < P → fft3Setup P r a st = some (.ok x) := by
    intro r
    by_cases hr : r < P
    · obtain ⟨x, hx⟩ := main r hr
      exact ⟨x, fun _ => hx⟩
    · exact ⟨x0, fun h => absurd h hr⟩
  choose f hf using this
  exact ⟨f, hf⟩

namespace Ready

variable {c : Create} {f : Nat → Fft3 ℝ} (R : Ready c f)
include R

/-- The specified transform of the grid of the object. -/
abbrev spec (c : Create) (back : Bool) (X : Grid3) : Grid3 :=
  dft3 c.a.nfast.toNat c.a.nmid.toNat c.a.nslow.toNat back X

/-- After the first remap of a forward transform. -/
theorem fwd_rest (e : Bool) (J : Nat → Nat → Junk) (flag : Int) {ao : Nat} {X : Grid3} {m : Nat → LMem ℝ}
    (hX : Holds c.P 0 c.fast ao X m) (hb : Bufs c.P f ao m) :
    ∃ m', Step e c.P (fsz f) ao (fun r =>
        ([.loc (performLoc (J r 0) flag (f r).fftFast ao)] ++ remapIf (f r).fastmid ao ao ++
        [.loc (performLoc (J r 1) flag (f r).fftMid ao)] ++ remapIf (f r).midslow ao ao ++
        [.loc (performLoc (J r 2) flag (f r).fftSlow ao)]) ++ remapIf (f r).postslow ao ao) m m' ∧
      Holds c.P c.a.permute c.a.outs ao (spec c (decide (flag ≠ 1)) X) m' := by
  obtain ⟨m1, s1, h1⟩ := R.fftFast_step e (fun r => J r 0) flag hX
  obtain ⟨m2, s2, h2⟩ := R.fastmid_step e (Or.inl rfl) h1 (hb.congr s1.dom)
  have s12 := s1.append s2
  obtain ⟨m3, s3, h3⟩ := R.fftMid_step e (fun r => J r 1) flag h2
  have s13 := s12.append s3
  obtain ⟨m4, s4, h4⟩ := R.midslow_step e (Or.inl rfl) h3 (hb.congr s13.dom)
  have s14 := s13.append s4
  obtain ⟨m5, s5, h5⟩ := R.fftSlow_step e (fun r => J r 2) flag h4
  have s15 := s14.append s5
  obtain ⟨m6, s6, h6⟩ := R.postslow_step e (Or.inl rfl) h5 (hb.congr s15.dom)
  refine ⟨m6, s15.append s6, h6.congr R.outs_tiles ?_⟩
  intro i j k hi hj hk
  exact fftAlong_fwd _ _ _ _ X hi.1 hj.1 hk.1

/-- The same with `remaponly`. -/
theorem fwd_rest_only (e : Bool) {ao : Nat} {X : Grid3} {m : Nat → LMem ℝ}
    (hX : Holds c.P 0 c.fast ao X m) (hb : Bufs c.P f ao m) :
    ∃ m', Step e c.P (fsz f) ao (fun r => (remapIf (f r).fastmid ao ao ++ remapIf (f r).midslow ao ao) ++
        remapIf (f r).postslow ao ao) m m' ∧
      Holds c.P c.a.permute c.a.outs ao X m' := by
  obtain ⟨m2, s2, h2⟩ := R.fastmid_step e (Or.inl rfl) hX hb
  obtain ⟨m4, s4, h4⟩ := R.midslow_step e (Or.inl rfl) h2 (hb.congr s2.dom)
  have s14 := s2.append s4
  obtain ⟨m6, s6, h6⟩ := R.postslow_step e (Or.inl rfl) h4 (hb.congr s14.dom)
  exact ⟨m6, s14.append s6, h6⟩

/-- An inverse transform up to the last remap. -/
theorem inv_rest (e : Bool) (hs : inoutSame c.P c.a = false) (hX2 : ExtraFits c f) (J : Nat → Nat → Junk)
    (flag : Int) {ao : Nat} {X : Grid3} {m : Nat → LMem ℝ}
    (hX : Holds c.P 2 c.slow ao X m) (hb : Bufs c.P f ao m) :
    ∃ m', Step e c.P (fsz f) ao (fun r =>
        [.loc (performLoc (J r 2) flag (f r).fftSlow ao)] ++ remapIf (f r).slowmid ao ao ++
        [.loc (performLoc (J r 1) flag (f r).fftMid ao)] ++ remapIf (f r).midfast ao ao ++
        [.loc (performLoc (J r 0) flag (f r).fftFast ao)]) m m' ∧
      Holds c.P 0 c.fast ao (spec c (decide (flag ≠ 1)) X) m' := by
  obtain ⟨m1, s1, h1⟩ := R.fftSlow_step e (fun r => J r 2) flag hX
  obtain ⟨m2, s2, h2⟩ := R.slowmid_step e hs (Or.inl rfl) h1 (hb.congr s1.dom)
  have s12 := s1.append s2
  obtain ⟨m3, s3, h3⟩ := R.fftMid_step e (fun r => J r 1) flag h2
  have s13 := s12.append s3
  obtain ⟨m4, s4, h4⟩ := R.midfast_step e hs hX2 (Or.inl rfl) h3 (hb.congr s13.dom)
  have s14 := s13.append s4
  obtain ⟨m5, s5, h5⟩ := R.fftFast_step e (fun r => J r 0) flag h4
  refine ⟨m5, s14.append s5, h5.congr R.fast_tiles ?_⟩
  intro i j k hi hj hk
  exact fftAlong_inv _ _ _ _ X hi.1 hj.1 hk.1

theorem inv_rest_only (e : Bool) (hs : inoutSame c.P c.a = false) (hX2 : ExtraFits c f)
    {ao : Nat} {X : Grid3} {m : Nat → LMem ℝ}
    (hX : Holds c.P 2 c.slow ao X m) (hb : Bufs c.P f ao m) :
    ∃ m', Step e c.P (fsz f) ao (fun r => remapIf (f r).slowmid ao ao ++ remapIf (f r).midfast ao ao) m m' ∧
      Holds c.P 0 c.fast ao X m' := by
  obtain ⟨m2, s2, h2⟩ := R.slowmid_step e hs (Or.inl rfl) hX hb
  obtain ⟨m4, s4, h4⟩ := R.midfast_step e hs hX2 (Or.inl rfl) h2 (hb.congr s2.dom)
  exact ⟨m4, s2.append s4, h4⟩

omit R in
/-- What `compute` does to the grid function. -/
def effect (c : Create) (remaponly : Bool) (flag : Int) (X : Grid3) : Grid3 :=
  if remaponly then X else spec c (decide (flag ≠ 1)) X

/-- `compute` before scaling, forward path. -/
theorem core_fwd (e : Bool) (J : Nat → Nat → Junk) (remaponly : Bool) (flag : Int) {ai ao : Nat}
    (hio : ai = ao ∨ preflag c.P c.a = true)
    {X : Grid3} {m : Nat → LMem ℝ} (hX : Holds c.P 0 c.a.ins ai X m) (hb : Bufs c.P f ao m) :
    ∃ m', Step e c.P (fsz f) ao (fun r =>
        remapOrCopy (f r).prefast (f r).insize ai ao ++
        (if remaponly then remapIf (f r).fastmid ao ao ++ remapIf (f r).midslow ao ao
        else [.loc (performLoc (J r 0) flag (f r).fftFast ao)] ++ remapIf (f r).fastmid ao ao ++
          [.loc (performLoc (J r 1) flag (f r).fftMid ao)] ++ remapIf (f r).midslow ao ao ++
          [.loc (performLoc (J r 2) flag (f r).fftSlow ao)]) ++ remapIf (f r).postslow ao ao) m m' ∧
      Holds c.P c.a.permute c.a.outs ao (effect c remaponly flag X) m' := by
  obtain ⟨m1, s1, h1⟩ := R.pre_step e hio hX hb
  cases remaponly with
  | true =>
    obtain ⟨m2, s2, h2⟩ := R.fwd_rest_only e h1 (hb.congr s1.dom)
    exact ⟨m2, (s1.append s2).congr (fun r _ => by simp), h2⟩
  | false =>
    obtain ⟨m2, s2, h2⟩ := R.fwd_rest e J flag h1 (hb.congr s1.dom)
    exact ⟨m2, (s1.append s2).congr (fun r _ => by simp), h2⟩

/-- `compute` before scaling, inverse path with separate remaps. -/
theorem core_inv (e : Bool) (hs : inoutSame c.P c.a = false) (hX2 : ExtraFits c f) (J : Nat → Nat → Junk)
    (remaponly : Bool) (flag : Int) {ai ao : Nat}
    (hio : ai = ao ∨ (postflag c.P c.a c.g = true ∧ preflag c.P c.a = false))
    {X : Grid3} {m : Nat → LMem ℝ} (hX : Holds c.P c.a.permute c.a.outs ai X m) (hb : Bufs c.P f ao m) :
    ∃ m', Step e c.P (fsz f) ao (fun r =>
        remapOrCopy (f r).preslow (f r).outsize ai ao ++
        (if remaponly then remapIf (f r).slowmid ao ao ++ remapIf (f r).midfast ao ao
        else [.loc (performLoc (J r 2) flag (f r).fftSlow ao)] ++ remapIf (f r).slowmid ao ao ++
          [.loc (performLoc (J r 1) flag (f r).fftMid ao)] ++ remapIf (f r).midfast ao ao ++
          [.loc (performLoc (J r 0) flag (f r).fftFast ao)]) ++ remapIf (f r).postfast ai ao) m m' ∧
      Holds c.P 0 c.a.ins ao (effect c remaponly flag X) m' := by
  obtain ⟨m1, s1, h1⟩ := R.preslow_step e hs (hio.imp id And.left) hX hb
  obtain ⟨m2, s2, h2⟩ : ∃ m2, Step e c.P (fsz f) ao (fun r =>
        (if remaponly then remapIf (f r).slowmid ao ao ++ remapIf (f r).midfast ao ao
        else [.loc (performLoc (J r 2) flag (f r).fftSlow ao)] ++ remapIf (f r).slowmid ao ao ++
          [.loc (performLoc (J r 1) flag (f r).fftMid ao)] ++ remapIf (f r).midfast ao ao ++
          [.loc (performLoc (J r 0) flag (f r).fftFast ao)])) m1 m2 ∧
      Holds c.P 0 c.fast ao (effect c remaponly flag X) m2 := by
    cases remaponly with
    | true =>
      obtain ⟨m2, s2, h2⟩ := R.inv_rest_only e hs hX2 h1 (hb.congr s1.dom)
      exact ⟨m2, s2.congr (fun r _ => by simp), h2⟩
    | false =>
      obtain ⟨m2, s2, h2⟩ := R.inv_rest e hs hX2 J flag h1 (hb.congr s1.dom)
      exact ⟨m2, s2.congr (fun r _ => by simp), h2⟩
  have s12 := s1.append s2
  -- the last remap: it reads `ai`
  rcases hio with rfl | ⟨_, hpre⟩
  · obtain ⟨m3, s3, h3⟩ := R.postfast_step e hs (Or.inl rfl) h2 (hb.congr s12.dom)
    exact ⟨m3, s12.append s3, h3⟩
  · obtain ⟨m3, s3, h3⟩ := R.postfast_step e hs (ai := ao) (Or.inl rfl) h2 (hb.congr s12.dom)
    refine ⟨m3, (s12.append s3).congr ?_, h3⟩
    intro r hr
    have : preflag (c.on r).P (c.on r).a = false := hpre
    congr 1
    rw [R.postfast r hr, hs]
    simp [Create.postfastO, this, remapIf]

/-- The number of grid points. -/
def N (c : Create) : ℝ := c.a.nfast * c.a.nmid * c.a.nslow

theorem same_layout (hs : inoutSame c.P c.a = true) :
    c.a.permute = 0 ∧ ∀ r < c.P, c.a.ins r = c.a.outs r := by
  have h : ∀ r < c.P, c.a.permute = 0 ∧ c.a.ins r = c.a.outs r := by
    intro r hr
    unfold inoutSame at hs
    rw [Bool.not_eq_true', allMax_false] at hs
    have := hs r hr
    simp only [Bool.or_eq_false_iff, decide_eq_false_iff_not, not_or, not_not] at this
    obtain ⟨⟨g1, g2, g3, g4, g5, g6⟩, g0⟩ := this
    refine ⟨g0, ?_⟩
    cases h1 : c.a.ins r
    cases h2 : c.a.outs r
    rw [h1, h2] at g1 g2 g3 g4 g5 g6
    simp only at g1 g2 g3 g4 g5 g6
    rw [g1, g2, g3, g4, g5, g6]
  exact ⟨(h 0 R.args.procs).1, fun r hr => (h r hr).2⟩

/-- The part of `compute` that scales. -/
theorem scale_part (e : Bool) (scaled remaponly : Bool) (flag : Int) {ao : Nat} {p : Int} {bs : Nat → Box3}
    {X : Grid3} {m : Nat → LMem ℝ} (hX : Holds c.P p bs ao X m) (hb : Bufs c.P f ao m) :
    ∃ m', Step e c.P (fsz f) ao (fun r => if flag = -1 ∧ scaled ∧ ¬ remaponly then
        [.loc (scaleLoc (f r).norm (f r).normnum ao)] else []) m m' ∧
      (if flag = -1 ∧ scaled ∧ ¬ remaponly then
        HoldsScaled c.P p bs ao X (1 / N c) (fun r => boxSize (c.a.outs r)) m'
      else Holds c.P p bs ao X m') := by
  by_cases h : flag = -1 ∧ scaled = true ∧ ¬ remaponly = true
  · simp only [if_pos h]
    refine scaleStep e (1 / N c) (fun r => boxSize (c.a.outs r)) hX ?_ ?_ hb.data (fun r => (f r).norm)
      (fun r => (f r).normnum) (fun r hr => R.norm r hr) (fun r hr => R.normnum r hr)
    · intro r hr
      rw [boxSize_eq_count (R.args.properOut r hr)]
      exact count_nonneg _
    · intro r hr
      rw [boxSize_eq_count (R.args.properOut r hr)]
      exact R.size_outs hr
  · simp only [if_neg h]
    exact ⟨m, Step.nil m, hX⟩

/-- **`compute`, forward path** (`flag = 1`, or input and output layout the same). -/
theorem compute_fwd (e : Bool) (J : Nat → Nat → Junk) (scaled remaponly : Bool) {flag : Int}
    (hflag : flag = 1 ∨ inoutSame c.P c.a = true) {ai ao : Nat} (hio : ai = ao ∨ preflag c.P c.a = true)
    {X : Grid3} {m : Nat → LMem ℝ} (hX : Holds c.P 0 c.a.ins ai X m) (hb : Bufs c.P f ao m) :
    ∃ m', Step e c.P (fsz f) ao (fun r => (f r).compute (J r) scaled remaponly flag ai ao) m m' ∧
      (if flag = -1 ∧ scaled ∧ ¬ remaponly then
        HoldsScaled c.P c.a.permute c.a.outs ao (effect c remaponly flag X) (1 / N c)
          (fun r => boxSize (c.a.outs r)) m'
      else Holds c.P c.a.permute c.a.outs ao (effect c remaponly flag X) m') := by
  obtain ⟨m1, s1, h1⟩ := R.core_fwd e J remaponly flag hio hX hb
  obtain ⟨m2, s2, h2⟩ := R.scale_part e scaled remaponly flag h1 (hb.congr s1.dom)
  refine ⟨m2, (s1.append s2).congr ?_, h2⟩
  intro r hr
  unfold Fft3.compute
  rw [if_pos (by rw [R.same r hr]; exact hflag)]

/-- **`compute`, inverse path.** -/
theorem compute_inv (e : Bool) (hs : inoutSame c.P c.a = false) (hX2 : ExtraFits c f) (J : Nat → Nat → Junk)
    (scaled remaponly : Bool) {flag : Int} (hflag : flag ≠ 1) {ai ao : Nat}
    (hio : ai = ao ∨ (postflag c.P c.a c.g = true ∧ preflag c.P c.a = false))
    {X : Grid3} {m : Nat → LMem ℝ} (hX : Holds c.P c.a.permute c.a.outs ai X m) (hb : Bufs c.P f ao m) :
    ∃ m', Step e c.P (fsz f) ao (fun r => (f r).compute (J r) scaled remaponly flag ai ao) m m' ∧
      (if flag = -1 ∧ scaled ∧ ¬ remaponly then
        HoldsScaled c.P 0 c.a.ins ao (effect c remaponly flag X) (1 / N c)
          (fun r => boxSize (c.a.outs r)) m'
      else Holds c.P 0 c.a.ins ao (effect c remaponly flag X) m') := by
  obtain ⟨m1, s1, h1⟩ := R.core_inv e hs hX2 J remaponly flag hio hX hb
  obtain ⟨m2, s2, h2⟩ := R.scale_part e scaled remaponly flag h1 (hb.congr s1.dom)
  refine ⟨m2, (s1.append s2).congr ?_, h2⟩
  intro r hr
  unfold Fft3.compute
  rw [if_neg (by rw [R.same r hr, hs]; simpa using hflag)]

/-- **Backward `compute` in place**, whichever path it takes: the result is in the input layout. -/
theorem compute_back (e : Bool) (hX2 : inoutSame c.P c.a = false → ExtraFits c f) (J : Nat → Nat → Junk)
    (scaled remaponly : Bool) {ao : Nat} {X : Grid3} {m : Nat → LMem ℝ}
    (hX : Holds c.P c.a.permute c.a.outs ao X m) (hb : Bufs c.P f ao m) :
    ∃ m', Step e c.P (fsz f) ao (fun r => (f r).compute (J r) scaled remaponly (-1) ao ao) m m' ∧
      (if scaled ∧ ¬ remaponly then
        HoldsScaled c.P 0 c.a.ins ao (effect c remaponly (-1) X) (1 / N c)
          (fun r => boxSize (c.a.outs r)) m'
      else Holds c.P 0 c.a.ins ao (effect c remaponly (-1) X) m') := by
  by_cases hs : inoutSame c.P c.a = true
  · obtain ⟨hp, hl⟩ := R.same_layout hs
    have hX' : Holds c.P 0 c.a.ins ao X m := by
      intro r hr
      rw [hl r hr, ← hp]
      exact hX r hr
    obtain ⟨m', s1, h1⟩ := R.compute_fwd e J scaled remaponly (flag := -1) (Or.inr hs) (Or.inl rfl) hX' hb
    refine ⟨m', s1, ?_⟩
    simp only [true_and] at h1
    split_ifs at h1 ⊢
    · intro r hr
      rw [hl r hr]
      have := h1 r hr
      rwa [hp] at this
    · intro r hr
      rw [hl r hr]
      have := h1 r hr
      rwa [hp] at this
  · rw [Bool.not_eq_true] at hs
    obtain ⟨m', s1, h1⟩ := R.compute_inv e hs (hX2 hs) J scaled remaponly (flag := -1) (by decide) (Or.inl rfl)
      hX hb
    exact ⟨m', s1, by simpa using h1⟩

end Ready

end FftMpi
