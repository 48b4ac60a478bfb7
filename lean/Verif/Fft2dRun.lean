import Verif.Fft2dCompute

/-!
# 2d `compute` as a whole
-/

noncomputable section

namespace FftMpi

theorem Holds2.congr {P : Nat} {p : Int} {bs : Nat → Box2} {n : Nat} {X Y : Grid2} {m : Nat → LMem ℝ}
    {n1 n2 : Int} (T : Tiles2 P bs n1 n2)
    (h : ∀ i j : Int, (0 ≤ i ∧ i < n1) → (0 ≤ j ∧ j < n2) → X i j = Y i j)
    (hX : Holds2 P p bs n X m) : Holds2 P p bs n Y m := by
  intro r hr i j hh
  obtain ⟨h1, h2⟩ := T.inside r hr i j hh
  rw [← h i j h1 h2]
  exact hX r hr i j hh

/-! ## From `setup` -/

theorem fft2Setup_ready {w : Int} {P : Nat} {a : Args2} {st : Settings} {f : Nat → Fft2 ℝ} (hv : a.Valid P)
    (hst : st.Valid2 w) (hf : ∀ r < P, fft2Setup w P r a st = some (.ok (f r))) :
    ∃ c : Create2, c.w = w ∧ c.P = P ∧ c.a = a ∧ c.st = st ∧ setupBrick2 P a st.exchange = some c.g ∧ Ready2 c f := by
  obtain ⟨g, hg, hgo⟩ := setupBrick2_ok hv.round hv.procs hv.fast hv.slow st.exchange
  refine ⟨⟨w, P, 0, a, st, g⟩, rfl, rfl, rfl, rfl, hg, ready2_of_main hv hst hgo ?_⟩
  intro r hr
  have h := hf r hr
  unfold fft2Setup at h
  rw [hv.check] at h
  simp only [hg, Option.bind_eq_bind, Option.bind_some] at h
  change setupMain2 { w := w, P := P, me := r, a := a, st := st, g := g } = some (f r)
  cases hm : setupMain2 (α := ℝ) { w := w, P := P, me := r, a := a, st := st, g := g } with
  | none => rw [hm] at h; simp at h
  | some x =>
    rw [hm] at h
    simp only [Option.bind_some, Option.some.injEq, Except.ok.injEq] at h
    rw [h]

/-- `setup` succeeds. -/
theorem fft2Setup_exists {w : Int} {P : Nat} {a : Args2} {st : Settings} (hv : a.Valid P) (hst : st.Valid2 w) :
    ∃ f : Nat → Fft2 ℝ, ∀ r < P, fft2Setup w P r a st = some (.ok (f r)) := by
  obtain ⟨g, hg, hgo⟩ := setupBrick2_ok hv.round hv.procs hv.fast hv.slow st.exchange
  have main : ∀ r < P, ∃ x : Fft2 ℝ, fft2Setup w P r a st = some (.ok x) := by
    intro r hr
    obtain ⟨_, _, _, h2⟩ := setupMain2_eq (α := ℝ) (c := ⟨w, P, r, a, st, g⟩) hst hr hv.fast hv.slow hv.permute
    unfold fft2Setup
    rw [hv.check]
    simp only [hg, Option.bind_eq_bind, Option.bind_some, h2]
    exact ⟨_, rfl⟩
  obtain ⟨x0, _⟩ := main 0 hv.procs
  have : ∀ r, ∃ x : Fft2 ℝ, r < P → fft2Setup w P r a st = some (.ok x) := by
    intro r
    by_cases hr : r < P
    · obtain ⟨x, hx⟩ := main r hr
      exact ⟨x, fun _ => hx⟩
    · exact ⟨x0, fun h => absurd h hr⟩
  choose f hf using this
  exact ⟨f, hf⟩

namespace Ready2

variable {c : Create2} {f : Nat → Fft2 ℝ} (R : Ready2 c f)
include R

/-- The specified transform of the grid of the object. -/
abbrev spec (c : Create2) (back : Bool) (X : Grid2) : Grid2 :=
  dft2 c.a.nfast.toNat c.a.nslow.toNat back X

/-- After the first remap of a forward transform. -/
theorem fwd_rest (e : Bool) (J : Nat → Nat → Junk) (flag : Int) {ao : Nat} {X : Grid2} {m : Nat → LMem ℝ}
    (hX : Holds2 c.P 0 c.fast ao X m) (hb : Bufs2 c.P f ao m) :
    ∃ m', Step e c.P (fsz2 f) ao (fun r =>
        ([.loc (performLoc (J r 0) flag (f r).fftFast ao)] ++ remapIf2 (f r).fastslow ao ao ++
        [.loc (performLoc (J r 1) flag (f r).fftSlow ao)]) ++ remapIf2 (f r).postslow ao ao) m m' ∧
      Holds2 c.P c.a.permute c.a.outs ao (spec c (decide (flag ≠ 1)) X) m' := by
  obtain ⟨m1, s1, h1⟩ := R.fftFast_step e (fun r => J r 0) flag hX
  obtain ⟨m2, s2, h2⟩ := R.fastslow_step e (Or.inl rfl) h1 (hb.congr s1.dom)
  have s12 := s1.append s2
  obtain ⟨m5, s5, h5⟩ := R.fftSlow_step e (fun r => J r 1) flag h2
  have s15 := s12.append s5
  obtain ⟨m6, s6, h6⟩ := R.postslow_step e (Or.inl rfl) h5 (hb.congr s15.dom)
  refine ⟨m6, s15.append s6, h6.congr R.outs_tiles ?_⟩
  intro i j hi hj
  exact fftAlong2_fwd _ _ _ X hi.1 hj.1

/-- The same with `remaponly`. -/
theorem fwd_rest_only (e : Bool) {ao : Nat} {X : Grid2} {m : Nat → LMem ℝ}
    (hX : Holds2 c.P 0 c.fast ao X m) (hb : Bufs2 c.P f ao m) :
    ∃ m', Step e c.P (fsz2 f) ao (fun r => remapIf2 (f r).fastslow ao ao ++
        remapIf2 (f r).postslow ao ao) m m' ∧
      Holds2 c.P c.a.permute c.a.outs ao X m' := by
  obtain ⟨m2, s2, h2⟩ := R.fastslow_step e (Or.inl rfl) hX hb
  obtain ⟨m6, s6, h6⟩ := R.postslow_step e (Or.inl rfl) h2 (hb.congr s2.dom)
  exact ⟨m6, s2.append s6, h6⟩

/-- An inverse transform up to the last remap. -/
theorem inv_rest (e : Bool) (hs : inoutSame2 c.P c.a = false) (J : Nat → Nat → Junk)
    (flag : Int) {ao : Nat} {X : Grid2} {m : Nat → LMem ℝ}
    (hX : Holds2 c.P 1 c.slow ao X m) (hb : Bufs2 c.P f ao m) :
    ∃ m', Step e c.P (fsz2 f) ao (fun r =>
        [.loc (performLoc (J r 1) flag (f r).fftSlow ao)] ++ remapIf2 (f r).slowfast ao ao ++
        [.loc (performLoc (J r 0) flag (f r).fftFast ao)]) m m' ∧
      Holds2 c.P 0 c.fast ao (spec c (decide (flag ≠ 1)) X) m' := by
  obtain ⟨m1, s1, h1⟩ := R.fftSlow_step e (fun r => J r 1) flag hX
  obtain ⟨m2, s2, h2⟩ := R.slowfast_step e hs (Or.inl rfl) h1 (hb.congr s1.dom)
  have s12 := s1.append s2
  obtain ⟨m5, s5, h5⟩ := R.fftFast_step e (fun r => J r 0) flag h2
  refine ⟨m5, s12.append s5, h5.congr R.fast_tiles ?_⟩
  intro i j hi hj
  exact fftAlong2_inv _ _ _ X hi.1 hj.1

theorem inv_rest_only (e : Bool) (hs : inoutSame2 c.P c.a = false)
    {ao : Nat} {X : Grid2} {m : Nat → LMem ℝ}
    (hX : Holds2 c.P 1 c.slow ao X m) (hb : Bufs2 c.P f ao m) :
    ∃ m', Step e c.P (fsz2 f) ao (fun r => remapIf2 (f r).slowfast ao ao) m m' ∧
      Holds2 c.P 0 c.fast ao X m' := R.slowfast_step e hs (Or.inl rfl) hX hb

omit R in
/-- What `compute` does to the grid function. -/
def effect (c : Create2) (remaponly : Bool) (flag : Int) (X : Grid2) : Grid2 :=
  if remaponly then X else spec c (decide (flag ≠ 1)) X

/-- `compute` before scaling, forward path. -/
theorem core_fwd (e : Bool) (J : Nat → Nat → Junk) (remaponly : Bool) (flag : Int) {ai ao : Nat}
    (hio : ai = ao ∨ preflag2 c.P c.a = true)
    {X : Grid2} {m : Nat → LMem ℝ} (hX : Holds2 c.P 0 c.a.ins ai X m) (hb : Bufs2 c.P f ao m) :
    ∃ m', Step e c.P (fsz2 f) ao (fun r =>
        remapOrCopy2 (f r).prefast (f r).insize ai ao ++
        (if remaponly then remapIf2 (f r).fastslow ao ao
        else [.loc (performLoc (J r 0) flag (f r).fftFast ao)] ++ remapIf2 (f r).fastslow ao ao ++
          [.loc (performLoc (J r 1) flag (f r).fftSlow ao)]) ++ remapIf2 (f r).postslow ao ao) m m' ∧
      Holds2 c.P c.a.permute c.a.outs ao (effect c remaponly flag X) m' := by
  obtain ⟨m1, s1, h1⟩ := R.pre_step e hio hX hb
  cases remaponly with
  | true =>
    obtain ⟨m2, s2, h2⟩ := R.fwd_rest_only e h1 (hb.congr s1.dom)
    exact ⟨m2, (s1.append s2).congr (fun r _ => by simp), h2⟩
  | false =>
    obtain ⟨m2, s2, h2⟩ := R.fwd_rest e J flag h1 (hb.congr s1.dom)
    exact ⟨m2, (s1.append s2).congr (fun r _ => by simp), h2⟩

/-- `compute` before scaling, inverse path with separate remaps. -/
theorem core_inv (e : Bool) (hs : inoutSame2 c.P c.a = false) (J : Nat → Nat → Junk)
    (remaponly : Bool) (flag : Int) {ai ao : Nat}
    (hio : ai = ao ∨ (postflag2 c.P c.a = true ∧ preflag2 c.P c.a = false))
    {X : Grid2} {m : Nat → LMem ℝ} (hX : Holds2 c.P c.a.permute c.a.outs ai X m) (hb : Bufs2 c.P f ao m) :
    ∃ m', Step e c.P (fsz2 f) ao (fun r =>
        remapOrCopy2 (f r).preslow (f r).outsize ai ao ++
        (if remaponly then remapIf2 (f r).slowfast ao ao
        else [.loc (performLoc (J r 1) flag (f r).fftSlow ao)] ++ remapIf2 (f r).slowfast ao ao ++
          [.loc (performLoc (J r 0) flag (f r).fftFast ao)]) ++ remapIf2 (f r).postfast ai ao) m m' ∧
      Holds2 c.P 0 c.a.ins ao (effect c remaponly flag X) m' := by
  obtain ⟨m1, s1, h1⟩ := R.preslow_step e hs (hio.imp id And.left) hX hb
  obtain ⟨m2, s2, h2⟩ : ∃ m2, Step e c.P (fsz2 f) ao (fun r =>
        (if remaponly then remapIf2 (f r).slowfast ao ao
        else [.loc (performLoc (J r 1) flag (f r).fftSlow ao)] ++ remapIf2 (f r).slowfast ao ao ++
          [.loc (performLoc (J r 0) flag (f r).fftFast ao)])) m1 m2 ∧
      Holds2 c.P 0 c.fast ao (effect c remaponly flag X) m2 := by
    cases remaponly with
    | true =>
      obtain ⟨m2, s2, h2⟩ := R.inv_rest_only e hs h1 (hb.congr s1.dom)
      exact ⟨m2, s2.congr (fun r _ => by simp), h2⟩
    | false =>
      obtain ⟨m2, s2, h2⟩ := R.inv_rest e hs J flag h1 (hb.congr s1.dom)
      exact ⟨m2, s2.congr (fun r _ => by simp), h2⟩
  have s12 := s1.append s2
  -- the last remap: it reads `ai`
  rcases hio with rfl | ⟨_, hpre⟩
  · obtain ⟨m3, s3, h3⟩ := R.postfast_step e hs (Or.inl rfl) h2 (hb.congr s12.dom)
    exact ⟨m3, s12.append s3, h3⟩
  · obtain ⟨m3, s3, h3⟩ := R.postfast_step e hs (ai := ao) (Or.inl rfl) h2 (hb.congr s12.dom)
    refine ⟨m3, (s12.append s3).congr ?_, h3⟩
    intro r hr
    have : preflag2 (c.on r).P (c.on r).a = false := hpre
    congr 1
    rw [R.postfast r hr, hs]
    simp [Create2.postfastO, this, remapIf2]

/-- The number of grid points. -/
def N (c : Create2) : ℝ := c.a.nfast * c.a.nslow

theorem same_layout (hs : inoutSame2 c.P c.a = true) :
    c.a.permute = 0 ∧ ∀ r < c.P, c.a.ins r = c.a.outs r := by
  have h : ∀ r < c.P, c.a.permute = 0 ∧ c.a.ins r = c.a.outs r := by
    intro r hr
    unfold inoutSame2 at hs
    rw [Bool.not_eq_true', allMax_false] at hs
    have := hs r hr
    simp only [Bool.or_eq_false_iff, decide_eq_false_iff_not, not_or, not_not] at this
    obtain ⟨⟨g1, g2, g3, g4⟩, g0⟩ := this
    refine ⟨g0, ?_⟩
    cases h1 : c.a.ins r
    cases h2 : c.a.outs r
    rw [h1, h2] at g1 g2 g3 g4
    simp only at g1 g2 g3 g4
    rw [g1, g2, g3, g4]
  exact ⟨(h 0 R.args.procs).1, fun r hr => (h r hr).2⟩

/-- The part of `compute` that scales. -/
theorem scale_part (e : Bool) (scaled remaponly : Bool) (flag : Int) {ao : Nat} {p : Int} {bs : Nat → Box2}
    {X : Grid2} {m : Nat → LMem ℝ} (hp : p = 0 ∨ p = 1) (hX : Holds2 c.P p bs ao X m) (hb : Bufs2 c.P f ao m) :
    ∃ m', Step e c.P (fsz2 f) ao (fun r => if flag = -1 ∧ scaled ∧ ¬ remaponly then
        [.loc (scaleLoc (f r).norm (f r).normnum ao)] else []) m m' ∧
      (if flag = -1 ∧ scaled ∧ ¬ remaponly then
        HoldsScaled2 c.P p bs ao X (1 / N c) (fun r => boxSize2 (c.a.outs r)) m'
      else Holds2 c.P p bs ao X m') := by
  by_cases h : flag = -1 ∧ scaled = true ∧ ¬ remaponly = true
  · simp only [if_pos h]
    refine scaleStep2 e hp (1 / N c) (fun r => boxSize2 (c.a.outs r)) hX ?_ ?_ hb.data (fun r => (f r).norm)
      (fun r => (f r).normnum) (fun r hr => R.norm r hr) (fun r hr => R.normnum r hr)
    · intro r hr
      rw [boxSize2_eq_count (R.args.properOut r hr)]
      exact count2_nonneg _
    · intro r hr
      rw [boxSize2_eq_count (R.args.properOut r hr)]
      exact R.size_outs hr
  · simp only [if_neg h]
    exact ⟨m, Step.nil m, hX⟩

/-- **`compute`, forward path** (`flag = 1`, or input and output layout the same). -/
theorem compute_fwd (e : Bool) (J : Nat → Nat → Junk) (scaled remaponly : Bool) {flag : Int}
    (hflag : flag = 1 ∨ inoutSame2 c.P c.a = true) {ai ao : Nat} (hio : ai = ao ∨ preflag2 c.P c.a = true)
    {X : Grid2} {m : Nat → LMem ℝ} (hX : Holds2 c.P 0 c.a.ins ai X m) (hb : Bufs2 c.P f ao m) :
    ∃ m', Step e c.P (fsz2 f) ao (fun r => (f r).compute (J r) scaled remaponly flag ai ao) m m' ∧
      (if flag = -1 ∧ scaled ∧ ¬ remaponly then
        HoldsScaled2 c.P c.a.permute c.a.outs ao (effect c remaponly flag X) (1 / N c)
          (fun r => boxSize2 (c.a.outs r)) m'
      else Holds2 c.P c.a.permute c.a.outs ao (effect c remaponly flag X) m') := by
  obtain ⟨m1, s1, h1⟩ := R.core_fwd e J remaponly flag hio hX hb
  obtain ⟨m2, s2, h2⟩ := R.scale_part e scaled remaponly flag R.args.permute h1 (hb.congr s1.dom)
  refine ⟨m2, (s1.append s2).congr ?_, h2⟩
  intro r hr
  unfold Fft2.compute
  rw [if_pos (by rw [R.same r hr]; exact hflag)]

/-- **`compute`, inverse path.** -/
theorem compute_inv (e : Bool) (hs : inoutSame2 c.P c.a = false) (J : Nat → Nat → Junk)
    (scaled remaponly : Bool) {flag : Int} (hflag : flag ≠ 1) {ai ao : Nat}
    (hio : ai = ao ∨ (postflag2 c.P c.a = true ∧ preflag2 c.P c.a = false))
    {X : Grid2} {m : Nat → LMem ℝ} (hX : Holds2 c.P c.a.permute c.a.outs ai X m) (hb : Bufs2 c.P f ao m) :
    ∃ m', Step e c.P (fsz2 f) ao (fun r => (f r).compute (J r) scaled remaponly flag ai ao) m m' ∧
      (if flag = -1 ∧ scaled ∧ ¬ remaponly then
        HoldsScaled2 c.P 0 c.a.ins ao (effect c remaponly flag X) (1 / N c)
          (fun r => boxSize2 (c.a.outs r)) m'
      else Holds2 c.P 0 c.a.ins ao (effect c remaponly flag X) m') := by
  obtain ⟨m1, s1, h1⟩ := R.core_inv e hs J remaponly flag hio hX hb
  obtain ⟨m2, s2, h2⟩ := R.scale_part e scaled remaponly flag (Or.inl rfl) h1 (hb.congr s1.dom)
  refine ⟨m2, (s1.append s2).congr ?_, h2⟩
  intro r hr
  unfold Fft2.compute
  rw [if_neg (by rw [R.same r hr, hs]; simpa using hflag)]

/-- **Backward `compute` in place**, whichever path it takes: the result is in the input layout. -/
theorem compute_back (e : Bool) (J : Nat → Nat → Junk)
    (scaled remaponly : Bool) {ao : Nat} {X : Grid2} {m : Nat → LMem ℝ}
    (hX : Holds2 c.P c.a.permute c.a.outs ao X m) (hb : Bufs2 c.P f ao m) :
    ∃ m', Step e c.P (fsz2 f) ao (fun r => (f r).compute (J r) scaled remaponly (-1) ao ao) m m' ∧
      (if scaled ∧ ¬ remaponly then
        HoldsScaled2 c.P 0 c.a.ins ao (effect c remaponly (-1) X) (1 / N c)
          (fun r => boxSize2 (c.a.outs r)) m'
      else Holds2 c.P 0 c.a.ins ao (effect c remaponly (-1) X) m') := by
  by_cases hs : inoutSame2 c.P c.a = true
  · obtain ⟨hp, hl⟩ := R.same_layout hs
    have hX' : Holds2 c.P 0 c.a.ins ao X m := by
      intro r hr
      rw [hl r hr, ← hp]
      exact hX r hr
    obtain ⟨m', s1, h1⟩ := R.compute_fwd e J scaled remaponly (flag := -1) (Or.inr hs) (Or.inl rfl) hX' hb
    refine ⟨m', s1, ?_⟩
    simp only [true_and] at h1
    split_ifs at h1 ⊢
    · intro r hr
      rw [hl r hr]
      have := h1 r hr
      rwa [hp] at this
    · intro r hr
      rw [hl r hr]
      have := h1 r hr
      rwa [hp] at this
  · rw [Bool.not_eq_true] at hs
    obtain ⟨m', s1, h1⟩ := R.compute_inv e hs J scaled remaponly (flag := -1) (by decide) (Or.inl rfl)
      hX hb
    exact ⟨m', s1, by simpa using h1⟩

end Ready2

end FftMpi
