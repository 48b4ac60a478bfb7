import Verif.PropsFft2d

/-!
# Properties of `FFT2d`: settings, array sizes, scaling, `remaponly`, convolution, `only_*`

The 2d analogues of `PropsFft3dUse.lean`.
-/

noncomputable section

namespace FftMpi

/-- The part of array `n` that belongs to the boxes `bs` is the same in `m` and `m'`. -/
def SameOn2 (P : Nat) (bs : Nat → Box2) (n : Nat) (m m' : Nat → LMem ℝ) : Prop :=
  ∀ r < P, ∀ x, 0 ≤ x → x < 2 * (bs r).count → (m r).ub n x = (m' r).ub n x

theorem HoldsBox2.eq {p : Int} (hp : p = 0 ∨ p = 1) {b : Box2} {X : Grid2} {u v : Mem ℝ}
    (hu : HoldsBox2 p b X u) (hv : HoldsBox2 p b X v) {x : Int} (h0 : 0 ≤ x) (h1 : x < 2 * b.count) :
    u x = v x :=
  ((holdsBox2_lift hp).mp hu).eq ((holdsBox2_lift hp).mp hv) h0 (by rw [Box2.lift_count]; exact h1)

theorem Holds2.sameOn {P : Nat} {p : Int} (hp : p = 0 ∨ p = 1) {bs : Nat → Box2} {n : Nat} {X : Grid2}
    {m m' : Nat → LMem ℝ} (h : Holds2 P p bs n X m) (h' : Holds2 P p bs n X m') : SameOn2 P bs n m m' :=
  fun r hr _ h0 h1 => (h r hr).eq hp (h' r hr) h0 h1

theorem Holds2.of_sameOn {P : Nat} {p : Int} (hp : p = 0 ∨ p = 1) {bs : Nat → Box2} {n : Nat} {X : Grid2}
    {m m' : Nat → LMem ℝ} (h : Holds2 P p bs n X m) (hs : SameOn2 P bs n m m') : Holds2 P p bs n X m' := by
  rw [holds2_lift hp] at h ⊢
  exact h.of_sameOn (fun r hr x h0 h1 => hs r hr x h0 (by rwa [Box2.lift_count] at h1))

/-- Whatever an accessible array contains is a grid function in the layout. -/
theorem Ready2.some_holds {c : Create2} {f : Nat → Fft2 ℝ} {bs : Nat → Box2} {n1 n2 : Int}
    (T : Tiles2 c.P bs n1 n2) {p : Int} (hp : p = 0 ∨ p = 1) (hs : ∀ r < c.P, (bs r).count ≤ (f r).fftsize)
    {n : Nat} {m : Nat → LMem ℝ} (hd : ∀ r < c.P, accessible ((m r).ub n) 0 (2 * (f r).fftsize)) :
    ∃ X, Holds2 c.P p bs n X m := by
  obtain ⟨X, hX⟩ := holds_some (p := p) (n := n) (m := m) T.lift.disjoint (fun r hr =>
    accessible_mono (hd r hr) (by have := hs r hr; rw [Box2.lift_count]; omega))
  refine ⟨fun i j => X i j 0, ?_⟩
  intro r hr
  rw [holdsBox2_lift hp]
  intro i j k hh
  have := hX r hr i j k hh
  have hk : k = 0 := by
    have := Box2.lift_has.mp hh
    omega
  subst hk
  exact this

/-! ## C23 -/

/-- **C23 in 2d (forward).**  As `C23_settings_forward`. -/
theorem C23_settings_forward_2d {w : Int} {P : Nat} {a : Args2} {st st' : Settings} {f f' : Nat → Fft2 ℝ}
    (S : SetUp2 w P a st f) (S' : SetUp2 w P a st' f') (e e' : Bool) (J J' : Nat → Nat → Junk)
    (scaled remaponly : Bool) {n : Nat} {m m' : Nat → LMem ℝ} (hb : Bufs2 P f n m) (hb' : Bufs2 P f' n m')
    (hin : SameOn2 P a.ins n m m') :
    ∃ v v', Terminates e P (fun r => (f r).compute (J r) scaled remaponly 1 n n) m v ∧
      Terminates e' P (fun r => (f' r).compute (J' r) scaled remaponly 1 n n) m' v' ∧
      SameOn2 P a.outs n v v' := by
  obtain ⟨c, rfl, rfl, rfl, rfl, _, R⟩ := S.ready
  obtain ⟨c', hw, hP, ha, hst, _, R'⟩ := S'.ready
  obtain ⟨X, hX⟩ := Ready2.some_holds R.ins_tiles (Or.inl rfl) (fun r hr => R.size_ins hr) hb.data
  obtain ⟨v, s, h⟩ := R.compute_fwd e J scaled remaponly (flag := 1) (Or.inl rfl) (ai := n) (Or.inl rfl)
    hX hb
  obtain ⟨v', s', h'⟩ := R'.compute_fwd e' J' scaled remaponly (flag := 1) (Or.inl rfl) (ai := n) (Or.inl rfl)
    (by rw [hP, ha]; exact hX.of_sameOn (Or.inl rfl) hin) (by rw [hP]; exact hb')
  rw [hP] at s'
  rw [if_neg (by simp)] at h h'
  have ee : Ready2.effect c' remaponly 1 X = Ready2.effect c remaponly 1 X := by
    simp [Ready2.effect, Ready2.spec, ha]
  rw [hP, ha, ee] at h'
  exact ⟨v, v', s.ok.terminates, s'.ok.terminates, h.sameOn R.args.permute h'⟩

/-- **C23 in 2d (backward).**  As `C23_settings_backward_partial`, but without any condition on the buffers
beyond the sizes from `setup`. -/
theorem C23_settings_backward_2d {w : Int} {P : Nat} {a : Args2} {st st' : Settings} {f f' : Nat → Fft2 ℝ}
    (S : SetUp2 w P a st f) (S' : SetUp2 w P a st' f') (e e' : Bool) (J J' : Nat → Nat → Junk)
    (scaled remaponly : Bool) {n : Nat} {m m' : Nat → LMem ℝ} (hb : Bufs2 P f n m) (hb' : Bufs2 P f' n m')
    (hin : SameOn2 P a.outs n m m') :
    ∃ v v', Terminates e P (fun r => (f r).compute (J r) scaled remaponly (-1) n n) m v ∧
      Terminates e' P (fun r => (f' r).compute (J' r) scaled remaponly (-1) n n) m' v' ∧
      SameOn2 P a.ins n v v' := by
  obtain ⟨c, rfl, rfl, rfl, rfl, _, R⟩ := S.ready
  obtain ⟨c', hw, hP, ha, hst, _, R'⟩ := S'.ready
  obtain ⟨X, hX⟩ := Ready2.some_holds R.outs_tiles R.args.permute (fun r hr => R.size_outs hr) hb.data
  obtain ⟨v, s, h⟩ := R.compute_back e J scaled remaponly hX hb
  obtain ⟨v', s', h'⟩ := R'.compute_back e' J' scaled remaponly (ao := n) (X := X) (m := m')
    (by rw [hP, ha]; exact hX.of_sameOn R.args.permute hin) (by rw [hP]; exact hb')
  rw [hP] at s'
  have ee : Ready2.effect c' remaponly (-1) X = Ready2.effect c remaponly (-1) X := by
    simp [Ready2.effect, Ready2.spec, ha]
  have eN : Ready2.N c' = Ready2.N c := by simp [Ready2.N, ha]
  rw [hP, ha, ee, eN] at h'
  refine ⟨v, v', s.ok.terminates, s'.ok.terminates, ?_⟩
  split_ifs at h h'
  · exact fun r hr _ h0 h1 => (h r hr).eq (Or.inl rfl) (h' r hr) h0 h1
  · exact h.sameOn (Or.inl rfl) h'

/-- All combinations of settings in double precision. -/
theorem settings_valid2 (collective exchange packflag : Fin 3) :
    (⟨collective, exchange, packflag⟩ : Settings).Valid2 1 := by
  unfold Settings.Valid2 FlagOk2
  simp only
  have := packflag.isLt
  simp only [and_true]
  omega

example (c1 e1 p1 c2 e2 p2 : Fin 3) : ∃ f f' m m',
    SetUp2 1 2 (plane2 1) ⟨c1, e1, p1⟩ f ∧ SetUp2 1 2 (plane2 1) ⟨c2, e2, p2⟩ f' ∧ Bufs2 2 f 0 m ∧
    Bufs2 2 f' 0 m' ∧ SameOn2 2 (plane2 1).ins 0 m m' := by
  obtain ⟨f, S⟩ := setUp2_exists (plane2_valid 1 (by decide)) (settings_valid2 c1 e1 p1)
  obtain ⟨f', S'⟩ := setUp2_exists (plane2_valid 1 (by decide)) (settings_valid2 c2 e2 p2)
  obtain ⟨m, h⟩ := S.mem_in fun i j => i + 2 * j
  obtain ⟨m', h'⟩ := S'.mem_in fun i j => i + 2 * j
  exact ⟨f, f', m, m', S, S', (h 0).2, (h' 0).2, (h 0).1.sameOn (Or.inl rfl) (h' 0).1⟩

/-! ## C24 -/

/-- **C24 in 2d.**  `fftsize` is the largest number of grid points that the rank owns in any of the layouts:
input, output, fast and slow pencils, and bricks if they are used. -/
theorem C24_fftsize_2d {w : Int} {P : Nat} {a : Args2} {st : Settings} {f : Nat → Fft2 ℝ}
    (S : SetUp2 w P a st f) {g : Nat × Nat} (hg : setupBrick2 P a st.exchange = some g) {r : Nat} (hr : r < P) :
    (∀ b ∈ [a.ins r, a.outs r, fastBox2 P a r, slowBox2 P a r], b.count ≤ (f r).fftsize) ∧
    (st.exchange ≠ 0 → (brickBox2 a g r).count ≤ (f r).fftsize) ∧
    ((∃ b ∈ [a.ins r, a.outs r, fastBox2 P a r, slowBox2 P a r], (f r).fftsize = b.count) ∨
      st.exchange ≠ 0 ∧ (f r).fftsize = (brickBox2 a g r).count) := by
  obtain ⟨c, rfl, rfl, rfl, rfl, hg', R⟩ := S.ready
  rw [hg] at hg'
  obtain rfl := Option.some.inj hg'
  have q1 := boxSize2_eq_count (R.args.properIn r hr).1
  have q2 := boxSize2_eq_count (R.args.properOut r hr)
  have q3 : boxSize2 (fastBox2 c.P c.a r) = _ := boxSize2_eq_count (R.fast_proper hr)
  have q5 : boxSize2 (slowBox2 c.P c.a r) = _ := boxSize2_eq_count (R.slow_proper hr)
  have q6 : boxSize2 (brickBox2 c.a c.g r) = _ := boxSize2_eq_count (Ready2.brick_proper (c := c) r)
  refine ⟨?_, fun h => R.size_brick h hr, ?_⟩
  · intro b hb
    simp only [List.mem_cons, List.not_mem_nil, or_false] at hb
    rcases hb with rfl | rfl | rfl | rfl
    · exact R.size_ins hr
    · exact R.size_outs hr
    · exact R.size_fast hr
    · exact R.size_slow hr
  · have e : (f r).fftsize = if c.st.exchange ≠ 0 then
      max (max (max (max (boxSize2 (c.a.ins r)) (boxSize2 (c.a.outs r))) (boxSize2 (fastBox2 c.P c.a r)))
        (boxSize2 (slowBox2 c.P c.a r))) (boxSize2 (brickBox2 c.a c.g r))
      else max (max (max (boxSize2 (c.a.ins r)) (boxSize2 (c.a.outs r))) (boxSize2 (fastBox2 c.P c.a r)))
        (boxSize2 (slowBox2 c.P c.a r)) := by
      rw [R.fftsize r hr]; rfl
    rw [q1, q2, q3, q5, q6] at e
    simp only [List.mem_cons, List.not_mem_nil, or_false, exists_eq_or_imp, exists_eq_left]
    by_cases hx : c.st.exchange = 0
    · rw [if_neg (by simpa using hx)] at e
      omega
    · rw [if_pos hx] at e
      omega

/-- The first step of a transform with any arrays, whatever they contain, in bounds. -/
theorem Ready2.copy_any {c : Create2} {f : Nat → Fft2 ℝ} (e : Bool) (num : Nat → Int)
    {ai ao : Nat} {m : Nat → LMem ℝ}
    (h0 : ∀ r < c.P, 0 ≤ num r) (hn : ∀ r < c.P, num r ≤ 2 * (f r).fftsize)
    (hi : ∀ r < c.P, accessible ((m r).ub ai) 0 (2 * (f r).fftsize))
    (ho : ∀ r < c.P, accessible ((m r).ub ao) 0 (2 * (f r).fftsize)) :
    ∃ m', Step e c.P (fsz2 f) ao (fun r => [.loc (memcpyLoc ai ao (num r))]) m m' ∧
      ∀ r < c.P, ∀ x, (m' r).ub ao x = if 0 ≤ x ∧ x < num r then (m r).ub ai x else (m r).ub ao x := by
  have key : ∀ r, ∃ d, r < c.P → memcpyM ((m r).ub ai) ((m r).ub ao) 0 0 (num r) = some d ∧
      ∀ a, d a = if 0 ≤ a ∧ a < num r then (m r).ub ai a else (m r).ub ao a := by
    intro r
    by_cases hr : r < c.P
    · have en : (((num r).toNat : Nat) : Int) = num r := by have := h0 r hr; omega
      obtain ⟨d, hd⟩ := memcpyM_ok ((m r).ub ai) ((m r).ub ao) (num r).toNat
        (accessible_mono (hi r hr) (by rw [en]; exact hn r hr))
        (accessible_mono (ho r hr) (by rw [en]; exact hn r hr))
      rw [en] at hd
      exact ⟨d, fun _ => hd⟩
    · exact ⟨fun _ => none, fun h => absurd h hr⟩
  choose d hd using key
  obtain ⟨m', h1, h2⟩ := locStep e (size := fsz2 f) (ao := ao) (m := m)
    (fun r => memcpyLoc ai ao (num r)) d
    (by intro r hr; simp [memcpyLoc, (hd r hr).1])
    (by
      intro r hr x
      rw [(hd r hr).2]
      split_ifs with hx
      · have a1 := accessible_mono (hi r hr) (hn r hr) x hx.1 (by omega)
        have a2 := accessible_mono (ho r hr) (hn r hr) x hx.1 (by omega)
        rw [a1, a2]
      · rfl)
    (by
      intro r hr x hx
      rw [(hd r hr).2, if_neg]
      have := hn r hr
      unfold fsz2 at hx
      omega)
  refine ⟨m', h1, ?_⟩
  intro r hr x
  rw [h2 r hr]
  exact (hd r hr).2 x

namespace Ready2

variable {c : Create2} {f : Nat → Fft2 ℝ} (R : Ready2 c f)

include R

theorem insize_range {r : Nat} (hr : r < c.P) : 0 ≤ (f r).insize ∧ (f r).insize ≤ 2 * (f r).fftsize := by
  rw [R.insize r hr, boxSize2_eq_count (R.args.properIn r hr).1]
  have := count2_nonneg (c.a.ins r); have := R.size_ins hr
  omega

theorem outsize_range {r : Nat} (hr : r < c.P) : 0 ≤ (f r).outsize ∧ (f r).outsize ≤ 2 * (f r).fftsize := by
  rw [R.outsize r hr, boxSize2_eq_count (R.args.properOut r hr)]
  have := count2_nonneg (c.a.outs r); have := R.size_outs hr
  omega

/-- `remap_prefast` or the copy. -/
theorem pre_any (e : Bool) {ai ao : Nat} {m : Nat → LMem ℝ} (hbi : Bufs2 c.P f ai m) (hb : Bufs2 c.P f ao m) :
    ∃ m', Step e c.P (fsz2 f) ao (fun r => remapOrCopy2 (f r).prefast (f r).insize ai ao) m m' := by
  by_cases hpre : ai = ao ∨ preflag2 c.P c.a = true
  · obtain ⟨X, hX⟩ := Ready2.some_holds R.ins_tiles (Or.inl rfl) (fun r hr => R.size_ins hr) hbi.data
    obtain ⟨m1, s1, _⟩ := R.pre_step e hpre hX hb
    exact ⟨m1, s1⟩
  · obtain ⟨m1, s1, _⟩ := Ready2.copy_any (c := c) (f := f) e (fun r => (f r).insize) (ai := ai) (ao := ao)
      (fun r hr => (R.insize_range hr).1) (fun r hr => (R.insize_range hr).2) hbi.data hb.data
    refine ⟨m1, s1.congr ?_⟩
    intro r hr
    rw [not_or, Bool.not_eq_true] at hpre
    have : preflag2 (c.on r).P (c.on r).a = false := hpre.2
    rw [R.prefast r hr]
    simp [Create2.prefastO, this, remapOrCopy2, hpre.1]

/-- `remap_preslow` or the copy. -/
theorem preslow_any (e : Bool) (hs : inoutSame2 c.P c.a = false) {ai ao : Nat} {m : Nat → LMem ℝ}
    (hbi : Bufs2 c.P f ai m) (hb : Bufs2 c.P f ao m) :
    ∃ m', Step e c.P (fsz2 f) ao (fun r => remapOrCopy2 (f r).preslow (f r).outsize ai ao) m m' := by
  by_cases hpost : ai = ao ∨ postflag2 c.P c.a = true
  · obtain ⟨X, hX⟩ := Ready2.some_holds R.outs_tiles R.args.permute (fun r hr => R.size_outs hr) hbi.data
    obtain ⟨m1, s1, _⟩ := R.preslow_step e hs hpost hX hb
    exact ⟨m1, s1⟩
  · obtain ⟨m1, s1, _⟩ := Ready2.copy_any (c := c) (f := f) e (fun r => (f r).outsize) (ai := ai) (ao := ao)
      (fun r hr => (R.outsize_range hr).1) (fun r hr => (R.outsize_range hr).2) hbi.data hb.data
    refine ⟨m1, s1.congr ?_⟩
    intro r hr
    rw [not_or, Bool.not_eq_true] at hpost
    have : postflag2 (c.on r).P (c.on r).a = false := hpost.2
    rw [R.preslow r hr, hs]
    simp [Create2.preslowO, this, remapOrCopy2, hpost.1]

/-- `compute` stays in bounds, whatever the arrays contain. -/
theorem any (flag : Int) (e : Bool) (J : Nat → Nat → Junk)
    (scaled remaponly : Bool) (ai ao : Nat) {m : Nat → LMem ℝ} (hbi : Bufs2 c.P f ai m)
    (hb : Bufs2 c.P f ao m) :
    ∃ m', Step e c.P (fsz2 f) ao (fun r => (f r).compute (J r) scaled remaponly flag ai ao) m m' := by
  have fin : ∀ (p : Nat → List (Instr ℝ)) m1 bs pp, (pp = 0 ∨ pp = 1) → Step e c.P (fsz2 f) ao p m m1 →
      (∃ X, Holds2 c.P pp bs ao X m1) → ∃ m2, Step e c.P (fsz2 f) ao (fun r => p r ++
        if flag = -1 ∧ scaled ∧ ¬ remaponly then [.loc (scaleLoc (f r).norm (f r).normnum ao)] else []) m m2 := by
    rintro p m1 bs pp hp s1 ⟨X, hX⟩
    obtain ⟨m2, s2, _⟩ := R.scale_part e scaled remaponly flag hp hX (hb.congr s1.dom)
    exact ⟨m2, s1.append s2⟩
  by_cases hf : flag = 1 ∨ inoutSame2 c.P c.a = true
  · obtain ⟨m1, s1⟩ := R.pre_any e hbi hb
    obtain ⟨X, hX⟩ := Ready2.some_holds (m := m1) (n := ao) R.fast_tiles (Or.inl rfl) (fun r hr => R.size_fast hr)
      (hb.congr s1.dom).data
    have : ∃ m2, Step e c.P (fsz2 f) ao (fun r => remapOrCopy2 (f r).prefast (f r).insize ai ao ++
        (if remaponly then remapIf2 (f r).fastslow ao ao
        else [.loc (performLoc (J r 0) flag (f r).fftFast ao)] ++ remapIf2 (f r).fastslow ao ao ++
          [.loc (performLoc (J r 1) flag (f r).fftSlow ao)]) ++ remapIf2 (f r).postslow ao ao) m m2 ∧
        ∃ Y, Holds2 c.P c.a.permute c.a.outs ao Y m2 := by
      cases remaponly with
      | true =>
        obtain ⟨m2, s2, h2⟩ := R.fwd_rest_only e hX (hb.congr s1.dom)
        exact ⟨m2, (s1.append s2).congr (fun r _ => by simp), _, h2⟩
      | false =>
        obtain ⟨m2, s2, h2⟩ := R.fwd_rest e J flag hX (hb.congr s1.dom)
        exact ⟨m2, (s1.append s2).congr (fun r _ => by simp), _, h2⟩
    obtain ⟨m2, s2, h2⟩ := this
    obtain ⟨m3, s3⟩ := fin _ _ _ _ R.args.permute s2 h2
    refine ⟨m3, s3.congr ?_⟩
    intro r hr
    unfold Fft2.compute
    rw [if_pos (by rw [R.same r hr]; exact hf)]
  · rw [not_or, Bool.not_eq_true] at hf
    obtain ⟨hflag, hs⟩ := hf
    obtain ⟨m1, s1⟩ := R.preslow_any e hs hbi hb
    obtain ⟨X, hX⟩ := Ready2.some_holds (m := m1) (n := ao) R.slow_tiles (Or.inr rfl) (fun r hr => R.size_slow hr)
      (hb.congr s1.dom).data
    have : ∃ m2, Step e c.P (fsz2 f) ao (fun r => remapOrCopy2 (f r).preslow (f r).outsize ai ao ++
        (if remaponly then remapIf2 (f r).slowfast ao ao
        else [.loc (performLoc (J r 1) flag (f r).fftSlow ao)] ++ remapIf2 (f r).slowfast ao ao ++
          [.loc (performLoc (J r 0) flag (f r).fftFast ao)])) m m2 ∧
        ∃ Y, Holds2 c.P 0 c.fast ao Y m2 := by
      cases remaponly with
      | true =>
        obtain ⟨m2, s2, h2⟩ := R.inv_rest_only e hs hX (hb.congr s1.dom)
        exact ⟨m2, (s1.append s2).congr (fun r _ => by simp), _, h2⟩
      | false =>
        obtain ⟨m2, s2, h2⟩ := R.inv_rest e hs J flag hX (hb.congr s1.dom)
        exact ⟨m2, (s1.append s2).congr (fun r _ => by simp), _, h2⟩
    obtain ⟨m2, s2, Y, h2⟩ := this
    obtain ⟨m3, s3, h3⟩ : ∃ m3, Step e c.P (fsz2 f) ao (fun r => remapIf2 (f r).postfast ai ao) m2 m3 ∧
        ∃ Z, Holds2 c.P 0 c.a.ins ao Z m3 := by
      by_cases hpre : preflag2 c.P c.a = true
      · obtain ⟨Z, hZ⟩ := Ready2.some_holds (m := m2) (n := ai) R.fast_tiles (Or.inl rfl)
          (fun r hr => R.size_fast hr) (hbi.congr s2.dom).data
        obtain ⟨m3, s3, h3⟩ := R.postfast_step e hs (Or.inr hpre) hZ (hb.congr s2.dom)
        exact ⟨m3, s3, Z, h3⟩
      · obtain ⟨m3, s3, h3⟩ := R.postfast_step e hs (ai := ao) (Or.inl rfl) h2 (hb.congr s2.dom)
        refine ⟨m3, s3.congr ?_, Y, h3⟩
        intro r hr
        rw [Bool.not_eq_true] at hpre
        have : preflag2 (c.on r).P (c.on r).a = false := hpre
        rw [R.postfast r hr, hs]
        simp [Create2.postfastO, this, remapIf2]
    obtain ⟨m4, s4⟩ := fin _ _ _ _ (Or.inl rfl) (s2.append s3) h3
    refine ⟨m4, s4.congr ?_⟩
    intro r hr
    unfold Fft2.compute
    rw [if_neg (by rw [R.same r hr, hs]; simpa using hflag)]

end Ready2

/-- **C24 in 2d, behaviour.**  `compute` never accesses more than `fftsize` complex numbers of the arrays:
with arrays of exactly this size it completes, whatever they contain, for every `flag`, in place or not,
scaled or not, in every schedule. -/
theorem C24_no_overrun_2d {w : Int} {P : Nat} {a : Args2} {st : Settings} {f : Nat → Fft2 ℝ}
    (S : SetUp2 w P a st f) (e : Bool) (J : Nat → Nat → Junk) (scaled remaponly : Bool) (flag : Int) (ai ao : Nat)
    {m : Nat → LMem ℝ} (hbi : Bufs2 P f ai m) (hb : Bufs2 P f ao m) :
    ∃ m', Terminates e P (fun r => (f r).compute (J r) scaled remaponly flag ai ao) m m' ∧
      Kept2 P f ao m m' := by
  obtain ⟨c, rfl, rfl, rfl, rfl, _, R⟩ := S.ready
  obtain ⟨m', s⟩ := R.any flag e J scaled remaponly ai ao hbi hb
  exact ⟨m', s.ok.terminates, s.kept2⟩

example (w : Int) (st : Settings) (hst : st.Valid2 w) : ∃ (f : Nat → Fft2 ℝ) (m : Nat → LMem ℝ),
    SetUp2 w 2 (plane2 1) st f ∧ ∀ n, Bufs2 2 f n m ∧ ∀ r < 2,
    ∀ x, ((m r).ub n x).isSome = true ↔ 0 ≤ x ∧ x < 2 * (f r).fftsize := by
  obtain ⟨f, S⟩ := setUp2_exists (plane2_valid 1 (by decide)) hst
  refine ⟨f, memOf2 f 0 (plane2 1).ins (fun _ _ => 1) (fun r => (f r).sendsize) (fun r => (f r).recvsize), S,
    fun n => ⟨memOf2_bufs n (fun _ _ => le_rfl) (fun _ _ => le_rfl), ?_⟩⟩
  intro r _ x
  simp only [memOf2, arrayOf]
  by_cases h : 0 ≤ x ∧ x < 2 * (f r).fftsize
  · rw [if_pos h]
    split_ifs <;> simp [h]
  · rw [if_neg h]
    simp only [Option.isSome_none, Bool.false_eq_true, false_iff]; exact h

/-! ## C27 -/

/-- **C27 in 2d, partial.**  A scaled backward transform gives `1/(nfast*nslow)` times the inverse DFT at
every point of the input layout, provided no rank owns more points in the input than in the output layout.
Otherwise it is false, see `C27_false_2d`. -/
theorem C27_scaled_backward_2d_partial {w : Int} {P : Nat} {a : Args2} {st : Settings} {f : Nat → Fft2 ℝ}
    (S : SetUp2 w P a st f) (hio : ∀ r < P, (a.ins r).count ≤ (a.outs r).count) (e : Bool)
    (J : Nat → Nat → Junk) {n : Nat} {X : Grid2} {m : Nat → LMem ℝ}
    (hX : Holds2 P a.permute a.outs n X m) (hb : Bufs2 P f n m) :
    ∃ m', Terminates e P (fun r => (f r).compute (J r) true false (-1) n n) m m' ∧
      Holds2 P 0 a.ins n (fun i j => 1 / (a.nfast * a.nslow) * a.dft true X i j) m' := by
  obtain ⟨c, rfl, rfl, rfl, rfl, _, R⟩ := S.ready
  obtain ⟨m', s, h⟩ := R.compute_back e J true false hX hb
  rw [if_pos (by simp)] at h
  have h := h.all (Or.inl rfl) (by
    intro r hr
    rw [boxSize2_eq_count (S.args.properOut r hr)]
    exact hio r hr)
  refine ⟨m', s.ok.terminates, ?_⟩
  convert h using 4
  · simp [Ready2.N]
  · simp [Ready2.effect]

/-- **C27 in 2d, what happens in general**: exactly the first `count (outs r)` complex numbers of the array
are scaled. -/
theorem C27_scaled_points_2d {w : Int} {P : Nat} {a : Args2} {st : Settings} {f : Nat → Fft2 ℝ}
    (S : SetUp2 w P a st f) (e : Bool) (J : Nat → Nat → Junk) {n : Nat} {X : Grid2} {m : Nat → LMem ℝ}
    (hX : Holds2 P a.permute a.outs n X m) (hb : Bufs2 P f n m) :
    ∃ m', Terminates e P (fun r => (f r).compute (J r) true false (-1) n n) m m' ∧
      ∀ r < P, HoldsBox2 0 (a.ins r) (fun i j =>
        if addr2 0 (a.ins r) 1 i j 0 < (a.outs r).count then
          1 / (a.nfast * a.nslow) * a.dft true X i j
        else a.dft true X i j) ((m' r).ub n) := by
  obtain ⟨c, rfl, rfl, rfl, rfl, _, R⟩ := S.ready
  obtain ⟨m', s, h⟩ := R.compute_back e J true false hX hb
  rw [if_pos (by simp)] at h
  refine ⟨m', s.ok.terminates, ?_⟩
  intro r hr
  have := h r hr
  simp only [boxSize2_eq_count (S.args.properOut r hr)] at this
  have eN : ((1 / Ready2.N c : ℝ) : ℂ) = 1 / (c.a.nfast * c.a.nslow) := by
    unfold Ready2.N; push_cast; rfl
  have ee : Ready2.effect c false (-1) X = c.a.dft true X := by simp [Ready2.effect]
  rw [eN, ee] at this
  exact this

/-- **C27 is false in general in 2d**: rank 0 owns the whole input, rank 1 the whole output; the scaled
backward transform of the constant 1 has the value 4 instead of 1 at the origin. -/
theorem C27_false_2d : ∃ (P : Nat) (a : Args2) (st : Settings) (f : Nat → Fft2 ℝ) (X : Grid2)
    (m m' : Nat → LMem ℝ), SetUp2 1 P a st f ∧ Holds2 P a.permute a.outs 0 X m ∧ Bufs2 P f 0 m ∧
    Terminates false P (fun r => (f r).compute (fun _ _ => (0, 0)) true false (-1) 0 0) m m' ∧
    ¬ Holds2 P 0 a.ins 0 (fun i j => 1 / (a.nfast * a.nslow) * a.dft true X i j) m' := by
  obtain ⟨f, S⟩ := setUp2_exists (w := 1) moved2_valid (st := ⟨2, 0, 2⟩) (by simp [Settings.Valid2, FlagOk2])
  obtain ⟨m, h⟩ := S.mem_out fun _ _ => 1
  obtain ⟨m', t, h'⟩ := C27_scaled_points_2d S false (fun _ _ _ => (0, 0)) (h 0).1 (h 0).2
  refine ⟨2, moved2, _, f, _, m, m', S, (h 0).1, (h 0).2, t, ?_⟩
  intro hc
  have hh : (moved2.ins 0).Has 0 0 := by simp [moved2, Box2.Has]
  have g1 := (hc 0 (by decide) 0 0 hh).1
  have g2 := (h' 0 (by decide) 0 0 hh).1
  have e0 : (moved2.outs 0).count = 0 := by simp [moved2, Box2.count, Box2.isize, Box2.jsize]
  have ha := (addr2_range (permute := 0) (nqty := 1) (q := 0) (Or.inl rfl) hh (by decide)).1
  have hneg : ¬ addr2 0 (moved2.ins 0) 1 0 0 0 < (moved2.outs 0).count := by rw [e0]; omega
  simp only [hneg, if_false] at g2
  dsimp only at g1
  have e8 : moved2.dft true (fun _ _ => 1) 0 0 = 4 := by
    simp [Args2.dft, dft2, moved2]; norm_num
  rw [e8] at g1 g2
  rw [g1] at g2
  simp only [moved2, Option.some.injEq] at g2
  norm_num at g2

/-! ## C28 -/

/-- **C28 in 2d (forward).**  With `remaponly` a forward `compute` moves the data to the output layout. -/
theorem C28_remaponly_forward_2d {w : Int} {P : Nat} {a : Args2} {st : Settings} {f : Nat → Fft2 ℝ}
    (S : SetUp2 w P a st f)
    (e : Bool) (J : Nat → Nat → Junk) (scaled : Bool) {n : Nat} {X : Grid2} {m : Nat → LMem ℝ}
    (hX : Holds2 P 0 a.ins n X m) (hb : Bufs2 P f n m) :
    ∃ m', Terminates e P (fun r => (f r).compute (J r) scaled true 1 n n) m m' ∧
      Holds2 P a.permute a.outs n X m' ∧ Kept2 P f n m m' := by
  obtain ⟨c, rfl, rfl, rfl, rfl, _, R⟩ := S.ready
  obtain ⟨m', s, h⟩ := R.compute_fwd e J scaled true (flag := 1) (Or.inl rfl) (ai := n) (ao := n)
    (Or.inl rfl) hX hb
  exact ⟨m', s.ok.terminates, by simpa [Ready2.effect] using h, s.kept2⟩

/-- **C28 in 2d (round trip).**  Forward then backward with `remaponly` restores the values of the
rank's input box exactly and without scaling. -/
theorem C28_remaponly_round_trip_2d {w : Int} {P : Nat} {a : Args2} {st : Settings} {f : Nat → Fft2 ℝ}
    (S : SetUp2 w P a st f) (e : Bool) (J J' : Nat → Nat → Junk) (scaled : Bool) {n : Nat} {m : Nat → LMem ℝ}
    (hb : Bufs2 P f n m) :
    ∃ m', Terminates e P (fun r => (f r).compute (J r) scaled true 1 n n ++
        (f r).compute (J' r) scaled true (-1) n n) m m' ∧
      SameOn2 P a.ins n m m' := by
  obtain ⟨c, rfl, rfl, rfl, rfl, _, R⟩ := S.ready
  obtain ⟨X, hX⟩ := Ready2.some_holds R.ins_tiles (Or.inl rfl) (fun r hr => R.size_ins hr) hb.data
  obtain ⟨m1, s1, h1⟩ := R.compute_fwd e J scaled true (flag := 1) (Or.inl rfl) (ai := n) (ao := n)
    (Or.inl rfl) hX hb
  have h1' : Holds2 c.P c.a.permute c.a.outs n X m1 := by simpa [Ready2.effect] using h1
  obtain ⟨m2, s2, h2⟩ := R.compute_back e J' scaled true h1' (hb.congr s1.dom)
  refine ⟨m2, (s1.append s2).ok.terminates, hX.sameOn (Or.inl rfl) ?_⟩
  simpa [Ready2.effect] using h2

/-! ## C43 -/

theorem mulStep2 (e : Bool) {P : Nat} {size : Nat → Int} {n1 n2 : Nat} {p : Int} (hp : p = 0 ∨ p = 1)
    {bs : Nat → Box2} {X Y : Grid2} {m : Nat → LMem ℝ} (hX : Holds2 P p bs n1 X m) (hY : Holds2 P p bs n2 Y m)
    (hs : ∀ r < P, (bs r).count ≤ size r) (num : Nat → Int) (hnum : ∀ r < P, num r = (bs r).count) :
    ∃ m', Step e P size n1 (fun r => [.loc (mulLoc n1 n2 (num r))]) m m' ∧
      Holds2 P p bs n1 (fun i j => X i j * Y i j) m' := by
  obtain ⟨m', s, h⟩ := mulStep e (size := size) ((holds2_lift hp).mp hX) ((holds2_lift hp).mp hY)
    (fun r hr => by rw [Box2.lift_count]; exact hs r hr) num
    (fun r hr => by rw [Box2.lift_count]; exact hnum r hr)
  exact ⟨m', s, (holds2_lift hp).mpr h⟩

/-- Two forward transforms, elementwise multiplication of the rank's `outsize` output values, a backward
transform. -/
def convolve2 (f : Fft2 ℝ) (J : Nat → Nat → Junk) (scaled : Bool) (n1 n2 : Nat) : List (Instr ℝ) :=
  f.compute (J 0) scaled false 1 n1 n1 ++ f.compute (J 1) scaled false 1 n2 n2 ++
    [.loc (mulLoc n1 n2 f.outsize)] ++ f.compute (J 2) scaled false (-1) n1 n1

theorem convolve2_step {w : Int} {P : Nat} {a : Args2} {st : Settings} {f : Nat → Fft2 ℝ}
    (S : SetUp2 w P a st f) (e : Bool) (J : Nat → Nat → Nat → Junk) (scaled : Bool) {n1 n2 : Nat}
    (hne : n1 ≠ n2) {X Y : Grid2}
    {m : Nat → LMem ℝ} (hX : Holds2 P 0 a.ins n1 X m) (hY : Holds2 P 0 a.ins n2 Y m)
    (hb1 : Bufs2 P f n1 m) (hb2 : Bufs2 P f n2 m) :
    ∃ m', StageOK e P (fun r => convolve2 (f r) (J r) scaled n1 n2) m m' ∧
      (if scaled then HoldsScaled2 P 0 a.ins n1 (fun i j => (a.N : ℂ) *
          conv2 a.nfast.toNat a.nslow.toNat X Y i j) (1 / a.N) (fun r => boxSize2 (a.outs r)) m'
      else Holds2 P 0 a.ins n1 (fun i j => (a.N : ℂ) *
          conv2 a.nfast.toNat a.nslow.toNat X Y i j) m') := by
  obtain ⟨c, rfl, rfl, rfl, rfl, _, R⟩ := S.ready
  obtain ⟨m1, s1, h1⟩ := R.compute_fwd e (fun r => J r 0) scaled false (flag := 1) (Or.inl rfl) (ai := n1)
    (ao := n1) (Or.inl rfl) hX hb1
  have h1' : Holds2 c.P c.a.permute c.a.outs n1 (c.a.dft false X) m1 := by simpa [Ready2.effect] using h1
  have hY1 : Holds2 c.P 0 c.a.ins n2 Y m1 := by
    intro r hr
    rw [s1.other r hr n2 hne.symm]
    exact hY r hr
  obtain ⟨m2, s2, h2⟩ := R.compute_fwd e (fun r => J r 1) scaled false (flag := 1) (Or.inl rfl) (ai := n2)
    (ao := n2) (Or.inl rfl) hY1 (hb2.congr s1.dom)
  have h2' : Holds2 c.P c.a.permute c.a.outs n2 (c.a.dft false Y) m2 := by simpa [Ready2.effect] using h2
  have h1'' : Holds2 c.P c.a.permute c.a.outs n1 (c.a.dft false X) m2 := by
    intro r hr
    rw [s2.other r hr n1 hne]
    exact h1' r hr
  have d12 := s1.dom.trans s2.dom
  obtain ⟨m3, s3, h3⟩ := mulStep2 e (size := fsz2 f) R.args.permute h1'' h2' (fun r hr => R.size_outs hr)
    (fun r => (f r).outsize) (fun r hr => by
      rw [R.outsize r hr, boxSize2_eq_count (R.args.properOut r hr)])
  have d13 := d12.trans s3.dom
  have e1 := R.args.fast; have e3 := R.args.slow
  have h3' : Holds2 c.P c.a.permute c.a.outs n1
      (c.a.dft false (conv2 c.a.nfast.toNat c.a.nslow.toNat X Y)) m3 := by
    refine h3.congr R.outs_tiles ?_
    intro i j _ _
    exact (dft2_conv (by omega) (by omega) false X Y i j).symm
  obtain ⟨m4, s4, h4⟩ := R.compute_back e (fun r => J r 2) scaled false h3' (hb1.congr d13)
  have inv := R.dft_inv (conv2 c.a.nfast.toNat c.a.nslow.toNat X Y)
  refine ⟨m4, ((s1.ok.append s2.ok).append s3.ok).append s4.ok, ?_⟩
  cases scaled with
  | true =>
    simp only [Bool.false_eq_true, not_false_eq_true, and_true, if_true] at h4 ⊢
    intro r hr i j hh
    obtain ⟨q1, q2⟩ := R.ins_tiles.inside r hr i j hh
    have := h4 r hr i j hh
    dsimp only at this
    rw [inv i j q1 q2] at this
    exact this
  | false =>
    simp only [Bool.false_eq_true, not_false_eq_true, and_true, if_false] at h4 ⊢
    exact h4.congr R.ins_tiles inv

/-- **C43 in 2d.**  Multiplying the transforms of two grids elementwise in the output layout (any layout,
any `permute`) and transforming back gives `nfast*nslow` times their circular convolution in the input
layout. -/
theorem C43_convolution_2d {w : Int} {P : Nat} {a : Args2} {st : Settings} {f : Nat → Fft2 ℝ}
    (S : SetUp2 w P a st f) (e : Bool) (J : Nat → Nat → Nat → Junk) {n1 n2 : Nat} (hne : n1 ≠ n2) {X Y : Grid2}
    {m : Nat → LMem ℝ} (hX : Holds2 P 0 a.ins n1 X m) (hY : Holds2 P 0 a.ins n2 Y m)
    (hb1 : Bufs2 P f n1 m) (hb2 : Bufs2 P f n2 m) :
    ∃ m', Terminates e P (fun r => convolve2 (f r) (J r) false n1 n2) m m' ∧
      Holds2 P 0 a.ins n1 (fun i j => (a.nfast * a.nslow : ℂ) *
        conv2 a.nfast.toNat a.nslow.toNat X Y i j) m' := by
  obtain ⟨m', s, h⟩ := convolve2_step S e J false hne hX hY hb1 hb2
  exact ⟨m', s.terminates, by simpa [Args2.N] using h⟩

/-- **C43 in 2d with scaling, partial**: the circular convolution itself, if no rank owns more points in the
input than in the output layout (`C27_false_2d`). -/
theorem C43_convolution_scaled_2d_partial {w : Int} {P : Nat} {a : Args2} {st : Settings} {f : Nat → Fft2 ℝ}
    (S : SetUp2 w P a st f) (hio : ∀ r < P, (a.ins r).count ≤ (a.outs r).count) (e : Bool)
    (J : Nat → Nat → Nat → Junk) {n1 n2 : Nat} (hne : n1 ≠ n2) {X Y : Grid2}
    {m : Nat → LMem ℝ} (hX : Holds2 P 0 a.ins n1 X m) (hY : Holds2 P 0 a.ins n2 Y m)
    (hb1 : Bufs2 P f n1 m) (hb2 : Bufs2 P f n2 m) :
    ∃ m', Terminates e P (fun r => convolve2 (f r) (J r) true n1 n2) m m' ∧
      Holds2 P 0 a.ins n1 (conv2 a.nfast.toNat a.nslow.toNat X Y) m' := by
  obtain ⟨m', s, h⟩ := convolve2_step S e J true hne hX hY hb1 hb2
  refine ⟨m', s.terminates, ?_⟩
  simp only [if_true] at h
  have h := h.all (Or.inl rfl) (by
    intro r hr
    rw [boxSize2_eq_count (S.args.properOut r hr)]
    exact hio r hr)
  rwa [scaled_back2 S.args] at h

/-- Two arrays with different contents. -/
example (w : Int) (st : Settings) (hst : st.Valid2 w) (X Y : Grid2) :
    ∃ f m, SetUp2 w 2 (plane2 1) st f ∧ Holds2 2 0 (plane2 1).ins 0 X m ∧ Holds2 2 0 (plane2 1).ins 1 Y m ∧
      Bufs2 2 f 0 m ∧ Bufs2 2 f 1 m := by
  obtain ⟨f, S⟩ := setUp2_exists (plane2_valid 1 (by decide)) hst
  obtain ⟨m, h⟩ := S.mem_in X
  obtain ⟨m', h'⟩ := S.mem_in Y
  refine ⟨f, fun r => { m r with ub := fun n => if n = 0 then (m r).ub 0 else (m' r).ub n }, S, ?_, ?_, ?_, ?_⟩
  · exact fun r hr => (h 0).1 r hr
  · exact fun r hr => (h' 1).1 r hr
  · exact ⟨fun r hr => (h 0).2.data r hr, (h 0).2.sb, (h 0).2.rb⟩
  · exact ⟨fun r hr => (h' 1).2.data r hr, (h 0).2.sb, (h 0).2.rb⟩

/-! ## C46 -/

/-- **C46 in 2d, 1d FFTs.**  `only_1d_ffts` completes with arrays of `fftsize` complex numbers, whatever they
contain, and changes nothing else.  It does not communicate. -/
theorem C46_only_1d_in_bounds_2d {w : Int} {P : Nat} {a : Args2} {st : Settings} {f : Nat → Fft2 ℝ}
    (S : SetUp2 w P a st f) (e : Bool) (J : Nat → Nat → Junk) (flag : Int) (n : Nat) {m : Nat → LMem ℝ}
    (hd : ∀ r < P, accessible ((m r).ub n) 0 (2 * (f r).fftsize)) :
    ∃ m', Terminates e P (fun r => (f r).only1d (J r) flag n) m m' ∧ Kept2 P f n m m' := by
  obtain ⟨c, rfl, rfl, rfl, rfl, _, R⟩ := S.ready
  obtain ⟨X, hX⟩ := Ready2.some_holds R.fast_tiles (Or.inl rfl) (fun r hr => R.size_fast hr) hd
  obtain ⟨m1, s1, _⟩ := R.fftFast_step e (fun r => J r 0) flag hX
  obtain ⟨Z, hZ⟩ := Ready2.some_holds R.slow_tiles (Or.inr rfl) (fun r hr => R.size_slow hr)
    (fun r hr => accessible_congr ((s1.dom r hr).1 n) (hd r hr))
  obtain ⟨m3, s3, _⟩ := R.fftSlow_step e (fun r => J r 1) flag hZ
  have s := s1.append s3
  exact ⟨m3, (s.ok.congr fun r _ => rfl).terminates, s.kept2⟩

/-- **C46 in 2d, composition.**  In place, `only_one_remap` for `which` = 1, 2, 3 (forward, or layouts the
same) or 3, 2, 1 (backward) is `only_remaps`, and this is `compute` with `remaponly`. -/
theorem C46_only_one_remap_composes_2d (f : Fft2 ℝ) (J : Nat → Junk) (scaled : Bool) (flag : Int) (n : Nat) :
    f.onlyRemaps flag n n =
      (if flag = 1 ∨ f.same then
        f.onlyOneRemap flag 1 n n ++ f.onlyOneRemap flag 2 n n ++ f.onlyOneRemap flag 3 n n
      else
        f.onlyOneRemap flag 3 n n ++ f.onlyOneRemap flag 2 n n ++ f.onlyOneRemap flag 1 n n) ∧
    f.onlyRemaps flag n n = f.compute J scaled true flag n n := by
  unfold Fft2.onlyRemaps Fft2.onlyOneRemap Fft2.compute
  by_cases h : flag = 1 ∨ f.same = true
  · simp [h]
  · simp [h]

/-- **C46 in 2d, effect.**  The three `only_one_remap` of the forward direction bring the data to the output
layout. -/
theorem C46_only_remaps_forward_2d {w : Int} {P : Nat} {a : Args2} {st : Settings} {f : Nat → Fft2 ℝ}
    (S : SetUp2 w P a st f) (e : Bool) {n : Nat} {X : Grid2} {m : Nat → LMem ℝ}
    (hX : Holds2 P 0 a.ins n X m) (hb : Bufs2 P f n m) :
    ∃ m', Terminates e P (fun r => (f r).onlyOneRemap 1 1 n n ++ (f r).onlyOneRemap 1 2 n n ++
        (f r).onlyOneRemap 1 3 n n) m m' ∧
      Holds2 P a.permute a.outs n X m' ∧ Kept2 P f n m m' := by
  obtain ⟨m', h1, h2, h3⟩ := C28_remaponly_forward_2d S e (fun _ _ _ => (0, 0)) false hX hb
  refine ⟨m', ?_, h2, h3⟩
  have : (fun r => (f r).onlyOneRemap 1 1 n n ++ (f r).onlyOneRemap 1 2 n n ++
        (f r).onlyOneRemap 1 3 n n) =
      fun r => (f r).compute (fun _ _ => (0, 0)) false true 1 n n := by
    funext r
    have := C46_only_one_remap_composes_2d (f r) (fun _ _ => (0, 0)) false 1 n
    rw [if_pos (Or.inl rfl)] at this
    rw [← this.2, this.1]
  rw [this]
  exact h1

/-- Example: all hypotheses are met by the running example. -/
example (w : Int) (st : Settings) (hst : st.Valid2 w) (X : Grid2) : ∃ f m, SetUp2 w 2 (plane2 0) st f ∧
    Holds2 2 0 (plane2 0).ins 3 X m ∧ Bufs2 2 f 3 m := by
  obtain ⟨f, S⟩ := setUp2_exists (plane2_valid 0 (by decide)) hst
  obtain ⟨m, h⟩ := S.mem_in X
  exact ⟨f, m, S, h 3⟩

end FftMpi
