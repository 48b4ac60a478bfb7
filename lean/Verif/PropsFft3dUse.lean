import Verif.PropsFft3d

/-!
# Properties of `FFT3d`: settings, array sizes, scaling, `remaponly`, convolution, `only_*`
-/

noncomputable section

namespace FftMpi

theorem HoldsBox.eq {p : Int} {b : Box3} {X : Grid3} {u v : Mem ℝ} (hu : HoldsBox p b X u)
    (hv : HoldsBox p b X v) {x : Int} (h0 : 0 ≤ x) (h1 : x < 2 * b.count) : u x = v x := by
  obtain ⟨i, j, k, q, hh, hq, rfl⟩ := addr_of_lt (p := p) h0 h1
  rcases hq with rfl | rfl
  · rw [(hu i j k hh).1, (hv i j k hh).1]
  · rw [(hu i j k hh).2, (hv i j k hh).2]

/-- The part of array `n` that belongs to the boxes `bs` is the same in `m` and `m'`. -/
def SameOn (P : Nat) (bs : Nat → Box3) (n : Nat) (m m' : Nat → LMem ℝ) : Prop :=
  ∀ r < P, ∀ x, 0 ≤ x → x < 2 * (bs r).count → (m r).ub n x = (m' r).ub n x

theorem Holds.sameOn {P : Nat} {p : Int} {bs : Nat → Box3} {n : Nat} {X : Grid3} {m m' : Nat → LMem ℝ}
    (h : Holds P p bs n X m) (h' : Holds P p bs n X m') : SameOn P bs n m m' :=
  fun r hr _ h0 h1 => (h r hr).eq (h' r hr) h0 h1

theorem Holds.of_sameOn {P : Nat} {p : Int} {bs : Nat → Box3} {n : Nat} {X : Grid3} {m m' : Nat → LMem ℝ}
    (h : Holds P p bs n X m) (hs : SameOn P bs n m m') : Holds P p bs n X m' := by
  intro r hr i j k hh
  have hc := Box3.count_of_has hh
  have r0 := addr3_range (permute := p) (nqty := 2) (q := 0) hh (by decide)
  have r1 := addr3_range (permute := p) (nqty := 2) (q := 1) hh (by decide)
  obtain ⟨g0, g1⟩ := h r hr i j k hh
  rw [← hs r hr _ r0.1 (by omega), ← hs r hr _ r1.1 (by omega)]
  exact ⟨g0, g1⟩

/-- Whatever an accessible array contains is a grid function in the layout. -/
theorem Ready.some_holds {c : Create} {f : Nat → Fft3 ℝ} {bs : Nat → Box3} {n1 n2 n3 : Int}
    (T : Tiles3 c.P bs n1 n2 n3) (p : Int) (hs : ∀ r < c.P, (bs r).count ≤ (f r).fftsize) {n : Nat}
    {m : Nat → LMem ℝ} (hd : ∀ r < c.P, accessible ((m r).ub n) 0 (2 * (f r).fftsize)) :
    ∃ X, Holds c.P p bs n X m :=
  holds_some T.disjoint fun r hr => accessible_mono (hd r hr) (by have := hs r hr; omega)

/-! ## C23 -/

/-- **C23 (forward).**  The result of a forward transform on the rank's output box does not depend on
`collective`, `exchange`, `packflag`, the library's send mode, or the schedule: two runs with any settings
and the same input values give the same output values.  No condition on buffers beyond the sizes from
`setup`. -/
theorem C23_settings_forward {P : Nat} {a : Args3} {st st' : Settings} {f f' : Nat → Fft3 ℝ}
    (S : SetUp3 P a st f) (S' : SetUp3 P a st' f') (e e' : Bool) (J J' : Nat → Nat → Junk)
    (scaled remaponly : Bool) {n : Nat} {m m' : Nat → LMem ℝ} (hb : Bufs P f n m) (hb' : Bufs P f' n m')
    (hin : SameOn P a.ins n m m') :
    ∃ w w', Terminates e P (fun r => (f r).compute (J r) scaled remaponly 1 n n) m w ∧
      Terminates e' P (fun r => (f' r).compute (J' r) scaled remaponly 1 n n) m' w' ∧
      SameOn P a.outs n w w' := by
  obtain ⟨c, rfl, rfl, rfl, _, R⟩ := S.ready
  obtain ⟨c', hP, ha, hst, _, R'⟩ := S'.ready
  obtain ⟨X, hX⟩ := Ready.some_holds R.ins_tiles 0 (fun r hr => R.size_ins hr) hb.data
  obtain ⟨w, s, h⟩ := R.compute_fwd e J scaled remaponly (flag := 1) (Or.inl rfl) (ai := n) (Or.inl rfl)
    hX hb
  obtain ⟨w', s', h'⟩ := R'.compute_fwd e' J' scaled remaponly (flag := 1) (Or.inl rfl) (ai := n) (Or.inl rfl)
    (by rw [hP, ha]; exact hX.of_sameOn hin) (by rw [hP]; exact hb')
  rw [hP] at s'
  rw [if_neg (by simp)] at h h'
  have ee : Ready.effect c' remaponly 1 X = Ready.effect c remaponly 1 X := by
    simp [Ready.effect, Ready.spec, ha]
  rw [hP, ha, ee] at h'
  exact ⟨w, w', s.ok.terminates, s'.ok.terminates, h.sameOn h'⟩

/-- **C23 (backward), partial.**  The same for backward transforms, scaled or not.  Missing: `RoomBack`,
see `C25_false`. -/
theorem C23_settings_backward_partial {P : Nat} {a : Args3} {st st' : Settings} {f f' : Nat → Fft3 ℝ}
    (S : SetUp3 P a st f) (S' : SetUp3 P a st' f') (e e' : Bool) (J J' : Nat → Nat → Junk)
    (scaled remaponly : Bool) {n : Nat} {m m' : Nat → LMem ℝ} (hb : Bufs P f n m) (hb' : Bufs P f' n m')
    (hr : RoomBack P a st m) (hr' : RoomBack P a st' m')
    (hin : SameOn P a.outs n m m') :
    ∃ w w', Terminates e P (fun r => (f r).compute (J r) scaled remaponly (-1) n n) m w ∧
      Terminates e' P (fun r => (f' r).compute (J' r) scaled remaponly (-1) n n) m' w' ∧
      SameOn P a.ins n w w' := by
  obtain ⟨c, rfl, rfl, rfl, _, R⟩ := S.ready
  obtain ⟨c', hP, ha, hst, _, R'⟩ := S'.ready
  obtain ⟨X, hX⟩ := Ready.some_holds R.outs_tiles c.a.permute (fun r hr => R.size_outs hr) hb.data
  obtain ⟨w, s, h⟩ := R.back e J scaled remaponly hX hb hr
  obtain ⟨w', s', h'⟩ := R'.back e' J' scaled remaponly (n := n) (X := X) (m := m')
    (by rw [hP, ha]; exact hX.of_sameOn hin) (by rw [hP]; exact hb') (by rw [hP, ha, hst]; exact hr')
  rw [hP] at s'
  have ee : Ready.effect c' remaponly (-1) X = Ready.effect c remaponly (-1) X := by
    simp [Ready.effect, Ready.spec, ha]
  rw [hP, ha, ee] at h'
  refine ⟨w, w', s.ok.terminates, s'.ok.terminates, ?_⟩
  split_ifs at h h'
  · exact fun r hr _ h0 h1 => (h r hr).eq (h' r hr) h0 h1
  · exact h.sameOn h'

/-- All 18 combinations of settings. -/
theorem settings_valid (collective exchange packflag : Fin 3) :
    (⟨collective, exchange, packflag⟩ : Settings).Valid := by
  unfold Settings.Valid
  simp only
  have := packflag.isLt
  omega

example (c1 e1 p1 c2 e2 p2 : Fin 3) : ∃ f f' m m',
    SetUp3 2 (demo3 2) ⟨c1, e1, p1⟩ f ∧ SetUp3 2 (demo3 2) ⟨c2, e2, p2⟩ f' ∧ Bufs 2 f 0 m ∧ Bufs 2 f' 0 m' ∧
    SameOn 2 (demo3 2).ins 0 m m' := by
  obtain ⟨f, S⟩ := setUp3_exists (demo3_valid 2 (by decide)) (settings_valid c1 e1 p1)
  obtain ⟨f', S'⟩ := setUp3_exists (demo3_valid 2 (by decide)) (settings_valid c2 e2 p2)
  obtain ⟨m, h⟩ := S.mem_in fun i j k => i + 2 * j + 4 * k
  obtain ⟨m', h'⟩ := S'.mem_in fun i j k => i + 2 * j + 4 * k
  exact ⟨f, f', m, m', S, S', (h 0).2, (h' 0).2, (h 0).1.sameOn (h' 0).1⟩

/-! ## C24 -/

/-- **C24.**  `fftsize` is the largest number of grid points that the rank owns in any of the layouts:
input, output, fast, mid, slow pencils, and bricks if they are used. -/
theorem C24_fftsize {P : Nat} {a : Args3} {st : Settings} {f : Nat → Fft3 ℝ} (S : SetUp3 P a st f) {g : Grids}
    (hg : setupGrids P a st.exchange = some g) {r : Nat} (hr : r < P) :
    (∀ b ∈ [a.ins r, a.outs r, fastBox P a g r, midBox a g r, slowBox P a g r], b.count ≤ (f r).fftsize) ∧
    (st.exchange ≠ 0 → (brickBox a g r).count ≤ (f r).fftsize) ∧
    ((∃ b ∈ [a.ins r, a.outs r, fastBox P a g r, midBox a g r, slowBox P a g r], (f r).fftsize = b.count) ∨
      st.exchange ≠ 0 ∧ (f r).fftsize = (brickBox a g r).count) := by
  obtain ⟨c, rfl, rfl, rfl, hg', R⟩ := S.ready
  rw [hg] at hg'
  obtain rfl := Option.some.inj hg'
  have q1 := boxSize_eq_count (R.args.properIn r hr).1
  have q2 := boxSize_eq_count (R.args.properOut r hr)
  have q3 : boxSize (fastBox c.P c.a c.g r) = _ := boxSize_eq_count (R.fast_proper hr)
  have q4 : boxSize (midBox c.a c.g r) = _ := boxSize_eq_count (R.mid_proper r)
  have q5 : boxSize (slowBox c.P c.a c.g r) = _ := boxSize_eq_count (R.slow_proper hr)
  have q6 : boxSize (brickBox c.a c.g r) = _ := boxSize_eq_count (Ready.brick_proper (c := c) r)
  refine ⟨?_, fun h => R.size_brick h hr, ?_⟩
  · intro b hb
    simp only [List.mem_cons, List.not_mem_nil, or_false] at hb
    rcases hb with rfl | rfl | rfl | rfl | rfl
    · exact R.size_ins hr
    · exact R.size_outs hr
    · exact R.size_fast hr
    · exact R.size_mid hr
    · exact R.size_slow hr
  · have e : (f r).fftsize = if c.st.exchange ≠ 0 then
      max (max (max (max (max (boxSize (c.a.ins r)) (boxSize (c.a.outs r))) (boxSize (fastBox c.P c.a c.g r)))
        (boxSize (midBox c.a c.g r))) (boxSize (slowBox c.P c.a c.g r))) (boxSize (brickBox c.a c.g r))
      else max (max (max (max (boxSize (c.a.ins r)) (boxSize (c.a.outs r))) (boxSize (fastBox c.P c.a c.g r)))
        (boxSize (midBox c.a c.g r))) (boxSize (slowBox c.P c.a c.g r)) := by
      rw [R.fftsize r hr]; rfl
    rw [q1, q2, q3, q4, q5, q6] at e
    simp only [List.mem_cons, List.not_mem_nil, or_false, exists_eq_or_imp, exists_eq_left]
    by_cases hx : c.st.exchange = 0
    · rw [if_neg (by simpa using hx)] at e
      omega
    · rw [if_pos hx] at e
      omega

/-- The first step of a transform with any arrays, whatever they contain, in bounds. -/
theorem Ready.copy_any {c : Create} {f : Nat → Fft3 ℝ} (e : Bool) (num : Nat → Int)
    {ai ao : Nat} {m : Nat → LMem ℝ}
    (h0 : ∀ r < c.P, 0 ≤ num r) (hn : ∀ r < c.P, num r ≤ 2 * (f r).fftsize)
    (hi : ∀ r < c.P, accessible ((m r).ub ai) 0 (2 * (f r).fftsize))
    (ho : ∀ r < c.P, accessible ((m r).ub ao) 0 (2 * (f r).fftsize)) :
    ∃ m', Step e c.P (fsz f) ao (fun r => [.loc (memcpyLoc ai ao (num r))]) m m' ∧
      ∀ r < c.P, ∀ x, (m' r).ub ao x = if 0 ≤ x ∧ x < num r then (m r).ub ai x else (m r).ub ao x := by
  have key : ∀ r, ∃ d, r < c.P → memcpyM ((m r).ub ai) ((m r).ub ao) 0 0 (num r) = some d ∧
      ∀ a, d a = if 0 ≤ a ∧ a < num r then (m r).ub ai a else (m r).ub ao a := by
    intro r
    by_cases hr : r < c.P
    · have en : (((num r).toNat : Nat) : Int) = num r := by have := h0 r hr; omega
      obtain ⟨d, hd⟩ := memcpyM_ok ((m r).ub ai) ((m r).ub ao) (num r).toNat
        (accessible_mono (hi r hr) (by rw [en]; exact hn r hr))
        (accessible_mono (ho r hr) (by rw [en]; exact hn r hr))
      rw [en] at hd
      exact ⟨d, fun _ => hd⟩
    · exact ⟨fun _ => none, fun h => absurd h hr⟩
  choose d hd using key
  obtain ⟨m', h1, h2⟩ := locStep e (size := fsz f) (ao := ao) (m := m)
    (fun r => memcpyLoc ai ao (num r)) d
    (by intro r hr; simp [memcpyLoc, (hd r hr).1])
    (by
      intro r hr x
      rw [(hd r hr).2]
      split_ifs with hx
      · have a1 := accessible_mono (hi r hr) (hn r hr) x hx.1 (by omega)
        have a2 := accessible_mono (ho r hr) (hn r hr) x hx.1 (by omega)
        rw [a1, a2]
      · rfl)
    (by
      intro r hr x hx
      rw [(hd r hr).2, if_neg]
      have := hn r hr
      unfold fsz at hx
      omega)
  refine ⟨m', h1, ?_⟩
  intro r hr x
  rw [h2 r hr]
  exact (hd r hr).2 x

/-- `compute` stays in bounds, whatever the arrays contain. -/
theorem Ready.any {c : Create} {f : Nat → Fft3 ℝ} (R : Ready c f)
    (flag : Int) (hX2 : flag ≠ 1 → inoutSame c.P c.a = false → ExtraFits c f) (e : Bool) (J : Nat → Nat → Junk)
    (scaled remaponly : Bool) (ai ao : Nat) {m : Nat → LMem ℝ} (hbi : Bufs c.P f ai m)
    (hb : Bufs c.P f ao m) :
    ∃ m', Step e c.P (fsz f) ao (fun r => (f r).compute (J r) scaled remaponly flag ai ao) m m' := by
  have ci : ∀ r < c.P, 0 ≤ (f r).insize ∧ (f r).insize ≤ 2 * (f r).fftsize := by
    intro r hr
    rw [R.insize r hr, boxSize_eq_count (R.args.properIn r hr).1]
    have := count_nonneg (c.a.ins r); have := R.size_ins hr
    omega
  have co : ∀ r < c.P, 0 ≤ (f r).outsize ∧ (f r).outsize ≤ 2 * (f r).fftsize := by
    intro r hr
    rw [R.outsize r hr, boxSize_eq_count (R.args.properOut r hr)]
    have := count_nonneg (c.a.outs r); have := R.size_outs hr
    omega
  have fin : ∀ (p : Nat → List (Instr ℝ)) m1 bs pp, Step e c.P (fsz f) ao p m m1 →
      (∃ X, Holds c.P pp bs ao X m1) → ∃ m2, Step e c.P (fsz f) ao (fun r => p r ++
        if flag = -1 ∧ scaled ∧ ¬ remaponly then [.loc (scaleLoc (f r).norm (f r).normnum ao)] else []) m m2 := by
    rintro p m1 bs pp s1 ⟨X, hX⟩
    obtain ⟨m2, s2, _⟩ := R.scale_part e scaled remaponly flag hX (hb.congr s1.dom)
    exact ⟨m2, s1.append s2⟩
  by_cases hf : flag = 1 ∨ inoutSame c.P c.a = true
  · -- forward path
    obtain ⟨m1, s1⟩ : ∃ m1, Step e c.P (fsz f) ao
        (fun r => remapOrCopy (f r).prefast (f r).insize ai ao) m m1 := by
      by_cases hpre : ai = ao ∨ preflag c.P c.a = true
      · obtain ⟨X, hX⟩ := Ready.some_holds R.ins_tiles 0 (fun r hr => R.size_ins hr) hbi.data
        obtain ⟨m1, s1, _⟩ := R.pre_step e hpre hX hb
        exact ⟨m1, s1⟩
      · obtain ⟨m1, s1, _⟩ := Ready.copy_any (c := c) (f := f) e (fun r => (f r).insize) (ai := ai) (ao := ao)
          (fun r hr => (ci r hr).1) (fun r hr => (ci r hr).2) hbi.data hb.data
        refine ⟨m1, s1.congr ?_⟩
        intro r hr
        rw [not_or, Bool.not_eq_true] at hpre
        have : preflag (c.on r).P (c.on r).a = false := hpre.2
        rw [R.prefast r hr]
        simp [Create.prefastO, this, remapOrCopy, hpre.1]
    obtain ⟨X, hX⟩ := Ready.some_holds (m := m1) (n := ao) R.fast_tiles 0 (fun r hr => R.size_fast hr)
      (hb.congr s1.dom).data
    have : ∃ m2, Step e c.P (fsz f) ao (fun r => remapOrCopy (f r).prefast (f r).insize ai ao ++
        (if remaponly then remapIf (f r).fastmid ao ao ++ remapIf (f r).midslow ao ao
        else [.loc (performLoc (J r 0) flag (f r).fftFast ao)] ++ remapIf (f r).fastmid ao ao ++
          [.loc (performLoc (J r 1) flag (f r).fftMid ao)] ++ remapIf (f r).midslow ao ao ++
          [.loc (performLoc (J r 2) flag (f r).fftSlow ao)]) ++ remapIf (f r).postslow ao ao) m m2 ∧
        ∃ Y, Holds c.P c.a.permute c.a.outs ao Y m2 := by
      cases remaponly with
      | true =>
        obtain ⟨m2, s2, h2⟩ := R.fwd_rest_only e hX (hb.congr s1.dom)
        exact ⟨m2, (s1.append s2).congr (fun r _ => by simp), _, h2⟩
      | false =>
        obtain ⟨m2, s2, h2⟩ := R.fwd_rest e J flag hX (hb.congr s1.dom)
        exact ⟨m2, (s1.append s2).congr (fun r _ => by simp), _, h2⟩
    obtain ⟨m2, s2, h2⟩ := this
    obtain ⟨m3, s3⟩ := fin _ _ _ _ s2 h2
    refine ⟨m3, s3.congr ?_⟩
    intro r hr
    unfold Fft3.compute
    rw [if_pos (by rw [R.same r hr]; exact hf)]
  · rw [not_or, Bool.not_eq_true] at hf
    obtain ⟨hflag, hs⟩ := hf
    obtain ⟨m1, s1⟩ : ∃ m1, Step e c.P (fsz f) ao
        (fun r => remapOrCopy (f r).preslow (f r).outsize ai ao) m m1 := by
      by_cases hpost : ai = ao ∨ postflag c.P c.a c.g = true
      · obtain ⟨X, hX⟩ := Ready.some_holds R.outs_tiles c.a.permute (fun r hr => R.size_outs hr) hbi.data
        obtain ⟨m1, s1, _⟩ := R.preslow_step e hs hpost hX hb
        exact ⟨m1, s1⟩
      · obtain ⟨m1, s1, _⟩ := Ready.copy_any (c := c) (f := f) e (fun r => (f r).outsize) (ai := ai) (ao := ao)
          (fun r hr => (co r hr).1) (fun r hr => (co r hr).2) hbi.data hb.data
        refine ⟨m1, s1.congr ?_⟩
        intro r hr
        rw [not_or, Bool.not_eq_true] at hpost
        have : postflag (c.on r).P (c.on r).a (c.on r).g = false := hpost.2
        rw [R.preslow r hr, hs]
        simp [Create.preslowO, this, remapOrCopy, hpost.1]
    obtain ⟨X, hX⟩ := Ready.some_holds (m := m1) (n := ao) R.slow_tiles 2 (fun r hr => R.size_slow hr)
      (hb.congr s1.dom).data
    have : ∃ m2, Step e c.P (fsz f) ao (fun r => remapOrCopy (f r).preslow (f r).outsize ai ao ++
        (if remaponly then remapIf (f r).slowmid ao ao ++ remapIf (f r).midfast ao ao
        else [.loc (performLoc (J r 2) flag (f r).fftSlow ao)] ++ remapIf (f r).slowmid ao ao ++
          [.loc (performLoc (J r 1) flag (f r).fftMid ao)] ++ remapIf (f r).midfast ao ao ++
          [.loc (performLoc (J r 0) flag (f r).fftFast ao)])) m m2 ∧
        ∃ Y, Holds c.P 0 c.fast ao Y m2 := by
      cases remaponly with
      | true =>
        obtain ⟨m2, s2, h2⟩ := R.inv_rest_only e hs (hX2 hflag hs) hX (hb.congr s1.dom)
        exact ⟨m2, (s1.append s2).congr (fun r _ => by simp), _, h2⟩
      | false =>
        obtain ⟨m2, s2, h2⟩ := R.inv_rest e hs (hX2 hflag hs) J flag hX (hb.congr s1.dom)
        exact ⟨m2, (s1.append s2).congr (fun r _ => by simp), _, h2⟩
    obtain ⟨m2, s2, Y, h2⟩ := this
    obtain ⟨m3, s3, h3⟩ : ∃ m3, Step e c.P (fsz f) ao (fun r => remapIf (f r).postfast ai ao) m2 m3 ∧
        ∃ Z, Holds c.P 0 c.a.ins ao Z m3 := by
      by_cases hpre : preflag c.P c.a = true
      · obtain ⟨Z, hZ⟩ := Ready.some_holds (m := m2) (n := ai) R.fast_tiles 0 (fun r hr => R.size_fast hr)
          (hbi.congr s2.dom).data
        obtain ⟨m3, s3, h3⟩ := R.postfast_step e hs (Or.inr hpre) hZ (hb.congr s2.dom)
        exact ⟨m3, s3, Z, h3⟩
      · obtain ⟨m3, s3, h3⟩ := R.postfast_step e hs (ai := ao) (Or.inl rfl) h2 (hb.congr s2.dom)
        refine ⟨m3, s3.congr ?_, Y, h3⟩
        intro r hr
        rw [Bool.not_eq_true] at hpre
        have : preflag (c.on r).P (c.on r).a = false := hpre
        rw [R.postfast r hr, hs]
        simp [Create.postfastO, this, remapIf]
    obtain ⟨m4, s4⟩ := fin _ _ _ _ (s2.append s3) h3
    refine ⟨m4, s4.congr ?_⟩
    intro r hr
    unfold Fft3.compute
    rw [if_neg (by rw [R.same r hr, hs]; simpa using hflag)]

/-- **C24, behaviour.**  `compute` never accesses more than `fftsize` complex numbers of the arrays: with
arrays of exactly this size it completes, whatever they contain, for every `flag`, in place or not, scaled
or not, in every schedule.  (A run that touches anything inaccessible does not terminate properly.)  The
size of the buffers is the subject of C25. -/
theorem C24_no_overrun {P : Nat} {a : Args3} {st : Settings} {f : Nat → Fft3 ℝ} (S : SetUp3 P a st f)
    (e : Bool) (J : Nat → Nat → Junk) (scaled remaponly : Bool) (flag : Int) (ai ao : Nat) {m : Nat → LMem ℝ}
    (hi : ∀ r < P, accessible ((m r).ub ai) 0 (2 * (f r).fftsize))
    (ho : ∀ r < P, accessible ((m r).ub ao) 0 (2 * (f r).fftsize))
    (hs : ∀ r < P, accessible (m r).sb 0 (f r).sendsize ∧ accessible (m r).sb 0 (2 * (f r).fftsize))
    (hr : ∀ r < P, accessible (m r).rb 0 (f r).recvsize ∧ accessible (m r).rb 0 (2 * (f r).fftsize)) :
    ∃ m', Terminates e P (fun r => (f r).compute (J r) scaled remaponly flag ai ao) m m' ∧ Kept P f ao m m' := by
  obtain ⟨c, rfl, rfl, rfl, _, R⟩ := S.ready
  have big : ∀ r < c.P, accessible (m r).sb 0 (2 * (f r).fftsize) ∧ accessible (m r).rb 0 (2 * (f r).fftsize) :=
    fun r h => ⟨(hs r h).2, (hr r h).2⟩
  have b1 : Bufs c.P f ai m := ⟨hi, fun r h => (hs r h).1, fun r h => (hr r h).1⟩
  have b2 : Bufs c.P f ao m := ⟨ho, fun r h => (hs r h).1, fun r h => (hr r h).1⟩
  obtain ⟨m', s⟩ := R.enlarge.any flag (fun _ _ => R.enlarge_fits) e J scaled remaponly ai ao
    (b1.enlarge big) (b2.enlarge big)
  exact ⟨m', s.ok.terminates, fun r h => ⟨fun n' hn => s.other r h n' hn, fun x hx => s.frame r h x hx⟩⟩

example (st : Settings) (hst : st.Valid) : ∃ (f : Nat → Fft3 ℝ) (m : Nat → LMem ℝ), SetUp3 2 (demo3 1) st f ∧ ∀ n, ∀ r < 2,
    (∀ x, ((m r).ub n x).isSome = true ↔ 0 ≤ x ∧ x < 2 * (f r).fftsize) ∧
    (accessible (m r).sb 0 (f r).sendsize ∧ accessible (m r).sb 0 (2 * (f r).fftsize)) ∧
    (accessible (m r).rb 0 (f r).recvsize ∧ accessible (m r).rb 0 (2 * (f r).fftsize)) := by
  obtain ⟨f, S⟩ := setUp3_exists (demo3_valid 1 (by decide)) hst
  refine ⟨f, memOf f 0 (demo3 1).ins (fun _ _ _ => 1) (fun r => max (f r).sendsize (2 * (f r).fftsize))
    (fun r => max (f r).recvsize (2 * (f r).fftsize)), S, ?_⟩
  intro n r _
  refine ⟨?_, ⟨?_, ?_⟩, ?_, ?_⟩
  · intro x
    simp only [memOf, arrayOf]
    by_cases h : 0 ≤ x ∧ x < 2 * (f r).fftsize
    · rw [if_pos h]
      split_ifs <;> simp [h]
    · rw [if_neg h]
      simp only [Option.isSome_none, Bool.false_eq_true, false_iff]; exact h
  all_goals
    intro x h0 h1
    simp only [memOf]
    rw [if_pos (by simp at h1 ⊢; omega)]; rfl

/-! ## C27 -/

/-- **C27, partial.**  A scaled backward transform gives `1/(nfast*nmid*nslow)` times the inverse DFT at
every point of the input layout, provided no rank owns more points in the input than in the output layout.
Otherwise it is false, see `C27_false`.  (And `RoomBack`, see `C25_false`.) -/
theorem C27_scaled_backward_partial {P : Nat} {a : Args3} {st : Settings} {f : Nat → Fft3 ℝ}
    (S : SetUp3 P a st f) (hio : ∀ r < P, (a.ins r).count ≤ (a.outs r).count) (e : Bool)
    (J : Nat → Nat → Junk) {n : Nat} {X : Grid3} {m : Nat → LMem ℝ}
    (hX : Holds P a.permute a.outs n X m) (hb : Bufs P f n m) (hr : RoomBack P a st m) :
    ∃ m', Terminates e P (fun r => (f r).compute (J r) true false (-1) n n) m m' ∧
      Holds P 0 a.ins n (fun i j k => 1 / (a.nfast * a.nmid * a.nslow) * a.dft true X i j k) m' := by
  obtain ⟨c, rfl, rfl, rfl, _, R⟩ := S.ready
  obtain ⟨m', s, h⟩ := R.back e J true false hX hb hr
  rw [if_pos (by simp)] at h
  have h := h.all (by
    intro r hr
    rw [boxSize_eq_count (S.args.properOut r hr)]
    exact hio r hr)
  refine ⟨m', s.ok.terminates, ?_⟩
  convert h using 4
  simp [Args3.N, Ready.effect]

/-- **C27, what happens in general**: exactly the first `count (outs r)` complex numbers of the array are
scaled. -/
theorem C27_scaled_points {P : Nat} {a : Args3} {st : Settings} {f : Nat → Fft3 ℝ}
    (S : SetUp3 P a st f) (e : Bool) (J : Nat → Nat → Junk) {n : Nat} {X : Grid3} {m : Nat → LMem ℝ}
    (hX : Holds P a.permute a.outs n X m) (hb : Bufs P f n m) (hr : RoomBack P a st m) :
    ∃ m', Terminates e P (fun r => (f r).compute (J r) true false (-1) n n) m m' ∧
      ∀ r < P, HoldsBox 0 (a.ins r) (fun i j k =>
        if addr3 0 (a.ins r) 1 i j k 0 < (a.outs r).count then
          1 / (a.nfast * a.nmid * a.nslow) * a.dft true X i j k
        else a.dft true X i j k) ((m' r).ub n) := by
  obtain ⟨c, rfl, rfl, rfl, _, R⟩ := S.ready
  obtain ⟨m', s, h⟩ := R.back e J true false hX hb hr
  rw [if_pos (by simp)] at h
  refine ⟨m', s.ok.terminates, ?_⟩
  intro r hr
  have := h r hr
  simp only [boxSize_eq_count (S.args.properOut r hr)] at this
  have eN : ((1 / c.a.N : ℝ) : ℂ) = 1 / (c.a.nfast * c.a.nmid * c.a.nslow) := by
    unfold Args3.N; push_cast; rfl
  have ee : Ready.effect c false (-1) X = c.a.dft true X := by simp [Ready.effect]
  rw [eN, ee] at this
  exact this

/-- **C27 is false in general**: rank 0 owns the whole input, rank 1 the whole output; the scaled backward
transform of the constant 1 has the value 8 instead of 1 at the origin. -/
theorem C27_false : ∃ (P : Nat) (a : Args3) (st : Settings) (f : Nat → Fft3 ℝ) (X : Grid3)
    (m m' : Nat → LMem ℝ), SetUp3 P a st f ∧ Holds P a.permute a.outs 0 X m ∧ Bufs P f 0 m ∧
    RoomBack P a st m ∧
    Terminates false P (fun r => (f r).compute (fun _ _ => (0, 0)) true false (-1) 0 0) m m' ∧
    ¬ Holds P 0 a.ins 0 (fun i j k => 1 / (a.nfast * a.nmid * a.nslow) * a.dft true X i j k) m' := by
  obtain ⟨f, S⟩ := setUp3_exists moved_valid (st := ⟨2, 0, 2⟩) (by simp [Settings.Valid])
  obtain ⟨m, h⟩ := S.mem_out fun _ _ _ => 1
  obtain ⟨m', t, h'⟩ := C27_scaled_points S false (fun _ _ _ => (0, 0)) (h 0).1 (h 0).2 (Or.inl rfl)
  refine ⟨2, moved, _, f, _, m, m', S, (h 0).1, (h 0).2, Or.inl rfl, t, ?_⟩
  intro hc
  have hh : (moved.ins 0).Has 0 0 0 := by simp [moved, Box3.Has]
  have g1 := (hc 0 (by decide) 0 0 0 hh).1
  have g2 := (h' 0 (by decide) 0 0 0 hh).1
  have e0 : (moved.outs 0).count = 0 := by simp [moved, Box3.count, Box3.isize, Box3.jsize, Box3.ksize]
  have ha := (addr3_range (permute := 0) (nqty := 1) (q := 0) hh (by decide)).1
  have hneg : ¬ addr3 0 (moved.ins 0) 1 0 0 0 0 < (moved.outs 0).count := by rw [e0]; omega
  simp only [hneg, if_false] at g2
  dsimp only at g1
  have e8 : moved.dft true (fun _ _ _ => 1) 0 0 0 = 8 := by
    simp [Args3.dft, dft3, moved]; norm_num
  rw [e8] at g1 g2
  rw [g1] at g2
  simp only [moved, Option.some.injEq] at g2
  norm_num at g2

/-! ## C28 -/

/-- **C28 (forward).**  With `remaponly` a forward `compute` moves the data to the output layout. -/
theorem C28_remaponly_forward {P : Nat} {a : Args3} {st : Settings} {f : Nat → Fft3 ℝ} (S : SetUp3 P a st f)
    (e : Bool) (J : Nat → Nat → Junk) (scaled : Bool) {n : Nat} {X : Grid3} {m : Nat → LMem ℝ}
    (hX : Holds P 0 a.ins n X m) (hb : Bufs P f n m) :
    ∃ m', Terminates e P (fun r => (f r).compute (J r) scaled true 1 n n) m m' ∧
      Holds P a.permute a.outs n X m' ∧ Kept P f n m m' := by
  obtain ⟨c, rfl, rfl, rfl, _, R⟩ := S.ready
  obtain ⟨m', s, h⟩ := R.compute_fwd e J scaled true (flag := 1) (Or.inl rfl) (ai := n) (ao := n)
    (Or.inl rfl) hX hb
  exact ⟨m', s.ok.terminates, by simpa [Ready.effect] using h, s.kept⟩

/-- **C28 (round trip), partial.**  Forward then backward with `remaponly` restores the values of the
rank's input box exactly and without scaling.  Missing: `RoomBack`, see `C25_false`. -/
theorem C28_remaponly_round_trip_partial {P : Nat} {a : Args3} {st : Settings} {f : Nat → Fft3 ℝ}
    (S : SetUp3 P a st f) (e : Bool) (J J' : Nat → Nat → Junk) (scaled : Bool) {n : Nat} {m : Nat → LMem ℝ}
    (hb : Bufs P f n m) (hr : RoomBack P a st m) :
    ∃ m', Terminates e P (fun r => (f r).compute (J r) scaled true 1 n n ++
        (f r).compute (J' r) scaled true (-1) n n) m m' ∧
      SameOn P a.ins n m m' := by
  obtain ⟨c, rfl, rfl, rfl, _, R⟩ := S.ready
  obtain ⟨X, hX⟩ := Ready.some_holds R.ins_tiles 0 (fun r hr => R.size_ins hr) hb.data
  obtain ⟨m1, s1, h1⟩ := R.compute_fwd e J scaled true (flag := 1) (Or.inl rfl) (ai := n) (ao := n)
    (Or.inl rfl) hX hb
  have h1' : Holds c.P c.a.permute c.a.outs n X m1 := by simpa [Ready.effect] using h1
  obtain ⟨m2, s2, h2⟩ := R.back e J' scaled true h1' (hb.congr s1.dom) (hr.congr s1.dom)
  refine ⟨m2, (s1.append s2).ok.terminates, hX.sameOn ?_⟩
  simpa [Ready.effect] using h2

/-! ## C43 -/

/-- The user's code between the transforms: multiply the first `num` complex numbers of an array by
those of another one. -/
def mulFn (other : Mem ℝ) (num : Int) (data : Mem ℝ) : Option (Mem ℝ) :=
  forN num (fun i d => do
    let x ← cview d i
    let y ← cview other i
    let d ← d.set (2 * i) (x * y).re
    d.set (2 * i + 1) (x * y).im) data

/-- `mulFn` on arrays `n1`, `n2`. -/
def mulLoc (n1 n2 : Nat) (num : Int) (m : LMem ℝ) : Option (LMem ℝ) :=
  (mulFn (m.ub n2) num (m.ub n1)).map fun d => { m with ub := Function.update m.ub n1 d }

theorem mulFn_ok (other : Mem ℝ) (num : Nat) (data : Mem ℝ) (h : accessible data 0 (2 * num))
    (h' : accessible other 0 (2 * num)) :
    ∃ d, mulFn other num data = some d ∧
      (∀ k x y, cview data k = some x → cview other k = some y → 0 ≤ k → k < num → cview d k = some (x * y)) ∧
      (∀ a, (d a).isSome = (data a).isSome) ∧ ∀ a, (a < 0 ∨ 2 * (num : Int) ≤ a) → d a = data a := by
  obtain ⟨d, h1, ⟨h2, h2'⟩, h3⟩ := forN_inv (fun s (d : Mem ℝ) =>
      ((∀ k x y, cview data k = some x → cview other k = some y → 0 ≤ k → k < (s : Int) →
        cview d k = some (x * y)) ∧ ∀ a, (d a).isSome = (data a).isSome) ∧
      (∀ a, (a < 0 ∨ 2 * (s : Int) ≤ a) → d a = data a))
    (fun i d => do
      let x ← cview d i
      let y ← cview other i
      let d ← d.set (2 * i) (x * y).re
      d.set (2 * i + 1) (x * y).im) num data
    ⟨⟨fun a _ _ _ _ h0 h1 => absurd h1 (by push_cast; omega), fun _ => rfl⟩, fun a _ => rfl⟩
    (by
      intro s hs d ⟨⟨h1, hd⟩, h2⟩
      obtain ⟨x0, hx0⟩ := Option.isSome_iff_exists.mp (h (2 * s) (by omega) (by omega))
      obtain ⟨x1, hx1⟩ := Option.isSome_iff_exists.mp (h (2 * s + 1) (by omega) (by omega))
      obtain ⟨y0, hy0⟩ := Option.isSome_iff_exists.mp (h' (2 * s) (by omega) (by omega))
      obtain ⟨y1, hy1⟩ := Option.isSome_iff_exists.mp (h' (2 * s + 1) (by omega) (by omega))
      have dx : d (2 * s) = some x0 := by rw [h2 _ (by omega), hx0]
      have dy : d (2 * s + 1) = some x1 := by rw [h2 _ (by omega), hx1]
      have hne : (2 * (s : Int) + 1) ≠ 2 * s := by omega
      have cx : cview d s = some ⟨x0, x1⟩ := cview_some.mpr ⟨dx, dy⟩
      have cx' : cview data s = some ⟨x0, x1⟩ := cview_some.mpr ⟨hx0, hx1⟩
      have cy : cview other s = some ⟨y0, y1⟩ := cview_some.mpr ⟨hy0, hy1⟩
      generalize hX : (⟨x0, x1⟩ : ℂ) = x at cx cx'
      generalize hY : (⟨y0, y1⟩ : ℂ) = y at cy
      have dy' : Function.update d (2 * (s : Int)) (some (x * y).re) (2 * s + 1) = some x1 := by
        rw [Function.update_of_ne hne]; exact dy
      refine ⟨Function.update (Function.update d (2 * (s : Int)) (some (x * y).re)) (2 * s + 1)
        (some (x * y).im), ?_, ⟨?_, ?_⟩, ?_⟩
      · simp only [cx, cy, Option.bind_eq_bind, Option.bind_some,
          Mem.set_eq (show (d (2 * (s : Int))).isSome by rw [dx]; rfl),
          Mem.set_eq (show ((Function.update d (2 * (s : Int)) (some (x * y).re)) (2 * s + 1)).isSome by
            rw [dy']; rfl)]
      · intro k x' y' hx' hy' h0 hk
        rw [cview_some]
        by_cases a1 : k = s
        · subst a1
          rw [cx'] at hx'
          rw [cy] at hy'
          cases hx'
          cases hy'
          rw [Function.update_self, Function.update_of_ne (by omega), Function.update_self]
          exact ⟨rfl, rfl⟩
        · rw [Function.update_of_ne (by omega), Function.update_of_ne (by omega),
            Function.update_of_ne (by omega), Function.update_of_ne (by omega)]
          exact cview_some.mp (h1 k x' y' hx' hy' h0 (by push_cast at hk; omega))
      · intro a
        by_cases a1 : a = 2 * s + 1
        · subst a1; simp [hx1]
        · rw [Function.update_of_ne a1]
          by_cases a2 : a = 2 * s
          · subst a2; simp [hx0]
          · rw [Function.update_of_ne a2]
            exact hd a
      · intro a ha
        rw [Function.update_of_ne (by push_cast at ha; omega),
          Function.update_of_ne (by push_cast at ha; omega)]
        exact h2 a (by push_cast at ha; omega))
  exact ⟨d, h1, h2, h2', h3⟩

theorem mulStep (e : Bool) {P : Nat} {size : Nat → Int} {n1 n2 : Nat} {p : Int} {bs : Nat → Box3}
    {X Y : Grid3} {m : Nat → LMem ℝ} (hX : Holds P p bs n1 X m) (hY : Holds P p bs n2 Y m)
    (hs : ∀ r < P, (bs r).count ≤ size r) (num : Nat → Int) (hnum : ∀ r < P, num r = (bs r).count) :
    ∃ m', Step e P size n1 (fun r => [.loc (mulLoc n1 n2 (num r))]) m m' ∧
      Holds P p bs n1 (fun i j k => X i j k * Y i j k) m' := by
  have key : ∀ r, ∃ d, r < P → mulFn ((m r).ub n2) (num r) ((m r).ub n1) = some d ∧
      (∀ k x y, cview ((m r).ub n1) k = some x → cview ((m r).ub n2) k = some y → 0 ≤ k →
        k < num r → cview d k = some (x * y)) ∧
      (∀ a, (d a).isSome = ((m r).ub n1 a).isSome) ∧
      ∀ a, (a < 0 ∨ 2 * num r ≤ a) → d a = (m r).ub n1 a := by
    intro r
    by_cases hr : r < P
    · have en : (((num r).toNat : Nat) : Int) = num r := by
        have := hnum r hr; have := count_nonneg (bs r); omega
      obtain ⟨d, hd⟩ := mulFn_ok ((m r).ub n2) (num r).toNat ((m r).ub n1)
        (by rw [en, hnum r hr]; exact holdsBox_accessible (hX r hr))
        (by rw [en, hnum r hr]; exact holdsBox_accessible (hY r hr))
      rw [en] at hd
      exact ⟨d, fun _ => hd⟩
    · exact ⟨fun _ => none, fun h => absurd h hr⟩
  choose d hd using key
  obtain ⟨m', h1, h2⟩ := locStep e (size := size) (ao := n1) (m := m)
    (fun r => mulLoc n1 n2 (num r)) d
    (by intro r hr; simp [mulLoc, (hd r hr).1])
    (fun r hr => (hd r hr).2.2.1)
    (by
      intro r hr x hx
      apply (hd r hr).2.2.2
      have := hs r hr; have := hnum r hr
      omega)
  refine ⟨m', h1, ?_⟩
  intro r hr
  rw [holdsBox_cview]
  intro i j k hh
  rw [h2 r hr]
  have hc := Box3.count_of_has hh
  have ha := addr3_range (permute := p) (nqty := 1) (q := 0) hh (by decide)
  exact (hd r hr).2.1 _ _ _ (holdsBox_cview.mp (hX r hr) i j k hh) (holdsBox_cview.mp (hY r hr) i j k hh)
    ha.1 (by rw [hnum r hr]; omega)

/-- Two forward transforms, elementwise multiplication of the rank's `outsize` output values, a backward
transform. -/
def convolve (f : Fft3 ℝ) (J : Nat → Nat → Junk) (scaled : Bool) (n1 n2 : Nat) : List (Instr ℝ) :=
  f.compute (J 0) scaled false 1 n1 n1 ++ f.compute (J 1) scaled false 1 n2 n2 ++
    [.loc (mulLoc n1 n2 f.outsize)] ++ f.compute (J 2) scaled false (-1) n1 n1

theorem convolve_step {P : Nat} {a : Args3} {st : Settings} {f : Nat → Fft3 ℝ}
    (S : SetUp3 P a st f) (e : Bool) (J : Nat → Nat → Nat → Junk) (scaled : Bool) {n1 n2 : Nat}
    (hne : n1 ≠ n2) {X Y : Grid3}
    {m : Nat → LMem ℝ} (hX : Holds P 0 a.ins n1 X m) (hY : Holds P 0 a.ins n2 Y m)
    (hb1 : Bufs P f n1 m) (hb2 : Bufs P f n2 m) (hr : RoomBack P a st m) :
    ∃ m', StageOK e P (fun r => convolve (f r) (J r) scaled n1 n2) m m' ∧
      (if scaled then HoldsScaled P 0 a.ins n1 (fun i j k => (a.N : ℂ) *
          conv3 a.nfast.toNat a.nmid.toNat a.nslow.toNat X Y i j k) (1 / a.N) (fun r => boxSize (a.outs r)) m'
      else Holds P 0 a.ins n1 (fun i j k => (a.N : ℂ) *
          conv3 a.nfast.toNat a.nmid.toNat a.nslow.toNat X Y i j k) m') := by
  obtain ⟨c, rfl, rfl, rfl, _, R⟩ := S.ready
  obtain ⟨m1, s1, h1⟩ := R.compute_fwd e (fun r => J r 0) scaled false (flag := 1) (Or.inl rfl) (ai := n1)
    (ao := n1) (Or.inl rfl) hX hb1
  have h1' : Holds c.P c.a.permute c.a.outs n1 (c.a.dft false X) m1 := by simpa [Ready.effect] using h1
  have hY1 : Holds c.P 0 c.a.ins n2 Y m1 := by
    intro r hr
    rw [s1.other r hr n2 hne.symm]
    exact hY r hr
  obtain ⟨m2, s2, h2⟩ := R.compute_fwd e (fun r => J r 1) scaled false (flag := 1) (Or.inl rfl) (ai := n2)
    (ao := n2) (Or.inl rfl) hY1 (hb2.congr s1.dom)
  have h2' : Holds c.P c.a.permute c.a.outs n2 (c.a.dft false Y) m2 := by simpa [Ready.effect] using h2
  have h1'' : Holds c.P c.a.permute c.a.outs n1 (c.a.dft false X) m2 := by
    intro r hr
    rw [s2.other r hr n1 hne]
    exact h1' r hr
  have d12 := s1.dom.trans s2.dom
  obtain ⟨m3, s3, h3⟩ := mulStep e (size := fsz f) h1'' h2' (fun r hr => R.size_outs hr)
    (fun r => (f r).outsize) (fun r hr => by
      rw [R.outsize r hr, boxSize_eq_count (R.args.properOut r hr)])
  have d13 := d12.trans s3.dom
  have e1 := R.args.fast; have e2 := R.args.mid; have e3 := R.args.slow
  have h3' : Holds c.P c.a.permute c.a.outs n1
      (c.a.dft false (conv3 c.a.nfast.toNat c.a.nmid.toNat c.a.nslow.toNat X Y)) m3 := by
    refine h3.congr R.outs_tiles ?_
    intro i j k _ _ _
    exact (dft3_conv (by omega) (by omega) (by omega) false X Y i j k).symm
  obtain ⟨m4, s4, h4⟩ := R.back e (fun r => J r 2) scaled false h3' (hb1.congr d13) (hr.congr d13)
  have inv := R.dft_inv (conv3 c.a.nfast.toNat c.a.nmid.toNat c.a.nslow.toNat X Y)
  refine ⟨m4, ((s1.ok.append s2.ok).append s3.ok).append s4.ok, ?_⟩
  cases scaled with
  | true =>
    simp only [Bool.false_eq_true, not_false_eq_true, and_true, if_true] at h4 ⊢
    intro r hr i j k hh
    obtain ⟨q1, q2, q3⟩ := R.ins_tiles.inside r hr i j k hh
    have := h4 r hr i j k hh
    dsimp only at this
    rw [inv i j k q1 q2 q3] at this
    exact this
  | false =>
    simp only [Bool.false_eq_true, not_false_eq_true, and_true, if_false] at h4 ⊢
    exact h4.congr R.ins_tiles inv

/-- **C43, partial.**  Multiplying the transforms of two grids elementwise in the output layout (any layout,
any `permute`) and transforming back gives `nfast*nmid*nslow` times their circular convolution in the input
layout.  Missing: `RoomBack`, see `C25_false`. -/
theorem C43_convolution_partial {P : Nat} {a : Args3} {st : Settings} {f : Nat → Fft3 ℝ}
    (S : SetUp3 P a st f) (e : Bool) (J : Nat → Nat → Nat → Junk) {n1 n2 : Nat} (hne : n1 ≠ n2) {X Y : Grid3}
    {m : Nat → LMem ℝ} (hX : Holds P 0 a.ins n1 X m) (hY : Holds P 0 a.ins n2 Y m)
    (hb1 : Bufs P f n1 m) (hb2 : Bufs P f n2 m) (hr : RoomBack P a st m) :
    ∃ m', Terminates e P (fun r => convolve (f r) (J r) false n1 n2) m m' ∧
      Holds P 0 a.ins n1 (fun i j k => (a.nfast * a.nmid * a.nslow : ℂ) *
        conv3 a.nfast.toNat a.nmid.toNat a.nslow.toNat X Y i j k) m' := by
  obtain ⟨m', s, h⟩ := convolve_step S e J false hne hX hY hb1 hb2 hr
  exact ⟨m', s.terminates, by simpa [Args3.N] using h⟩

/-- **C43 with scaling, partial**: the circular convolution itself, if no rank owns more points in the input
than in the output layout (`C27_false`). -/
theorem C43_convolution_scaled_partial {P : Nat} {a : Args3} {st : Settings} {f : Nat → Fft3 ℝ}
    (S : SetUp3 P a st f) (hio : ∀ r < P, (a.ins r).count ≤ (a.outs r).count) (e : Bool)
    (J : Nat → Nat → Nat → Junk) {n1 n2 : Nat} (hne : n1 ≠ n2) {X Y : Grid3}
    {m : Nat → LMem ℝ} (hX : Holds P 0 a.ins n1 X m) (hY : Holds P 0 a.ins n2 Y m)
    (hb1 : Bufs P f n1 m) (hb2 : Bufs P f n2 m) (hr : RoomBack P a st m) :
    ∃ m', Terminates e P (fun r => convolve (f r) (J r) true n1 n2) m m' ∧
      Holds P 0 a.ins n1 (conv3 a.nfast.toNat a.nmid.toNat a.nslow.toNat X Y) m' := by
  obtain ⟨m', s, h⟩ := convolve_step S e J true hne hX hY hb1 hb2 hr
  refine ⟨m', s.terminates, ?_⟩
  simp only [if_true] at h
  have h := h.all (by
    intro r hr
    rw [boxSize_eq_count (S.args.properOut r hr)]
    exact hio r hr)
  have hN : (a.N : ℂ) ≠ 0 := by exact_mod_cast S.args.N_pos.ne'
  have e0 : (fun i j k => ((1 / a.N : ℝ) : ℂ) * ((a.N : ℂ) *
      conv3 a.nfast.toNat a.nmid.toNat a.nslow.toNat X Y i j k)) =
      conv3 a.nfast.toNat a.nmid.toNat a.nslow.toNat X Y := by
    funext i j k
    push_cast
    field_simp
  rwa [e0] at h

/-- Two arrays with different contents. -/
example (st : Settings) (hst : st.Valid) (h0 : st.exchange = 0) (X Y : Grid3) :
    ∃ f m, SetUp3 2 (demo3 1) st f ∧ Holds 2 0 (demo3 1).ins 0 X m ∧ Holds 2 0 (demo3 1).ins 1 Y m ∧
      Bufs 2 f 0 m ∧ Bufs 2 f 1 m ∧ RoomBack 2 (demo3 1) st m := by
  obtain ⟨f, S⟩ := setUp3_exists (demo3_valid 1 (by decide)) hst
  obtain ⟨m, h⟩ := S.mem_in X
  obtain ⟨m', h'⟩ := S.mem_in Y
  refine ⟨f, fun r => { m r with ub := fun n => if n = 0 then (m r).ub 0 else (m' r).ub n }, S, ?_, ?_, ?_, ?_,
    Or.inl h0⟩
  · exact fun r hr => (h 0).1 r hr
  · exact fun r hr => (h' 1).1 r hr
  · exact ⟨fun r hr => (h 0).2.data r hr, (h 0).2.sb, (h 0).2.rb⟩
  · exact ⟨fun r hr => (h' 1).2.data r hr, (h 0).2.sb, (h 0).2.rb⟩

/-! ## C46 -/

/-- **C46, 1d FFTs.**  `only_1d_ffts` completes with arrays of `fftsize` complex numbers, whatever they
contain, and changes nothing else.  It does not communicate. -/
theorem C46_only_1d_in_bounds {P : Nat} {a : Args3} {st : Settings} {f : Nat → Fft3 ℝ} (S : SetUp3 P a st f)
    (e : Bool) (J : Nat → Nat → Junk) (flag : Int) (n : Nat) {m : Nat → LMem ℝ}
    (hd : ∀ r < P, accessible ((m r).ub n) 0 (2 * (f r).fftsize)) :
    ∃ m', Terminates e P (fun r => (f r).only1d (J r) flag n) m m' ∧ Kept P f n m m' := by
  obtain ⟨c, rfl, rfl, rfl, _, R⟩ := S.ready
  obtain ⟨X, hX⟩ := Ready.some_holds R.fast_tiles 0 (fun r hr => R.size_fast hr) hd
  obtain ⟨m1, s1, _⟩ := R.fftFast_step e (fun r => J r 0) flag hX
  obtain ⟨Y, hY⟩ := Ready.some_holds R.mid_tiles 1 (fun r hr => R.size_mid hr)
    (fun r hr => accessible_congr ((s1.dom r hr).1 n) (hd r hr))
  obtain ⟨m2, s2, _⟩ := R.fftMid_step e (fun r => J r 1) flag hY
  have s12 := s1.append s2
  obtain ⟨Z, hZ⟩ := Ready.some_holds R.slow_tiles 2 (fun r hr => R.size_slow hr)
    (fun r hr => accessible_congr ((s12.dom r hr).1 n) (hd r hr))
  obtain ⟨m3, s3, _⟩ := R.fftSlow_step e (fun r => J r 2) flag hZ
  have s := s12.append s3
  exact ⟨m3, (s.ok.congr fun r _ => rfl).terminates, s.kept⟩

/-- **C46, composition.**  In place, `only_one_remap` for `which` = 1, 2, 3, 4 (forward, or layouts the same)
or 4, 3, 2, 1 (backward) is `only_remaps`, and this is `compute` with `remaponly`. -/
theorem C46_only_one_remap_composes (f : Fft3 ℝ) (J : Nat → Junk) (scaled : Bool) (flag : Int) (n : Nat) :
    f.onlyRemaps flag n n =
      (if flag = 1 ∨ f.same then
        f.onlyOneRemap flag 1 n n ++ f.onlyOneRemap flag 2 n n ++ f.onlyOneRemap flag 3 n n ++
          f.onlyOneRemap flag 4 n n
      else
        f.onlyOneRemap flag 4 n n ++ f.onlyOneRemap flag 3 n n ++ f.onlyOneRemap flag 2 n n ++
          f.onlyOneRemap flag 1 n n) ∧
    f.onlyRemaps flag n n = f.compute J scaled true flag n n := by
  unfold Fft3.onlyRemaps Fft3.onlyOneRemap Fft3.compute
  by_cases h : flag = 1 ∨ f.same = true
  · simp [h]
  · simp [h]

/-- **C46, effect.**  The four `only_one_remap` of the forward direction bring the data to the output
layout. -/
theorem C46_only_remaps_forward {P : Nat} {a : Args3} {st : Settings} {f : Nat → Fft3 ℝ} (S : SetUp3 P a st f)
    (e : Bool) {n : Nat} {X : Grid3} {m : Nat → LMem ℝ}
    (hX : Holds P 0 a.ins n X m) (hb : Bufs P f n m) :
    ∃ m', Terminates e P (fun r => (f r).onlyOneRemap 1 1 n n ++ (f r).onlyOneRemap 1 2 n n ++
        (f r).onlyOneRemap 1 3 n n ++ (f r).onlyOneRemap 1 4 n n) m m' ∧
      Holds P a.permute a.outs n X m' ∧ Kept P f n m m' := by
  obtain ⟨m', h1, h2, h3⟩ := C28_remaponly_forward S e (fun _ _ _ => (0, 0)) false hX hb
  refine ⟨m', ?_, h2, h3⟩
  have : (fun r => (f r).onlyOneRemap 1 1 n n ++ (f r).onlyOneRemap 1 2 n n ++
        (f r).onlyOneRemap 1 3 n n ++ (f r).onlyOneRemap 1 4 n n) =
      fun r => (f r).compute (fun _ _ => (0, 0)) false true 1 n n := by
    funext r
    have := C46_only_one_remap_composes (f r) (fun _ _ => (0, 0)) false 1 n
    rw [if_pos (Or.inl rfl)] at this
    rw [← this.2, this.1]
  rw [this]
  exact h1

/-- Example: all hypotheses are met by the running example. -/
example (st : Settings) (hst : st.Valid) (X : Grid3) : ∃ f m, SetUp3 2 (demo3 0) st f ∧
    Holds 2 0 (demo3 0).ins 3 X m ∧ Bufs 2 f 3 m := by
  obtain ⟨f, S⟩ := setUp3_exists (demo3_valid 0 (by decide)) hst
  obtain ⟨m, h⟩ := S.mem_in X
  exact ⟨f, m, S, h 3⟩

/-! ## C38 -/

/-- Which remap (its communicator) a rank runs, and whether as a collective operation. -/
def Remap3.kind {α : Type} (x : Remap3 α) : Nat × Bool := (x.inst, x.collective)

def RemapPair.kinds {α : Type} (p : RemapPair α) : List (Nat × Bool) :=
  p.remap3d.kind :: match p.extra with
    | none => []
    | some x => [x.kind]

def kindsOf {α : Type} : Option (RemapPair α) → List (Nat × Bool)
  | none => []
  | some p => p.kinds

/-- The remaps that `compute` runs on a rank, in order. -/
def Fft3.sequence (f : Fft3 ℝ) (flag : Int) : List (Nat × Bool) :=
  if flag = 1 ∨ f.same then
    kindsOf f.prefast ++ kindsOf f.fastmid ++ kindsOf f.midslow ++ kindsOf f.postslow
  else
    kindsOf f.preslow ++ kindsOf f.slowmid ++ kindsOf f.midfast ++ kindsOf f.postfast

section kinds

variable (c : Create) (r : Nat)

theorem kinds_prefast : kindsOf (c.on r).prefastO (α := ℝ) = kindsOf c.prefastO (α := ℝ) := by
  change kindsOf (if preflag c.P c.a then _ else _) = kindsOf (if preflag c.P c.a then _ else _)
  split_ifs <;> rfl
theorem kinds_postslow : kindsOf (c.on r).postslowO (α := ℝ) = kindsOf c.postslowO (α := ℝ) := by
  change kindsOf (if postflag c.P c.a c.g then _ else _) = kindsOf (if postflag c.P c.a c.g then _ else _)
  split_ifs <;> rfl
theorem kinds_postfast : kindsOf (c.on r).postfastO (α := ℝ) = kindsOf c.postfastO (α := ℝ) := by
  change kindsOf (if preflag c.P c.a then _ else _) = kindsOf (if preflag c.P c.a then _ else _)
  split_ifs <;> rfl
theorem kind_preslow : ((c.on r).preslowR (α := ℝ)).kind = (c.preslowR (α := ℝ)).kind := by
  unfold Create.preslowR
  change Remap3.kind (if c.a.permute = 0 then _ else if c.a.permute = 1 then _ else _) = _
  split_ifs <;> rfl
theorem kinds_preslow : kindsOf (c.on r).preslowO (α := ℝ) = kindsOf c.preslowO (α := ℝ) := by
  change kindsOf (if postflag c.P c.a c.g then _ else _) = kindsOf (if postflag c.P c.a c.g then _ else _)
  split_ifs
  · exact congrArg (fun x => [x]) (kind_preslow c r)
  · rfl
theorem kinds_fastmid : kindsOf (some (c.on r).fastmidP) (α := ℝ) = kindsOf (some c.fastmidP) (α := ℝ) := by
  change RemapPair.kinds (if c.st.exchange = 0 then _ else _) = RemapPair.kinds (if c.st.exchange = 0 then _ else _)
  split_ifs <;> rfl
theorem kinds_midslow : kindsOf (some (c.on r).midslowP) (α := ℝ) = kindsOf (some c.midslowP) (α := ℝ) := by
  change RemapPair.kinds (if c.st.exchange = 0 then _ else _) = RemapPair.kinds (if c.st.exchange = 0 then _ else _)
  split_ifs <;> rfl
theorem kinds_slowmid : kindsOf (some (c.on r).slowmidP) (α := ℝ) = kindsOf (some c.slowmidP) (α := ℝ) := by
  change RemapPair.kinds (if c.st.exchange = 0 then _ else _) = RemapPair.kinds (if c.st.exchange = 0 then _ else _)
  split_ifs <;> rfl
theorem kinds_midfast : kindsOf (some (c.on r).midfastP) (α := ℝ) = kindsOf (some c.midfastP) (α := ℝ) := by
  change RemapPair.kinds (if c.st.exchange = 0 then _ else _) = RemapPair.kinds (if c.st.exchange = 0 then _ else _)
  split_ifs <;> rfl

end kinds

/-- **C38.**  For all boxes that pass the checks of `setup` (they need not even tile the grid, and the output
boxes may be anything), all ranks run the same sequence of remaps, each with the same choice between
collective and point-to-point communication; and the 1d FFTs have the same lengths on all ranks. -/
theorem C38_ranks_agree {P : Nat} {a : Args3} {st : Settings} (hst : st.Valid)
    (hp : a.permute = 0 ∨ a.permute = 1 ∨ a.permute = 2)
    (hn : a.nfast < 2 ^ 31 ∧ a.nmid < 2 ^ 31 ∧ a.nslow < 2 ^ 31) {r s : Nat} (hr : r < P) (hs : s < P)
    {f g : Fft3 ℝ} (hf : fft3Setup P r a st = some (.ok f)) (hg : fft3Setup P s a st = some (.ok g))
    (flag : Int) :
    f.sequence flag = g.sequence flag ∧ f.same = g.same ∧
      f.fftFast.length = g.fftFast.length ∧ f.fftMid.length = g.fftMid.length ∧
      f.fftSlow.length = g.fftSlow.length := by
  unfold fft3Setup at hf hg
  cases hc : setupCheck P a with
  | some x => rw [hc] at hf; simp at hf
  | none =>
    rw [hc] at hf hg
    obtain ⟨hd, _⟩ := setupCheck_none.mp hc
    cases hgr : setupGrids P a st.exchange with
    | none => rw [hgr] at hf; simp at hf
    | some gr =>
      simp only [hgr, Option.bind_eq_bind, Option.bind_some] at hf hg
      have h1 : (2 ≤ a.nfast ∧ a.nfast < 2 ^ 31) := by omega
      have h2 : (2 ≤ a.nmid ∧ a.nmid < 2 ^ 31) := by omega
      have h3 : (2 ≤ a.nslow ∧ a.nslow < 2 ^ 31) := by omega
      obtain ⟨x1, x2, x3, e1, ef⟩ := setupMain_eq' (α := ℝ) (c := ⟨P, r, a, st, gr⟩) hst hr h1 h2 h3 hp
      obtain ⟨y1, y2, y3, e2, eg⟩ := setupMain_eq' (α := ℝ) (c := ⟨P, s, a, st, gr⟩) hst hs h1 h2 h3 hp
      obtain ⟨x1', x2', x3', e1', fx⟩ := setupFfts_ok (c := ⟨P, r, a, st, gr⟩) h1 h2 h3
      obtain ⟨y1', y2', y3', e2', fy⟩ := setupFfts_ok (c := ⟨P, s, a, st, gr⟩) h1 h2 h3
      rw [e1] at e1'
      rw [e2] at e2'
      cases e1'
      cases e2'
      rw [ef] at hf
      rw [eg] at hg
      simp only [Option.bind_some, Option.some.injEq, Except.ok.injEq] at hf hg
      refine ⟨?_, ?_, ?_, ?_, ?_⟩
      · let c : Create := ⟨P, r, a, st, gr⟩
        have k1 := kinds_prefast c s
        have k2 := kinds_fastmid c s
        have k3 := kinds_midslow c s
        have k4 := kinds_postslow c s
        have k5 := kinds_preslow c s
        have k6 := kinds_slowmid c s
        have k7 := kinds_midfast c s
        have k8 := kinds_postfast c s
        simp only [c, Create.on] at k1 k2 k3 k4 k5 k6 k7 k8
        rw [← hf, ← hg]
        unfold Fft3.sequence
        dsimp only
        rw [k1, k2, k3, k4]
        cases inoutSame P a with
        | true => rw [if_pos (Or.inr rfl), if_pos (Or.inr rfl)]
        | false =>
          simp only [Bool.false_eq_true, if_false]
          rw [k5, k6, k7, k8]
      · rw [← hf, ← hg]
      · rw [← hf, ← hg]; exact fx.1.1.trans fy.1.1.symm
      · rw [← hf, ← hg]; exact fx.2.1.1.trans fy.2.1.1.symm
      · rw [← hf, ← hg]; exact fx.2.2.1.trans fy.2.2.1.symm

/-- With bricks and different layouts: all six remaps of the forward direction of the running example. -/
example : ∃ f g : Fft3 ℝ, fft3Setup 2 0 (demo3 1) ⟨0, 1, 2⟩ = some (.ok f) ∧
    fft3Setup 2 1 (demo3 1) ⟨0, 1, 2⟩ = some (.ok g) ∧
    f.sequence 1 = g.sequence 1 := by
  have hst : (⟨0, 1, 2⟩ : Settings).Valid := by simp [Settings.Valid]
  obtain ⟨f, S⟩ := setUp3_exists (demo3_valid 1 (by decide)) hst
  have h0 := S.result 0 (by decide)
  have h1 := S.result 1 (by decide)
  exact ⟨f 0, f 1, h0, h1, (C38_ranks_agree hst (by decide) (by simp [demo3]) (by decide) (by decide)
    h0 h1 1).1⟩

end FftMpi
