import Verif.Fft2d32Lemmas

/-!
# `FFT2d::setup` with 32-bit integers: layouts, sizes, the whole function, and `compute`
-/

noncomputable section

namespace FftMpi

variable {α : Type}

open Create2

/-- Boxes (of the input, the output and every layout that `setup` computes) of at most 2^29 - 1 complex
numbers, where an empty dimension counts as 1; the bytes of a line and a small multiple of the number of
ranks fit an `int`; the output boxes are inside the grid.  `pack2d.h` always multiplies by
`sizeof(double) = 8`. -/
structure Args2.SmallBoxes (P : Nat) (a : Args2) (exchange : Int) : Prop where
  procs : 7 * (P : Int) ≤ int32Max
  bytes : ∀ n, (n = a.nfast ∨ n = a.nslow) → 16 * n ≤ int32Max
  outs : ∀ r < P, (a.outs r).Within a.nfast a.nslow
  vol : ∀ g, setupBrick2 P a exchange = some g → ∀ r < P, ∀ b,
    (b = a.ins r ∨ b = a.outs r ∨ b = fastBox2 P a r ∨ b = slowBox2 P a r ∨
      (exchange ≠ 0 ∧ b = brickBox2 a g r)) →
    4 * (max 1 b.isize * max 1 b.jsize) ≤ int32Max

/-- Size limits under which `FFT2d::setup` and `compute` are free of overflow: small boxes, and the number
of ranks times each dimension fits an `int`. -/
structure Args2.Small (P : Nat) (a : Args2) (exchange : Int) : Prop where
  boxes : a.SmallBoxes P exchange
  dims : ∀ n, (n = a.nfast ∨ n = a.nslow) → P * n ≤ int32Max

/-! ## Boxes inside the grid -/

theorem gridBox2_within {np : Nat × Nat} {P : Nat} (h : np.1 * np.2 = P) (hP : 0 < P)
    (n1 n2 : Nat) {r : Nat} (hr : r < P) : (gridBox2 np n1 n2 r).Within n1 n2 := by
  obtain ⟨l1, l2⟩ := (gridCoords2_bij h hP).1 r hr
  exact ⟨block_bounds l1, block_bounds l2⟩

theorem good2_of {n1 n2 : Int} (h1 : 16 * n1 ≤ int32Max)
    (h2 : 16 * n2 ≤ int32Max) (p1 : 0 ≤ n1) (p2 : 0 ≤ n2)
    {b : Box2} (hp : b.Proper) (hw : b.Within n1 n2)
    (hv : 4 * (max 1 b.isize * max 1 b.jsize) ≤ int32Max) : GoodBox2 b := by
  obtain ⟨q1, q2⟩ := hp
  obtain ⟨⟨w1, w1'⟩, w2, w2'⟩ := hw
  unfold int32Max at *
  have s1 : b.isize ≤ n1 := by unfold Box2.isize; omega
  have s2 : b.jsize ≤ n2 := by unfold Box2.jsize; omega
  unfold Box2.isize at q1
  unfold Box2.jsize at q2
  refine ⟨⟨w1, w2, ?_, ?_⟩, hv, ⟨?_, ?_⟩, ?_⟩ <;> omega

section
variable {P : Nat} {a : Args2} {g : Nat × Nat} {ex : Int}

theorem fastBox2_within (hv : a.Valid P) {r : Nat} (hr : r < P) :
    (fastBox2 P a r).Within a.nfast a.nslow := by
  have h1 := hv.fast; have h3 := hv.slow
  by_cases hp : preflag2 P a = true
  · rw [fastBox2_eq (by omega) hp]
    have := gridBox2_within (np := (1, P)) (one_mul P) hv.procs a.nfast.toNat a.nslow.toNat hr
    rwa [show ((a.nfast.toNat : Nat) : Int) = a.nfast by omega,
      show ((a.nslow.toNat : Nat) : Int) = a.nslow by omega] at this
  · have hp' : preflag2 P a = false := by simpa using hp
    simp only [fastBox2, hp', if_true]
    exact (hv.properIn r hr).2

theorem slowBox2_within (hv : a.Valid P)
    (ho : ∀ r < P, (a.outs r).Within a.nfast a.nslow) {r : Nat} (hr : r < P) :
    (slowBox2 P a r).Within a.nfast a.nslow := by
  have h1 := hv.fast; have h3 := hv.slow
  by_cases hp : slowflag2 P a = true
  · rw [slowBox2_eq (by omega) hp hr]
    have := gridBox2_within (np := (P, 1)) (mul_one P) hv.procs a.nfast.toNat a.nslow.toNat hr
    rwa [show ((a.nfast.toNat : Nat) : Int) = a.nfast by omega,
      show ((a.nslow.toNat : Nat) : Int) = a.nslow by omega] at this
  · have hp' : slowflag2 P a = false := by simpa using hp
    simp only [slowBox2, hp', if_true]
    exact ho r hr

theorem brickBox2_within (hv : a.Valid P) (hg : BrickOK P g ex) (he : ex ≠ 0) {r : Nat} (hr : r < P) :
    (brickBox2 a g r).Within a.nfast a.nslow := by
  have h1 := hv.fast; have h3 := hv.slow
  rw [brickBox2_eq]
  have := gridBox2_within (hg he) hv.procs a.nfast.toNat a.nslow.toNat hr
  rwa [show ((a.nfast.toNat : Nat) : Int) = a.nfast by omega,
    show ((a.nslow.toNat : Nat) : Int) = a.nslow by omega] at this

/-- The boxes of a setup with small arguments are small. -/
theorem Args2.SmallBoxes.good {w sz : Int} (hsz : 1 ≤ sz) (hw : 8 = w * sz) {st : Settings}
    (hs : a.SmallBoxes P st.exchange) (hv : a.Valid P)
    (hst : st.Valid2 w) (hg : setupBrick2 P a st.exchange = some g) (hok : BrickOK P g st.exchange)
    {me : Nat} (hme : me < P) : (Create2.mk w P me a st g).Good sz := by
  have d1 := hs.bytes _ (Or.inl rfl)
  have d3 := hs.bytes _ (Or.inr rfl)
  have h1 := hv.fast; have h3 := hv.slow
  have G := fun {b : Box2} => @good2_of _ _ d1 d3 (by omega) (by omega) b
  have V := hs.vol g hg
  constructor
  · exact hsz
  · exact hw
  · exact hst
  · exact hme
  · exact hs.procs
  · exact hv.permute
  · exact ⟨hv.tilesIn.disjoint, fun r hr => G (hv.properIn r hr).1 (hv.properIn r hr).2
      (V r hr _ (Or.inl rfl))⟩
  · exact ⟨hv.tilesOut.disjoint, fun r hr => G (hv.properOut r hr) (hs.outs r hr)
      (V r hr _ (Or.inr (Or.inl rfl)))⟩
  · exact ⟨(fastBox2_tiles hv).disjoint, fun r hr => G (fastBox2_proper hv hr)
      (fastBox2_within hv hr) (V r hr _ (Or.inr (Or.inr (Or.inl rfl))))⟩
  · exact ⟨(slowBox2_tiles hv).disjoint, fun r hr => G (slowBox2_proper hv hr)
      (slowBox2_within hv hs.outs hr) (V r hr _ (Or.inr (Or.inr (Or.inr (Or.inl rfl)))))⟩
  · intro he
    exact ⟨(brickBox2_tiles hv hok he).disjoint, fun r hr => G (brickBox2_proper r)
      (brickBox2_within hv hok he hr) (V r hr _ (Or.inr (Or.inr (Or.inr (Or.inr ⟨he, rfl⟩)))))⟩

/-! ## Layouts -/

/-- The factors of the number of ranks. -/
theorem np2_le {np : Nat × Nat} {P : Nat} (h : np.1 * np.2 = P) (hP : 0 < P) :
    np.1 ≤ P ∧ np.2 ≤ P := by
  subst h
  exact ⟨Nat.le_of_dvd hP ⟨np.2, by ring⟩, Nat.le_of_dvd hP ⟨np.1, by ring⟩⟩

theorem Args2.SmallBoxes.fits (hs : a.SmallBoxes P ex) : P ≤ 1073741824 := by
  have := hs.procs
  unfold int32Max at this
  omega

theorem setupBrick2_32_eq (hs : a.SmallBoxes P ex) (hv : a.Valid P) {me : Nat} (hme : me < P)
    (he : setupBrick2 P a ex = some g) (hg : BrickOK P g ex) :
    setupBrick2_32 P me a ex = some g := by
  have h0 := hs.fits
  have hP := hv.procs
  unfold setupBrick2 at he
  unfold setupBrick2_32
  rw [factor32_eq h0, Option.bind_some]
  by_cases h : ex = 0
  · rw [if_neg (by simpa using h)] at he ⊢
    exact he
  · rw [if_pos h] at he ⊢
    simp only [Option.bind_eq_bind, procGrid2_32_eq hP h0, he, Option.join_some, Option.bind_some,
      gridCoords2_32_eq (hg h) hP (by omega) hme]

variable (hs : a.Small P ex) (hv : a.Valid P)
include hs hv

theorem fastBox2_32_eq {me : Nat} (hme : me < P) : fastBox2_32 P a me = some (fastBox2 P a me) := by
  have d3 := hs.dims _ (Or.inr rfl)
  unfold fastBox2_32 fastBox2
  by_cases hp : preflag2 P a = false
  · simp only [hp, if_true]
  · simp only [hp, if_false, Option.bind_eq_bind, Option.bind_some, sub_one32 hv.fast,
      lo32 hv.slow.1 d3 le_rfl hme, hi32 hv.slow.1 d3 le_rfl hme, Bool.true_eq_false]

theorem slowBox2_32_eq {me : Nat} (hme : me < P) : slowBox2_32 P a me = some (slowBox2 P a me) := by
  have d1 := hs.dims _ (Or.inl rfl)
  unfold slowBox2_32 slowBox2
  by_cases hp : slowflag2 P a = false
  · simp only [hp, if_true]
  · simp only [hp, if_false, Option.bind_eq_bind, Option.bind_some, sub_one32 hv.slow,
      lo32 hv.fast.1 d1 le_rfl hme, hi32 hv.fast.1 d1 le_rfl hme, Bool.true_eq_false]

theorem brickBox2_32_eq (hg : BrickOK P g ex) (he : ex ≠ 0) {me : Nat} (hme : me < P) :
    brickBox2_32 a g me = some (brickBox2 a g me) := by
  have hP := hv.procs
  have h0 := hs.boxes.fits
  have d1 := hs.dims _ (Or.inl rfl)
  have d3 := hs.dims _ (Or.inr rfl)
  unfold brickBox2_32 brickBox2
  obtain ⟨l1, l2⟩ := (gridCoords2_bij (hg he) hP).1 me hme
  obtain ⟨m1, m2⟩ := np2_le (hg he) hP
  simp only [Option.bind_eq_bind, gridCoords2_32_eq (hg he) hP (by omega) hme,
    Option.bind_some, lo32 hv.fast.1 d1 m1 l1, hi32 hv.fast.1 d1 m1 l1,
    lo32 hv.slow.1 d3 m2 l2, hi32 hv.slow.1 d3 m2 l2]

end

/-! ## Sizes -/

theorem GoodBox2.lens {b : Box2} (h : GoodBox2 b) :
    len32 b.ilo b.ihi = some b.isize ∧ len32 b.jlo b.jhi = some b.jsize :=
  ⟨len32_eq h.int.ilo h.int.ihi.1 h.int.ihi.2, len32_eq h.int.jlo h.int.jhi.1 h.int.jhi.2⟩

theorem GoodBox2.prods {b : Box2} (h : GoodBox2 b) :
    0 ≤ b.isize * b.jsize ∧ b.isize * b.jsize ≤ 536870911 := by
  obtain ⟨n1, n2⟩ := h.int.nonneg
  have hv := h.vol
  have := mul_le2 n1 n2 (le_max_right 1 b.isize) (le_max_right 1 b.jsize)
  exact ⟨mul_nonneg n1 n2, by omega⟩

theorem boxSize2_eq_sizes (b : Box2) : boxSize2 b = b.isize * b.jsize := rfl

theorem boxSize2_32_eq {b : Box2} (h : GoodBox2 b) : boxSize2_32 b = some (boxSize2 b) := by
  obtain ⟨l1, l2⟩ := h.lens
  obtain ⟨p1, p2⟩ := h.prods
  unfold boxSize2_32
  rw [boxSize2_eq_sizes]
  simp only [Option.bind_eq_bind, l1, l2, Option.bind_some]
  rw [mul32_eq (fits_of p1 (by omega))]

theorem area64_eq {b : Box2} (h : GoodBox2 b) : area64 b = some (boxSize2 b) := by
  obtain ⟨l1, l2⟩ := h.lens
  obtain ⟨p1, p2⟩ := h.prods
  unfold area64
  rw [boxSize2_eq_sizes]
  simp only [Option.bind_eq_bind, l1, l2, Option.bind_some]
  rw [mul64_eq ⟨by omega, by omega⟩]

theorem badIndices2_32_eq {b : Box2} (h : GoodBox2 b) (n1 n2 : Int) :
    badIndices2_32 n1 n2 b = some (badIndices2 n1 n2 b) := by
  obtain ⟨h1, h2, h4, h5⟩ := h.int
  unfold badIndices2_32 badIndices2
  rw [add32_eq (fits_of (by omega) (by omega)), Option.bind_some, if_neg (by omega),
    add32_eq (fits_of (by omega) (by omega)), Option.map_some, Option.map_some]
  have e1 : ¬ b.ilo > b.ihi + 1 := by omega
  simp only [e1, false_or]

/-- The number of points of the grid. -/
theorem Args2.SmallBoxes.total {P : Nat} {a : Args2} {ex : Int} (hs : a.SmallBoxes P ex)
    (hv : a.Valid P) : 0 ≤ a.nfast * a.nslow ∧ a.nfast * a.nslow ≤ 9223372036854775807 := by
  have h1 := hv.fast; have h3 := hv.slow
  have d1 := hs.bytes _ (Or.inl rfl)
  have d3 := hs.bytes _ (Or.inr rfl)
  unfold int32Max at d1 d3
  have := mul_le2 (a := a.nfast) (b := a.nslow) (A := 134217728) (B := 134217728) (by omega) (by omega)
    (by omega) (by omega)
  exact ⟨mul_nonneg (by omega) (by omega), by omega⟩

theorem setupCheck2_32_eq {P : Nat} {a : Args2} {ex : Int} (hs : a.SmallBoxes P ex) (hv : a.Valid P)
    {me : Nat} (hb : GoodBox2 (a.ins me)) : setupCheck2_32 P me a = some none := by
  have hc := hv.check
  obtain ⟨t1, t2⟩ := hs.total hv
  unfold setupCheck2 at hc
  unfold setupCheck2_32
  split at hc
  · cases hc
  rename_i c1
  rw [if_neg c1]
  split at hc
  · cases hc
  rename_i c2
  rw [if_neg c2]
  split at hc
  · cases hc
  rename_i c3
  rw [badIndices2_32_eq hb, Option.bind_some, if_neg c3, area64_eq hb, Option.bind_some]
  split at hc
  · cases hc
  rename_i c4
  rw [not_not] at c4
  rw [c4]
  have e : ck64 (a.nfast * a.nslow) = some (a.nfast * a.nslow) := if_pos ⟨by omega, by omega⟩
  rw [e, Option.bind_some, mul64_eq ⟨by omega, by omega⟩, Option.map_some, if_neg (by simp)]

theorem lines2_32_eq {lo hi N n : Int} (h1 : len32 lo hi = some N)
    (h4 : 0 ≤ N * n ∧ N * n ≤ 2147483647) : lines2_32 lo hi n = some (N, N * n) := by
  unfold lines2_32
  simp only [Option.bind_eq_bind, h1, Option.bind_some]
  rw [mul32_eq (fits_of h4.1 h4.2), Option.bind_some]

/-- The counts that `setup_ffts` finds. -/
theorem setupFfts2_shape {c : Create2} {f s : Fft1d} (h : setupFfts2 c = some (f, s)) :
    (f.n = (c.fast c.me).jsize ∧ f.total = f.n * c.a.nfast) ∧
    (s.n = (c.slow c.me).isize ∧ s.total = s.n * c.a.nslow) := by
  unfold setupFfts2 at h
  simp only [Option.bind_eq_bind, Option.bind_eq_some_iff] at h
  obtain ⟨fF, -, fB, -, h⟩ := h
  split at h
  · simp only [Option.bind_some, Option.some.injEq, Prod.mk.injEq] at h
    obtain ⟨rfl, rfl⟩ := h
    exact ⟨⟨rfl, rfl⟩, ⟨rfl, rfl⟩⟩
  · simp only [Option.bind_eq_some_iff] at h
    obtain ⟨sF, -, sB, -, h⟩ := h
    simp only [Option.some.injEq, Prod.mk.injEq] at h
    obtain ⟨_, -, rfl, rfl⟩ := h
    exact ⟨⟨rfl, rfl⟩, ⟨rfl, rfl⟩⟩

/-- The number of values of each kind of 1d FFTs is the size of a box. -/
theorem Create2.Good.totals {sz : Int} {c : Create2} (h : c.Good sz) :
    (0 ≤ (c.fast c.me).jsize * c.a.nfast ∧ (c.fast c.me).jsize * c.a.nfast ≤ 536870911) ∧
    (0 ≤ (c.slow c.me).isize * c.a.nslow ∧ (c.slow c.me).isize * c.a.nslow ≤ 536870911) := by
  have gf := h.fast.box _ h.me
  have gs := h.slow.box _ h.me
  have ff : (c.fast c.me).isize = c.a.nfast := by
    obtain ⟨h1, h2⟩ := fastBox2_full (a := c.a) h.me
    change (c.fast c.me).ihi - (c.fast c.me).ilo + 1 = _
    unfold Create2.fast
    omega
  have fs : (c.slow c.me).jsize = c.a.nslow := by
    obtain ⟨h1, h2⟩ := slowBox2_full (a := c.a) h.me
    change (c.slow c.me).jhi - (c.slow c.me).jlo + 1 = _
    unfold Create2.slow
    omega
  have f4 := gf.prods
  have s4 := gs.prods
  rw [mul_comm, ff] at f4
  rw [fs] at s4
  exact ⟨f4, s4⟩

theorem setupFfts2_32_eq {sz : Int} {c : Create2} (h : c.Good sz) (k1 : c.a.nfast ≤ 1073741824)
    (k3 : c.a.nslow ≤ 1073741824) {f s : Fft1d}
    (hf : setupFfts2 c = some (f, s)) :
    setupFfts2_32 c (c.fast c.me) (c.slow c.me) = some (f, s) := by
  have gf := h.fast.box _ h.me
  have gs := h.slow.box _ h.me
  obtain ⟨f4, s4⟩ := h.totals
  unfold setupFfts2_32
  rw [lines2_32_eq gf.lens.2 (by omega), lines2_32_eq gs.lens.1 (by omega), ← hf]
  simp only [kissAlloc32_eq (show c.a.nfast.toNat ≤ 2147483647 by omega),
    kissAlloc32_eq (show c.a.nslow.toNat ≤ 2147483647 by omega)]
  rfl

/-! ## The whole `setup` -/

theorem setupMain2_32_sim {w sz : Int} {P me : Nat} {a : Args2} {st : Settings} {g : Nat × Nat}
    (hs : a.Small P st.exchange) (hv : a.Valid P) (hok : BrickOK P g st.exchange)
    (hG : (Create2.mk w P me a st g).Good sz) {f : Fft2 α}
    (hf : setupMain2 ⟨w, P, me, a, st, g⟩ = some f) :
    ∃ f', setupMain2_32 sz ⟨w, P, me, a, st, g⟩ = some f' ∧ f.Sim f' := by
  have hme : me < P := hG.me
  obtain ⟨f1, f3, hff, hm⟩ := setupMain2_eq (α := α) (c := ⟨w, P, me, a, st, g⟩) hG.st hme hv.fast hv.slow
    hv.permute
  rw [hm] at hf
  cases hf
  obtain ⟨F, hF, F1, F2, F4⟩ := forwardCreate2_32_sim (α := α) hG (0, 0)
  obtain ⟨I, hI, I1, I2, I4⟩ := inverseCreate2_32_sim (α := α) hG
    ((Create2.fwdSizes (α := α) ⟨w, P, me, a, st, g⟩).foldl bump2 (0, 0))
  have g1 := boxSize2_32_eq (hG.ins.box _ hme)
  have g2 := boxSize2_32_eq (hG.outs.box _ hme)
  have g3 := boxSize2_32_eq (hG.fast.box _ hme)
  have g5 := boxSize2_32_eq (hG.slow.box _ hme)
  have k1 := hs.boxes.bytes a.nfast (Or.inl rfl)
  have k3 := hs.boxes.bytes a.nslow (Or.inr rfl)
  unfold int32Max at k1 k3
  have g6 := setupFfts2_32_eq hG (by simp only; omega) (by simp only; omega) hff
  obtain ⟨t1, t2⟩ := hs.boxes.total hv
  have g7 := mul64_eq (a := a.nfast) (b := a.nslow) ⟨by omega, by omega⟩
  have e1 := fastBox2_32_eq hs hv hme
  have e3 := slowBox2_32_eq hs hv hme
  simp only [Create2.fast] at g3 g6
  simp only [Create2.slow] at g5 g6
  unfold setupMain2_32
  by_cases hx : st.exchange = 0
  · by_cases hsame : inoutSame2 P a = true
    · simp only [Option.bind_eq_bind, e1, e3, hx, ne_eq, not_true_eq_false, if_false, if_true, hsame,
        Option.bind_some, hF, g1, g2, g3, g5, g6, g7]
      refine ⟨_, rfl, ⟨?_, F1, PairSim2.some F2, F4, ?_, ?_, ?_, rfl, rfl, ?_, ?_, ?_, rfl, rfl, ?_, rfl⟩⟩
      · simp only [hsame]
      · simp only [hsame, if_true]; exact PairSim2.none
      · simp only [hsame, if_true]; exact PairSim2.none
      · simp only [hsame, if_true]; exact PairSim2.none
      · simp [fftSize2, hx, Create2.fast, Create2.slow]
      · simp only [hsame, if_true, List.append_nil]
      · simp only [hsame, if_true, List.append_nil]
      · push_cast; rfl
    · simp only [Option.bind_eq_bind, e1, e3, hx, ne_eq, not_true_eq_false, if_false, hsame,
        Bool.false_eq_true, hI, Option.map_some, Option.bind_some, hF, g1, g2, g3, g5, g6, g7]
      refine ⟨_, rfl, ⟨?_, F1, PairSim2.some F2, F4, ?_, ?_, ?_, rfl, rfl, ?_, ?_, ?_, rfl, rfl, ?_, rfl⟩⟩
      · simp only [hsame]
      · simp only [hsame, Bool.false_eq_true, if_false]; exact I1
      · simp only [hsame, Bool.false_eq_true, if_false]; exact PairSim2.some I2
      · simp only [hsame, Bool.false_eq_true, if_false]; exact I4
      · simp [fftSize2, hx, Create2.fast, Create2.slow]
      · simp only [hsame, Bool.false_eq_true, if_false, List.foldl_append]
      · simp only [hsame, Bool.false_eq_true, if_false, List.foldl_append]
      · push_cast; rfl
  · have e4 := brickBox2_32_eq hs hv hok hx hme
    have g9 := boxSize2_32_eq ((hG.brick hx).box _ hme)
    simp only [Create2.brick] at g9
    by_cases hsame : inoutSame2 P a = true
    · simp only [Option.bind_eq_bind, e1, e3, hx, ne_eq, not_false_eq_true, e4, g9, if_true, hsame,
        Option.bind_some, hF, g1, g2, g3, g5, g6, g7]
      refine ⟨_, rfl, ⟨?_, F1, PairSim2.some F2, F4, ?_, ?_, ?_, rfl, rfl, ?_, ?_, ?_, rfl, rfl, ?_, rfl⟩⟩
      · simp only [hsame]
      · simp only [hsame, if_true]; exact PairSim2.none
      · simp only [hsame, if_true]; exact PairSim2.none
      · simp only [hsame, if_true]; exact PairSim2.none
      · simp [fftSize2, hx, Create2.fast, Create2.slow, Create2.brick]
      · simp only [hsame, if_true, List.append_nil]
      · simp only [hsame, if_true, List.append_nil]
      · push_cast; rfl
    · simp only [Option.bind_eq_bind, e1, e3, hx, ne_eq, not_false_eq_true, e4, g9, if_false, if_true,
        hsame, Bool.false_eq_true, hI, Option.map_some, Option.bind_some, hF, g1, g2, g3, g5, g6, g7]
      refine ⟨_, rfl, ⟨?_, F1, PairSim2.some F2, F4, ?_, ?_, ?_, rfl, rfl, ?_, ?_, ?_, rfl, rfl, ?_, rfl⟩⟩
      · simp only [hsame]
      · simp only [hsame, Bool.false_eq_true, if_false]; exact I1
      · simp only [hsame, Bool.false_eq_true, if_false]; exact PairSim2.some I2
      · simp only [hsame, Bool.false_eq_true, if_false]; exact I4
      · simp [fftSize2, hx, Create2.fast, Create2.slow, Create2.brick]
      · simp only [hsame, Bool.false_eq_true, if_false, List.foldl_append]
      · simp only [hsame, Bool.false_eq_true, if_false, List.foldl_append]
      · push_cast; rfl

/-- With small arguments `setup` on 32-bit integers succeeds and makes an equivalent object. -/
theorem fft2Setup32_sim {w sz : Int} (hsz : 1 ≤ sz) (hw : 8 = w * sz) {P me : Nat} {a : Args2}
    {st : Settings} (hs : a.Small P st.exchange) (hv : a.Valid P) (hst : st.Valid2 w) (hme : me < P) :
    ∃ f f' : Fft2 α, fft2Setup w P me a st = some (.ok f) ∧ fft2Setup32 w sz P me a st = some (.ok f') ∧
      f.Sim f' ∧ f.fftFast.Small ∧ f.fftSlow.Small ∧ f.insize = boxSize2 (a.ins me) ∧
      f.outsize = boxSize2 (a.outs me) := by
  obtain ⟨g, hg, hok⟩ := setupBrick2_ok hv.round hv.procs hv.fast hv.slow st.exchange
  have hG := hs.boxes.good hsz hw hv hst hg hok hme
  obtain ⟨f1, f3, hff, hm⟩ := setupMain2_eq (α := α) (c := ⟨w, P, me, a, st, g⟩) hst hme hv.fast hv.slow
    hv.permute
  obtain ⟨f', hf', hsim⟩ := setupMain2_32_sim hs hv hok hG hm
  obtain ⟨t1, t3⟩ := hG.totals
  obtain ⟨f1', f3', hff', ⟨a1, a2, a3, a4⟩, c1, c2, c3, c4⟩ :=
    setupFfts2_ok (c := ⟨w, P, me, a, st, g⟩) hv.fast hv.slow
  rw [hff] at hff'
  cases hff'
  have k1 := hs.boxes.bytes a.nfast (Or.inl rfl)
  have k3 := hs.boxes.bytes a.nslow (Or.inr rfl)
  unfold int32Max at k1 k3
  have k1' : a.nfast ≤ 1073741824 := by omega
  have k3' : a.nslow ≤ 1073741824 := by omega
  have v1 := hv.fast; have v3 := hv.slow
  refine ⟨_, f', ?_, ?_, hsim,
    ⟨by rw [a2]; omega, by rw [a1]; exact k1', by rw [a1]; simp only; omega, by rw [a1]; exact a3,
      by rw [a1]; exact a4⟩,
    ⟨by rw [c2]; omega, by rw [c1]; exact k3', by rw [c1]; simp only; omega, by rw [c1]; exact c3,
      by rw [c1]; exact c4⟩, rfl, rfl⟩
  · unfold fft2Setup
    rw [hv.check]
    simp only [hg, hm, Option.bind_eq_bind, Option.bind_some]
  · unfold fft2Setup32
    rw [setupCheck2_32_eq hs.boxes hv (hG.ins.box me hme)]
    simp only [Option.bind_some, setupBrick2_32_eq hs.boxes hv hme hg hok, hf', Option.bind_eq_bind]

/-! ## compute -/

theorem Fft2.Sim.progs {f f' : Fft2 ℝ} (h : f.Sim f') (h1 : f.fftFast.Small) (h3 : f.fftSlow.Small) :
    (∀ J scaled remaponly flag ai ao,
      f'.compute32 J scaled remaponly flag ai ao = f.compute J scaled remaponly flag ai ao) ∧
    (∀ J flag ai, f'.only1d32 J flag ai = f.only1d J flag ai) ∧
    (∀ flag ai ao, f'.onlyRemaps32 flag ai ao = f.onlyRemaps flag ai ao) ∧
    (∀ flag which ai ao, f'.onlyOneRemap32 flag which ai ao = f.onlyOneRemap flag which ai ao) := by
  refine ⟨?_, ?_, ?_, ?_⟩
  · intro J scaled remaponly flag ai ao
    unfold Fft2.compute32 Fft2.compute
    simp only [h.same, h.fftFast, h.fftSlow, h.norm, h.normnum, h.insize, h.outsize,
      h.prefast.remapOrCopy, h.preslow.remapOrCopy, h.fastslow.remapIf,
      h.postslow.remapIf, h.slowfast.remapIf, h.postfast.remapIf,
      performLoc32_eq h1, performLoc32_eq h3]
  · intro J flag ai
    unfold Fft2.only1d32 Fft2.only1d
    simp only [h.fftFast, h.fftSlow, performLoc32_eq h1, performLoc32_eq h3]
  · intro flag ai ao
    unfold Fft2.onlyRemaps32 Fft2.onlyRemaps
    simp only [h.same, h.insize, h.outsize,
      h.prefast.remapOrCopy, h.preslow.remapOrCopy, h.fastslow.remapIf,
      h.postslow.remapIf, h.slowfast.remapIf, h.postfast.remapIf]
  · intro flag which ai ao
    unfold Fft2.onlyOneRemap32 Fft2.onlyOneRemap
    simp only [h.same, h.insize, h.outsize,
      h.prefast.remapOrCopy, h.preslow.remapOrCopy, h.fastslow.remapIf,
      h.postslow.remapIf, h.slowfast.remapIf, h.postfast.remapIf]

end FftMpi
