import Verif.Fft3d32Lemmas
import Verif.Kiss32Lemmas
import Verif.Fft3dCheck

/-!
# `FFT3d::setup` with 32-bit integers: layouts, sizes, the whole function, and `compute`
-/

noncomputable section

namespace FftMpi

variable {α : Type}

open Create

/-- Boxes (of the input, the output and every layout that `setup` computes) of at most 2^29 - 1 complex
numbers, where an empty dimension counts as 1; the bytes of a line and a small multiple of the number of
ranks fit an `int`; the output boxes are inside the grid.  `sz = sizeof(FFT_SCALAR)`. -/
structure Args3.SmallBoxes (sz : Int) (P : Nat) (a : Args3) (exchange : Int) : Prop where
  size : 1 ≤ sz
  procs : 7 * (P : Int) ≤ int32Max
  bytes : ∀ n, (n = a.nfast ∨ n = a.nmid ∨ n = a.nslow) → 2 * sz * n ≤ int32Max
  outs : ∀ r < P, (a.outs r).Within a.nfast a.nmid a.nslow
  vol : ∀ g, setupGrids P a exchange = some g → ∀ r < P, ∀ b,
    (b = a.ins r ∨ b = a.outs r ∨ b = fastBox P a g r ∨ b = midBox a g r ∨ b = slowBox P a g r ∨
      (exchange ≠ 0 ∧ b = brickBox a g r)) →
    4 * (max 1 b.isize * max 1 b.jsize * max 1 b.ksize) ≤ int32Max

/-- Size limits under which `FFT3d::setup` and `compute` are free of overflow: small boxes, and the number
of ranks times each dimension fits an `int`. -/
structure Args3.Small (sz : Int) (P : Nat) (a : Args3) (exchange : Int) : Prop where
  boxes : a.SmallBoxes sz P exchange
  dims : ∀ n, (n = a.nfast ∨ n = a.nmid ∨ n = a.nslow) → P * n ≤ int32Max

/-! ## Boxes inside the grid -/

theorem block_bounds {n np ip : Nat} (h : ip < np) : 0 ≤ blockLo ip n np ∧ blockHi ip n np < n := by
  unfold blockLo blockHi
  have h1 := block_mono (n := n) (np := np) (show ip + 1 ≤ np from h)
  have h2 : np * n / np = n := Nat.mul_div_cancel_left n (by omega)
  rw [h2] at h1
  generalize (ip + 1) * n / np = q at *
  exact ⟨Int.natCast_nonneg _, by omega⟩

theorem gridBox_within {np : Nat × Nat × Nat} {P : Nat} (h : np.1 * np.2.1 * np.2.2 = P) (hP : 0 < P)
    (n1 n2 n3 : Nat) {me : Nat} (hme : me < P) : (gridBox np n1 n2 n3 me).Within n1 n2 n3 := by
  obtain ⟨l1, l2, l3⟩ := (gridCoords_bij h hP).1 me hme
  exact ⟨block_bounds l1, block_bounds l2, block_bounds l3⟩

theorem good_of {sz : Int} (hsz : 1 ≤ sz) {n1 n2 n3 : Int} (h1 : 2 * sz * n1 ≤ int32Max)
    (h2 : 2 * sz * n2 ≤ int32Max) (h3 : 2 * sz * n3 ≤ int32Max) (p1 : 0 ≤ n1) (p2 : 0 ≤ n2) (p3 : 0 ≤ n3)
    {b : Box3} (hp : b.Proper) (hw : b.Within n1 n2 n3)
    (hv : 4 * (max 1 b.isize * max 1 b.jsize * max 1 b.ksize) ≤ int32Max) : GoodBox sz b := by
  obtain ⟨q1, q2, q3⟩ := hp
  obtain ⟨⟨w1, w1'⟩, ⟨w2, w2'⟩, w3, w3'⟩ := hw
  unfold int32Max at *
  have k : ∀ n : Int, 0 ≤ n → 2 * sz * n ≤ 2147483647 → n ≤ 1073741823 := by
    intro n hn h
    have : 1 * n ≤ sz * n := mul_le_mul_of_nonneg_right hsz hn
    have e : 2 * sz * n = 2 * (sz * n) := by ring
    omega
  have k1 := k _ p1 h1
  have k2 := k _ p2 h2
  have k3 := k _ p3 h3
  have s1 : b.isize ≤ n1 := by unfold Box3.isize; omega
  have s2 : b.jsize ≤ n2 := by unfold Box3.jsize; omega
  have s3 : b.ksize ≤ n3 := by unfold Box3.ksize; omega
  have e : ∀ s n : Int, s ≤ n → 2 * sz * n ≤ 2147483647 → 2 * s * sz ≤ 2147483647 := by
    intro s n h1 h2
    have : sz * s ≤ sz * n := mul_le_mul_of_nonneg_left h1 (by omega)
    have e1 : 2 * sz * n = 2 * (sz * n) := by ring
    have e2 : 2 * s * sz = 2 * (sz * s) := by ring
    omega
  unfold Box3.isize at q1
  unfold Box3.jsize at q2
  unfold Box3.ksize at q3
  refine ⟨⟨w1, w2, w3, ?_, ?_, ?_⟩, hv, ⟨e _ _ s1 h1, e _ _ s2 h2, e _ _ s3 h3⟩, ?_⟩ <;> omega

section
variable {sz : Int} {P : Nat} {a : Args3} {g : Grids} {ex : Int}

theorem fastBox_within (hv : a.Valid P) (hg : g.OK P ex) {r : Nat} (hr : r < P) :
    (fastBox P a g r).Within a.nfast a.nmid a.nslow := by
  have h1 := hv.fast; have h2 := hv.mid; have h3 := hv.slow
  by_cases hp : preflag P a = true
  · rw [fastBox_eq (by omega) hg hp]
    have := gridBox_within hg.fast hv.procs a.nfast.toNat a.nmid.toNat a.nslow.toNat hr
    rwa [show ((a.nfast.toNat : Nat) : Int) = a.nfast by omega,
      show ((a.nmid.toNat : Nat) : Int) = a.nmid by omega,
      show ((a.nslow.toNat : Nat) : Int) = a.nslow by omega] at this
  · have hp' : preflag P a = false := by simpa using hp
    simp only [fastBox, hp', if_true]
    exact (hv.properIn r hr).2

theorem midBox_within (hv : a.Valid P) (hg : g.OK P ex) {r : Nat} (hr : r < P) :
    (midBox a g r).Within a.nfast a.nmid a.nslow := by
  have h1 := hv.fast; have h2 := hv.mid; have h3 := hv.slow
  rw [midBox_eq (by omega) hg]
  have := gridBox_within hg.mid hv.procs a.nfast.toNat a.nmid.toNat a.nslow.toNat hr
  rwa [show ((a.nfast.toNat : Nat) : Int) = a.nfast by omega,
    show ((a.nmid.toNat : Nat) : Int) = a.nmid by omega,
    show ((a.nslow.toNat : Nat) : Int) = a.nslow by omega] at this

theorem slowBox_within (hv : a.Valid P) (hg : g.OK P ex)
    (ho : ∀ r < P, (a.outs r).Within a.nfast a.nmid a.nslow) {r : Nat} (hr : r < P) :
    (slowBox P a g r).Within a.nfast a.nmid a.nslow := by
  have h1 := hv.fast; have h2 := hv.mid; have h3 := hv.slow
  by_cases hp : slowflag P a = true
  · rw [slowBox_eq hv.procs (by omega) hg hp hr]
    have := gridBox_within hg.slow hv.procs a.nfast.toNat a.nmid.toNat a.nslow.toNat hr
    rwa [show ((a.nfast.toNat : Nat) : Int) = a.nfast by omega,
      show ((a.nmid.toNat : Nat) : Int) = a.nmid by omega,
      show ((a.nslow.toNat : Nat) : Int) = a.nslow by omega] at this
  · have hp' : slowflag P a = false := by simpa using hp
    simp only [slowBox, hp', if_true]
    exact ho r hr

theorem brickBox_within (hv : a.Valid P) (hg : g.OK P ex) (he : ex ≠ 0) {r : Nat} (hr : r < P) :
    (brickBox a g r).Within a.nfast a.nmid a.nslow := by
  have h1 := hv.fast; have h2 := hv.mid; have h3 := hv.slow
  rw [brickBox_eq]
  have := gridBox_within (hg.brick he) hv.procs a.nfast.toNat a.nmid.toNat a.nslow.toNat hr
  rwa [show ((a.nfast.toNat : Nat) : Int) = a.nfast by omega,
    show ((a.nmid.toNat : Nat) : Int) = a.nmid by omega,
    show ((a.nslow.toNat : Nat) : Int) = a.nslow by omega] at this

/-- The boxes of a setup with small arguments are small. -/
theorem Args3.SmallBoxes.good {st : Settings} (hs : a.SmallBoxes sz P st.exchange) (hv : a.Valid P)
    (hst : st.Valid) (hg : setupGrids P a st.exchange = some g) (hok : g.OK P st.exchange) {me : Nat}
    (hme : me < P) : (Create.mk P me a st g).Good sz := by
  have d1 := hs.bytes _ (Or.inl rfl)
  have d2 := hs.bytes _ (Or.inr (Or.inl rfl))
  have d3 := hs.bytes _ (Or.inr (Or.inr rfl))
  have h1 := hv.fast; have h2 := hv.mid; have h3 := hv.slow
  have G := fun {b : Box3} => @good_of sz hs.size _ _ _ d1 d2 d3 (by omega) (by omega) (by omega) b
  have V := hs.vol g hg
  constructor
  · exact hs.size
  · exact hst
  · exact hme
  · exact hs.procs
  · exact hv.permute
  · exact ⟨hv.tilesIn.disjoint, fun r hr => G (hv.properIn r hr).1 (hv.properIn r hr).2
      (V r hr _ (Or.inl rfl))⟩
  · exact ⟨hv.tilesOut.disjoint, fun r hr => G (hv.properOut r hr) (hs.outs r hr)
      (V r hr _ (Or.inr (Or.inl rfl)))⟩
  · exact ⟨(fastBox_tiles hv hok).disjoint, fun r hr => G (fastBox_proper hv hok hr)
      (fastBox_within hv hok hr) (V r hr _ (Or.inr (Or.inr (Or.inl rfl))))⟩
  · exact ⟨(midBox_tiles hv hok).disjoint, fun r hr => G (midBox_proper hv hok r)
      (midBox_within hv hok hr) (V r hr _ (Or.inr (Or.inr (Or.inr (Or.inl rfl)))))⟩
  · exact ⟨(slowBox_tiles hv hok).disjoint, fun r hr => G (slowBox_proper hv hok hr)
      (slowBox_within hv hok hs.outs hr) (V r hr _ (Or.inr (Or.inr (Or.inr (Or.inr (Or.inl rfl))))))⟩
  · intro he
    exact ⟨(brickBox_tiles hv hok he).disjoint, fun r hr => G (brickBox_proper r)
      (brickBox_within hv hok he hr) (V r hr _ (Or.inr (Or.inr (Or.inr (Or.inr (Or.inr ⟨he, rfl⟩))))))⟩

/-! ## Layouts -/

/-- The factors of the number of ranks. -/
theorem np_le {np : Nat × Nat × Nat} {P : Nat} (h : np.1 * np.2.1 * np.2.2 = P) (hP : 0 < P) :
    np.1 ≤ P ∧ np.2.1 ≤ P ∧ np.2.2 ≤ P := by
  subst h
  exact ⟨Nat.le_of_dvd hP ⟨np.2.1 * np.2.2, by ring⟩, Nat.le_of_dvd hP ⟨np.1 * np.2.2, by ring⟩,
    Nat.le_of_dvd hP ⟨np.1 * np.2.1, by ring⟩⟩

theorem lo32 {np ip P : Nat} {n : Int} (hn : 2 ≤ n) (hd : (P : Int) * n ≤ int32Max) (hnp : np ≤ P)
    (hip : ip < np) : blockLo32 ip n np = some (blockLo ip n.toNat np) := by
  obtain ⟨m, rfl⟩ := Int.eq_ofNat_of_zero_le (show 0 ≤ n by omega)
  rw [Int.toNat_natCast]
  have h1 : np * m ≤ P * m := Nat.mul_le_mul_right m hnp
  unfold int32Max at hd
  exact blockLo32_eq hip (by rw [← Nat.cast_mul] at hd; omega)

theorem hi32 {np ip P : Nat} {n : Int} (hn : 2 ≤ n) (hd : (P : Int) * n ≤ int32Max) (hnp : np ≤ P)
    (hip : ip < np) : blockHi32 ip n np = some (blockHi ip n.toNat np) := by
  obtain ⟨m, rfl⟩ := Int.eq_ofNat_of_zero_le (show 0 ≤ n by omega)
  rw [Int.toNat_natCast]
  have h1 : np * m ≤ P * m := Nat.mul_le_mul_right m hnp
  unfold int32Max at hd
  exact blockHi32_eq hip (by omega) (by rw [← Nat.cast_mul] at hd; omega)

theorem sub_one32 {n : Int} (hn : 2 ≤ n ∧ n < 2 ^ 31) : sub32 n 1 = some (n - 1) :=
  sub32_eq (fits_of (by omega) (by omega))

theorem Args3.SmallBoxes.fits (hs : a.SmallBoxes sz P ex) : P ≤ 1073741824 := by
  have := hs.procs
  unfold int32Max at this
  omega

theorem setupGrids32_eq (hs : a.SmallBoxes sz P ex) (hv : a.Valid P) {me : Nat} (hme : me < P) (he : setupGrids P a ex = some g) (hg : g.OK P ex) :
    setupGrids32 P me a ex = some g := by
  have h0 := hs.fits
  have hP := hv.procs
  have q := fun x y z => procGrid32_eq hP h0 a.fp x y z
  have c := fun {np : Nat × Nat × Nat} (h : np.1 * np.2.1 * np.2.2 = P) =>
    gridCoords32_eq h hP (by omega) hme
  unfold setupGrids at he
  unfold setupGrids32
  simp only [Option.bind_eq_bind, Option.bind_eq_some_iff] at he
  obtain ⟨f, hf, m, hm, s, hs', hb⟩ := he
  by_cases h : ex = 0
  · simp only [h, ne_eq, not_true_eq_false, if_false, Option.bind_some, Option.some.injEq] at hb ⊢
    subst hb
    simp only [Option.bind_eq_bind, q, hf, hm, hs', Option.join_some, Option.bind_some, c hg.fast, c hg.mid,
      c hg.slow]
  · simp only [h, ne_eq, not_false_eq_true, if_true, Option.bind_eq_some_iff, Option.some.injEq] at hb ⊢
    obtain ⟨b, hb, hgg⟩ := hb
    subst hgg
    simp only [Option.bind_eq_bind, q, hf, hm, hs', hb, Option.join_some, Option.bind_some, c hg.fast,
      c hg.mid, c hg.slow, c (hg.brick h)]

variable (hs : a.Small sz P ex) (hv : a.Valid P) (hg : g.OK P ex)
include hs hv hg

theorem fastBox32_eq {me : Nat} (hme : me < P) : fastBox32 P a g me = some (fastBox P a g me) := by
  have hP := hv.procs
  have h0 := hs.boxes.fits
  have d2 := hs.dims _ (Or.inr (Or.inl rfl))
  have d3 := hs.dims _ (Or.inr (Or.inr rfl))
  unfold fastBox32 fastBox
  by_cases hp : preflag P a = false
  · simp only [hp, if_true]
  · obtain ⟨l1, l2, l3⟩ := (gridCoords_bij hg.fast hP).1 me hme
    obtain ⟨m1, m2, m3⟩ := np_le hg.fast hP
    simp only [hp, if_false, Option.bind_eq_bind, gridCoords32_eq hg.fast hP (by omega) hme,
      Option.bind_some, sub_one32 hv.fast, lo32 hv.mid.1 d2 m2 l2, hi32 hv.mid.1 d2 m2 l2,
      lo32 hv.slow.1 d3 m3 l3, hi32 hv.slow.1 d3 m3 l3, Bool.true_eq_false]

theorem midBox32_eq {me : Nat} (hme : me < P) : midBox32 a g me = some (midBox a g me) := by
  have hP := hv.procs
  have h0 := hs.boxes.fits
  have d1 := hs.dims _ (Or.inl rfl)
  have d3 := hs.dims _ (Or.inr (Or.inr rfl))
  unfold midBox32 midBox
  obtain ⟨l1, l2, l3⟩ := (gridCoords_bij hg.mid hP).1 me hme
  obtain ⟨m1, m2, m3⟩ := np_le hg.mid hP
  simp only [Option.bind_eq_bind, gridCoords32_eq hg.mid hP (by omega) hme,
    Option.bind_some, sub_one32 hv.mid, lo32 hv.fast.1 d1 m1 l1, hi32 hv.fast.1 d1 m1 l1,
    lo32 hv.slow.1 d3 m3 l3, hi32 hv.slow.1 d3 m3 l3]

theorem slowBox32_eq {me : Nat} (hme : me < P) : slowBox32 P a g me = some (slowBox P a g me) := by
  have hP := hv.procs
  have h0 := hs.boxes.fits
  have d1 := hs.dims _ (Or.inl rfl)
  have d2 := hs.dims _ (Or.inr (Or.inl rfl))
  unfold slowBox32 slowBox
  by_cases hp : slowflag P a = false
  · simp only [hp, if_true]
  · obtain ⟨l1, l2, l3⟩ := (gridCoords_bij hg.slow hP).1 me hme
    obtain ⟨m1, m2, m3⟩ := np_le hg.slow hP
    simp only [hp, if_false, Option.bind_eq_bind, gridCoords32_eq hg.slow hP (by omega) hme,
      Option.bind_some, sub_one32 hv.slow, lo32 hv.mid.1 d2 m2 l2, hi32 hv.mid.1 d2 m2 l2,
      lo32 hv.fast.1 d1 m1 l1, hi32 hv.fast.1 d1 m1 l1, Bool.true_eq_false]

theorem brickBox32_eq (he : ex ≠ 0) {me : Nat} (hme : me < P) :
    brickBox32 a g me = some (brickBox a g me) := by
  have hP := hv.procs
  have h0 := hs.boxes.fits
  have d1 := hs.dims _ (Or.inl rfl)
  have d2 := hs.dims _ (Or.inr (Or.inl rfl))
  have d3 := hs.dims _ (Or.inr (Or.inr rfl))
  unfold brickBox32 brickBox
  obtain ⟨l1, l2, l3⟩ := (gridCoords_bij (hg.brick he) hP).1 me hme
  obtain ⟨m1, m2, m3⟩ := np_le (hg.brick he) hP
  simp only [Option.bind_eq_bind, gridCoords32_eq (hg.brick he) hP (by omega) hme,
    Option.bind_some, lo32 hv.fast.1 d1 m1 l1, hi32 hv.fast.1 d1 m1 l1, lo32 hv.mid.1 d2 m2 l2,
    hi32 hv.mid.1 d2 m2 l2, lo32 hv.slow.1 d3 m3 l3, hi32 hv.slow.1 d3 m3 l3]

end

/-! ## Sizes -/

theorem GoodBox.lens {sz : Int} {b : Box3} (h : GoodBox sz b) :
    len32 b.ilo b.ihi = some b.isize ∧ len32 b.jlo b.jhi = some b.jsize ∧
      len32 b.klo b.khi = some b.ksize :=
  ⟨len32_eq h.int.ilo h.int.ihi.1 h.int.ihi.2, len32_eq h.int.jlo h.int.jhi.1 h.int.jhi.2,
    len32_eq h.int.klo h.int.khi.1 h.int.khi.2⟩

/-- All products of two or three sizes. -/
theorem GoodBox.prods {sz : Int} {b : Box3} (h : GoodBox sz b) :
    (0 ≤ b.isize * b.jsize ∧ b.isize * b.jsize ≤ 536870911) ∧
    (0 ≤ b.isize * b.ksize ∧ b.isize * b.ksize ≤ 536870911) ∧
    (0 ≤ b.jsize * b.ksize ∧ b.jsize * b.ksize ≤ 536870911) ∧
    (0 ≤ b.isize * b.jsize * b.ksize ∧ b.isize * b.jsize * b.ksize ≤ 536870911) := by
  obtain ⟨n1, n2, n3⟩ := h.int.nonneg
  have hv := h.vol
  have m := fun {x y z : Int} (hx : 0 ≤ x) (hy : 0 ≤ y) (hz : 0 ≤ z) (hx' : x ≤ max 1 b.isize)
    (hy' : y ≤ max 1 b.jsize) (hz' : z ≤ max 1 b.ksize) => mul_le3 hx hy hz hx' hy' hz'
  have a1 := m n1 n2 (show (0 : Int) ≤ 1 by omega) (le_max_right _ _) (le_max_right _ _) (le_max_left _ _)
  have a2 := m n1 (show (0 : Int) ≤ 1 by omega) n3 (le_max_right _ _) (le_max_left _ _) (le_max_right _ _)
  have a3 := m (show (0 : Int) ≤ 1 by omega) n2 n3 (le_max_left _ _) (le_max_right _ _) (le_max_right _ _)
  have a4 := m n1 n2 n3 (le_max_right _ _) (le_max_right _ _) (le_max_right _ _)
  rw [mul_one] at a1 a2
  rw [one_mul] at a3
  refine ⟨⟨mul_nonneg n1 n2, by omega⟩, ⟨mul_nonneg n1 n3, by omega⟩, ⟨mul_nonneg n2 n3, by omega⟩,
    mul_nonneg (mul_nonneg n1 n2) n3, by omega⟩

theorem boxSize_eq_sizes (b : Box3) : boxSize b = b.isize * b.jsize * b.ksize := rfl

theorem boxSize32_eq {sz : Int} {b : Box3} (h : GoodBox sz b) : boxSize32 b = some (boxSize b) := by
  obtain ⟨l1, l2, l3⟩ := h.lens
  obtain ⟨p1, p2, p3, p4⟩ := h.prods
  unfold boxSize32
  rw [boxSize_eq_sizes]
  simp only [Option.bind_eq_bind, l1, l2, l3, Option.bind_some]
  rw [mul32_eq (fits_of p1.1 (by omega)), Option.bind_some, mul32_eq (fits_of p4.1 (by omega))]

theorem volume64_eq {sz : Int} {b : Box3} (h : GoodBox sz b) : volume64 b = some (boxSize b) := by
  obtain ⟨l1, l2, l3⟩ := h.lens
  obtain ⟨p1, p2, p3, p4⟩ := h.prods
  unfold volume64
  rw [boxSize_eq_sizes]
  simp only [Option.bind_eq_bind, l1, l2, l3, Option.bind_some]
  rw [mul64_eq ⟨by omega, by omega⟩, Option.bind_some, mul64_eq ⟨by omega, by omega⟩]

theorem badIndices32_eq {sz : Int} {b : Box3} (h : GoodBox sz b) (n1 n2 n3 : Int) :
    badIndices32 n1 n2 n3 b = some (badIndices n1 n2 n3 b) := by
  obtain ⟨h1, h2, h3, h4, h5, h6⟩ := h.int
  unfold badIndices32 badIndices
  rw [add32_eq (fits_of (by omega) (by omega)), Option.bind_some, if_neg (by omega),
    add32_eq (fits_of (by omega) (by omega)), Option.bind_some, if_neg (by omega),
    add32_eq (fits_of (by omega) (by omega)), Option.map_some, Option.map_some]
  have e1 : ¬ b.ilo > b.ihi + 1 := by omega
  have e2 : ¬ b.jlo > b.jhi + 1 := by omega
  simp only [e1, e2, false_or]

/-- The number of points of the grid: `P` boxes of less than 2^29 points. -/
theorem Args3.SmallBoxes.total {sz : Int} {P : Nat} {a : Args3} {ex : Int} (hs : a.SmallBoxes sz P ex)
    (hv : a.Valid P) :
    a.nfast * a.nmid ≤ 9223372036854775807 ∧
    0 ≤ a.nfast * a.nmid * a.nslow ∧ a.nfast * a.nmid * a.nslow ≤ 9223372036854775807 := by
  have h1 := hv.fast; have h2 := hv.mid; have h3 := hv.slow
  obtain ⟨g, hg, -⟩ := setupGrids_ok hv.round hv.procs hv.fast hv.mid hv.slow ex
  have hc : ∀ r ∈ Finset.range P, (a.ins r).count ≤ 536870911 := by
    intro r hr
    have hr' : r < P := by simpa using hr
    have V := hs.vol g hg r hr' _ (Or.inl rfl)
    obtain ⟨q1, q2, q3⟩ := (hv.properIn r hr').1
    have := mul_le3 q1 q2 q3 (le_max_right 1 _) (le_max_right 1 _) (le_max_right 1 _)
    rw [← boxSize_eq_count (hv.properIn r hr').1, boxSize_eq_sizes]
    unfold int32Max at V
    omega
  have hsum := hv.tilesIn.sum_count (by omega) (by omega) (by omega)
  have hle := Finset.sum_le_card_nsmul _ _ _ hc
  rw [hsum, Finset.card_range, nsmul_eq_mul] at hle
  have hP := hs.procs
  unfold int32Max at hP
  have n0 : 0 ≤ a.nfast * a.nmid := mul_nonneg (by omega) (by omega)
  have n1 : a.nfast * a.nmid * 1 ≤ a.nfast * a.nmid * a.nslow := mul_le_mul_of_nonneg_left (by omega) n0
  have n2 : 0 ≤ a.nfast * a.nmid * a.nslow := mul_nonneg n0 (by omega)
  omega

theorem setupCheck32_eq {sz : Int} {P : Nat} {a : Args3} {ex : Int} (hs : a.SmallBoxes sz P ex) (hv : a.Valid P)
    {me : Nat} (hb : GoodBox sz (a.ins me)) : setupCheck32 P me a = some none := by
  have hc := hv.check
  obtain ⟨t1, t2, t3⟩ := hs.total hv
  have h1 := hv.fast; have h2 := hv.mid
  have t0 : 0 ≤ a.nfast * a.nmid := mul_nonneg (by omega) (by omega)
  unfold setupCheck at hc
  unfold setupCheck32
  split at hc
  · cases hc
  rename_i c1
  rw [if_neg c1]
  split at hc
  · cases hc
  rename_i c2
  rw [if_neg c2]
  split at hc
  · cases hc
  rename_i c3
  rw [badIndices32_eq hb, Option.bind_some, if_neg c3, volume64_eq hb, Option.bind_some]
  split at hc
  · cases hc
  rename_i c4
  rw [not_not] at c4
  rw [c4]
  have e : ck64 (a.nfast * a.nmid * a.nslow) = some (a.nfast * a.nmid * a.nslow) :=
    if_pos ⟨by omega, by omega⟩
  rw [e, Option.bind_some, mul64_eq ⟨by omega, by omega⟩, Option.bind_some, mul64_eq ⟨by omega, by omega⟩,
    Option.map_some, if_neg (by simp)]

theorem lines32_eq {alo ahi blo bhi A B n : Int} (h1 : len32 alo ahi = some A) (h2 : len32 blo bhi = some B)
    (h3 : 0 ≤ A * B ∧ A * B ≤ 2147483647) (h4 : 0 ≤ A * B * n ∧ A * B * n ≤ 2147483647) :
    lines32 alo ahi blo bhi n = some (A * B, A * B * n) := by
  unfold lines32
  simp only [Option.bind_eq_bind, h1, h2, Option.bind_some]
  rw [mul32_eq (fits_of h3.1 h3.2), Option.bind_some, mul32_eq (fits_of h4.1 h4.2), Option.bind_some]

/-- The lines of the grid are short. -/
theorem Args3.SmallBoxes.line {sz : Int} {P : Nat} {a : Args3} {ex : Int} (hs : a.SmallBoxes sz P ex) {n : Int}
    (hn : n = a.nfast ∨ n = a.nmid ∨ n = a.nslow) (h0 : 0 ≤ n) : n ≤ 1073741824 := by
  have h1 := hs.bytes n hn
  have h2 := hs.size
  have : 1 * n ≤ sz * n := mul_le_mul_of_nonneg_right h2 h0
  have e : 2 * sz * n = 2 * (sz * n) := by ring
  unfold int32Max at h1
  omega

/-- The counts that `setup_ffts` finds. -/
theorem setupFfts_shape {c : Create} {f m s : Fft1d} (h : setupFfts c = some (f, m, s)) :
    (f.n = (c.fast c.me).jsize * (c.fast c.me).ksize ∧ f.total = f.n * c.a.nfast) ∧
    (m.n = (c.mid c.me).isize * (c.mid c.me).ksize ∧ m.total = m.n * c.a.nmid) ∧
    (s.n = (c.slow c.me).isize * (c.slow c.me).jsize ∧ s.total = s.n * c.a.nslow) := by
  unfold setupFfts at h
  simp only [Option.bind_eq_bind, Option.bind_eq_some_iff] at h
  obtain ⟨fF, -, fB, -, h⟩ := h
  split at h
  all_goals
    simp only [Option.bind_some, Option.bind_eq_some_iff] at h
    try obtain ⟨mF, -, mB, -, h⟩ := h
    split at h
    · cases h
      exact ⟨⟨rfl, rfl⟩, ⟨rfl, rfl⟩, ⟨rfl, rfl⟩⟩
    · split at h
      · cases h
        exact ⟨⟨rfl, rfl⟩, ⟨rfl, rfl⟩, ⟨rfl, rfl⟩⟩
      · simp only [Option.bind_eq_some_iff] at h
        obtain ⟨sF, -, sB, -, h⟩ := h
        cases h
        exact ⟨⟨rfl, rfl⟩, ⟨rfl, rfl⟩, ⟨rfl, rfl⟩⟩

/-- The number of values of each kind of 1d FFTs is the size of a box. -/
theorem Create.Good.totals {sz : Int} {c : Create} (h : c.Good sz) :
    (0 ≤ (c.fast c.me).jsize * (c.fast c.me).ksize * c.a.nfast ∧
      (c.fast c.me).jsize * (c.fast c.me).ksize * c.a.nfast ≤ 536870911) ∧
    (0 ≤ (c.mid c.me).isize * (c.mid c.me).ksize * c.a.nmid ∧
      (c.mid c.me).isize * (c.mid c.me).ksize * c.a.nmid ≤ 536870911) ∧
    (0 ≤ (c.slow c.me).isize * (c.slow c.me).jsize * c.a.nslow ∧
      (c.slow c.me).isize * (c.slow c.me).jsize * c.a.nslow ≤ 536870911) := by
  have gf := h.fast.box _ h.me
  have gm := h.mid.box _ h.me
  have gs := h.slow.box _ h.me
  have ff : (c.fast c.me).isize = c.a.nfast := by
    obtain ⟨h1, h2⟩ := fastBox_full (a := c.a) (g := c.g) h.me
    change (c.fast c.me).ihi - (c.fast c.me).ilo + 1 = _
    unfold Create.fast
    omega
  have fm : (c.mid c.me).jsize = c.a.nmid := by
    obtain ⟨h1, h2⟩ := midBox_full (a := c.a) (g := c.g) c.me
    change (c.mid c.me).jhi - (c.mid c.me).jlo + 1 = _
    unfold Create.mid
    omega
  have fs : (c.slow c.me).ksize = c.a.nslow := by
    obtain ⟨h1, h2⟩ := slowBox_full (a := c.a) (g := c.g) h.me
    change (c.slow c.me).khi - (c.slow c.me).klo + 1 = _
    unfold Create.slow
    omega
  obtain ⟨-, -, -, f4⟩ := gf.prods
  obtain ⟨-, -, -, m4⟩ := gm.prods
  obtain ⟨-, -, -, s4⟩ := gs.prods
  rw [show (c.fast c.me).isize * (c.fast c.me).jsize * (c.fast c.me).ksize =
    (c.fast c.me).jsize * (c.fast c.me).ksize * (c.fast c.me).isize by ring, ff] at f4
  rw [show (c.mid c.me).isize * (c.mid c.me).jsize * (c.mid c.me).ksize =
    (c.mid c.me).isize * (c.mid c.me).ksize * (c.mid c.me).jsize by ring, fm] at m4
  rw [fs] at s4
  exact ⟨f4, m4, s4⟩

theorem setupFfts32_eq {sz : Int} {c : Create} (h : c.Good sz) (k1 : c.a.nfast ≤ 1073741824)
    (k2 : c.a.nmid ≤ 1073741824) (k3 : c.a.nslow ≤ 1073741824) {f m s : Fft1d}
    (hf : setupFfts c = some (f, m, s)) :
    setupFfts32 c (c.fast c.me) (c.mid c.me) (c.slow c.me) = some (f, m, s) := by
  have gf := h.fast.box _ h.me
  have gm := h.mid.box _ h.me
  have gs := h.slow.box _ h.me
  obtain ⟨f4, m4, s4⟩ := h.totals
  obtain ⟨-, -, f3, -⟩ := gf.prods
  obtain ⟨-, m3, -, -⟩ := gm.prods
  obtain ⟨s3, -, -, -⟩ := gs.prods
  unfold setupFfts32
  rw [lines32_eq gf.lens.2.1 gf.lens.2.2 (by omega) (by omega),
    lines32_eq gm.lens.1 gm.lens.2.2 (by omega) (by omega),
    lines32_eq gs.lens.1 gs.lens.2.1 (by omega) (by omega), ← hf]
  simp only [kissAlloc32_eq (show c.a.nfast.toNat ≤ 2147483647 by omega),
    kissAlloc32_eq (show c.a.nmid.toNat ≤ 2147483647 by omega),
    kissAlloc32_eq (show c.a.nslow.toNat ≤ 2147483647 by omega)]
  rfl

/-! ## The whole `setup` -/

theorem setupMain32_sim {sz : Int} {P me : Nat} {a : Args3} {st : Settings} {g : Grids}
    (hs : a.Small sz P st.exchange) (hv : a.Valid P) (hst : st.Valid) (hok : g.OK P st.exchange)
    (hG : (Create.mk P me a st g).Good sz) {f : Fft3 α} (hf : setupMain ⟨P, me, a, st, g⟩ = some f) :
    ∃ f', setupMain32 sz ⟨P, me, a, st, g⟩ = some f' ∧ f.Sim f' := by
  have hme : me < P := hG.me
  obtain ⟨f1, f2, f3, hff, hm⟩ := setupMain_eq (α := α) (c := ⟨P, me, a, st, g⟩) hst hme hv
  rw [hm] at hf
  cases hf
  obtain ⟨F, hF, F1, F2, F3, F4⟩ := forwardCreate32_sim (α := α) hG (0, 0)
  obtain ⟨I, hI, I1, I2, I3, I4⟩ := inverseCreate32_sim (α := α) hG
    ((Create.fwdSizes (α := α) ⟨P, me, a, st, g⟩).foldl bump (0, 0))
  have g1 := boxSize32_eq (hG.ins.box _ hme)
  have g2 := boxSize32_eq (hG.outs.box _ hme)
  have g3 := boxSize32_eq (hG.fast.box _ hme)
  have g4 := boxSize32_eq (hG.mid.box _ hme)
  have g5 := boxSize32_eq (hG.slow.box _ hme)
  have v1 := hv.fast; have v2 := hv.mid; have v3 := hv.slow
  have g6 := setupFfts32_eq hG (hs.boxes.line (n := a.nfast) (Or.inl rfl) (by omega))
    (hs.boxes.line (n := a.nmid) (Or.inr (Or.inl rfl)) (by omega))
    (hs.boxes.line (n := a.nslow) (Or.inr (Or.inr rfl)) (by omega)) hff
  obtain ⟨t1, t2, t3⟩ := hs.boxes.total hv
  have t0 : 0 ≤ a.nfast * a.nmid := by have := hv.fast; have := hv.mid; exact mul_nonneg (by omega) (by omega)
  have g7 := mul64_eq (a := a.nfast) (b := a.nmid) ⟨by omega, by omega⟩
  have g8 := mul64_eq (a := a.nfast * a.nmid) (b := a.nslow) ⟨by omega, by omega⟩
  have e1 := fastBox32_eq hs hv hok hme
  have e2 := midBox32_eq hs hv hok hme
  have e3 := slowBox32_eq hs hv hok hme
  simp only [Create.fast] at g3 g6
  simp only [Create.mid] at g4 g6
  simp only [Create.slow] at g5 g6
  unfold setupMain32
  by_cases hx : st.exchange = 0
  · by_cases hsame : inoutSame P a = true
    · simp only [Option.bind_eq_bind, e1, e2, e3, hx, ne_eq, not_true_eq_false, if_false, if_true, hsame, 
        Option.bind_some, hF, g1, g2, g3, g4, g5, g6, g7, g8]
      refine ⟨_, rfl, ⟨?_, F1, PairSim.some F2, PairSim.some F3, F4, ?_, ?_, ?_, ?_, rfl, rfl, ?_, ?_, ?_,
        rfl, rfl, rfl, ?_, rfl⟩⟩
      · simp only [hsame]
      · simp only [hsame, if_true]; exact PairSim.none
      · simp only [hsame, if_true]; exact PairSim.none
      · simp only [hsame, if_true]; exact PairSim.none
      · simp only [hsame, if_true]; exact PairSim.none
      · simp [fftSize, hx, Create.fast, Create.mid, Create.slow]
      · simp only [hsame, if_true, List.append_nil]
      · simp only [hsame, if_true, List.append_nil]
      · push_cast; rfl
    · simp only [Option.bind_eq_bind, e1, e2, e3, hx, ne_eq, not_true_eq_false, if_false, hsame, Bool.false_eq_true, hI, Option.map_some, 
        Option.bind_some, hF, g1, g2, g3, g4, g5, g6, g7, g8]
      refine ⟨_, rfl, ⟨?_, F1, PairSim.some F2, PairSim.some F3, F4, ?_, ?_, ?_, ?_, rfl, rfl, ?_, ?_, ?_,
        rfl, rfl, rfl, ?_, rfl⟩⟩
      · simp only [hsame]
      · simp only [hsame, Bool.false_eq_true, if_false]; exact I1
      · simp only [hsame, Bool.false_eq_true, if_false]; exact PairSim.some I2
      · simp only [hsame, Bool.false_eq_true, if_false]; exact PairSim.some I3
      · simp only [hsame, Bool.false_eq_true, if_false]; exact I4
      · simp [fftSize, hx, Create.fast, Create.mid, Create.slow]
      · simp only [hsame, Bool.false_eq_true, if_false, List.foldl_append]
      · simp only [hsame, Bool.false_eq_true, if_false, List.foldl_append]
      · push_cast; rfl
  · have e4 := brickBox32_eq hs hv hok hx hme
    have g9 := boxSize32_eq ((hG.brick hx).box _ hme)
    simp only [Create.brick] at g9
    by_cases hsame : inoutSame P a = true
    · simp only [Option.bind_eq_bind, e1, e2, e3, hx, ne_eq, not_false_eq_true, e4, g9, if_true, hsame, 
        Option.bind_some, hF, g1, g2, g3, g4, g5, g6, g7, g8]
      refine ⟨_, rfl, ⟨?_, F1, PairSim.some F2, PairSim.some F3, F4, ?_, ?_, ?_, ?_, rfl, rfl, ?_, ?_, ?_,
        rfl, rfl, rfl, ?_, rfl⟩⟩
      · simp only [hsame]
      · simp only [hsame, if_true]; exact PairSim.none
      · simp only [hsame, if_true]; exact PairSim.none
      · simp only [hsame, if_true]; exact PairSim.none
      · simp only [hsame, if_true]; exact PairSim.none
      · simp [fftSize, hx, Create.fast, Create.mid, Create.slow, Create.brick]
      · simp only [hsame, if_true, List.append_nil]
      · simp only [hsame, if_true, List.append_nil]
      · push_cast; rfl
    · simp only [Option.bind_eq_bind, e1, e2, e3, hx, ne_eq, not_false_eq_true, e4, g9, if_false, if_true, hsame, Bool.false_eq_true, hI, Option.map_some, 
        Option.bind_some, hF, g1, g2, g3, g4, g5, g6, g7, g8]
      refine ⟨_, rfl, ⟨?_, F1, PairSim.some F2, PairSim.some F3, F4, ?_, ?_, ?_, ?_, rfl, rfl, ?_, ?_, ?_,
        rfl, rfl, rfl, ?_, rfl⟩⟩
      · simp only [hsame]
      · simp only [hsame, Bool.false_eq_true, if_false]; exact I1
      · simp only [hsame, Bool.false_eq_true, if_false]; exact PairSim.some I2
      · simp only [hsame, Bool.false_eq_true, if_false]; exact PairSim.some I3
      · simp only [hsame, Bool.false_eq_true, if_false]; exact I4
      · simp [fftSize, hx, Create.fast, Create.mid, Create.slow, Create.brick]
      · simp only [hsame, Bool.false_eq_true, if_false, List.foldl_append]
      · simp only [hsame, Bool.false_eq_true, if_false, List.foldl_append]
      · push_cast; rfl

/-- A plan whose counters stay below 2^31. -/
structure Fft1d.Small (p : Fft1d) : Prop where
  total : p.total ≤ 1073741823
  length : p.length ≤ 1073741824
  pos : 1 ≤ p.length
  fwd : kissAlloc p.length.toNat false = some p.planForward
  bwd : kissAlloc p.length.toNat true = some p.planBackward

/-- With small arguments `setup` on 32-bit integers succeeds and makes an equivalent object. -/
theorem fft3Setup32_sim {sz : Int} {P me : Nat} {a : Args3} {st : Settings}
    (hs : a.Small sz P st.exchange) (hv : a.Valid P) (hst : st.Valid) (hme : me < P) :
    ∃ f f' : Fft3 α, fft3Setup P me a st = some (.ok f) ∧ fft3Setup32 sz P me a st = some (.ok f') ∧
      f.Sim f' ∧ f.fftFast.Small ∧ f.fftMid.Small ∧ f.fftSlow.Small := by
  obtain ⟨g, hg, hok⟩ := setupGrids_ok hv.round hv.procs hv.fast hv.mid hv.slow st.exchange
  have hG := hs.boxes.good hv hst hg hok hme
  obtain ⟨f1, f2, f3, hff, hm⟩ := setupMain_eq (α := α) (c := ⟨P, me, a, st, g⟩) hst hme hv
  obtain ⟨f', hf', hsim⟩ := setupMain32_sim hs hv hst hok hG hm
  obtain ⟨t1, t2, t3⟩ := hG.totals
  obtain ⟨f1', f2', f3', hff', ⟨a1, a2, a3, a4⟩, ⟨b1, b2, b3, b4⟩, c1, c2, c3, c4⟩ :=
    setupFfts_ok (c := ⟨P, me, a, st, g⟩) hv.fast hv.mid hv.slow
  rw [hff] at hff'
  cases hff'
  have v1 := hv.fast; have v2 := hv.mid; have v3 := hv.slow
  have k1 := hs.boxes.line (n := a.nfast) (Or.inl rfl) (by omega)
  have k2 := hs.boxes.line (n := a.nmid) (Or.inr (Or.inl rfl)) (by omega)
  have k3 := hs.boxes.line (n := a.nslow) (Or.inr (Or.inr rfl)) (by omega)
  refine ⟨_, f', ?_, ?_, hsim,
    ⟨by rw [a2]; omega, by rw [a1]; exact k1, by rw [a1]; simp only; omega, by rw [a1]; exact a3,
      by rw [a1]; exact a4⟩,
    ⟨by rw [b2]; omega, by rw [b1]; exact k2, by rw [b1]; simp only; omega, by rw [b1]; exact b3,
      by rw [b1]; exact b4⟩,
    ⟨by rw [c2]; omega, by rw [c1]; exact k3, by rw [c1]; simp only; omega, by rw [c1]; exact c3,
      by rw [c1]; exact c4⟩⟩
  · unfold fft3Setup
    rw [hv.check]
    simp only [hg, hm, Option.bind_eq_bind, Option.bind_some]
  · unfold fft3Setup32
    rw [setupCheck32_eq hs.boxes hv (hG.ins.box me hme)]
    simp only [Option.bind_some, setupGrids32_eq hs.boxes hv hme hg hok, hf', Option.bind_eq_bind]

/-! ## compute -/

theorem forInt32_eq {σ : Type} {e st : Int} (body : Int → σ → Option σ) (he : e ≤ 1073741823)
    (hst : st ≤ 1073741824) : ∀ (k : Nat) (p : Int) (s : σ), (e - p).toNat ≤ k → 0 ≤ p →
    forInt32 p e st body s = forPtr p e st body s := by
  intro k
  induction k with
  | zero =>
    intro p s hk _
    rw [forInt32, forPtr, dif_neg (by omega), dif_neg (by omega)]
  | succ k ih =>
    intro p s hk hp
    rw [forInt32, forPtr]
    by_cases h : p < e
    · by_cases h0 : 0 < st
      · rw [dif_pos h, dif_pos h, dif_pos h0, dif_pos h0]
        congr 1
        funext s'
        rw [add32_eq (fits_of (by omega) (by omega)), Option.bind_some]
        exact ih _ _ (by omega) (by omega)
      · rw [dif_pos h, dif_pos h, dif_neg h0, dif_neg h0]
    · rw [dif_neg h, dif_neg h]

theorem performLoc32_eq {p : Fft1d} (h : p.Small) (J : Junk) (flag : Int) (ao : Nat) :
    performLoc32 J flag p ao = performLoc J flag p ao := by
  funext m
  unfold performLoc32 performLoc performFfts32 performFfts
  have h1 := h.length
  have h2 := h.pos
  have kf : ∀ (j j' : Int → ℂ) (d : Mem ℂ) (o : Int),
      kissIn32 p.planForward j j' d o 1 = kissIn p.planForward j j' d o 1 := fun j j' d o =>
    (kiss32_eq (by omega) (by omega) (Or.inl (by omega)) h.fwd (by norm_num) j j').2 d o
  have kb : ∀ (j j' : Int → ℂ) (d : Mem ℂ) (o : Int),
      kissIn32 p.planBackward j j' d o 1 = kissIn p.planBackward j j' d o 1 := fun j j' d o =>
    (kiss32_eq (by omega) (by omega) (Or.inl (by omega)) h.bwd (by norm_num) j j').2 d o
  simp only [forInt32_eq _ h.total h.length _ _ _ le_rfl le_rfl, kf, kb]

theorem Fft3.Sim.progs {f f' : Fft3 ℝ} (h : f.Sim f') (h1 : f.fftFast.Small) (h2 : f.fftMid.Small)
    (h3 : f.fftSlow.Small) :
    (∀ J scaled remaponly flag ai ao,
      f'.compute32 J scaled remaponly flag ai ao = f.compute J scaled remaponly flag ai ao) ∧
    (∀ J flag ai, f'.only1d32 J flag ai = f.only1d J flag ai) ∧
    (∀ flag ai ao, f'.onlyRemaps32 flag ai ao = f.onlyRemaps flag ai ao) ∧
    (∀ flag which ai ao, f'.onlyOneRemap32 flag which ai ao = f.onlyOneRemap flag which ai ao) := by
  refine ⟨?_, ?_, ?_, ?_⟩
  · intro J scaled remaponly flag ai ao
    unfold Fft3.compute32 Fft3.compute
    simp only [h.same, h.fftFast, h.fftMid, h.fftSlow, h.norm, h.normnum, h.insize, h.outsize,
      h.prefast.remapOrCopy, h.preslow.remapOrCopy, h.fastmid.remapIf, h.midslow.remapIf,
      h.postslow.remapIf, h.slowmid.remapIf, h.midfast.remapIf, h.postfast.remapIf,
      performLoc32_eq h1, performLoc32_eq h2, performLoc32_eq h3]
  · intro J flag ai
    unfold Fft3.only1d32 Fft3.only1d
    simp only [h.fftFast, h.fftMid, h.fftSlow, performLoc32_eq h1, performLoc32_eq h2, performLoc32_eq h3]
  · intro flag ai ao
    unfold Fft3.onlyRemaps32 Fft3.onlyRemaps
    simp only [h.same, h.insize, h.outsize,
      h.prefast.remapOrCopy, h.preslow.remapOrCopy, h.fastmid.remapIf, h.midslow.remapIf,
      h.postslow.remapIf, h.slowmid.remapIf, h.midfast.remapIf, h.postfast.remapIf]
  · intro flag which ai ao
    unfold Fft3.onlyOneRemap32 Fft3.onlyOneRemap
    simp only [h.same, h.insize, h.outsize,
      h.prefast.remapOrCopy, h.preslow.remapOrCopy, h.fastmid.remapIf, h.midslow.remapIf,
      h.postslow.remapIf, h.slowmid.remapIf, h.midfast.remapIf, h.postfast.remapIf]

end FftMpi
