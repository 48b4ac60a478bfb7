import Verif.Remap2d32
import Verif.Remap3d32Lemmas
import Verif.Pack2d32Lemmas
import Verif.Remap2dMain

/-!
# Conditions under which the 2d remap does not overflow
-/

namespace FftMpi

variable {α : Type}

/-- The bounds of the extents are `int`s whose sizes can be computed. -/
structure Box2.InInt (b : Box2) : Prop where
  ilo : 0 ≤ b.ilo
  jlo : 0 ≤ b.jlo
  ihi : b.ilo - 1 ≤ b.ihi ∧ b.ihi ≤ 2147483646
  jhi : b.jlo - 1 ≤ b.jhi ∧ b.jhi ≤ 2147483646

/-- A box inside another one. -/
structure Box2.Inside (ov b : Box2) : Prop where
  i : b.ilo ≤ ov.ilo ∧ ov.ilo ≤ ov.ihi ∧ ov.ihi ≤ b.ihi
  j : b.jlo ≤ ov.jlo ∧ ov.jlo ≤ ov.jhi ∧ ov.jhi ≤ b.jhi

theorem collide2_within {b1 b2 ov : Box2} (h : collide2 b1 b2 = some ov) : ov.Inside b1 ∧ ov.Inside b2 := by
  unfold collide2 at h
  simp only [] at h
  by_cases c : max b1.ilo b2.ilo > min b1.ihi b2.ihi ∨ max b1.jlo b2.jlo > min b1.jhi b2.jhi
  · rw [if_pos c] at h; cases h
  · rw [if_neg c] at h
    cases h
    constructor <;> constructor <;> simp only [] <;> omega

theorem Box2.Inside.sizes {ov b : Box2} (h : ov.Inside b) :
    (1 ≤ ov.isize ∧ ov.isize ≤ b.isize) ∧ (1 ≤ ov.jsize ∧ ov.jsize ≤ b.jsize) := by
  obtain ⟨h1, h2⟩ := h
  unfold Box2.isize Box2.jsize
  omega

theorem Box2.Inside.offs {ov b : Box2} (h : ov.Inside b) :
    (0 ≤ ov.ilo - b.ilo ∧ ov.ilo - b.ilo < b.isize) ∧
    (0 ≤ ov.jlo - b.jlo ∧ ov.jlo - b.jlo < b.jsize) := by
  obtain ⟨h1, h2⟩ := h
  unfold Box2.isize Box2.jsize
  omega

theorem size2_32_eq {nqty : Int} {b : Box2} (hq : 1 ≤ nqty) (hi : 0 ≤ b.isize) (hj : 0 ≤ b.jsize)
    (h : nqty * max 1 b.isize * max 1 b.jsize ≤ 2147483647) :
    size2_32 nqty b = some (size2 nqty b) := by
  have hm : 1 ≤ max 1 b.jsize := le_max_left _ _
  have a0 : 0 ≤ nqty * max 1 b.isize := mul_nonneg (by omega) (by omega)
  have p1 : nqty * max 1 b.isize ≤ nqty * max 1 b.isize * max 1 b.jsize := by nlinarith
  have a1 := mul_le2 (a := nqty) (b := b.isize) (A := nqty) (B := max 1 b.isize) (by omega) hi le_rfl
    (le_max_right _ _)
  have a2 := mul_le3 (a := nqty) (b := b.isize) (c := b.jsize) (A := nqty) (B := max 1 b.isize)
    (C := max 1 b.jsize) (by omega) hi hj le_rfl (le_max_right _ _) (le_max_right _ _)
  simp only [size2_32, Option.bind_eq_bind]
  rw [mul32_eq (fits_of a1.1 (by omega)), Option.bind_some, mul32_eq (fits_of a2.1 (by omega))]
  rfl

theorem Box2.InInt.extent {b : Box2} (h : b.InInt) : extent2_32 b = true := by
  unfold extent2_32
  rw [len32_eq h.ilo h.ihi.1 h.ihi.2, len32_eq h.jlo h.jhi.1 h.jhi.2]
  rfl

theorem collide2_32_eq {b1 b2 : Box2} (h1 : b1.InInt) (_h2 : b2.InInt) :
    collide2_32 b1 b2 = some (collide2 b1 b2) := by
  unfold collide2 collide2_32
  simp only []
  split
  · rfl
  · rename_i c
    rw [if_pos]
    refine Box2.InInt.extent ?_
    obtain ⟨i1, j1, i2, j2⟩ := h1
    constructor <;> simp only [] <;> omega

/-- The index of a point of a box of sizes `X`, `Y`. -/
theorem idx2_le {X Y x y : Int} (hx : 0 ≤ x ∧ x < X) (hy : 0 ≤ y ∧ y < Y) :
    0 ≤ y * X ∧ y * X + x + 1 ≤ Y * X := by
  constructor
  · exact mul_nonneg hy.1 (by omega)
  · nlinarith

theorem off2_32_eq {q X Y yl yl' xl xl' : Int} (hq : 1 ≤ q) (hV : q * (Y * X) ≤ 2147483647)
    (hx : 0 ≤ xl - xl' ∧ xl - xl' < X) (hy : 0 ≤ yl - yl' ∧ yl - yl' < Y) :
    off2_32 q yl yl' X xl xl' = some (q * ((yl - yl') * X + (xl - xl'))) := by
  obtain ⟨a1, a2⟩ := idx2_le hx hy
  have hM : Y * X ≤ 2147483647 := by nlinarith
  have hxM : X ≤ Y * X := by nlinarith
  have hyM : Y ≤ Y * X := by nlinarith
  have hq' : q * ((yl - yl') * X + (xl - xl')) ≤ q * (Y * X) :=
    mul_le_mul_of_nonneg_left (by omega) (by omega)
  have hq0 : 0 ≤ q * ((yl - yl') * X + (xl - xl')) := mul_nonneg (by omega) (by omega)
  simp only [off2_32, Option.bind_eq_bind]
  rw [sub32_eq (a := yl) (fits_of hy.1 (by omega)), Option.bind_some,
    mul32_eq (b := X) (fits_of a1 (by omega)), Option.bind_some,
    sub32_eq (a := xl) (fits_of hx.1 (by omega)), Option.bind_some,
    add32_eq (fits_of (by omega) (by omega)), Option.bind_some, mul32_eq (fits_of hq0 (by omega))]

theorem sendOff2_32_eq {nqty : Int} {inb ov : Box2} (hq : 1 ≤ nqty) (hw : ov.Inside inb) (h0 : inb.InInt)
    (hV : nqty * (inb.jsize * inb.isize) ≤ 2147483647)
    (horg : inb.isize * inb.jsize + inb.ihi ≤ 2147483647) :
    sendOff2_32 nqty inb ov = some (sendOff2 nqty inb ov) := by
  obtain ⟨hx, hy⟩ := hw.offs
  obtain ⟨a1, a2⟩ := idx2_le hx hy
  have hM : inb.jsize * inb.isize ≤ 2147483647 := by nlinarith
  have hq' : nqty * ((ov.jlo - inb.jlo) * inb.isize + ov.ilo - inb.ilo) ≤ nqty * (inb.jsize * inb.isize) :=
    mul_le_mul_of_nonneg_left (by omega) (by omega)
  have hq0 : 0 ≤ nqty * ((ov.jlo - inb.jlo) * inb.isize + ov.ilo - inb.ilo) :=
    mul_nonneg (by omega) (by omega)
  have hc : inb.isize * inb.jsize = inb.jsize * inb.isize := mul_comm _ _
  have hi := hw.i
  have hj := hw.j
  obtain ⟨g1, g2, g4, g5⟩ := h0
  simp only [sendOff2_32, Option.bind_eq_bind]
  rw [sub32_eq (a := ov.jlo) (fits_of hy.1 (by omega)), Option.bind_some,
    mul32_eq (b := inb.isize) (fits_of a1 (by omega)), Option.bind_some,
    add32_eq (b := ov.ilo) (fits_of (by omega) (by omega)), Option.bind_some,
    sub32_eq (b := inb.ilo) (fits_of (by omega) (by omega)), Option.bind_some,
    mul32_eq (fits_of hq0 (by omega))]
  rfl

/-- Partial products. -/
theorem part2_le {q x y V : Int} (hq : 1 ≤ q) (hx : 1 ≤ x) (hy : 1 ≤ y) (hV : q * x * y = V) :
    (0 ≤ q * x ∧ q * x ≤ V) ∧ (0 ≤ q * y ∧ q * y ≤ V) := by
  have h1 : 0 ≤ q * x := mul_nonneg (by omega) (by omega)
  have h2 : 0 ≤ q * y := mul_nonneg (by omega) (by omega)
  refine ⟨⟨h1, by nlinarith⟩, h2, ?_⟩
  have : q * x * y = q * y * x := by ring
  nlinarith

theorem sendPlan2_32_eq {nqty : Int} {inb ov : Box2} (hq : 1 ≤ nqty) (hw : ov.Inside inb)
    (hV : nqty * inb.isize * inb.jsize ≤ 2147483647) :
    sendPlan2_32 nqty inb ov = some (sendPlan2 nqty inb ov) := by
  obtain ⟨s1, s2⟩ := hw.sizes
  obtain ⟨p1, p2⟩ := part2_le (q := nqty) (x := inb.isize) (y := inb.jsize) hq (by omega) (by omega) rfl
  have a1 := mul_le2 (a := nqty) (b := ov.isize) (A := nqty) (B := inb.isize) (by omega) (by omega) le_rfl s1.2
  simp only [sendPlan2_32, Option.bind_eq_bind]
  rw [mul32_eq (fits_of a1.1 (by omega)), Option.bind_some, mul32_eq (fits_of p1.1 (by omega)),
    Option.bind_some]
  rfl

theorem recvPlan2_32_eq {permute nqty : Int} (hp : permute = 0 ∨ permute = 1)
    {out ov : Box2} (hq : 1 ≤ nqty) (hw : ov.Inside out)
    (hV : nqty * out.isize * out.jsize ≤ 2147483647) :
    recvPlan2_32 permute nqty out ov = some (recvPlan2 permute nqty out ov) := by
  obtain ⟨s1, s2⟩ := hw.sizes
  obtain ⟨p1, p2⟩ := part2_le (q := nqty) (x := out.isize) (y := out.jsize) hq (by omega) (by omega) rfl
  have a1 := mul_le2 (a := nqty) (b := ov.isize) (A := nqty) (B := out.isize) (by omega) (by omega) le_rfl s1.2
  unfold recvPlan2_32 recvPlan2
  rcases hp with rfl | rfl
  · rw [if_pos rfl, if_pos rfl]
    simp only [Option.bind_eq_bind]
    rw [mul32_eq (fits_of a1.1 (by omega)), Option.bind_some, mul32_eq (fits_of p1.1 (by omega)),
      Option.bind_some]
    rfl
  · rw [if_neg (by omega), if_neg (by omega)]
    simp only [Option.bind_eq_bind]
    rw [mul32_eq (fits_of p2.1 (by omega)), Option.bind_some]
    rfl

theorem recvOff2_32_eq {permute nqty : Int} (hp : permute = 0 ∨ permute = 1)
    {out ov : Box2} (hq : 1 ≤ nqty) (hw : ov.Inside out)
    (hV : nqty * out.isize * out.jsize ≤ 2147483647) :
    recvOff2_32 permute nqty out ov = some (recvOff2 permute nqty out ov) := by
  obtain ⟨hx, hy⟩ := hw.offs
  unfold recvOff2_32 recvOff2
  rcases hp with rfl | rfl
  · rw [if_pos rfl, if_pos rfl]
    refine off2_32_eq (Y := out.jsize) hq ?_ hx hy
    rw [show nqty * (out.jsize * out.isize) = nqty * out.isize * out.jsize by ring]
    exact hV
  · rw [if_neg (by omega), if_pos rfl, if_neg (by omega), if_pos rfl]
    refine off2_32_eq (Y := out.isize) hq ?_ hy hx
    rw [show nqty * (out.isize * out.jsize) = nqty * out.isize * out.jsize by ring]
    exact hV

/-! ## Plans -/

theorem plan2_fit0 {q : Int} {b ov : Box2} (hq : 1 ≤ q) (hw : ov.Inside b)
    (hV : q * b.isize * b.jsize ≤ 2147483647) : (sendPlan2 q b ov).Fit0 := by
  obtain ⟨s1, s2⟩ := hw.sizes
  have hX : 0 ≤ q * b.isize := mul_nonneg (by omega) (by omega)
  have hi := mul_le2 (a := q) (b := ov.isize) (A := q) (B := b.isize) (by omega) (by omega) le_rfl s1.2
  constructor
  · exact hi.1
  · exact s2.1
  · exact hX
  · intro s hs hs'
    simp only [sendPlan2] at hs' ⊢
    have h1 : (s + 1) * (q * b.isize) ≤ b.jsize * (q * b.isize) := mul_le_mul_of_nonneg_right (by omega) hX
    have h3 : b.jsize * (q * b.isize) = q * b.isize * b.jsize := by ring
    nlinarith
  · simp only [sendPlan2]
    have := mul_le3 (a := q) (b := ov.isize) (c := ov.jsize) (A := q) (B := b.isize)
      (C := b.jsize) (by omega) (by omega) (by omega) le_rfl s1.2 s2.2
    rw [show ov.jsize * (q * ov.isize) = q * ov.isize * ov.jsize by ring]
    omega

theorem plan2_fit1 {q ext : Int} {b ov : Box2} (hq : 1 ≤ q) (hw : ov.Inside b)
    (hV : q * b.isize * b.jsize ≤ 2147483647)
    (he : ext = 0 ∨ (ext = ov.isize * (q * b.jsize) ∧ 2 * (q * b.isize * b.jsize) ≤ 2147483647)) :
    (recvPlan2 1 q b ov).FitP q ext := by
  obtain ⟨s1, s2⟩ := hw.sizes
  have hJ : 0 ≤ q * b.jsize := mul_nonneg (by omega) (by omega)
  have hP : q ≤ q * b.jsize := by nlinarith
  have hW : q * b.isize * b.jsize = b.isize * (q * b.jsize) := by ring
  have hr : ov.isize * (q * b.jsize) ≤ b.isize * (q * b.jsize) := mul_le_mul_of_nonneg_right s1.2 (by omega)
  have hone : q * b.jsize ≤ b.isize * (q * b.jsize) := by nlinarith
  constructor
  · change 0 ≤ ov.isize; omega
  · exact s2.1
  · exact hq
  · exact hP
  · intro s hs hs'
    change s < ov.jsize at hs'
    have h1 : s * q ≤ b.jsize * q := mul_le_mul_of_nonneg_right (by omega) (by omega)
    have h3 : b.jsize * q = q * b.jsize := mul_comm _ _
    rcases he with rfl | ⟨rfl, h5⟩ <;> omega
  · change ov.isize * (q * b.jsize) ≤ 2147483647; omega
  · change ov.jsize * (ov.isize * q) ≤ 2147483647
    have := mul_le3 (a := q) (b := ov.isize) (c := ov.jsize) (A := q) (B := b.isize)
      (C := b.jsize) (by omega) (by omega) (by omega) le_rfl s1.2 s2.2
    rw [show ov.jsize * (ov.isize * q) = q * ov.isize * ov.jsize by ring]
    omega

theorem pack2_32_eq {packflag q sz w : Int} (hf : packflag = 0 ∨ packflag = 1 ∨ packflag = 2)
    {b ov : Box2} (hq : 1 ≤ q) (hw : ov.Inside b) (hV : q * b.isize * b.jsize ≤ 2147483647)
    (hsz : 1 ≤ sz) (hws : 8 = w * sz) (hm : packflag = 2 → q * b.isize * 8 ≤ 2147483647) :
    ∃ f f' : CopyFn α PackPlan2, packSel2 w packflag = some f ∧ packSel2_32 sz packflag = some f' ∧
      ∀ data d buf c, f' data d buf c (sendPlan2 q b ov) = f data d buf c (sendPlan2 q b ov) := by
  have hfit := plan2_fit0 hq hw hV
  obtain ⟨s1, s2⟩ := hw.sizes
  rcases hf with rfl | rfl | rfl
  · exact ⟨_, _, rfl, rfl, fun data d buf c => pack_2d_array32_eq hfit data buf d c⟩
  · exact ⟨_, _, rfl, rfl, fun data d buf c => pack_2d_pointer32_eq hfit data buf d c⟩
  · refine ⟨_, _, rfl, rfl, fun data d buf c => pack_2d_memcpy32_eq hfit hsz hws ?_ data buf d c⟩
    have := mul_le2 (a := q) (b := ov.isize) (A := q) (B := b.isize) (by omega)
      (by omega) le_rfl s1.2
    have := hm rfl
    change q * ov.isize * 8 ≤ _; omega

theorem unpack2_32_eq {packflag permute q sz w : Int} (hf : packflag = 0 ∨ packflag = 1 ∨ packflag = 2)
    (hp : permute = 0 ∨ permute = 1)
    {b ov : Box2} (hq : 1 ≤ q) (hw : ov.Inside b) (hV : q * b.isize * b.jsize ≤ 2147483647)
    (hsz : 1 ≤ sz) (hws : 8 = w * sz)
    (hm : packflag = 2 → permute = 0 → q * b.isize * 8 ≤ 2147483647)
    (ha : packflag = 0 → permute ≠ 0 → 2 * (q * b.isize * b.jsize) ≤ 2147483647) :
    ∃ f f' : CopyFn α PackPlan2, unpackSel2 w packflag permute q = some f ∧
      unpackSel2_32 sz packflag permute q = some f' ∧
      ∀ buf c data d, f' buf c data d (recvPlan2 permute q b ov) =
        f buf c data d (recvPlan2 permute q b ov) := by
  obtain ⟨s1, s2⟩ := hw.sizes
  rcases hp with rfl | rfl
  · have hfit : (recvPlan2 0 q b ov).Fit0 := plan2_fit0 hq hw hV
    rcases hf with rfl | rfl | rfl
    · exact ⟨_, _, rfl, rfl, fun buf c data d => unpack_2d_array32_eq hfit buf data c d⟩
    · exact ⟨_, _, rfl, rfl, fun buf c data d => unpack_2d_pointer32_eq hfit buf data c d⟩
    · refine ⟨_, _, rfl, rfl, fun buf c data d => unpack_2d_memcpy32_eq hfit hsz hws ?_ buf data c d⟩
      have := mul_le2 (a := q) (b := ov.isize) (A := q) (B := b.isize) (by omega)
        (by omega) le_rfl s1.2
      have := hm rfl rfl
      change q * ov.isize * 8 ≤ _; omega
  · have hfit := plan2_fit1 (ext := 0) hq hw hV (Or.inl rfl)
    have hfitA := fun h : packflag = 0 =>
      plan2_fit1 (ext := ov.isize * (q * b.jsize)) hq hw hV (Or.inr ⟨rfl, ha h (by decide)⟩)
    by_cases q1 : q = 1
    · subst q1
      rcases hf with rfl | rfl | rfl
      · exact ⟨_, _, rfl, rfl, fun buf c data d => unpack_2d_permute_1_array32_eq (hfitA rfl) buf data c d⟩
      · exact ⟨_, _, rfl, rfl, fun buf c data d => unpack_2d_permute_1_pointer32_eq hfit buf data c d⟩
      · exact ⟨_, _, rfl, rfl, fun buf c data d => unpack_2d_permute_1_pointer32_eq hfit buf data c d⟩
    · by_cases q2 : q = 2
      · subst q2
        rcases hf with rfl | rfl | rfl
        · exact ⟨_, _, rfl, rfl, fun buf c data d => unpack_2d_permute_2_array32_eq (hfitA rfl) buf data c d⟩
        · exact ⟨_, _, rfl, rfl, fun buf c data d => unpack_2d_permute_2_pointer32_eq hfit buf data c d⟩
        · exact ⟨_, _, rfl, rfl, fun buf c data d => unpack_2d_permute_2_pointer32_eq hfit buf data c d⟩
      · unfold unpackSel2 unpackSel2_32
        rw [if_neg (by omega), if_pos rfl, if_neg q1, if_neg q2, if_neg (by omega), if_pos rfl, if_neg q1, if_neg q2]
        rcases hf with rfl | rfl | rfl
        · exact ⟨_, _, rfl, rfl, fun buf c data d => unpack_2d_permute_n_array32_eq (hfitA rfl) buf data c d⟩
        · exact ⟨_, _, rfl, rfl, fun buf c data d => unpack_2d_permute_n_pointer32_eq hfit buf data c d⟩
        · exact ⟨_, _, rfl, rfl, fun buf c data d => unpack_2d_permute_n_pointer32_eq hfit buf data c d⟩

/-! ## Sums of message sizes -/

theorem wsize2_eq {q w : Int} (b : Box2) (xs : Nat → Box2) (p : Nat) :
    wsize (α := α) (dim2 w) q b xs p = wsize (α := α) dim3 q b.lift (fun r => (xs r).lift) p := by
  unfold wsize
  simp only [dim2, dim3]
  unfold collide2 collide3
  simp only [Box2.lift, max_self, min_self, gt_iff_lt, lt_irrefl, or_false]
  split_ifs
  · rfl
  · simp only [size2, size3, Box3.isize, Box3.jsize, Box3.ksize, Box2.isize, Box2.jsize]
    ring

theorem wsize2_sum {q M w : Int} (hq : 0 ≤ q) {P : Nat} {b : Box2} {xs : Nat → Box2}
    (hd : Disjoint2 P xs) (hM : 0 ≤ M) (hV : q * b.isize * b.jsize ≤ M) {ps : List Nat} (hn : ps.Nodup)
    (hlt : ∀ p ∈ ps, p < P) :
    (ps.map (wsize (α := α) (dim2 w) q b xs)).sum ≤ M := by
  have : wsize (α := α) (dim2 w) q b xs = wsize (α := α) dim3 q b.lift (fun r => (xs r).lift) :=
    funext fun p => wsize2_eq b xs p
  rw [this]
  refine wsize3_sum hq hd.lift hM ?_ hn hlt
  unfold Box3.vol
  rw [Box2.lift_isize, Box2.lift_jsize, Box2.lift_ksize]
  rw [show q * (b.isize * b.jsize * 1) = q * b.isize * b.jsize by ring]
  exact hV

end FftMpi
