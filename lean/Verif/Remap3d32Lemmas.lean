import Verif.Remap3d32
import Verif.Remap32Lemmas
import Verif.Pack3d32Lemmas
import Verif.Remap3dMain

/-!
# Conditions under which the 3d remap does not overflow
-/

namespace FftMpi

variable {α : Type}

/-- The bounds of the extents are `int`s whose sizes can be computed. -/
structure Box3.InInt (b : Box3) : Prop where
  ilo : 0 ≤ b.ilo
  jlo : 0 ≤ b.jlo
  klo : 0 ≤ b.klo
  ihi : b.ilo - 1 ≤ b.ihi ∧ b.ihi ≤ 2147483646
  jhi : b.jlo - 1 ≤ b.jhi ∧ b.jhi ≤ 2147483646
  khi : b.klo - 1 ≤ b.khi ∧ b.khi ≤ 2147483646

/-! ## Arithmetic -/

theorem mul_le2 {a b A B : Int} (ha : 0 ≤ a) (hb : 0 ≤ b) (h1 : a ≤ A) (h2 : b ≤ B) :
    0 ≤ a * b ∧ a * b ≤ A * B :=
  ⟨mul_nonneg ha hb, mul_le_mul h1 h2 hb (ha.trans h1)⟩

theorem mul_le3 {a b c A B C : Int} (ha : 0 ≤ a) (hb : 0 ≤ b) (hc : 0 ≤ c) (h1 : a ≤ A) (h2 : b ≤ B)
    (h3 : c ≤ C) : 0 ≤ a * b * c ∧ a * b * c ≤ A * B * C := by
  obtain ⟨e1, e2⟩ := mul_le2 ha hb h1 h2
  exact mul_le2 e1 hc e2 h3

theorem mul_le4 {a b c d A B C D : Int} (ha : 0 ≤ a) (hb : 0 ≤ b) (hc : 0 ≤ c) (hd : 0 ≤ d)
    (h1 : a ≤ A) (h2 : b ≤ B) (h3 : c ≤ C) (h4 : d ≤ D) :
    0 ≤ a * b * c * d ∧ a * b * c * d ≤ A * B * C * D := by
  obtain ⟨e1, e2⟩ := mul_le3 ha hb hc h1 h2 h3
  exact mul_le2 e1 hd e2 h4

/-- Partial products of a product of factors at least 1. -/
theorem part_le {q x y z V : Int} (hq : 1 ≤ q) (hx : 1 ≤ x) (hy : 1 ≤ y) (hz : 1 ≤ z)
    (hV : q * x * y * z = V) : q * x ≤ V ∧ q * x * y ≤ V := by
  have h1 := mul_le4 (a := q) (b := x) (c := 1) (d := 1) (A := q) (B := x) (C := y) (D := z)
    (by omega) (by omega) (by omega) (by omega) le_rfl le_rfl hy hz
  have h2 := mul_le4 (a := q) (b := x) (c := y) (d := 1) (A := q) (B := x) (C := y) (D := z)
    (by omega) (by omega) (by omega) (by omega) le_rfl le_rfl le_rfl hz
  simp only [mul_one] at h1 h2
  omega

/-- The index of a point of a box of sizes `X`, `Y`, `Z`. -/
theorem idx_le {X Y Z x y z : Int} (hx : 0 ≤ x ∧ x < X) (hy : 0 ≤ y ∧ y < Y) (hz : 0 ≤ z ∧ z < Z) :
    0 ≤ z * Y ∧ 0 ≤ z * Y * X ∧ 0 ≤ y * X ∧ z * Y ≤ z * Y * X ∧ z * Y * X + y * X + x + 1 ≤ Z * Y * X := by
  have h1 : 0 ≤ z * Y := mul_nonneg hz.1 (by omega)
  have h2 : 0 ≤ y * X := mul_nonneg hy.1 (by omega)
  have h3 : z * Y + y + 1 ≤ Z * Y := by nlinarith
  refine ⟨h1, mul_nonneg h1 (by omega), h2, by nlinarith, ?_⟩
  have h4 : (z * Y + y + 1) * X ≤ Z * Y * X := mul_le_mul_of_nonneg_right h3 (by omega)
  nlinarith

/-- A box inside another one. -/
structure Box3.Inside (ov b : Box3) : Prop where
  i : b.ilo ≤ ov.ilo ∧ ov.ilo ≤ ov.ihi ∧ ov.ihi ≤ b.ihi
  j : b.jlo ≤ ov.jlo ∧ ov.jlo ≤ ov.jhi ∧ ov.jhi ≤ b.jhi
  k : b.klo ≤ ov.klo ∧ ov.klo ≤ ov.khi ∧ ov.khi ≤ b.khi

theorem collide3_within {b1 b2 ov : Box3} (h : collide3 b1 b2 = some ov) : ov.Inside b1 ∧ ov.Inside b2 := by
  rw [collide3_eq] at h
  by_cases c : (inter3 b1 b2).ilo > (inter3 b1 b2).ihi ∨ (inter3 b1 b2).jlo > (inter3 b1 b2).jhi ∨
      (inter3 b1 b2).klo > (inter3 b1 b2).khi
  · rw [if_pos c] at h; cases h
  · rw [if_neg c] at h
    cases h
    simp only [inter3] at c
    constructor <;> constructor <;> simp only [inter3] <;> omega

theorem Box3.Inside.sizes {ov b : Box3} (h : ov.Inside b) :
    (1 ≤ ov.isize ∧ ov.isize ≤ b.isize) ∧ (1 ≤ ov.jsize ∧ ov.jsize ≤ b.jsize) ∧
    (1 ≤ ov.ksize ∧ ov.ksize ≤ b.ksize) := by
  obtain ⟨h1, h2, h3⟩ := h
  unfold Box3.isize Box3.jsize Box3.ksize
  omega

theorem Box3.Inside.offs {ov b : Box3} (h : ov.Inside b) :
    (0 ≤ ov.ilo - b.ilo ∧ ov.ilo - b.ilo < b.isize) ∧ (0 ≤ ov.jlo - b.jlo ∧ ov.jlo - b.jlo < b.jsize) ∧
    (0 ≤ ov.klo - b.klo ∧ ov.klo - b.klo < b.ksize) := by
  obtain ⟨h1, h2, h3⟩ := h
  unfold Box3.isize Box3.jsize Box3.ksize
  omega

theorem size3_32_eq {nqty : Int} {b : Box3} (hq : 1 ≤ nqty) (hi : 0 ≤ b.isize) (hj : 0 ≤ b.jsize)
    (hk : 0 ≤ b.ksize)
    (h : nqty * max 1 b.isize * max 1 b.jsize * max 1 b.ksize ≤ 2147483647) :
    size3_32 nqty b = some (size3 nqty b) := by
  obtain ⟨p1, p2⟩ := part_le hq (le_max_left 1 b.isize) (le_max_left 1 b.jsize) (le_max_left 1 b.ksize) rfl
  have a1 := mul_le2 (a := nqty) (b := b.isize) (A := nqty) (B := max 1 b.isize) (by omega) hi le_rfl
    (le_max_right _ _)
  have a2 := mul_le3 (a := nqty) (b := b.isize) (c := b.jsize) (A := nqty) (B := max 1 b.isize)
    (C := max 1 b.jsize) (by omega) hi hj le_rfl (le_max_right _ _) (le_max_right _ _)
  have a3 := mul_le4 (a := nqty) (b := b.isize) (c := b.jsize) (d := b.ksize) (A := nqty)
    (B := max 1 b.isize) (C := max 1 b.jsize) (D := max 1 b.ksize) (by omega) hi hj hk le_rfl
    (le_max_right _ _) (le_max_right _ _) (le_max_right _ _)
  simp only [size3_32, Option.bind_eq_bind]
  rw [mul32_eq (fits_of a1.1 (by omega)), Option.bind_some, mul32_eq (fits_of a2.1 (by omega)),
    Option.bind_some, mul32_eq (fits_of a3.1 (by omega))]
  rfl

theorem len32_eq {lo hi : Int} (h0 : 0 ≤ lo) (h1 : lo - 1 ≤ hi) (h2 : hi ≤ 2147483646) :
    len32 lo hi = some (hi - lo + 1) := by
  unfold len32
  rw [sub32_eq ⟨by omega, by omega⟩, Option.bind_some, add32_eq ⟨by omega, by omega⟩]

theorem Box3.InInt.extent {b : Box3} (h : b.InInt) : extent3_32 b = true := by
  unfold extent3_32
  rw [len32_eq h.ilo h.ihi.1 h.ihi.2, len32_eq h.jlo h.jhi.1 h.jhi.2, len32_eq h.klo h.khi.1 h.khi.2]
  rfl

theorem collide3_32_eq {b1 b2 : Box3} (h1 : b1.InInt) (_h2 : b2.InInt) :
    collide3_32 b1 b2 = some (collide3 b1 b2) := by
  rw [collide3_eq]
  change (if (inter3 b1 b2).ilo > (inter3 b1 b2).ihi ∨ (inter3 b1 b2).jlo > (inter3 b1 b2).jhi ∨
      (inter3 b1 b2).klo > (inter3 b1 b2).khi then some none
    else if extent3_32 (inter3 b1 b2) then some (some (inter3 b1 b2)) else none) = _
  split
  · rfl
  · rename_i c
    have : (inter3 b1 b2).InInt := by
      obtain ⟨i1, j1, k1, i2, j2, k2⟩ := h1
      simp only [inter3] at c
      constructor <;> simp only [inter3] <;> omega
    rw [if_pos this.extent]

theorem off3_32_eq {q X Y Z zl zl' yl yl' xl xl' : Int} (hq : 1 ≤ q)
    (hV : q * (Z * Y * X) ≤ 2147483647)
    (hx : 0 ≤ xl - xl' ∧ xl - xl' < X) (hy : 0 ≤ yl - yl' ∧ yl - yl' < Y) (hz : 0 ≤ zl - zl' ∧ zl - zl' < Z) :
    off3_32 q zl zl' Y X yl yl' X xl xl' =
      some (q * ((zl - zl') * Y * X + (yl - yl') * X + (xl - xl'))) := by
  obtain ⟨a1, a2, a3, a4, a5⟩ := idx_le hx hy hz
  have hM : Z * Y * X ≤ 2147483647 := by nlinarith
  have hxM : X ≤ Z * Y * X := by
    have := mul_le3 (a := 1) (b := 1) (c := X) (A := Z) (B := Y) (C := X) (by omega) (by omega)
      (by omega) (by omega) (by omega) le_rfl
    omega
  have hyM : Y ≤ Z * Y * X := by
    have := mul_le3 (a := 1) (b := Y) (c := 1) (A := Z) (B := Y) (C := X) (by omega) (by omega)
      (by omega) (by omega) le_rfl (by omega)
    omega
  have hzM : Z ≤ Z * Y * X := by
    have := mul_le3 (a := Z) (b := 1) (c := 1) (A := Z) (B := Y) (C := X) (by omega) (by omega)
      (by omega) le_rfl (by omega) (by omega)
    omega
  have hq' : q * ((zl - zl') * Y * X + (yl - yl') * X + (xl - xl')) ≤ q * (Z * Y * X) :=
    mul_le_mul_of_nonneg_left (by omega) (by omega)
  have hq0 : 0 ≤ q * ((zl - zl') * Y * X + (yl - yl') * X + (xl - xl')) :=
    mul_nonneg (by omega) (by omega)
  simp only [off3_32, Option.bind_eq_bind]
  rw [sub32_eq (a := zl) (fits_of hz.1 (by omega)), Option.bind_some,
    mul32_eq (b := Y) (fits_of a1 (by omega)), Option.bind_some,
    mul32_eq (b := X) (fits_of a2 (by omega)), Option.bind_some,
    sub32_eq (a := yl) (fits_of hy.1 (by omega)), Option.bind_some,
    mul32_eq (b := X) (fits_of a3 (by omega)), Option.bind_some,
    sub32_eq (a := xl) (fits_of hx.1 (by omega)), Option.bind_some,
    add32_eq (fits_of (by omega) (by omega)), Option.bind_some,
    add32_eq (fits_of (by omega) (by omega)), Option.bind_some, mul32_eq (fits_of hq0 (by omega))]

theorem sendOff3_32_eq {nqty : Int} {inb ov : Box3} (hq : 1 ≤ nqty) (hw : ov.Inside inb) (h0 : inb.InInt)
    (hV : nqty * (inb.ksize * inb.jsize * inb.isize) ≤ 2147483647)
    (horg : inb.isize * inb.jsize + inb.ihi ≤ 2147483647) :
    sendOff3_32 nqty inb ov = some (sendOff3 nqty inb ov) := by
  obtain ⟨hx, hy, hz⟩ := hw.offs
  obtain ⟨a1, a2, a3, a4, a5⟩ := idx_le hx hy hz
  obtain ⟨s1, s2, s3⟩ := hw.sizes
  have hM : inb.ksize * inb.jsize * inb.isize ≤ 2147483647 := by nlinarith
  have hq' : nqty * ((ov.klo - inb.klo) * inb.jsize * inb.isize +
      ((ov.jlo - inb.jlo) * inb.isize + ov.ilo - inb.ilo)) ≤ nqty * (inb.ksize * inb.jsize * inb.isize) :=
    mul_le_mul_of_nonneg_left (by omega) (by omega)
  have hq0 : 0 ≤ nqty * ((ov.klo - inb.klo) * inb.jsize * inb.isize +
      ((ov.jlo - inb.jlo) * inb.isize + ov.ilo - inb.ilo)) :=
    mul_nonneg (by omega) (by omega)
  have hyI : (ov.jlo - inb.jlo) * inb.isize ≤ inb.isize * inb.jsize := by nlinarith
  have hi := hw.i
  have hj := hw.j
  have hk := hw.k
  obtain ⟨g1, g2, g3, g4, g5, g6⟩ := h0
  simp only [sendOff3_32, Option.bind_eq_bind]
  rw [sub32_eq (a := ov.klo) (fits_of hz.1 (by omega)), Option.bind_some,
    mul32_eq (b := inb.jsize) (fits_of a1 (by omega)), Option.bind_some,
    mul32_eq (b := inb.isize) (fits_of a2 (by omega)), Option.bind_some,
    sub32_eq (a := ov.jlo) (fits_of hy.1 (by omega)), Option.bind_some,
    mul32_eq (b := inb.isize) (fits_of a3 (by omega)), Option.bind_some,
    add32_eq (b := ov.ilo) (fits_of (by omega) (by omega)), Option.bind_some,
    sub32_eq (b := inb.ilo) (fits_of (by omega) (by omega)), Option.bind_some,
    add32_eq (fits_of (by omega) (by omega)), Option.bind_some, mul32_eq (fits_of hq0 (by omega))]
  rfl

/-- Volume of a box with all sizes at least 1, in the order of the factors of the code. -/
theorem vol_forms {q I J K V : Int} (hV : q * I * J * K = V) :
    q * J * I * K = V ∧ q * K * J * I = V ∧ q * I * K * J = V ∧ q * J * K * I = V ∧ q * K * I * J = V := by
  subst hV
  refine ⟨?_, ?_, ?_, ?_, ?_⟩ <;> ring

theorem sendPlan3_32_eq {nqty : Int} {inb ov : Box3} (hq : 1 ≤ nqty) (hw : ov.Inside inb)
    (hV : nqty * inb.isize * inb.jsize * inb.ksize ≤ 2147483647) :
    sendPlan3_32 nqty inb ov = some (sendPlan3 nqty inb ov) := by
  obtain ⟨s1, s2, s3⟩ := hw.sizes
  obtain ⟨v1, v2, v3, v4, v5⟩ := vol_forms (q := nqty) (I := inb.isize) (J := inb.jsize) (K := inb.ksize) rfl
  obtain ⟨p1, p2⟩ := part_le (q := nqty) (x := inb.isize) (y := inb.jsize) (z := inb.ksize) hq (by omega) (by omega) (by omega) rfl
  obtain ⟨p3, p4⟩ := part_le (q := nqty) (x := inb.jsize) (y := inb.isize) (z := inb.ksize) hq (by omega) (by omega) (by omega) v1
  have a1 := mul_le2 (a := nqty) (b := ov.isize) (A := nqty) (B := inb.isize) (by omega) (by omega) le_rfl s1.2
  have a2 : 0 ≤ nqty * inb.isize := mul_nonneg (by omega) (by omega)
  have a3 : 0 ≤ nqty * inb.jsize := mul_nonneg (by omega) (by omega)
  have a4 : 0 ≤ nqty * inb.jsize * inb.isize := mul_nonneg a3 (by omega)
  simp only [sendPlan3_32, Option.bind_eq_bind]
  rw [mul32_eq (fits_of a1.1 (by omega)), Option.bind_some, mul32_eq (fits_of a2 (by omega)), Option.bind_some,
    mul32_eq (fits_of a3 (by omega)), Option.bind_some, mul32_eq (fits_of a4 (by omega)), Option.bind_some]
  rfl

theorem recvPlan3_32_eq {permute nqty : Int} (hp : permute = 0 ∨ permute = 1 ∨ permute = 2)
    {out ov : Box3} (hq : 1 ≤ nqty) (hw : ov.Inside out)
    (hV : nqty * out.isize * out.jsize * out.ksize ≤ 2147483647) :
    recvPlan3_32 permute nqty out ov = some (recvPlan3 permute nqty out ov) := by
  obtain ⟨s1, s2, s3⟩ := hw.sizes
  obtain ⟨v1, v2, v3, v4, v5⟩ := vol_forms (q := nqty) (I := out.isize) (J := out.jsize) (K := out.ksize) rfl
  obtain ⟨p1, p2⟩ := part_le (q := nqty) (x := out.isize) (y := out.jsize) (z := out.ksize) hq (by omega) (by omega) (by omega) rfl
  obtain ⟨p3, p4⟩ := part_le (q := nqty) (x := out.jsize) (y := out.isize) (z := out.ksize) hq (by omega) (by omega) (by omega) v1
  obtain ⟨p5, p6⟩ := part_le (q := nqty) (x := out.ksize) (y := out.jsize) (z := out.isize) hq (by omega) (by omega) (by omega) v2
  obtain ⟨p7, p8⟩ := part_le (q := nqty) (x := out.isize) (y := out.ksize) (z := out.jsize) hq (by omega) (by omega) (by omega) v3
  have a1 := mul_le2 (a := nqty) (b := ov.isize) (A := nqty) (B := out.isize) (by omega) (by omega) le_rfl s1.2
  have a2 : 0 ≤ nqty * out.isize := mul_nonneg (by omega) (by omega)
  have a3 : 0 ≤ nqty * out.jsize := mul_nonneg (by omega) (by omega)
  have a3' : 0 ≤ nqty * out.ksize := mul_nonneg (by omega) (by omega)
  have a4 : 0 ≤ nqty * out.jsize * out.isize := mul_nonneg a3 (by omega)
  have a5 : 0 ≤ nqty * out.ksize * out.jsize := mul_nonneg a3' (by omega)
  have a6 : 0 ≤ nqty * out.isize * out.ksize := mul_nonneg a2 (by omega)
  unfold recvPlan3_32 recvPlan3
  rcases hp with rfl | rfl | rfl
  · simp only [if_true, Option.bind_eq_bind]
    rw [mul32_eq (fits_of a1.1 (by omega)), Option.bind_some, mul32_eq (fits_of a2 (by omega)), Option.bind_some,
      mul32_eq (fits_of a3 (by omega)), Option.bind_some, mul32_eq (fits_of a4 (by omega)), Option.bind_some]
    rfl
  · rw [if_neg (by omega), if_pos rfl, if_neg (by omega), if_pos rfl]
    simp only [Option.bind_eq_bind]
    rw [mul32_eq (fits_of a3 (by omega)), Option.bind_some, mul32_eq (fits_of a3' (by omega)), Option.bind_some,
      mul32_eq (fits_of a5 (by omega)), Option.bind_some]
    rfl
  · rw [if_neg (by omega), if_neg (by omega), if_neg (by omega), if_neg (by omega)]
    simp only [Option.bind_eq_bind]
    rw [mul32_eq (fits_of a3' (by omega)), Option.bind_some, mul32_eq (fits_of a2 (by omega)), Option.bind_some,
      mul32_eq (fits_of a6 (by omega)), Option.bind_some]
    rfl

theorem recvOff3_32_eq {permute nqty : Int} (hp : permute = 0 ∨ permute = 1 ∨ permute = 2)
    {out ov : Box3} (hq : 1 ≤ nqty) (hw : ov.Inside out)
    (hV : nqty * out.isize * out.jsize * out.ksize ≤ 2147483647) :
    recvOff3_32 permute nqty out ov = some (recvOff3 permute nqty out ov) := by
  obtain ⟨hx, hy, hz⟩ := hw.offs
  unfold recvOff3_32 recvOff3
  rcases hp with rfl | rfl | rfl
  · rw [if_pos rfl, if_pos rfl]
    refine off3_32_eq (Z := out.ksize) hq ?_ hx hy hz
    rw [show nqty * (out.ksize * out.jsize * out.isize) = nqty * out.isize * out.jsize * out.ksize by ring]
    exact hV
  · rw [if_neg (by omega), if_pos rfl, if_neg (by omega), if_pos rfl]
    refine off3_32_eq (Z := out.isize) hq ?_ hy hz hx
    rw [show nqty * (out.isize * out.ksize * out.jsize) = nqty * out.isize * out.jsize * out.ksize by ring]
    exact hV
  · rw [if_neg (by omega), if_neg (by omega), if_pos rfl, if_neg (by omega), if_neg (by omega), if_pos rfl]
    refine off3_32_eq (Z := out.jsize) hq ?_ hz hx hy
    rw [show nqty * (out.jsize * out.isize * out.ksize) = nqty * out.isize * out.jsize * out.ksize by ring]
    exact hV

/-! ## Plans -/

theorem plan3_fit0 {q : Int} {b ov : Box3} (hq : 1 ≤ q) (hw : ov.Inside b)
    (hV : q * b.isize * b.jsize * b.ksize ≤ 2147483647) : (sendPlan3 q b ov).Fit0 := by
  obtain ⟨s1, s2, s3⟩ := hw.sizes
  have hX : 0 ≤ q * b.isize := mul_nonneg (by omega) (by omega)
  have hE : q * b.jsize * b.isize = b.jsize * (q * b.isize) := by ring
  have hi := mul_le2 (a := q) (b := ov.isize) (A := q) (B := b.isize) (by omega) (by omega) le_rfl s1.2
  constructor
  · exact hi.1
  · exact s2.1
  · exact s3.1
  · exact hX
  · exact mul_nonneg (mul_nonneg (by omega) (by omega)) (by omega)
  · intro s m hs hs' hm hm'
    simp only [sendPlan3] at hs' hm' ⊢
    rw [hE]
    generalize q * b.isize = X at *
    have h1 : (m + 1) * X ≤ b.jsize * X := mul_le_mul_of_nonneg_right (by omega) hX
    have h2 : (s + 1) * (b.jsize * X) ≤ b.ksize * (b.jsize * X) :=
      mul_le_mul_of_nonneg_right (by omega) (mul_nonneg (by omega) hX)
    have h3 : b.ksize * (b.jsize * X) = X * b.jsize * b.ksize := by ring
    nlinarith
  · simp only [sendPlan3]
    have := mul_le4 (a := q) (b := ov.isize) (c := ov.jsize) (d := ov.ksize) (A := q) (B := b.isize)
      (C := b.jsize) (D := b.ksize) (by omega) (by omega) (by omega) (by omega) le_rfl s1.2 s2.2 s3.2
    rw [show ov.ksize * ov.jsize * (q * ov.isize) = q * ov.isize * ov.jsize * ov.ksize by ring]
    omega

theorem plan3_fit1 {q ext : Int} {b ov : Box3} (hq : 1 ≤ q) (hw : ov.Inside b)
    (hV : q * b.isize * b.jsize * b.ksize ≤ 2147483647)
    (he : ext = 0 ∨ (ext = ov.isize * (q * b.ksize * b.jsize) ∧
      2 * (q * b.isize * b.jsize * b.ksize) ≤ 2147483647)) :
    (recvPlan3 1 q b ov).FitP (q * b.jsize) q (q * b.ksize * b.jsize) q ext := by
  obtain ⟨s1, s2, s3⟩ := hw.sizes
  have hJ : 0 ≤ q * b.jsize := mul_nonneg (by omega) (by omega)
  have hP : q ≤ q * b.ksize * b.jsize := by
    have := mul_le3 (a := q) (b := 1) (c := 1) (A := q) (B := b.ksize) (C := b.jsize) (by omega) (by omega)
      (by omega) le_rfl (by omega) (by omega)
    simp only [mul_one] at this; exact this.2
  have hW : q * b.isize * b.jsize * b.ksize = b.isize * (q * b.ksize * b.jsize) := by ring
  have hr : ov.isize * (q * b.ksize * b.jsize) ≤ b.isize * (q * b.ksize * b.jsize) :=
    mul_le_mul_of_nonneg_right s1.2 (by omega)
  have hone : q * b.ksize * b.jsize ≤ b.isize * (q * b.ksize * b.jsize) := by nlinarith
  constructor
  · change 0 ≤ ov.isize; omega
  · exact s2.1
  · exact s3.1
  · exact hJ
  · omega
  · exact hq
  · exact hP
  · intro s m hs hs' hm hm'
    change s < ov.ksize at hs'
    change m < ov.jsize at hm'
    have h1 : (m + 1) * q ≤ b.jsize * q := mul_le_mul_of_nonneg_right (by omega) (by omega)
    have h2 : (s + 1) * (q * b.jsize) ≤ b.ksize * (q * b.jsize) := mul_le_mul_of_nonneg_right (by omega) hJ
    have h3 : b.ksize * (q * b.jsize) = q * b.ksize * b.jsize := by ring
    have h4 : s * (q * b.jsize) + m * q ≤ q * b.ksize * b.jsize := by nlinarith
    rcases he with rfl | ⟨rfl, h5⟩ <;> omega
  · change ov.isize * (q * b.ksize * b.jsize) ≤ 2147483647; omega
  · change ov.ksize * ov.jsize * (ov.isize * q) ≤ 2147483647
    have := mul_le4 (a := q) (b := ov.isize) (c := ov.jsize) (d := ov.ksize) (A := q) (B := b.isize)
      (C := b.jsize) (D := b.ksize) (by omega) (by omega) (by omega) (by omega) le_rfl s1.2 s2.2 s3.2
    rw [show ov.ksize * ov.jsize * (ov.isize * q) = q * ov.isize * ov.jsize * ov.ksize by ring]
    omega

theorem plan3_fit2 {q ext : Int} {b ov : Box3} (hq : 1 ≤ q) (hw : ov.Inside b)
    (hV : q * b.isize * b.jsize * b.ksize ≤ 2147483647)
    (he : ext = 0 ∨ (ext = ov.isize * (q * b.ksize) ∧
      2 * (q * b.isize * b.jsize * b.ksize) ≤ 2147483647)) :
    (recvPlan3 2 q b ov).FitP q (q * b.isize * b.ksize) (q * b.ksize) q ext := by
  obtain ⟨s1, s2, s3⟩ := hw.sizes
  have hK : 0 ≤ q * b.ksize := mul_nonneg (by omega) (by omega)
  have hI : 0 ≤ q * b.isize * b.ksize := mul_nonneg (mul_nonneg (by omega) (by omega)) (by omega)
  have hP : q ≤ q * b.ksize := by nlinarith
  have hW : q * b.isize * b.jsize * b.ksize = b.jsize * (q * b.isize * b.ksize) := by ring
  have hr : ov.isize * (q * b.ksize) ≤ b.isize * (q * b.ksize) :=
    mul_le_mul_of_nonneg_right s1.2 (by omega)
  have hr2 : b.isize * (q * b.ksize) = q * b.isize * b.ksize := by ring
  have hone : q * b.isize * b.ksize ≤ b.jsize * (q * b.isize * b.ksize) := by nlinarith
  have hone' : q * b.ksize ≤ b.isize * (q * b.ksize) := by nlinarith
  constructor
  · change 0 ≤ ov.isize; omega
  · exact s2.1
  · exact s3.1
  · omega
  · exact hI
  · exact hq
  · exact hP
  · intro s m hs hs' hm hm'
    change s < ov.ksize at hs'
    change m < ov.jsize at hm'
    have h1 : (s + 1) * q ≤ b.ksize * q := mul_le_mul_of_nonneg_right (by omega) (by omega)
    have h2 : (m + 1) * (q * b.isize * b.ksize) ≤ b.jsize * (q * b.isize * b.ksize) :=
      mul_le_mul_of_nonneg_right (by omega) hI
    have h3 : s * q ≤ q * b.ksize := by nlinarith
    have h4 : m * (q * b.isize * b.ksize) + q * b.isize * b.ksize ≤ b.jsize * (q * b.isize * b.ksize) := by
      nlinarith
    rcases he with rfl | ⟨rfl, h5⟩ <;> omega
  · change ov.isize * (q * b.ksize) ≤ 2147483647; omega
  · change ov.ksize * ov.jsize * (ov.isize * q) ≤ 2147483647
    have := mul_le4 (a := q) (b := ov.isize) (c := ov.jsize) (d := ov.ksize) (A := q) (B := b.isize)
      (C := b.jsize) (D := b.ksize) (by omega) (by omega) (by omega) (by omega) le_rfl s1.2 s2.2 s3.2
    rw [show ov.ksize * ov.jsize * (ov.isize * q) = q * ov.isize * ov.jsize * ov.ksize by ring]
    omega

theorem pack3_32_eq {packflag q sz : Int} (hf : packflag = 0 ∨ packflag = 1 ∨ packflag = 2)
    {b ov : Box3} (hq : 1 ≤ q) (hw : ov.Inside b) (hV : q * b.isize * b.jsize * b.ksize ≤ 2147483647)
    (hsz : 1 ≤ sz) (hm : packflag = 2 → q * b.isize * sz ≤ 2147483647) :
    ∃ f f' : CopyFn α PackPlan3, packSel3 packflag = some f ∧ packSel3_32 sz packflag = some f' ∧
      ∀ data d buf c, f' data d buf c (sendPlan3 q b ov) = f data d buf c (sendPlan3 q b ov) := by
  have hfit := plan3_fit0 hq hw hV
  obtain ⟨s1, s2, s3⟩ := hw.sizes
  rcases hf with rfl | rfl | rfl
  · exact ⟨_, _, rfl, rfl, fun data d buf c => pack_3d_array32_eq hfit data buf d c⟩
  · exact ⟨_, _, rfl, rfl, fun data d buf c => pack_3d_pointer32_eq hfit data buf d c⟩
  · refine ⟨_, _, rfl, rfl, fun data d buf c => pack_3d_memcpy32_eq hfit hsz ?_ ?_ data buf d c⟩
    · change 1 ≤ q * ov.isize; nlinarith
    · have := mul_le3 (a := q) (b := ov.isize) (c := sz) (A := q) (B := b.isize) (C := sz) (by omega)
        (by omega) (by omega) le_rfl s1.2 le_rfl
      have := hm rfl
      change q * ov.isize * sz ≤ _; omega

theorem unpack3_32_eq {packflag permute q sz : Int} (hf : packflag = 0 ∨ packflag = 1 ∨ packflag = 2)
    (hp : permute = 0 ∨ permute = 1 ∨ permute = 2)
    {b ov : Box3} (hq : 1 ≤ q) (hw : ov.Inside b) (hV : q * b.isize * b.jsize * b.ksize ≤ 2147483647)
    (hsz : 1 ≤ sz) (hm : packflag = 2 → permute = 0 → q * b.isize * sz ≤ 2147483647)
    (ha : packflag = 0 → permute ≠ 0 → 2 * (q * b.isize * b.jsize * b.ksize) ≤ 2147483647) :
    ∃ f f' : CopyFn α PackPlan3, unpackSel3 packflag permute q = some f ∧
      unpackSel3_32 sz packflag permute q = some f' ∧
      ∀ buf c data d, f' buf c data d (recvPlan3 permute q b ov) =
        f buf c data d (recvPlan3 permute q b ov) := by
  obtain ⟨s1, s2, s3⟩ := hw.sizes
  rcases hp with rfl | rfl | rfl
  · have hfit : (recvPlan3 0 q b ov).Fit0 := plan3_fit0 hq hw hV
    rcases hf with rfl | rfl | rfl
    · exact ⟨_, _, rfl, rfl, fun buf c data d => unpack_3d_array32_eq hfit buf data c d⟩
    · exact ⟨_, _, rfl, rfl, fun buf c data d => unpack_3d_pointer32_eq hfit buf data c d⟩
    · refine ⟨_, _, rfl, rfl, fun buf c data d => unpack_3d_memcpy32_eq hfit hsz ?_ ?_ buf data c d⟩
      · change 1 ≤ q * ov.isize; nlinarith
      · have := mul_le3 (a := q) (b := ov.isize) (c := sz) (A := q) (B := b.isize) (C := sz) (by omega)
          (by omega) (by omega) le_rfl s1.2 le_rfl
        have := hm rfl rfl
        change q * ov.isize * sz ≤ _; omega
  · have hfit := plan3_fit1 (ext := 0) hq hw hV (Or.inl rfl)
    have hfitA := fun h : packflag = 0 =>
      plan3_fit1 (ext := ov.isize * (q * b.ksize * b.jsize)) hq hw hV (Or.inr ⟨rfl, ha h (by decide)⟩)
    by_cases q1 : q = 1
    · subst q1
      rcases hf with rfl | rfl | rfl
      · exact ⟨_, _, rfl, rfl, fun buf c data d => unpack_3d_permute1_1_array32_eq (hfitA rfl) buf data c d⟩
      · exact ⟨_, _, rfl, rfl, fun buf c data d => unpack_3d_permute1_1_pointer32_eq hfit buf data c d⟩
      · exact ⟨_, _, rfl, rfl, fun buf c data d => unpack_3d_permute1_1_pointer32_eq hfit buf data c d⟩
    · by_cases q2 : q = 2
      · subst q2
        rcases hf with rfl | rfl | rfl
        · exact ⟨_, _, rfl, rfl, fun buf c data d => unpack_3d_permute1_2_array32_eq (hfitA rfl) buf data c d⟩
        · exact ⟨_, _, rfl, rfl, fun buf c data d => unpack_3d_permute1_2_pointer32_eq hfit buf data c d⟩
        · exact ⟨_, _, rfl, rfl, fun buf c data d => unpack_3d_permute1_2_pointer32_eq hfit buf data c d⟩
      · unfold unpackSel3 unpackSel3_32
        rw [if_neg (by omega), if_pos rfl, if_neg q1, if_neg q2, if_neg (by omega), if_pos rfl, if_neg q1, if_neg q2]
        rcases hf with rfl | rfl | rfl
        · exact ⟨_, _, rfl, rfl, fun buf c data d => unpack_3d_permute1_n_array32_eq (hfitA rfl) buf data c d⟩
        · exact ⟨_, _, rfl, rfl, fun buf c data d => unpack_3d_permute1_n_pointer32_eq hfit buf data c d⟩
        · exact ⟨_, _, rfl, rfl, fun buf c data d => unpack_3d_permute1_n_pointer32_eq hfit buf data c d⟩
  · have hfit := plan3_fit2 (ext := 0) hq hw hV (Or.inl rfl)
    have hfitA := fun h : packflag = 0 =>
      plan3_fit2 (ext := ov.isize * (q * b.ksize)) hq hw hV (Or.inr ⟨rfl, ha h (by decide)⟩)
    by_cases q1 : q = 1
    · subst q1
      rcases hf with rfl | rfl | rfl
      · exact ⟨_, _, rfl, rfl, fun buf c data d => unpack_3d_permute2_1_array32_eq (hfitA rfl) buf data c d⟩
      · exact ⟨_, _, rfl, rfl, fun buf c data d => unpack_3d_permute2_1_pointer32_eq hfit buf data c d⟩
      · exact ⟨_, _, rfl, rfl, fun buf c data d => unpack_3d_permute2_1_pointer32_eq hfit buf data c d⟩
    · by_cases q2 : q = 2
      · subst q2
        rcases hf with rfl | rfl | rfl
        · exact ⟨_, _, rfl, rfl, fun buf c data d => unpack_3d_permute2_2_array32_eq (hfitA rfl) buf data c d⟩
        · exact ⟨_, _, rfl, rfl, fun buf c data d => unpack_3d_permute2_2_pointer32_eq hfit buf data c d⟩
        · exact ⟨_, _, rfl, rfl, fun buf c data d => unpack_3d_permute2_2_pointer32_eq hfit buf data c d⟩
      · unfold unpackSel3 unpackSel3_32
        rw [if_neg (by omega), if_neg (by omega), if_pos rfl, if_neg q1, if_neg q2, if_neg (by omega),
          if_neg (by omega), if_pos rfl, if_neg q1, if_neg q2]
        rcases hf with rfl | rfl | rfl
        · exact ⟨_, _, rfl, rfl, fun buf c data d => unpack_3d_permute2_n_array32_eq (hfitA rfl) buf data c d⟩
        · exact ⟨_, _, rfl, rfl, fun buf c data d => unpack_3d_permute2_n_pointer32_eq hfit buf data c d⟩
        · exact ⟨_, _, rfl, rfl, fun buf c data d => unpack_3d_permute2_n_pointer32_eq hfit buf data c d⟩

/-! ## Sums of message sizes -/

theorem wsize3_eq {q : Int} (hq : 0 ≤ q) (b : Box3) (xs : Nat → Box3) (p : Nat) :
    wsize (α := α) dim3 q b xs p = (boxPts (inter3 b (xs p)) q).length := by
  unfold wsize
  simp only [dim3]
  rw [collide3_eq]
  by_cases c : (inter3 b (xs p)).ilo > (inter3 b (xs p)).ihi ∨ (inter3 b (xs p)).jlo > (inter3 b (xs p)).jhi ∨
      (inter3 b (xs p)).klo > (inter3 b (xs p)).khi
  · rw [if_pos c]
    have : boxPts (inter3 b (xs p)) q = [] := by
      rw [List.eq_nil_iff_forall_not_mem]
      rintro ⟨i, j, k, t⟩ hm
      rw [mem_boxPts] at hm
      unfold Box3.Has at hm
      omega
    rw [this]; rfl
  · rw [if_neg c]
    simp only [size3, boxPts, List.length_map]
    rw [relPts_length _ _ _ _ (by unfold Box3.isize; omega) (by unfold Box3.jsize; omega)
      (by unfold Box3.ksize; omega) hq]
    ring

theorem wsize3_sum {q M : Int} (hq : 0 ≤ q) {P : Nat} {b : Box3} {xs : Nat → Box3} (hd : Disjoint3 P xs)
    (hM : 0 ≤ M) (hV : q * b.vol ≤ M) {ps : List Nat} (hn : ps.Nodup) (hlt : ∀ p ∈ ps, p < P) :
    (ps.map (wsize (α := α) dim3 q b xs)).sum ≤ M := by
  have e : (ps.map (wsize (α := α) dim3 q b xs)).sum =
      ((ps.flatMap fun p => (boxPts (inter3 b (xs p)) q).map fun t =>
        addr3 0 b q t.1 t.2.1 t.2.2.1 t.2.2.2).length : Int) := by
    clear hn hlt
    induction ps with
    | nil => rfl
    | cons p ps ih =>
      rw [List.map_cons, List.sum_cons, ih, List.flatMap_cons, List.length_append, wsize3_eq hq]
      push_cast
      rw [List.length_map]
  rw [e]
  have hnd : (ps.flatMap fun p => (boxPts (inter3 b (xs p)) q).map fun t =>
        addr3 0 b q t.1 t.2.1 t.2.2.1 t.2.2.2).Nodup := by
    rw [List.nodup_flatMap]
    refine ⟨fun a _ => ?_, ?_⟩
    · refine (boxPts_nodup _ _).map_on ?_
      rintro ⟨i, j, k, q⟩ h1 ⟨i', j', k', q'⟩ h2 he
      rw [mem_boxPts, inter3_has] at h1 h2
      obtain ⟨e1, e2, e3, e4⟩ := addr3_inj h1.1.1 h1.2 h2.1.1 h2.2 he
      simp only [Prod.mk.injEq]
      exact ⟨e1, e2, e3, e4⟩
    · refine hn.imp_of_mem ?_
      intro a a' ha ha' hne x hx hx'
      obtain ⟨⟨i, j, k, q⟩, h1, rfl⟩ := List.mem_map.mp hx
      obtain ⟨⟨i', j', k', q'⟩, h2, he⟩ := List.mem_map.mp hx'
      rw [mem_boxPts, inter3_has] at h1 h2
      obtain ⟨rfl, rfl, rfl, rfl⟩ := addr3_inj h2.1.1 h2.2 h1.1.1 h1.2 he
      exact hne (hd a (hlt a ha) a' (hlt a' ha') _ _ _ h1.1.2 h2.1.2)
  refine (nodup_int_length (n := q * b.vol) hnd ?_).trans (max_le hV hM)
  intro x hx
  obtain ⟨p, -, hx⟩ := List.mem_flatMap.mp hx
  obtain ⟨⟨i, j, k, t⟩, h1, rfl⟩ := List.mem_map.mp hx
  rw [mem_boxPts, inter3_has] at h1
  exact addr3_range h1.1.1 h1.2

end FftMpi
