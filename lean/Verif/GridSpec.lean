import Mathlib.Tactic.Ring
import Mathlib.Tactic.Linarith
import Mathlib.Data.Int.Basic

/-!
# Specification: boxes of a grid, storage order, tilings

What the documentation says about data layouts (doc/layout.txt, doc/api_remap.txt), independent of
the code.
-/

namespace FftMpi

/-- A rank's part of a 3d grid: `ilo ≤ i ≤ ihi` and so on.  Empty when some `hi < lo`. -/
structure Box3 where
  ilo : Int
  ihi : Int
  jlo : Int
  jhi : Int
  klo : Int
  khi : Int
deriving DecidableEq, Repr

namespace Box3

def isize (b : Box3) : Int := b.ihi - b.ilo + 1
def jsize (b : Box3) : Int := b.jhi - b.jlo + 1
def ksize (b : Box3) : Int := b.khi - b.klo + 1

/-- The point `(i,j,k)` is in the box. -/
def Has (b : Box3) (i j k : Int) : Prop :=
  (b.ilo ≤ i ∧ i ≤ b.ihi) ∧ (b.jlo ≤ j ∧ j ≤ b.jhi) ∧ (b.klo ≤ k ∧ k ≤ b.khi)

instance (b : Box3) (i j k : Int) : Decidable (b.Has i j k) := by unfold Has; infer_instance

/-- Number of points of the box. -/
def vol (b : Box3) : Int := b.isize * b.jsize * b.ksize

end Box3

/-- Position of value `q` of grid point `(i,j,k)` in the array of the rank that owns box `b`, with
`nqty` values per point.  `permute = 0`: `i` varies fastest, then `j`, then `k`; `permute = 1`: `j`
fastest, then `k`, then `i`; `permute = 2`: `k` fastest, then `i`, then `j`
(doc/api_remap.txt). -/
def addr3 (permute : Int) (b : Box3) (nqty i j k q : Int) : Int :=
  if permute = 0 then (((k - b.klo) * b.jsize + (j - b.jlo)) * b.isize + (i - b.ilo)) * nqty + q
  else if permute = 1 then
    (((i - b.ilo) * b.ksize + (k - b.klo)) * b.jsize + (j - b.jlo)) * nqty + q
  else (((j - b.jlo) * b.isize + (i - b.ilo)) * b.ksize + (k - b.klo)) * nqty + q

/-- The same box when the dimensions are passed in storage order: for an array stored with
`permute = 1` the dimensions in storage order are `(j,k,i)`, for `permute = 2` they are `(k,i,j)`. -/
def rotBox (permute : Int) (b : Box3) : Box3 :=
  if permute = 0 then b
  else if permute = 1 then ⟨b.jlo, b.jhi, b.klo, b.khi, b.ilo, b.ihi⟩
  else ⟨b.klo, b.khi, b.ilo, b.ihi, b.jlo, b.jhi⟩

/-- A point with its coordinates in storage order. -/
def rotPt (permute : Int) (p : Int × Int × Int) : Int × Int × Int :=
  if permute = 0 then p
  else if permute = 1 then (p.2.1, p.2.2, p.1)
  else (p.2.2, p.1, p.2.1)

/-- The permutation that undoes `permute`. -/
def invPermute (permute : Int) : Int :=
  if permute = 0 then 0 else if permute = 1 then 2 else 1

theorem rotBox_has (permute : Int) (b : Box3) (i j k : Int) :
    (rotBox permute b).Has (rotPt permute (i, j, k)).1 (rotPt permute (i, j, k)).2.1
      (rotPt permute (i, j, k)).2.2 ↔ b.Has i j k := by
  unfold rotBox rotPt Box3.Has
  split_ifs <;> simp only <;> tauto

/-- Storage order of an array described by its dimensions in storage order. -/
theorem addr3_rot (permute : Int) (b : Box3) (nqty i j k q : Int) :
    addr3 0 (rotBox permute b) nqty (rotPt permute (i, j, k)).1 (rotPt permute (i, j, k)).2.1
      (rotPt permute (i, j, k)).2.2 q = addr3 permute b nqty i j k q := by
  unfold rotBox rotPt addr3 Box3.isize Box3.jsize Box3.ksize
  split_ifs <;> simp_all

/-- The original storage order, seen from the rotated description. -/
theorem addr3_rot_inv {permute : Int} (hp : permute = 0 ∨ permute = 1 ∨ permute = 2) (b : Box3)
    (nqty i j k q : Int) :
    addr3 (invPermute permute) (rotBox permute b) nqty (rotPt permute (i, j, k)).1
      (rotPt permute (i, j, k)).2.1 (rotPt permute (i, j, k)).2.2 q = addr3 0 b nqty i j k q := by
  rcases hp with rfl | rfl | rfl <;>
    simp [rotBox, rotPt, addr3, invPermute, Box3.isize, Box3.jsize, Box3.ksize]

/-- No grid point belongs to two ranks. -/
def Disjoint3 (P : Nat) (bs : Nat → Box3) : Prop :=
  ∀ a < P, ∀ b < P, ∀ i j k, (bs a).Has i j k → (bs b).Has i j k → a = b

/-- The boxes of ranks `0..P-1` tile the grid `nfast x nmid x nslow`: every grid point has exactly
one owner and no box contains anything else. -/
structure Tiles3 (P : Nat) (bs : Nat → Box3) (nfast nmid nslow : Int) : Prop where
  inside : ∀ a < P, ∀ i j k, (bs a).Has i j k →
    (0 ≤ i ∧ i < nfast) ∧ (0 ≤ j ∧ j < nmid) ∧ (0 ≤ k ∧ k < nslow)
  owner : ∀ i j k, (0 ≤ i ∧ i < nfast) → (0 ≤ j ∧ j < nmid) → (0 ≤ k ∧ k < nslow) →
    ∃ a < P, (bs a).Has i j k
  disjoint : Disjoint3 P bs

/-- A mixed radix digit is determined by the number. -/
theorem digit_inj {n x y x' y' : Int} (hx : 0 ≤ x ∧ x < n) (hx' : 0 ≤ x' ∧ x' < n)
    (h : y * n + x = y' * n + x') : y = y' ∧ x = x' := by
  have hn : 0 < n := by omega
  have h1 : (y * n + x) % n = x := by
    rw [add_comm, Int.add_mul_emod_self_right, Int.emod_eq_of_lt hx.1 hx.2]
  have h2 : (y' * n + x') % n = x' := by
    rw [add_comm, Int.add_mul_emod_self_right, Int.emod_eq_of_lt hx'.1 hx'.2]
  have h3 : x = x' := by rw [← h1, ← h2, h]
  subst h3
  refine ⟨?_, rfl⟩
  have : y * n = y' * n := by omega
  exact Int.eq_of_mul_eq_mul_right (by omega) this

theorem digit_range {n m x y : Int} (hx : 0 ≤ x ∧ x < n) (hy : 0 ≤ y ∧ y < m) :
    0 ≤ y * n + x ∧ y * n + x < m * n := by
  constructor
  · nlinarith
  · nlinarith

/-- Distinct data have distinct positions. -/
theorem addr3_inj {permute : Int} {b : Box3} {nqty i j k q i' j' k' q' : Int}
    (h : b.Has i j k) (hq : 0 ≤ q ∧ q < nqty) (h' : b.Has i' j' k') (hq' : 0 ≤ q' ∧ q' < nqty)
    (he : addr3 permute b nqty i j k q = addr3 permute b nqty i' j' k' q') :
    i = i' ∧ j = j' ∧ k = k' ∧ q = q' := by
  obtain ⟨hi, hj, hk⟩ := h
  obtain ⟨hi', hj', hk'⟩ := h'
  unfold addr3 Box3.isize Box3.jsize Box3.ksize at he
  split_ifs at he
  · obtain ⟨h1, hqq⟩ := digit_inj hq hq' he
    obtain ⟨h2, h3⟩ := digit_inj (by omega) (by omega) h1
    obtain ⟨h4, h5⟩ := digit_inj (by omega) (by omega) h2
    omega
  · obtain ⟨h1, hqq⟩ := digit_inj hq hq' he
    obtain ⟨h2, h3⟩ := digit_inj (by omega) (by omega) h1
    obtain ⟨h4, h5⟩ := digit_inj (by omega) (by omega) h2
    omega
  · obtain ⟨h1, hqq⟩ := digit_inj hq hq' he
    obtain ⟨h2, h3⟩ := digit_inj (by omega) (by omega) h1
    obtain ⟨h4, h5⟩ := digit_inj (by omega) (by omega) h2
    omega

/-- Positions are in `[0, nqty*vol)`. -/
theorem addr3_range {permute : Int} {b : Box3} {nqty i j k q : Int}
    (h : b.Has i j k) (hq : 0 ≤ q ∧ q < nqty) :
    0 ≤ addr3 permute b nqty i j k q ∧ addr3 permute b nqty i j k q < nqty * b.vol := by
  obtain ⟨hi, hj, hk⟩ := h
  unfold addr3
  have e0 : nqty * b.vol = b.ksize * b.jsize * b.isize * nqty := by unfold Box3.vol; ring
  have e1 : nqty * b.vol = b.isize * b.ksize * b.jsize * nqty := by unfold Box3.vol; ring
  have e2 : nqty * b.vol = b.jsize * b.isize * b.ksize * nqty := by unfold Box3.vol; ring
  have ri : 0 ≤ i - b.ilo ∧ i - b.ilo < b.isize := by unfold Box3.isize; omega
  have rj : 0 ≤ j - b.jlo ∧ j - b.jlo < b.jsize := by unfold Box3.jsize; omega
  have rk : 0 ≤ k - b.klo ∧ k - b.klo < b.ksize := by unfold Box3.ksize; omega
  split_ifs
  · rw [e0]; exact digit_range hq (digit_range ri (digit_range rj rk))
  · rw [e1]; exact digit_range hq (digit_range rj (digit_range rk ri))
  · rw [e2]; exact digit_range hq (digit_range rk (digit_range ri rj))

/-- Every position is used (decoding). -/
theorem addr3_surj {permute : Int} {b : Box3} {nqty a : Int} (hi : 0 < b.isize) (hj : 0 < b.jsize)
    (hk : 0 < b.ksize) (hq : 0 < nqty) (h : 0 ≤ a ∧ a < nqty * b.vol) :
    ∃ i j k q, b.Has i j k ∧ (0 ≤ q ∧ q < nqty) ∧ addr3 permute b nqty i j k q = a := by
  -- split off one digit
  have split : ∀ {n m a : Int}, 0 < n → 0 ≤ a ∧ a < m * n →
      (0 ≤ a / n ∧ a / n < m) ∧ (0 ≤ a % n ∧ a % n < n) ∧ (a / n) * n + a % n = a := by
    intro n m a hn ha
    refine ⟨⟨Int.ediv_nonneg ha.1 hn.le, Int.ediv_lt_of_lt_mul hn ha.2⟩,
      ⟨Int.emod_nonneg _ (by omega), Int.emod_lt_of_pos _ hn⟩, ?_⟩
    have := Int.mul_ediv_add_emod a n
    rw [mul_comm]; exact this
  have e0 : nqty * b.vol = b.ksize * b.jsize * b.isize * nqty := by unfold Box3.vol; ring
  have e1 : nqty * b.vol = b.isize * b.ksize * b.jsize * nqty := by unfold Box3.vol; ring
  have e2 : nqty * b.vol = b.jsize * b.isize * b.ksize * nqty := by unfold Box3.vol; ring
  unfold Box3.isize at hi
  unfold Box3.jsize at hj
  unfold Box3.ksize at hk
  unfold addr3 Box3.Has
  by_cases p0 : permute = 0
  · rw [e0] at h
    obtain ⟨h1, h2, h3⟩ := split hq h
    obtain ⟨h4, h5, h6⟩ := split (by unfold Box3.isize; omega) h1
    obtain ⟨h7, h8, h9⟩ := split (by unfold Box3.jsize; omega) h4
    refine ⟨b.ilo + (a / nqty) % b.isize, b.jlo + (a / nqty / b.isize) % b.jsize,
      b.klo + a / nqty / b.isize / b.jsize, a % nqty, ?_, h2, ?_⟩
    · unfold Box3.isize Box3.jsize Box3.ksize at *; omega
    · rw [if_pos p0]
      simp only [add_sub_cancel_left]
      rw [h9, h6, h3]
  by_cases p1 : permute = 1
  · rw [e1] at h
    obtain ⟨h1, h2, h3⟩ := split hq h
    obtain ⟨h4, h5, h6⟩ := split (by unfold Box3.jsize; omega) h1
    obtain ⟨h7, h8, h9⟩ := split (by unfold Box3.ksize; omega) h4
    refine ⟨b.ilo + a / nqty / b.jsize / b.ksize, b.jlo + (a / nqty) % b.jsize,
      b.klo + (a / nqty / b.jsize) % b.ksize, a % nqty, ?_, h2, ?_⟩
    · unfold Box3.isize Box3.jsize Box3.ksize at *; omega
    · rw [if_neg p0, if_pos p1]
      simp only [add_sub_cancel_left]
      rw [h9, h6, h3]
  · rw [e2] at h
    obtain ⟨h1, h2, h3⟩ := split hq h
    obtain ⟨h4, h5, h6⟩ := split (by unfold Box3.ksize; omega) h1
    obtain ⟨h7, h8, h9⟩ := split (by unfold Box3.isize; omega) h4
    refine ⟨b.ilo + (a / nqty / b.ksize) % b.isize, b.jlo + a / nqty / b.ksize / b.isize,
      b.klo + (a / nqty) % b.ksize, a % nqty, ?_, h2, ?_⟩
    · unfold Box3.isize Box3.jsize Box3.ksize at *; omega
    · rw [if_neg p0, if_neg p1]
      simp only [add_sub_cancel_left]
      rw [h9, h6, h3]

/-! ## 2d -/

/-- A rank's part of a 2d grid. -/
structure Box2 where
  ilo : Int
  ihi : Int
  jlo : Int
  jhi : Int
deriving DecidableEq, Repr

namespace Box2

def isize (b : Box2) : Int := b.ihi - b.ilo + 1
def jsize (b : Box2) : Int := b.jhi - b.jlo + 1

/-- The point `(i,j)` is in the box. -/
def Has (b : Box2) (i j : Int) : Prop := (b.ilo ≤ i ∧ i ≤ b.ihi) ∧ (b.jlo ≤ j ∧ j ≤ b.jhi)

instance (b : Box2) (i j : Int) : Decidable (b.Has i j) := by unfold Has; infer_instance

/-- Number of grid points of a box. -/
def count (b : Box2) : Int := max b.isize 0 * max b.jsize 0

/-- The box as a layer of a 3d grid. -/
def lift (b : Box2) : Box3 := ⟨b.ilo, b.ihi, b.jlo, b.jhi, 0, 0⟩

end Box2

/-- Position of value `q` of grid point `(i,j)` in the array of the rank that owns box `b`, with
`nqty` values per point.  `permute = 0`: `i` varies fastest; `permute = 1`: `j` varies fastest. -/
def addr2 (permute : Int) (b : Box2) (nqty i j q : Int) : Int :=
  if permute = 0 then ((j - b.jlo) * b.isize + (i - b.ilo)) * nqty + q
  else ((i - b.ilo) * b.jsize + (j - b.jlo)) * nqty + q

/-- No grid point belongs to two ranks. -/
def Disjoint2 (P : Nat) (bs : Nat → Box2) : Prop :=
  ∀ a < P, ∀ b < P, ∀ i j, (bs a).Has i j → (bs b).Has i j → a = b

/-- The boxes of ranks `0..P-1` tile the grid `nfast x nslow`. -/
structure Tiles2 (P : Nat) (bs : Nat → Box2) (nfast nslow : Int) : Prop where
  inside : ∀ a < P, ∀ i j, (bs a).Has i j → (0 ≤ i ∧ i < nfast) ∧ (0 ≤ j ∧ j < nslow)
  owner : ∀ i j, (0 ≤ i ∧ i < nfast) → (0 ≤ j ∧ j < nslow) → ∃ a < P, (bs a).Has i j
  disjoint : Disjoint2 P bs

theorem Box2.lift_has {b : Box2} {i j k : Int} : b.lift.Has i j k ↔ b.Has i j ∧ k = 0 := by
  unfold Box2.lift Box3.Has Box2.Has; simp only; omega

theorem Box2.lift_isize (b : Box2) : b.lift.isize = b.isize := rfl
theorem Box2.lift_jsize (b : Box2) : b.lift.jsize = b.jsize := rfl
theorem Box2.lift_ksize (b : Box2) : b.lift.ksize = 1 := rfl

theorem addr2_lift {permute : Int} (hp : permute = 0 ∨ permute = 1) (b : Box2) (nqty i j q : Int) :
    addr3 permute b.lift nqty i j 0 q = addr2 permute b nqty i j q := by
  rcases hp with rfl | rfl <;> simp [addr3, addr2, Box2.lift, Box3.isize, Box3.jsize, Box3.ksize,
    Box2.isize, Box2.jsize]

theorem Disjoint2.lift {P : Nat} {bs : Nat → Box2} (h : Disjoint2 P bs) :
    Disjoint3 P fun r => (bs r).lift := by
  intro a ha b hb i j k h1 h2
  rw [Box2.lift_has] at h1 h2
  exact h a ha b hb i j h1.1 h2.1

theorem Tiles2.lift {P : Nat} {bs : Nat → Box2} {nfast nslow : Int} (h : Tiles2 P bs nfast nslow) :
    Tiles3 P (fun r => (bs r).lift) nfast nslow 1 where
  inside := by
    intro a ha i j k h1
    rw [Box2.lift_has] at h1
    obtain ⟨h2, h3⟩ := h.inside a ha i j h1.1
    exact ⟨h2, h3, by omega⟩
  owner := by
    intro i j k hi hj hk
    obtain ⟨a, ha, h1⟩ := h.owner i j hi hj
    exact ⟨a, ha, Box2.lift_has.mpr ⟨h1, by omega⟩⟩
  disjoint := h.disjoint.lift

end FftMpi
