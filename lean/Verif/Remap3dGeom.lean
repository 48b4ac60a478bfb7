import Verif.Remap3d
import Verif.PtsLemmas

/-!
# Messages of the 3d remap
-/

namespace FftMpi

variable {α : Type}

/-- Points and values of a box in buffer order. -/
def boxPts (b : Box3) (nqty : Int) : List (Int × Int × Int × Int) :=
  (relPts b.isize b.jsize b.ksize nqty).map fun p =>
    (b.ilo + p.1, b.jlo + p.2.1, b.klo + p.2.2.1, p.2.2.2)

theorem mem_boxPts {b : Box3} {nqty i j k q : Int} :
    (i, j, k, q) ∈ boxPts b nqty ↔ b.Has i j k ∧ (0 ≤ q ∧ q < nqty) := by
  simp only [boxPts, List.mem_map, mem_relPts, Prod.mk.injEq, Box3.Has, Box3.isize, Box3.jsize,
    Box3.ksize]
  constructor
  · rintro ⟨⟨x, y, z, t⟩, h, rfl, rfl, rfl, rfl⟩
    simp only at h ⊢
    omega
  · intro h
    exact ⟨(i - b.ilo, j - b.jlo, k - b.klo, q), by simp only; omega, by simp only; omega,
      by simp only; omega, by simp only; omega, rfl⟩

theorem boxPts_nodup (b : Box3) (nqty : Int) : (boxPts b nqty).Nodup := by
  refine (relPts_nodup _ _ _ _).map ?_
  rintro ⟨x, y, z, q⟩ ⟨x', y', z', q'⟩ h
  simp only [Prod.mk.injEq] at h ⊢
  omega

/-- Overlap box (possibly empty). -/
def inter3 (b1 b2 : Box3) : Box3 where
  ilo := max b1.ilo b2.ilo
  ihi := min b1.ihi b2.ihi
  jlo := max b1.jlo b2.jlo
  jhi := min b1.jhi b2.jhi
  klo := max b1.klo b2.klo
  khi := min b1.khi b2.khi

theorem inter3_has {b1 b2 : Box3} {i j k : Int} :
    (inter3 b1 b2).Has i j k ↔ b1.Has i j k ∧ b2.Has i j k := by
  simp only [inter3, Box3.Has]; omega

theorem inter3_comm (b1 b2 : Box3) : inter3 b1 b2 = inter3 b2 b1 := by
  simp only [inter3, max_comm b1.ilo, max_comm b1.jlo, max_comm b1.klo, min_comm b1.ihi,
    min_comm b1.jhi, min_comm b1.khi]

theorem collide3_eq (b1 b2 : Box3) : collide3 b1 b2 =
    if (inter3 b1 b2).ilo > (inter3 b1 b2).ihi ∨ (inter3 b1 b2).jlo > (inter3 b1 b2).jhi ∨
      (inter3 b1 b2).klo > (inter3 b1 b2).khi then none else some (inter3 b1 b2) := rfl

/-- Addresses in the input of the data of a message. -/
def src3 (ins outs : Nat → Box3) (nqty : Int) (a b : Nat) : List Int :=
  (boxPts (inter3 (ins a) (outs b)) nqty).map fun p =>
    addr3 0 (ins a) nqty p.1 p.2.1 p.2.2.1 p.2.2.2

/-- Addresses in the output of the data of a message. -/
def dst3 (permute : Int) (ins outs : Nat → Box3) (nqty : Int) (a b : Nat) : List Int :=
  (boxPts (inter3 (ins a) (outs b)) nqty).map fun p =>
    addr3 permute (outs b) nqty p.1 p.2.1 p.2.2.1 p.2.2.2

/-- A non-empty overlap lies in a box with positive sizes. -/
theorem inter3_pos {b1 b2 : Box3} (hi : (inter3 b1 b2).ilo ≤ (inter3 b1 b2).ihi)
    (hj : (inter3 b1 b2).jlo ≤ (inter3 b1 b2).jhi) (hk : (inter3 b1 b2).klo ≤ (inter3 b1 b2).khi) :
    (0 < b1.isize ∧ 0 < b1.jsize ∧ 0 < b1.ksize) ∧ (0 < b2.isize ∧ 0 < b2.jsize ∧ 0 < b2.ksize) ∧
    (0 ≤ (inter3 b1 b2).isize ∧ 0 ≤ (inter3 b1 b2).jsize ∧ 0 ≤ (inter3 b1 b2).ksize) := by
  simp only [inter3, Box3.isize, Box3.jsize, Box3.ksize] at *
  omega

/-- The pack plan produces the message. -/
theorem packPairs_src3 {nqty : Int} (hq : 0 ≤ nqty) (inb ov : Box3) (c : Int)
    (hi : 0 ≤ ov.isize) (hj : 0 ≤ ov.jsize) :
    packPairs (sendOff3 nqty inb ov) c (sendPlan3 nqty inb ov) =
      packL c ((boxPts ov nqty).map fun p => addr3 0 inb nqty p.1 p.2.1 p.2.2.1 p.2.2.2) := by
  rw [boxPts, List.map_map]
  have e : ((fun p : Int × Int × Int × Int => addr3 0 inb nqty p.1 p.2.1 p.2.2.1 p.2.2.2) ∘
      fun p : Int × Int × Int × Int => (ov.ilo + p.1, ov.jlo + p.2.1, ov.klo + p.2.2.1, p.2.2.2)) =
      fun p => (fun x y z q => addr3 0 inb nqty (ov.ilo + x) (ov.jlo + y) (ov.klo + z) q)
        p.1 p.2.1 p.2.2.1 p.2.2.2 := rfl
  rw [e, packL_relPts c _ _ _ _ hi hj hq
    (fun x y z q => addr3 0 inb nqty (ov.ilo + x) (ov.jlo + y) (ov.klo + z) q)]
  unfold packPairs
  simp only [sendPlan3]
  congr 1; funext z
  congr 1; funext y
  rw [irange_mul nqty _ hq hi, List.map_flatMap]
  congr 1; funext x
  rw [List.map_map]
  congr 1; funext q
  simp only [Function.comp, sendOff3, addr3, if_true, Prod.mk.injEq]
  constructor <;> ring

/-- The unpack plan consumes the message. -/
theorem unpackPairs_dst3 {permute nqty : Int} (hp : permute = 0 ∨ permute = 1 ∨ permute = 2)
    (hq : 0 ≤ nqty) (out ov : Box3) (c : Int) (hi : 0 ≤ ov.isize) (hj : 0 ≤ ov.jsize) :
    unpackPairs permute c (recvOff3 permute nqty out ov) (recvPlan3 permute nqty out ov) =
      unpL c ((boxPts ov nqty).map fun p => addr3 permute out nqty p.1 p.2.1 p.2.2.1 p.2.2.2) := by
  rw [boxPts, List.map_map]
  have e : ((fun p : Int × Int × Int × Int => addr3 permute out nqty p.1 p.2.1 p.2.2.1 p.2.2.2) ∘
      fun p : Int × Int × Int × Int => (ov.ilo + p.1, ov.jlo + p.2.1, ov.klo + p.2.2.1, p.2.2.2)) =
      fun p => (fun x y z q => addr3 permute out nqty (ov.ilo + x) (ov.jlo + y) (ov.klo + z) q)
        p.1 p.2.1 p.2.2.1 p.2.2.2 := rfl
  rw [e, unpL_relPts c _ _ _ _ hi hj hq
    (fun x y z q => addr3 permute out nqty (ov.ilo + x) (ov.jlo + y) (ov.klo + z) q)]
  rcases hp with rfl | rfl | rfl
  · simp only [unpackPairs, if_true, unpackPairs0, recvPlan3]
    congr 1; funext z
    congr 1; funext y
    rw [irange_mul nqty _ hq hi, List.map_flatMap]
    congr 1; funext x
    rw [List.map_map]
    congr 1; funext q
    simp only [Function.comp, recvOff3, addr3, if_true, Prod.mk.injEq]
    constructor <;> ring
  · simp only [unpackPairs, one_ne_zero, if_false, if_true, unpackPairs1, recvPlan3]
    congr 1; funext z
    congr 1; funext y
    congr 1; funext x
    congr 1; funext q
    simp only [recvOff3, addr3, one_ne_zero, if_false, if_true, Prod.mk.injEq, and_true]
    ring
  · have h2 : ¬ ((2 : Int) = 0) := by decide
    have h3 : ¬ ((2 : Int) = 1) := by decide
    simp only [unpackPairs, h2, h3, if_false, unpackPairs2, recvPlan3]
    congr 1; funext z
    congr 1; funext y
    congr 1; funext x
    congr 1; funext q
    simp only [recvOff3, addr3, h2, h3, if_false, if_true, Prod.mk.injEq, and_true]
    ring

theorem sendPlan3_ok {nqty : Int} (hq : 1 ≤ nqty) {inb ov : Box3} (hi : 0 ≤ ov.isize)
    (hj : 0 ≤ ov.jsize) (h1 : 0 < inb.isize) (h2 : 0 < inb.jsize) : (sendPlan3 nqty inb ov).Ok := by
  have hq' : 0 < nqty := by omega
  constructor <;> simp only [sendPlan3]
  · exact mul_nonneg hq'.le hi
  · exact hj
  · exact mul_pos hq' h1
  · exact mul_pos (mul_pos hq' h2) h1
  · omega

theorem recvPlan3_ok {permute nqty : Int} (hp : permute = 0 ∨ permute = 1 ∨ permute = 2)
    (hq : 1 ≤ nqty) {out ov : Box3} (hi : 0 ≤ ov.isize)
    (hj : 0 ≤ ov.jsize) (h1 : 0 < out.isize) (h2 : 0 < out.jsize) (h3 : 0 < out.ksize) :
    (recvPlan3 permute nqty out ov).Ok ∧ (recvPlan3 permute nqty out ov).nqty = nqty := by
  have hq' : 0 < nqty := by omega
  rcases hp with rfl | rfl | rfl
  · refine ⟨?_, rfl⟩
    constructor <;> simp only [recvPlan3, if_true]
    · exact mul_nonneg hq'.le hi
    · exact hj
    · exact mul_pos hq' h1
    · exact mul_pos (mul_pos hq' h2) h1
    · omega
  · refine ⟨?_, rfl⟩
    constructor <;> simp only [recvPlan3, one_ne_zero, if_false, if_true]
    · exact hi
    · exact hj
    · exact mul_pos hq' h2
    · exact mul_pos (mul_pos hq' h3) h2
    · omega
  · refine ⟨?_, rfl⟩
    have e2 : ¬ ((2 : Int) = 0) := by decide
    have e3 : ¬ ((2 : Int) = 1) := by decide
    constructor <;> simp only [recvPlan3, e2, e3, if_false]
    · exact hi
    · exact hj
    · exact mul_pos hq' h3
    · exact mul_pos (mul_pos hq' h1) h3
    · omega

/-- The message structure of a 3d remap. -/
theorem geom3 {P : Nat} {ins outs : Nat → Box3} {nqty permute packflag : Int}
    (hq : 1 ≤ nqty) (hp : permute = 0 ∨ permute = 1 ∨ permute = 2)
    (hf : packflag = 0 ∨ packflag = 1 ∨ packflag = 2) :
    Geom (α := α) dim3 P ins outs nqty permute packflag (src3 ins outs nqty)
      (dst3 permute ins outs nqty) := by
  have hq0 : 0 ≤ nqty := by omega
  have hempty : ∀ a b, src3 ins outs nqty a b = [] ↔
      ((inter3 (ins a) (outs b)).ilo > (inter3 (ins a) (outs b)).ihi ∨
        (inter3 (ins a) (outs b)).jlo > (inter3 (ins a) (outs b)).jhi ∨
        (inter3 (ins a) (outs b)).klo > (inter3 (ins a) (outs b)).khi) := by
    intro a b
    simp only [src3, List.map_eq_nil_iff]
    constructor
    · intro h
      by_contra hc
      have : ((inter3 (ins a) (outs b)).ilo, (inter3 (ins a) (outs b)).jlo,
          (inter3 (ins a) (outs b)).klo, (0 : Int)) ∈ boxPts (inter3 (ins a) (outs b)) nqty := by
        rw [mem_boxPts]; unfold Box3.Has; omega
      rw [h] at this; simp at this
    · intro h
      rw [List.eq_nil_iff_forall_not_mem]
      rintro ⟨i, j, k, q⟩ hm
      rw [mem_boxPts] at hm
      unfold Box3.Has at hm
      omega
  constructor
  · intro a _ b _ hne
    rw [Ne, hempty] at hne
    obtain ⟨⟨p1, p2, p3⟩, ⟨o1, o2, o3⟩, ⟨v1, v2, v3⟩⟩ :=
      inter3_pos (b1 := ins a) (b2 := outs b) (by omega) (by omega) (by omega)
    refine ⟨inter3 (ins a) (outs b), ?_, ?_, ?_, ?_, ?_⟩
    · simp only [dim3]; rw [collide3_eq, if_neg hne]
    · simp only [dim3]; rw [collide3_eq, inter3_comm (outs b), if_neg hne]
    · simp only [dim3, size3, src3, boxPts, List.length_map]
      rw [relPts_length _ _ _ _ v1 v2 v3 hq0]; ring
    · obtain ⟨f, h1, h2⟩ := packSel3_eq (α := α) hf
      refine ⟨f, h1, ?_⟩
      intro data buf c
      simp only [dim3]
      rw [h2 _ _ _ _ _ (sendPlan3_ok hq v1 v2 p1 p2), packPairs_src3 hq0 _ _ _ v1 v2]
      rfl
    · obtain ⟨f, h1, h2⟩ := unpackSel3_eq (α := α) (nqty := nqty) hf hp
      refine ⟨f, h1, ?_⟩
      intro buf data c
      simp only [dim3]
      obtain ⟨k1, k2⟩ := recvPlan3_ok (nqty := nqty) hp hq v1 v2 o1 o2 o3
      rw [h2 _ _ _ _ _ k1 k2, unpackPairs_dst3 hp hq0 _ _ _ v1 v2]
      rfl
  · intro a _ b _ h
    rw [hempty] at h
    constructor
    · simp only [dim3]; rw [collide3_eq, if_pos h]
    · simp only [dim3]; rw [collide3_eq, inter3_comm (outs b), if_pos h]
  · intro a _ b _
    simp [src3, dst3]
  · intro a _ b _ x hx
    obtain ⟨⟨i, j, k, q⟩, h1, rfl⟩ := List.mem_map.mp hx
    rw [mem_boxPts, inter3_has] at h1
    have := addr3_range (permute := permute) h1.1.2 h1.2
    simp only [dim3, size3]
    rw [show nqty * (outs b).isize * (outs b).jsize * (outs b).ksize = nqty * (outs b).vol by
      unfold Box3.vol; ring]
    exact this

/-- When the input boxes do not overlap, no output address is written twice. -/
theorem dst3_nodup {P : Nat} {ins outs : Nat → Box3} {nqty permute : Int}
    (hdis : Disjoint3 P ins) :
    ∀ b < P, ((List.range P).flatMap fun a => dst3 permute ins outs nqty a b).Nodup := by
  intro b _
  rw [List.nodup_flatMap]
  refine ⟨fun a _ => ?_, ?_⟩
  · refine (boxPts_nodup _ _).map_on ?_
    rintro ⟨i, j, k, q⟩ h1 ⟨i', j', k', q'⟩ h2 he
    rw [mem_boxPts, inter3_has] at h1 h2
    obtain ⟨e1, e2, e3, e4⟩ := addr3_inj h1.1.2 h1.2 h2.1.2 h2.2 he
    simp only [Prod.mk.injEq]
    exact ⟨e1, e2, e3, e4⟩
  · refine List.nodup_range.imp_of_mem ?_
    intro a a' ha ha' hne x hx hx'
    obtain ⟨⟨i, j, k, q⟩, h1, rfl⟩ := List.mem_map.mp hx
    obtain ⟨⟨i', j', k', q'⟩, h2, he⟩ := List.mem_map.mp hx'
    rw [mem_boxPts, inter3_has] at h1 h2
    obtain ⟨rfl, rfl, rfl, rfl⟩ := addr3_inj h2.1.2 h2.2 h1.1.2 h1.2 he
    exact hne (hdis a (List.mem_range.mp ha) a' (List.mem_range.mp ha') _ _ _ h1.1.1 h2.1.1)

end FftMpi
