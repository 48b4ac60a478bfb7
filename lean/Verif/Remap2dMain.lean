import Verif.Remap2d
import Verif.Remap3dMain

/-!
# 2d remaps: messages, specification of one call and of a sequence of calls

The messages are those of the 3d remap of one layer.
-/

namespace FftMpi

variable {α : Type}

/-- Overlap box (possibly empty). -/
def inter2 (b1 b2 : Box2) : Box2 where
  ilo := max b1.ilo b2.ilo
  ihi := min b1.ihi b2.ihi
  jlo := max b1.jlo b2.jlo
  jhi := min b1.jhi b2.jhi

theorem inter2_lift (b1 b2 : Box2) : inter3 b1.lift b2.lift = (inter2 b1 b2).lift := by
  simp [inter3, inter2, Box2.lift]

theorem inter2_comm (b1 b2 : Box2) : inter2 b1 b2 = inter2 b2 b1 := by
  simp only [inter2, max_comm b1.ilo, max_comm b1.jlo, min_comm b1.ihi, min_comm b1.jhi]

theorem collide2_eq (b1 b2 : Box2) : collide2 b1 b2 =
    if (inter2 b1 b2).ilo > (inter2 b1 b2).ihi ∨ (inter2 b1 b2).jlo > (inter2 b1 b2).jhi
    then none else some (inter2 b1 b2) := rfl

/-- Addresses in the input of the data of a message. -/
def src2 (ins outs : Nat → Box2) (nqty : Int) (a b : Nat) : List Int :=
  src3 (fun r => (ins r).lift) (fun r => (outs r).lift) nqty a b

/-- Addresses in the output of the data of a message. -/
def dst2 (permute : Int) (ins outs : Nat → Box2) (nqty : Int) (a b : Nat) : List Int :=
  dst3 permute (fun r => (ins r).lift) (fun r => (outs r).lift) nqty a b

theorem packPairs2_lift (nqty : Int) (inb ov : Box2) (c : Int) :
    packPairs2d (sendOff2 nqty inb ov) c (sendPlan2 nqty inb ov) =
      packPairs (sendOff3 nqty inb.lift ov.lift) c (sendPlan3 nqty inb.lift ov.lift) := by
  unfold packPairs packPairs2d
  simp only [sendPlan3, sendPlan2, sendOff3, sendOff2, Box2.lift_isize, Box2.lift_jsize,
    Box2.lift_ksize, irange_one, List.flatMap_cons, List.flatMap_nil, List.append_nil, zero_mul,
    zero_add]
  simp only [Box2.lift, sub_self, zero_mul, zero_add]

theorem unpackPairs2_lift {permute : Int} (hp : permute = 0 ∨ permute = 1) (nqty : Int)
    (out ov : Box2) (c : Int) :
    unpackPairs2d permute c (recvOff2 permute nqty out ov) (recvPlan2 permute nqty out ov) =
      unpackPairs permute c (recvOff3 permute nqty out.lift ov.lift)
        (recvPlan3 permute nqty out.lift ov.lift) := by
  rcases hp with rfl | rfl
  · simp only [unpackPairs2d, unpackPairs, if_true, unpackPairs2d0, unpackPairs0,
      recvPlan3, recvPlan2, recvOff3, recvOff2, Box2.lift_isize, Box2.lift_jsize,
      Box2.lift_ksize, irange_one, List.flatMap_cons, List.flatMap_nil, List.append_nil, zero_mul,
      zero_add]
    simp only [Box2.lift, sub_self, zero_mul, zero_add]
  · simp only [unpackPairs2d, unpackPairs, if_true, if_false, one_ne_zero, unpackPairs2d1,
      unpackPairs1, recvPlan3, recvPlan2, recvOff3, recvOff2, Box2.lift_isize, Box2.lift_jsize,
      Box2.lift_ksize, irange_one, List.flatMap_cons, List.flatMap_nil, List.append_nil, zero_mul,
      zero_add, mul_one]
    simp only [Box2.lift, sub_self, zero_mul, add_zero]

theorem sendPlan2_ok {nqty : Int} (hq : 1 ≤ nqty) {inb ov : Box2} (hi : 0 ≤ ov.isize)
    (h1 : 0 < inb.isize) : (sendPlan2 nqty inb ov).Ok := by
  have hq' : 0 < nqty := by omega
  constructor <;> simp only [sendPlan2]
  · exact mul_nonneg hq'.le hi
  · exact mul_pos hq' h1
  · omega

theorem recvPlan2_ok {permute nqty : Int} (hp : permute = 0 ∨ permute = 1)
    (hq : 1 ≤ nqty) {out ov : Box2} (hi : 0 ≤ ov.isize) (h1 : 0 < out.isize) (h2 : 0 < out.jsize) :
    (recvPlan2 permute nqty out ov).Ok ∧ (recvPlan2 permute nqty out ov).nqty = nqty := by
  have hq' : 0 < nqty := by omega
  rcases hp with rfl | rfl
  · refine ⟨?_, rfl⟩
    constructor <;> simp only [recvPlan2, if_true]
    · exact mul_nonneg hq'.le hi
    · exact mul_pos hq' h1
    · omega
  · refine ⟨?_, rfl⟩
    constructor <;> simp only [recvPlan2, one_ne_zero, if_false]
    · exact hi
    · exact mul_pos hq' h2
    · omega

/-- The message structure of a 2d remap. -/
theorem geom2 {P : Nat} {ins outs : Nat → Box2} {w nqty permute packflag : Int}
    (hq : 1 ≤ nqty) (hp : permute = 0 ∨ permute = 1) (hf : FlagOk2 w packflag) :
    Geom (α := α) (dim2 w) P ins outs nqty permute packflag (src2 ins outs nqty)
      (dst2 permute ins outs nqty) := by
  have hq0 : 0 ≤ nqty := by omega
  have hp' : permute = 0 ∨ permute = 1 ∨ permute = 2 := by tauto
  have G := geom3 (α := α) (P := P) (ins := fun r => (ins r).lift) (outs := fun r => (outs r).lift)
    (nqty := nqty) (permute := permute) (packflag := 0) hq hp' (Or.inl rfl)
  -- overlaps in 2d and in the layer
  have hcol : ∀ a b : Box2, collide3 a.lift b.lift = (collide2 a b).map Box2.lift := by
    intro a b
    rw [collide3_eq, collide2_eq, inter2_lift]
    have : ∀ c : Box2, (c.lift.ilo > c.lift.ihi ∨ c.lift.jlo > c.lift.jhi ∨ c.lift.klo > c.lift.khi) ↔
        (c.ilo > c.ihi ∨ c.jlo > c.jhi) := by
      intro c; simp only [Box2.lift]; omega
    simp only [this]
    split_ifs <;> rfl
  constructor
  · intro a ha b hb hne
    obtain ⟨ov', k1, _, k3, _⟩ := G.hit a ha b hb hne
    have k1' : collide3 (ins a).lift (outs b).lift = some ov' := k1
    rw [hcol] at k1'
    obtain ⟨ov, k5, rfl⟩ := Option.map_eq_some_iff.mp k1'
    have hov : ov = inter2 (ins a) (outs b) := by
      rw [collide2_eq] at k5; split_ifs at k5; injection k5 with k5; exact k5.symm
    have hne' : ¬ ((inter2 (ins a) (outs b)).ilo > (inter2 (ins a) (outs b)).ihi ∨
        (inter2 (ins a) (outs b)).jlo > (inter2 (ins a) (outs b)).jhi) := by
      intro h; rw [collide2_eq, if_pos h] at k5; cases k5
    obtain ⟨⟨p1, _⟩, ⟨o1, o2⟩, ⟨v1, v2⟩⟩ : (0 < (ins a).isize ∧ 0 < (ins a).jsize) ∧
        (0 < (outs b).isize ∧ 0 < (outs b).jsize) ∧ (0 ≤ ov.isize ∧ 0 ≤ ov.jsize) := by
      rw [hov]
      simp only [inter2, Box2.isize, Box2.jsize] at hne' ⊢
      omega
    have hsrc : src2 ins outs nqty a b = (boxPts ov.lift nqty).map fun p =>
        addr3 0 (ins a).lift nqty p.1 p.2.1 p.2.2.1 p.2.2.2 := by
      rw [hov, ← inter2_lift]; rfl
    have hdst : dst2 permute ins outs nqty a b = (boxPts ov.lift nqty).map fun p =>
        addr3 permute (outs b).lift nqty p.1 p.2.1 p.2.2.1 p.2.2.2 := by
      rw [hov, ← inter2_lift]; rfl
    refine ⟨ov, k5, ?_, ?_, ?_, ?_⟩
    · simp only [dim2]
      rw [collide2_eq, inter2_comm (outs b), if_neg hne', hov]
    · have k3' : size3 nqty ov.lift = (src2 ins outs nqty a b).length := k3
      rw [← k3']
      simp only [dim2, size2, size3, Box2.lift_isize, Box2.lift_jsize, Box2.lift_ksize, mul_one]
    · obtain ⟨f, h1, h2⟩ := packSel2_eq (α := α) hf
      refine ⟨f, h1, ?_⟩
      intro data buf c
      simp only [dim2]
      rw [h2 _ _ _ _ _ (sendPlan2_ok hq v1 p1), packPairs2_lift,
        packPairs_src3 hq0 _ _ _ (by rw [Box2.lift_isize]; exact v1)
          (by rw [Box2.lift_jsize]; exact v2), hsrc]
    · obtain ⟨f, h1, h2⟩ := unpackSel2_eq (α := α) (nqty := nqty) hf hp
      refine ⟨f, h1, ?_⟩
      intro buf data c
      simp only [dim2]
      obtain ⟨r1, r2⟩ := recvPlan2_ok (nqty := nqty) hp hq v1 o1 o2
      rw [h2 _ _ _ _ _ r1 r2, unpackPairs2_lift hp,
        unpackPairs_dst3 hp' hq0 _ _ _ (by rw [Box2.lift_isize]; exact v1)
          (by rw [Box2.lift_jsize]; exact v2), hdst]
  · intro a ha b hb h
    obtain ⟨h1, h2⟩ := G.miss a ha b hb h
    have h1' : collide3 (ins a).lift (outs b).lift = none := h1
    have h2' : collide3 (outs b).lift (ins a).lift = none := h2
    rw [hcol, Option.map_eq_none_iff] at h1' h2'
    exact ⟨h1', h2'⟩
  · exact G.len
  · intro a ha b hb x hx
    have := G.range a ha b hb x hx
    simp only [dim3, size3, Box2.lift_isize, Box2.lift_jsize, Box2.lift_ksize, mul_one] at this
    exact this

/-- When the input boxes do not overlap, no output address is written twice. -/
theorem dst2_nodup {P : Nat} {ins outs : Nat → Box2} {nqty permute : Int} (hdis : Disjoint2 P ins) :
    ∀ b < P, ((List.range P).flatMap fun a => dst2 permute ins outs nqty a b).Nodup :=
  dst3_nodup hdis.lift

/-- One remap call made by all ranks: the arguments of `setup` on every rank, the settings, and the
numbers of the user arrays passed as `in` and `out`.  `w = sizeof(double)/sizeof(FFT_SCALAR)`: 1 in
double precision builds, 2 in single precision builds. -/
structure Call2 where
  w : Int
  ins : Nat → Box2
  outs : Nat → Box2
  nqty : Int
  permute : Int
  packflag : Int
  collective : Bool
  inst : Nat
  ai : Nat
  ao : Nat

/-- The settings are among the documented ones (but memcpy packing only in double precision) and no
input datum has two owners. -/
structure Call2.Valid (P : Nat) (c : Call2) : Prop where
  disjoint : Disjoint2 P c.ins
  nqty : 1 ≤ c.nqty
  permute : c.permute = 0 ∨ c.permute = 1
  packflag : FlagOk2 c.w c.packflag

/-- `obj r` is the remap object of rank `r` after `setup`. -/
def Call2.Setup (P : Nat) (c : Call2) (obj : Nat → RemapObj α PackPlan2) : Prop :=
  ∀ r < P, remapSetup (dim2 c.w) P r c.ins c.outs c.nqty c.permute c.packflag c.collective =
    some (obj r)

/-- The program of rank `r` for the call. -/
def Call2.prog (c : Call2) (obj : Nat → RemapObj α PackPlan2) (r : Nat) : List (Instr α) :=
  (obj r).prog c.collective c.inst c.ai c.ao

/-- The arrays hold `nqty` values for every point of the boxes, the buffers have the sizes that
`setup` returned. -/
structure Call2.Fits (P : Nat) (c : Call2) (obj : Nat → RemapObj α PackPlan2) (m : Nat → LMem α) :
    Prop where
  inp : ∀ r < P, accessible ((m r).ub c.ai) 0 (c.nqty * (c.ins r).count)
  out : ∀ r < P, accessible ((m r).ub c.ao) 0 (c.nqty * (c.outs r).count)
  sb : ∀ r < P, accessible (m r).sb 0 (obj r).sendsize
  rb : ∀ r < P, accessible (m r).rb 0 (obj r).recvsize

/-- **Specification of a 2d remap**: `u r n` is array `n` of rank `r` before, `u' r n` after. -/
structure Call2.Post (P : Nat) (c : Call2) (u u' : Nat → Nat → Mem α) : Prop where
  /-- every value that rank `a` had for a point of rank `b`'s output box is there afterwards -/
  moved : ∀ a < P, ∀ b < P, ∀ i j q, (c.ins a).Has i j → (c.outs b).Has i j →
    (0 ≤ q ∧ q < c.nqty) →
    u' b c.ao (addr2 c.permute (c.outs b) c.nqty i j q) =
      u a c.ai (addr2 0 (c.ins a) c.nqty i j q)
  /-- nothing else in the output array changes -/
  frame : ∀ b < P, ∀ x, (∀ i j q, (c.outs b).Has i j → (0 ≤ q ∧ q < c.nqty) →
      x ≠ addr2 c.permute (c.outs b) c.nqty i j q) → u' b c.ao x = u b c.ao x
  /-- points that nobody owned keep their old value -/
  hole : ∀ b < P, ∀ i j q, (c.outs b).Has i j → (0 ≤ q ∧ q < c.nqty) →
    (∀ a < P, ¬ (c.ins a).Has i j) →
    u' b c.ao (addr2 c.permute (c.outs b) c.nqty i j q) =
      u b c.ao (addr2 c.permute (c.outs b) c.nqty i j q)
  /-- no other array changes -/
  other : ∀ b < P, ∀ n, n ≠ c.ao → u' b n = u b n

theorem Box2.lift_count (b : Box2) : b.lift.count = b.count := by
  unfold Box3.count Box2.count
  rw [Box2.lift_isize, Box2.lift_jsize, Box2.lift_ksize]
  simp

theorem addr2_range {permute : Int} (hp : permute = 0 ∨ permute = 1) {b : Box2} {nqty i j q : Int}
    (h : b.Has i j) (hq : 0 ≤ q ∧ q < nqty) :
    0 ≤ addr2 permute b nqty i j q ∧ addr2 permute b nqty i j q < nqty * b.count := by
  have h3 : b.lift.Has i j 0 := Box2.lift_has.mpr ⟨h, rfl⟩
  have := addr3_range (permute := permute) h3 hq
  rw [← Box3.count_of_has h3, Box2.lift_count, addr2_lift hp] at this
  exact this

theorem addr2_inj {permute : Int} (hp : permute = 0 ∨ permute = 1) {b : Box2}
    {nqty i j q i' j' q' : Int} (h : b.Has i j) (hq : 0 ≤ q ∧ q < nqty) (h' : b.Has i' j')
    (hq' : 0 ≤ q' ∧ q' < nqty)
    (he : addr2 permute b nqty i j q = addr2 permute b nqty i' j' q') :
    i = i' ∧ j = j' ∧ q = q' := by
  rw [← addr2_lift hp, ← addr2_lift hp] at he
  obtain ⟨h1, h2, _, h4⟩ := addr3_inj (Box2.lift_has.mpr ⟨h, rfl⟩) hq (Box2.lift_has.mpr ⟨h', rfl⟩) hq' he
  exact ⟨h1, h2, h4⟩

theorem addr2_surj {permute : Int} (hp : permute = 0 ∨ permute = 1) {b : Box2} {nqty x : Int}
    (hq : 0 < nqty) (hx0 : 0 ≤ x) (hx1 : x < nqty * b.count) :
    ∃ i j q, b.Has i j ∧ (0 ≤ q ∧ q < nqty) ∧ x = addr2 permute b nqty i j q := by
  have hpos : 0 < b.isize ∧ 0 < b.jsize := by
    unfold Box2.count at hx1
    refine ⟨?_, ?_⟩
    · by_contra hn
      rw [max_eq_right (a := b.isize) (by omega)] at hx1
      simp at hx1; omega
    · by_contra hn
      rw [max_eq_right (a := b.jsize) (by omega)] at hx1
      simp at hx1; omega
  have hcnt : b.count = b.lift.vol := by
    unfold Box2.count Box3.vol
    rw [max_eq_left hpos.1.le, max_eq_left hpos.2.le, Box2.lift_isize, Box2.lift_jsize,
      Box2.lift_ksize, mul_one]
  rw [hcnt] at hx1
  obtain ⟨i, j, k, q, h1, h2, rfl⟩ := addr3_surj (b := b.lift) (permute := permute)
    (by rw [Box2.lift_isize]; exact hpos.1) (by rw [Box2.lift_jsize]; exact hpos.2)
    (by rw [Box2.lift_ksize]; decide) hq ⟨hx0, hx1⟩
  rw [Box2.lift_has] at h1
  obtain ⟨h1, rfl⟩ := h1
  exact ⟨i, j, q, h1, h2, addr2_lift hp _ _ _ _ _⟩

/-- The 3d call on one layer. -/
def Call2.lift (c : Call2) : Call3 where
  ins r := (c.ins r).lift
  outs r := (c.outs r).lift
  nqty := c.nqty
  permute := c.permute
  packflag := 0
  collective := c.collective
  inst := c.inst
  ai := c.ai
  ao := c.ao

theorem Call2.Valid.lift {P : Nat} {c : Call2} (h : c.Valid P) : c.lift.Valid P where
  disjoint := h.disjoint.lift
  nqty := h.nqty
  permute := by have := h.permute; show c.permute = 0 ∨ c.permute = 1 ∨ c.permute = 2; tauto
  packflag := Or.inl rfl

theorem Call2.post_of_lift {P : Nat} {c : Call2} (hp : c.permute = 0 ∨ c.permute = 1)
    {u u' : Nat → Nat → Mem α} (h : c.lift.Post P u u') : c.Post P u u' where
  moved := by
    intro a ha b hb i j q h1 h2 hq
    have := h.moved a ha b hb i j 0 q (Box2.lift_has.mpr ⟨h1, rfl⟩) (Box2.lift_has.mpr ⟨h2, rfl⟩) hq
    simp only [Call2.lift] at this
    rw [addr2_lift hp, addr2_lift (Or.inl rfl)] at this
    exact this
  frame := by
    intro b hb x hx
    refine h.frame b hb x ?_
    intro i j k q h1 hq he
    have h1' := Box2.lift_has.mp h1
    obtain ⟨h2, rfl⟩ := h1'
    refine hx i j q h2 hq ?_
    rw [he]
    exact addr2_lift hp _ _ _ _ _
  hole := by
    intro b hb i j q h1 hq h2
    have := h.hole b hb i j 0 q (Box2.lift_has.mpr ⟨h1, rfl⟩) hq
      (fun a ha h3 => h2 a ha (Box2.lift_has.mp h3).1)
    simp only [Call2.lift] at this
    rw [addr2_lift hp] at this
    exact this
  other := h.other

theorem Call2.Fits.memOK {P : Nat} {c : Call2} {obj : Nat → RemapObj α PackPlan2}
    {m : Nat → LMem α} (h : c.Fits P obj m) :
    MemOK P (src2 c.ins c.outs c.nqty) (dst2 c.permute c.ins c.outs c.nqty) c.ai c.ao m
      (fun r => (obj r).sendsize) (fun r => (obj r).recvsize) where
  inp := by
    intro a ha b _ x hx
    obtain ⟨⟨i, j, k, q⟩, h1, rfl⟩ := List.mem_map.mp hx
    rw [mem_boxPts, inter3_has] at h1
    have hr := addr3_range (permute := 0) h1.1.1 h1.2
    rw [← Box3.count_of_has h1.1.1, Box2.lift_count] at hr
    exact h.inp a ha _ hr.1 (by simpa using hr.2)
  out := by
    intro a _ b hb x hx
    obtain ⟨⟨i, j, k, q⟩, h1, rfl⟩ := List.mem_map.mp hx
    rw [mem_boxPts, inter3_has] at h1
    have hr := addr3_range (permute := c.permute) h1.1.2 h1.2
    rw [← Box3.count_of_has h1.1.2, Box2.lift_count] at hr
    exact h.out b hb _ hr.1 (by simpa using hr.2)
  sb := h.sb
  rb := h.rb

/-- One call: it is a stage whose effect is `deliver`. -/
theorem remap2_stage (e : Bool) {P : Nat} {c : Call2} {obj : Nat → RemapObj α PackPlan2}
    {m : Nat → LMem α} (hv : c.Valid P) (hs : c.Setup P obj) (hf : c.Fits P obj m) :
    ∃ m', StageOK e P (c.prog obj) m m' ∧
      ∀ r < P, (m' r).ub = Function.update (m r).ub c.ao
          (deliver P (src2 c.ins c.outs c.nqty) (dst2 c.permute c.ins c.outs c.nqty) m c.ai c.ao r) ∧
        (∀ a, ((m' r).sb a).isSome = ((m r).sb a).isSome) ∧
        (∀ a, ((m' r).rb a).isSome = ((m r).rb a).isSome) :=
  remap_stage (geom2 hv.nqty hv.permute hv.packflag) (dst2_nodup hv.disjoint) e c.collective c.inst
    c.ai c.ao obj hs m hf.memOK

theorem Call2.Fits.congr {P : Nat} {c : Call2} {obj : Nat → RemapObj α PackPlan2}
    {m m' : Nat → LMem α} (h : c.Fits P obj m) (hd : SameDom P m m') : c.Fits P obj m' where
  inp r hr := accessible_congr ((hd r hr).1 _) (h.inp r hr)
  out r hr := accessible_congr ((hd r hr).1 _) (h.out r hr)
  sb r hr := accessible_congr (hd r hr).2.1 (h.sb r hr)
  rb r hr := accessible_congr (hd r hr).2.2 (h.rb r hr)

/-- One call, all facts. -/
theorem remap2_main (e : Bool) {P : Nat} {c : Call2} {obj : Nat → RemapObj α PackPlan2}
    {m : Nat → LMem α} (hv : c.Valid P) (hs : c.Setup P obj) (hf : c.Fits P obj m) :
    ∃ m', StageOK e P (c.prog obj) m m' ∧
      c.Post P (fun r => (m r).ub) (fun r => (m' r).ub) ∧ SameDom P m m' := by
  obtain ⟨m', h1, h2⟩ := remap2_stage e hv hs hf
  refine ⟨m', h1, Call2.post_of_lift hv.permute (deliver3_post (c := c.lift) hv.lift hf.memOK.inp
    (fun r hr => (h2 r hr).1)), ?_⟩
  intro r hr
  refine ⟨?_, (h2 r hr).2⟩
  intro n a
  rw [(h2 r hr).1]
  by_cases hn : n = c.ao
  · subst hn
    rw [Function.update_self]
    apply scatter_dom
    intro d hd
    obtain ⟨s, hs, hd⟩ := List.mem_flatMap.mp hd
    exact hf.memOK.out s (List.mem_range.mp hs) r hr d hd
  · rw [Function.update_of_ne hn]

/-! ## Sequences of calls -/

/-- The program of rank `r` for a sequence of calls. -/
def seqProg2 (l : List (Call2 × (Nat → RemapObj α PackPlan2))) (r : Nat) : List (Instr α) :=
  l.flatMap fun c => c.1.prog c.2 r

/-- The specification of a sequence of calls: each call does what `Post` says. -/
def Chain2 (P : Nat) : List Call2 → (Nat → Nat → Mem α) → (Nat → Nat → Mem α) → Prop
  | [], u, u' => ∀ r < P, u' r = u r
  | c :: l, u, u' => ∃ v, c.Post P u v ∧ Chain2 P l v u'

theorem remapSeq2_main (e : Bool) {P : Nat} (l : List (Call2 × (Nat → RemapObj α PackPlan2)))
    (m : Nat → LMem α) (hv : ∀ c ∈ l, c.1.Valid P) (hs : ∀ c ∈ l, c.1.Setup P c.2)
    (hf : ∀ c ∈ l, c.1.Fits P c.2 m) :
    ∃ m', StageOK e P (seqProg2 l) m m' ∧
      Chain2 P (l.map Prod.fst) (fun r => (m r).ub) (fun r => (m' r).ub) ∧ SameDom P m m' := by
  induction l generalizing m with
  | nil =>
    exact ⟨m, StageOK.nil m, fun _ _ => rfl, SameDom.refl P m⟩
  | cons c l ih =>
    obtain ⟨m1, h1, h2, h3⟩ := remap2_main e (hv c (by simp)) (hs c (by simp)) (hf c (by simp))
    obtain ⟨m2, h4, h5, h6⟩ := ih m1 (fun d hd => hv d (by simp [hd])) (fun d hd => hs d (by simp [hd]))
      (fun d hd => (hf d (by simp [hd])).congr h3)
    refine ⟨m2, ?_, ⟨_, h2, h5⟩, h3.trans h6⟩
    have := h1.append h4
    exact this.congr (fun r _ => by simp [seqProg2])

end FftMpi
