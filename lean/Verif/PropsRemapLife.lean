import Verif.RemapLifeLemmas
import Verif.Remap3d
import Verif.Remap2d
import Mathlib.Tactic.LinearCombination

/-!
# Properties C44, C45, C47 for `Remap3d` and `Remap2d`

`h` is the heap before `new Remap3d(comm)`; it may contain other blocks.  The theorems hold for every `Dim`
whose overlaps have nonnegative sizes; `sizesOK3` and `sizesOK2` show that for the two classes.
-/

namespace FftMpi

variable {α E π : Type}

/-- Identifiers are used once. -/
structure Heap.WF (h : Heap) : Prop where
  nodup : (h.live.map Blk.id).Nodup
  below : ∀ b ∈ h.live, b.id < h.next

theorem Heap.WF.owns {h : Heap} (hw : h.WF) : Owns h.live [] h := ⟨by simp, hw.nodup, hw.below⟩

theorem sizesOK3 {nqty : Int} (hq : 0 ≤ nqty) : (dim3 (α := α)).SizesOK nqty := by
  intro a b ov h
  simp only [dim3, collide3] at h
  split_ifs at h with h1
  obtain rfl := Option.some.inj h
  simp only [not_or, not_lt] at h1
  show 0 ≤ nqty * _ * _ * _
  unfold Box3.isize Box3.jsize Box3.ksize
  exact mul_nonneg (mul_nonneg (mul_nonneg hq (by dsimp only; omega)) (by dsimp only; omega)) (by dsimp only; omega)

theorem sizesOK2 {w nqty : Int} (hq : 0 ≤ nqty) : (dim2 (α := α) w).SizesOK nqty := by
  intro a b ov h
  simp only [dim2, collide2] at h
  split_ifs at h with h1
  obtain rfl := Option.some.inj h
  simp only [not_or, not_lt] at h1
  show 0 ≤ nqty * _ * _
  unfold Box2.isize Box2.jsize
  exact mul_nonneg (mul_nonneg hq (by dsimp only; omega)) (by dsimp only; omega)

/-- A new object with the two public members assigned. -/
def newRemapLife (collective packflag : Int) (h : Heap) : RemapLife × Heap :=
  ({ (RemapLife.create h).1 with collective := collective, packflag := packflag }, (RemapLife.create h).2)

theorem newRemapLife_fresh (c p : Int) (h : Heap) : (newRemapLife c p h).1.Fresh := by
  constructor <;> rfl

theorem newRemapLife_owns (c p : Int) {h : Heap} {F : List Blk} {xs : List Item} (o : Owns F xs h) :
    Owns F ((newRemapLife c p h).1.base ++ xs) (newRemapLife c p h).2 :=
  RemapLife.create_owns o

/-- All that is needed of construction and `setup`. -/
theorem setupWith_ok {D : Dim α E π} {P me : Nat} {ins outs : Nat → E} {nqty permute : Int} (hD : D.SizesOK nqty)
    (hout : 0 ≤ D.size nqty (outs me)) {z : TypeSizes} (hz : z.Pos) (mf collective packflag : Int)
    {o : RemapObj α π} (ho : remapSetup D P me ins outs nqty permute packflag (decide (collective ≠ 0)) = some o)
    {F : List Blk} {xs : List Item} {h : Heap} (w : Owns F xs h) :
    ∃ r h1, (newRemapLife collective packflag h).1.setupWith D P me ins outs nqty permute mf z
        (newRemapLife collective packflag h).2 = some (r, h1) ∧
      r.Ready z (o.skel P) mf ∧ r.Based ∧ Owns F (r.items z (o.skel P) mf ++ xs) h1 ∧
      r.collective = collective ∧ r.memusage = remapMemusage z (o.skel P) mf collective ∧
      (collective = 0 → r.newcomm = none) := by
  have hk := (remapSetup_skel hD hout ho).1
  obtain ⟨r, h1, e, hr, ow, e1, e2, e3, e4, _, e5, e6, _⟩ :=
    RemapLife.setup_owns hz hk.sendsize hk.recvsize mf (newRemapLife_fresh collective packflag h)
      (newRemapLife_owns collective packflag w)
  refine ⟨r, h1, ?_, hr, ?_, ?_, e4, e5, e6⟩
  · unfold RemapLife.setupWith
    rw [show (newRemapLife collective packflag h).1.packflag = packflag from rfl,
      show (newRemapLife collective packflag h).1.collective = collective from rfl, ho]
    exact e
  · exact ⟨⟨_, e2⟩, ⟨_, e3⟩, ⟨_, e1⟩⟩
  · have hb : r.base = (newRemapLife collective packflag h).1.base := by
      unfold RemapLife.base
      rw [e1, e2, e3]
    rw [RemapLife.items, hb]
    exact ow.reorder (by perm_tac)

/-! ## C45 -/

theorem RemapLife.Ready.size {z : TypeSizes} {k : RSkel} {mf : Int} {r : RemapLife} (hr : r.Ready z k mf) :
    ((r.owned z k mf).map Item.size).sum =
      k.nsendAll * (3 * z.int + z.plan) + k.nrecvAll * (4 * z.int + z.request + z.plan) +
      (if mf ≠ 0 then (k.sendsize + k.recvsize) * z.scalar else 0) +
      (if r.collective ≠ 0 then 7 * k.ngroup * z.int else 0) := by
  have e : (r.owned z k mf).map Item.size = (r.owned z k mf).map Item.bytes :=
    List.map_congr_left fun x hx => (hr.got x hx).size x.kind
  rw [e]
  unfold owned groupItems argItems bufItems listItems
  split_ifs <;>
    simp only [List.map_append, List.map_cons, List.map_nil, List.sum_append, List.sum_cons, List.sum_nil] <;> ring

/-- **C45, part.**  `memusage` against the bytes that are allocated during `setup` and not freed.  The
difference: in point-to-point mode the entries of the lists that describe the copy to itself are not counted, and
`MPI_Request` is counted with the size of a pointer.

Missing: equality in point-to-point mode on a rank that keeps some of its data (`C45_remap3d_false`), and where
`MPI_Request` is not of the size of a pointer (`C45_request_false`). -/
theorem C45_remap_memusage_partial {D : Dim α E π} {P me : Nat} {ins outs : Nat → E} {nqty permute : Int}
    (hD : D.SizesOK nqty) (hout : 0 ≤ D.size nqty (outs me)) {z : TypeSizes} (hz : z.Pos)
    (mf collective packflag : Int) {o : RemapObj α π}
    (ho : remapSetup D P me ins outs nqty permute packflag (decide (collective ≠ 0)) = some o) {h : Heap}
    (hw : h.WF) :
    ∃ r h1, (newRemapLife collective packflag h).1.setupWith D P me ins outs nqty permute mf z
        (newRemapLife collective packflag h).2 = some (r, h1) ∧
      h1.bytes - (newRemapLife collective packflag h).2.bytes =
        r.memusage + (o.sends.length - o.nsend) * (3 * z.int + z.plan) +
          (o.recvs.length - o.nrecv) * (4 * z.int + z.request + z.plan) +
          o.nrecv * (z.request - z.requestPtr) := by
  obtain ⟨r, h1, e, hr, hb, ow, e4, e5, _⟩ := setupWith_ok hD hout hz mf collective packflag ho hw.owns
  refine ⟨r, h1, e, ?_⟩
  have w0 := newRemapLife_owns collective packflag hw.owns
  obtain ⟨n1, b1⟩ := hb.memory
  obtain ⟨n2, b2⟩ := hb.error
  obtain ⟨n3, b3⟩ := hb.this
  rw [ow.bytes, w0.bytes, e5, List.append_nil, RemapLife.items, List.map_append, List.sum_append, hr.size, e4]
  have c1 : ((r.base).map Item.size).sum = 3 := by
    simp [RemapLife.base, b1, b2, b3, Item.size]
  have c2 : (((newRemapLife collective packflag h).1.base ++ []).map Item.size).sum = 3 := rfl
  rw [c1, c2]
  unfold remapMemusage
  simp only [RemapObj.skel]
  split_ifs <;> ring

/-- **C45 in collective mode**: nothing is missing, provided an `MPI_Request` is of the size of a pointer. -/
theorem C45_remap_collective_partial {D : Dim α E π} {P me : Nat} {ins outs : Nat → E} {nqty permute : Int}
    (hD : D.SizesOK nqty) (hout : 0 ≤ D.size nqty (outs me)) {z : TypeSizes} (hz : z.Pos)
    (hreq : z.request = z.requestPtr) (mf collective packflag : Int) (hc : collective ≠ 0) {o : RemapObj α π}
    (ho : remapSetup D P me ins outs nqty permute packflag true = some o) {h : Heap} (hw : h.WF) :
    ∃ r h1, (newRemapLife collective packflag h).1.setupWith D P me ins outs nqty permute mf z
        (newRemapLife collective packflag h).2 = some (r, h1) ∧
      r.memusage = h1.bytes - (newRemapLife collective packflag h).2.bytes := by
  have hd : decide (collective ≠ 0) = true := decide_eq_true hc
  obtain ⟨r, h1, e, hb⟩ := C45_remap_memusage_partial hD hout hz mf collective packflag (by rw [hd]; exact ho) hw
  obtain ⟨h2, h3⟩ := (remapSetup_skel hD hout ho).2 rfl
  refine ⟨r, h1, e, ?_⟩
  rw [hb, h2, h3, hreq]
  ring

/-- Sizes on a 64 bit machine with Open MPI. -/
def z64 : TypeSizes := ⟨4, 36, 48, 8, 8, 8⟩

theorem z64_pos : z64.Pos := by constructor <;> decide

/-- The empty heap. -/
def Heap.empty : Heap := ⟨0, []⟩

theorem Heap.empty_wf : Heap.empty.WF := ⟨by simp [Heap.empty], by simp [Heap.empty]⟩

/-- Example: one rank, boxes of 2 x 2 x 2 points, 2 values each. -/
def lifeBox : Nat → Box3 := fun _ => ⟨0, 1, 0, 1, 0, 1⟩

/-- `setup` of the example. -/
def lifeSetup (z : TypeSizes) (mf collective : Int) : Option (RemapLife × Heap) :=
  (newRemapLife collective 0 Heap.empty).1.setupWith (dim3 (α := Int)) 1 0 lifeBox lifeBox 2 0 mf z
    (newRemapLife collective 0 Heap.empty).2

example : ∃ r h1, lifeSetup z64 1 1 = some (r, h1) ∧
    r.memusage = h1.bytes - (newRemapLife 1 0 Heap.empty).2.bytes := by
  obtain ⟨o, ho⟩ : ∃ o, remapSetup (dim3 (α := Int)) 1 0 lifeBox lifeBox 2 0 0 true = some o :=
    Option.isSome_iff_exists.1 (by decide +kernel)
  exact C45_remap_collective_partial (sizesOK3 (by decide)) (by decide) z64_pos rfl 1 1 0 (by decide) ho
    Heap.empty_wf

/-- In the example 416 bytes are reported in collective mode and allocated. -/
example : (lifeSetup z64 1 1).map (fun x => (x.1.memusage, x.2.bytes - 3)) = some (416, 416) := by decide +kernel

/-- **C45 is false** in point-to-point mode: the 132 bytes of 260 for the copy to itself are not reported. -/
theorem C45_remap3d_false : ∃ r h1, lifeSetup z64 1 0 = some (r, h1) ∧
    r.memusage = 128 ∧ h1.bytes - (newRemapLife 0 0 Heap.empty).2.bytes = 260 := by
  have : (lifeSetup z64 1 0).map (fun x => (x.1.memusage, x.2.bytes - (newRemapLife 0 0 Heap.empty).2.bytes)) =
      some (128, 260) := by decide +kernel
  obtain ⟨⟨r, h1⟩, e, e'⟩ := Option.map_eq_some_iff.1 this
  simp only [Prod.mk.injEq] at e'
  exact ⟨r, h1, e, e'⟩

/-- **C45 is false** where `MPI_Request` is an `int` (MPICH), also in collective mode. -/
theorem C45_request_false : ∃ r h1, lifeSetup { z64 with request := 4 } 1 1 = some (r, h1) ∧
    r.memusage ≠ h1.bytes - (newRemapLife 1 0 Heap.empty).2.bytes := by
  have : (lifeSetup { z64 with request := 4 } 1 1).map
      (fun x => (x.1.memusage, x.2.bytes - (newRemapLife 1 0 Heap.empty).2.bytes)) = some (416, 412) := by
    decide +kernel
  obtain ⟨⟨r, h1⟩, e, e'⟩ := Option.map_eq_some_iff.1 this
  simp only [Prod.mk.injEq] at e'
  exact ⟨r, h1, e, by omega⟩

/-! ## C47 -/

/-- **C47 for a remap, part.**  Construction, assignment of the public members, `setup`, any number of uses and
destruction: every call finds what it needs and in the end exactly the blocks that existed before are left.

Missing: the destructor before `setup` (`C47_remap_before_setup_false`), a second `setup`
(`C47_remap_setup_twice_false`), assignments to `collective` after `setup` that switch the mode
(`C44_remap_*_false`).  The C++ rule that no member function of a deleted object may be called is broken by every
destruction (`C47_remap_strict_false`); here the call of `sfree` through the deleted `memory` is taken to work. -/
theorem C47_remap_partial {D : Dim α E π} {P me : Nat} {ins outs : Nat → E} {nqty permute : Int}
    (hD : D.SizesOK nqty) (hout : 0 ≤ D.size nqty (outs me)) {z : TypeSizes} (hz : z.Pos)
    (mf collective packflag : Int) {o : RemapObj α π}
    (ho : remapSetup D P me ins outs nqty permute packflag (decide (collective ≠ 0)) = some o) {h : Heap}
    (hw : h.WF) (cs : List RCall)
    (hcoll : ∀ v, .collective v ∈ cs → (v ≠ 0 ↔ collective ≠ 0))
    (hbuf : mf = 0 → ∀ s t, .remap s t ∈ cs → ∃ a b, s = .user a ∧ t = .user b ∧
      o.sendsize * z.scalar ≤ a ∧ o.recvsize * z.scalar ≤ b) :
    ∃ r h1 r' h', (newRemapLife collective packflag h).1.setupWith D P me ins outs nqty permute mf z
        (newRemapLife collective packflag h).2 = some (r, h1) ∧
      r.calls z cs h1 = some (.ok r') ∧ r'.destroy false h1 = some h' ∧ h'.live.Perm h.live := by
  have hk := (remapSetup_skel hD hout ho).1
  obtain ⟨r, h1, e, hr, hb, ow, e4, _, _⟩ := setupWith_ok hD hout hz mf collective packflag ho hw.owns
  obtain ⟨r', e', hr', hb', hi, _, _⟩ := RemapLife.calls_ok hz hk cs hr hb ow (by
    intro c hc
    refine ⟨?_, ?_⟩
    · rintro v rfl
      rw [e4]
      exact hcoll v hc
    · rintro hm s t rfl
      exact hbuf hm s t hc)
  rw [← hi] at ow
  obtain ⟨h', e2, o2⟩ := RemapLife.destroy_owns hr' hb' ow
  exact ⟨r, h1, r', h', e, e', e2, by simpa using o2.perm⟩

example : ∃ r h1 r' h', lifeSetup z64 0 1 = some (r, h1) ∧
    r.calls z64 [.remap (.user 128) (.user 128), .packflag 2, .remap (.user 128) (.user 200)] h1 = some (.ok r') ∧
    r'.destroy false h1 = some h' ∧ h'.live.Perm [] := by
  obtain ⟨o, ho⟩ : ∃ o, remapSetup (dim3 (α := Int)) 1 0 lifeBox lifeBox 2 0 0 true = some o :=
    Option.isSome_iff_exists.1 (by decide +kernel)
  have hsz : (remapSetup (dim3 (α := Int)) 1 0 lifeBox lifeBox 2 0 0 true).map
      (fun o => (o.sendsize, o.recvsize)) = some (16, 16) := by decide +kernel
  rw [ho, Option.map_some, Option.some.injEq, Prod.mk.injEq] at hsz
  refine C47_remap_partial (sizesOK3 (by decide)) (by decide) z64_pos 0 1 0 ho Heap.empty_wf _ ?_ ?_
  · intro v hv
    simp at hv
  · intro _ s t hst
    rw [hsz.1, hsz.2]
    simp only [List.mem_cons, RCall.remap.injEq, reduceCtorEq, List.not_mem_nil, or_false, false_or] at hst
    rcases hst with ⟨rfl, rfl⟩ | ⟨rfl, rfl⟩
    · exact ⟨_, _, rfl, rfl, by decide, by decide⟩
    · exact ⟨_, _, rfl, rfl, by decide, by decide⟩

/-- **C47 is false**: the destructor deletes `memory` and then calls `memory->sfree`, in every state of the
object. -/
theorem C47_remap_strict_false (r : RemapLife) (h : Heap) : r.destroy true h = none := r.destroy_strict h

/-- **C47 is false** after construction: the destructor reads members that were never assigned. -/
theorem C47_remap_before_setup_false (collective packflag : Int) (h : Heap) :
    (newRemapLife collective packflag h).1.destroy false (newRemapLife collective packflag h).2 = none := by
  unfold RemapLife.destroy RemapLife.frees
  by_cases hc : collective = 0
  · simp [newRemapLife, RemapLife.create, hc]
  · simp [newRemapLife, RemapLife.create, hc]

/-- **C47 is false** after a second `setup`, which is not rejected: the arrays of the first one are never freed. -/
theorem C47_remap_setup_twice_false : ∃ r1 h1 r2 h2 h3, lifeSetup z64 1 1 = some (r1, h1) ∧
    r1.setupWith (dim3 (α := Int)) 1 0 lifeBox lifeBox 2 0 1 z64 h1 = some (r2, h2) ∧
    r2.destroy false h2 = some h3 ∧ h3.bytes = r1.memusage ∧ h3.live.length = 20 := by
  have : ((lifeSetup z64 1 1).bind fun x =>
      (x.1.setupWith (dim3 (α := Int)) 1 0 lifeBox lifeBox 2 0 1 z64 x.2).bind fun y =>
      (y.1.destroy false y.2).map fun h3 => (h3.bytes == x.1.memusage, h3.live.length)) = some (true, 20) := by
    decide +kernel
  obtain ⟨⟨r1, h1⟩, e1, h⟩ := Option.bind_eq_some_iff.1 this
  obtain ⟨⟨r2, h2⟩, e2, h⟩ := Option.bind_eq_some_iff.1 h
  obtain ⟨h3, e3, h⟩ := Option.map_eq_some_iff.1 h
  simp only [Prod.mk.injEq, beq_iff_eq] at h
  exact ⟨r1, h1, r2, h2, h3, e1, e2, e3, h.1, h.2⟩

/-! ## C44 -/

/-- **C44 for a remap, part.**  Changes of `packflag` after `setup` have no effect: neither on the memory that is
used nor on what is freed.  (The data side: `RemapObj.prog` does not depend on `packflag`.)

Missing: `collective`, see the next theorems. -/
theorem C44_remap_packflag_partial (z : TypeSizes) (v : Int) (us ur : Ptr) (r : RemapLife) (h : Heap)
    (strict : Bool) :
    (RemapLife.remap z us ur { r with packflag := v } h =
      (r.remap z us ur h).map fun x => x.map fun r' => { r' with packflag := v }) ∧
    RemapLife.destroy strict { r with packflag := v } h = r.destroy strict h := by
  refine ⟨?_, rfl⟩
  have aux : ∀ (u : Option Unit) (a b : RemapLife), { a with packflag := v } = b →
      (u.bind fun _ => some (.ok b)) = (u.bind fun _ => some (Except.ok (ε := LifeErr) a)).map fun x =>
        x.map fun r' => { r' with packflag := v } := by
    intro u a b hb
    subst hb
    cases u <;> rfl
  unfold RemapLife.remap
  dsimp only
  by_cases hs : r.setupflag = false
  · rw [if_pos hs, if_pos hs]
    rfl
  · rw [if_neg hs, if_neg hs]
    simp only [Option.bind_eq_bind]
    rcases r with ⟨_, _, _, sf, mf, _, _, _, _, _, _, _, _, _, _, _, _, _, _, _, _, _, _, _, _, _, _, _, k⟩
    cases mf with
    | none => rfl
    | some mf =>
      cases k with
      | none => rfl
      | some k =>
        simp only [Option.bind_some]
        by_cases hm : mf = 0
        · rw [if_pos hm, if_pos hm]
          exact aux _ _ _ rfl
        · rw [if_neg hm, if_neg hm]
          exact aux _ _ _ rfl

/-- **C44 is false**: `collective` switched on after a `setup` without it.  `remap` and the destructor then read
members that were never assigned. -/
theorem C44_remap_switch_on_false {D : Dim α E π} {P me : Nat} {ins outs : Nat → E} {nqty permute : Int}
    (hD : D.SizesOK nqty) (hout : 0 ≤ D.size nqty (outs me)) {z : TypeSizes} (hz : z.Pos)
    (mf packflag v : Int) (hv : v ≠ 0) {o : RemapObj α π}
    (ho : remapSetup D P me ins outs nqty permute packflag false = some o) {h : Heap} (hw : h.WF) (us ur : Ptr) :
    ∃ r h1, (newRemapLife 0 packflag h).1.setupWith D P me ins outs nqty permute mf z
        (newRemapLife 0 packflag h).2 = some (r, h1) ∧
      RemapLife.remap z us ur { r with collective := v } h1 = none ∧
      RemapLife.destroy false { r with collective := v } h1 = none := by
  obtain ⟨r, h1, e, hr, hb, ow, e4, _, e5⟩ := setupWith_ok hD hout hz mf 0 packflag ho hw.owns
  refine ⟨r, h1, e, ?_, ?_⟩
  · unfold RemapLife.remap
    rw [if_neg (by simp [hr.setupflag])]
    simp only [hr.memoryflag, hr.skel, Option.bind_eq_bind, Option.bind_some]
    have : ∀ a b, RemapLife.uses z (o.skel P) { r with collective := v, sendbuf := a, recvbuf := b } h1 = none := by
      intro a b
      unfold RemapLife.uses
      dsimp only
      rw [if_neg hv, e5 rfl]
      rfl
    by_cases hm : mf = 0
    · rw [if_pos hm]
      have e := this us ur
      rw [hr.memoryflag, hr.skel] at e
      rw [e]
      rfl
    · rw [if_neg hm]
      have e := this r.sendbuf r.recvbuf
      rw [hr.memoryflag, hr.skel] at e
      rw [e]
      rfl
  · unfold RemapLife.destroy RemapLife.frees
    dsimp only
    rw [if_pos hv, e5 rfl]
    rfl

/-- **C44 is false**: `collective` switched off after a `setup` with it.  The destructor leaves the communicator
and seven arrays behind. -/
theorem C44_remap_switch_off_false {D : Dim α E π} {P me : Nat} {ins outs : Nat → E} {nqty permute : Int}
    (hD : D.SizesOK nqty) (hout : 0 ≤ D.size nqty (outs me)) {z : TypeSizes} (hz : z.Pos)
    (mf packflag collective : Int) (hc : collective ≠ 0) {o : RemapObj α π}
    (ho : remapSetup D P me ins outs nqty permute packflag true = some o) {h : Heap} (hw : h.WF) :
    ∃ r h1 h2, (newRemapLife collective packflag h).1.setupWith D P me ins outs nqty permute mf z
        (newRemapLife collective packflag h).2 = some (r, h1) ∧
      RemapLife.destroy false { r with collective := 0 } h1 = some h2 ∧
      h2.bytes = h.bytes + 7 * (o.skel P).ngroup * z.int := by
  have hd : decide (collective ≠ 0) = true := decide_eq_true hc
  obtain ⟨r, h1, e, hr, hb, ow, e4, _, _⟩ := setupWith_ok hD hout hz mf collective packflag
    (by rw [hd]; exact ho) hw.owns
  have hcr : r.collective ≠ 0 := by rw [e4]; exact hc
  obtain ⟨G, hG⟩ : ∃ G, G = RemapLife.groupItems z (o.skel P) r.collective (r.newcomm.getD .null)
    (r.pgroup.getD .null) := ⟨_, rfl⟩
  obtain ⟨A, hA⟩ : ∃ A, A = RemapLife.argItems z (o.skel P) r.collective (r.sendcnts.getD .null)
    (r.recvcnts.getD .null) (r.senddispls.getD .null) (r.recvdispls.getD .null) (r.recvmap.getD .null)
    (r.sendmap.getD .null) := ⟨_, rfl⟩
  have hGot : ∀ x ∈ G ++ A, Got x.ptr x.bytes := by
    intro x hx
    apply hr.got
    unfold RemapLife.owned
    rw [← hG, ← hA]
    rcases List.mem_append.1 hx with hx | hx <;> simp [hx]
  have ow' : Owns h.live (RemapLife.items z (o.skel P) mf { r with collective := 0 } ++ (G ++ A)) h1 := by
    refine ow.reorder ?_
    unfold RemapLife.items RemapLife.owned
    rw [← hG, ← hA]
    have n1 : RemapLife.groupItems z (o.skel P) 0 (r.newcomm.getD .null) (r.pgroup.getD .null) = [] := rfl
    have n2 : RemapLife.argItems z (o.skel P) 0 (r.sendcnts.getD .null)
      (r.recvcnts.getD .null) (r.senddispls.getD .null) (r.recvdispls.getD .null) (r.recvmap.getD .null)
      (r.sendmap.getD .null) = [] := rfl
    dsimp only
    rw [n1, n2]
    show (r.base ++ _ ++ []).Perm (r.base ++ ([] ++ RemapLife.listItems z (o.skel P) r ++ [] ++ _) ++ _)
    perm_tac
  obtain ⟨h2, e2, o2⟩ := RemapLife.destroy_owns (hr.setCollective (v := 0) (fun h => absurd rfl h))
    ⟨hb.memory, hb.error, hb.this⟩ ow'
  refine ⟨r, h1, h2, e, e2, ?_⟩
  rw [o2.bytes]
  have e : (G ++ A).map Item.size = (G ++ A).map Item.bytes :=
    List.map_congr_left fun x hx => (hGot x hx).size x.kind
  rw [e, hG, hA, RemapLife.groupItems, RemapLife.argItems, if_pos hcr, if_pos hcr]
  simp only [List.map_append, List.map_cons, List.map_nil, List.sum_append, List.sum_cons, List.sum_nil, Heap.bytes]
  ring

/-- In the example 28 bytes and the communicator are lost. -/
example : ((lifeSetup z64 1 1).bind fun x =>
    (RemapLife.destroy false { x.1 with collective := 0 } x.2).map fun h => (h.bytes, h.live.length)) =
      some (28, 8) := by decide +kernel

end FftMpi
