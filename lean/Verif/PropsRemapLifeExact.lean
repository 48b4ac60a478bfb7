import Verif.PropsRemapLife
import Verif.RemapP2P
import Verif.SpmdWorks

/-!
# C45: exactly when `memusage` of a remap is right
-/

namespace FftMpi

variable {α E π : Type}

theorem sendEnts_filter (D : Dim α E π) (P me : Nat) (nqty : Int) (inb : E) (outs : Nat → E) :
    (sendEnts D P me nqty inb outs).map SEnt.proc = (procLoop P P me).filter fun p => (D.collide inb (outs p)).isSome := by
  unfold sendEnts
  induction procLoop P P me with
  | nil => rfl
  | cons p l ih =>
    cases h : D.collide inb (outs p) with
    | none => simp [h, ih]
    | some ov => simp [h, ih]

theorem recvEntsFrom_filter (D : Dim α E π) (permute nqty : Int) (outb : E) (ins : Nat → E) (l : List Nat) (b : Int) :
    (recvEntsFrom D permute nqty outb ins l b).map REnt.proc = l.filter fun p => (D.collide outb (ins p)).isSome := by
  induction l generalizing b with
  | nil => rfl
  | cons p l ih =>
    unfold recvEntsFrom
    cases h : D.collide outb (ins p) with
    | none => simp [h, ih]
    | some ov => simp [h, ih]

/-- What is dropped: the entry of the rank itself, if there is one, in point-to-point mode. -/
theorem dropSelf_count {P me : Nat} (hme : me < P) (f : Nat → Bool) (c : Bool) :
    ((((procLoop P P me).filter f).length : Int) - dropSelf ((procLoop P P me).filter f) me c) =
      if c = false ∧ f me = true then 1 else 0 := by
  cases c with
  | true => simp [dropSelf]
  | false =>
    rw [procLoop_others P me hme, List.filter_append, dropSelf_append]
    · cases h : f me <;> simp [h]
    · intro h
      exact ((mem_others P me hme me).mp (List.mem_of_mem_filter h)).2 rfl
    · cases h : f me <;> simp [h]

/-- The bytes that `memusage` does not count, if an `MPI_Request` is of the size of a pointer: those of the two entries of the copy to
itself, in point-to-point mode. -/
theorem C45_missing {D : Dim α E π} {P me : Nat} (hme : me < P) {ins outs : Nat → E} {nqty permute : Int}
    (hsym : (D.collide (outs me) (ins me)).isSome = (D.collide (ins me) (outs me)).isSome)
    (hD : D.SizesOK nqty) (hout : 0 ≤ D.size nqty (outs me)) {z : TypeSizes} (hz : z.Pos)
    (hreq : z.request = z.requestPtr) (mf collective packflag : Int) {o : RemapObj α π}
    (ho : remapSetup D P me ins outs nqty permute packflag (decide (collective ≠ 0)) = some o) {h : Heap} (hw : h.WF) :
    ∃ r h1, (newRemapLife collective packflag h).1.setupWith D P me ins outs nqty permute mf z
        (newRemapLife collective packflag h).2 = some (r, h1) ∧
      h1.bytes - (newRemapLife collective packflag h).2.bytes =
        r.memusage + if collective = 0 ∧ (D.collide (ins me) (outs me)).isSome then 7 * z.int + z.request + 2 * z.plan else 0 := by
  obtain ⟨r, h1, e, hb⟩ := C45_remap_memusage_partial hD hout hz mf collective packflag ho hw
  refine ⟨r, h1, e, ?_⟩
  have key : ((o.sends.length : Int) - o.nsend = if collective = 0 ∧ (D.collide (ins me) (outs me)).isSome then 1 else 0) ∧
      (o.recvs.length : Int) - o.nrecv = if collective = 0 ∧ (D.collide (ins me) (outs me)).isSome then 1 else 0 := by
    have s := dropSelf_count hme (fun p => (D.collide (ins me) (outs p)).isSome) (decide (collective ≠ 0))
    have t := dropSelf_count hme (fun p => (D.collide (outs me) (ins p)).isSome) (decide (collective ≠ 0))
    rw [← sendEnts_filter D P me nqty, List.length_map] at s
    rw [← recvEntsFrom_filter D permute nqty (outs me) ins _ 0, List.length_map] at t
    simp only [hsym, decide_eq_false_iff_not, not_not] at s t
    unfold remapSetup at ho
    simp only at ho
    by_cases hcl : decide (collective ≠ 0) = true
    · rw [if_pos hcl] at ho
      obtain ⟨g, -, rfl⟩ := Option.map_eq_some_iff.mp ho
      exact ⟨s, t⟩
    · rw [if_neg hcl] at ho
      obtain rfl := Option.some.inj ho
      exact ⟨s, t⟩
  rw [hb, key.1, key.2, hreq]
  split_ifs <;> ring

/-- **C45, exactly, 3d** (if an `MPI_Request` is of the size of a pointer): `memusage` is the number of bytes that `setup` allocated and
did not free if and only if the mode is collective or the rank keeps none of its points. -/
theorem C45_iff {P me : Nat} (hme : me < P) {ins outs : Nat → Box3} {nqty permute : Int} (hq : 0 ≤ nqty)
    (hout : 0 ≤ (dim3 (α := α)).size nqty (outs me)) {z : TypeSizes} (hz : z.Pos)
    (hreq : z.request = z.requestPtr) (mf collective packflag : Int) {o : RemapObj α _}
    (ho : remapSetup (dim3 (α := α)) P me ins outs nqty permute packflag (decide (collective ≠ 0)) = some o) {h : Heap} (hw : h.WF) :
    ∃ r h1, (newRemapLife collective packflag h).1.setupWith (dim3 (α := α)) P me ins outs nqty permute mf z
        (newRemapLife collective packflag h).2 = some (r, h1) ∧
      (r.memusage = h1.bytes - (newRemapLife collective packflag h).2.bytes ↔
        collective ≠ 0 ∨ ¬∃ i j k, (ins me).Has i j k ∧ (outs me).Has i j k) := by
  obtain ⟨r, h1, e, hb⟩ := C45_missing hme (collide3_symm _ _) (sizesOK3 hq) hout hz hreq mf collective packflag ho hw
  refine ⟨r, h1, e, ?_⟩
  have hc : ((dim3 (α := α)).collide (ins me) (outs me)).isSome = true ↔ ∃ i j k, (ins me).Has i j k ∧ (outs me).Has i j k := by
    show (collide3 (ins me) (outs me)).isSome = true ↔ _
    unfold collide3 Box3.Has
    dsimp only
    split_ifs with hn
    · simp only [Option.isSome_none, Bool.false_eq_true, false_iff]
      rintro ⟨i, j, k, g⟩
      omega
    · simp only [Option.isSome_some, true_iff]
      exact ⟨max (ins me).ilo (outs me).ilo, max (ins me).jlo (outs me).jlo, max (ins me).klo (outs me).klo, by omega⟩
  rw [hb, ← hc]
  have := hz.int
  have := hz.plan
  have := hz.request
  split_ifs with hh
  · exact iff_of_false (by omega) (by rintro (h | h); exacts [h hh.1, h hh.2])
  · refine iff_of_true (by omega) ?_
    by_contra hcon
    push Not at hcon
    exact hh hcon

/-- **C45, exactly, 2d.** -/
theorem C45_iff_2d {P me : Nat} (hme : me < P) {w : Int} {ins outs : Nat → Box2} {nqty permute : Int} (hq : 0 ≤ nqty)
    (hout : 0 ≤ (dim2 (α := α) w).size nqty (outs me)) {z : TypeSizes} (hz : z.Pos)
    (hreq : z.request = z.requestPtr) (mf collective packflag : Int) {o : RemapObj α _}
    (ho : remapSetup (dim2 (α := α) w) P me ins outs nqty permute packflag (decide (collective ≠ 0)) = some o) {h : Heap} (hw : h.WF) :
    ∃ r h1, (newRemapLife collective packflag h).1.setupWith (dim2 (α := α) w) P me ins outs nqty permute mf z
        (newRemapLife collective packflag h).2 = some (r, h1) ∧
      (r.memusage = h1.bytes - (newRemapLife collective packflag h).2.bytes ↔
        collective ≠ 0 ∨ ¬∃ i j, (ins me).Has i j ∧ (outs me).Has i j) := by
  obtain ⟨r, h1, e, hb⟩ := C45_missing hme (collide2_symm _ _) (sizesOK2 hq) hout hz hreq mf collective packflag ho hw
  refine ⟨r, h1, e, ?_⟩
  have hc : ((dim2 (α := α) w).collide (ins me) (outs me)).isSome = true ↔ ∃ i j, (ins me).Has i j ∧ (outs me).Has i j := by
    show (collide2 (ins me) (outs me)).isSome = true ↔ _
    unfold collide2 Box2.Has
    dsimp only
    split_ifs with hn
    · simp only [Option.isSome_none, Bool.false_eq_true, false_iff]
      rintro ⟨i, j, g⟩
      omega
    · simp only [Option.isSome_some, true_iff]
      exact ⟨max (ins me).ilo (outs me).ilo, max (ins me).jlo (outs me).jlo, by omega⟩
  rw [hb, ← hc]
  have := hz.int
  have := hz.plan
  have := hz.request
  split_ifs with hh
  · exact iff_of_false (by omega) (by rintro (h | h); exacts [h hh.1, h hh.2])
  · refine iff_of_true (by omega) ?_
    by_contra hcon
    push Not at hcon
    exact hh hcon

/-- Two ranks that exchange their points: in point-to-point mode `memusage` is right. -/
def swapBox (s : Nat) : Nat → Box3 := fun r => if r = s then ⟨0, 1, 0, 1, 0, 1⟩ else ⟨2, 3, 0, 1, 0, 1⟩

example : ∃ r h1, (newRemapLife 0 0 Heap.empty).1.setupWith (dim3 (α := Int)) 2 0 (swapBox 0) (swapBox 1) 2 0 1 z64
      (newRemapLife 0 0 Heap.empty).2 = some (r, h1) ∧ r.memusage = h1.bytes - (newRemapLife 0 0 Heap.empty).2.bytes := by
  obtain ⟨o, ho⟩ : ∃ o, remapSetup (dim3 (α := Int)) 2 0 (swapBox 0) (swapBox 1) 2 0 0 (decide ((0 : Int) ≠ 0)) = some o :=
    Option.isSome_iff_exists.1 (by decide +kernel)
  obtain ⟨r, h1, e, H⟩ := C45_iff (by decide) (by decide) (by decide) z64_pos rfl 1 0 0 ho Heap.empty_wf
  refine ⟨r, h1, e, H.mpr (.inr ?_)⟩
  rintro ⟨i, j, k, g1, g2⟩
  simp only [swapBox, Box3.Has] at g1 g2
  norm_num at g1 g2
  omega

end FftMpi
