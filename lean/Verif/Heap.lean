import Mathlib.Data.List.Perm.Basic
import Mathlib.Data.List.Nodup
import Mathlib.Tactic.Linarith
import Mathlib.Algebra.BigOperators.Group.List.Basic

/-!
# Heap for the life cycle models

Which blocks exist, not what they contain.  A block is made by `new`, `Memory::smalloc`, `kiss_fft_alloc` or
`MPI_Comm_create`, or by one of the other FFT packages, and must be released once, by the matching operation.  `none` is undefined behaviour: a block
is released twice, by the wrong operation, or memory of the caller is released.
-/

namespace FftMpi

/-- A pointer (or `MPI_Comm`) as far as the life cycle is concerned: null, a block of the heap, or memory that
the caller passed in and owns. -/
inductive Ptr where
  | null
  | blk (id : Nat)
  | user (bytes : Int)
deriving DecidableEq, Repr

/-- The 1d FFT packages other than KISS: `FFT_MKL`, `FFT_FFTW2`, `FFT_FFTW3`. -/
inductive Package where
  | mkl
  | fftw2
  | fftw3
deriving DecidableEq, Repr

/-- How a block was made: `smalloc`/`malloc`, `new`, `new []`, `MPI_Comm_create`, `kiss_fft_alloc(n,inverse,..)`,
or by one of the other packages for length `n` (`dir`: direction of the plan, a descriptor of MKL has none). -/
inductive Kind where
  | mem
  | obj
  | arr
  | comm
  | plan (n : Int) (inverse : Bool)
  | libPlan (b : Package) (n : Int) (dir : Option Bool)
deriving DecidableEq, Repr

structure Blk where
  id : Nat
  kind : Kind
  bytes : Int
deriving DecidableEq, Repr

/-- Identifiers below `next` have been used; `live` are the blocks that exist. -/
structure Heap where
  next : Nat
  live : List Blk

/-- Ways to release a block. -/
inductive Free where
  /-- `memory->sfree(p)` -/
  | sfree (p : Ptr)
  /-- `free(p)` -/
  | cfree (p : Ptr)
  /-- `delete p` of an object whose destructor does nothing -/
  | del (p : Ptr)
  /-- `delete [] p` -/
  | delArr (p : Ptr)
  /-- `if (p != MPI_COMM_NULL) MPI_Comm_free(&p)` -/
  | commFree (p : Ptr)
  /-- `DftiFreeDescriptor(&p)`, `fftw_destroy_plan(p)` -/
  | libFree (b : Package) (p : Ptr)
deriving DecidableEq, Repr

def Free.ptr : Free → Ptr
  | sfree p | cfree p | del p | delArr p | commFree p | libFree _ p => p

/-- The operation fits the block. -/
def Free.fits : Free → Kind → Bool
  | .sfree _, .mem => true
  | .cfree _, .mem => true
  | .cfree _, .plan _ _ => true
  | .del _, .obj => true
  | .delArr _, .arr => true
  | .commFree _, .comm => true
  | .libFree b _, .libPlan b' _ _ => b = b'
  | _, _ => false

namespace Heap

/-- The block to which a pointer points. -/
def get (h : Heap) : Ptr → Option Blk
  | .blk id => h.live.find? fun b => b.id = id
  | _ => none

/-- `new`, or another allocation of a positive size. -/
def new (h : Heap) (k : Kind) (bytes : Int) : Ptr × Heap :=
  (.blk h.next, { next := h.next + 1, live := { id := h.next, kind := k, bytes } :: h.live })

/-- `Memory::smalloc`, memory.cpp:43-62.  Allocation of a nonnegative size succeeds; a negative size has no
defined result (`posix_memalign` fails and the callers exit). -/
def smalloc (h : Heap) (bytes : Int) : Option (Ptr × Heap) :=
  if bytes < 0 then none
  else if bytes = 0 then some (.null, h)
  else some (h.new .mem bytes)

/-- One release. -/
def free (h : Heap) (f : Free) : Option Heap :=
  match f.ptr with
  | .null => some h
  | .user _ => none
  | .blk id =>
    match h.live.find? fun b => b.id = id with
    | none => none
    | some b => if f.fits b.kind then some { h with live := h.live.filter fun b => b.id ≠ id } else none

/-- Several releases.  `memory` is the member `memory` through which `sfree` is called.  The C++ standard gives
no meaning to a call through a pointer to an object that was deleted; if `strict` then such a call is undefined
behaviour, otherwise it works because `Memory::sfree` (memory.cpp:95-107) does not look at its object. -/
def freeAll (strict : Bool) (memory : Ptr) : List Free → Heap → Option Heap
  | [], h => some h
  | f :: fs, h =>
    match f with
    | .sfree _ => if strict && (h.get memory).isNone then none else (h.free f).bind (freeAll strict memory fs)
    | _ => (h.free f).bind (freeAll strict memory fs)

/-- `Memory::srealloc`, memory.cpp:68-91: the block moves. -/
def srealloc (h : Heap) (p : Ptr) (bytes : Int) : Option (Ptr × Heap) := do
  let h ← h.free (.sfree p)
  h.smalloc bytes

/-- All bytes allocated. -/
def bytes (h : Heap) : Int := (h.live.map Blk.bytes).sum

end Heap

/-! ## Ownership -/

/-- A pointer with what it points to. -/
structure Item where
  ptr : Ptr
  kind : Kind
  bytes : Int

/-- The block of an item, if it has one. -/
def Item.blks (x : Item) : List Blk :=
  match x.ptr with
  | .blk id => [{ id, kind := x.kind, bytes := x.bytes }]
  | _ => []

/-- The heap consists of the blocks `F` and the blocks of `xs`, all different. -/
structure Owns (F : List Blk) (xs : List Item) (h : Heap) : Prop where
  perm : h.live.Perm (xs.flatMap Item.blks ++ F)
  nodup : (h.live.map Blk.id).Nodup
  below : ∀ b ∈ h.live, b.id < h.next

theorem Owns.reorder {F : List Blk} {xs ys : List Item} {h : Heap} (o : Owns F xs h) (p : xs.Perm ys) :
    Owns F ys h :=
  ⟨o.perm.trans ((p.flatMap_right _).append_right _), o.nodup, o.below⟩

/-- Bytes of an item. -/
def Item.size (x : Item) : Int :=
  match x.ptr with
  | .blk _ => x.bytes
  | _ => 0

theorem Owns.bytes {F : List Blk} {xs : List Item} {h : Heap} (o : Owns F xs h) :
    h.bytes = (xs.map Item.size).sum + (F.map Blk.bytes).sum := by
  unfold Heap.bytes
  rw [(o.perm.map Blk.bytes).sum_eq, List.map_append, List.sum_append]
  congr 1
  clear o
  induction xs with
  | nil => rfl
  | cons x xs ih =>
    rw [List.flatMap_cons, List.map_append, List.sum_append, ih, List.map_cons, List.sum_cons]
    congr 1
    unfold Item.blks Item.size
    split <;> simp

theorem Owns.new {F : List Blk} {xs : List Item} {h : Heap} (o : Owns F xs h) (k : Kind) (n : Int) :
    Owns F ({ ptr := (h.new k n).1, kind := k, bytes := n } :: xs) (h.new k n).2 := by
  refine ⟨?_, ?_, ?_⟩
  · exact List.Perm.cons _ o.perm
  · simp only [Heap.new, List.map_cons, List.nodup_cons]
    refine ⟨?_, o.nodup⟩
    intro hm
    obtain ⟨b, hb, he⟩ := List.mem_map.1 hm
    exact absurd (o.below b hb) (by omega)
  · intro b hb
    rcases List.mem_cons.1 hb with rfl | hb
    · exact Nat.lt_succ_self _
    · exact Nat.lt_succ_of_lt (o.below b hb)

theorem Owns.smalloc {F : List Blk} {xs : List Item} {h : Heap} (o : Owns F xs h) {n : Int} (hn : 0 ≤ n) :
    ∃ p h', h.smalloc n = some (p, h') ∧ Owns F ({ ptr := p, kind := .mem, bytes := n } :: xs) h' ∧
      (p = .null ↔ n = 0) ∧ (p = .null ∨ ∃ id, p = .blk id) := by
  unfold Heap.smalloc
  rw [if_neg (show ¬ n < 0 by omega)]
  by_cases h0 : n = 0
  · rw [if_pos h0]
    exact ⟨_, _, rfl, ⟨o.perm, o.nodup, o.below⟩, by simp [h0], Or.inl rfl⟩
  · rw [if_neg h0]
    exact ⟨_, _, rfl, o.new _ _, by simp [h0], Or.inr ⟨_, rfl⟩⟩

theorem Owns.nodup_tail {F : List Blk} {xs : List Item} {h : Heap} (o : Owns F xs h) :
    ((xs.flatMap Item.blks ++ F).map Blk.id).Nodup :=
  (o.perm.map Blk.id).nodup_iff.1 o.nodup

/-- The block of an owned item is found. -/
theorem Owns.get {F : List Blk} {x : Item} {xs : List Item} {h : Heap} (o : Owns F (x :: xs) h) {id : Nat}
    (hp : x.ptr = .blk id) : h.get x.ptr = some ⟨id, x.kind, x.bytes⟩ := by
  have hm : (⟨id, x.kind, x.bytes⟩ : Blk) ∈ h.live := by
    rw [o.perm.mem_iff]
    simp [Item.blks, hp]
  rw [hp]
  show h.live.find? (fun b => decide (b.id = id)) = _
  have hs : (h.live.find? fun b => decide (b.id = id)).isSome := by
    rw [List.find?_isSome]
    exact ⟨_, hm, by simp⟩
  obtain ⟨b, hb⟩ := Option.isSome_iff_exists.1 hs
  rw [hb]
  have h1 : b.id = id := by simpa using List.find?_some hb
  have h2 := List.mem_of_find?_eq_some hb
  congr 1
  exact List.inj_on_of_nodup_map o.nodup h2 hm h1

theorem Owns.free {F : List Blk} {x : Item} {xs : List Item} {h : Heap} (o : Owns F (x :: xs) h) {f : Free}
    (hf : f.ptr = x.ptr) (hk : f.fits x.kind = true) (hu : ∀ n, x.ptr ≠ .user n) :
    ∃ h', h.free f = some h' ∧ Owns F xs h' := by
  unfold Heap.free
  rw [hf]
  cases hp : x.ptr with
  | null =>
    refine ⟨h, rfl, ⟨?_, o.nodup, o.below⟩⟩
    have := o.perm
    simpa [List.flatMap_cons, Item.blks, hp] using this
  | user n => exact absurd hp (hu n)
  | blk id =>
    have hg := o.get hp
    rw [hp] at hg
    simp only [Heap.get] at hg
    simp only [hg, hk, if_true]
    refine ⟨_, rfl, ?_, ?_, ?_⟩
    · have hb : x.blks = [⟨id, x.kind, x.bytes⟩] := by simp [Item.blks, hp]
      have h1 := o.perm
      have h2 := o.nodup_tail
      rw [List.flatMap_cons, hb] at h1 h2
      have h3 := h1.filter (fun b => decide (b.id ≠ id))
      refine h3.trans ?_
      rw [List.append_assoc, List.singleton_append, List.map_cons, List.nodup_cons] at h2
      rw [List.append_assoc, List.singleton_append, List.filter_cons_of_neg (by simp)]
      rw [List.filter_eq_self.2]
      intro b hb
      have : b.id ≠ id := fun he => h2.1 (by rw [← he]; exact List.mem_map.2 ⟨b, hb, rfl⟩)
      simpa using this
    · exact o.nodup.sublist (List.Sublist.map _ List.filter_sublist)
    · intro b hb
      exact o.below b (List.mem_filter.1 hb).1

/-- Releasing owned items one after the other. -/
theorem Owns.freeAll {F : List Blk} {memory : Ptr} :
    ∀ (fs : List Free) (xs ys : List Item) {h : Heap}, Owns F (xs ++ ys) h →
      List.Forall₂ (fun f x => f.ptr = x.ptr ∧ f.fits x.kind = true ∧ ∀ n, x.ptr ≠ .user n) fs xs →
      ∃ h', h.freeAll false memory fs = some h' ∧ Owns F ys h'
  | [], _, ys, h, o, hfx => by
    cases hfx
    exact ⟨h, rfl, o⟩
  | f :: fs, _, ys, h, o, hfx => by
    cases hfx with
    | cons h1 h2 =>
      obtain ⟨h', e1, o1⟩ := Owns.free o h1.1 h1.2.1 h1.2.2
      obtain ⟨h'', e2, o2⟩ := Owns.freeAll (memory := memory) fs _ ys o1 h2
      refine ⟨h'', ?_, o2⟩
      unfold Heap.freeAll
      cases f <;> simp [e1, e2]

end FftMpi
