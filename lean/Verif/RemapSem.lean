import Verif.RoundsColl

/-!
# Meaning of packing and unpacking in terms of address lists

A message between two ranks is described by the list `s` of addresses read in the sender's array
and the list `t` of addresses written in the receiver's array, both in the order of the message
buffer.
-/

namespace FftMpi

variable {α : Type}

/-- Copies of a pack: buffer `b, b+1, ...` from the listed addresses. -/
def packL (b : Int) : List Int → List (Int × Int)
  | [] => []
  | s :: l => (b, s) :: packL (b+1) l

/-- Copies of an unpack: the listed addresses from buffer `b, b+1, ...`. -/
def unpL (b : Int) : List Int → List (Int × Int)
  | [] => []
  | d :: l => (d, b) :: unpL (b+1) l

/-- Store values at the listed addresses. -/
def scatter : List Int → List α → Mem α → Mem α
  | d :: l, x :: v, m => scatter l v (Function.update m d (some x))
  | _, _, m => m

/-- Values at the listed addresses (those that exist). -/
def gather (m : Mem α) (l : List Int) : List α := l.filterMap m

theorem packL_append (b : Int) (l1 l2 : List Int) :
    packL b (l1 ++ l2) = packL b l1 ++ packL (b + l1.length) l2 := by
  induction l1 generalizing b with
  | nil => simp [packL]
  | cons s l ih =>
    simp only [List.cons_append, packL, ih, List.length_cons, List.cons.injEq, true_and]
    congr 2; push_cast; ring

theorem unpL_append (b : Int) (l1 l2 : List Int) :
    unpL b (l1 ++ l2) = unpL b l1 ++ unpL (b + l1.length) l2 := by
  induction l1 generalizing b with
  | nil => simp [unpL]
  | cons s l ih =>
    simp only [List.cons_append, unpL, ih, List.length_cons, List.cons.injEq, true_and]
    congr 2; push_cast; ring

theorem gather_length {m : Mem α} {l : List Int} (h : ∀ a ∈ l, (m a).isSome) :
    (gather m l).length = l.length := by
  induction l with
  | nil => rfl
  | cons a l ih =>
    obtain ⟨v, hv⟩ := Option.isSome_iff_exists.mp (h a (by simp))
    have := ih (fun x hx => h x (by simp [hx]))
    simp only [gather] at this ⊢
    simp [hv, this]

theorem gather_cons {m : Mem α} {a : Int} {v : α} (l : List Int) (h : m a = some v) :
    gather m (a :: l) = v :: gather m l := by simp [gather, h]

theorem gather_append (m : Mem α) (l1 l2 : List Int) :
    gather m (l1 ++ l2) = gather m l1 ++ gather m l2 := by simp [gather]

@[simp] theorem gather_nil (m : Mem α) : gather m [] = [] := rfl

theorem storeBlk_nil (m : Mem α) (b : Int) : storeBlk m b [] = m := by
  funext a
  simp [storeBlk]

theorem storeBlk_append (m : Mem α) (b : Int) (v w : List α) :
    storeBlk (storeBlk m b v) (b + v.length) w = storeBlk m b (v ++ w) := by
  funext a
  simp only [storeBlk, List.length_append]
  by_cases h1 : b + (v.length : Int) ≤ a ∧ a < b + v.length + w.length
  · rw [if_pos h1, if_pos (by push_cast; omega)]
    rw [List.getElem?_append_right (by omega)]
    congr 1; omega
  · rw [if_neg h1]
    by_cases h2 : b ≤ a ∧ a < b + v.length
    · rw [if_pos h2, if_pos (by push_cast; omega), List.getElem?_append_left (by omega)]
    · rw [if_neg h2, if_neg (by push_cast; omega)]

theorem storeBlk_cons (m : Mem α) (b : Int) (x : α) (w : List α) :
    storeBlk (Function.update m b (some x)) (b + 1) w = storeBlk m b (x :: w) := by
  have h1 : Function.update m b (some x) = storeBlk m b [x] := by
    funext a
    by_cases h : a = b
    · subst h; simp [storeBlk]
    · rw [Function.update_of_ne h]
      simp only [storeBlk, List.length_singleton]
      rw [if_neg (by push_cast; omega)]
  rw [h1]
  exact storeBlk_append m b [x] w

theorem storeBlk_isSome (m : Mem α) (b : Int) (v : List α) (a : Int)
    (h : (b ≤ a ∧ a < b + v.length) ∨ (m a).isSome) : (storeBlk m b v a).isSome := by
  simp only [storeBlk]
  split
  · rename_i h'
    rw [List.getElem?_eq_getElem (by omega)]; rfl
  · rename_i h'
    rcases h with h | h
    · exact absurd h h'
    · exact h

theorem storeBlk_get (m : Mem α) (b : Int) (v : List α) (t : Nat) (h : t < v.length) :
    storeBlk m b v (b + t) = some v[t] := by
  simp only [storeBlk]
  rw [if_pos (by omega)]
  simp

theorem readN_store (m : Mem α) (b : Int) (v : List α) : readN (storeBlk m b v) b v.length = some v := by
  have key : ∀ (v : List α) (m : Mem α) (b : Int), (∀ t, (h : t < v.length) → m (b + t) = some v[t]) →
      readN m b v.length = some v := by
    intro v
    induction v with
    | nil => intros; rfl
    | cons x v ih =>
      intro m b h
      simp only [List.length_cons, readN]
      have h0 := h 0 (by simp)
      simp only [Nat.cast_zero, add_zero, List.getElem_cons_zero] at h0
      rw [h0]
      simp only [Option.bind_some]
      rw [ih m (b+1)]
      · rfl
      · intro t ht
        have := h (t+1) (by simpa using ht)
        simp only [List.getElem_cons_succ] at this
        rw [← this]
        congr 1; push_cast; ring
  exact key v _ b (fun t h => storeBlk_get m b v t h)

theorem readBlk_store (m : Mem α) (b : Int) (v : List α) {n : Int} (hn : (v.length : Int) = n) :
    readBlk (storeBlk m b v) b n = some v := by
  subst hn
  simp only [readBlk]
  rw [if_neg (by omega)]
  simpa using readN_store m b v

/-- Packing stores exactly the gathered values. -/
theorem copyAll_packL (b : Int) (l : List Int) (data buf : Mem α)
    (hs : ∀ a ∈ l, (data a).isSome) (hd : accessible buf b l.length) :
    copyAll (packL b l) data buf = some (storeBlk buf b (gather data l)) := by
  induction l generalizing b buf with
  | nil => simp [packL, storeBlk_nil]
  | cons s l ih =>
    obtain ⟨v, hv⟩ := Option.isSome_iff_exists.mp (hs s (by simp))
    have hb : (buf b).isSome := hd b (le_refl _) (by simp)
    simp only [packL, copyAll, copy1, hv, Option.bind_some, Mem.set_eq hb]
    rw [ih, gather_cons l hv, storeBlk_cons]
    · exact fun a ha => hs a (by simp [ha])
    · intro a h1 h2
      by_cases h : a = b
      · subst h; simp
      · rw [Function.update_of_ne h]
        exact hd a (by omega) (by simp only [List.length_cons]; push_cast; omega)

theorem scatter_other (l : List Int) (v : List α) (m : Mem α) (a : Int) (h : a ∉ l) :
    scatter l v m a = m a := by
  induction l generalizing v m with
  | nil => cases v <;> rfl
  | cons d l ih =>
    cases v with
    | nil => rfl
    | cons x v =>
      simp only [List.mem_cons, not_or] at h
      simp only [scatter]
      rw [ih _ _ h.2, Function.update_of_ne h.1]

theorem scatter_get (l : List Int) (v : List α) (m : Mem α) (hn : l.Nodup) (hlen : v.length = l.length)
    (t : Nat) (ht : t < l.length) : scatter l v m l[t] = some (v[t]'(by omega)) := by
  induction l generalizing v m t with
  | nil => simp at ht
  | cons d l ih =>
    cases v with
    | nil => simp at hlen
    | cons x v =>
      simp only [List.nodup_cons] at hn
      simp only [scatter]
      cases t with
      | zero => rw [List.getElem_cons_zero, scatter_other _ _ _ _ hn.1]; simp
      | succ t =>
        simp only [List.getElem_cons_succ]
        exact ih v _ hn.2 (by simpa using hlen) t (by simpa using ht)

theorem scatter_append (l1 l2 : List Int) (v1 v2 : List α) (m : Mem α) (h : v1.length = l1.length) :
    scatter (l1 ++ l2) (v1 ++ v2) m = scatter l2 v2 (scatter l1 v1 m) := by
  induction l1 generalizing v1 m with
  | nil =>
    cases v1 with
    | nil => cases l2 <;> cases v2 <;> simp [scatter]
    | cons => simp at h
  | cons d l ih =>
    cases v1 with
    | nil => simp at h
    | cons x v1 => simpa [scatter] using ih v1 _ (by simpa using h)

theorem update_scatter (l : List Int) (v : List α) (m : Mem α) (a : Int) (x : Option α)
    (h : a ∉ l) : scatter l v (Function.update m a x) = Function.update (scatter l v m) a x := by
  induction l generalizing v m with
  | nil => cases v <;> rfl
  | cons d l ih =>
    cases v with
    | nil => rfl
    | cons y v =>
      simp only [List.mem_cons, not_or] at h
      simp only [scatter]
      rw [Function.update_comm h.1, ih _ _ h.2]

theorem scatter_comm (l1 l2 : List Int) (v1 v2 : List α) (m : Mem α) (h : ∀ a ∈ l1, a ∉ l2) :
    scatter l1 v1 (scatter l2 v2 m) = scatter l2 v2 (scatter l1 v1 m) := by
  induction l1 generalizing v1 m with
  | nil => cases v1 <;> rfl
  | cons d l ih =>
    cases v1 with
    | nil => rfl
    | cons x v1 =>
      simp only [scatter]
      rw [← ih _ _ (fun a ha => h a (by simp [ha])), ← update_scatter _ _ _ _ _ (h d (by simp))]

theorem scatter_isSome (l : List Int) (v : List α) (m : Mem α) (a : Int) (h : (m a).isSome) :
    (scatter l v m a).isSome := by
  induction l generalizing v m with
  | nil => cases v <;> exact h
  | cons d l ih =>
    cases v with
    | nil => exact h
    | cons x v =>
      simp only [scatter]
      apply ih
      by_cases ha : a = d
      · subst ha; simp
      · rwa [Function.update_of_ne ha]

theorem scatter_dom (l : List Int) (v : List α) (m : Mem α) (h : ∀ d ∈ l, (m d).isSome) (a : Int) :
    (scatter l v m a).isSome = (m a).isSome := by
  by_cases ha : (m a).isSome
  · rw [scatter_isSome _ _ _ _ ha, ha]
  · rw [scatter_other]
    intro h'
    exact ha (h a h')

/-- Unpacking scatters exactly the values in the buffer. -/
theorem copyAll_unpL (b : Int) (l : List Int) (v : List α) (buf data : Mem α)
    (hlen : v.length = l.length) (hb : ∀ t, (h : t < v.length) → buf (b + t) = some v[t])
    (hd : ∀ a ∈ l, (data a).isSome) :
    copyAll (unpL b l) buf data = some (scatter l v data) := by
  induction l generalizing b v data with
  | nil =>
    cases v with
    | nil => rfl
    | cons => simp at hlen
  | cons d l ih =>
    cases v with
    | nil => simp at hlen
    | cons x v =>
      have h0 := hb 0 (by simp)
      simp only [Nat.cast_zero, add_zero, List.getElem_cons_zero] at h0
      simp only [unpL, copyAll, copy1, h0, Option.bind_some, Mem.set_eq (hd d (by simp)), scatter]
      apply ih
      · simpa using hlen
      · intro t ht
        have := hb (t+1) (by simpa using ht)
        simp only [List.getElem_cons_succ] at this
        rw [← this]
        congr 1; push_cast; ring
      · intro a ha
        by_cases h : a = d
        · subst h; simp
        · rw [Function.update_of_ne h]; exact hd a (by simp [ha])

theorem mem_unpL {b : Int} {l : List Int} {p : Int × Int} (h : p ∈ unpL b l) :
    p.1 ∈ l ∧ b ≤ p.2 ∧ p.2 < b + l.length := by
  induction l generalizing b with
  | nil => simp [unpL] at h
  | cons d l ih =>
    rcases List.mem_cons.mp h with rfl | h
    · simp
    · obtain ⟨h1, h2, h3⟩ := ih h
      refine ⟨by simp [h1], by omega, ?_⟩
      simp only [List.length_cons]; push_cast; omega

theorem unpL_dst (b : Int) (l : List Int) : (unpL b l).map Prod.fst = l := by
  induction l generalizing b with
  | nil => rfl
  | cons d l ih => simp [unpL, ih]

theorem hideBlk_none (m : Mem α) (b n a : Int) (h : b ≤ a ∧ a < b + n) : hideBlk m b n a = none := by
  simp [hideBlk, h]

theorem hideBlk_other (m : Mem α) (b n a : Int) (h : ¬ (b ≤ a ∧ a < b + n)) :
    hideBlk m b n a = m a := by
  simp only [hideBlk, if_neg h]

theorem hideBlk_append (m : Mem α) (b n1 n2 : Int) (h1 : 0 ≤ n1) (h2 : 0 ≤ n2) :
    hideBlk (hideBlk m b n1) (b + n1) n2 = hideBlk m b (n1 + n2) := by
  funext a
  simp only [hideBlk]
  split_ifs <;> first | rfl | omega

end FftMpi
