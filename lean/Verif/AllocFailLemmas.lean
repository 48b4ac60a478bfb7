import Verif.AllocFail
import Verif.LifecycleLemmas

/-!
# Lemmas on failing allocations

`Sp m L f`: the code `m` makes one request for each entry of `L`; if all are granted it does what `f` does;
otherwise the first request that is denied decides, unless its block is not used anyway: entry `reported`, the
program is ended, entry `fatal`, undefined behaviour.
-/

namespace FftMpi

/-- What a denied request leads to: the program is ended; undefined behaviour; nothing. -/
inductive Care where
  | reported
  | fatal
  | unused
deriving DecidableEq, Repr

/-- The entry of the first request that is denied and not `unused`, if the requests `L` are numbered from `k`. -/
def firstDenied (g : Oracle) : Nat → List Care → Option Care
  | _, [] => none
  | k, c :: cs => if g k = true ∨ c = .unused then firstDenied g (k + 1) cs else some c

theorem firstDenied_append (g : Oracle) : ∀ (L M : List Care) (k : Nat),
    firstDenied g k (L ++ M) = match firstDenied g k L with
      | none => firstDenied g (k + L.length) M
      | some c => some c
  | [], _, _ => rfl
  | c :: cs, M, k => by
    simp only [List.cons_append, firstDenied]
    by_cases h : g k = true ∨ c = .unused
    · rw [if_pos h, if_pos h, firstDenied_append g cs M (k + 1), List.length_cons,
        show k + 1 + cs.length = k + (cs.length + 1) by omega]
    · rw [if_neg h, if_neg h]

theorem firstDenied_none {g : Oracle} : ∀ {L : List Care} {k : Nat},
    firstDenied g k L = none ↔ ∀ i c, L[i]? = some c → c ≠ .unused → g (k + i) = true
  | [], k => by simp [firstDenied]
  | d :: cs, k => by
    simp only [firstDenied]
    by_cases h : g k = true ∨ d = .unused
    · rw [if_pos h, firstDenied_none]
      constructor
      · intro h1 i c hi hc
        rcases i with _ | i
        · rcases h with h | h
          · exact h
          · exact absurd (h.symm.trans (by simpa using hi)) hc.symm
        · have := h1 i c (by simpa using hi) hc
          rwa [show k + 1 + i = k + (i + 1) by omega] at this
      · intro h1 i c hi hc
        have := h1 (i + 1) c (by simpa using hi) hc
        rwa [show k + (i + 1) = k + 1 + i by omega] at this
    · rw [if_neg h]
      simp only [reduceCtorEq, false_iff]
      intro h1
      exact h (Or.inl (by simpa using h1 0 d rfl (fun e => h (Or.inr e))))

/-- The entry is one of the list, at a number that is denied, and all before it are granted or not used. -/
theorem firstDenied_some {g : Oracle} {c : Care} : ∀ {L : List Care} {k : Nat},
    firstDenied g k L = some c ↔ c ≠ .unused ∧ ∃ i, L[i]? = some c ∧ g (k + i) = false ∧
      ∀ j d, j < i → L[j]? = some d → d ≠ .unused → g (k + j) = true
  | [], k => by simp [firstDenied]
  | d :: cs, k => by
    simp only [firstDenied]
    by_cases h : g k = true ∨ d = .unused
    · rw [if_pos h, firstDenied_some]
      constructor
      · rintro ⟨h0, i, h1, h2, h3⟩
        refine ⟨h0, i + 1, by simpa using h1, by rwa [show k + (i + 1) = k + 1 + i by omega], ?_⟩
        intro j e hj he hu
        rcases j with _ | j
        · rcases h with h | h
          · exact h
          · exact absurd (h.symm.trans (by simpa using he)) hu.symm
        · have := h3 j e (by omega) (by simpa using he) hu
          rwa [show k + (j + 1) = k + 1 + j by omega]
      · rintro ⟨h0, i, h1, h2, h3⟩
        refine ⟨h0, ?_⟩
        rcases i with _ | i
        · rcases h with h | h
          · rw [Nat.add_zero, h] at h2
            exact absurd h2 (by simp)
          · exact absurd (h.symm.trans (by simpa using h1)) h0.symm
        · refine ⟨i, by simpa using h1, by rwa [show k + 1 + i = k + (i + 1) by omega], fun j e hj he hu => ?_⟩
          have := h3 (j + 1) e (by omega) (by simpa using he) hu
          rwa [show k + 1 + j = k + (j + 1) by omega]
    · rw [if_neg h]
      constructor
      · intro e
        obtain rfl := Option.some.inj e
        refine ⟨fun e => h (Or.inr e), 0, rfl, ?_, fun j _ hj => absurd hj (by omega)⟩
        simpa using fun e => h (Or.inl e)
      · rintro ⟨h0, i, h1, h2, h3⟩
        rcases i with _ | i
        · simpa using h1
        · exact absurd (Or.inl (h3 0 d (by omega) rfl fun e => h (Or.inr e))) h

/-- The names of the blocks have been given out. -/
def Heap.Named (h : Heap) : Prop := ∀ b ∈ h.live, b.id < h.next

theorem Heap.Named.new {h : Heap} (hh : h.Named) (k : Kind) (n : Int) : (h.new k n).2.Named := by
  intro b hb
  rcases List.mem_cons.1 hb with rfl | hb
  · exact Nat.lt_succ_self _
  · exact Nat.lt_succ_of_lt (hh b hb)

theorem Heap.Named.free {h h' : Heap} (hh : h.Named) {f : Free} (e : h.free f = some h') : h'.Named := by
  unfold Heap.free at e
  split at e
  · obtain rfl := Option.some.inj e
    exact hh
  · exact absurd e (by simp)
  · split at e
    · exact absurd e (by simp)
    · split_ifs at e
      obtain rfl := Option.some.inj e
      intro b hb
      exact hh b (List.mem_filter.1 hb).1

/-- To ask for a block and release it leaves the heap as it is, but for the name used up. -/
theorem Heap.Named.freeNew {h : Heap} (hh : h.Named) (n : Int) :
    (h.new .mem n).2.free (.sfree (.blk h.next)) = some { h with next := h.next + 1 } := by
  unfold Heap.free Heap.new Free.ptr
  simp only [List.find?_cons, decide_true, Free.fits, if_true, List.filter_cons, ne_eq, not_true_eq_false,
    decide_false, Bool.false_eq_true, if_false]
  congr 2
  refine List.filter_eq_self.2 fun b hb => ?_
  have := hh b hb
  simp only [decide_eq_true_eq]
  omega

variable {α β : Type}

/-- See the head of the file. -/
def Sp (m : Al α) (L : List Care) (f : Heap → Option (α × Heap)) : Prop :=
  ∀ g s a h', s.heap.Named → f s.heap = some (a, h') → h'.Named ∧
    match firstDenied g s.asked L with
    | none => m g s = .ok (a, ⟨h', s.asked + L.length⟩)
    | some .fatal => m g s = .ub
    | some _ => ∃ e, m g s = .stop e

/-- The program is ended whatever is granted. -/
def Stops (m : Al α) : Prop := ∀ g s, ∃ e, m g s = .stop e

namespace Al

theorem bind_eq (m : Al α) (f : α → Al β) : (m >>= f) = m.bind f := rfl

theorem pure_bind (a : α) (f : α → Al β) : ((Pure.pure a : Al α) >>= f) = f a := rfl

theorem pure_bind' (a : α) (f : α → Al β) : (Al.pure a >>= f) = f a := rfl

theorem assoc {γ : Type} (m : Al α) (f : α → Al β) (k : β → Al γ) : (m >>= f >>= k) = (m >>= fun a => f a >>= k) := by
  funext g s
  simp only [bind_eq, Al.bind]
  cases m g s <;> rfl

end Al

theorem Sp.pure (a : α) : Sp (Pure.pure a) [] (fun h => some (a, h)) := by
  intro g s b h' hn e
  simp only [Option.some.injEq, Prod.mk.injEq] at e
  obtain ⟨rfl, rfl⟩ := e
  exact ⟨hn, rfl⟩

theorem Sp.bindOf {m : Al α} {L : List Care} {f : Heap → Option (α × Heap)} (hm : Sp m L f) {n : α → Al β}
    {M : List Care} {f' : α → Heap → Option (β × Heap)}
    (hn : ∀ a h h', f h = some (a, h') → Sp (n a) M (f' a)) :
    Sp (m >>= n) (L ++ M) (fun h => (f h).bind fun x => f' x.1 x.2) := by
  intro g s b h' hw e
  obtain ⟨⟨a, h1⟩, e1, e2⟩ := Option.bind_eq_some_iff.1 e
  obtain ⟨hw1, H⟩ := hm g s a h1 hw e1
  obtain ⟨hw2, H2⟩ := hn a _ _ e1 g ⟨h1, s.asked + L.length⟩ b h' hw1 e2
  refine ⟨hw2, ?_⟩
  rw [firstDenied_append, Al.bind_eq]
  simp only [Al.bind]
  cases hd : firstDenied g s.asked L with
  | none =>
    rw [hd] at H
    dsimp only at H ⊢
    rw [H]
    dsimp only at H2 ⊢
    rw [List.length_append, ← Nat.add_assoc]
    exact H2
  | some c =>
    rw [hd] at H
    cases c with
    | fatal =>
      dsimp only at H ⊢
      rw [H]
    | reported =>
      obtain ⟨e, he⟩ := H
      dsimp only
      rw [he]
      exact ⟨e, rfl⟩
    | unused =>
      obtain ⟨e, he⟩ := H
      dsimp only
      rw [he]
      exact ⟨e, rfl⟩

theorem Sp.bind {m : Al α} {L : List Care} {f : Heap → Option (α × Heap)} (hm : Sp m L f) {n : α → Al β}
    {M : List Care} {f' : α → Heap → Option (β × Heap)} (hn : ∀ a, Sp (n a) M (f' a)) :
    Sp (m >>= n) (L ++ M) (fun h => (f h).bind fun x => f' x.1 x.2) :=
  hm.bindOf fun a _ _ _ => hn a

theorem Sp.congr {m : Al α} {L : List Care} {f f' : Heap → Option (α × Heap)} (hm : Sp m L f) (e : ∀ h, f' h = f h) :
    Sp m L f' := by
  rwa [show f' = f from funext e]

theorem Sp.cast {m : Al α} {L M : List Care} {f : Heap → Option (α × Heap)} (hm : Sp m L f) (e : M = L) : Sp m M f := by
  rwa [e]

/-- A step that makes no request. -/
theorem Sp.quiet {n : Al β} {u : Al Unit} {M : List Care} {f : Heap → Option (β × Heap)} (hu : u = Pure.pure ())
    (hn : Sp n M f) : Sp (u >>= fun _ => n) M f := by
  rw [hu]
  exact hn

theorem Stops.left {m : Al α} (h : Stops m) (f : α → Al β) : Stops (m >>= f) := by
  intro g s
  obtain ⟨e, he⟩ := h g s
  exact ⟨e, by rw [Al.bind_eq, Al.bind, he]⟩

theorem Stops.smalloc {n : Int} {f : Ptr → Al β} (h : ∀ p, Stops (f p)) : Stops (Al.smalloc n >>= f) := by
  intro g s
  rw [Al.bind_eq]
  unfold Al.bind Al.smalloc Al.request
  split_ifs <;> exact h _ g _

theorem Stops.demand {ok : Bool} (h : ok = false) (msg : String) : Stops (Al.demand ok msg) := by
  intro g s
  exact ⟨_, by unfold Al.demand; rw [h]; rfl⟩

/-- A checked request. -/
theorem Sp.smalloc {n : Int} (hn : 0 < n) {K : Ptr → Al β} {L : List Care} {F : Ptr × Heap → Option (β × Heap)}
    (h0 : Stops (K .null)) (h1 : ∀ id, Sp (K (.blk id)) L (fun h => F (.blk id, h))) :
    Sp (Al.smalloc n >>= K) (.reported :: L) (fun h => (h.smalloc n).bind F) := by
  intro g s b h' hw e
  unfold Heap.smalloc at e
  dsimp only at e
  rw [if_neg (show ¬ n < 0 by omega), if_neg (show ¬ n = 0 by omega), Option.bind_some] at e
  obtain ⟨hw1, H⟩ := h1 s.heap.next g ⟨(s.heap.new .mem n).2, s.asked + 1⟩ b h' (hw.new _ _) e
  refine ⟨hw1, ?_⟩
  rw [firstDenied, Al.bind_eq]
  unfold Al.bind Al.smalloc Al.request
  rw [if_neg (show ¬ n = 0 by omega), if_neg (show ¬ n < 0 by omega)]
  by_cases hg : g s.asked = true
  · rw [if_pos (Or.inl hg), if_pos hg]
    dsimp only at H ⊢
    rw [List.length_cons, show s.asked + (L.length + 1) = s.asked + 1 + L.length by omega]
    exact H
  · rw [if_neg (by rintro (h | h); exacts [hg h, Care.noConfusion h]), if_neg hg]
    exact h0 g _

/-- An unchecked request whose block is used. -/
theorem Sp.smallocBad {n : Int} (hn : 0 < n) {K : Ptr → Al β} {L : List Care} {F : Ptr × Heap → Option (β × Heap)}
    (h0 : ∀ g s, K .null g s = .ub) (h1 : ∀ id, Sp (K (.blk id)) L (fun h => F (.blk id, h))) :
    Sp (Al.smalloc n >>= K) (.fatal :: L) (fun h => (h.smalloc n).bind F) := by
  intro g s b h' hw e
  unfold Heap.smalloc at e
  dsimp only at e
  rw [if_neg (show ¬ n < 0 by omega), if_neg (show ¬ n = 0 by omega), Option.bind_some] at e
  obtain ⟨hw1, H⟩ := h1 s.heap.next g ⟨(s.heap.new .mem n).2, s.asked + 1⟩ b h' (hw.new _ _) e
  refine ⟨hw1, ?_⟩
  rw [firstDenied, Al.bind_eq]
  unfold Al.bind Al.smalloc Al.request
  rw [if_neg (show ¬ n = 0 by omega), if_neg (show ¬ n < 0 by omega)]
  by_cases hg : g s.asked = true
  · rw [if_pos (Or.inl hg), if_pos hg]
    dsimp only at H ⊢
    rw [List.length_cons, show s.asked + (L.length + 1) = s.asked + 1 + L.length by omega]
    exact H
  · rw [if_neg (by rintro (h | h); exacts [hg h, Care.noConfusion h]), if_neg hg]
    exact h0 g _

/-- An unchecked `srealloc` whose block is used. -/
theorem Sp.sreallocBad {n : Int} (hn : 0 < n) (p : Ptr) {K : Ptr → Al β} {L : List Care}
    {F : Ptr × Heap → Option (β × Heap)}
    (h0 : ∀ g s, K .null g s = .ub) (h1 : ∀ id, Sp (K (.blk id)) L (fun h => F (.blk id, h))) :
    Sp (Al.srealloc p n >>= K) (.fatal :: L) (fun h => (h.srealloc p n).bind F) := by
  intro g s b h' hw e
  obtain ⟨⟨q, h2⟩, e1, e2⟩ := Option.bind_eq_some_iff.1 e
  unfold Heap.srealloc at e1
  obtain ⟨h1', e3, e4⟩ := Option.bind_eq_some_iff.1 e1
  unfold Heap.smalloc at e4
  rw [if_neg (show ¬ n < 0 by omega), if_neg (show ¬ n = 0 by omega)] at e4
  obtain ⟨rfl, rfl⟩ := Prod.mk.inj (Option.some.inj e4)
  obtain ⟨hw1, H⟩ := h1 h1'.next g ⟨(h1'.new .mem n).2, s.asked + 1⟩ b h' ((hw.free e3).new _ _) e2
  refine ⟨hw1, ?_⟩
  rw [firstDenied, Al.bind_eq]
  unfold Al.bind
  rw [show Al.srealloc p n = Al.realloc p n from if_neg (show ¬ n = 0 by omega)]
  unfold Al.realloc
  by_cases hg : g s.asked = true
  · rw [if_pos (Or.inl hg), if_pos ⟨hn, hg⟩, e3]
    dsimp only at H ⊢
    rw [List.length_cons, show s.asked + (L.length + 1) = s.asked + 1 + L.length by omega]
    exact H
  · rw [if_neg (by rintro (h | h); exacts [hg h, Care.noConfusion h]), if_neg (fun h => hg h.2)]
    exact h0 g _

/-- An unchecked request whose block is released again without being used. -/
theorem Sp.smallocUnused {n : Int} (hn : 0 < n) {K : Al β} {L : List Care} {F : Heap → Option (β × Heap)}
    (h1 : Sp K L F) :
    Sp (Al.smalloc n >>= fun p => Al.srealloc p 0 >>= fun _ => K) (.unused :: L)
      (fun h => (h.smalloc n).bind fun x => (x.2.srealloc x.1 0).bind fun y => F y.2) := by
  intro g s b h' hw e
  unfold Heap.smalloc Heap.srealloc at e
  dsimp only at e
  rw [if_neg (show ¬ n < 0 by omega), if_neg (show ¬ n = 0 by omega), Option.bind_some] at e
  rw [show (s.heap.new .mem n).1 = .blk s.heap.next from rfl, hw.freeNew n] at e
  have e : F { s.heap with next := s.heap.next + 1 } = some (b, h') := e
  have hw' : ({ s.heap with next := s.heap.next + 1 } : Heap).Named := fun b hb => Nat.lt_succ_of_lt (hw b hb)
  obtain ⟨hw1, H⟩ := h1 g s.denied b h' hw' e
  refine ⟨hw1, ?_⟩
  rw [firstDenied, if_pos (Or.inr rfl), List.length_cons,
    show s.asked + (L.length + 1) = s.asked + 1 + L.length by omega]
  have key : (Al.smalloc n >>= fun p => Al.srealloc p 0 >>= fun _ => K) g s = K g s.denied := by
    rw [Al.bind_eq]
    unfold Al.bind Al.smalloc Al.request
    rw [if_neg (show ¬ n = 0 by omega), if_neg (show ¬ n < 0 by omega)]
    by_cases hg : g s.asked = true
    · rw [if_pos hg]
      show (Al.srealloc (.blk s.heap.next) 0).bind (fun _ => K) g ⟨(s.heap.new .mem n).2, s.asked + 1⟩ = _
      unfold Al.srealloc Al.bind
      rw [if_pos rfl, Al.bind_eq]
      unfold Al.bind Al.sfree
      dsimp only
      rw [hw.freeNew n]
      rfl
    · rw [if_neg hg]
      rfl
  rw [key]
  exact H

theorem Sp.sfree (p : Ptr) : Sp (Al.sfree p) [] (fun h => (h.free (.sfree p)).map fun h => ((), h)) := by
  intro g s a h' hw e
  obtain ⟨h1, e1, e2⟩ := Option.map_eq_some_iff.1 e
  obtain ⟨-, rfl⟩ := Prod.mk.inj e2
  refine ⟨hw.free e1, ?_⟩
  show Al.sfree p g s = _
  unfold Al.sfree
  rw [e1]
  rfl

theorem Sp.onHeap {f : Heap → α × Heap} (hf : ∀ h, h.Named → (f h).2.Named) :
    Sp (Al.onHeap f) [] (fun h => some (f h)) := by
  intro g s a h' hw e
  have e := Option.some.inj e
  refine ⟨by simpa [e] using hf _ hw, ?_⟩
  show Al.onHeap f g s = _
  unfold Al.onHeap
  rw [e]
  rfl

theorem Sp.new (k : Kind) (n : Int) : Sp (Al.new k n) [.reported] (fun h => some (h.new k n)) := by
  intro g s a h' hw e
  have e := Option.some.inj e
  refine ⟨by simpa [e] using hw.new k n, ?_⟩
  simp only [firstDenied]
  unfold Al.new
  by_cases hg : g s.asked = true
  · rw [if_pos (Or.inl hg), if_pos hg, e]
    rfl
  · rw [if_neg (by rintro (h | h); exacts [hg h, Care.noConfusion h]), if_neg hg]
    exact ⟨_, rfl⟩

theorem Al.touch_blk (id : Nat) (n : Int) : Al.touch (.blk id) n = Pure.pure () := by
  funext g s
  unfold Al.touch
  rw [if_neg (fun h => Ptr.noConfusion h.2)]
  rfl

theorem Al.touch_zero (p : Ptr) {n : Int} (hn : n = 0) : Al.touch p n = Pure.pure () := by
  funext g s
  unfold Al.touch
  rw [if_neg (fun h => absurd h.1 (by omega))]
  rfl

theorem Al.touch_null {n : Int} (hn : 0 < n) (K : Unit → Al β) (g : Oracle) (s : AHeap) :
    (Al.touch .null n >>= K) g s = .ub := by
  rw [Al.bind_eq]
  unfold Al.bind Al.touch
  rw [if_pos ⟨hn, rfl⟩]

theorem Al.demand_true {ok : Bool} (h : ok = true) (msg : String) : Al.demand ok msg = Pure.pure () := by
  funext g s
  unfold Al.demand
  rw [h]
  rfl

theorem Al.mallocIf_pos {c : Prop} [Decidable c] (h : c) (p : Ptr) (n : Int) : Al.mallocIf c p n = Al.smalloc n := if_pos h

theorem Al.mallocIf_neg {c : Prop} [Decidable c] (h : ¬ c) (p : Ptr) (n : Int) : Al.mallocIf c p n = Pure.pure p := if_neg h

theorem Heap.mallocIf_pos {c : Prop} [Decidable c] (hc : c) (h : Heap) (p : Ptr) (n : Int) :
    h.mallocIf c p n = h.smalloc n := if_pos hc

theorem Heap.mallocIf_neg {c : Prop} [Decidable c] (hc : ¬ c) (h : Heap) (p : Ptr) (n : Int) :
    h.mallocIf c p n = some (p, h) := if_neg hc

end FftMpi
