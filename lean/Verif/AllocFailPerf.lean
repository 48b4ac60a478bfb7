import Verif.AllocFailFft
import Verif.KissFactor

/-!
Failing requests for memory in the 1d FFTs: lemmas.
-/

namespace FftMpi

/-- `k` names used up, nothing kept. -/
def nothingKept (k : Nat) (h : Heap) : Option (Unit × Heap) := some ((), { h with next := h.next + k })

/-- Number of temporary arrays of `kf_work`. -/
def workReqs : List (Nat × Nat) → Nat
  | [] => 0
  | (p, m) :: rest => (if m = 1 then 0 else p * workReqs rest) + if p = 2 ∨ p = 3 ∨ p = 4 ∨ p = 5 then 0 else 1

theorem Heap.Named.freeLater {h : Heap} (hh : h.Named) (n : Int) (m : Nat) :
    ({ (h.new .mem n).2 with next := m } : Heap).free (.sfree (.blk h.next)) = some { h with next := m } := by
  unfold Heap.free Heap.new Free.ptr
  simp only [List.find?_cons, decide_true, Free.fits, if_true, List.filter_cons, ne_eq, not_true_eq_false,
    decide_false, Bool.false_eq_true, if_false]
  congr 2
  refine List.filter_eq_self.2 fun b hb => ?_
  have := hh b hb
  simp only [decide_eq_true_eq]
  omega

theorem Sp.none {m : Al Unit} (h : m = Pure.pure ()) : Sp m (List.replicate 0 .fatal) (nothingKept 0) := by
  rw [h]
  exact Sp.pure ()

theorem Sp.append {m m' : Al Unit} {k k' : Nat} (h : Sp m (List.replicate k .fatal) (nothingKept k))
    (h' : Sp m' (List.replicate k' .fatal) (nothingKept k')) :
    Sp (m >>= fun _ => m') (List.replicate (k + k') .fatal) (nothingKept (k + k')) := by
  rw [List.replicate_add]
  refine (h.bind fun _ => h').congr fun h => ?_
  unfold nothingKept
  simp only [Option.bind_some, Nat.add_assoc]

theorem timesA_sp {m : Al Unit} {k : Nat} (h : Sp m (List.replicate k .fatal) (nothingKept k)) : ∀ n : Nat,
    Sp (timesA n m) (List.replicate (n * k) .fatal) (nothingKept (n * k))
  | 0 => by
    rw [Nat.zero_mul]
    exact Sp.none (by unfold timesA; rfl)
  | n + 1 => by
    rw [Nat.succ_mul, Nat.add_comm (n * k)]
    unfold timesA
    exact h.append (timesA_sp h n)

theorem tempA_sp {b : Int} (hb : 0 < b) {m : Al Unit} {k : Nat}
    (h : Sp m (List.replicate k .fatal) (nothingKept k)) :
    Sp (tempA b m) (List.replicate (k + 1) .fatal) (nothingKept (k + 1)) := by
  intro g s a h' hw e
  obtain ⟨rfl⟩ := e
  have hw' : ({ s.heap with next := s.heap.next + (k + 1) } : Heap).Named := fun x hx => by
    have := hw x hx
    show x.id < s.heap.next + (k + 1)
    omega
  refine ⟨hw', ?_⟩
  rw [List.replicate_succ, firstDenied]
  by_cases hg : g s.asked = true
  · rw [if_pos (Or.inl hg)]
    obtain ⟨hw2, H⟩ := h g ⟨(s.heap.new .mem b).2, s.asked + 1⟩ () { (s.heap.new .mem b).2 with next := s.heap.next + 1 + k }
      (hw.new _ _) rfl
    rw [List.length_replicate] at H
    rw [List.length_cons, List.length_replicate]
    have key : tempA b m g s =
        Al.bind m (fun _ => Al.sfree (Ptr.blk s.heap.next)) g ⟨(s.heap.new .mem b).2, s.asked + 1⟩ := by
      unfold tempA
      rw [Al.bind_eq, bind_ok (show Al.request .mem b g s = .ok (.blk s.heap.next, ⟨(s.heap.new .mem b).2, s.asked + 1⟩)
        from by unfold Al.request; rw [if_pos hg]; rfl), Al.touch_blk]
      rfl
    rw [key]
    cases hd : firstDenied g (s.asked + 1) (List.replicate k Care.fatal) with
    | none =>
      rw [hd] at H
      dsimp only at H ⊢
      rw [bind_ok H]
      unfold Al.sfree
      rw [hw.freeLater]
      dsimp only
      rw [show s.heap.next + 1 + k = s.heap.next + (k + 1) by omega, show s.asked + 1 + k = s.asked + (k + 1) by omega]
    | some c =>
      rw [hd] at H
      cases c
      · dsimp only at H ⊢
        exact bind_stop H
      · dsimp only at H ⊢
        unfold Al.bind
        rw [H]
      · dsimp only at H ⊢
        exact bind_stop H
  · rw [if_neg (by simp [hg])]
    show tempA b m g s = .ub
    unfold tempA
    rw [Al.bind_eq, bind_ok (show Al.request .mem b g s = .ok (.null, s.denied)
      from by unfold Al.request; rw [if_neg hg])]
    exact Al.touch_null hb _ _ _

theorem FacChain.dvd : ∀ {l : List (Nat × Nat)} {n : Nat}, FacChain n l → ∀ e ∈ l, e.1 * e.2 ∣ n
  | [], _, h => absurd h (by simp [FacChain])
  | (p, m) :: rest, n, h => by
    obtain ⟨h1, h2, h3, h4⟩ := h
    intro e he
    rcases List.mem_cons.1 he with rfl | he
    · exact ⟨1, by rw [h3, Nat.mul_one]⟩
    · by_cases hm : m = 1
      · rw [if_pos hm] at h4
        rw [h4] at he
        exact absurd he (by simp)
      · rw [if_neg hm] at h4
        exact (FacChain.dvd h4 e he).trans ⟨p, by rw [← h3, Nat.mul_comm]⟩

theorem workA_sp {c : Int} (hc : 0 < c) : ∀ {l : List (Nat × Nat)} {n : Nat}, FacChain n l →
    Sp (workA c l) (List.replicate (workReqs l) .fatal) (nothingKept (workReqs l))
  | [], _, h => absurd h (by simp [FacChain])
  | (p, m) :: rest, n, h => by
    obtain ⟨h1, h2, h3, h4⟩ := h
    unfold workA workReqs
    refine Sp.append ?_ ?_
    · by_cases hm : m = 1
      · rw [if_pos hm, if_pos hm]
        exact Sp.none rfl
      · rw [if_neg hm, if_neg hm]
        rw [if_neg hm] at h4
        exact timesA_sp (workA_sp hc h4) p
    · by_cases hp : p = 2 ∨ p = 3 ∨ p = 4 ∨ p = 5
      · rw [if_pos hp, if_pos hp]
        exact Sp.none rfl
      · rw [if_neg hp, if_neg hp]
        exact tempA_sp (mul_pos (by exact_mod_cast h1) hc) (Sp.none rfl)

/-- The sum over the stages: a stage with factor `p` and rest `m` works on `n / (p * m)` pieces. -/
theorem workReqs_eq : ∀ {l : List (Nat × Nat)} {n : Nat}, FacChain n l → workReqs l =
    (l.map fun e => if e.1 = 2 ∨ e.1 = 3 ∨ e.1 = 4 ∨ e.1 = 5 then 0 else n / (e.1 * e.2)).sum
  | [], _, h => absurd h (by simp [FacChain])
  | (p, m) :: rest, n, h => by
    obtain ⟨h1, h2, h3, h4⟩ := h
    have hn : 0 < n := by rw [← h3]; positivity
    unfold workReqs
    rw [List.map_cons, List.sum_cons, Nat.add_comm]
    congr 1
    · dsimp only
      rw [h3, Nat.div_self hn]
    · by_cases hm : m = 1
      · rw [if_pos hm] at h4 ⊢
        rw [h4]
        rfl
      · rw [if_neg hm] at h4 ⊢
        rw [workReqs_eq h4, ← List.sum_map_mul_left]
        congr 1
        refine List.map_congr_left fun e he => ?_
        split_ifs
        · rfl
        · rw [← h3, Nat.mul_div_assoc _ (FacChain.dvd h4 e he)]

theorem performA_sp {c : Int} (hc : 0 < c) {n : Nat} (hn : 1 ≤ n) {l : List (Nat × Nat)} (hl : FacChain n l)
    {plan : Ptr} (hp : plan ≠ .null) (lines : Nat) :
    Sp (performA plan c n l lines) (List.replicate (lines * (workReqs l + 1)) .fatal)
      (nothingKept (lines * (workReqs l + 1))) := by
  unfold performA
  refine timesA_sp ?_ lines
  unfold kissInPlaceA
  refine Sp.quiet ?_ (tempA_sp (mul_pos (by exact_mod_cast hn) hc) (workA_sp hc hl))
  funext g s
  unfold Al.touch
  rw [if_neg (fun h => hp h.2)]
  rfl

theorem performA_null {c : Int} {n : Nat} {l : List (Nat × Nat)} {lines : Nat} (h : lines ≠ 0) (g : Oracle) (s : AHeap) :
    performA .null c n l lines g s = .ub := by
  obtain ⟨k, rfl⟩ := Nat.exists_eq_succ_of_ne_zero h
  rfl

end FftMpi
