import Verif.RemapCore
import Mathlib.Logic.Relation
import Mathlib.Data.List.Perm.Subperm

/-!
# The closure loop computes connected components
-/

namespace FftMpi

open Relation

/-- The invariant of the closure: flags and list agree, no duplicates, only ranks satisfying `R`. -/
structure GrpSt.Good (R : Nat → Prop) (s : GrpSt) : Prop where
  flag : ∀ j, s.pflag j = true ↔ j ∈ s.pgroup
  nodup : s.pgroup.Nodup
  sound : ∀ j ∈ s.pgroup, R j

theorem GrpSt.Good.add {R : Nat → Prop} {s : GrpSt} (h : s.Good R) {p : Nat}
    (hp : s.pflag p = false) (hR : R p) : (s.add p).Good R where
  flag := by
    intro j
    simp only [GrpSt.add, List.mem_append, List.mem_singleton]
    by_cases hj : j = p
    · subst hj; simp
    · rw [Function.update_of_ne hj, h.flag]; simp [hj]
  nodup := by
    simp only [GrpSt.add]
    refine List.nodup_append.mpr ⟨h.nodup, by simp, ?_⟩
    intro a ha b hb
    simp only [List.mem_singleton] at hb
    subst hb
    rintro rfl
    have := (h.flag a).mpr ha
    simp [hp] at this
  sound := by
    intro j hj
    simp only [GrpSt.add, List.mem_append, List.mem_singleton] at hj
    rcases hj with hj | rfl
    · exact h.sound j hj
    · exact hR

/-- A fold that adds all candidates satisfying `q`. -/
theorem foldl_add {R : Nat → Prop} (q : Nat → Prop) [DecidablePred q] (f : GrpSt → Nat → GrpSt)
    (hf : ∀ s j, f s j = if s.pflag j then s else if q j then s.add j else s)
    (hR : ∀ j, q j → R j) (l : List Nat) (s : GrpSt) (hs : s.Good R) :
    (l.foldl f s).Good R ∧
    (∀ j ∈ l, q j → j ∈ (l.foldl f s).pgroup) ∧
    (∃ e, (l.foldl f s).pgroup = s.pgroup ++ e ∧ (∀ j ∈ e, j ∈ l ∧ q j) ∧
      ((l.foldl f s).active = true ↔ s.active = true ∨ e ≠ [])) := by
  induction l generalizing s with
  | nil => exact ⟨hs, by simp, [], by simp⟩
  | cons x l ih =>
    simp only [List.foldl_cons]
    rw [hf]
    by_cases h1 : s.pflag x = true
    · rw [if_pos h1]
      obtain ⟨i1, i2, e, i3, i4, i5⟩ := ih s hs
      refine ⟨i1, ?_, e, i3, fun j hj => ⟨by simp [(i4 j hj).1], (i4 j hj).2⟩, i5⟩
      intro j hj hq
      rcases List.mem_cons.mp hj with rfl | hj
      · rw [i3]; simp [(hs.flag j).mp h1]
      · exact i2 j hj hq
    · rw [if_neg h1]
      by_cases h2 : q x
      · rw [if_pos h2]
        obtain ⟨i1, i2, e, i3, i4, i5⟩ := ih (s.add x) (hs.add (by simpa using h1) (hR x h2))
        refine ⟨i1, ?_, x :: e, ?_, ?_, ?_⟩
        · intro j hj hq
          rcases List.mem_cons.mp hj with rfl | hj
          · rw [i3]; simp [GrpSt.add]
          · exact i2 j hj hq
        · rw [i3]; simp [GrpSt.add]
        · intro j hj
          rcases List.mem_cons.mp hj with rfl | hj
          · exact ⟨by simp, h2⟩
          · exact ⟨by simp [(i4 j hj).1], (i4 j hj).2⟩
        · rw [i5]; simp [GrpSt.add]
      · rw [if_neg h2]
        obtain ⟨i1, i2, e, i3, i4, i5⟩ := ih s hs
        refine ⟨i1, ?_, e, i3, fun j hj => ⟨by simp [(i4 j hj).1], (i4 j hj).2⟩, i5⟩
        intro j hj hq
        rcases List.mem_cons.mp hj with rfl | hj
        · exact absurd hq h2
        · exact i2 j hj hq

/-- Adjacency of ranks below `P`. -/
def AdjP (io oi : Nat → Nat → Bool) (P : Nat) (i j : Nat) : Prop :=
  i < P ∧ j < P ∧ (io i j = true ∨ oi i j = true)

instance (io oi : Nat → Nat → Bool) (P i : Nat) : DecidablePred (AdjP io oi P i) := fun _ => by
  unfold AdjP; infer_instance

theorem scanProcs_spec (io oi : Nat → Nat → Bool) (P i : Nat) (R : Nat → Prop)
    (hR : ∀ j, AdjP io oi P i j → R j) (hi : i < P) (s : GrpSt) (hs : s.Good R) :
    (scanProcs io oi P i s).Good R ∧
    (∀ j, AdjP io oi P i j → j ∈ (scanProcs io oi P i s).pgroup) ∧
    (∃ e, (scanProcs io oi P i s).pgroup = s.pgroup ++ e ∧
      ((scanProcs io oi P i s).active = true ↔ s.active = true ∨ e ≠ [])) := by
  have hcongr : scanProcs io oi P i s = (List.range P).foldl (fun s j =>
      if s.pflag j then s else if AdjP io oi P i j then s.add j else s) s := by
    unfold scanProcs
    apply List.foldl_ext
    intro s j hj
    rw [List.mem_range] at hj
    simp only [AdjP, hi, hj, true_and]
    by_cases h1 : io i j = true <;> by_cases h2 : oi i j = true <;> simp [h1, h2]
  rw [hcongr]
  obtain ⟨h1, h2, e, h3, _, h5⟩ := foldl_add (AdjP io oi P i) (fun s j =>
      if s.pflag j then s else if AdjP io oi P i j then s.add j else s) (fun _ _ => rfl) hR
      (List.range P) s hs
  exact ⟨h1, fun j hj => h2 j (List.mem_range.mpr hj.2.1) hj, e, h3, h5⟩

theorem groupPass_spec (io oi : Nat → Nat → Bool) (P : Nat) (R : Nat → Prop)
    (hR : ∀ i j, R i → AdjP io oi P i j → R j) (hlt : ∀ i, R i → i < P) (s : GrpSt)
    (hs : s.Good R) :
    (groupPass io oi P s).Good R ∧
    (∀ i ∈ s.pgroup, ∀ j, AdjP io oi P i j → j ∈ (groupPass io oi P s).pgroup) ∧
    (∃ e, (groupPass io oi P s).pgroup = s.pgroup ++ e ∧
      ((groupPass io oi P s).active = true ↔ e ≠ [])) := by
  have key : ∀ (l : List Nat) (t : GrpSt), (∀ i ∈ l, R i) → t.Good R →
      (l.foldl (fun t i => scanProcs io oi P i t) t).Good R ∧
      (∀ i ∈ l, ∀ j, AdjP io oi P i j → j ∈ (l.foldl (fun t i => scanProcs io oi P i t) t).pgroup) ∧
      (∃ e, (l.foldl (fun t i => scanProcs io oi P i t) t).pgroup = t.pgroup ++ e ∧
        ((l.foldl (fun t i => scanProcs io oi P i t) t).active = true ↔ t.active = true ∨ e ≠ [])) := by
    intro l
    induction l with
    | nil => intro t _ ht; exact ⟨ht, by simp, [], by simp⟩
    | cons x l ih =>
      intro t hl ht
      simp only [List.foldl_cons]
      have hx := hl x (by simp)
      obtain ⟨a1, a2, e1, a3, a4⟩ := scanProcs_spec io oi P x R (fun j hj => hR x j hx hj) (hlt x hx) t ht
      obtain ⟨b1, b2, e2, b3, b4⟩ := ih _ (fun i hi => hl i (by simp [hi])) a1
      refine ⟨b1, ?_, e1 ++ e2, by rw [b3, a3, List.append_assoc], ?_⟩
      · intro i hi j hj
        rcases List.mem_cons.mp hi with rfl | hi
        · rw [b3]; simp [a2 j hj]
        · exact b2 i hi j hj
      · rw [b4, a4]
        simp only [ne_eq, List.append_eq_nil_iff]
        tauto
  have h0 : ({ s with active := false } : GrpSt).Good R := ⟨hs.flag, hs.nodup, hs.sound⟩
  obtain ⟨b1, b2, e2, b3, b4⟩ := key s.pgroup { s with active := false } hs.sound h0
  exact ⟨b1, b2, e2, b3, by rw [groupPass, b4]; simp⟩

theorem nodup_lt_length {l : List Nat} {P : Nat} (h : l.Nodup) (hl : ∀ j ∈ l, j < P) :
    l.length ≤ P := by
  have : l ⊆ List.range P := fun j hj => List.mem_range.mpr (hl j hj)
  simpa using (List.Nodup.subperm h this).length_le

theorem groupLoop_spec (io oi : Nat → Nat → Bool) (P : Nat) (R : Nat → Prop)
    (hR : ∀ i j, R i → AdjP io oi P i j → R j) (hlt : ∀ i, R i → i < P) (fuel : Nat) (s : GrpSt)
    (hs : s.Good R) (hf : P < s.pgroup.length + fuel) :
    ∃ t, groupLoop io oi P fuel s = some t ∧ t.Good R ∧ (∀ j ∈ s.pgroup, j ∈ t.pgroup) ∧
      (∀ i ∈ t.pgroup, ∀ j, AdjP io oi P i j → j ∈ t.pgroup) := by
  induction fuel generalizing s with
  | zero =>
    have := nodup_lt_length hs.nodup (fun j hj => hlt j (hs.sound j hj))
    omega
  | succ fuel ih =>
    obtain ⟨a1, a2, e, a3, a4⟩ := groupPass_spec io oi P R hR hlt s hs
    simp only [groupLoop]
    by_cases ha : (groupPass io oi P s).active = true
    · rw [if_pos ha]
      have he := a4.mp ha
      have hl : (groupPass io oi P s).pgroup.length = s.pgroup.length + e.length := by
        rw [a3, List.length_append]
      have : 0 < e.length := List.length_pos_iff.mpr he
      obtain ⟨t, t1, t2, t3, t4⟩ := ih (groupPass io oi P s) a1 (by omega)
      exact ⟨t, t1, t2, fun j hj => t3 j (by rw [a3]; simp [hj]), t4⟩
    · rw [if_neg ha]
      have he : e = [] := by by_contra h; exact ha (a4.mpr h)
      subst he
      simp only [List.append_nil] at a3
      refine ⟨_, rfl, a1, fun j hj => by rw [a3]; exact hj, ?_⟩
      intro i hi
      rw [a3] at hi
      exact a2 i hi

theorem addProcs_spec (R : Nat → Prop) (ps : List Nat) (hps : ∀ p ∈ ps, R p) (s : GrpSt)
    (hs : s.Good R) : (addProcs ps s).Good R ∧ (∀ p ∈ ps, p ∈ (addProcs ps s).pgroup) ∧
      (∀ p ∈ s.pgroup, p ∈ (addProcs ps s).pgroup) := by
  induction ps generalizing s with
  | nil => exact ⟨hs, by simp, by simp [addProcs]⟩
  | cons x l ih =>
    by_cases h : s.pflag x = true
    · have e : addProcs (x :: l) s = addProcs l s := by simp [addProcs, h]
      rw [e]
      obtain ⟨a1, a2, a3⟩ := ih (fun p hp => hps p (by simp [hp])) s hs
      refine ⟨a1, ?_, a3⟩
      intro p hp
      rcases List.mem_cons.mp hp with rfl | hp
      · exact a3 p ((hs.flag p).mp h)
      · exact a2 p hp
    · have e : addProcs (x :: l) s = addProcs l (s.add x) := by simp [addProcs, h]
      rw [e]
      obtain ⟨a1, a2, a3⟩ := ih (fun p hp => hps p (by simp [hp])) (s.add x)
        (hs.add (by simpa using h) (hps x (by simp)))
      refine ⟨a1, ?_, fun p hp => a3 p (by simp [GrpSt.add, hp])⟩
      intro p hp
      rcases List.mem_cons.mp hp with rfl | hp
      · exact a3 p (by simp [GrpSt.add])
      · exact a2 p hp

/-- The closure terminates; its flags and its list are the ranks reachable from `me` by at least
one overlap. -/
theorem groupClosure_spec (io oi : Nat → Nat → Bool) (P me : Nat) (sendp recvp : List Nat)
    (hs : ∀ p, p ∈ sendp ∨ p ∈ recvp ↔ AdjP io oi P me p) :
    ∃ t, groupClosure io oi P sendp recvp = some t ∧ t.pgroup.Nodup ∧
      (∀ j, t.pflag j = true ↔ j ∈ t.pgroup) ∧
      (∀ j, j ∈ t.pgroup ↔ TransGen (AdjP io oi P) me j) ∧ t.pgroup.length ≤ P := by
  let R : Nat → Prop := fun j => TransGen (AdjP io oi P) me j
  have hR : ∀ i j, R i → AdjP io oi P i j → R j := fun i j h1 h2 => h1.tail h2
  have hlt : ∀ i, R i → i < P := by
    intro i h
    cases h with
    | single h => exact h.2.1
    | tail _ h => exact h.2.1
  have g0 : ({ pflag := fun _ => false, pgroup := [], active := false } : GrpSt).Good R :=
    ⟨by simp, by simp, by simp⟩
  obtain ⟨a1, a2, _⟩ := addProcs_spec R sendp (fun p hp => .single ((hs p).mp (Or.inl hp))) _ g0
  obtain ⟨b1, b2, b3⟩ := addProcs_spec R recvp (fun p hp => .single ((hs p).mp (Or.inr hp))) _ a1
  obtain ⟨t, t1, t2, t3, t4⟩ := groupLoop_spec io oi P R hR hlt (P+1) _ b1 (by omega)
  refine ⟨t, t1, t2.nodup, t2.flag, ?_, nodup_lt_length t2.nodup fun j hj => hlt j (t2.sound j hj)⟩
  intro j
  refine ⟨fun hj => t2.sound j hj, fun hj => ?_⟩
  induction hj with
  | single h =>
    rcases (hs _).mpr h with hp | hp
    · exact t3 _ (b3 _ (a2 _ hp))
    · exact t3 _ (b2 _ hp)
  | tail _ h ih => exact t4 _ ih _ h

theorem transGen_symm {R : Nat → Nat → Prop} (hsymm : ∀ i j, R i j → R j i) {a b : Nat}
    (h : TransGen R a b) : TransGen R b a := by
  induction h with
  | single h => exact .single (hsymm _ _ h)
  | tail _ h ih => exact TransGen.head (hsymm _ _ h) ih

end FftMpi
