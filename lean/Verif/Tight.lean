import Verif.RemapFacts

/-!
# What an execution needs of the buffers

If a rank gets to the end of its program, then every location of the send and receive buffer that one of its
instructions touches was accessible at the start: no instruction makes a location accessible that was not.
-/

namespace FftMpi

variable {α : Type}

/-- Local code that makes no location of the buffers accessible. -/
def LTame (g : LMem α → Option (LMem α)) : Prop :=
  ∀ s s', g s = some s' → (∀ x, (s'.sb x).isSome → (s.sb x).isSome) ∧ ∀ x, (s'.rb x).isSome → (s.rb x).isSome

def ITame : Instr α → Prop
  | .loc g => LTame g
  | .waitany _ unp => ∀ i, LTame (unp i)
  | _ => True

/-- The instruction touches location `x` of the send buffer. -/
def NeedsS : Instr α → Int → Prop
  | .loc g, x => ∀ s s', g s = some s' → (s.sb x).isSome
  | .send _ size, x => 0 ≤ x ∧ x < size
  | .post _ _ _ off cnt, x => off ≤ x ∧ x < off + cnt
  | _, _ => False

/-- The instruction touches location `x` of the receive buffer. -/
def NeedsR : Instr α → Int → Prop
  | .loc g, x => ∀ s s', g s = some s' → (s.rb x).isSome
  | .irecv _ _ off cnt, x => off ≤ x ∧ x < off + cnt
  | .take _ _ _ off cnt, x => off ≤ x ∧ x < off + cnt
  | _, _ => False

/-- The buffers of a rank lie inside those of `m`, counting what active receives own. -/
structure Inside (m : LMem α) (st : RankSt α) : Prop where
  sb : ∀ x, (st.mem.sb x).isSome → (m.sb x).isSome
  rb : ∀ x, (st.mem.rb x).isSome → (m.rb x).isSome
  req : ∀ q ∈ st.reqs, ∀ x, q.loc ≤ x → x < q.loc + q.size → (m.rb x).isSome

theorem readN_some {m : Mem α} {off : Int} {k : Nat} {v : List α} (h : readN m off k = some v) :
    accessible m off k := by
  induction k generalizing off v with
  | zero => intro a h1 h2; omega
  | succ k ih =>
    simp only [readN, Option.bind_eq_some_iff, Option.map_eq_some_iff] at h
    obtain ⟨y, hy, w, hw, _⟩ := h
    intro a h1 h2
    by_cases ha : a = off
    · rw [ha, hy]; rfl
    · exact ih hw a (by omega) (by push_cast at h2; omega)

theorem readBlk_some {m : Mem α} {off cnt : Int} {v : List α} (h : readBlk m off cnt = some v) :
    accessible m off cnt := by
  unfold readBlk at h
  split at h
  · cases h
  · intro a h1 h2
    exact readN_some h a h1 (by omega)

theorem storeBlk_inside {m : Mem α} {off : Int} {v : List α} {x : Int} (h : (storeBlk m off v x).isSome) :
    (m x).isSome ∨ (off ≤ x ∧ x < off + v.length) := by
  unfold storeBlk at h
  split at h
  · right; assumption
  · left; exact h

theorem hideBlk_isSome {m : Mem α} {off cnt x : Int} (h : (hideBlk m off cnt x).isSome) : (m x).isSome := by
  unfold hideBlk at h
  split at h
  · cases h
  · exact h

/-- The state of the rank after its action. -/
def Action.Next : Action α → RankSt α → Prop
  | .tau st, t => t = st
  | .push _ _ _ st, t => t = st
  | .sync _ st, t => t = st
  | .pop _ _ k, t => ∃ v, k v = some t

theorem step_next {e : Bool} {c c' : Config α} {r ch : Nat} (h : step e c r ch = some c') :
    (∀ s, s ≠ r → c'.rank s = c.rank s) ∧ ∃ a, act (c.rank r) ch = some a ∧ a.Next (c'.rank r) := by
  unfold step at h
  split at h
  · cases h
  · rename_i st ha
    injection h with h
    subst h
    exact ⟨fun s hs => by simp [Function.update_of_ne hs], _, ha, by simp [Action.Next]⟩
  · rename_i cm dst v st ha
    injection h with h
    subst h
    exact ⟨fun s hs => by simp [Function.update_of_ne hs], _, ha, by simp [Action.Next]⟩
  · rename_i cm src k ha
    split at h
    · cases h
    · rename_i v vs _
      rw [Option.map_eq_some_iff] at h
      obtain ⟨st, hk, h⟩ := h
      subst h
      exact ⟨fun s hs => by simp [Function.update_of_ne hs], _, ha, v, by simpa using hk⟩
  · rename_i dst st ha
    split at h
    · injection h with h
      subst h
      exact ⟨fun s hs => by simp [Function.update_of_ne hs], _, ha, by simp [Action.Next]⟩
    · cases h

theorem finish_tame {unp : Nat → LMem α → Option (LMem α)} (hu : ∀ i, LTame (unp i)) {q : Req} {v : List α}
    {s s' : LMem α} (h : finish unp q v s = some s') :
    (∀ x, (s'.sb x).isSome → (s.sb x).isSome) ∧
    ∀ x, (s'.rb x).isSome → (s.rb x).isSome ∨ (q.loc ≤ x ∧ x < q.loc + q.size) := by
  unfold finish at h
  split at h
  · rename_i hl
    obtain ⟨h1, h2⟩ := hu _ _ _ h
    refine ⟨h1, fun x hx => ?_⟩
    rw [← hl]
    exact storeBlk_inside (h2 x hx)
  · cases h

/-- An action keeps the invariant, and the instruction that is left behind had what it needs. -/
theorem act_inside {m : LMem α} {st t : RankSt α} {ch : Nat} {a : Action α} (hi : Inside m st)
    (ht : ∀ i ∈ st.prog, ITame i) (ha : act st ch = some a) (hn : a.Next t) :
    Inside m t ∧ (∀ i ∈ t.prog, ITame i) ∧ ∀ i ∈ st.prog, i ∈ t.prog ∨
      ∀ x, (NeedsS i x → (m.sb x).isSome) ∧ (NeedsR i x → (m.rb x).isSome) := by
  unfold act at ha
  split at ha
  · injection ha with ha
    subst ha
    rw [show t = _ from hn]
    exact ⟨⟨hi.sb, hi.rb, hi.req⟩, ht, fun i h => Or.inl h⟩
  split at ha
  · cases ha
  · rename_i id src loc size rest hp
    split at ha
    · rename_i hc
      injection ha with ha
      subst ha
      rw [show t = _ from hn]
      have hacc : ∀ x, loc ≤ x → x < loc + size → (m.rb x).isSome := fun x h1 h2 => hi.rb x (hc.2.1 x h1 h2)
      refine ⟨⟨hi.sb, fun x hx => hi.rb x (hideBlk_isSome hx), ?_⟩, fun i h => ht i (by rw [hp]; exact List.mem_cons_of_mem _ h), ?_⟩
      · intro q hq x h1 h2
        rcases List.mem_append.mp hq with hq | hq
        · exact hi.req q hq x h1 h2
        · rw [List.mem_singleton] at hq
          subst hq
          exact hacc x h1 h2
      · intro i h
        rw [hp] at h
        rcases List.mem_cons.mp h with rfl | h
        · exact Or.inr fun x => ⟨fun h => h.elim, fun h => hacc x h.1 h.2⟩
        · exact Or.inl h
    · cases ha
  · rename_i dst size rest hp
    rw [Option.map_eq_some_iff] at ha
    obtain ⟨v, hv, ha⟩ := ha
    subst ha
    rw [show t = _ from hn]
    refine ⟨⟨hi.sb, hi.rb, hi.req⟩, fun i h => ht i (by rw [hp]; exact List.mem_cons_of_mem _ h), ?_⟩
    intro i h
    rw [hp] at h
    rcases List.mem_cons.mp h with rfl | h
    · exact Or.inr fun x => ⟨fun h => hi.sb x (readBlk_some hv x h.1 (by have := h.2; omega)), fun h => h.elim⟩
    · exact Or.inl h
  · rename_i g rest hp
    rw [Option.map_eq_some_iff] at ha
    obtain ⟨s, hs, ha⟩ := ha
    subst ha
    rw [show t = _ from hn]
    have hg : LTame g := ht (.loc g) (by rw [hp]; simp)
    obtain ⟨h1, h2⟩ := hg _ _ hs
    refine ⟨⟨fun x hx => hi.sb x (h1 x hx), fun x hx => hi.rb x (h2 x hx), hi.req⟩,
      fun i h => ht i (by rw [hp]; exact List.mem_cons_of_mem _ h), ?_⟩
    intro i h
    rw [hp] at h
    rcases List.mem_cons.mp h with rfl | h
    · exact Or.inr fun x => ⟨fun h => hi.sb x (h _ _ hs), fun h => hi.rb x (h _ _ hs)⟩
    · exact Or.inl h
  · rename_i unp rest hp
    injection ha with ha
    subst ha
    rw [show t = _ from hn]
    refine ⟨⟨hi.sb, hi.rb, hi.req⟩, fun i h => ht i (by rw [hp]; exact List.mem_cons_of_mem _ h), ?_⟩
    intro i h
    rw [hp] at h
    rcases List.mem_cons.mp h with rfl | h
    · exact Or.inr fun x => ⟨fun h => h.elim, fun h => h.elim⟩
    · exact Or.inl h
  · rename_i n unp rest hp
    rw [Option.map_eq_some_iff] at ha
    obtain ⟨q, hq, ha⟩ := ha
    subst ha
    obtain ⟨v, hv⟩ := hn
    rw [Option.map_eq_some_iff] at hv
    obtain ⟨s, hs, hv⟩ := hv
    subst hv
    have hg : ∀ i, LTame (unp i) := ht (.waitany (n + 1) unp) (by rw [hp]; simp)
    obtain ⟨h1, h2⟩ := finish_tame hg hs
    have hqm := List.mem_of_find?_eq_some hq
    refine ⟨⟨fun x hx => hi.sb x (h1 x hx), ?_, fun q' hq' => hi.req q' (List.mem_of_mem_filter hq')⟩, ?_, ?_⟩
    · intro x hx
      rcases h2 x hx with h | h
      · exact hi.rb x h
      · exact hi.req q hqm x h.1 h.2
    · intro i h
      rcases List.mem_cons.mp h with rfl | h
      · exact hg
      · exact ht i (by rw [hp]; exact List.mem_cons_of_mem _ h)
    · intro i h
      rw [hp] at h
      rcases List.mem_cons.mp h with rfl | h
      · exact Or.inr fun x => ⟨fun h => h.elim, fun h => h.elim⟩
      · exact Or.inl (List.mem_cons_of_mem _ h)
  · rename_i inst group dst off cnt rest hp
    rw [Option.map_eq_some_iff] at ha
    obtain ⟨v, hv, ha⟩ := ha
    subst ha
    rw [show t = _ from hn]
    refine ⟨⟨hi.sb, hi.rb, hi.req⟩, fun i h => ht i (by rw [hp]; exact List.mem_cons_of_mem _ h), ?_⟩
    intro i h
    rw [hp] at h
    rcases List.mem_cons.mp h with rfl | h
    · exact Or.inr fun x => ⟨fun h => hi.sb x (readBlk_some hv x h.1 h.2), fun h => h.elim⟩
    · exact Or.inl h
  · rename_i inst group src off cnt rest hp
    injection ha with ha
    subst ha
    obtain ⟨v, hv⟩ := hn
    dsimp only at hv
    split at hv
    · rename_i hc
      injection hv with hv
      subst hv
      refine ⟨⟨hi.sb, ?_, hi.req⟩, fun i h => ht i (by rw [hp]; exact List.mem_cons_of_mem _ h), ?_⟩
      · intro x hx
        rcases storeBlk_inside hx with h | h
        · exact hi.rb x h
        · exact hi.rb x (hc.2 x h.1 (by have := h.2; have := hc.1; omega))
      · intro i h
        rw [hp] at h
        rcases List.mem_cons.mp h with rfl | h
        · exact Or.inr fun x => ⟨fun h => h.elim, fun h => hi.rb x (hc.2 x h.1 h.2)⟩
        · exact Or.inl h
    · cases hv

/-- A rank that gets to the end of its program had all that its instructions need. -/
theorem run_needs {e : Bool} {n : Nat} {c c' : Config α} (h : Run e n c c') {r : Nat} {m : LMem α}
    (hi : Inside m (c.rank r)) (ht : ∀ i ∈ (c.rank r).prog, ITame i) (hend : (c'.rank r).prog = []) :
    ∀ i ∈ (c.rank r).prog, ∀ x, (NeedsS i x → (m.sb x).isSome) ∧ (NeedsR i x → (m.rb x).isSome) := by
  induction h with
  | refl => intro i h; rw [hend] at h; cases h
  | step s ch hs _ ih =>
    obtain ⟨h1, a, ha, hn⟩ := step_next hs
    by_cases hr : r = s
    · subst hr
      obtain ⟨k1, k2, k3⟩ := act_inside hi ht ha hn
      intro i h
      rcases k3 i h with h | h
      · exact ih k1 k2 hend i h
      · exact h
    · have he := h1 r hr
      intro i h
      rw [← he] at h hi ht
      exact ih hi ht hend i h

/-- The locations that an execution which comes to an end needs, were there at the start. -/
theorem Terminates.needs {e : Bool} {P : Nat} {prog : Nat → List (Instr α)} {m m' : Nat → LMem α}
    (h : Terminates e P prog m m') {r : Nat} (hr : r < P) (ht : ∀ i ∈ prog r, ITame i) :
    ∀ i ∈ prog r, ∀ x, (NeedsS i x → ((m r).sb x).isSome) ∧ (NeedsR i x → ((m r).rb x).isSome) := by
  obtain ⟨n, hn⟩ := h.bounded
  obtain ⟨_, hrun⟩ := hn 0 _ (.refl _)
  have hp : ((initCfg P prog m).rank r) = ⟨prog r, m r, [], none⟩ := by simp [initCfg, hr]
  have := run_needs (m := m r) hrun (r := r) (by rw [hp]; exact ⟨fun _ h => h, fun _ h => h, by simp⟩)
    (by rw [hp]; exact ht) (finalCfg_final P m m' r).1
  rw [hp] at this
  exact this

end FftMpi
