import Verif.Machine

/-!
# Confluence of the machine
-/

namespace FftMpi

variable {α : Type}

theorem countP_filter_id (l : List Req) (hn : (l.map Req.id).Nodup) (q : Req) (hq : q ∈ l)
    (p : Req → Bool) :
    (l.filter fun x => x.id ≠ q.id).countP p + (if p q then 1 else 0) = l.countP p := by
  induction l with
  | nil => simp at hq
  | cons a l ih =>
    simp only [List.map_cons, List.nodup_cons] at hn
    rcases List.mem_cons.mp hq with rfl | hq
    · have : l.filter (fun x => x.id ≠ q.id) = l := by
        rw [List.filter_eq_self]
        intro x hx
        simp only [decide_not, Bool.not_eq_true', decide_eq_false_iff_not]
        intro h
        exact hn.1 (h ▸ List.mem_map_of_mem hx)
      rw [List.filter_cons_of_neg (by simp), this, List.countP_cons]
    · have hne : a.id ≠ q.id := by
        intro h
        exact hn.1 (h ▸ List.mem_map_of_mem hq)
      rw [List.filter_cons_of_pos (by simpa using hne), List.countP_cons, List.countP_cons,
        ← ih hn.2 hq]
      omega

theorem length_filter_id (l : List Req) (hn : (l.map Req.id).Nodup) (q : Req) (hq : q ∈ l) :
    (l.filter fun x => x.id ≠ q.id).length + 1 = l.length := by
  have := countP_filter_id l hn q hq (fun _ => true)
  simpa using this

theorem find_id {l : List Req} {ch : Nat} {q : Req} (h : l.find? (fun q => q.id = ch) = some q) :
    q ∈ l ∧ q.id = ch := by
  refine ⟨List.mem_of_find?_eq_some h, ?_⟩
  have := List.find?_some h
  simpa using this

theorem find_filter_ne (l : List Req) (a b : Nat) (h : a ≠ b) :
    (l.filter fun q => q.id ≠ a).find? (fun q => q.id = b) = l.find? (fun q => q.id = b) := by
  rw [List.find?_filter]
  congr 1
  funext q
  by_cases hb : q.id = b
  · simp [hb, h.symm]
  · simp [hb]

/-! ## The invariant is preserved -/

theorem ProgOK.filter {rs : List Req} {n : Nat} {unp} {p : List (Instr α)} {ch : Nat} {q : Req}
    (h : ProgOK rs (.waitany (n+1) unp :: p)) (hn : (rs.map Req.id).Nodup)
    (hq : rs.find? (fun q => q.id = ch) = some q) :
    ProgOK (rs.filter fun q => q.id ≠ ch) (.waitany n unp :: p) := by
  obtain ⟨hm, rfl⟩ := find_id hq
  obtain ⟨h1, h2, h3⟩ := h
  have := length_filter_id rs hn q hm
  refine ⟨by omega, ?_, h3⟩
  intro q1 hq1 q2 hq2
  exact h2 q1 (List.mem_of_mem_filter hq1) q2 (List.mem_of_mem_filter hq2)

/-- All rank states an action can lead to are fine. -/
def ActionOK : Action α → Prop
  | .tau st => RankOK st
  | .push _ _ _ st => RankOK st
  | .pop _ _ k => ∀ v st, k v = some st → RankOK st
  | .sync _ st => RankOK st

theorem act_ok {st : RankSt α} (h : RankOK st) {ch : Nat} {A : Action α}
    (ha : act st ch = some A) : ActionOK A := by
  obtain ⟨hp, hi, hs⟩ := h
  unfold act at ha
  split at ha
  · cases ha; exact ⟨hp, hi, hs⟩
  · split at ha
    · cases ha
    · rename_i id src loc size rest heq
      rw [heq] at hp
      split at ha
      · rename_i hc
        cases ha
        refine ⟨hp, ?_, ?_⟩
        · simp only [List.map_append, List.map_cons, List.map_nil]
          rw [List.nodup_append]
          refine ⟨hi, by simp, ?_⟩
          intro a ha b hb
          simp only [List.mem_singleton] at hb
          obtain ⟨q, hq, rfl⟩ := List.mem_map.mp ha
          rw [hb]; exact (hc.2.2 q hq).1
        · simp only [List.map_append, List.map_cons, List.map_nil]
          rw [List.nodup_append]
          refine ⟨hs, by simp, ?_⟩
          intro a ha b hb
          simp only [List.mem_singleton] at hb
          obtain ⟨q, hq, rfl⟩ := List.mem_map.mp ha
          rw [hb]; exact (hc.2.2 q hq).2
      · cases ha
    · rename_i heq
      rw [heq] at hp
      obtain ⟨v, _, rfl⟩ := Option.map_eq_some_iff.mp ha
      exact ⟨hp, hi, hs⟩
    · rename_i heq
      rw [heq] at hp
      obtain ⟨v, _, rfl⟩ := Option.map_eq_some_iff.mp ha
      exact ⟨hp, hi, hs⟩
    · rename_i heq
      rw [heq] at hp
      cases ha
      obtain ⟨h1, _, h3⟩ := hp
      have : st.reqs = [] := List.eq_nil_of_length_eq_zero h1.symm
      exact ⟨by simpa [this] using h3, hi, hs⟩
    · rename_i heq
      rw [heq] at hp
      obtain ⟨q, hq, rfl⟩ := Option.map_eq_some_iff.mp ha
      intro v st' hk
      obtain ⟨m, _, rfl⟩ := Option.map_eq_some_iff.mp hk
      refine ⟨hp.filter hi hq, ?_, ?_⟩
      · exact hi.sublist (List.filter_sublist.map _)
      · exact hs.sublist (List.filter_sublist.map _)
    · rename_i heq
      rw [heq] at hp
      obtain ⟨v, _, rfl⟩ := Option.map_eq_some_iff.mp ha
      exact ⟨hp, hi, hs⟩
    · rename_i heq
      rw [heq] at hp
      cases ha
      intro v st' hk
      dsimp only at hk
      split at hk
      · cases hk; exact ⟨hp, hi, hs⟩
      · cases hk

/-- Invariant of configurations. -/
def Inv (c : Config α) : Prop := ∀ r, RankOK (c.rank r)

theorem Inv.update {c : Config α} (h : Inv c) (r : Nat) {st : RankSt α} (hs : RankOK st) (ch) :
    Inv { rank := Function.update c.rank r st, chan := ch } := by
  intro x
  by_cases e : x = r
  · subst e; simpa using hs
  · simpa [Function.update, e] using h x

theorem step_inv {e : Bool} {c c' : Config α} {r ch : Nat} (h : Inv c)
    (hs : step e c r ch = some c') : Inv c' := by
  unfold step at hs
  split at hs
  · cases hs
  · rename_i ha; cases hs; exact h.update r (act_ok (h r) ha) _
  · rename_i ha; cases hs; exact h.update r (act_ok (h r) ha) _
  · rename_i ha
    split at hs
    · cases hs
    · obtain ⟨st, hk, rfl⟩ := Option.map_eq_some_iff.mp hs
      exact h.update r (act_ok (h r) ha _ _ hk) _
  · rename_i ha
    split at hs
    · cases hs; exact h.update r (act_ok (h r) ha) _
    · cases hs

/-! ## How an action changes the active receives -/

def ActionPosted (st : RankSt α) (A : Action α) : Prop :=
  match A with
  | .tau st' => ∀ r, posted st r ≤ posted st' r
  | .push _ _ _ st' => ∀ r, posted st r = posted st' r
  | .pop cm src k => ∀ v st', k v = some st' → ∀ r,
      if cm = .world ∧ r = src then posted st r ≤ posted st' r + 1 else posted st r = posted st' r
  | .sync _ st' => ∀ r, posted st r = posted st' r

theorem act_posted {st : RankSt α} (h : RankOK st) {ch : Nat} {A : Action α}
    (ha : act st ch = some A) : ActionPosted st A := by
  obtain ⟨hp, hi, hs⟩ := h
  unfold act at ha
  split at ha
  · cases ha; intro r; rfl
  · split at ha
    · cases ha
    · split at ha
      · cases ha; intro r; simp [posted]
      · cases ha
    · obtain ⟨v, _, rfl⟩ := Option.map_eq_some_iff.mp ha
      intro r; rfl
    · obtain ⟨v, _, rfl⟩ := Option.map_eq_some_iff.mp ha
      intro r; simp [posted]
    · cases ha; intro r; simp [posted]
    · obtain ⟨q, hq, rfl⟩ := Option.map_eq_some_iff.mp ha
      intro v st' hk r
      obtain ⟨m, _, rfl⟩ := Option.map_eq_some_iff.mp hk
      obtain ⟨hm, rfl⟩ := find_id hq
      have := countP_filter_id st.reqs hi q hm (fun x => x.src = r)
      simp only [posted]
      split
      · rename_i hc
        rw [← this]
        split <;> omega
      · rename_i hc
        have hne : ¬ q.src = r := fun h => hc ⟨trivial, h.symm⟩
        simp only [hne, decide_false, Bool.false_eq_true, if_false, add_zero] at this
        exact this.symm
    · obtain ⟨v, _, rfl⟩ := Option.map_eq_some_iff.mp ha
      intro r; rfl
    · cases ha
      intro v st' hk r
      dsimp only at hk
      split at hk
      · cases hk; simp [posted]
      · cases hk

/-! ## Steps of different ranks commute -/

/-- The effect of an action of rank `r`. -/
def eff (e : Bool) (c : Config α) (r : Nat) : Action α → Option (Config α)
  | .tau st => some { c with rank := Function.update c.rank r st }
  | .push cm dst v st =>
    some { rank := Function.update c.rank r st,
           chan := Function.update c.chan (cm, r, dst) (c.chan (cm, r, dst) ++ [v]) }
  | .pop cm src k =>
    match c.chan (cm, src, r) with
    | [] => none
    | v :: vs => (k v).map fun st =>
      { rank := Function.update c.rank r st,
        chan := Function.update c.chan (cm, src, r) vs }
  | .sync dst st =>
    if e = true ∨ (c.chan (.world, r, dst)).length ≤ posted (c.rank dst) r then
      some { c with rank := Function.update c.rank r st }
    else none

theorem step_eq_eff (e : Bool) (c : Config α) (r ch : Nat) :
    step e c r ch = (act (c.rank r) ch).bind (eff e c r) := by
  unfold step eff
  cases act (c.rank r) ch with
  | none => rfl
  | some A => cases A <;> rfl

theorem eff_rank_ne {e : Bool} {c c' : Config α} {r r' : Nat} {A : Action α}
    (h : eff e c r A = some c') (hr : r' ≠ r) : c'.rank r' = c.rank r' := by
  cases A with
  | tau st => cases h; simp [Function.update, hr]
  | push => cases h; simp [Function.update, hr]
  | pop =>
    simp only [eff] at h
    split at h
    · cases h
    · obtain ⟨st, _, rfl⟩ := Option.map_eq_some_iff.mp h
      simp [Function.update, hr]
  | sync =>
    simp only [eff] at h
    split at h
    · cases h; simp [Function.update, hr]
    · cases h

/-- Steps that are not completions of a send commute. -/
theorem eff_comm_nosync {e : Bool} {c c1 c2 : Config α} {r r' : Nat} {A A' : Action α}
    (hr : r ≠ r') (hA : ∀ d st, A ≠ .sync d st) (hA' : ∀ d st, A' ≠ .sync d st)
    (h1 : eff e c r A = some c1) (h2 : eff e c r' A' = some c2) :
    ∃ c3, eff e c1 r' A' = some c3 ∧ eff e c2 r A = some c3 := by
  cases A with
  | sync d st => exact absurd rfl (hA d st)
  | tau st =>
    cases h1
    cases A' with
    | sync d st => exact absurd rfl (hA' d st)
    | tau st' =>
      cases h2
      exact ⟨_, rfl, by simp [eff, Function.update_comm hr]⟩
    | push cm dst v st' =>
      cases h2
      exact ⟨_, rfl, by simp [eff, Function.update_comm hr]⟩
    | pop cm src k =>
      simp only [eff] at h2 ⊢
      split at h2
      · cases h2
      · obtain ⟨st', hk, rfl⟩ := Option.map_eq_some_iff.mp h2
        simp [hk, Function.update_comm hr]
  | push cm dst v st =>
    cases h1
    cases A' with
    | sync d st => exact absurd rfl (hA' d st)
    | tau st' =>
      cases h2
      exact ⟨_, rfl, by simp [eff, Function.update_comm hr]⟩
    | push cm' dst' v' st' =>
      cases h2
      have hk : (cm, r, dst) ≠ (cm', r', dst') := by
        intro h; simp only [Prod.mk.injEq] at h; exact hr h.2.1
      refine ⟨_, rfl, ?_⟩
      simp [eff, Function.update_comm hr, Function.update_comm hk, Function.update, hk, hk.symm]
    | pop cm' src k =>
      simp only [eff] at h2 ⊢
      split at h2
      · cases h2
      · rename_i v' vs hc
        obtain ⟨st', hkv, rfl⟩ := Option.map_eq_some_iff.mp h2
        by_cases hk : (cm, r, dst) = (cm', src, r')
        · rw [hk, hc]
          simp [hkv, Function.update_comm hr]
        · have e1 : Function.update c.chan (cm, r, dst) (c.chan (cm, r, dst) ++ [v])
              (cm', src, r') = c.chan (cm', src, r') := by
            rw [Function.update_of_ne (Ne.symm hk)]
          have e2 : Function.update c.chan (cm', src, r') vs (cm, r, dst) =
              c.chan (cm, r, dst) := by
            rw [Function.update_of_ne hk]
          simp [e1, e2, hc, hkv, Function.update_comm hr, Function.update_comm hk]
  | pop cm src k =>
    simp only [eff] at h1
    split at h1
    · cases h1
    · rename_i v vs hc
      obtain ⟨st, hkv, rfl⟩ := Option.map_eq_some_iff.mp h1
      cases A' with
      | sync d st => exact absurd rfl (hA' d st)
      | tau st' =>
        cases h2
        simp [eff, hc, hkv, Function.update_comm hr]
      | push cm' dst' v' st' =>
        cases h2
        by_cases hk : (cm, src, r) = (cm', r', dst')
        · simp [eff, ← hk, hc, hkv, Function.update_comm hr]
        · have e1 : Function.update c.chan (cm, src, r) vs (cm', r', dst') =
              c.chan (cm', r', dst') := by
            rw [Function.update_of_ne (Ne.symm hk)]
          have e2 : Function.update c.chan (cm', r', dst') (c.chan (cm', r', dst') ++ [v'])
              (cm, src, r) = c.chan (cm, src, r) := by
            rw [Function.update_of_ne hk]
          simp [eff, e1, e2, hc, hkv, Function.update_comm hr, Function.update_comm hk]
      | pop cm' src' k' =>
        simp only [eff] at h2 ⊢
        split at h2
        · cases h2
        · rename_i v' vs' hc'
          obtain ⟨st', hkv', rfl⟩ := Option.map_eq_some_iff.mp h2
          have hk : (cm, src, r) ≠ (cm', src', r') := by
            intro h; simp only [Prod.mk.injEq] at h; exact hr h.2.2
          have e1 : Function.update c.chan (cm, src, r) vs (cm', src', r') =
              c.chan (cm', src', r') := by
            rw [Function.update_of_ne (Ne.symm hk)]
          have e2 : Function.update c.chan (cm', src', r') vs' (cm, src, r) =
              c.chan (cm, src, r) := by
            rw [Function.update_of_ne hk]
          simp [e1, e2, hc, hc', hkv, hkv', Function.update_comm hr, Function.update_comm hk]

/-- A pending completion of a send of rank `r` stays possible when another rank steps. -/
theorem sync_persist {c c' : Config α} {r r' d : Nat} {A : Action α} {e : Bool}
    (hr : r ≠ r') (hA : ActionPosted (c.rank r') A)
    (hc : (c.chan (.world, r, d)).length ≤ posted (c.rank d) r)
    (h : eff e c r' A = some c') :
    (c'.chan (.world, r, d)).length ≤ posted (c'.rank d) r := by
  have hd : ∀ st', Function.update c.rank r' st' d = if d = r' then st' else c.rank d := by
    intro st'; by_cases e : d = r' <;> simp [Function.update, e]
  cases A with
  | tau st =>
    cases h
    simp only [hd]
    split
    · rename_i e; subst e; exact le_trans hc (hA r)
    · exact hc
  | push cm dst v st =>
    cases h
    have : (Comm.world, r, d) ≠ (cm, r', dst) := by
      intro h; simp only [Prod.mk.injEq] at h; exact hr h.2.1
    simp only [hd, Function.update_of_ne this]
    split
    · rename_i e; subst e; exact le_trans hc (le_of_eq (hA r))
    · exact hc
  | sync dst st =>
    simp only [eff] at h
    split at h
    · cases h
      simp only [hd]
      split
      · rename_i e; subst e; exact le_trans hc (le_of_eq (hA r))
      · exact hc
    · cases h
  | pop cm src k =>
    simp only [eff] at h
    split at h
    · cases h
    · rename_i v vs hch
      obtain ⟨st, hk, rfl⟩ := Option.map_eq_some_iff.mp h
      have hp := hA v st hk r
      simp only [hd]
      by_cases hkey : (Comm.world, r, d) = (cm, src, r')
      · simp only [Prod.mk.injEq] at hkey
        obtain ⟨rfl, rfl, rfl⟩ := hkey
        simp only [and_self, if_true] at hp
        rw [hch] at hc
        simp only [Function.update_self, if_true]
        simp only [List.length_cons] at hc
        omega
      · rw [Function.update_of_ne hkey]
        split
        · rename_i e
          subst e
          have : ¬ (cm = .world ∧ r = src) := by
            rintro ⟨rfl, rfl⟩; exact hkey rfl
          rw [if_neg this] at hp
          omega
        · exact hc

theorem eff_sync_of {e : Bool} {c c1 : Config α} {r d : Nat} {st : RankSt α}
    (h : eff e c r (.sync d st) = some c1) :
    (e = true ∨ (c.chan (.world, r, d)).length ≤ posted (c.rank d) r) ∧
      c1 = { c with rank := Function.update c.rank r st } := by
  simp only [eff] at h
  split at h
  · cases h; exact ⟨by assumption, rfl⟩
  · cases h

/-- Changing the state of a rank `r` without changing its active receives does not disturb an
action of another rank. -/
theorem eff_update_other {e : Bool} {c c2 : Config α} {r r' : Nat} {A : Action α} {st : RankSt α}
    (hr : r ≠ r') (hp : ∀ x, posted (c.rank r) x = posted st x)
    (h : eff e c r' A = some c2) :
    eff e { c with rank := Function.update c.rank r st } r' A =
      some { c2 with rank := Function.update c2.rank r st } := by
  cases A with
  | tau st' => cases h; simp [eff, Function.update_comm hr]
  | push cm dst v st' => cases h; simp [eff, Function.update_comm hr]
  | pop cm src k =>
    simp only [eff] at h ⊢
    split at h
    · cases h
    · obtain ⟨st', hk, rfl⟩ := Option.map_eq_some_iff.mp h
      simp [hk, Function.update_comm hr]
  | sync d st' =>
    obtain ⟨hc, rfl⟩ := eff_sync_of h
    have : posted (Function.update c.rank r st d) r' = posted (c.rank d) r' := by
      by_cases e : d = r
      · subst e; simp [hp]
      · simp [Function.update, e]
    simp only [eff, this]
    rw [if_pos hc]
    simp [Function.update_comm hr]

theorem eff_comm {e : Bool} {c c1 c2 : Config α} {r r' : Nat} {A A' : Action α}
    (hr : r ≠ r') (hA : ActionPosted (c.rank r) A) (hA' : ActionPosted (c.rank r') A')
    (h1 : eff e c r A = some c1) (h2 : eff e c r' A' = some c2) :
    ∃ c3, eff e c1 r' A' = some c3 ∧ eff e c2 r A = some c3 := by
  by_cases hs : ∃ d st, A = .sync d st
  · obtain ⟨d, st, rfl⟩ := hs
    obtain ⟨hc, rfl⟩ := eff_sync_of h1
    refine ⟨_, eff_update_other hr (fun x => hA x) h2, ?_⟩
    simp only [eff]
    rw [if_pos]
    rcases hc with hc | hc
    · exact Or.inl hc
    · exact Or.inr (sync_persist hr hA' hc h2)
  · by_cases hs' : ∃ d st, A' = .sync d st
    · obtain ⟨d, st, rfl⟩ := hs'
      obtain ⟨hc, rfl⟩ := eff_sync_of h2
      refine ⟨{ c1 with rank := Function.update c1.rank r' st }, ?_,
        eff_update_other hr.symm (fun x => hA' x) h1⟩
      simp only [eff]
      rw [if_pos]
      rcases hc with hc | hc
      · exact Or.inl hc
      · exact Or.inr (sync_persist hr.symm hA hc h1)
    · exact eff_comm_nosync hr (fun d st h => hs ⟨d, st, h⟩) (fun d st h => hs' ⟨d, st, h⟩) h1 h2

/-! ## Two choices of Waitany on the same rank commute -/

theorem eff_comm_same {e : Bool} {c c1 c2 : Config α} {r ch ch' : Nat} {A A' : Action α}
    (hI : RankOK (c.rank r))
    (ha : act (c.rank r) ch = some A) (ha' : act (c.rank r) ch' = some A')
    (h1 : eff e c r A = some c1) (h2 : eff e c r A' = some c2) :
    c1 = c2 ∨ ∃ c3, step e c1 r ch' = some c3 ∧ step e c2 r ch = some c3 := by
  by_cases hch : ch = ch'
  · subst hch
    rw [ha] at ha'; cases ha'
    rw [h1] at h2; cases h2
    exact Or.inl rfl
  by_cases hw : (c.rank r).blocked = none ∧ ∃ n unp rest, (c.rank r).prog = .waitany (n+1) unp :: rest
  · obtain ⟨hb, n, unp, rest, hp⟩ := hw
    simp only [act, hb, hp] at ha ha'
    obtain ⟨q, hq, rfl⟩ := Option.map_eq_some_iff.mp ha
    obtain ⟨q', hq', rfl⟩ := Option.map_eq_some_iff.mp ha'
    simp only [eff] at h1 h2
    split at h1
    · cases h1
    · rename_i v vs hc
      split at h2
      · cases h2
      · rename_i v' vs' hc'
        obtain ⟨st1, hk1, rfl⟩ := Option.map_eq_some_iff.mp h1
        obtain ⟨st2, hk2, rfl⟩ := Option.map_eq_some_iff.mp h2
        obtain ⟨m1, hm1, rfl⟩ := Option.map_eq_some_iff.mp hk1
        obtain ⟨m2, hm2, rfl⟩ := Option.map_eq_some_iff.mp hk2
        obtain ⟨hqm, hqi⟩ := find_id hq
        obtain ⟨hqm', hqi'⟩ := find_id hq'
        have hne : q.id ≠ q'.id := by rw [hqi, hqi']; exact hch
        obtain ⟨hprog, hids, hsrcs⟩ := hI
        rw [hp] at hprog
        obtain ⟨hlen, hcomm, _⟩ := hprog
        obtain ⟨m3, hm3, hm3'⟩ := (hcomm q hqm q' hqm' hne).1 v v' _ m1 m2 hm1 hm2
        -- at least two requests are active, so the loop has at least one more iteration
        have hn : n = (n - 1) + 1 := by
          have h2 : 2 ≤ (c.rank r).reqs.length := by
            have := length_filter_id _ hids q hqm
            have hmem : q' ∈ (c.rank r).reqs.filter (fun x => x.id ≠ q.id) := by
              simp [List.mem_filter, hqm', hne.symm]
            have := List.length_pos_of_mem hmem
            omega
          omega
        have hsrc : q.src ≠ q'.src := by
          intro hs
          have := List.inj_on_of_nodup_map hsrcs hqm hqm' hs
          exact hne (by rw [this])
        have hkey : (Comm.world, q.src, r) ≠ (Comm.world, q'.src, r) := by
          intro h; simp only [Prod.mk.injEq] at h; exact hsrc h.2.1
        right
        have f1 : (List.filter (fun x => x.id ≠ ch) (c.rank r).reqs).find? (fun q => q.id = ch') =
            some q' := by rw [find_filter_ne _ _ _ hch, hq']
        have f2 : (List.filter (fun x => x.id ≠ ch') (c.rank r).reqs).find? (fun q => q.id = ch) =
            some q := by rw [find_filter_ne _ _ _ (Ne.symm hch), hq]
        have ff : ((c.rank r).reqs.filter (fun x => x.id ≠ ch')).filter (fun x => x.id ≠ ch) =
            ((c.rank r).reqs.filter (fun x => x.id ≠ ch)).filter (fun x => x.id ≠ ch') := by
          simp only [List.filter_filter]
          congr 1
          funext x
          rw [Bool.and_comm]
        have hm3f : finish unp q' v' m1 = some m3 := hm3
        refine ⟨{ rank := Function.update c.rank r
                    { c.rank r with
                      prog := .waitany (n - 1) unp :: rest
                      mem := m3
                      reqs := ((c.rank r).reqs.filter (fun x => x.id ≠ ch)).filter
                        (fun x => x.id ≠ ch') },
                  chan := Function.update (Function.update c.chan (.world, q.src, r) vs)
                    (.world, q'.src, r) vs' }, ?_, ?_⟩
        · rw [hn]
          simp only [step, act, Function.update_self, hb, f1, Option.map_some,
            Function.update_of_ne hkey.symm, hc', hm3, Function.update_idem]
          rfl
        · rw [hn]
          simp only [step, act, Function.update_self, hb, f2, Option.map_some,
            Function.update_of_ne hkey, hc, hm3', Function.update_idem, ff]
          rw [Function.update_comm hkey]
          rfl
  · have : act (c.rank r) ch = act (c.rank r) ch' := by
      unfold act
      split
      · rfl
      · rename_i hb
        split <;> try rfl
        rename_i n unp rest heq
        exact absurd ⟨hb, n, unp, rest, heq⟩ hw
    rw [this, ha'] at ha
    cases ha
    rw [h1] at h2
    cases h2
    exact Or.inl rfl

/-- The diamond property of the machine. -/
theorem step_diamond {e : Bool} {c c1 c2 : Config α} {r ch r' ch' : Nat} (hI : Inv c)
    (h1 : step e c r ch = some c1) (h2 : step e c r' ch' = some c2) :
    c1 = c2 ∨ ∃ c3, (∃ x y, step e c1 x y = some c3) ∧ (∃ x y, step e c2 x y = some c3) := by
  rw [step_eq_eff] at h1 h2
  obtain ⟨A, ha, h1⟩ := Option.bind_eq_some_iff.mp h1
  obtain ⟨A', ha', h2⟩ := Option.bind_eq_some_iff.mp h2
  by_cases hr : r = r'
  · subst hr
    rcases eff_comm_same (hI r) ha ha' h1 h2 with h | ⟨c3, h3, h4⟩
    · exact Or.inl h
    · exact Or.inr ⟨c3, ⟨_, _, h3⟩, ⟨_, _, h4⟩⟩
  · obtain ⟨c3, h3, h4⟩ := eff_comm hr (act_posted (hI r) ha) (act_posted (hI r') ha') h1 h2
    refine Or.inr ⟨c3, ⟨r', ch', ?_⟩, ⟨r, ch, ?_⟩⟩
    · rw [step_eq_eff, eff_rank_ne h1 (Ne.symm hr), ha']; exact h3
    · rw [step_eq_eff, eff_rank_ne h2 hr, ha]; exact h4

theorem Run.inv {e : Bool} {n : Nat} {c c' : Config α} (h : Run e n c c') (hI : Inv c) : Inv c' := by
  induction h with
  | refl => exact hI
  | step r ch h _ ih => exact ih (step_inv hI h)

/-- In a final configuration nobody can step. -/
theorem Final.no_step {e : Bool} {c : Config α} (h : Final c) (r ch : Nat) :
    step e c r ch = none := by
  simp [step, act, (h r).1, (h r).2]

/-- One step can be postponed: if `c` reaches a configuration without steps in `n+1` steps, every
successor of `c` reaches it in `n` steps. -/
theorem strip {e : Bool} {n : Nat} {c cf : Config α} (hr : Run e n c cf) (hI : Inv c)
    (hf : ∀ r ch, step e cf r ch = none) :
    ∀ {c1 r ch}, step e c r ch = some c1 → ∃ m, n = m + 1 ∧ Run e m c1 cf := by
  induction hr with
  | refl c => intro c1 r ch h; rw [hf] at h; cases h
  | @step n c c' cf r' ch' h' t ih =>
    intro c1 r ch h
    rcases step_diamond hI h h' with rfl | ⟨c3, ⟨x, y, h3⟩, ⟨x', y', h4⟩⟩
    · exact ⟨n, rfl, t⟩
    · obtain ⟨m, rfl, t3⟩ := ih (step_inv hI h') hf h4
      exact ⟨m + 1, rfl, Run.step x y h3 t3⟩

/-- Confluence: if some schedule leads from `c` to a configuration `cf` without further steps,
every schedule can be continued to `cf`, and all complete schedules have the same length. -/
theorem confluence {e : Bool} {n m : Nat} {c c' cf : Config α} (hr : Run e n c cf) (hI : Inv c)
    (hf : ∀ r ch, step e cf r ch = none) (h : Run e m c c') :
    ∃ k, n = m + k ∧ Run e k c' cf := by
  induction h generalizing n with
  | refl c => exact ⟨n, by omega, hr⟩
  | step r ch hs t ih =>
    obtain ⟨k, rfl, hk⟩ := strip hr hI hf hs
    obtain ⟨k', h1, h2⟩ := ih hk (step_inv hI hs)
    exact ⟨k', by omega, h2⟩

/-! ## No rank ever fails -/

/-- Rank `r` is about to fail: it has not returned and its next operation is an error - whichever
request `MPI_Waitany` returns, or for some request that `MPI_Waitany` may return.  Errors are
accesses outside an allocation, reuse of an active request, a message of the wrong length, waiting
without an active request, negative counts. -/
def Fails (c : Config α) (r : Nat) : Prop :=
  ¬ ((c.rank r).prog = [] ∧ (c.rank r).blocked = none) ∧
  ((∀ ch, act (c.rank r) ch = none) ∨
   ∃ ch cm src k v vs, act (c.rank r) ch = some (.pop cm src k) ∧
     c.chan (cm, src, r) = v :: vs ∧ k v = none)

/-- The head of a channel to `r` stays while another rank makes a step. -/
theorem eff_head {e : Bool} {c c' : Config α} {r r' src : Nat} {cm : Comm} {A : Action α}
    {v : List α} {vs : List (List α)} (hr : r ≠ r') (h : eff e c r' A = some c')
    (hc : c.chan (cm, src, r) = v :: vs) : ∃ ws, c'.chan (cm, src, r) = v :: ws := by
  cases A with
  | tau st => cases h; exact ⟨vs, hc⟩
  | push cm' dst v' st =>
    cases h
    by_cases hk : (cm, src, r) = (cm', r', dst)
    · rw [← hk] at *
      exact ⟨vs ++ [v'], by simp [← hk, hc]⟩
    · exact ⟨vs, by simp [Function.update_of_ne hk, hc]⟩
  | pop cm' src' k =>
    simp only [eff] at h
    split at h
    · cases h
    · obtain ⟨st, _, rfl⟩ := Option.map_eq_some_iff.mp h
      have hk : (cm, src, r) ≠ (cm', src', r') := by
        intro h; simp only [Prod.mk.injEq] at h; exact hr h.2.2
      exact ⟨vs, by simp [Function.update_of_ne hk, hc]⟩
  | sync d st =>
    obtain ⟨_, rfl⟩ := eff_sync_of h
    exact ⟨vs, hc⟩

/-- From a configuration in which a rank is about to fail, no schedule leads to a configuration in
which all ranks have returned. -/
theorem Run.not_fails {e : Bool} {n : Nat} {c cf : Config α} (h : Run e n c cf) (hI : Inv c)
    (hf : Final cf) (r : Nat) : ¬ Fails c r := by
  induction h with
  | refl c => exact fun h => h.1 (hf r)
  | @step n c c' cf x y hs t ih =>
    have ih := ih (step_inv hI hs) hf
    rintro ⟨h1, h2⟩
    rw [step_eq_eff] at hs
    obtain ⟨A, ha, hs⟩ := Option.bind_eq_some_iff.mp hs
    by_cases hx : x = r
    · subst hx
      rcases h2 with h2 | ⟨ch, cm, src, k, v, vs, h3, h4, h5⟩
      · rw [h2] at ha; cases ha
      · by_cases hch : ch = y
        · subst hch
          rw [h3] at ha; cases ha
          simp [eff, h4, h5] at hs
        by_cases hw : (c.rank x).blocked = none ∧
            ∃ n unp rest, (c.rank x).prog = .waitany (n+1) unp :: rest
        · obtain ⟨hb, n, unp, rest, hp⟩ := hw
          simp only [act, hb, hp] at ha h3
          obtain ⟨q, hq, rfl⟩ := Option.map_eq_some_iff.mp ha
          obtain ⟨q', hq', he⟩ := Option.map_eq_some_iff.mp h3
          cases he
          obtain ⟨hqm, hqi⟩ := find_id hq
          obtain ⟨hqm', hqi'⟩ := find_id hq'
          have hne : q.id ≠ q'.id := by rw [hqi, hqi']; exact Ne.symm hch
          obtain ⟨hprog, hids, hsrcs⟩ := hI x
          rw [hp] at hprog
          obtain ⟨hlen, hcomm, _⟩ := hprog
          have hn : n = (n - 1) + 1 := by
            have h2 : 2 ≤ (c.rank x).reqs.length := by
              have := length_filter_id _ hids q hqm
              have hmem : q' ∈ (c.rank x).reqs.filter (fun z => z.id ≠ q.id) := by
                simp [List.mem_filter, hqm', hne.symm]
              have := List.length_pos_of_mem hmem
              omega
            omega
          have hsrc : q.src ≠ q'.src := by
            intro hs
            have := List.inj_on_of_nodup_map hsrcs hqm hqm' hs
            exact hne (by rw [this])
          simp only [eff] at hs
          split at hs
          · cases hs
          · rename_i w ws hcw
            obtain ⟨st, hk, rfl⟩ := Option.map_eq_some_iff.mp hs
            obtain ⟨m1, hm1, rfl⟩ := Option.map_eq_some_iff.mp hk
            apply ih
            refine ⟨by simp, Or.inr ?_⟩
            have f1 : (List.filter (fun x => x.id ≠ y) (c.rank x).reqs).find?
                (fun q => q.id = ch) = some q' := by
              rw [find_filter_ne _ _ _ (Ne.symm hch), hq']
            rw [hn]
            refine ⟨ch, .world, q'.src, _, v, vs, by
              simp only [act, Function.update_self, hb, f1, Option.map_some]; rfl, ?_, ?_⟩
            · dsimp only
              rw [Function.update_of_ne]
              · exact h4
              · intro h; simp only [Prod.mk.injEq] at h; exact hsrc h.2.1.symm
            · simp only [Option.map_eq_none_iff] at h5 ⊢
              by_contra hcon
              have := (hcomm q hqm q' hqm' hne).2 w v _ m1 hm1
                (by rw [← Option.ne_none_iff_isSome]; exact hcon)
              rw [h5] at this
              cases this
        · have : act (c.rank x) ch = act (c.rank x) y := by
            unfold act
            split
            · rfl
            · rename_i hb
              split <;> try rfl
              rename_i n unp rest heq
              exact absurd ⟨hb, n, unp, rest, heq⟩ hw
          rw [this, ha] at h3
          cases h3
          simp [eff, h4, h5] at hs
    · apply ih
      have hrk := eff_rank_ne hs (Ne.symm hx)
      refine ⟨by rw [hrk]; exact h1, ?_⟩
      rcases h2 with h2 | ⟨ch, cm, src, k, v, vs, h3, h4, h5⟩
      · left; rw [hrk]; exact h2
      · right
        obtain ⟨ws, hws⟩ := eff_head (Ne.symm hx) hs h4
        exact ⟨ch, cm, src, k, v, ws, by rw [hrk]; exact h3, hws, h5⟩

end FftMpi
