import Verif.Teams

/-!
# Renaming ranks
-/

namespace FftMpi

variable {α : Type}

theorem place_injective {P : Nat} {g : List Nat} (hn : g.Nodup) (hP : ∀ x ∈ g, x < P) : Function.Injective (place P g) := by
  intro a b h
  unfold place at h
  split at h <;> split at h
  · rename_i h1 h2
    exact (List.Nodup.getElem_inj_iff hn).mp h
  · rename_i h1 h2
    have := hP _ (List.getElem_mem h1)
    omega
  · rename_i h1 h2
    have := hP _ (List.getElem_mem h2)
    omega
  · omega

theorem place_idxOf {P : Nat} {g : List Nat} {x : Nat} (h : x ∈ g) : place P g (g.idxOf x) = x := by
  have := List.idxOf_lt_length_of_mem h
  unfold place
  rw [dif_pos this]
  exact List.getElem_idxOf this

theorem place_mem {P : Nat} {g : List Nat} {r : Nat} (h : r < g.length) : place P g r ∈ g := by
  unfold place
  rw [dif_pos h]
  exact List.getElem_mem h

theorem idxOf_place {P : Nat} {g : List Nat} (hn : g.Nodup) {r : Nat} (h : r < g.length) : g.idxOf (place P g r) = r := by
  unfold place
  rw [dif_pos h]
  exact hn.idxOf_getElem r h

/-- A communicator with other names. -/
def Comm.rename (σ : Nat → Nat) : Comm → Comm
  | .world => .world
  | .sub inst group => .sub inst (group.map σ)

theorem Comm.rename_injective {σ : Nat → Nat} (hσ : Function.Injective σ) : Function.Injective (Comm.rename σ) := by
  intro a b h
  cases a <;> cases b <;> simp only [Comm.rename, Comm.sub.injEq, reduceCtorEq] at h ⊢
  exact ⟨h.1, (List.map_injective_iff.mpr hσ) h.2⟩

def Req.rename (σ : Nat → Nat) (q : Req) : Req := { q with src := σ q.src }

/-- The state of a rank with other names, and more to do. -/
def RankSt.rename (σ : Nat → Nat) (rest : List (Instr α)) (st : RankSt α) : RankSt α where
  prog := st.prog.map (Instr.rename σ) ++ rest
  mem := st.mem
  reqs := st.reqs.map (Req.rename σ)
  blocked := st.blocked.map σ

def Action.rename (σ : Nat → Nat) (rest : List (Instr α)) : Action α → Action α
  | .tau st => .tau (st.rename σ rest)
  | .push c dst v st => .push (c.rename σ) (σ dst) v (st.rename σ rest)
  | .pop c src k => .pop (c.rename σ) (σ src) fun v => (k v).map (RankSt.rename σ rest)
  | .sync dst st => .sync (σ dst) (st.rename σ rest)

theorem finish_rename (σ : Nat → Nat) (unp : Nat → LMem α → Option (LMem α)) (q : Req) : finish unp (q.rename σ) = finish unp q := rfl

theorem act_rename {σ : Nat → Nat} (hσ : Function.Injective σ) {rest : List (Instr α)} {st : RankSt α} {ch : Nat} {A : Action α}
    (h : act st ch = some A) : act (st.rename σ rest) ch = some (A.rename σ rest) := by
  obtain ⟨prog, mem, reqs, blocked⟩ := st
  cases blocked with
  | some dst =>
    simp only [act, Option.some.injEq] at h
    subst h
    rfl
  | none =>
    cases prog with
    | nil => simp [act] at h
    | cons i prog =>
      cases i with
      | irecv id src loc size =>
        simp only [act] at h
        split at h
        · rename_i hc
          simp only [Option.some.injEq] at h
          subst h
          simp only [RankSt.rename, List.map_cons, Instr.rename, List.cons_append, Option.map_none, act]
          rw [if_pos]
          · simp [Action.rename, RankSt.rename, Req.rename]
          · refine ⟨hc.1, hc.2.1, ?_⟩
            intro q hq
            obtain ⟨q', hq', rfl⟩ := List.mem_map.mp hq
            exact ⟨(hc.2.2 q' hq').1, fun e => (hc.2.2 q' hq').2 (hσ e)⟩
        · cases h
      | send dst size =>
        simp only [act, Option.map_eq_some_iff] at h
        obtain ⟨v, hv, rfl⟩ := h
        simp [RankSt.rename, Instr.rename, act, hv, Action.rename, Comm.rename]
      | loc f =>
        simp only [act, Option.map_eq_some_iff] at h
        obtain ⟨v, hv, rfl⟩ := h
        simp [RankSt.rename, Instr.rename, act, hv, Action.rename]
      | waitany n unp =>
        cases n with
        | zero =>
          simp only [act, Option.some.injEq] at h
          subst h
          rfl
        | succ n =>
          simp only [act, Option.map_eq_some_iff] at h
          obtain ⟨q, hq, rfl⟩ := h
          simp only [RankSt.rename, List.map_cons, Instr.rename, List.cons_append, Option.map_none, act]
          have h1 : (reqs.map (Req.rename σ)).find? (fun q => decide (q.id = ch)) = some (q.rename σ) := by
            rw [List.find?_map]
            have : ((fun q : Req => decide (q.id = ch)) ∘ Req.rename σ) = fun q => decide (q.id = ch) := rfl
            rw [this, hq]
            rfl
          have h2 : (reqs.map (Req.rename σ)).filter (fun q => decide (q.id ≠ ch)) =
              (reqs.filter fun q => decide (q.id ≠ ch)).map (Req.rename σ) := by
            rw [List.filter_map]
            rfl
          rw [h1, h2]
          simp only [Option.map_some, Action.rename, Comm.rename, finish_rename, Option.map_map, RankSt.rename, Req.rename,
            Option.some.injEq, Action.pop.injEq, true_and]
          funext v
          congr 1
      | post inst group dst off cnt =>
        simp only [act, Option.map_eq_some_iff] at h
        obtain ⟨v, hv, rfl⟩ := h
        simp [RankSt.rename, Instr.rename, act, hv, Action.rename, Comm.rename]
      | take inst group src off cnt =>
        simp only [act, Option.some.injEq] at h
        subst h
        simp only [RankSt.rename, List.map_cons, Instr.rename, List.cons_append, Option.map_none, act, Action.rename,
          Comm.rename, Option.some.injEq, Action.pop.injEq, true_and]
        funext v
        split <;> rfl

/-- `d` is `c` with other names, and more to do. -/
structure TeamSim (σ : Nat → Nat) (Q : Nat) (rest : Nat → List (Instr α)) (c d : Config α) : Prop where
  rank : ∀ r < Q, d.rank (σ r) = (c.rank r).rename σ (rest r)
  idle : ∀ r, Q ≤ r → (c.rank r).prog = [] ∧ (c.rank r).reqs = [] ∧ (c.rank r).blocked = none
  chan : ∀ cm s t, d.chan (Comm.rename σ cm, σ s, σ t) = c.chan (cm, s, t)

/-- Nothing but the ranks of the communicator has moved. -/
structure Still (σ : Nat → Nat) (Q : Nat) (d d' : Config α) : Prop where
  rank : ∀ x, (∀ r < Q, x ≠ σ r) → d'.rank x = d.rank x
  chan : ∀ k, (∀ cm s t, k ≠ (Comm.rename σ cm, σ s, σ t)) → d'.chan k = d.chan k

theorem posted_rename {σ : Nat → Nat} (hσ : Function.Injective σ) {rest : List (Instr α)} (st : RankSt α) (r : Nat) :
    posted (st.rename σ rest) (σ r) = posted st r := by
  unfold posted RankSt.rename
  rw [List.countP_map]
  congr 1
  funext q
  simp [Req.rename, hσ.eq_iff]

/-- One rank and one channel have changed. -/
theorem TeamSim.change {σ : Nat → Nat} (hσ : Function.Injective σ) {Q : Nat} {rest : Nat → List (Instr α)} {c d : Config α}
    (S : TeamSim σ Q rest c d) {r : Nat} (hr : r < Q) (st : RankSt α) :
    TeamSim σ Q rest { c with rank := Function.update c.rank r st }
      { d with rank := Function.update d.rank (σ r) (st.rename σ (rest r)) } ∧
    Still σ Q d { d with rank := Function.update d.rank (σ r) (st.rename σ (rest r)) } := by
  refine ⟨⟨?_, ?_, S.chan⟩, ⟨?_, fun _ _ => rfl⟩⟩
  · intro s hs
    by_cases h : s = r
    · subst h; simp
    · simp only [Function.update_of_ne h, Function.update_of_ne (hσ.ne h)]
      exact S.rank s hs
  · intro s hs
    have h : s ≠ r := by omega
    simp only [Function.update_of_ne h]
    exact S.idle s hs
  · intro x hx
    exact Function.update_of_ne (hx r hr) _ _

theorem TeamSim.changeChan {σ : Nat → Nat} (hσ : Function.Injective σ) {Q : Nat} {rest : Nat → List (Instr α)} {c d : Config α}
    (S : TeamSim σ Q rest c d) (cm : Comm) (s t : Nat) (v : List (List α)) :
    TeamSim σ Q rest { c with chan := Function.update c.chan (cm, s, t) v }
      { d with chan := Function.update d.chan (Comm.rename σ cm, σ s, σ t) v } ∧
    Still σ Q d { d with chan := Function.update d.chan (Comm.rename σ cm, σ s, σ t) v } := by
  refine ⟨⟨S.rank, S.idle, ?_⟩, ⟨fun _ _ => rfl, ?_⟩⟩
  · intro cm' s' t'
    by_cases h : (cm', s', t') = (cm, s, t)
    · obtain ⟨rfl, rfl, rfl⟩ : cm' = cm ∧ s' = s ∧ t' = t := by simpa using h
      simp
    · have h' : (Comm.rename σ cm', σ s', σ t') ≠ (Comm.rename σ cm, σ s, σ t) := by
        intro e
        apply h
        simp only [Prod.mk.injEq] at e ⊢
        exact ⟨Comm.rename_injective hσ e.1, hσ e.2.1, hσ e.2.2⟩
      simp only [Function.update_of_ne h, Function.update_of_ne h']
      exact S.chan cm' s' t'
  · intro k hk
    exact Function.update_of_ne (hk cm s t) _ _

theorem Still.trans {σ : Nat → Nat} {Q : Nat} {a b c : Config α} (h : Still σ Q a b) (k : Still σ Q b c) : Still σ Q a c :=
  ⟨fun x hx => (k.rank x hx).trans (h.rank x hx), fun x hx => (k.chan x hx).trans (h.chan x hx)⟩

theorem TeamSim.step {e : Bool} {σ : Nat → Nat} (hσ : Function.Injective σ) {Q : Nat} {rest : Nat → List (Instr α)} {c c' d : Config α}
    (S : TeamSim σ Q rest c d) {r ch : Nat} (h : FftMpi.step e c r ch = some c') :
    ∃ d', FftMpi.step e d (σ r) ch = some d' ∧ TeamSim σ Q rest c' d' ∧ Still σ Q d d' := by
  have hr : r < Q := by
    by_contra hr
    obtain ⟨h1, _, h3⟩ := S.idle r (by omega)
    have : act (c.rank r) ch = none := by
      unfold act
      rw [h3, h1]
    unfold FftMpi.step at h
    rw [this] at h
    cases h
  unfold FftMpi.step at h ⊢
  cases hA : act (c.rank r) ch with
  | none => rw [hA] at h; cases h
  | some A =>
    rw [hA] at h
    rw [S.rank r hr, act_rename hσ hA]
    cases A with
    | tau st =>
      simp only [Option.some.injEq] at h
      subst h
      exact ⟨_, rfl, S.change hσ hr st⟩
    | push cm dst v st =>
      simp only [Option.some.injEq] at h
      subst h
      obtain ⟨S1, T1⟩ := S.change hσ hr st
      obtain ⟨S2, T2⟩ := S1.changeChan hσ cm r dst (c.chan (cm, r, dst) ++ [v])
      refine ⟨_, rfl, ?_, ?_⟩
      · rw [S.chan]
        exact S2
      · rw [S.chan]
        exact T1.trans T2
    | pop cm src k =>
      simp only [Action.rename] at h ⊢
      rw [S.chan]
      cases hv : c.chan (cm, src, r) with
      | nil => rw [hv] at h; cases h
      | cons v vs =>
        rw [hv] at h
        simp only [Option.map_eq_some_iff] at h
        obtain ⟨st, hst, rfl⟩ := h
        simp only [hst, Option.map_some]
        obtain ⟨S1, T1⟩ := S.change hσ hr st
        obtain ⟨S2, T2⟩ := S1.changeChan hσ cm src r vs
        exact ⟨_, rfl, S2, T1.trans T2⟩
    | sync dst st =>
      simp only [Action.rename] at h ⊢
      split at h
      · rename_i hc
        simp only [Option.some.injEq] at h
        subst h
        rw [if_pos]
        · exact ⟨_, rfl, S.change hσ hr st⟩
        · refine hc.imp_right fun hc => ?_
          have h1 : d.chan (.world, σ r, σ dst) = c.chan (.world, r, dst) := S.chan .world r dst
          rw [h1]
          refine hc.trans ?_
          by_cases hd : dst < Q
          · rw [S.rank dst hd, posted_rename hσ]
          · have : posted (c.rank dst) r = 0 := by
              unfold posted
              rw [(S.idle dst (by omega)).2.1]
              rfl
            omega
      · cases h

theorem TeamSim.reach {e : Bool} {σ : Nat → Nat} (hσ : Function.Injective σ) {Q : Nat} {rest : Nat → List (Instr α)} {n : Nat}
    {c c' d : Config α} (S : TeamSim σ Q rest c d) (h : Run e n c c') :
    ∃ d', Reach e d d' ∧ TeamSim σ Q rest c' d' ∧ Still σ Q d d' := by
  induction h generalizing d with
  | refl c => exact ⟨d, Reach.refl d, S, fun _ _ => rfl, fun _ _ => rfl⟩
  | step r ch h _ ih =>
    obtain ⟨d1, h1, S1, T1⟩ := S.step hσ h
    obtain ⟨d2, h2, S2, T2⟩ := ih S1
    exact ⟨d2, (Reach.one _ _ h1).trans h2, S2, T1.trans T2⟩

theorem progOK_rename (σ : Nat → Nat) {q : List (Instr α)} (hq : ProgOK [] q) (p : List (Instr α)) (rs : List Req)
    (h : ProgOK rs p) : ProgOK (rs.map (Req.rename σ)) (p.map (Instr.rename σ) ++ q) := by
  induction p generalizing rs with
  | nil =>
    simp only [ProgOK] at h
    subst h
    exact hq
  | cons i p ih =>
    cases i with
    | irecv id src loc size =>
      have := ih _ h
      simpa [Instr.rename, ProgOK, Req.rename] using this
    | send => exact ih rs h
    | loc => exact ih rs h
    | waitany n unp =>
      obtain ⟨h1, h2, h3⟩ := h
      refine ⟨by simpa using h1, ?_, ih [] h3⟩
      intro q1 hq1 q2 hq2 hne
      obtain ⟨q1', hq1', rfl⟩ := List.mem_map.mp hq1
      obtain ⟨q2', hq2', rfl⟩ := List.mem_map.mp hq2
      exact h2 q1' hq1' q2' hq2' hne
    | post => exact ih rs h
    | take => exact ih rs h

/-- The memories after the ranks `g` have gone from their memories to `v`. -/
def backFrom (g : List Nat) (v m : Nat → LMem α) (x : Nat) : LMem α := if x ∈ g then v (g.idxOf x) else m x

/-- **A stage of some of the ranks** is a stage of all. -/
theorem StageOK.onTeam {e : Bool} {P : Nat} {g : List Nat} (hn : g.Nodup) (hP : ∀ x ∈ g, x < P) {prog : Nat → List (Instr α)}
    {m v : Nat → LMem α} (h : StageOK e g.length prog (seenBy P g m) v) :
    StageOK e P (onTeam P g prog) m (backFrom g v m) where
  reach := by
    intro rest d hd hch
    have hσ := place_injective hn hP
    have hin : ∀ r < g.length, place P g r < P := fun r hr => hP _ (place_mem hr)
    obtain ⟨n, hrun⟩ := h.reach (fun _ => []) (initCfg g.length prog (seenBy P g m))
      (by intro r hr; simp [initCfg, hr]) (by intro k; rfl)
    have S : TeamSim (place P g) g.length (fun r => rest (place P g r)) (initCfg g.length prog (seenBy P g m)) d := by
      refine ⟨?_, ?_, ?_⟩
      · intro r hr
        rw [hd _ (hin r hr)]
        simp only [FftMpi.onTeam, if_pos (place_mem hr), idxOf_place hn hr, initCfg, if_pos hr, RankSt.rename, seenBy]
        rfl
      · intro r hr
        have : ¬ r < g.length := by omega
        simp [initCfg, this]
      · intro cm s t
        rw [hch]
        rfl
    obtain ⟨d', h1, S', T⟩ := S.reach hσ hrun
    have : d' = { rank := fun r => if r < P then ⟨rest r, backFrom g v m r, [], none⟩ else d.rank r, chan := d.chan } := by
      ext1
      · funext x
        by_cases hx : x ∈ g
        · have hl := List.idxOf_lt_length_of_mem hx
          have := S'.rank _ hl
          rw [place_idxOf hx] at this
          rw [this]
          dsimp only
          rw [if_pos (hP x hx)]
          simp only [if_pos hl, RankSt.rename, backFrom, if_pos hx]
          rfl
        · rw [T.rank x (fun r hr e => hx (e ▸ place_mem hr))]
          dsimp only
          by_cases hxP : x < P
          · rw [if_pos hxP, hd x hxP]
            simp [FftMpi.onTeam, hx, backFrom]
          · rw [if_neg hxP]
      · funext k
        by_cases hk : ∃ cm s t, k = (Comm.rename (place P g) cm, place P g s, place P g t)
        · obtain ⟨cm, s, t, rfl⟩ := hk
          rw [S'.chan, hch]
          rfl
        · push Not at hk
          exact T.chan k hk
    rw [← this]
    exact h1
  ok := by
    intro x _ q hq
    unfold FftMpi.onTeam
    split
    · rename_i hx
      have hl := List.idxOf_lt_length_of_mem hx
      have := h.ok _ hl [] rfl
      rw [List.append_nil] at this
      exact progOK_rename _ hq _ [] this
    · exact hq

end FftMpi
