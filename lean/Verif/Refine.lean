import Verif.PropsInt

/-!
# Programs that differ in their local code

If the local code of a program is replaced by code that gives the same result wherever the old code gives
one, then whatever was proved about all executions of the old program holds for the new one.
-/

namespace FftMpi

variable {α : Type}

/-- `i'` is `i`, except that local code may be replaced by code defined on more memories. -/
def Instr.Refines (i i' : Instr α) : Prop :=
  i = i' ∨ ∃ g g', i = .loc g ∧ i' = .loc g' ∧ ∀ x y, g x = some y → g' x = some y

theorem Instr.Refines.refl (i : Instr α) : Instr.Refines i i := Or.inl rfl

/-- Program `p'` is `p`, except that local code may be replaced by code defined on more memories. -/
abbrev ProgRefines (p p' : List (Instr α)) : Prop := List.Forall₂ Instr.Refines p p'

theorem ProgRefines.refl (p : List (Instr α)) : ProgRefines p p := by
  induction p with
  | nil => exact .nil
  | cons i p ih => exact .cons (.refl i) ih

theorem ProgRefines.append {p p' q q' : List (Instr α)} (h : ProgRefines p p') (h2 : ProgRefines q q') :
    ProgRefines (p ++ q) (p' ++ q') := by
  induction h with
  | nil => exact h2
  | cons a _ ih => exact .cons a ih

theorem ProgRefines.loc {g g' : LMem α → Option (LMem α)} (h : ∀ x y, g x = some y → g' x = some y) :
    ProgRefines [.loc g] [.loc g'] := .cons (Or.inr ⟨g, g', rfl, rfl, h⟩) .nil

/-- Two rank states that differ in the local code to come. -/
structure RankSim (s s' : RankSt α) : Prop where
  prog : ProgRefines s.prog s'.prog
  mem : s'.mem = s.mem
  reqs : s'.reqs = s.reqs
  blocked : s'.blocked = s.blocked

theorem RankSim.of_eq {s s' : RankSt α} (h : s = s') : RankSim s s' := by
  subst h; exact ⟨.refl _, rfl, rfl, rfl⟩

/-- Two configurations that differ in the local code to come. -/
structure CfgSim (c c' : Config α) : Prop where
  rank : ∀ r, RankSim (c.rank r) (c'.rank r)
  chan : c'.chan = c.chan

/-- Two actions with the same effect that lead to similar states. -/
inductive ActSim : Action α → Action α → Prop where
  | tau {s s'} (h : RankSim s s') : ActSim (.tau s) (.tau s')
  | push (cm dst v) {s s'} (h : RankSim s s') : ActSim (.push cm dst v s) (.push cm dst v s')
  | pop (cm src) {k k' : List α → Option (RankSt α)}
      (h : ∀ v, (k v = none ∧ k' v = none) ∨ ∃ s s', k v = some s ∧ k' v = some s' ∧ RankSim s s') :
      ActSim (.pop cm src k) (.pop cm src k')
  | sync (dst) {s s'} (h : RankSim s s') : ActSim (.sync dst s) (.sync dst s')

/-- Similar states do the same, unless the old program is in error. -/
theorem act_sim {s s' : RankSt α} (h : RankSim s s') (ch : Nat) :
    (∃ A A', act s ch = some A ∧ act s' ch = some A' ∧ ActSim A A') ∨
    (act s ch = none ∧ act s' ch = none) ∨
    (s.prog ≠ [] ∧ ∀ ch, act s ch = none) := by
  obtain ⟨prog, mem, reqs, blocked⟩ := s
  obtain ⟨prog', mem', reqs', blocked'⟩ := s'
  obtain ⟨hp, rfl, rfl, rfl⟩ := h
  simp only at hp
  rcases blocked' with _ | dst
  swap
  · left
    exact ⟨_, _, rfl, rfl, .sync dst ⟨hp, rfl, rfl, rfl⟩⟩
  rcases hp with _ | ⟨hi, hrest⟩
  · right; left; exact ⟨rfl, rfl⟩
  rename_i i i' rest rest'
  rcases hi with rfl | ⟨g, g', rfl, rfl, hg⟩
  swap
  · cases hgm : g mem' with
    | none =>
      right; right
      refine ⟨by simp, fun ch => ?_⟩
      simp [act, hgm]
    | some y =>
      left
      refine ⟨.tau ⟨rest, y, reqs', none⟩, .tau ⟨rest', y, reqs', none⟩, ?_, ?_, .tau ⟨hrest, rfl, rfl, rfl⟩⟩
      · simp [act, hgm]
      · simp [act, hg _ _ hgm]
  cases i with
  | irecv id src loc size =>
    by_cases hc : 0 ≤ size ∧ accessible mem'.rb loc size ∧ ∀ q ∈ reqs', q.id ≠ id ∧ q.src ≠ src
    · left
      simp only [act, if_pos hc]
      exact ⟨_, _, rfl, rfl, .tau ⟨hrest, rfl, rfl, rfl⟩⟩
    · right; left
      simp only [act, if_neg hc, and_self]
  | send dst size =>
    cases hv : readBlk mem'.sb 0 size with
    | none => right; left; simp [act, hv]
    | some v =>
      left
      simp only [act, hv, Option.map_some]
      exact ⟨_, _, rfl, rfl, .push _ _ _ ⟨hrest, rfl, rfl, rfl⟩⟩
  | loc f =>
    cases hv : f mem' with
    | none => right; left; simp [act, hv]
    | some v =>
      left
      simp only [act, hv, Option.map_some]
      exact ⟨_, _, rfl, rfl, .tau ⟨hrest, rfl, rfl, rfl⟩⟩
  | waitany n unp =>
    cases n with
    | zero =>
      left
      simp only [act]
      exact ⟨_, _, rfl, rfl, .tau ⟨hrest, rfl, rfl, rfl⟩⟩
    | succ n =>
      cases hq : reqs'.find? (fun q => decide (q.id = ch)) with
      | none => right; left; simp [act, hq]
      | some q =>
        left
        simp only [act, hq, Option.map_some]
        refine ⟨_, _, rfl, rfl, .pop _ _ fun v => ?_⟩
        cases hf : finish unp q v mem' with
        | none => left; simp
        | some m =>
          right
          exact ⟨_, _, rfl, rfl, .cons (.refl _) hrest, rfl, rfl, rfl⟩
  | post inst group dst off cnt =>
    cases hv : readBlk mem'.sb off cnt with
    | none => right; left; simp [act, hv]
    | some v =>
      left
      simp only [act, hv, Option.map_some]
      exact ⟨_, _, rfl, rfl, .push _ _ _ ⟨hrest, rfl, rfl, rfl⟩⟩
  | take inst group src off cnt =>
    left
    simp only [act]
    refine ⟨_, _, rfl, rfl, .pop _ _ fun v => ?_⟩
    by_cases hc : (v.length : Int) = cnt ∧ accessible mem'.rb off cnt
    · right
      simp only [if_pos hc]
      exact ⟨_, _, rfl, rfl, hrest, rfl, rfl, rfl⟩
    · left
      simp only [if_neg hc, and_self]

theorem CfgSim.update {c c' : Config α} (h : CfgSim c c') {r : Nat} {s s' : RankSt α} (hs : RankSim s s')
    (ch : Key → List (List α)) :
    CfgSim ⟨Function.update c.rank r s, ch⟩ ⟨Function.update c'.rank r s', ch⟩ := by
  refine ⟨fun r' => ?_, rfl⟩
  by_cases hr : r' = r
  · subst hr; simpa using hs
  · simpa [Function.update_of_ne hr] using h.rank r'

/-- Steps of similar configurations. -/
theorem step_sim {e : Bool} {c c' : Config α} (h : CfgSim c c') (r ch : Nat) :
    (∃ d d', step e c r ch = some d ∧ step e c' r ch = some d' ∧ CfgSim d d') ∨
    (step e c r ch = none ∧ step e c' r ch = none) ∨ Fails c r := by
  rcases act_sim (h.rank r) ch with ⟨A, A', h1, h2, hA⟩ | ⟨h1, h2⟩ | ⟨h1, h2⟩
  · unfold step
    rw [h1, h2, h.chan]
    cases hA with
    | tau hs => exact Or.inl ⟨_, _, rfl, rfl, h.update hs _⟩
    | push cm dst v hs => exact Or.inl ⟨_, _, rfl, rfl, h.update hs _⟩
    | pop cm src hk =>
      rename_i k k'
      rcases hc : c.chan (cm, src, r) with _ | ⟨v, vs⟩
      · right; left
        simp only [hc, and_self]
      · rcases hk v with ⟨k1, k2⟩ | ⟨s, s', k1, k2, hs⟩
        · right; left
          simp only [hc, k1, k2, Option.map_none, and_self]
        · left
          simp only [hc, k1, k2, Option.map_some]
          exact ⟨_, _, rfl, rfl, h.update hs _⟩
    | sync dst hs =>
      have hpost : posted (c'.rank dst) r = posted (c.rank dst) r := by
        unfold posted; rw [(h.rank dst).reqs]
      by_cases hc : e = true ∨ (c.chan (.world, r, dst)).length ≤ posted (c.rank dst) r
      · left
        simp only [hpost, if_pos hc]
        exact ⟨_, _, rfl, rfl, h.update hs _⟩
      · right; left
        simp only [hpost, if_neg hc, and_self]
  · right; left
    unfold step
    rw [h1, h2]
    exact ⟨rfl, rfl⟩
  · right; right
    exact ⟨fun hh => h1 hh.1, Or.inl h2⟩

theorem fails_sim {c c' : Config α} (h : CfgSim c c') {r : Nat} (hf : Fails c' r) : Fails c r := by
  obtain ⟨hne, hf⟩ := hf
  have hne' : ¬ ((c.rank r).prog = [] ∧ (c.rank r).blocked = none) := by
    rintro ⟨h1, h2⟩
    apply hne
    refine ⟨?_, by rw [(h.rank r).blocked, h2]⟩
    have := (h.rank r).prog
    rw [h1] at this
    exact List.forall₂_nil_left_iff.mp this
  refine ⟨hne', ?_⟩
  rcases hf with hf | ⟨ch, cm, src, k, v, vs, h1, h2, h3⟩
  · left
    intro ch
    rcases act_sim (h.rank r) ch with ⟨A, A', h1, h2, hA⟩ | ⟨h1, _⟩ | ⟨_, h2⟩
    · rw [hf ch] at h2; cases h2
    · exact h1
    · exact h2 ch
  · rcases act_sim (h.rank r) ch with ⟨A, A', g1, g2, hA⟩ | ⟨_, g2⟩ | ⟨_, g2⟩
    · rw [h1] at g2
      obtain rfl := Option.some.inj g2
      cases hA with
      | pop cm src hk =>
        right
        rename_i k0
        rcases hk v with ⟨k1, _⟩ | ⟨s, s', _, k2, _⟩
        · exact ⟨ch, cm, src, k0, v, vs, g1, by rw [← h.chan]; exact h2, k1⟩
        · rw [h3] at k2; cases k2
    · rw [h1] at g2; cases g2
    · left; exact g2

/-- Executions of the new program are executions of the old one. -/
theorem run_sim_back {e : Bool} {k : Nat} {c c' d' : Config α} (h : CfgSim c c')
    (safe : ∀ j d, Run e j c d → ∀ r, ¬ Fails d r) (hr : Run e k c' d') :
    ∃ d, Run e k c d ∧ CfgSim d d' := by
  induction hr generalizing c with
  | refl c' => exact ⟨c, .refl c, h⟩
  | step r ch hs _ ih =>
    rcases step_sim (e := e) h r ch with ⟨d, d', h1, h2, hd⟩ | ⟨_, h2⟩ | hf
    · rw [hs] at h2
      obtain rfl := Option.some.inj h2
      obtain ⟨x, hx, hsim⟩ := ih hd fun j y hy => safe (j + 1) y (.step r ch h1 hy)
      exact ⟨x, .step r ch h1 hx, hsim⟩
    · rw [hs] at h2; cases h2
    · exact absurd hf (safe 0 c (.refl c) r)

/-- Executions of the old program are executions of the new one. -/
theorem run_sim {e : Bool} {k : Nat} {c c' d : Config α} (h : CfgSim c c')
    (safe : ∀ j d, Run e j c d → ∀ r, ¬ Fails d r) (hr : Run e k c d) :
    ∃ d', Run e k c' d' ∧ CfgSim d d' := by
  induction hr generalizing c' with
  | refl c => exact ⟨c', .refl c', h⟩
  | step r ch hs _ ih =>
    rename_i c _ _ _
    rcases step_sim (e := e) h r ch with ⟨d, d', h1, h2, hd⟩ | ⟨h1, _⟩ | hf
    · rw [hs] at h1
      obtain rfl := Option.some.inj h1
      obtain ⟨x, hx, hsim⟩ := ih hd fun j y hy => safe (j + 1) y (.step r ch hs hy)
      exact ⟨x, .step r ch h2 hx, hsim⟩
    · rw [hs] at h1; cases h1
    · exact absurd hf (safe 0 c (.refl c) r)

theorem CfgSim.final {P : Nat} {m m' : Nat → LMem α} {c' : Config α} (h : CfgSim (finalCfg P m m') c') :
    c' = finalCfg P m m' := by
  obtain ⟨rk, cn⟩ := c'
  have e1 : cn = (finalCfg P m m').chan := h.chan
  have e2 : rk = (finalCfg P m m').rank := by
    funext r
    obtain ⟨hp, hm, hq, hb⟩ := h.rank r
    have hf := (finalCfg_final P m m' r).1
    rw [hf] at hp
    ext1
    · rw [hf]; exact List.forall₂_nil_left_iff.mp hp
    · exact hm
    · exact hq
    · exact hb
  rw [e1, e2]

/-- Whatever the old program does under all schedules, the new one does. -/
theorem Terminates.refine {e : Bool} {P : Nat} {p p' : Nat → List (Instr α)} {m m' : Nat → LMem α}
    (h : Terminates e P p m m') (hp : ∀ r < P, ProgRefines (p r) (p' r)) : Terminates e P p' m m' := by
  have sim : CfgSim (initCfg P p m) (initCfg P p' m) := by
    refine ⟨fun r => ?_, rfl⟩
    by_cases hr : r < P
    · simp only [initCfg, if_pos hr]
      exact ⟨hp r hr, rfl, rfl, rfl⟩
    · simp only [initCfg, if_neg hr]
      exact .of_eq rfl
  obtain ⟨n, hn⟩ := h.bounded
  refine ⟨⟨n, fun k c' hc' => ?_⟩, fun k c' hc' hst => ?_, fun k c' hc' r hf => ?_⟩
  · obtain ⟨c, hc, hs⟩ := run_sim_back sim h.safe hc'
    obtain ⟨h1, h2⟩ := hn k c hc
    obtain ⟨x, hx, hx'⟩ := run_sim hs (fun j d hd => h.safe (k + j) d (hc.trans hd)) h2
    obtain rfl := hx'.final
    exact ⟨h1, hx⟩
  · obtain ⟨c, hc, hs⟩ := run_sim_back sim h.safe hc'
    have : c = finalCfg P m m' := h.stuck k c hc fun r ch => by
      rcases step_sim (e := e) hs r ch with ⟨d, d', _, h2, _⟩ | ⟨h1, _⟩ | hf
      · rw [hst r ch] at h2; cases h2
      · exact h1
      · exact absurd hf (h.safe k c hc r)
    subst this
    exact hs.final
  · obtain ⟨c, hc, hs⟩ := run_sim_back sim h.safe hc'
    exact h.safe k c hc r (fails_sim hs hf)

end FftMpi
