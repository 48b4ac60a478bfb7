import Verif.RoundsColl

/-!
# Composing rounds, and all schedules of a composition

`StageOK`: the programs of all ranks together form a stage that has a complete schedule turning the
memories `m` into `m'`.  Stages compose, and a stage that is a whole program behaves the same under
every schedule.
-/

namespace FftMpi

variable {α : Type}

/-- The ranks `0..P-1` can run `prog` from memories `m` to memories `m'`, whatever comes next. -/
structure StageOK (e : Bool) (P : Nat) (prog : Nat → List (Instr α)) (m m' : Nat → LMem α) :
    Prop where
  reach : ∀ (rest : Nat → List (Instr α)) (c : Config α),
    (∀ r < P, c.rank r = ⟨prog r ++ rest r, m r, [], none⟩) → (∀ k, c.chan k = []) →
    Reach e c { rank := fun r => if r < P then ⟨rest r, m' r, [], none⟩ else c.rank r,
                chan := c.chan }
  ok : ∀ r < P, ∀ p, ProgOK [] p → ProgOK [] (prog r ++ p)

theorem StageOK.nil {e : Bool} {P : Nat} (m : Nat → LMem α) : StageOK e P (fun _ => []) m m where
  reach := by
    intro rest c hc _
    have : ({ rank := fun r => if r < P then ⟨rest r, m r, [], none⟩ else c.rank r,
              chan := c.chan } : Config α) = c := by
      ext1
      · funext r
        by_cases h : r < P
        · simp only [h, if_true]; rw [hc r h]; rfl
        · simp [h]
      · rfl
    rw [this]
    exact Reach.refl c
  ok := by intro r _ p hp; simpa using hp

theorem StageOK.append {e : Bool} {P : Nat} {p1 p2 : Nat → List (Instr α)} {m m1 m2 : Nat → LMem α}
    (h1 : StageOK e P p1 m m1) (h2 : StageOK e P p2 m1 m2) :
    StageOK e P (fun r => p1 r ++ p2 r) m m2 where
  reach := by
    intro rest c hc hch
    refine (h1.reach (fun r => p2 r ++ rest r) c ?_ hch).trans ?_
    · intro r hr; simpa using hc r hr
    · have := h2.reach rest
        { rank := fun r => if r < P then ⟨p2 r ++ rest r, m1 r, [], none⟩ else c.rank r,
          chan := c.chan } (by intro r hr; simp [hr]) hch
      convert this using 3
      rename_i r
      by_cases h : r < P <;> simp [h]
  ok := by
    intro r hr p hp
    rw [List.append_assoc]
    exact h1.ok r hr _ (h2.ok r hr _ hp)

theorem StageOK.congr {e : Bool} {P : Nat} {p p' : Nat → List (Instr α)} {m m' : Nat → LMem α}
    (h : StageOK e P p m m') (hp : ∀ r < P, p' r = p r) : StageOK e P p' m m' where
  reach := by
    intro rest c hc hch
    exact h.reach rest c (by intro r hr; rw [hc r hr, hp r hr]) hch
  ok := by intro r hr q hq; rw [hp r hr]; exact h.ok r hr q hq

/-- Purely local code on every rank. -/
theorem StageOK.loc {e : Bool} {P : Nat} (fs : Nat → List (LMem α → Option (LMem α)))
    (m m' : Nat → LMem α) (h : ∀ r < P, locPhase (fs r) (m r) = some (m' r)) :
    StageOK e P (fun r => (fs r).map Instr.loc) m m' where
  reach := by
    intro rest c hc hch
    let C : Nat → Config α := fun k =>
      { rank := fun r => if r < k then ⟨rest r, m' r, [], none⟩ else c.rank r, chan := c.chan }
    have e0 : C 0 = c := by simp [C]
    have : Reach e (C 0) (C P) := by
      apply reach_ranks
      intro k hk
      have r1 := reach_loc (e := e) (fs k) (rest k) [] k (C k) (m k) (m' k)
        (by simp [C, hc k hk]) (h k hk)
      convert r1 using 1
      simp only [C, Config.setRank, Config.mk.injEq, and_true]
      funext r
      by_cases h : r = k
      · subst h; simp
      · have : (r < k + 1) ↔ r < k := by omega
        simp [Function.update, h, this]
    rwa [e0] at this
  ok := by
    intro r _ p hp
    exact (progOK_locs _ _ _).mpr hp

/-- A point-to-point round as a stage. -/
theorem StageOK.p2p {e : Bool} {P : Nat} (R : P2P α) (M : Nat → Nat → List α) (m m' : Nat → LMem α)
    (hw : R.Works P M m m') (hc : ∀ r < P, (R.rs r).Pairwise RecvComm) :
    StageOK e P R.prog m m' where
  reach := fun rest c h hch => p2p_reach R P M m m' hw rest c h (fun _ _ => hch _)
  ok := fun r hr p hp => progOK_p2p _ _ _ _ (hc r hr) hp

/-- A collective round as a stage. -/
theorem StageOK.coll {e : Bool} {P : Nat} (R : Coll α) (M : Nat → Nat → List α) (m m' : Nat → LMem α)
    (hw : R.Works P M m m') : StageOK e P R.prog m m' where
  reach := fun rest c h hch => coll_reach R P M m m' hw rest c h (fun _ _ _ => hch _)
  ok := fun _ _ p hp => progOK_coll _ _ _ _ _ _ p hp

/-! ## Whole programs -/

/-- Start of the parallel program: `P` ranks, memories `m`, nothing in flight. -/
def initCfg (P : Nat) (prog : Nat → List (Instr α)) (m : Nat → LMem α) : Config α where
  rank r := if r < P then ⟨prog r, m r, [], none⟩ else ⟨[], m r, [], none⟩
  chan _ := []

/-- All ranks have returned, memories `m'`, nothing in flight. -/
def finalCfg (P : Nat) (m m' : Nat → LMem α) : Config α where
  rank r := if r < P then ⟨[], m' r, [], none⟩ else ⟨[], m r, [], none⟩
  chan _ := []

theorem finalCfg_final (P : Nat) (m m' : Nat → LMem α) : Final (finalCfg P m m') := by
  intro r
  by_cases h : r < P <;> simp [finalCfg, h]

theorem initCfg_inv {P : Nat} {prog : Nat → List (Instr α)} (m : Nat → LMem α)
    (h : ∀ r < P, ProgOK [] (prog r)) : Inv (initCfg P prog m) := by
  intro r
  by_cases hr : r < P
  · simp only [initCfg, hr, if_true]
    exact ⟨h r hr, by simp, by simp⟩
  · simp only [initCfg, hr, if_false]
    exact ⟨by simp [ProgOK], by simp, by simp⟩

/-- Every schedule of the program leads to the same final configuration: any execution, however it
was scheduled so far, can be continued, all its continuations have bounded length, and when it
cannot be continued it is the final configuration `finalCfg P m m'`; and in no reachable
configuration any rank is about to do something wrong. -/
structure Terminates (e : Bool) (P : Nat) (prog : Nat → List (Instr α)) (m m' : Nat → LMem α) :
    Prop where
  bounded : ∃ n, ∀ k c, Run e k (initCfg P prog m) c → k ≤ n ∧ Run e (n - k) c (finalCfg P m m')
  stuck : ∀ k c, Run e k (initCfg P prog m) c → (∀ r ch, step e c r ch = none) →
    c = finalCfg P m m'
  safe : ∀ k c, Run e k (initCfg P prog m) c → ∀ r, ¬ Fails c r

theorem StageOK.terminates {e : Bool} {P : Nat} {prog : Nat → List (Instr α)} {m m' : Nat → LMem α}
    (h : StageOK e P prog m m') : Terminates e P prog m m' := by
  have hinv : Inv (initCfg P prog m) := initCfg_inv m (fun r hr => by
    simpa using h.ok r hr [] (by simp [ProgOK]))
  have hreach := h.reach (fun _ => []) (initCfg P prog m)
    (by intro r hr; simp [initCfg, hr]) (by intro k; rfl)
  have he : ({ rank := fun r => if r < P then ⟨[], m' r, [], none⟩ else (initCfg P prog m).rank r,
               chan := (initCfg P prog m).chan } : Config α) = finalCfg P m m' := by
    simp only [finalCfg, initCfg, Config.mk.injEq, and_true]
    funext r
    by_cases h : r < P <;> simp [h]
  rw [he] at hreach
  obtain ⟨n, hn⟩ := hreach
  have hb : ∀ k c, Run e k (initCfg P prog m) c → k ≤ n ∧ Run e (n - k) c (finalCfg P m m') := by
    intro k c hc
    obtain ⟨j, hj, hr⟩ := confluence hn hinv (fun r ch => (finalCfg_final P m m').no_step r ch) hc
    refine ⟨by omega, ?_⟩
    rw [show n - k = j by omega]
    exact hr
  refine ⟨⟨n, hb⟩, ?_,
    fun k c hc r => (hb k c hc).2.not_fails (hc.inv hinv) (finalCfg_final P m m') r⟩
  intro k c hc hs
  have := (hb k c hc).2
  generalize hj : n - k = j at this
  cases this with
  | refl => rfl
  | step r ch h' _ => rw [hs r ch] at h'; cases h'

end FftMpi
