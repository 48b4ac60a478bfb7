import Verif.RoundsP2P

/-!
# A complete schedule of a collective round
-/

namespace FftMpi

variable {α : Type}

theorem reach_posts {e : Bool} (inst : Nat) (group : List Nat) (ps : List (Nat × Int × Int))
    (p : List (Instr α)) (rq : List Req) (r : Nat) (c : Config α) (m : LMem α) (vs : List (List α))
    (hc : c.rank r = ⟨ps.map (fun p => Instr.post inst group p.1 p.2.1 p.2.2) ++ p, m, rq, none⟩)
    (h : postBlks ps m = some vs) :
    Reach e c { (c.setRank r ⟨p, m, rq, none⟩) with
      chan := putMsgs (.sub inst group) r (ps.map Prod.fst) vs c.chan } := by
  induction ps generalizing c vs with
  | nil =>
    simp [postBlks] at h
    subst h
    simp only [List.map_nil, List.nil_append] at hc
    rw [← hc]
    simpa [Config.setRank, putMsgs] using Reach.refl c
  | cons x ps ih =>
    simp only [postBlks] at h
    obtain ⟨v, hv, h⟩ := Option.bind_eq_some_iff.mp h
    obtain ⟨vs', h', rfl⟩ := Option.map_eq_some_iff.mp h
    let c1 : Config α :=
      { rank := Function.update c.rank r
          ⟨ps.map (fun p => Instr.post inst group p.1 p.2.1 p.2.2) ++ p, m, rq, none⟩,
        chan := Function.update c.chan (.sub inst group, r, x.1)
          (c.chan (.sub inst group, r, x.1) ++ [v]) }
    have r1 : Reach e c c1 := Reach.one r 0 (by simp [step, hc, act, hv, c1])
    refine r1.trans ?_
    have := ih c1 vs' (by simp [c1]) h'
    simpa [c1, Config.setRank, putMsgs] using this

theorem reach_takes {e : Bool} (inst : Nat) (group : List Nat) (ps : List (Nat × Int × Int))
    (p : List (Instr α)) (rq : List Req) (r : Nat) (c : Config α) (m m' : LMem α)
    (M : Nat → List α)
    (hc : c.rank r = ⟨ps.map (fun p => Instr.take inst group p.1 p.2.1 p.2.2) ++ p, m, rq, none⟩)
    (hnd : (ps.map Prod.fst).Nodup)
    (hmsg : ∀ x ∈ ps, c.chan (.sub inst group, x.1, r) = [M x.1])
    (h : takePhase M ps m = some m') :
    Reach e c { (c.setRank r ⟨p, m', rq, none⟩) with
      chan := clearMsgs (.sub inst group) r (ps.map Prod.fst) c.chan } := by
  induction ps generalizing c m with
  | nil =>
    simp [takePhase] at h
    subst h
    simp only [List.map_nil, List.nil_append] at hc
    rw [← hc]
    simpa [Config.setRank, clearMsgs] using Reach.refl c
  | cons x ps ih =>
    simp only [takePhase] at h
    split at h
    · rename_i hx
      simp only [List.map_cons, List.nodup_cons] at hnd
      let c1 : Config α :=
        { rank := Function.update c.rank r
            ⟨ps.map (fun p => Instr.take inst group p.1 p.2.1 p.2.2) ++ p,
              { m with rb := storeBlk m.rb x.2.1 (M x.1) }, rq, none⟩,
          chan := Function.update c.chan (.sub inst group, x.1, r) [] }
      have r1 : Reach e c c1 := Reach.one r 0 (by
        have hm := hmsg x (by simp)
        simp [step, hc, act, hm, c1, hx.1, hx.2])
      refine r1.trans ?_
      have := ih c1 _ (by simp [c1]) hnd.2
        (by
          intro y hy
          have hne : (Comm.sub inst group, y.1, r) ≠ (Comm.sub inst group, x.1, r) := by
            intro h
            simp only [Prod.mk.injEq, true_and, and_true] at h
            exact hnd.1 (h ▸ List.mem_map_of_mem hy)
          simp only [c1, Function.update_of_ne hne]
          exact hmsg y (by simp [hy]))
        h
      simpa [c1, Config.setRank, clearMsgs] using this
    · cases h

/-- The plans of all ranks for one collective round. -/
structure Coll (α : Type) where
  inst : Nat
  group : Nat → List Nat
  pks : Nat → List (LMem α → Option (LMem α))
  posts : Nat → List (Nat × Int × Int)
  takes : Nat → List (Nat × Int × Int)
  unps : Nat → List (LMem α → Option (LMem α))

/-- The instructions of rank `r`. -/
def Coll.prog (R : Coll α) (r : Nat) : List (Instr α) :=
  collProg R.inst (R.group r) (R.pks r) (R.posts r) (R.takes r) (R.unps r)

/-- The round works out. -/
structure Coll.Works (R : Coll α) (P : Nat) (M : Nat → Nat → List α) (m m' : Nat → LMem α) :
    Prop where
  dst_lt : ∀ a < P, ∀ b ∈ (R.posts a).map Prod.fst, b < P
  src_lt : ∀ b < P, ∀ a ∈ (R.takes b).map Prod.fst, a < P
  dst_nodup : ∀ a < P, ((R.posts a).map Prod.fst).Nodup
  src_nodup : ∀ b < P, ((R.takes b).map Prod.fst).Nodup
  matching : ∀ a < P, ∀ b < P,
    (b ∈ (R.posts a).map Prod.fst ↔ a ∈ (R.takes b).map Prod.fst)
  same_group : ∀ a < P, ∀ b ∈ (R.posts a).map Prod.fst, R.group a = R.group b
  phases : ∀ r < P, ∃ m1 m2, locPhase (R.pks r) (m r) = some m1 ∧
    postBlks (R.posts r) m1 = some ((R.posts r).map fun p => M r p.1) ∧
    takePhase (fun a => M a r) (R.takes r) m1 = some m2 ∧
    locPhase (R.unps r) m2 = some (m' r)

theorem coll_reach {e : Bool} (R : Coll α) (P : Nat) (M : Nat → Nat → List α) (m m' : Nat → LMem α)
    (hw : R.Works P M m m') (rest : Nat → List (Instr α)) (c : Config α)
    (hc : ∀ r < P, c.rank r = ⟨R.prog r ++ rest r, m r, [], none⟩)
    (hch : ∀ g a b, c.chan (.sub R.inst g, a, b) = []) :
    Reach e c { rank := fun r => if r < P then ⟨rest r, m' r, [], none⟩ else c.rank r,
                chan := c.chan } := by
  classical
  have : Nonempty (LMem α) := ⟨m 0⟩
  choose! m1 m2 hphase using hw.phases
  let U : Nat → List (Instr α) := fun r => (R.unps r).map Instr.loc ++ rest r
  let T : Nat → List (Instr α) := fun r =>
    (R.takes r).map (fun p => Instr.take R.inst (R.group r) p.1 p.2.1 p.2.2) ++ U r
  let Q : Nat → List (Instr α) := fun r =>
    (R.posts r).map (fun p => Instr.post R.inst (R.group r) p.1 p.2.1 p.2.2) ++ T r
  have hprog : ∀ r, R.prog r ++ rest r = (R.pks r).map Instr.loc ++ Q r := by
    intro r
    simp [Coll.prog, collProg, Q, T, U]
  let S1 : Nat → RankSt α := fun r => ⟨T r, m1 r, [], none⟩
  let S2 : Nat → RankSt α := fun r => ⟨rest r, m' r, [], none⟩
  let C1 : Nat → Config α := fun k =>
    { rank := fun r => if r < k then S1 r else c.rank r,
      chan := fun key => if key.1 = .sub R.inst (R.group key.2.1) ∧ key.2.1 < k ∧
          key.2.2 ∈ (R.posts key.2.1).map Prod.fst
        then [M key.2.1 key.2.2] else c.chan key }
  have p1 : Reach e (C1 0) (C1 P) := by
    apply reach_ranks
    intro k hk
    have r1 := reach_loc (e := e) (R.pks k) (Q k) [] k (C1 k) (m k) (m1 k)
      (by simp [C1, hc k hk, hprog]) (hphase k hk).1
    refine r1.trans ?_
    have r2 := reach_posts (e := e) R.inst (R.group k) (R.posts k) (T k) [] k
      ((C1 k).setRank k ⟨Q k, m1 k, [], none⟩) (m1 k) _ (by simp [Q]) (hphase k hk).2.1
    have e1 : C1 (k+1) = { ((C1 k).setRank k ⟨Q k, m1 k, [], none⟩).setRank k
          ⟨T k, m1 k, [], none⟩ with
        chan := putMsgs (.sub R.inst (R.group k)) k ((R.posts k).map Prod.fst)
          ((R.posts k).map fun p => M k p.1)
          ((C1 k).setRank k ⟨Q k, m1 k, [], none⟩).chan } := by
      simp only [C1, Config.setRank, Config.mk.injEq, Function.update_idem]
      constructor
      · funext r
        by_cases h : r = k
        · subst h; simp [S1]
        · have : (r < k + 1) ↔ r < k := by omega
          simp [Function.update, h, this]
      · funext key
        obtain ⟨cm, a, b⟩ := key
        have hM : ((R.posts k).map fun p => M k p.1) = ((R.posts k).map Prod.fst).map (M k) := by
          simp
        rw [hM]
        by_cases hkey : cm = .sub R.inst (R.group k) ∧ a = k ∧ b ∈ (R.posts k).map Prod.fst
        · obtain ⟨rfl, rfl, hb⟩ := hkey
          rw [putMsgs_mem _ _ _ _ _ _ hb (hw.dst_nodup _ hk)]
          simp only [hch]
          simp [hb]
        · rw [putMsgs_other]
          · congr 1
            simp only [eq_iff_iff, and_congr_right_iff]
            intro h1
            constructor
            · rintro ⟨h2, h3⟩
              refine ⟨?_, h3⟩
              by_contra h4
              have : a = k := by omega
              subst this
              exact hkey ⟨h1, rfl, h3⟩
            · rintro ⟨h2, h3⟩; exact ⟨by omega, h3⟩
          · intro d hd he
            simp only [Prod.mk.injEq] at he
            obtain ⟨rfl, rfl, rfl⟩ := he
            exact hkey ⟨rfl, rfl, hd⟩
    rw [e1]; exact r2
  have e0 : C1 0 = c := by simp [C1]
  rw [e0] at p1
  refine p1.trans ?_
  let C2 : Nat → Config α := fun k =>
    { rank := fun r => if r < k then S2 r else (C1 P).rank r,
      chan := fun key => if key.1 = .sub R.inst (R.group key.2.1) ∧ ¬ key.2.2 < k ∧ key.2.1 < P ∧
          key.2.2 ∈ (R.posts key.2.1).map Prod.fst
        then [M key.2.1 key.2.2] else c.chan key }
  have p2 : Reach e (C2 0) (C2 P) := by
    apply reach_ranks
    intro k hk
    have r1 := reach_takes (e := e) R.inst (R.group k) (R.takes k) (U k) [] k (C2 k) (m1 k) (m2 k)
      (fun a => M a k) (by simp [C2, C1, hk, S1, T]) (hw.src_nodup k hk)
      (by
        intro x hx
        have hs : x.1 ∈ (R.takes k).map Prod.fst := List.mem_map_of_mem hx
        have hlt := hw.src_lt k hk _ hs
        have hm := (hw.matching _ hlt k hk).mpr hs
        simp only [C2]
        rw [if_pos]
        exact ⟨by rw [hw.same_group _ hlt _ hm], lt_irrefl _, hlt, hm⟩)
      (hphase k hk).2.2.1
    refine r1.trans ?_
    have r2 := reach_loc (e := e) (R.unps k) (rest k) [] k
      { (C2 k).setRank k ⟨U k, m2 k, [], none⟩ with
        chan := clearMsgs (.sub R.inst (R.group k)) k ((R.takes k).map Prod.fst) (C2 k).chan }
      (m2 k) (m' k) (by simp [Config.setRank, U]) (hphase k hk).2.2.2
    have e3 : C2 (k+1) = Config.setRank { (C2 k).setRank k ⟨U k, m2 k, [], none⟩ with
        chan := clearMsgs (.sub R.inst (R.group k)) k ((R.takes k).map Prod.fst) (C2 k).chan } k
        ⟨rest k, m' k, [], none⟩ := by
      simp only [C2, Config.setRank, Config.mk.injEq, Function.update_idem]
      constructor
      · funext r
        by_cases h : r = k
        · subst h; simp [S2]
        · have : (r < k + 1) ↔ r < k := by omega
          simp [Function.update, h, this]
      · funext key
        obtain ⟨cm, a, b⟩ := key
        by_cases hkey : cm = .sub R.inst (R.group k) ∧ b = k ∧ a ∈ (R.takes k).map Prod.fst
        · obtain ⟨rfl, rfl, ha⟩ := hkey
          rw [clearMsgs_mem _ _ _ _ _ ha]
          simp [hch]
        · rw [clearMsgs_other]
          · congr 1
            simp only [eq_iff_iff, and_congr_right_iff]
            intro h1
            constructor
            · rintro ⟨h2, h3⟩; exact ⟨by omega, h3⟩
            · rintro ⟨h2, h3, h4⟩
              refine ⟨?_, h3, h4⟩
              intro h5
              have : b = k := by omega
              subst this
              refine hkey ⟨?_, rfl, (hw.matching _ h3 _ hk).mp h4⟩
              rw [h1, hw.same_group _ h3 _ h4]
          · intro d hd he
            simp only [Prod.mk.injEq] at he
            obtain ⟨rfl, rfl, rfl⟩ := he
            exact hkey ⟨rfl, rfl, hd⟩
    rw [e3]; exact r2
  have e2 : C2 0 = C1 P := by
    simp [C2, C1]
  rw [e2] at p2
  have e4 : C2 P = { rank := fun r => if r < P then ⟨rest r, m' r, [], none⟩ else c.rank r,
                     chan := c.chan } := by
    simp only [C2, Config.mk.injEq]
    constructor
    · funext r
      by_cases h : r < P
      · simp [h, S2]
      · simp [h, C1]
    · funext key
      rw [if_neg]
      rintro ⟨_, h2, h3, h4⟩
      exact h2 (hw.dst_lt _ h3 _ h4)
  rw [← e4]
  exact p2

theorem progOK_coll (inst : Nat) (group : List Nat) (pks : List (LMem α → Option (LMem α)))
    (posts takes : List (Nat × Int × Int)) (unps : List (LMem α → Option (LMem α)))
    (p : List (Instr α)) (hp : ProgOK [] p) :
    ProgOK [] (collProg inst group pks posts takes unps ++ p) := by
  have h1 : ∀ (l : List (Nat × Int × Int)) (q : List (Instr α)), ProgOK [] q →
      ProgOK [] (l.map (fun p => Instr.post inst group p.1 p.2.1 p.2.2) ++ q) := by
    intro l q hq
    induction l with
    | nil => simpa
    | cons x l ih => simpa [ProgOK] using ih
  have h2 : ∀ (l : List (Nat × Int × Int)) (q : List (Instr α)), ProgOK [] q →
      ProgOK [] (l.map (fun p => Instr.take inst group p.1 p.2.1 p.2.2) ++ q) := by
    intro l q hq
    induction l with
    | nil => simpa
    | cons x l ih => simpa [ProgOK] using ih
  simp only [collProg, List.append_assoc, progOK_locs]
  exact h1 _ _ (h2 _ _ ((progOK_locs _ _ _).mpr hp))

end FftMpi
