import Verif.Rounds

/-!
# A complete schedule of a point-to-point round
-/

namespace FftMpi

variable {α : Type}

theorem reach_ranks {e : Bool} (P : Nat) (C : Nat → Config α)
    (h : ∀ k < P, Reach e (C k) (C (k+1))) : Reach e (C 0) (C P) := by
  have : ∀ k ≤ P, Reach e (C 0) (C k) := by
    intro k
    induction k with
    | zero => intro _; exact Reach.refl _
    | succ k ih => intro hk; exact (ih (by omega)).trans (h k (by omega))
  exact this P (le_refl _)

/-- The plans of all ranks for one point-to-point round. -/
structure P2P (α : Type) where
  rs : Nat → List (PRecv α)
  ss : Nat → List (PSend α)
  self : Nat → List (LMem α → Option (LMem α))

/-- The instructions of rank `r`. -/
def P2P.prog (R : P2P α) (r : Nat) : List (Instr α) := p2pProg (R.rs r) (R.ss r) (R.self r)

/-- The round works out: sends and receives match, and the local code of every phase succeeds.
`M a b` is the message from `a` to `b`, `m r` and `m' r` the memory of rank `r` before and after. -/
structure P2P.Works (R : P2P α) (P : Nat) (M : Nat → Nat → List α) (m m' : Nat → LMem α) :
    Prop where
  dst_lt : ∀ a < P, ∀ b ∈ (R.ss a).map PSend.dst, b < P
  src_lt : ∀ b < P, ∀ a ∈ (R.rs b).map PRecv.src, a < P
  dst_nodup : ∀ a < P, ((R.ss a).map PSend.dst).Nodup
  src_nodup : ∀ b < P, ((R.rs b).map PRecv.src).Nodup
  matching : ∀ a < P, ∀ b < P,
    (b ∈ (R.ss a).map PSend.dst ↔ a ∈ (R.rs b).map PRecv.src)
  phases : ∀ r < P, ∃ m1 m2 m3, postPhase (R.rs r) (m r) = some m1 ∧
    sendPhase (R.ss r) m1 = some (m2, (R.ss r).map fun s => M r s.dst) ∧
    locPhase (R.self r) m2 = some m3 ∧
    waitPhase (fun a => M a r) (R.rs r) m3 = some (m' r)

theorem p2p_reach {e : Bool} (R : P2P α) (P : Nat) (M : Nat → Nat → List α) (m m' : Nat → LMem α)
    (hw : R.Works P M m m') (rest : Nat → List (Instr α)) (c : Config α)
    (hc : ∀ r < P, c.rank r = ⟨R.prog r ++ rest r, m r, [], none⟩)
    (hch : ∀ a b, c.chan (.world, a, b) = []) :
    Reach e c { rank := fun r => if r < P then ⟨rest r, m' r, [], none⟩ else c.rank r,
                chan := c.chan } := by
  classical
  have : Nonempty (LMem α) := ⟨m 0⟩
  choose! m1 m2 m3 hphase using hw.phases
  -- the waitany instruction and what follows
  let W : Nat → List (Instr α) := fun r =>
    Instr.waitany (R.rs r).length (unpAt (R.rs r)) :: rest r
  let L : Nat → List (Instr α) := fun r => (R.self r).map Instr.loc ++ W r
  let S : Nat → List (Instr α) := fun r =>
    (R.ss r).flatMap (fun s => [Instr.loc s.pk, Instr.send s.dst s.size]) ++ L r
  have hprog : ∀ r, R.prog r ++ rest r = irecvsFrom 0 (R.rs r) ++ S r := by
    intro r
    simp only [P2P.prog, p2pProg, S, L, W]
    have := mapIdx_irecv (R.rs r) 0
    simp only [Nat.add_zero] at this
    rw [this]
    simp
  let S1 : Nat → RankSt α := fun r => ⟨S r, m1 r, reqsFrom 0 (R.rs r), none⟩
  let S3 : Nat → RankSt α := fun r => ⟨W r, m3 r, reqsFrom 0 (R.rs r), none⟩
  let S4 : Nat → RankSt α := fun r => ⟨rest r, m' r, [], none⟩
  -- phase 1
  let C1 : Nat → Config α := fun k =>
    { rank := fun r => if r < k then S1 r else c.rank r, chan := c.chan }
  have p1 : Reach e (C1 0) (C1 P) := by
    apply reach_ranks
    intro k hk
    have := reach_irecvs (e := e) (R.rs k) 0 (S k) [] k (C1 k) (m k) (m1 k)
      (by simp [C1, hc k hk, hprog]) (by simp) (by simp) (hw.src_nodup k hk) (hphase k hk).1
    have e1 : C1 (k+1) = (C1 k).setRank k ⟨S k, m1 k, [] ++ reqsFrom 0 (R.rs k), none⟩ := by
      simp only [C1, Config.setRank, Config.mk.injEq, and_true]
      funext r
      by_cases h : r = k
      · subst h; simp [S1]
      · have : (r < k + 1) ↔ r < k := by omega
        simp [Function.update, h, this]
    rw [e1]; exact this
  have e0 : C1 0 = c := by simp [C1]
  rw [e0] at p1
  refine p1.trans ?_
  -- phase 2
  let C2 : Nat → Config α := fun k =>
    { rank := fun r => if r < k then S3 r else (C1 P).rank r,
      chan := fun key => if key.1 = .world ∧ key.2.1 < k ∧ key.2.2 ∈ (R.ss key.2.1).map PSend.dst
        then [M key.2.1 key.2.2] else c.chan key }
  have p2 : Reach e (C2 0) (C2 P) := by
    apply reach_ranks
    intro k hk
    have hreqs : ∀ d < P, ((C2 k).rank d).reqs = reqsFrom 0 (R.rs d) := by
      intro d hd
      by_cases h : d < k <;> simp [C2, h, S3, C1, hd, S1]
    have r1 := reach_sends (e := e) (R.ss k) (L k) (reqsFrom 0 (R.rs k)) k (C2 k) (m1 k) (m2 k)
      ((R.ss k).map fun s => M k s.dst) (by simp [C2, C1, hk, S1, S]) (hw.dst_nodup k hk)
      (by intro s _; simp [C2, hch])
      (by
        intro s hs
        have hd : s.dst ∈ (R.ss k).map PSend.dst := List.mem_map_of_mem hs
        have hlt := hw.dst_lt k hk _ hd
        have hm := (hw.matching k hk _ hlt).mp hd
        rw [← reqsFrom_src 0] at hm
        obtain ⟨q, hq, hs'⟩ := List.mem_map.mp hm
        refine ⟨q, ?_, hs'⟩
        rw [hreqs _ hlt]
        exact hq)
      (hphase k hk).2.1
    refine r1.trans ?_
    have r2 := reach_loc (e := e) (R.self k) (W k) (reqsFrom 0 (R.rs k)) k
      { (C2 k).setRank k ⟨L k, m2 k, reqsFrom 0 (R.rs k), none⟩ with
        chan := putMsgs .world k ((R.ss k).map PSend.dst) ((R.ss k).map fun s => M k s.dst)
          (C2 k).chan } (m2 k) (m3 k) (by simp [Config.setRank, L]) (hphase k hk).2.2.1
    have e2 : C2 (k+1) = Config.setRank
        { (C2 k).setRank k ⟨L k, m2 k, reqsFrom 0 (R.rs k), none⟩ with
          chan := putMsgs .world k ((R.ss k).map PSend.dst) ((R.ss k).map fun s => M k s.dst)
            (C2 k).chan } k ⟨W k, m3 k, reqsFrom 0 (R.rs k), none⟩ := by
      simp only [C2, Config.setRank, Config.mk.injEq]
      constructor
      · funext r
        by_cases h : r = k
        · subst h; simp [S3]
        · have : (r < k + 1) ↔ r < k := by omega
          simp [Function.update, h, this]
      · funext key
        obtain ⟨cm, a, b⟩ := key
        have hM : ((R.ss k).map fun s => M k s.dst) = ((R.ss k).map PSend.dst).map (M k) := by
          simp
        rw [hM]
        by_cases hkey : cm = .world ∧ a = k ∧ b ∈ (R.ss k).map PSend.dst
        · obtain ⟨rfl, rfl, hb⟩ := hkey
          rw [putMsgs_mem _ _ _ _ _ _ hb (hw.dst_nodup _ hk)]
          simp only [hch]
          simp [hb]
        · rw [putMsgs_other]
          · congr 1
            simp only [eq_iff_iff, and_congr_right_iff]
            intro h1
            constructor
            · rintro ⟨h2, h3⟩
              refine ⟨?_, h3⟩
              by_contra h4
              have : a = k := by omega
              subst this
              exact hkey ⟨h1, rfl, h3⟩
            · rintro ⟨h2, h3⟩; exact ⟨by omega, h3⟩
          · intro d hd he
            simp only [Prod.mk.injEq] at he
            obtain ⟨rfl, rfl, rfl⟩ := he
            exact hkey ⟨rfl, rfl, hd⟩
    rw [e2]; exact r2
  have e1 : C2 0 = C1 P := by simp [C2, C1]
  rw [e1] at p2
  refine p2.trans ?_
  -- phase 3
  let C3 : Nat → Config α := fun k =>
    { rank := fun r => if r < k then S4 r else (C2 P).rank r,
      chan := fun key => if key.1 = .world ∧ ¬ key.2.2 < k ∧ key.2.1 < P ∧
          key.2.2 ∈ (R.ss key.2.1).map PSend.dst
        then [M key.2.1 key.2.2] else c.chan key }
  have p3 : Reach e (C3 0) (C3 P) := by
    apply reach_ranks
    intro k hk
    have r1 := reach_waits (e := e) (R.rs k) (R.rs k) 0 (rest k) k (C3 k) (m3 k) (m' k)
      (fun a => M a k) (by simp [C3, C2, hk, S3, W]) (by intro i hi; simp [hi])
      (hw.src_nodup k hk)
      (by
        intro x hx
        have hs : x.src ∈ (R.rs k).map PRecv.src := List.mem_map_of_mem hx
        have hlt := hw.src_lt k hk _ hs
        have hm := (hw.matching _ hlt k hk).mpr hs
        simp only [C3]
        rw [if_pos]
        exact ⟨trivial, lt_irrefl _, hlt, hm⟩)
      (hphase k hk).2.2.2
    have e3 : C3 (k+1) = { (C3 k).setRank k ⟨rest k, m' k, [], none⟩ with
        chan := clearMsgs .world k ((R.rs k).map PRecv.src) (C3 k).chan } := by
      simp only [C3, Config.setRank, Config.mk.injEq]
      constructor
      · funext r
        by_cases h : r = k
        · subst h; simp [S4]
        · have : (r < k + 1) ↔ r < k := by omega
          simp [Function.update, h, this]
      · funext key
        obtain ⟨cm, a, b⟩ := key
        by_cases hkey : cm = .world ∧ b = k ∧ a ∈ (R.rs k).map PRecv.src
        · obtain ⟨rfl, rfl, ha⟩ := hkey
          rw [clearMsgs_mem _ _ _ _ _ ha]
          simp [hch]
        · rw [clearMsgs_other]
          · congr 1
            simp only [eq_iff_iff, and_congr_right_iff]
            intro h1
            constructor
            · rintro ⟨h2, h3⟩; exact ⟨by omega, h3⟩
            · rintro ⟨h2, h3, h4⟩
              refine ⟨?_, h3, h4⟩
              intro h5
              have : b = k := by omega
              subst this
              exact hkey ⟨h1, rfl, (hw.matching _ h3 _ hk).mp h4⟩
          · intro d hd he
            simp only [Prod.mk.injEq] at he
            obtain ⟨rfl, rfl, rfl⟩ := he
            exact hkey ⟨rfl, rfl, hd⟩
    rw [e3]; exact r1
  have e2 : C3 0 = C2 P := by
    simp [C3, C2]
  rw [e2] at p3
  have e4 : C3 P = { rank := fun r => if r < P then ⟨rest r, m' r, [], none⟩ else c.rank r,
                     chan := c.chan } := by
    simp only [C3, Config.mk.injEq]
    constructor
    · funext r
      by_cases h : r < P
      · simp [h, S4]
      · simp [h, C2, C1]
    · funext key
      rw [if_neg]
      rintro ⟨_, h2, h3, h4⟩
      exact h2 (hw.dst_lt _ h3 _ h4)
  rw [← e4]
  exact p3

theorem progOK_irecvs (k : Nat) (rs : List (PRecv α)) (rq : List Req) (p : List (Instr α)) :
    ProgOK rq (irecvsFrom k rs ++ p) ↔ ProgOK (rq ++ reqsFrom k rs) p := by
  induction rs generalizing k rq with
  | nil => simp [irecvsFrom, reqsFrom]
  | cons r rs ih => simp [irecvsFrom, reqsFrom, ProgOK, ih]

theorem progOK_sends (ss : List (PSend α)) (rq : List Req) (p : List (Instr α)) :
    ProgOK rq (ss.flatMap (fun s => [Instr.loc s.pk, Instr.send s.dst s.size]) ++ p) ↔
      ProgOK rq p := by
  induction ss with
  | nil => simp
  | cons s ss ih => simpa [ProgOK] using ih

theorem progOK_locs (fs : List (LMem α → Option (LMem α))) (rq : List Req) (p : List (Instr α)) :
    ProgOK rq (fs.map Instr.loc ++ p) ↔ ProgOK rq p := by
  induction fs with
  | nil => simp
  | cons s ss ih => simpa [ProgOK] using ih

theorem reqsFrom_length (k : Nat) (rs : List (PRecv α)) : (reqsFrom k rs).length = rs.length := by
  induction rs generalizing k with
  | nil => rfl
  | cons r rs ih => simp [reqsFrom, ih]

theorem mem_reqsFrom {k : Nat} {rs : List (PRecv α)} {q : Req} (h : q ∈ reqsFrom k rs) :
    ∃ i, ∃ x, rs[i]? = some x ∧ q = ⟨k + i, x.src, x.loc, x.size⟩ := by
  induction rs generalizing k with
  | nil => simp [reqsFrom] at h
  | cons r rs ih =>
    rcases List.mem_cons.mp h with rfl | h
    · exact ⟨0, r, rfl, rfl⟩
    · obtain ⟨i, x, h1, h2⟩ := ih h
      exact ⟨i + 1, x, by simpa using h1, by rw [h2, show k + 1 + i = k + (i+1) by omega]⟩

/-- Whether `y` can be unpacked does not depend on `x` having been unpacked before. -/
def RecvBack (x y : PRecv α) : Prop :=
  ∀ (v w : List α) (m m1 : LMem α), (v.length : Int) = x.size → (w.length : Int) = y.size →
    x.unp { m with rb := storeBlk m.rb x.loc v } = some m1 →
    (y.unp { m1 with rb := storeBlk m1.rb y.loc w }).isSome →
    (y.unp { m with rb := storeBlk m.rb y.loc w }).isSome

/-- Two completed receives can be unpacked in either order. -/
def RecvComm (x y : PRecv α) : Prop :=
  RecvBack x y ∧ RecvBack y x ∧
  ∀ (v w : List α) (m m1 m2 : LMem α), (v.length : Int) = x.size → (w.length : Int) = y.size →
    x.unp { m with rb := storeBlk m.rb x.loc v } = some m1 →
    y.unp { m with rb := storeBlk m.rb y.loc w } = some m2 →
    ∃ m3, y.unp { m1 with rb := storeBlk m1.rb y.loc w } = some m3 ∧
      x.unp { m2 with rb := storeBlk m2.rb x.loc v } = some m3

theorem progOK_p2p (rs : List (PRecv α)) (ss : List (PSend α))
    (self : List (LMem α → Option (LMem α))) (p : List (Instr α))
    (hcomm : rs.Pairwise RecvComm) (hp : ProgOK [] p) :
    ProgOK [] (p2pProg rs ss self ++ p) := by
  have := mapIdx_irecv rs 0
  simp only [Nat.add_zero] at this
  simp only [p2pProg, this, List.append_assoc, progOK_irecvs, progOK_sends, progOK_locs,
    List.nil_append, List.cons_append, ProgOK]
  refine ⟨(reqsFrom_length _ _).symm, ?_, hp⟩
  intro q1 h1 q2 h2 hne
  obtain ⟨i, x, hx, rfl⟩ := mem_reqsFrom h1
  obtain ⟨j, y, hy, rfl⟩ := mem_reqsFrom h2
  simp only [Nat.zero_add] at hne ⊢
  have key : ∀ (i j : Nat) (x y : PRecv α), rs[i]? = some x → rs[j]? = some y → i < j → RecvComm x y := by
    intro i j x y hx hy hij
    obtain ⟨hi, rfl⟩ := List.getElem?_eq_some_iff.mp hx
    obtain ⟨hj, rfl⟩ := List.getElem?_eq_some_iff.mp hy
    exact List.pairwise_iff_getElem.mp hcomm i j hi hj hij
  constructor
  swap
  · intro v w m m1 hv hw
    simp only [finish] at hv hw ⊢
    split at hv
    · rename_i hlv
      split at hw
      · rename_i hlw
        simp only [unpAt, hx, hy, Option.bind_some] at hv hw ⊢
        rw [if_pos hlw]
        rcases Nat.lt_or_gt_of_ne hne with h | h
        · exact (key i j x y hx hy h).1 v w m m1 hlv hlw hv hw
        · exact (key j i y x hy hx h).2.1 v w m m1 hlv hlw hv hw
      · cases hw
    · cases hv
  intro v w m m1 m2 hv hw
  simp only [finish] at hv hw ⊢
  split at hv
  · rename_i hlv
    split at hw
    · rename_i hlw
      simp only [unpAt, hx, hy, Option.bind_some] at hv hw ⊢
      rw [if_pos hlv, if_pos hlw]
      rcases Nat.lt_or_gt_of_ne hne with h | h
      · exact (key i j x y hx hy h).2.2 v w m m1 m2 hlv hlw hv hw
      · obtain ⟨m3, h3, h4⟩ := (key j i y x hy hx h).2.2 w v m m2 m1 hlw hlv hw hv
        exact ⟨m3, h4, h3⟩
    · cases hw
  · cases hv

end FftMpi
