import Verif.MachineLemmas

/-!
# Communication rounds and one complete schedule of each

`p2pProg` is the shape of the point-to-point branch of `remap()` (remap3d.cpp:643-676,
remap2d.cpp:596-629), `collProg` the shape of the collective branch (remap3d.cpp:680-710,
remap2d.cpp:633-663).  For each we exhibit one complete schedule; together with confluence this
describes all schedules.
-/

namespace FftMpi

variable {α : Type}

/-- A planned send: pack code, then `MPI_Send(sendbuf,size,..,dst,..)`. -/
structure PSend (α : Type) where
  dst : Nat
  size : Int
  pk : LMem α → Option (LMem α)

/-- A planned receive into `recvbuf[loc..loc+size)` and the unpack code run on completion. -/
structure PRecv (α : Type) where
  src : Nat
  loc : Int
  size : Int
  unp : LMem α → Option (LMem α)

/-- Unpack code of receive number `id`. -/
def unpAt (rs : List (PRecv α)) (id : Nat) (m : LMem α) : Option (LMem α) :=
  rs[id]?.bind fun r => r.unp m

/-- The instructions of the point-to-point branch, remap3d.cpp:643-676. -/
def p2pProg (rs : List (PRecv α)) (ss : List (PSend α))
    (self : List (LMem α → Option (LMem α))) : List (Instr α) :=
  rs.mapIdx (fun i r => Instr.irecv i r.src r.loc r.size) ++
  (ss.flatMap (fun s => [Instr.loc s.pk, Instr.send s.dst s.size]) ++
  (self.map Instr.loc ++
  [Instr.waitany rs.length (unpAt rs)]))

/-- The instructions of the collective branch, remap3d.cpp:680-710: pack code, one block to each
member of the communicator, one block from each member, unpack code. -/
def collProg (inst : Nat) (group : List Nat) (pks : List (LMem α → Option (LMem α)))
    (posts takes : List (Nat × Int × Int)) (unps : List (LMem α → Option (LMem α))) :
    List (Instr α) :=
  pks.map Instr.loc ++
  (posts.map (fun p => Instr.post inst group p.1 p.2.1 p.2.2) ++
  (takes.map (fun p => Instr.take inst group p.1 p.2.1 p.2.2) ++
  unps.map Instr.loc))

/-! ## What the phases of a round do to the memory of a rank -/

/-- All receives posted. -/
def postPhase : List (PRecv α) → LMem α → Option (LMem α)
  | [], m => some m
  | r :: rs, m =>
    if 0 ≤ r.size ∧ accessible m.rb r.loc r.size then
      postPhase rs { m with rb := hideBlk m.rb r.loc r.size }
    else none

/-- All sends; also returns the messages sent. -/
def sendPhase : List (PSend α) → LMem α → Option (LMem α × List (List α))
  | [], m => some (m, [])
  | s :: ss, m =>
    (s.pk m).bind fun m' => (readBlk m'.sb 0 s.size).bind fun v =>
      (sendPhase ss m').map fun r => (r.1, v :: r.2)

/-- Local code. -/
def locPhase : List (LMem α → Option (LMem α)) → LMem α → Option (LMem α)
  | [], m => some m
  | f :: fs, m => (f m).bind fun m' => locPhase fs m'

/-- All receives completed, in the order of the list; `M src` is the message of rank `src`. -/
def waitPhase (M : Nat → List α) : List (PRecv α) → LMem α → Option (LMem α)
  | [], m => some m
  | r :: rs, m =>
    if ((M r.src).length : Int) = r.size then
      (r.unp { m with rb := storeBlk m.rb r.loc (M r.src) }).bind fun m' => waitPhase M rs m'
    else none

/-- Blocks read by the sending half of an all-to-all. -/
def postBlks : List (Nat × Int × Int) → LMem α → Option (List (List α))
  | [], _ => some []
  | p :: ps, m => (readBlk m.sb p.2.1 p.2.2).bind fun v => (postBlks ps m).map (v :: ·)

/-- The receiving half of an all-to-all; `M src` is the block of rank `src`. -/
def takePhase (M : Nat → List α) : List (Nat × Int × Int) → LMem α → Option (LMem α)
  | [], m => some m
  | p :: ps, m =>
    if ((M p.1).length : Int) = p.2.2 ∧ accessible m.rb p.2.1 p.2.2 then
      takePhase M ps { m with rb := storeBlk m.rb p.2.1 (M p.1) }
    else none

/-! ## Reachability -/

/-- `c'` can be reached from `c`. -/
def Reach (e : Bool) (c c' : Config α) : Prop := ∃ n, Run e n c c'

theorem Reach.refl {e : Bool} (c : Config α) : Reach e c c := ⟨0, .refl c⟩

theorem Reach.trans {e : Bool} {a b c : Config α} (h1 : Reach e a b) (h2 : Reach e b c) :
    Reach e a c := by
  obtain ⟨n, h1⟩ := h1
  obtain ⟨m, h2⟩ := h2
  exact ⟨n + m, h1.trans h2⟩

theorem Reach.one {e : Bool} {c c' : Config α} (r ch : Nat) (h : step e c r ch = some c') :
    Reach e c c' := ⟨1, .step r ch h (.refl _)⟩

/-- Replace the state of one rank. -/
def Config.setRank (c : Config α) (r : Nat) (st : RankSt α) : Config α :=
  { c with rank := Function.update c.rank r st }

@[simp] theorem Config.setRank_self (c : Config α) (r : Nat) (st : RankSt α) :
    (c.setRank r st).rank r = st := by simp [Config.setRank]

@[simp] theorem Config.setRank_chan (c : Config α) (r : Nat) (st : RankSt α) :
    (c.setRank r st).chan = c.chan := rfl

@[simp] theorem Config.setRank_idem (c : Config α) (r : Nat) (st st' : RankSt α) :
    (c.setRank r st).setRank r st' = c.setRank r st' := by simp [Config.setRank]

theorem reach_tau {e : Bool} {c : Config α} {r : Nat} {st : RankSt α}
    (h : act (c.rank r) 0 = some (.tau st)) : Reach e c (c.setRank r st) :=
  Reach.one r 0 (by simp [step, h, Config.setRank])

/-! ### Local code -/

theorem reach_loc {e : Bool} (fs : List (LMem α → Option (LMem α))) (p : List (Instr α))
    (rq : List Req) (r : Nat) (c : Config α) (m m' : LMem α)
    (hc : c.rank r = ⟨fs.map Instr.loc ++ p, m, rq, none⟩) (h : locPhase fs m = some m') :
    Reach e c (c.setRank r ⟨p, m', rq, none⟩) := by
  induction fs generalizing c m with
  | nil =>
    simp [locPhase] at h
    subst h
    simp only [List.map_nil, List.nil_append] at hc
    rw [← hc]
    simpa [Config.setRank] using Reach.refl c
  | cons f fs ih =>
    simp only [locPhase] at h
    obtain ⟨m1, h1, h2⟩ := Option.bind_eq_some_iff.mp h
    have := reach_tau (e := e) (c := c) (r := r)
      (st := ⟨fs.map Instr.loc ++ p, m1, rq, none⟩) (by simp [hc, act, h1])
    refine this.trans ?_
    have := ih (c.setRank r ⟨fs.map Instr.loc ++ p, m1, rq, none⟩) m1 (by simp) h2
    simpa using this

/-! ### Posting receives -/

/-- The requests of a list of receives, numbered from `k`. -/
def reqsFrom (k : Nat) : List (PRecv α) → List Req
  | [] => []
  | r :: rs => ⟨k, r.src, r.loc, r.size⟩ :: reqsFrom (k+1) rs

/-- The irecv instructions, numbered from `k`. -/
def irecvsFrom (k : Nat) : List (PRecv α) → List (Instr α)
  | [] => []
  | r :: rs => .irecv k r.src r.loc r.size :: irecvsFrom (k+1) rs

theorem mapIdx_irecv (rs : List (PRecv α)) (k : Nat) :
    rs.mapIdx (fun i r => Instr.irecv (α := α) (i + k) r.src r.loc r.size) = irecvsFrom k rs := by
  induction rs generalizing k with
  | nil => rfl
  | cons r rs ih =>
    simp only [List.mapIdx_cons, irecvsFrom, Nat.zero_add, List.cons.injEq, true_and]
    rw [← ih (k+1)]
    congr 1
    funext i r
    congr 1
    omega

theorem reqsFrom_id {k : Nat} {rs : List (PRecv α)} {q : Req} (h : q ∈ reqsFrom k rs) :
    k ≤ q.id := by
  induction rs generalizing k with
  | nil => simp [reqsFrom] at h
  | cons r rs ih =>
    rcases List.mem_cons.mp h with rfl | h
    · exact le_refl _
    · exact le_trans (by omega) (ih h)

theorem reqsFrom_src (k : Nat) (rs : List (PRecv α)) :
    (reqsFrom k rs).map Req.src = rs.map PRecv.src := by
  induction rs generalizing k with
  | nil => rfl
  | cons r rs ih => simp [reqsFrom, ih]

theorem reach_irecvs {e : Bool} (rs : List (PRecv α)) (k : Nat) (p : List (Instr α))
    (rq : List Req) (r : Nat) (c : Config α) (m m' : LMem α)
    (hc : c.rank r = ⟨irecvsFrom k rs ++ p, m, rq, none⟩)
    (hid : ∀ q ∈ rq, q.id < k) (hsrc : ∀ q ∈ rq, ∀ x ∈ rs, q.src ≠ x.src)
    (hnd : (rs.map PRecv.src).Nodup)
    (h : postPhase rs m = some m') :
    Reach e c (c.setRank r ⟨p, m', rq ++ reqsFrom k rs, none⟩) := by
  induction rs generalizing c m k rq with
  | nil =>
    simp [postPhase] at h
    subst h
    simp only [irecvsFrom, List.nil_append] at hc
    simp only [reqsFrom, List.append_nil]
    rw [← hc]
    simpa [Config.setRank] using Reach.refl c
  | cons x rs ih =>
    simp only [postPhase] at h
    split at h
    · rename_i hx
      simp only [List.map_cons, List.nodup_cons] at hnd
      have h1 := reach_tau (e := e) (c := c) (r := r)
        (st := ⟨irecvsFrom (k+1) rs ++ p, { m with rb := hideBlk m.rb x.loc x.size },
          rq ++ [⟨k, x.src, x.loc, x.size⟩], none⟩) (by
          simp only [hc, irecvsFrom, List.cons_append, act]
          rw [if_pos]
          refine ⟨hx.1, hx.2, ?_⟩
          intro q hq
          exact ⟨Nat.ne_of_lt (hid q hq), hsrc q hq x (by simp)⟩)
      refine h1.trans ?_
      have := ih (k+1) (rq ++ [⟨k, x.src, x.loc, x.size⟩])
        (c.setRank r ⟨irecvsFrom (k+1) rs ++ p, { m with rb := hideBlk m.rb x.loc x.size },
          rq ++ [⟨k, x.src, x.loc, x.size⟩], none⟩) _ (by simp)
        (by
          intro q hq
          rcases List.mem_append.mp hq with hq | hq
          · exact Nat.lt_succ_of_lt (hid q hq)
          · simp only [List.mem_singleton] at hq; subst hq; simp)
        (by
          intro q hq y hy
          rcases List.mem_append.mp hq with hq | hq
          · exact hsrc q hq y (by simp [hy])
          · simp only [List.mem_singleton] at hq
            subst hq
            intro he
            have he' : x.src = y.src := he
            exact hnd.1 (he' ▸ List.mem_map_of_mem hy))
        hnd.2 h
      simpa [reqsFrom] using this
    · cases h

/-! ### Sending -/

/-- Put messages into channels of rank `a`. -/
def putMsgs (cm : Comm) (a : Nat) : List Nat → List (List α) → (Key → List (List α)) →
    (Key → List (List α))
  | d :: ds, v :: vs, ch => putMsgs cm a ds vs (Function.update ch (cm, a, d) (ch (cm, a, d) ++ [v]))
  | _, _, ch => ch

theorem putMsgs_other (cm : Comm) (a : Nat) (ds : List Nat) (vs : List (List α))
    (ch : Key → List (List α)) (k : Key) (hk : ∀ d ∈ ds, k ≠ (cm, a, d)) :
    putMsgs cm a ds vs ch k = ch k := by
  induction ds generalizing vs ch with
  | nil => cases vs <;> rfl
  | cons d ds ih =>
    cases vs with
    | nil => rfl
    | cons v vs =>
      simp only [putMsgs]
      rw [ih _ _ (fun d hd => hk d (by simp [hd])), Function.update_of_ne (hk d (by simp))]

theorem putMsgs_mem (cm : Comm) (a : Nat) (ds : List Nat) (M : Nat → List α)
    (ch : Key → List (List α)) (d : Nat) (hd : d ∈ ds) (hn : ds.Nodup) :
    putMsgs cm a ds (ds.map M) ch (cm, a, d) = ch (cm, a, d) ++ [M d] := by
  induction ds generalizing ch with
  | nil => simp at hd
  | cons x ds ih =>
    simp only [List.nodup_cons] at hn
    simp only [List.map_cons, putMsgs]
    rcases List.mem_cons.mp hd with rfl | hd
    · rw [putMsgs_other]
      · simp
      · intro y hy h
        simp only [Prod.mk.injEq, true_and] at h
        exact hn.1 (h ▸ hy)
    · rw [ih _ hd hn.2, Function.update_of_ne]
      intro h
      simp only [Prod.mk.injEq, true_and] at h
      exact hn.1 (h ▸ hd)

theorem reach_sends {e : Bool} (ss : List (PSend α)) (p : List (Instr α))
    (rq : List Req) (r : Nat) (c : Config α) (m m' : LMem α) (vs : List (List α))
    (hc : c.rank r = ⟨ss.flatMap (fun s => [Instr.loc s.pk, Instr.send s.dst s.size]) ++ p, m, rq,
      none⟩)
    (hnd : (ss.map PSend.dst).Nodup)
    (hempty : ∀ s ∈ ss, c.chan (.world, r, s.dst) = [])
    (hposted : ∀ s ∈ ss, ∃ q ∈ (c.rank s.dst).reqs, q.src = r)
    (h : sendPhase ss m = some (m', vs)) :
    Reach e c { (c.setRank r ⟨p, m', rq, none⟩) with
      chan := putMsgs .world r (ss.map PSend.dst) vs c.chan } := by
  induction ss generalizing c m vs with
  | nil =>
    simp [sendPhase] at h
    obtain ⟨rfl, rfl⟩ := h
    simp only [List.flatMap_nil, List.nil_append] at hc
    rw [← hc]
    simpa [Config.setRank, putMsgs] using Reach.refl c
  | cons s ss ih =>
    simp only [sendPhase] at h
    obtain ⟨m1, h1, h⟩ := Option.bind_eq_some_iff.mp h
    obtain ⟨v, hv, h⟩ := Option.bind_eq_some_iff.mp h
    obtain ⟨⟨m2, vs'⟩, h2, h⟩ := Option.map_eq_some_iff.mp h
    simp only [Prod.mk.injEq] at h
    obtain ⟨rfl, rfl⟩ := h
    simp only [List.map_cons, List.nodup_cons] at hnd
    -- the remaining program
    have hmem : ∀ (st : RankSt α), st.reqs = rq → ∀ d, ((c.setRank r st).rank d).reqs = (c.rank d).reqs := by
      intro st hst d
      by_cases hd : d = r
      · subst hd; simp [hst, hc]
      · simp [Config.setRank, Function.update, hd]
    let q := ss.flatMap (fun s => [Instr.loc s.pk, Instr.send s.dst s.size]) ++ p
    let c1 := c.setRank r ⟨.send s.dst s.size :: q, m1, rq, none⟩
    have r1 : Reach e c c1 := reach_tau (by simp [hc, act, h1, q])
    let c2 : Config α := { rank := Function.update c.rank r ⟨q, m1, rq, some s.dst⟩,
                           chan := Function.update c.chan (.world, r, s.dst) [v] }
    have r2 : Reach e c1 c2 := Reach.one r 0 (by
      have := hempty s (by simp)
      simp [step, c1, act, hv, c2, this, Config.setRank])
    let c3 : Config α := { rank := Function.update c.rank r ⟨q, m1, rq, none⟩,
                           chan := Function.update c.chan (.world, r, s.dst) [v] }
    have r3 : Reach e c2 c3 := Reach.one r 0 (by
      have hp : 1 ≤ posted (c2.rank s.dst) r := by
        obtain ⟨x, hx, hs⟩ := hposted s (by simp)
        have : (c2.rank s.dst).reqs = (c.rank s.dst).reqs := hmem ⟨q, m1, rq, some s.dst⟩ rfl s.dst
        unfold posted
        rw [this]
        exact List.countP_pos_iff.mpr ⟨x, hx, by simpa using hs⟩
      simp only [step]
      have ha : act (c2.rank r) 0 = some (.sync s.dst ⟨q, m1, rq, none⟩) := by
        simp [c2, act]
      rw [ha]
      simp only
      rw [if_pos]
      · simp [c2, c3]
      · right
        have : c2.chan (.world, r, s.dst) = [v] := by simp [c2]
        rw [this]
        exact hp)
    refine r1.trans (r2.trans (r3.trans ?_))
    have := ih c3 m1 vs' (by simp [c3, q]) hnd.2
      (by
        intro s' hs'
        have hne : (Comm.world, r, s'.dst) ≠ (Comm.world, r, s.dst) := by
          intro h
          simp only [Prod.mk.injEq, true_and] at h
          exact hnd.1 (h ▸ List.mem_map_of_mem hs')
        simp only [c3, Function.update_of_ne hne]
        exact hempty s' (by simp [hs']))
      (by
        intro s' hs'
        have : (c3.rank s'.dst).reqs = (c.rank s'.dst).reqs := hmem ⟨q, m1, rq, none⟩ rfl s'.dst
        rw [this]
        exact hposted s' (by simp [hs']))
      h2
    have hE := hempty s (by simp)
    simpa [c3, Config.setRank, putMsgs, hE] using this

/-! ### Waiting -/

/-- Empty the channels from the sources of a list of receives to rank `r`. -/
def clearMsgs (cm : Comm) (r : Nat) : List Nat → (Key → List (List α)) → (Key → List (List α))
  | [], ch => ch
  | s :: ss, ch => clearMsgs cm r ss (Function.update ch (cm, s, r) [])

theorem clearMsgs_other (cm : Comm) (r : Nat) (ss : List Nat) (ch : Key → List (List α)) (k : Key)
    (hk : ∀ s ∈ ss, k ≠ (cm, s, r)) : clearMsgs cm r ss ch k = ch k := by
  induction ss generalizing ch with
  | nil => rfl
  | cons s ss ih =>
    simp only [clearMsgs]
    rw [ih _ (fun d hd => hk d (by simp [hd])), Function.update_of_ne (hk s (by simp))]

theorem clearMsgs_mem (cm : Comm) (r : Nat) (ss : List Nat) (ch : Key → List (List α)) (s : Nat)
    (hs : s ∈ ss) : clearMsgs cm r ss ch (cm, s, r) = [] := by
  induction ss generalizing ch with
  | nil => simp at hs
  | cons x ss ih =>
    simp only [clearMsgs]
    by_cases h : s ∈ ss
    · exact ih _ h
    · rcases List.mem_cons.mp hs with rfl | hs
      · rw [clearMsgs_other]
        · simp
        · intro y hy he
          simp only [Prod.mk.injEq, true_and, and_true] at he
          exact h (he ▸ hy)
      · exact absurd hs h

theorem reach_waits {e : Bool} (all : List (PRecv α)) (rs : List (PRecv α)) (k : Nat)
    (p : List (Instr α)) (r : Nat) (c : Config α) (m m' : LMem α) (M : Nat → List α)
    (hc : c.rank r = ⟨.waitany rs.length (unpAt all) :: p, m, reqsFrom k rs, none⟩)
    (hall : ∀ i, (h : i < rs.length) → all[k + i]? = some rs[i])
    (hnd : (rs.map PRecv.src).Nodup)
    (hmsg : ∀ x ∈ rs, c.chan (.world, x.src, r) = [M x.src])
    (h : waitPhase M rs m = some m') :
    Reach e c { (c.setRank r ⟨p, m', [], none⟩) with
      chan := clearMsgs .world r (rs.map PRecv.src) c.chan } := by
  induction rs generalizing c m k with
  | nil =>
    simp [waitPhase] at h
    subst h
    have := reach_tau (e := e) (c := c) (r := r) (st := ⟨p, m, [], none⟩)
      (by simp [hc, act, reqsFrom])
    simpa [Config.setRank, clearMsgs] using this
  | cons x rs ih =>
    simp only [waitPhase] at h
    split at h
    · rename_i hlen
      obtain ⟨m1, h1, h⟩ := Option.bind_eq_some_iff.mp h
      simp only [List.map_cons, List.nodup_cons] at hnd
      have hx := hall 0 (by simp)
      simp only [Nat.add_zero, List.getElem_cons_zero] at hx
      let c1 : Config α :=
        { rank := Function.update c.rank r ⟨.waitany rs.length (unpAt all) :: p, m1, reqsFrom (k+1) rs, none⟩,
          chan := Function.update c.chan (.world, x.src, r) [] }
      have r1 : Reach e c c1 := Reach.one r k (by
        have hf : (reqsFrom (k+1) rs).filter (fun q => decide (q.id ≠ k)) = reqsFrom (k+1) rs := by
          rw [List.filter_eq_self]
          intro q hq
          have := reqsFrom_id hq
          simp; omega
        have hm := hmsg x (by simp)
        simp only [ne_eq, decide_not] at hf
        simp [step, hc, act, reqsFrom, hm, finish, hlen, unpAt, hx, h1, c1, hf])
      refine r1.trans ?_
      have := ih (k+1) c1 m1 (by simp [c1])
        (by
          intro i hi
          have := hall (i+1) (by simpa using hi)
          rw [show k + 1 + i = k + (i + 1) by omega]
          simpa using this)
        hnd.2
        (by
          intro y hy
          have hne : (Comm.world, y.src, r) ≠ (Comm.world, x.src, r) := by
            intro h
            simp only [Prod.mk.injEq, true_and, and_true] at h
            exact hnd.1 (h ▸ List.mem_map_of_mem hy)
          simp only [c1, Function.update_of_ne hne]
          exact hmsg y (by simp [hy]))
        h
      simpa [c1, Config.setRank, clearMsgs] using this
    · cases h

end FftMpi
