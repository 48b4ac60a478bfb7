import Verif.RemapColl

/-!
# What `setup` computes: matching of messages, groups, `MPI_Alltoallv` arguments

For an arbitrary dimension.
-/

namespace FftMpi

open Relation

variable {α : Type}

section
variable {E π : Type} {D : Dim α E π} {P : Nat} {ins outs : Nat → E}
  {nqty permute packflag : Int} {σ τ : Nat → Nat → List Int}

theorem setup_lists {me : Nat} {collective : Bool} {o : RemapObj α π}
    (h : remapSetup D P me ins outs nqty permute packflag collective = some o) :
    o.sends = (procLoop P P me).filterMap (sEnt D nqty (ins me) outs) ∧
    o.recvs = recvEntsFrom D permute nqty (outs me) ins (procLoop P P me) 0 := by
  unfold remapSetup at h
  cases collective
  · simp only [Bool.false_eq_true, if_false, Option.some.injEq] at h
    subst h
    exact ⟨rfl, rfl⟩
  · simp only [if_true] at h
    obtain ⟨t, _, rfl⟩ := Option.map_eq_some_iff.mp h
    exact ⟨rfl, rfl⟩

theorem send_plan_iff (G : Geom D P ins outs nqty permute packflag σ τ) {a b : Nat} (ha : a < P)
    (hb : b < P) {ps : List Nat} (hps : ∀ p ∈ ps, p < P) (n : Int) :
    (∃ s ∈ ps.filterMap (sEnt D nqty (ins a) outs), s.proc = b ∧ s.size = n) ↔
      b ∈ ps ∧ σ a b ≠ [] ∧ n = (σ a b).length := by
  constructor
  · rintro ⟨s, hs, rfl, rfl⟩
    obtain ⟨h1, h2, h3, _⟩ := sEnts_mem G ha ps hps hs
    exact ⟨h1, h2, h3⟩
  · rintro ⟨h1, h2, rfl⟩
    obtain ⟨e, he, h3, h4, _⟩ := sEnt_some G ha hb h2
    exact ⟨e, List.mem_filterMap.mpr ⟨b, h1, he⟩, h3, h4⟩

theorem recv_plan_iff (G : Geom D P ins outs nqty permute packflag σ τ) {a b : Nat} (ha : a < P)
    (hb : b < P) {ps : List Nat} (hps : ∀ p ∈ ps, p < P) (ib : Int) (n : Int) :
    (∃ t ∈ recvEntsFrom D permute nqty (outs b) ins ps ib, t.proc = a ∧ t.size = n) ↔
      a ∈ ps ∧ σ a b ≠ [] ∧ n = (σ a b).length := by
  constructor
  · rintro ⟨s, hs, rfl, rfl⟩
    obtain ⟨h1, h2, h3, _⟩ := rEnts_mem G hb ps hps ib hs
    exact ⟨h1, h2, by rw [h3, G.len _ ha _ hb]⟩
  · rintro ⟨h1, h2, rfl⟩
    have hm : a ∈ (recvEntsFrom D permute nqty (outs b) ins ps ib).map REnt.proc := by
      rw [rEnts_procs G hb ps hps]
      simp [h1, h2]
    obtain ⟨t, ht, hta⟩ := List.mem_map.mp hm
    obtain ⟨_, _, h3, _⟩ := rEnts_mem G hb ps hps ib ht
    refine ⟨t, ht, hta, ?_⟩
    rw [h3, hta, G.len _ ha _ hb]

/-- Sends and receives match; `take` versions are the messages of point-to-point mode. -/
theorem setup_matching (G : Geom D P ins outs nqty permute packflag σ τ) {collective : Bool}
    {obj : Nat → RemapObj α π}
    (hs : ∀ r < P, remapSetup D P r ins outs nqty permute packflag collective = some (obj r))
    {a b : Nat} (ha : a < P) (hb : b < P) (n : Int) :
    ((∃ s ∈ (obj a).sends, s.proc = b ∧ s.size = n) ↔ (σ a b ≠ [] ∧ n = (σ a b).length)) ∧
    ((∃ t ∈ (obj b).recvs, t.proc = a ∧ t.size = n) ↔ (σ a b ≠ [] ∧ n = (σ a b).length)) := by
  have hma : ∀ p, p ∈ procLoop P P a ↔ p < P := fun p => by
    rw [(procLoop_perm P a ha).mem_iff, List.mem_range]
  have hmb : ∀ p, p ∈ procLoop P P b ↔ p < P := fun p => by
    rw [(procLoop_perm P b hb).mem_iff, List.mem_range]
  rw [(setup_lists (hs a ha)).1, (setup_lists (hs b hb)).2,
    send_plan_iff G ha hb (procLoop_lt P a ha), recv_plan_iff G ha hb (procLoop_lt P b hb), hma, hmb]
  simp [ha, hb]

theorem setup_matching_p2p (G : Geom D P ins outs nqty permute packflag σ τ)
    {obj : Nat → RemapObj α π}
    (hs : ∀ r < P, remapSetup D P r ins outs nqty permute packflag false = some (obj r))
    {a b : Nat} (ha : a < P) (hb : b < P) (n : Int) :
    ((∃ s ∈ (obj a).sends.take (obj a).nsend, s.proc = b ∧ s.size = n) ↔
      (a ≠ b ∧ σ a b ≠ [] ∧ n = (σ a b).length)) ∧
    ((∃ t ∈ (obj b).recvs.take (obj b).nrecv, t.proc = a ∧ t.size = n) ↔
      (a ≠ b ∧ σ a b ≠ [] ∧ n = (σ a b).length)) := by
  rw [(p2pObj_of_setup G ha (hs a ha)).sends, (p2pObj_of_setup G hb (hs b hb)).recvs,
    send_plan_iff G ha hb (others_lt ha), recv_plan_iff G ha hb (others_lt hb),
    mem_others P a ha, mem_others P b hb]
  constructor
  · constructor
    · rintro ⟨⟨_, h⟩, h2⟩; exact ⟨fun h' => h h'.symm, h2⟩
    · rintro ⟨h, h2⟩; exact ⟨⟨hb, fun h' => h h'.symm⟩, h2⟩
  · constructor
    · rintro ⟨⟨_, h⟩, h2⟩; exact ⟨h, h2⟩
    · rintro ⟨h, h2⟩; exact ⟨⟨ha, h⟩, h2⟩

theorem setup_procs_nodup (G : Geom D P ins outs nqty permute packflag σ τ) {collective : Bool}
    {me : Nat} (hme : me < P) {o : RemapObj α π}
    (h : remapSetup D P me ins outs nqty permute packflag collective = some o) :
    (o.sends.map SEnt.proc).Nodup ∧ (o.recvs.map REnt.proc).Nodup := by
  rw [(setup_lists h).1, (setup_lists h).2, sEnts_procs G hme _ (procLoop_lt P me hme),
    rEnts_procs G hme _ (procLoop_lt P me hme)]
  exact ⟨(procLoop_nodup P me hme).filter _, (procLoop_nodup P me hme).filter _⟩

/-! ## Groups -/

theorem setup_collObj (G : Geom D P ins outs nqty permute packflag σ τ) {r : Nat} (hr : r < P)
    {o : RemapObj α π} (h : remapSetup D P r ins outs nqty permute packflag true = some o)
    {ci : CollInfo} (hc : o.coll = some ci) :
    CollObj D P ins outs nqty permute packflag σ r o ci.pgroup := by
  obtain ⟨o', g, h1, h2⟩ := collObj_exists G hr
  rw [h] at h1
  injection h1 with h1
  subst h1
  have := h2.coll
  rw [hc] at this
  injection this with this
  rw [this]
  exact h2

theorem group_sorted {r : Nat} {o : RemapObj α π} {g : List Nat}
    (O : CollObj D P ins outs nqty permute packflag σ r o g) : g.Pairwise (· < ·) := by
  obtain ⟨q, hq⟩ := O.group_sub
  rw [hq]
  exact List.pairwise_lt_range.filter _

/-! ## `MPI_Alltoallv` arguments -/

theorem entsOK_findIdx {ents : List (Nat × Int)} {w : Nat → Nat} {Q : Nat → Nat → Prop}
    {ps : List Nat} (hE : EntsOK ents w Q ps) (off : Int) :
    ∀ g ∈ groupArgs ents ps off, (g.map = none → g.cnt = 0) ∧
      ∀ i, g.map = some i → Q g.proc i ∧ g.cnt = w g.proc ∧ g.cnt ≠ 0 := by
  induction ps generalizing off with
  | nil => simp [groupArgs]
  | cons p ps ih =>
    intro g hg
    rcases hE p (by simp) with ⟨h1, h2⟩ | ⟨h0, i, h2, h3, h4⟩
    · simp only [groupArgs, h2] at hg
      rcases List.mem_cons.mp hg with rfl | hg
      · simp
      · exact ih hE.tail _ g hg
    · simp only [groupArgs, h2, h3] at hg
      rcases List.mem_cons.mp hg with rfl | hg
      · refine ⟨by simp, ?_⟩
        intro j hj
        simp only [Option.some.injEq] at hj
        subst hj
        exact ⟨h4, rfl, by dsimp only; omega⟩
      · exact ih hE.tail _ g hg

theorem CollObj.sendQ {r : Nat} {o : RemapObj α π} {g : List Nat}
    (O : CollObj D P ins outs nqty permute packflag σ r o g)
    (G : Geom D P ins outs nqty permute packflag σ τ) (hr : r < P) :
    EntsOK (o.sends.map fun e => (e.proc, e.size)) (fun p => (σ r p).length)
      (fun p i => ∃ e, o.sends[i]? = some e ∧ e.size = (σ r p).length ∧ e.proc = p) g := by
  refine (O.ents_send G hr).mono ?_
  rintro p i hi ⟨e, f, h1, h2, _⟩
  refine ⟨e, h1, h2, ?_⟩
  rcases findIdx?_spec o.sends SEnt.proc SEnt.size p with ⟨_, h⟩ | ⟨j, e', h, h3, h4, _⟩
  · rw [hi] at h; cases h
  · rw [hi] at h
    injection h with h
    subst h
    rw [h1] at h3
    injection h3 with h3
    rw [h3]; exact h4

theorem CollObj.recvQ {r : Nat} {o : RemapObj α π} {g : List Nat}
    (O : CollObj D P ins outs nqty permute packflag σ r o g)
    (G : Geom D P ins outs nqty permute packflag σ τ) (hr : r < P) :
    EntsOK (o.recvs.map fun e => (e.proc, e.size)) (fun p => (σ p r).length)
      (fun p i => ∃ e, o.recvs[i]? = some e ∧ e.size = (σ p r).length ∧ e.proc = p) g := by
  have h := O.ents_recv G hr
  have hw : ∀ p ∈ g, (σ p r).length = (τ p r).length := fun p hp =>
    (G.len p (O.lt p hp) r hr).symm
  intro p hp
  dsimp only
  rw [hw p hp]
  have key : ∀ i, (o.recvs.map fun e => (e.proc, e.size)).findIdx? (fun e => e.1 == p) = some i →
      ∃ e, o.recvs[i]? = some e ∧ e.proc = p := by
    intro i hi
    rcases findIdx?_spec o.recvs REnt.proc REnt.size p with ⟨_, h⟩ | ⟨j, e', h, h3, h4, _⟩
    · rw [hi] at h; cases h
    · rw [hi] at h
      injection h with h
      subst h
      exact ⟨e', h3, h4⟩
  rcases h p hp with h | ⟨h1, i, h2, h3, e, h4, h5, _⟩
  · exact Or.inl h
  · obtain ⟨e', he', hpe⟩ := key i h2
    rw [h4] at he'
    injection he' with he'
    exact Or.inr ⟨h1, i, h2, h3, e, h4, h5, by rw [he']; exact hpe⟩

theorem sum_map_le_flatMap_length {γ : Type} (g : List Nat) (f : Nat → List γ) :
    (g.map fun p => (f p).length).sum = (g.flatMap f).length := by
  induction g with
  | nil => rfl
  | cons p g ih => rw [List.map_cons, List.sum_cons, List.flatMap_cons, List.length_append, ih]

/-- One side of the `MPI_Alltoallv` arguments is consistent with its entries: one argument triple
for every group member in group order, no negative count, non-empty ranges inside the buffer of
`bufsize` elements and pairwise disjoint. -/
structure ArgsOK (pgroup : List Nat) (gs : List GEnt) (bufsize : Int) : Prop where
  procs : gs.map GEnt.proc = pgroup
  inside : ∀ g ∈ gs, 0 ≤ g.cnt ∧ (0 < g.cnt → 0 ≤ g.displ ∧ g.displ + g.cnt ≤ bufsize)
  disjoint : gs.Pairwise fun x y => 0 < x.cnt → 0 < y.cnt →
    x.displ + x.cnt ≤ y.displ ∨ y.displ + y.cnt ≤ x.displ

theorem CollObj.args_send {r : Nat} {o : RemapObj α π} {g : List Nat}
    (O : CollObj D P ins outs nqty permute packflag σ r o g)
    (G : Geom D P ins outs nqty permute packflag σ τ) (hr : r < P) :
    ArgsOK g (groupArgs (o.sends.map fun e => (e.proc, e.size)) g 0) o.sendsize ∧
    (∀ x ∈ groupArgs (o.sends.map fun e => (e.proc, e.size)) g 0, x.cnt = (σ r x.proc).length) := by
  obtain ⟨h1, h2⟩ := groupArgs_ranges _ _ _ g 0 (O.sendQ G hr)
  have hsz : ((g.map fun p => (σ r p).length).sum : Int) = o.sendsize := by
    rw [O.sendsize]
    have := sum_map_le_flatMap_length g (fun p => σ r p)
    rw [O.flatMap_group hr _ (fun p _ h _ => h)] at this
    exact_mod_cast this
  refine ⟨⟨groupArgs_procs _ _ _, ?_, ?_⟩, fun x hx => (h1 x hx).1⟩
  · intro x hx
    obtain ⟨a1, a2⟩ := h1 x hx
    refine ⟨by omega, ?_⟩
    intro hp
    rcases a2 with a2 | a2
    · omega
    · omega
  · refine h2.imp ?_
    intro x y h hx hy
    omega

theorem CollObj.args_recv {r : Nat} {o : RemapObj α π} {g : List Nat}
    (O : CollObj D P ins outs nqty permute packflag σ r o g)
    (G : Geom D P ins outs nqty permute packflag σ τ) (hr : r < P) :
    ArgsOK g (groupArgs (o.recvs.map fun e => (e.proc, e.size)) g 0) o.recvsize ∧
    (∀ x ∈ groupArgs (o.recvs.map fun e => (e.proc, e.size)) g 0, x.cnt = (σ x.proc r).length) := by
  obtain ⟨h1, h2⟩ := groupArgs_ranges _ _ _ g 0 (O.recvQ G hr)
  have hsz : ((g.map fun p => (σ p r).length).sum : Int) = o.recvsize := by
    rw [O.recvsize]
    have := sum_map_le_flatMap_length g (fun p => σ p r)
    rw [O.flatMap_group hr _ (fun p _ _ h => h)] at this
    exact_mod_cast this
  refine ⟨⟨groupArgs_procs _ _ _, ?_, ?_⟩, fun x hx => (h1 x hx).1⟩
  · intro x hx
    obtain ⟨a1, a2⟩ := h1 x hx
    refine ⟨by omega, ?_⟩
    intro hp
    rcases a2 with a2 | a2
    · omega
    · omega
  · refine h2.imp ?_
    intro x y h hx hy
    omega

/-- **All facts about the `MPI_Alltoallv` call of a remap.**  `S` is the pack loop, `R` the unpack
loop. -/
structure AlltoallvOK (D : Dim α E π) (P : Nat) (a : Nat) (o : RemapObj α π) (ci : CollInfo) :
    Prop where
  send : ArgsOK ci.pgroup ci.sendg o.sendsize
  recv : ArgsOK ci.pgroup ci.recvg o.recvsize
  /-- the pack loop packs the message for the group member `g.proc` at its displacement -/
  packs : ∀ ai, collPacks o.pack o.sends ai ci.sendg 0 = ci.sendg.filterMap fun g =>
    g.map.bind fun i => o.sends[i]?.map fun e => packSb o.pack ai g.displ e
  /-- the unpack loop takes the message from the group member `g.proc` from its displacement -/
  unpacks : ∀ ao, collUnpacks o.unpack o.recvs ao ci.recvg 0 = ci.recvg.filterMap fun g =>
    g.map.bind fun i => o.recvs[i]?.map fun e => unpackRb o.unpack ao g.displ e
  sendmap : ∀ g ∈ ci.sendg, (g.map = none ↔ g.cnt = 0) ∧ ∀ i, g.map = some i →
    ∃ e, o.sends[i]? = some e ∧ e.proc = g.proc ∧ e.size = g.cnt
  recvmap : ∀ g ∈ ci.recvg, (g.map = none ↔ g.cnt = 0) ∧ ∀ i, g.map = some i →
    ∃ e, o.recvs[i]? = some e ∧ e.proc = g.proc ∧ e.size = g.cnt

theorem alltoallvOK (G : Geom D P ins outs nqty permute packflag σ τ) {r : Nat} (hr : r < P)
    {o : RemapObj α π} (h : remapSetup D P r ins outs nqty permute packflag true = some o)
    {ci : CollInfo} (hc : o.coll = some ci) :
    AlltoallvOK D P r o ci ∧ (∀ x ∈ ci.sendg, x.cnt = (σ r x.proc).length) ∧
      (∀ x ∈ ci.recvg, x.cnt = (σ x.proc r).length) := by
  have O := setup_collObj G hr h hc
  have hci := O.coll
  rw [hc] at hci
  injection hci with hci
  have e1 : ci.sendg = groupArgs (o.sends.map fun e => (e.proc, e.size)) ci.pgroup 0 := by
    conv_lhs => rw [hci]
  have e2 : ci.recvg = groupArgs (o.recvs.map fun e => (e.proc, e.size)) ci.pgroup 0 := by
    conv_lhs => rw [hci]
  obtain ⟨s1, s2⟩ := O.args_send G hr
  obtain ⟨r1, r2⟩ := O.args_recv G hr
  rw [e1, e2]
  refine ⟨⟨by rw [e1]; exact s1, by rw [e2]; exact r1, ?_, ?_, ?_, ?_⟩, s2, r2⟩
  · intro ai
    rw [e1]
    exact collPacks_displ _ _ _ _ _ _ _ (O.sendQ G hr)
  · intro ao
    rw [e2]
    exact collUnpacks_displ _ _ _ _ _ _ _ (O.recvQ G hr)
  · rw [e1]
    intro g hg
    obtain ⟨h1, h2⟩ := entsOK_findIdx (O.sendQ G hr) 0 g hg
    refine ⟨⟨h1, ?_⟩, ?_⟩
    · intro h0
      cases hgm : g.map with
      | none => rfl
      | some i => exact absurd h0 (h2 i hgm).2.2
    · intro i hi
      obtain ⟨⟨e, a1, a2, a3⟩, a4, _⟩ := h2 i hi
      exact ⟨e, a1, a3, by rw [a2, a4]⟩
  · rw [e2]
    intro g hg
    obtain ⟨h1, h2⟩ := entsOK_findIdx (O.recvQ G hr) 0 g hg
    refine ⟨⟨h1, ?_⟩, ?_⟩
    · intro h0
      cases hgm : g.map with
      | none => rfl
      | some i => exact absurd h0 (h2 i hgm).2.2
    · intro i hi
      obtain ⟨⟨e, a1, a2, a3⟩, a4, _⟩ := h2 i hi
      exact ⟨e, a1, a3, by rw [a2, a4]⟩

end

end FftMpi
