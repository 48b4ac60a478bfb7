import Verif.RemapWorks

/-!
# The point-to-point remap works
-/

namespace FftMpi

variable {α : Type}

theorem dropSelf_append (A B : List Nat) (me : Nat) (hA : me ∉ A) (hB : B = [] ∨ B = [me]) :
    dropSelf (A ++ B) me false = A.length := by
  unfold dropSelf
  rcases hB with rfl | rfl
  · rw [List.append_nil, if_neg]
    rintro ⟨_, h2, _⟩
    exact hA (List.mem_of_getElem? h2)
  · rw [if_pos]
    · simp
    · simp

theorem le_foldl_max (l : List Int) (x : Int) (b : Int) (h : x ∈ l ∨ x ≤ b) : x ≤ l.foldl max b := by
  induction l generalizing b with
  | nil => simpa using h
  | cons y l ih =>
    simp only [List.foldl_cons]
    apply ih
    rcases h with h | h
    · rcases List.mem_cons.mp h with rfl | h
      · right; exact le_max_right _ _
      · left; exact h
    · right; exact le_trans h (le_max_left _ _)

section
variable {E π : Type} {D : Dim α E π} {P : Nat} {ins outs : Nat → E}
  {nqty permute packflag : Int} {σ τ : Nat → Nat → List Int}

/-- What `remapSetup` computes in point-to-point mode. -/
structure P2PObj (D : Dim α E π) (P : Nat) (ins outs : Nat → E) (nqty permute packflag : Int)
    (σ : Nat → Nat → List Int) (r : Nat) (o : RemapObj α π) : Prop where
  sends : o.sends.take o.nsend = (others P r).filterMap (sEnt D nqty (ins r) outs)
  sself : o.sends[o.nsend]? = sEnt D nqty (ins r) outs r
  recvs : o.recvs.take o.nrecv = recvEntsFrom D permute nqty (outs r) ins (others P r) 0
  rself : o.recvs.drop o.nrecv = recvEntsFrom D permute nqty (outs r) ins [r]
    ((others P r).flatMap fun a => σ a r).length
  self : o.self = true ↔ σ r r ≠ []
  pack : ∀ p < P, σ r p ≠ [] → o.pack = D.packSel packflag
  unpack : ∀ p < P, σ p r ≠ [] → o.unpack = D.unpackSel packflag permute nqty
  sendsize : ∀ p ∈ others P r, ((σ r p).length : Int) ≤ o.sendsize
  recvsize : o.recvsize = D.size nqty (outs r)

theorem others_lt {P me : Nat} (h : me < P) : ∀ p ∈ others P me, p < P :=
  fun p hp => ((mem_others P me h p).mp hp).1

theorem p2pObj_of_setup (G : Geom D P ins outs nqty permute packflag σ τ) {r : Nat} (hr : r < P)
    {o : RemapObj α π} (h : remapSetup D P r ins outs nqty permute packflag false = some o) :
    P2PObj D P ins outs nqty permute packflag σ r o := by
  have hol := others_lt hr
  have hr1 : ∀ p ∈ [r], p < P := by simpa using hr
  have hS : sendEnts D P r nqty (ins r) outs =
      (others P r).filterMap (sEnt D nqty (ins r) outs) ++
        [r].filterMap (sEnt D nqty (ins r) outs) := by
    rw [← List.filterMap_append, ← procLoop_others P r hr]; rfl
  have hlen : ∀ l : List Nat, (∀ p ∈ l, p < P) →
      (l.flatMap fun a => τ a r).length = (l.flatMap fun a => σ a r).length :=
    fun l hl => flatMap_length_congr _ _ _ fun a ha => G.len a (hl a ha) r hr
  have hR : recvEnts D P r permute nqty (outs r) ins =
      recvEntsFrom D permute nqty (outs r) ins (others P r) 0 ++
        recvEntsFrom D permute nqty (outs r) ins [r]
          ((others P r).flatMap fun a => σ a r).length := by
    unfold recvEnts
    rw [procLoop_others P r hr, rEnts_append G hr _ _ hol 0, hlen _ hol]
    simp
  have hps := sEnts_procs G hr (others P r) hol
  have hps' := sEnts_procs G hr [r] hr1
  have hpr := rEnts_procs G hr (others P r) hol 0
  have hpr' := rEnts_procs G hr [r] hr1 ((others P r).flatMap fun a => σ a r).length
  have hno := not_mem_others P r hr
  have hB : ([r].filter fun p => decide (σ r p ≠ [])) = [] ∨
      ([r].filter fun p => decide (σ r p ≠ [])) = [r] := by
    by_cases h : σ r r = [] <;> simp [h]
  have hB' : ([r].filter fun p => decide (σ p r ≠ [])) = [] ∨
      ([r].filter fun p => decide (σ p r ≠ [])) = [r] := by
    by_cases h : σ r r = [] <;> simp [h]
  have hns : dropSelf ((sendEnts D P r nqty (ins r) outs).map SEnt.proc) r false =
      ((others P r).filterMap (sEnt D nqty (ins r) outs)).length := by
    rw [hS, List.map_append, hps, hps', dropSelf_append _ _ _ (fun hm => hno (List.mem_filter.mp hm).1) hB,
      ← hps, List.length_map]
  have hnr : dropSelf ((recvEnts D P r permute nqty (outs r) ins).map REnt.proc) r false =
      (recvEntsFrom D permute nqty (outs r) ins (others P r) 0).length := by
    rw [hR, List.map_append, hpr, hpr', dropSelf_append _ _ _ (fun hm => hno (List.mem_filter.mp hm).1) hB',
      ← hpr, List.length_map]
  simp only [remapSetup, Bool.false_eq_true, if_false, Option.some.injEq] at h
  subst h
  rw [hns, hnr]
  constructor
  · simp only [hS]; simp
  · simp only [hS]
    rw [List.getElem?_append_right (le_refl _), Nat.sub_self]
    rw [List.filterMap_cons]
    cases sEnt D nqty (ins r) outs r <;> rfl
  · simp only [hR]; simp
  · simp only [hR]; simp
  · simp only [hR, List.length_append, decide_eq_true_eq]
    have : (recvEntsFrom D permute nqty (outs r) ins [r] ((others P r).flatMap fun a => σ a r).length).length
        = ([r].filter fun p => decide (σ p r ≠ [])).length := by rw [← hpr', List.length_map]
    rw [this]
    by_cases h : σ r r = [] <;> simp [h]
  · intro p hp hσ
    simp only
    rw [if_neg]
    intro he
    have hmem : p ∈ (sendEnts D P r nqty (ins r) outs).map SEnt.proc := by
      rw [hS, List.map_append, hps, hps', ← List.filter_append, List.mem_filter]
      refine ⟨?_, by simpa using hσ⟩
      rw [(others_perm P r hr).mem_iff]; simpa using hp
    rw [he] at hmem; simp at hmem
  · intro p hp hσ
    simp only
    rw [if_neg]
    intro he
    have hmem : p ∈ (recvEnts D P r permute nqty (outs r) ins).map REnt.proc := by
      rw [hR, List.map_append, hpr, hpr', ← List.filter_append, List.mem_filter]
      refine ⟨?_, by simpa using hσ⟩
      rw [(others_perm P r hr).mem_iff]; simpa using hp
    rw [he] at hmem; simp at hmem
  · intro p hp
    simp only
    apply le_foldl_max
    by_cases h : σ r p = []
    · right; simp [h]
    · left
      simp only [hS]
      rw [List.take_left' rfl]
      obtain ⟨e, he, _, h2, _⟩ := sEnt_some G hr (hol p hp) h
      rw [← h2]
      exact List.mem_map_of_mem (List.mem_filterMap.mpr ⟨p, hp, he⟩)
  · rfl

theorem pairwise_recv (G : Geom D P ins outs nqty permute packflag σ τ) {r : Nat} (hr : r < P)
    (unpk : Option (CopyFn α π)) (hunp : ∀ p < P, σ p r ≠ [] → unpk = D.unpackSel packflag permute nqty)
    (ao : Nat) (ps : List Nat) (hps : ∀ p ∈ ps, p < P) (hn : (ps.flatMap fun a => τ a r).Nodup)
    (ib : Int) :
    ((recvEntsFrom D permute nqty (outs r) ins ps ib).map (toPRecv unpk ao)).Pairwise RecvComm := by
  induction ps generalizing ib with
  | nil => simp [recvEntsFrom]
  | cons p ps ih =>
    have hps' : ∀ q ∈ ps, q < P := fun q hq => hps q (by simp [hq])
    simp only [List.flatMap_cons] at hn
    have hn' := List.nodup_append.mp hn
    rcases rEnt_cases G hr (hps p (by simp)) ps ib with ⟨_, _, heq⟩ | ⟨_, h, e, heq, h1, h2, h3, h4⟩
    · rw [heq]; exact ih hps' hn'.2.1 ib
    · rw [heq, List.map_cons, List.pairwise_cons]
      refine ⟨?_, ih hps' hn'.2.1 _⟩
      intro x hx
      obtain ⟨e2, he2, rfl⟩ := List.mem_map.mp hx
      obtain ⟨a1, a2, a3, a4, _, a6⟩ := rEnts_mem G hr ps hps' _ he2
      have hu := hunp p (hps p (by simp)) h
      refine recvComm_entries unpk ao e e2 (τ p r) (τ e2.proc r) h2 a3 (by rw [hu]; exact h4)
        (by rw [hu]; exact a6) ?_ (by omega)
      intro x hx hx'
      exact hn'.2.2 x hx x (List.mem_flatMap.mpr ⟨_, a1, hx'⟩) rfl

/-- The whole point-to-point remap of all ranks. -/
theorem remap_p2p (G : Geom D P ins outs nqty permute packflag σ τ)
    (hN : ∀ b < P, ((List.range P).flatMap fun a => τ a b).Nodup) (e : Bool) (inst ai ao : Nat)
    (obj : Nat → RemapObj α π)
    (hobj : ∀ r < P, remapSetup D P r ins outs nqty permute packflag false = some (obj r))
    (m : Nat → LMem α)
    (hm : MemOK P σ τ ai ao m (fun r => (obj r).sendsize) (fun r => (obj r).recvsize)) :
    ∃ m', StageOK e P (fun r => (obj r).prog false inst ai ao) m m' ∧
      ∀ r < P, (m' r).ub = Function.update (m r).ub ao (deliver P σ τ m ai ao r) ∧
        (∀ a, ((m' r).sb a).isSome = ((m r).sb a).isSome) ∧
        (∀ a, ((m' r).rb a).isSome = ((m r).rb a).isSome) := by
  have ho : ∀ r < P, P2PObj D P ins outs nqty permute packflag σ r (obj r) :=
    fun r hr => p2pObj_of_setup G hr (hobj r hr)
  let R : P2P α :=
    { rs := fun r => (obj r).p2pRecvs ao
      ss := fun r => (obj r).p2pSends ai
      self := fun r => (obj r).p2pSelf ai ao }
  have hrs : ∀ r < P, R.rs r = (recvEntsFrom D permute nqty (outs r) ins (others P r) 0).map
      (toPRecv (obj r).unpack ao) := by
    intro r hr
    simp only [R, RemapObj.p2pRecvs, (ho r hr).recvs]; rfl
  have hss : ∀ r < P, R.ss r = ((others P r).filterMap (sEnt D nqty (ins r) outs)).map
      (toPSend (obj r).pack ai) := by
    intro r hr
    simp only [R, RemapObj.p2pSends, (ho r hr).sends]; rfl
  have hdst : ∀ r < P, (R.ss r).map PSend.dst = (others P r).filter fun p => σ r p ≠ [] := by
    intro r hr
    rw [hss r hr, ← sEnts_procs G hr _ (others_lt hr), List.map_map]; rfl
  have hsrc : ∀ r < P, (R.rs r).map PRecv.src = (others P r).filter fun p => σ p r ≠ [] := by
    intro r hr
    rw [hrs r hr, ← rEnts_procs G hr _ (others_lt hr) 0, List.map_map]; rfl
  have hMlen : ∀ a < P, ∀ b < P, (msg σ m ai a b).length = (τ a b).length := by
    intro a ha b hb
    rw [msg_length hm.inp ha hb, G.len a ha b hb]
  have hflat : ∀ r < P, ∀ l : List Nat, (∀ p ∈ l, p < P) →
      (l.flatMap fun a => msg σ m ai a r).length = (l.flatMap fun a => τ a r).length :=
    fun r hr l hl => flatMap_length_congr _ _ _ fun a ha => hMlen a (hl a ha) r hr
  -- the phases of one rank
  have hphase : ∀ r < P, ∃ m' m1 m2 m3, (postPhase (R.rs r) (m r) = some m1 ∧
      sendPhase (R.ss r) m1 = some (m2, (R.ss r).map fun s => msg σ m ai r s.dst) ∧
      locPhase (R.self r) m2 = some m3 ∧
      waitPhase (fun a => msg σ m ai a r) (R.rs r) m3 = some m') ∧
      m'.ub = Function.update (m r).ub ao (deliver P σ τ m ai ao r) ∧
        (∀ a, (m'.sb a).isSome = ((m r).sb a).isSome) ∧
        (∀ a, (m'.rb a).isSome = ((m r).rb a).isSome) := by
    intro r hr
    have hol := others_lt hr
    have O := ho r hr
    let T : Nat := ((others P r).flatMap fun a => τ a r).length
    -- total size of the receives
    have hperm := others_perm P r hr
    have hnod : ((others P r ++ [r]).flatMap fun a => τ a r).Nodup :=
      (hperm.flatMap_right _).nodup_iff.mpr (hN r hr)
    have htot : (T : Int) + (τ r r).length ≤ max (D.size nqty (outs r)) 0 := by
      have := nodup_int_length hnod (n := D.size nqty (outs r)) (by
        intro x hx
        obtain ⟨a, ha, hx⟩ := List.mem_flatMap.mp hx
        exact G.range a (by rw [hperm.mem_iff] at ha; simpa using ha) r hr x hx)
      simp only [List.flatMap_append, List.flatMap_cons, List.flatMap_nil, List.append_nil,
        List.length_append] at this
      push_cast at this
      exact this
    have hrb := hm.rb r hr
    rw [O.recvsize] at hrb
    have hrb' : accessible (m r).rb 0 (T + (τ r r).length) := fun a h1 h2 => hrb a h1 (by omega)
    -- posting
    have p1 := postPhase_recv G hr (obj r).unpack ao (others P r) hol 0 (m r)
      (fun a h1 h2 => hrb' a h1 (by omega))
    rw [← hrs r hr] at p1
    -- sending
    obtain ⟨sb', p2, hsb⟩ := sendPhase_send G hr (obj r).pack ai (obj r).sendsize (others P r) hol
      { m r with rb := hideBlk (m r).rb 0 T }
      (fun p hp h => O.pack p (hol p hp) h) (fun p hp => hm.inp r hr p (hol p hp))
      O.sendsize (hm.sb r hr)
    rw [← hss r hr] at p2
    have hvals : ((R.ss r).map fun s => msg σ m ai r s.dst) =
        ((others P r).filter fun p => decide (σ r p ≠ [])).map fun p => gather ((m r).ub ai) (σ r p) := by
      rw [← hdst r hr, List.map_map]; rfl
    -- self
    have p3 : locPhase (R.self r) { m r with sb := sb', rb := hideBlk (m r).rb 0 T } =
        some { ub := Function.update (m r).ub ao (scatter (τ r r) (msg σ m ai r r) ((m r).ub ao)),
               sb := sb', rb := storeBlk (hideBlk (m r).rb 0 T) T (msg σ m ai r r) } := by
      by_cases hs : σ r r = []
      · have h1 : (obj r).self = false := by
          have := O.self
          cases h : (obj r).self
          · rfl
          · exact absurd hs (this.mp h)
        have h2 : τ r r = [] := by
          have := G.len r hr r hr
          rw [hs] at this; exact List.length_eq_zero_iff.mp this
        have h3 : msg σ m ai r r = [] := by simp [msg, hs]
        simp [R, RemapObj.p2pSelf, h1, locPhase, h2, h3, scatter, storeBlk_nil]
      · have h1 : (obj r).self = true := O.self.mpr hs
        obtain ⟨se, hse, _, s2, f, s3, s4⟩ := sEnt_some G hr hr hs
        rcases rEnt_cases G hr hr [] T with ⟨_, hs', _⟩ | ⟨_, _, re, hre, r1, r2, r3, r4⟩
        · exact absurd hs' hs
        have hreAt : (obj r).recvs[(obj r).nrecv]? = some re := by
          have hd := O.rself
          have hl : (((others P r).flatMap fun a => σ a r).length : Int) = T := by
            rw [flatMap_length_congr _ _ (fun a => τ a r)
              (fun a ha => (G.len a (hol a ha) r hr).symm)]
          rw [hl, hre] at hd
          have : ((obj r).recvs.drop (obj r).nrecv)[0]? = some re := by rw [hd]; rfl
          simpa [List.getElem?_drop] using this
        have hseAt : (obj r).sends[(obj r).nsend]? = some se := by rw [O.sself, hse]
        simp only [R, RemapObj.p2pSelf, h1, if_true, locPhase, hseAt, hreAt, Option.bind_some,
          packRb, O.pack r hr hs, s3, s4, r3]
        have hacc : accessible (hideBlk (m r).rb 0 T) T (σ r r).length := by
          intro a h1 h2
          rw [hideBlk_other _ _ _ _ (by omega)]
          have := G.len r hr r hr
          exact hrb' a (by omega) (by omega)
        rw [copyAll_packL _ _ _ _ (hm.inp r hr r hr) hacc]
        simp only [Option.map_some, Option.bind_some]
        have hlen := hMlen r hr r hr
        rw [unpackRb_eq (obj r).unpack ao re (τ r r) (by rw [O.unpack r hr hs]; exact r4) T
          (msg σ m ai r r)
          ⟨(m r).ub, sb', storeBlk (hideBlk (m r).rb 0 ↑T) (↑T) (gather ((m r).ub ai) (σ r r))⟩ hlen (fun t ht => storeBlk_get _ _ _ _ ht) (hm.out r hr r hr)]
        rfl
    -- waiting
    have p4 := waitPhase_recv G hr (obj r).unpack ao (fun a => msg σ m ai a r) (others P r) hol 0
      { ub := Function.update (m r).ub ao (scatter (τ r r) (msg σ m ai r r) ((m r).ub ao)),
        sb := sb', rb := storeBlk (hideBlk (m r).rb 0 T) T (msg σ m ai r r) }
      (fun p hp h => O.unpack p (hol p hp) h) (fun p hp => hMlen p (hol p hp) r hr)
      (by
        intro p hp x hx
        simp only [Function.update_self]
        exact scatter_isSome _ _ _ _ (hm.out p (hol p hp) r hr x hx))
    rw [← hrs r hr] at p4
    refine ⟨_, _, _, _, ⟨p1, by rw [hvals]; exact p2, p3, p4⟩, ?_, ?_, ?_⟩
    · simp only [Function.update_self, Function.update_idem]
      congr 1
      unfold deliver
      rw [← scatter_append _ _ _ _ _ (hMlen r hr r hr)]
      have e1 : τ r r ++ ((others P r).flatMap fun a => τ a r) =
          (r :: others P r).flatMap fun a => τ a r := by simp
      have e2 : msg σ m ai r r ++ ((others P r).flatMap fun a => msg σ m ai a r) =
          (r :: others P r).flatMap fun a => msg σ m ai a r := by simp
      rw [e1, e2]
      have hp : (r :: others P r).Perm (List.range P) :=
        (List.perm_append_comm (l₁ := [r]) (l₂ := others P r)).trans hperm
      apply scatter_perm _ _ _ _ hp
      · intro a ha
        exact hMlen a (by rw [hp.mem_iff] at ha; simpa using ha) r hr
      · exact (hp.flatMap_right _).nodup_iff.mpr (hN r hr)
    · exact hsb
    · intro a
      simp only
      have hW := hflat r hr (others P r) hol
      have hlen := hMlen r hr r hr
      by_cases h1 : 0 ≤ a ∧ a < 0 + (((others P r).flatMap fun a => msg σ m ai a r).length : Int)
      · rw [storeBlk_isSome _ _ _ _ (Or.inl h1), hrb' a h1.1 (by omega)]
      · rw [storeBlk, if_neg h1]
        by_cases h2 : (T : Int) ≤ a ∧ a < T + ((msg σ m ai r r).length : Int)
        · rw [storeBlk_isSome _ _ _ _ (Or.inl h2), hrb' a (by omega) (by omega)]
        · rw [storeBlk, if_neg h2, hideBlk_other]
          simp only [T]
          omega
  have : Nonempty (LMem α) := ⟨m 0⟩
  choose! m' m1 m2 m3 hp hres using hphase
  refine ⟨m', ?_, hres⟩
  have hworks : R.Works P (msg σ m ai) m m' := by
    refine ⟨?_, ?_, ?_, ?_, ?_, fun r hr => ⟨m1 r, m2 r, m3 r, hp r hr⟩⟩
    · intro a ha b hb
      rw [hdst a ha] at hb
      exact others_lt ha b (List.mem_filter.mp hb).1
    · intro b hb a ha
      rw [hsrc b hb] at ha
      exact others_lt hb a (List.mem_filter.mp ha).1
    · intro a ha
      rw [hdst a ha]; exact (others_nodup P a ha).filter _
    · intro b hb
      rw [hsrc b hb]; exact (others_nodup P b hb).filter _
    · intro a ha b hb
      rw [hdst a ha, hsrc b hb, List.mem_filter, List.mem_filter, mem_others P a ha, mem_others P b hb]
      constructor
      · rintro ⟨⟨_, h2⟩, h3⟩; exact ⟨⟨ha, Ne.symm h2⟩, h3⟩
      · rintro ⟨⟨_, h2⟩, h3⟩; exact ⟨⟨hb, Ne.symm h2⟩, h3⟩
  have hstage := StageOK.p2p (e := e) R (msg σ m ai) m m' hworks (by
    intro r hr
    rw [hrs r hr]
    have hn := (others_perm P r hr).flatMap_right (fun a => τ a r)
    have hn' := hn.nodup_iff.mpr (hN r hr)
    simp only [List.flatMap_append] at hn'
    exact pairwise_recv G hr _ (ho r hr).unpack ao _ (others_lt hr) (List.nodup_append.mp hn').1 0)
  exact hstage.congr fun r _ => by simp [RemapObj.prog, P2P.prog, R]

end

end FftMpi
