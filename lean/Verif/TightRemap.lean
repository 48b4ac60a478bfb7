import Verif.Tight
import Verif.PtsLemmas

/-!
# What a remap needs of its buffers

Every location below the sizes that `setup` returns is touched by an instruction of the remap.
-/

namespace FftMpi

variable {α : Type}

section
variable {E π : Type} {D : Dim α E π} {P : Nat} {ins outs : Nat → E}
  {nqty permute packflag : Int} {σ τ : Nat → Nat → List Int}

theorem setup_pack {me : Nat} {collective : Bool} {o : RemapObj α π}
    (h : remapSetup D P me ins outs nqty permute packflag collective = some o) :
    o.pack = none ∨ o.pack = D.packSel packflag := by
  unfold remapSetup at h
  cases collective
  · simp only [Bool.false_eq_true, if_false, Option.some.injEq] at h
    subst h
    dsimp only
    split
    · exact Or.inl rfl
    · exact Or.inr rfl
  · simp only [if_true] at h
    obtain ⟨t, _, rfl⟩ := Option.map_eq_some_iff.mp h
    dsimp only
    split
    · exact Or.inl rfl
    · exact Or.inr rfl

theorem setup_sendsize_p2p {me : Nat} {o : RemapObj α π}
    (h : remapSetup D P me ins outs nqty permute packflag false = some o) :
    o.sendsize = ((o.sends.take o.nsend).map SEnt.size).foldl max 0 := by
  unfold remapSetup at h
  simp only [Bool.false_eq_true, if_false, Option.some.injEq] at h
  subst h
  rfl

/-! ## No instruction of a remap makes a location accessible -/

theorem unpackRb_tame (u : Option (CopyFn α π)) (ao : Nat) (b : Int) (e : REnt π) : LTame (unpackRb u ao b e) := by
  intro s s' h
  unfold unpackRb at h
  rw [Option.bind_eq_some_iff] at h
  obtain ⟨f, _, h⟩ := h
  rw [Option.map_eq_some_iff] at h
  obtain ⟨x, _, rfl⟩ := h
  exact ⟨fun _ h => h, fun _ h => h⟩

theorem none_tame : LTame (fun _ : LMem α => none) := fun _ _ h => by cases h

theorem pack_dom (G : Geom D P ins outs nqty permute packflag σ τ) {r : Nat} (hr : r < P) {o : RemapObj α π} {collective : Bool}
    (h : remapSetup D P r ins outs nqty permute packflag collective = some o) {e : SEnt π} (he : e ∈ o.sends)
    {f : CopyFn α π} (hf : o.pack = some f) {data buf buf' : Mem α} {b : Int} (hc : f data e.off buf b e.plan = some buf') (x : Int) :
    (buf' x).isSome = (buf x).isSome := by
  rw [(setup_lists h).1] at he
  obtain ⟨p, hp, he⟩ := List.mem_filterMap.mp he
  rcases sEnt_cases G hr (procLoop_lt P r hr p hp) with ⟨_, h0⟩ | ⟨_, e', h1, _, _, f', h2, h3⟩
  · rw [h0] at he; cases he
  · rw [h1] at he
    obtain rfl := Option.some.inj he
    rcases setup_pack h with hk | hk
    · rw [hk] at hf; cases hf
    · rw [hk, h2] at hf
      obtain rfl := Option.some.inj hf
      rw [h3] at hc
      exact copyAll_dom hc x

theorem packSb_tame (G : Geom D P ins outs nqty permute packflag σ τ) {r : Nat} (hr : r < P) {o : RemapObj α π} {collective : Bool}
    (h : remapSetup D P r ins outs nqty permute packflag collective = some o) {e : SEnt π} (he : e ∈ o.sends) (ai : Nat) (b : Int) :
    LTame (packSb o.pack ai b e) := by
  intro s s' hs
  unfold packSb at hs
  rw [Option.bind_eq_some_iff] at hs
  obtain ⟨f, hf, hs⟩ := hs
  rw [Option.map_eq_some_iff] at hs
  obtain ⟨x, hx, rfl⟩ := hs
  exact ⟨fun y hy => by rw [← pack_dom G hr h he hf hx y]; exact hy, fun _ h => h⟩

theorem packRb_tame (G : Geom D P ins outs nqty permute packflag σ τ) {r : Nat} (hr : r < P) {o : RemapObj α π} {collective : Bool}
    (h : remapSetup D P r ins outs nqty permute packflag collective = some o) {e : SEnt π} (he : e ∈ o.sends) (ai : Nat) (b : Int) :
    LTame (packRb o.pack ai b e) := by
  intro s s' hs
  unfold packRb at hs
  rw [Option.bind_eq_some_iff] at hs
  obtain ⟨f, hf, hs⟩ := hs
  rw [Option.map_eq_some_iff] at hs
  obtain ⟨x, hx, rfl⟩ := hs
  exact ⟨fun _ h => h, fun y hy => by rw [← pack_dom G hr h he hf hx y]; exact hy⟩

theorem collPacks_tame (G : Geom D P ins outs nqty permute packflag σ τ) {r : Nat} (hr : r < P) {o : RemapObj α π} {collective : Bool}
    (h : remapSetup D P r ins outs nqty permute packflag collective = some o) (ai : Nat) (gs : List GEnt) (off : Int) :
    ∀ g ∈ collPacks o.pack o.sends ai gs off, LTame g := by
  induction gs generalizing off with
  | nil => intro g hg; cases hg
  | cons x gs ih =>
    intro g hg
    unfold collPacks at hg
    split at hg
    · exact ih _ g hg
    · split at hg
      · rw [List.mem_singleton] at hg; subst hg; exact none_tame
      · rename_i e he
        rcases List.mem_cons.mp hg with rfl | hg
        · exact packSb_tame G hr h (List.mem_of_getElem? he) _ _
        · exact ih _ g hg

theorem collUnpacks_tame (u : Option (CopyFn α π)) (recvs : List (REnt π)) (ao : Nat) (gs : List GEnt) (off : Int) :
    ∀ g ∈ collUnpacks u recvs ao gs off, LTame g := by
  induction gs generalizing off with
  | nil => intro g hg; cases hg
  | cons x gs ih =>
    intro g hg
    unfold collUnpacks at hg
    split at hg
    · exact ih _ g hg
    · split at hg
      · rw [List.mem_singleton] at hg; subst hg; exact none_tame
      · rcases List.mem_cons.mp hg with rfl | hg
        · exact unpackRb_tame _ _ _ _
        · exact ih _ g hg

theorem mem_p2pProg {rs : List (PRecv α)} {ss : List (PSend α)} {self : List (LMem α → Option (LMem α))} {i : Instr α} :
    i ∈ p2pProg rs ss self ↔ i ∈ rs.mapIdx (fun i r => Instr.irecv i r.src r.loc r.size) ∨
      (∃ s ∈ ss, i = .loc s.pk ∨ i = .send s.dst s.size) ∨ (∃ g ∈ self, .loc g = i) ∨ i = .waitany rs.length (unpAt rs) := by
  unfold p2pProg
  rw [List.mem_append, List.mem_append, List.mem_append, List.mem_flatMap, List.mem_map, List.mem_singleton]
  simp

theorem prog_tame (G : Geom D P ins outs nqty permute packflag σ τ) {r : Nat} (hr : r < P) {o : RemapObj α π} {collective : Bool}
    (h : remapSetup D P r ins outs nqty permute packflag collective = some o) (inst ai ao : Nat) :
    ∀ i ∈ o.prog collective inst ai ao, ITame i := by
  intro i hi
  unfold RemapObj.prog at hi
  cases collective with
  | true =>
    rw [if_pos rfl] at hi
    split at hi
    · rw [List.mem_singleton] at hi; subst hi; exact none_tame
    · unfold collProg at hi
      rw [List.mem_append, List.mem_append, List.mem_append, List.mem_map, List.mem_map, List.mem_map, List.mem_map] at hi
      rcases hi with ⟨g, hg, rfl⟩ | ⟨g, hg, rfl⟩ | ⟨g, hg, rfl⟩ | ⟨g, hg, rfl⟩
      · exact collPacks_tame G hr h _ _ _ g hg
      · exact trivial
      · exact trivial
      · exact collUnpacks_tame _ _ _ _ _ g hg
  | false =>
    rw [if_neg (by decide), mem_p2pProg] at hi
    rcases hi with hi | ⟨s, hs, rfl | rfl⟩ | ⟨g, hg, rfl⟩ | rfl
    · rw [List.mem_mapIdx] at hi
      obtain ⟨j, hj, rfl⟩ := hi
      exact trivial
    · unfold RemapObj.p2pSends at hs
      obtain ⟨e, he, rfl⟩ := List.mem_map.mp hs
      exact packSb_tame G hr h (List.mem_of_mem_take he) _ _
    · exact trivial
    · unfold RemapObj.p2pSelf at hg
      split at hg
      · rw [List.mem_cons, List.mem_singleton] at hg
        rcases hg with rfl | rfl
        · intro s s' hs
          dsimp only at hs
          rw [Option.bind_eq_some_iff] at hs
          obtain ⟨e, he, hs⟩ := hs
          rw [Option.bind_eq_some_iff] at hs
          obtain ⟨q, _, hs⟩ := hs
          exact packRb_tame G hr h (List.mem_of_getElem? he) _ _ s s' hs
        · intro s s' hs
          dsimp only at hs
          rw [Option.bind_eq_some_iff] at hs
          obtain ⟨e, _, hs⟩ := hs
          exact unpackRb_tame _ _ _ _ s s' hs
      · cases hg
    · intro j s s' hs
      unfold unpAt at hs
      rw [Option.bind_eq_some_iff] at hs
      obtain ⟨e, he, hs⟩ := hs
      have he := List.mem_of_getElem? he
      unfold RemapObj.p2pRecvs at he
      obtain ⟨q, _, rfl⟩ := List.mem_map.mp he
      exact unpackRb_tame _ _ _ _ s s' hs

/-! ## Coverage -/

theorem lt_foldl_max {l : List Int} {x s : Int} (h : x < l.foldl max s) : x < s ∨ ∃ y ∈ l, x < y := by
  induction l generalizing s with
  | nil => exact Or.inl h
  | cons a l ih =>
    rcases ih h with h | ⟨y, hy, h⟩
    · rcases lt_max_iff.mp h with h | h
      · exact Or.inl h
      · exact Or.inr ⟨a, by simp, h⟩
    · exact Or.inr ⟨y, by simp [hy], h⟩

/-- The blocks of an all-to-all cover the buffer. -/
theorem groupArgs_cover {ents : List (Nat × Int)} {w : Nat → Nat} {Q : Nat → Nat → Prop} {ps : List Nat} {off : Int}
    (hE : EntsOK ents w Q ps) {x : Int} (h0 : off ≤ x) (h1 : x < off + (ps.map w).sum) :
    ∃ g ∈ groupArgs ents ps off, g.displ ≤ x ∧ x < g.displ + g.cnt := by
  induction ps generalizing off with
  | nil => simp at h1; omega
  | cons p ps ih =>
    rcases hE p (by simp) with ⟨e1, e2⟩ | ⟨_, i, e2, e3, _⟩
    · simp only [groupArgs, e2]
      obtain ⟨g, hg, h⟩ := ih hE.tail h0 (by simpa [e1] using h1)
      exact ⟨g, List.mem_cons_of_mem _ hg, h⟩
    · simp only [groupArgs, e2]
      by_cases hx : x < off + w p
      · exact ⟨_, List.mem_cons_self .., h0, by rw [e3]; exact hx⟩
      · rw [e3]
        obtain ⟨g, hg, h⟩ := ih (off := off + w p) hE.tail (by omega) (by
          rw [List.map_cons, List.sum_cons] at h1; push_cast at h1 ⊢; omega)
        exact ⟨g, List.mem_cons_of_mem _ hg, h⟩

/-- The receives cover the receive buffer. -/
theorem recvEnts_cover (G : Geom D P ins outs nqty permute packflag σ τ) {r : Nat} (hr : r < P) (ps : List Nat)
    (hps : ∀ p ∈ ps, p < P) (ib : Int) {x : Int} (h0 : ib ≤ x) (h1 : x < ib + (ps.flatMap fun a => τ a r).length) :
    ∃ e ∈ recvEntsFrom D permute nqty (outs r) ins ps ib, e.bufloc ≤ x ∧ x < e.bufloc + e.size := by
  induction ps generalizing ib with
  | nil => simp at h1; omega
  | cons p ps ih =>
    have ih := fun ib => ih (fun q hq => hps q (by simp [hq])) ib
    rcases rEnt_cases G hr (hps p (by simp)) ps ib with ⟨e1, _, e2⟩ | ⟨_, _, e, e2, _, e3, e4, _⟩
    · rw [e2]
      exact ih ib h0 (by simpa [e1] using h1)
    · rw [e2]
      by_cases hx : x < ib + (τ p r).length
      · exact ⟨e, by simp, by rw [e4]; exact h0, by rw [e4, e3]; exact hx⟩
      · obtain ⟨e', he', h⟩ := ih (ib + (τ p r).length) (by omega) (by
          rw [List.flatMap_cons, List.length_append] at h1; push_cast at h1; omega)
        exact ⟨e', by simp [he'], h⟩

theorem mem_packL {l : List Int} {b x : Int} (h0 : b ≤ x) (h1 : x < b + l.length) : ∃ s, (x, s) ∈ packL b l := by
  induction l generalizing b with
  | nil => simp at h1; omega
  | cons a l ih =>
    by_cases hx : x = b
    · exact ⟨a, by simp [packL, hx]⟩
    · obtain ⟨s, hs⟩ := ih (b := b + 1) (by omega) (by simp at h1; omega)
      exact ⟨s, by simp [packL, hs]⟩

/-- Distinct numbers below `n` that do not repeat are all counted. -/
theorem size_le_of_cover {l : List Int} {n : Int} (h : ∀ x, 0 ≤ x → x < n → x ∈ l) : n ≤ l.length := by
  have h1 : (irange n).length ≤ l.length := by
    apply List.Subperm.length_le
    apply List.Nodup.subperm
    · exact irange_nodup n
    · intro x hx
      rw [mem_irange] at hx
      exact h x hx.1 hx.2
  by_cases hn : 0 ≤ n
  · have := irange_length hn
    omega
  · omega

/-- Every location of the send and receive buffer below the returned sizes is touched.  In point-to-point mode this needs
that every datum of the output box comes from some rank. -/
theorem prog_needs (G : Geom D P ins outs nqty permute packflag σ τ) {r : Nat} (hr : r < P) {o : RemapObj α π} {collective : Bool}
    (h : remapSetup D P r ins outs nqty permute packflag collective = some o)
    (hcov : collective = false → ∀ x, 0 ≤ x → x < D.size nqty (outs r) → ∃ a < P, x ∈ τ a r) (inst ai ao : Nat) :
    (∀ x, 0 ≤ x → x < o.sendsize → ∃ i ∈ o.prog collective inst ai ao, NeedsS i x) ∧
    (∀ x, 0 ≤ x → x < o.recvsize → ∃ i ∈ o.prog collective inst ai ao, NeedsR i x) := by
  cases collective with
  | true =>
    obtain ⟨o', g, h1, O⟩ := collObj_exists G hr
    rw [h] at h1
    obtain rfl := Option.some.inj h1
    have hmem : ∀ {x n : Nat} {l : Nat → List Int}, x < n → n = ((List.range P).flatMap l).length →
        (∀ p, l p ≠ [] → σ r p ≠ [] ∨ σ p r ≠ []) → r ∈ g := by
      intro x n l hx hn hl
      have : (List.range P).flatMap l ≠ [] := by intro h0; rw [h0] at hn; simp at hn; omega
      rw [Ne, List.flatMap_eq_nil_iff] at this
      push Not at this
      obtain ⟨p, hp, hl'⟩ := this
      have hT : Talk P σ r p := ⟨hr, List.mem_range.mp hp, hl p hl'⟩
      exact (O.mem_group r).mpr (.tail (.single hT) hT.symm)
    unfold RemapObj.prog
    rw [if_pos rfl, O.coll]
    dsimp only
    unfold collProg
    constructor
    · intro x h0 hx
      have hx' := hx
      rw [O.sendsize] at hx'
      have hg : r ∈ g := hmem (x := x.toNat) (l := fun p => σ r p) (by omega) rfl (fun p h => Or.inl h)
      have hsz : ((g.map fun p => (σ r p).length).sum : Int) = o.sendsize := by
        rw [O.sendsize]
        have := sum_map_le_flatMap_length g (fun p => σ r p)
        rw [O.flatMap_group hr _ (fun p _ h _ => h)] at this
        exact_mod_cast this
      obtain ⟨b, hb, hbx⟩ := groupArgs_cover (off := 0) (O.sendQ G hr) h0 (by omega)
      refine ⟨.post inst g b.proc b.displ b.cnt, ?_, hbx⟩
      rw [List.mem_append, List.mem_append]
      right; left
      rw [List.mem_map]
      refine ⟨(b.proc, b.displ, b.cnt), ?_, rfl⟩
      unfold collArgs
      simp only [hg, decide_true, if_true]
      exact List.mem_map.mpr ⟨b, hb, rfl⟩
    · intro x h0 hx
      have hx' := hx
      rw [O.recvsize] at hx'
      have hg : r ∈ g := hmem (x := x.toNat) (l := fun p => σ p r) (by omega) rfl (fun p h => Or.inr h)
      have hsz : ((g.map fun p => (σ p r).length).sum : Int) = o.recvsize := by
        rw [O.recvsize]
        have := sum_map_le_flatMap_length g (fun p => σ p r)
        rw [O.flatMap_group hr _ (fun p _ _ h => h)] at this
        exact_mod_cast this
      obtain ⟨b, hb, hbx⟩ := groupArgs_cover (off := 0) (O.recvQ G hr) h0 (by omega)
      refine ⟨.take inst g b.proc b.displ b.cnt, ?_, hbx⟩
      rw [List.mem_append, List.mem_append, List.mem_append]
      right; right; left
      rw [List.mem_map]
      refine ⟨(b.proc, b.displ, b.cnt), ?_, rfl⟩
      unfold collArgs
      simp only [hg, decide_true, if_true]
      exact List.mem_map.mpr ⟨b, hb, rfl⟩
  | false =>
    have O := p2pObj_of_setup G hr h
    have hprog : o.prog false inst ai ao = p2pProg (o.p2pRecvs ao) (o.p2pSends ai) (o.p2pSelf ai ao) := by
      unfold RemapObj.prog
      rw [if_neg (by decide)]
    rw [hprog]
    constructor
    · intro x h0 hx
      rw [setup_sendsize_p2p h] at hx
      rcases lt_foldl_max hx with hx | ⟨y, hy, hx⟩
      · omega
      · obtain ⟨e, he, rfl⟩ := List.mem_map.mp hy
        exact ⟨.send e.proc e.size, mem_p2pProg.mpr (Or.inr (Or.inl ⟨_, List.mem_map.mpr ⟨e, he, rfl⟩, Or.inr rfl⟩)), h0, hx⟩
    · intro x h0 hx
      rw [O.recvsize] at hx
      have hlen := size_le_of_cover (l := (others P r ++ [r]).flatMap fun a => τ a r) (n := D.size nqty (outs r)) (by
        intro y hy0 hy1
        obtain ⟨a, ha, hm⟩ := hcov rfl y hy0 hy1
        rw [List.mem_flatMap]
        refine ⟨a, ?_, hm⟩
        rw [(others_perm P r hr).mem_iff, List.mem_range]
        exact ha)
      rw [List.flatMap_append, List.length_append, List.flatMap_cons, List.flatMap_nil, List.append_nil] at hlen
      by_cases hT : x < ((others P r).flatMap fun a => τ a r).length
      · obtain ⟨e, he, hb⟩ := recvEnts_cover G hr (others P r) (others_lt hr) 0 h0 (by omega)
        rw [← O.recvs] at he
        obtain ⟨j, hj, rfl⟩ := List.getElem_of_mem he
        refine ⟨.irecv j ((o.recvs.take o.nrecv)[j]).proc ((o.recvs.take o.nrecv)[j]).bufloc ((o.recvs.take o.nrecv)[j]).size,
          mem_p2pProg.mpr (Or.inl ?_), hb⟩
        rw [List.mem_mapIdx]
        exact ⟨j, by simpa [RemapObj.p2pRecvs] using hj, by simp [RemapObj.p2pRecvs]⟩
      · have hne : τ r r ≠ [] := by intro h'; rw [h', List.length_nil] at hlen; omega
        have hlr := G.len r hr r hr
        have hsne : σ r r ≠ [] := by intro h'; rw [h'] at hlr; exact hne (List.length_eq_zero_iff.mp hlr)
        have hll : ((others P r).flatMap fun a => τ a r).length = ((others P r).flatMap fun a => σ a r).length :=
          flatMap_length_congr _ _ _ fun a ha => G.len a (others_lt hr a ha) r hr
        have hself := O.self.mpr hsne
        refine ⟨_, mem_p2pProg.mpr (Or.inr (Or.inr (Or.inl ⟨_, by
          unfold RemapObj.p2pSelf; rw [if_pos hself]; exact List.mem_cons_self .., rfl⟩))), ?_⟩
        intro s s' hs
        dsimp only at hs
        rw [Option.bind_eq_some_iff] at hs
        obtain ⟨e, he, hs⟩ := hs
        rw [Option.bind_eq_some_iff] at hs
        obtain ⟨q, hq, hs⟩ := hs
        have hq' : q.bufloc = (((others P r).flatMap fun a => σ a r).length : Int) := by
          have hd : o.recvs[o.nrecv]? = (o.recvs.drop o.nrecv)[0]? := by simp
          rw [hd, O.rself] at hq
          rcases rEnt_cases G hr hr [] (((others P r).flatMap fun a => σ a r).length : Int) with ⟨h', _⟩ | ⟨_, _, t, ht, _, _, hb, _⟩
          · exact absurd h' hne
          · rw [ht] at hq
            simp only [List.getElem?_cons_zero, Option.some.injEq] at hq
            rw [← hq]; exact hb
        rw [O.sself] at he
        rcases sEnt_cases G hr hr with ⟨h', _⟩ | ⟨_, e', h1, _, _, f, h2, h3⟩
        · exact absurd h' hsne
        · rw [h1] at he
          obtain rfl := Option.some.inj he
          unfold packRb at hs
          rw [O.pack r hr hsne, h2, Option.bind_some, Option.map_eq_some_iff] at hs
          obtain ⟨y, hy, rfl⟩ := hs
          rw [h3] at hy
          obtain ⟨z, hz⟩ := mem_packL (l := σ r r) (b := q.bufloc) (x := x) (by omega) (by omega)
          exact (copyAll_some hy _ hz).2

end

end FftMpi
