import Verif.RemapP2P
import Verif.RemapGroup

/-!
# The collective remap works
-/

namespace FftMpi

open Relation

variable {α : Type}

theorem flatMap_filter_nil {β γ : Type} (l : List β) (p : β → Bool) (f : β → List γ)
    (h : ∀ x ∈ l, p x = false → f x = []) : (l.filter p).flatMap f = l.flatMap f := by
  induction l with
  | nil => rfl
  | cons x l ih =>
    have ih := ih fun y hy => h y (by simp [hy])
    cases hp : p x
    · simp [hp, ih, h x (by simp) hp]
    · simp [hp, ih]

theorem storeBlk_self (m : Mem α) (b : Int) (v : List α)
    (h : ∀ t, (ht : t < v.length) → m (b + t) = some v[t]) : storeBlk m b v = m := by
  funext a
  by_cases ha : b ≤ a ∧ a < b + v.length
  · obtain ⟨t, rfl⟩ : ∃ t : Nat, a = b + t := ⟨(a - b).toNat, by omega⟩
    rw [storeBlk_get _ _ _ _ (by omega), h t (by omega)]
  · rw [storeBlk, if_neg ha]

theorem readBlk_get (m : Mem α) (b : Int) (v : List α) (n : Int) (hn : (v.length : Int) = n)
    (h : ∀ t, (ht : t < v.length) → m (b + t) = some v[t]) : readBlk m b n = some v := by
  rw [← storeBlk_self m b v h]; exact readBlk_store m b v hn

/-- The block `v ++ w` at `b` splits. -/
theorem get_append_left {m : Mem α} {b : Int} {v w : List α}
    (h : ∀ t, (ht : t < (v ++ w).length) → m (b + t) = some (v ++ w)[t]) :
    ∀ t, (ht : t < v.length) → m (b + t) = some v[t] := by
  intro t ht
  rw [h t (by simp; omega), List.getElem_append_left ht]

theorem get_append_right {m : Mem α} {b : Int} {v w : List α}
    (h : ∀ t, (ht : t < (v ++ w).length) → m (b + t) = some (v ++ w)[t]) :
    ∀ t, (ht : t < w.length) → m (b + v.length + t) = some w[t] := by
  intro t ht
  have := h (v.length + t) (by simp; omega)
  rw [List.getElem_append_right (by omega)] at this
  simp only [Nat.add_sub_cancel_left] at this
  rw [← this]; congr 1; push_cast; ring

section
variable {π : Type}

/-- The entries used by `groupArgs` for the ranks `ps`: rank `p` has an entry exactly when `w p`
is not zero; then it is entry number `i` and has size `w p`. -/
def EntsOK (ents : List (Nat × Int)) (w : Nat → Nat) (Q : Nat → Nat → Prop) (ps : List Nat) : Prop :=
  ∀ p ∈ ps, (w p = 0 ∧ ents.findIdx? (fun e => e.1 == p) = none) ∨
    (w p ≠ 0 ∧ ∃ i, ents.findIdx? (fun e => e.1 == p) = some i ∧ (ents.getD i (0, 0)).2 = w p ∧ Q p i)

theorem EntsOK.tail {ents : List (Nat × Int)} {w : Nat → Nat} {Q : Nat → Nat → Prop} {p : Nat}
    {ps : List Nat} (h : EntsOK ents w Q (p :: ps)) : EntsOK ents w Q ps :=
  fun q hq => h q (by simp [hq])

theorem groupArgs_procs (ents : List (Nat × Int)) (ps : List Nat) (off : Int) :
    (groupArgs ents ps off).map GEnt.proc = ps := by
  induction ps generalizing off with
  | nil => rfl
  | cons p ps ih =>
    simp only [groupArgs]
    cases ents.findIdx? (fun e => e.1 == p) <;> simp [ih]

theorem collPacks_phase (ents : List (Nat × Int)) (pk : Option (CopyFn α π)) (sends : List (SEnt π))
    (ai : Nat) (s : Nat → List Int) (ps : List Nat) (off : Int) (m : LMem α)
    (hE : EntsOK ents (fun p => (s p).length) (fun p i => ∃ e f, sends[i]? = some e ∧
      e.size = (s p).length ∧ pk = some f ∧
      ∀ data buf c, f data e.off buf c e.plan = copyAll (packL c (s p)) data buf) ps)
    (hin : ∀ p ∈ ps, ∀ x ∈ s p, (m.ub ai x).isSome)
    (hacc : accessible m.sb off (ps.flatMap s).length) :
    locPhase (collPacks pk sends ai (groupArgs ents ps off) off) m =
      some { m with sb := storeBlk m.sb off (ps.flatMap fun p => gather (m.ub ai) (s p)) } := by
  induction ps generalizing off m with
  | nil => simp [groupArgs, collPacks, locPhase, storeBlk_nil]
  | cons p ps ih =>
    have hin' : ∀ q ∈ ps, ∀ x ∈ s q, (m.ub ai x).isSome := fun q hq => hin q (by simp [hq])
    simp only [List.flatMap_cons, List.length_append] at hacc
    rcases hE p (by simp) with ⟨h1, h2⟩ | ⟨_, i, h2, h3, e, f, h4, h5, h6, h7⟩
    · simp only [groupArgs, h2, collPacks]
      have hs : s p = [] := List.length_eq_zero_iff.mp h1
      rw [ih off m hE.tail hin' (by simpa [hs] using hacc)]
      simp [hs]
    · subst h6
      simp only [groupArgs, h2, collPacks, h4, locPhase, h3, h5, packSb, Option.bind_some, h7]
      rw [copyAll_packL _ _ _ _ (hin p (by simp))
        (fun a h1 h2 => hacc a h1 (by push_cast; omega))]
      simp only [Option.map_some, Option.bind_some]
      have hg := gather_length (hin p (by simp))
      rw [ih (off + (s p).length)
        ⟨m.ub, storeBlk m.sb off (gather (m.ub ai) (s p)), m.rb⟩ hE.tail hin' (by
          intro a h1 h2
          exact storeBlk_isSome _ _ _ _ (Or.inr (hacc a (by omega) (by push_cast; omega))))]
      simp only [List.flatMap_cons]
      rw [← hg, storeBlk_append]

theorem posts_phase (ents : List (Nat × Int)) (M : Nat → List α) (Q : Nat → Nat → Prop)
    (ps : List Nat) (off : Int) (m : LMem α)
    (hE : EntsOK ents (fun p => (M p).length) Q ps)
    (hb : ∀ t, (ht : t < (ps.flatMap M).length) → m.sb (off + t) = some (ps.flatMap M)[t]) :
    postBlks ((groupArgs ents ps off).map fun g => (g.proc, g.displ, g.cnt)) m =
      some (ps.map M) := by
  induction ps generalizing off with
  | nil => rfl
  | cons p ps ih =>
    simp only [List.flatMap_cons] at hb
    rcases hE p (by simp) with ⟨h1, h2⟩ | ⟨_, i, h2, h3, _⟩
    · have hs : M p = [] := List.length_eq_zero_iff.mp h1
      simp only [groupArgs, h2, List.map_cons, postBlks]
      have hb' := get_append_right hb
      simp only [hs, List.length_nil, Nat.cast_zero, add_zero] at hb'
      rw [ih off hE.tail hb', readBlk_get m.sb 0 (M p) 0 (by simp [hs]) (by simp [hs])]
      rfl
    · simp only [groupArgs, h2, List.map_cons, postBlks, h3]
      rw [ih _ hE.tail (get_append_right hb), readBlk_get m.sb off (M p) _ rfl (get_append_left hb)]
      rfl

theorem takes_phase (ents : List (Nat × Int)) (M : Nat → List α) (Q : Nat → Nat → Prop)
    (ps : List Nat) (off : Int) (m : LMem α)
    (hE : EntsOK ents (fun p => (M p).length) Q ps)
    (hacc : accessible m.rb off (ps.flatMap M).length) :
    takePhase M ((groupArgs ents ps off).map fun g => (g.proc, g.displ, g.cnt)) m =
      some { m with rb := storeBlk m.rb off (ps.flatMap M) } := by
  induction ps generalizing off m with
  | nil => simp [groupArgs, takePhase, storeBlk_nil]
  | cons p ps ih =>
    simp only [List.flatMap_cons, List.length_append] at hacc
    rcases hE p (by simp) with ⟨h1, h2⟩ | ⟨_, i, h2, h3, _⟩
    · have hs : M p = [] := List.length_eq_zero_iff.mp h1
      simp only [groupArgs, h2, List.map_cons, takePhase]
      rw [if_pos ⟨by simp [hs], fun a h1 h2 => by omega⟩, hs, storeBlk_nil]
      rw [ih off m hE.tail (by simpa [hs] using hacc)]
      simp [hs]
    · simp only [groupArgs, h2, List.map_cons, takePhase, h3]
      rw [if_pos ⟨by simp, fun a h1 h2 => hacc a h1 (by push_cast; omega)⟩]
      rw [ih (off + (M p).length) ⟨m.ub, m.sb, storeBlk m.rb off (M p)⟩ hE.tail (by
        intro a h1 h2
        exact storeBlk_isSome _ _ _ _ (Or.inr (hacc a (by omega) (by push_cast; omega))))]
      simp only [List.flatMap_cons]
      rw [storeBlk_append]

theorem collUnpacks_phase (ents : List (Nat × Int)) (unpk : Option (CopyFn α π))
    (recvs : List (REnt π)) (ao : Nat) (t : Nat → List Int) (M : Nat → List α)
    (ps : List Nat) (off : Int) (m : LMem α)
    (hE : EntsOK ents (fun p => (t p).length) (fun p i => ∃ e : REnt π, recvs[i]? = some e ∧
      e.size = (t p).length ∧ ∃ f, unpk = some f ∧
      ∀ buf data c, f buf c data e.off e.plan = copyAll (unpL c (t p)) buf data) ps)
    (hM : ∀ p ∈ ps, (M p).length = (t p).length)
    (hout : ∀ p ∈ ps, ∀ x ∈ t p, (m.ub ao x).isSome)
    (hb : ∀ k, (hk : k < (ps.flatMap M).length) → m.rb (off + k) = some (ps.flatMap M)[k]) :
    locPhase (collUnpacks unpk recvs ao (groupArgs ents ps off) off) m =
      some { m with ub := Function.update m.ub ao (scatter (ps.flatMap t) (ps.flatMap M) (m.ub ao)) } := by
  induction ps generalizing off m with
  | nil => simp [groupArgs, collUnpacks, locPhase, scatter]
  | cons p ps ih =>
    have hM' : ∀ q ∈ ps, (M q).length = (t q).length := fun q hq => hM q (by simp [hq])
    simp only [List.flatMap_cons] at hb
    have hMp := hM p (by simp)
    rcases hE p (by simp) with ⟨h1, h2⟩ | ⟨_, i, h2, h3, e, h4, h5, hf⟩
    · have ht : t p = [] := List.length_eq_zero_iff.mp h1
      have hs : M p = [] := List.length_eq_zero_iff.mp (by rw [hMp]; exact h1)
      simp only [groupArgs, h2, collUnpacks]
      have hb' := get_append_right hb
      simp only [hs, List.length_nil, Nat.cast_zero, add_zero] at hb'
      rw [ih off m hE.tail hM' (fun q hq => hout q (by simp [hq])) hb']
      simp [ht, hs]
    · simp only [groupArgs, h2, collUnpacks, h4, locPhase, h3, h5]
      rw [unpackRb_eq unpk ao e (t p) hf off (M p) m hMp (get_append_left hb) (hout p (by simp))]
      simp only [Option.bind_some]
      have hb' := get_append_right hb
      rw [hMp] at hb'
      rw [ih (off + (t p).length)
        ⟨Function.update m.ub ao (scatter (t p) (M p) (m.ub ao)), m.sb, m.rb⟩ hE.tail hM' (by
          intro q hq x hx
          simp only [Function.update_self]
          exact scatter_isSome _ _ _ _ (hout q (by simp [hq]) x hx)) hb']
      simp only [Function.update_self, Function.update_idem, List.flatMap_cons]
      rw [scatter_append _ _ _ _ _ hMp]

/-- Ranges given to `MPI_Alltoallv`: in order, disjoint, inside the buffer. -/
theorem groupArgs_ranges (ents : List (Nat × Int)) (w : Nat → Nat) (Q : Nat → Nat → Prop)
    (ps : List Nat) (off : Int) (hE : EntsOK ents w Q ps) :
    (∀ g ∈ groupArgs ents ps off, g.cnt = w g.proc ∧ (g.cnt = 0 ∨ (off ≤ g.displ ∧
      g.displ + g.cnt ≤ off + (ps.map w).sum))) ∧
    (groupArgs ents ps off).Pairwise fun x y =>
      x.cnt = 0 ∨ y.cnt = 0 ∨ x.displ + x.cnt ≤ y.displ := by
  induction ps generalizing off with
  | nil => simp [groupArgs]
  | cons p ps ih =>
    rcases hE p (by simp) with ⟨h1, h2⟩ | ⟨_, i, h2, h3, _⟩
    · simp only [groupArgs, h2]
      obtain ⟨a1, a2⟩ := ih off hE.tail
      constructor
      · intro g hg
        rcases List.mem_cons.mp hg with rfl | hg
        · simp [h1]
        · obtain ⟨b1, b2⟩ := a1 g hg
          simp only [List.map_cons, List.sum_cons]
          exact ⟨b1, by push_cast; omega⟩
      · rw [List.pairwise_cons]
        exact ⟨fun _ _ => Or.inl rfl, a2⟩
    · simp only [groupArgs, h2, h3]
      obtain ⟨a1, a2⟩ := ih (off + w p) hE.tail
      constructor
      · intro g hg
        simp only [List.map_cons, List.sum_cons]
        push_cast
        rcases List.mem_cons.mp hg with rfl | hg
        · exact ⟨rfl, Or.inr ⟨le_refl _, by dsimp only; omega⟩⟩
        · obtain ⟨b1, b2⟩ := a1 g hg
          exact ⟨b1, by omega⟩
      · rw [List.pairwise_cons]
        refine ⟨?_, a2⟩
        intro g hg
        obtain ⟨_, b2⟩ := a1 g hg
        dsimp only
        omega

/-- The pack loop packs entry `g` at its displacement. -/
theorem collPacks_displ (ents : List (Nat × Int)) (w : Nat → Nat) (pk : Option (CopyFn α π))
    (sends : List (SEnt π)) (ai : Nat) (ps : List Nat) (off : Int)
    (hE : EntsOK ents w (fun p i => ∃ e, sends[i]? = some e ∧ e.size = w p ∧ e.proc = p) ps) :
    collPacks pk sends ai (groupArgs ents ps off) off =
      (groupArgs ents ps off).filterMap fun g => g.map.bind fun i => sends[i]?.map fun e =>
        packSb pk ai g.displ e := by
  induction ps generalizing off with
  | nil => rfl
  | cons p ps ih =>
    rcases hE p (by simp) with ⟨h1, h2⟩ | ⟨_, i, h2, h3, e, h4, h5, h6⟩
    · simp only [groupArgs, h2, collPacks, List.filterMap_cons, Option.bind_none]
      exact ih off hE.tail
    · simp only [groupArgs, h2, collPacks, h4, h3, h5, List.filterMap_cons, Option.bind_some,
        Option.map_some]
      rw [ih _ hE.tail]

/-- The unpack loop unpacks entry `g` from its displacement. -/
theorem collUnpacks_displ (ents : List (Nat × Int)) (w : Nat → Nat) (unpk : Option (CopyFn α π))
    (recvs : List (REnt π)) (ao : Nat) (ps : List Nat) (off : Int)
    (hE : EntsOK ents w (fun p i => ∃ e, recvs[i]? = some e ∧ e.size = w p ∧ e.proc = p) ps) :
    collUnpacks unpk recvs ao (groupArgs ents ps off) off =
      (groupArgs ents ps off).filterMap fun g => g.map.bind fun i => recvs[i]?.map fun e =>
        unpackRb unpk ao g.displ e := by
  induction ps generalizing off with
  | nil => rfl
  | cons p ps ih =>
    rcases hE p (by simp) with ⟨h1, h2⟩ | ⟨_, i, h2, h3, e, h4, h5, h6⟩
    · simp only [groupArgs, h2, collUnpacks, List.filterMap_cons, Option.bind_none]
      exact ih off hE.tail
    · simp only [groupArgs, h2, collUnpacks, h4, h3, h5, List.filterMap_cons, Option.bind_some,
        Option.map_some]
      rw [ih _ hE.tail]

theorem EntsOK.mono {ents : List (Nat × Int)} {w : Nat → Nat} {Q Q' : Nat → Nat → Prop}
    {ps : List Nat} (h : EntsOK ents w Q ps) (hQ : ∀ p i,
      ents.findIdx? (fun e => e.1 == p) = some i → Q p i → Q' p i) : EntsOK ents w Q' ps := by
  intro p hp
  rcases h p hp with h | ⟨h1, i, h2, h3, h4⟩
  · exact Or.inl h
  · exact Or.inr ⟨h1, i, h2, h3, hQ p i h2 h4⟩

/-- `findIdx?` over a list with the key of every element. -/
theorem findIdx?_spec {β : Type} (l : List β) (key : β → Nat) (size : β → Int) (p : Nat) :
    (p ∉ l.map key ∧ (l.map fun e => (key e, size e)).findIdx? (fun e => e.1 == p) = none) ∨
    (∃ i e, (l.map fun e => (key e, size e)).findIdx? (fun e => e.1 == p) = some i ∧
      l[i]? = some e ∧ key e = p ∧ ((l.map fun e => (key e, size e)).getD i (0, 0)).2 = size e) := by
  cases h : (l.map fun e => (key e, size e)).findIdx? (fun e => e.1 == p) with
  | none =>
    left
    refine ⟨?_, rfl⟩
    rw [List.findIdx?_eq_none_iff] at h
    intro hp
    obtain ⟨e, he, rfl⟩ := List.mem_map.mp hp
    have := h (key e, size e) (List.mem_map.mpr ⟨e, he, rfl⟩)
    simp at this
  | some i =>
    right
    rw [List.findIdx?_eq_some_iff_getElem] at h
    obtain ⟨hi, h1, _⟩ := h
    have hi' : i < l.length := by simpa using hi
    refine ⟨i, l[i], rfl, by simp [hi'], by simpa using h1, ?_⟩
    simp [hi']
end

section
variable {E π : Type} {D : Dim α E π} {P : Nat} {ins outs : Nat → E}
  {nqty permute packflag : Int} {σ τ : Nat → Nat → List Int}

/-- Two ranks exchange data. -/
def Talk (P : Nat) (σ : Nat → Nat → List Int) (i j : Nat) : Prop :=
  i < P ∧ j < P ∧ (σ i j ≠ [] ∨ σ j i ≠ [])

theorem Talk.symm {P : Nat} {σ : Nat → Nat → List Int} {i j : Nat} (h : Talk P σ i j) :
    Talk P σ j i := ⟨h.2.1, h.1, h.2.2.symm⟩

theorem adjP_iff (G : Geom D P ins outs nqty permute packflag σ τ) :
    AdjP (fun i j => (D.collide (ins i) (outs j)).isSome)
      (fun i j => (D.collide (outs i) (ins j)).isSome) P = Talk P σ := by
  funext i j
  apply propext
  unfold AdjP Talk
  constructor
  · rintro ⟨hi, hj, h⟩
    refine ⟨hi, hj, ?_⟩
    dsimp only at h
    rcases h with h | h
    · left; intro he; rw [(G.miss i hi j hj he).1] at h; simp at h
    · right; intro he; rw [(G.miss j hj i hi he).2] at h; simp at h
  · rintro ⟨hi, hj, h⟩
    refine ⟨hi, hj, ?_⟩
    rcases h with h | h
    · left; obtain ⟨ov, h1, _⟩ := G.hit i hi j hj h; simp [h1]
    · right; obtain ⟨ov, _, h1, _⟩ := G.hit j hj i hi h; simp [h1]

/-- What `remapSetup` computes in collective mode. -/
structure CollObj (D : Dim α E π) (P : Nat) (ins outs : Nat → E) (nqty permute packflag : Int)
    (σ : Nat → Nat → List Int) (r : Nat) (o : RemapObj α π) (g : List Nat) : Prop where
  sends : o.sends = (procLoop P P r).filterMap (sEnt D nqty (ins r) outs)
  recvs : o.recvs = recvEntsFrom D permute nqty (outs r) ins (procLoop P P r) 0
  group_sub : ∃ q : Nat → Bool, g = (List.range P).filter q
  mem_group : ∀ j, j ∈ g ↔ TransGen (Talk P σ) r j
  coll : o.coll = some ⟨g, decide (r ∈ g),
    groupArgs (o.sends.map fun e => (e.proc, e.size)) g 0,
    groupArgs (o.recvs.map fun e => (e.proc, e.size)) g 0⟩
  pack : ∀ p < P, σ r p ≠ [] → o.pack = D.packSel packflag
  unpack : ∀ p < P, σ p r ≠ [] → o.unpack = D.unpackSel packflag permute nqty
  sendsize : o.sendsize = ((List.range P).flatMap fun p => σ r p).length
  recvsize : o.recvsize = ((List.range P).flatMap fun p => σ p r).length

theorem sEnts_size (G : Geom D P ins outs nqty permute packflag σ τ) {r : Nat} (hr : r < P)
    (ps : List Nat) (hps : ∀ p ∈ ps, p < P) :
    ((ps.filterMap (sEnt D nqty (ins r) outs)).map SEnt.size).sum =
      (ps.flatMap fun p => σ r p).length := by
  induction ps with
  | nil => rfl
  | cons p ps ih =>
    have ih := ih (fun q hq => hps q (by simp [hq]))
    rcases sEnt_cases G hr (hps p (by simp)) with ⟨h, he⟩ | ⟨h, e, he, h1, h2, _⟩
    · rw [List.filterMap_cons_none he, ih]; simp [h]
    · rw [List.filterMap_cons_some he, List.map_cons, List.sum_cons, ih, h2]
      simp only [List.flatMap_cons, List.length_append]
      push_cast; rfl

theorem rEnts_size (G : Geom D P ins outs nqty permute packflag σ τ) {r : Nat} (hr : r < P)
    (ps : List Nat) (hps : ∀ p ∈ ps, p < P) (ib : Int) :
    ((recvEntsFrom D permute nqty (outs r) ins ps ib).map REnt.size).sum =
      (ps.flatMap fun p => τ p r).length := by
  induction ps generalizing ib with
  | nil => rfl
  | cons p ps ih =>
    have ih := fun ib => ih (fun q hq => hps q (by simp [hq])) ib
    rcases rEnt_cases G hr (hps p (by simp)) ps ib with ⟨h, _, he⟩ | ⟨_, _, e, he, h1, h2, _⟩
    · rw [he, ih]; simp [h]
    · rw [he, List.map_cons, List.sum_cons, ih, h2]
      simp only [List.flatMap_cons, List.length_append]
      push_cast; rfl

/-- Setup in collective mode returns. -/
theorem collObj_exists (G : Geom D P ins outs nqty permute packflag σ τ) {r : Nat} (hr : r < P) :
    ∃ o g, remapSetup D P r ins outs nqty permute packflag true = some o ∧
      CollObj D P ins outs nqty permute packflag σ r o g := by
  have hlt := procLoop_lt P r hr
  have hperm := procLoop_perm P r hr
  have hps : (sendEnts D P r nqty (ins r) outs).map SEnt.proc =
      (procLoop P P r).filter fun p => σ r p ≠ [] := sEnts_procs G hr _ hlt
  have hpr : (recvEnts D P r permute nqty (outs r) ins).map REnt.proc =
      (procLoop P P r).filter fun p => σ p r ≠ [] := rEnts_procs G hr _ hlt 0
  have hmem : ∀ p, p ∈ procLoop P P r ↔ p < P := fun p => by
    rw [hperm.mem_iff, List.mem_range]
  obtain ⟨t, h1, h2, h3, h4, h5⟩ := groupClosure_spec
    (fun i j => (D.collide (ins i) (outs j)).isSome)
    (fun i j => (D.collide (outs i) (ins j)).isSome) P r
    ((sendEnts D P r nqty (ins r) outs).map SEnt.proc)
    ((recvEnts D P r permute nqty (outs r) ins).map REnt.proc) (by
      intro p
      rw [adjP_iff G, hps, hpr, List.mem_filter, List.mem_filter, hmem]
      unfold Talk
      simp only [ne_eq, decide_eq_true_eq]
      tauto)
  rw [adjP_iff G] at h4
  refine ⟨_, sortedGroup P t, by
    simp only [remapSetup, if_true, h1, Option.map_some]; rfl, ?_⟩
  constructor
  · rfl
  · rfl
  · exact ⟨_, rfl⟩
  · intro j
    rw [sortedGroup, List.mem_filter, h3, h4, List.mem_range]
    constructor
    · exact fun h => h.2
    · intro h
      refine ⟨?_, h⟩
      cases h with
      | single h => exact h.2.1
      | tail _ h => exact h.2.1
  · rfl
  · intro p hp hσ
    simp only
    rw [if_neg]
    intro he
    have : p ∈ (sendEnts D P r nqty (ins r) outs).map SEnt.proc := by
      rw [hps, List.mem_filter, hmem]; exact ⟨hp, by simpa using hσ⟩
    rw [he] at this; simp at this
  · intro p hp hσ
    simp only
    rw [if_neg]
    intro he
    have : p ∈ (recvEnts D P r permute nqty (outs r) ins).map REnt.proc := by
      rw [hpr, List.mem_filter, hmem]; exact ⟨hp, by simpa using hσ⟩
    rw [he] at this; simp at this
  · exact (sEnts_size G hr _ hlt).trans
      (by rw [(hperm.flatMap_right fun p => σ r p).length_eq])
  · refine (rEnts_size G hr _ hlt 0).trans ?_
    rw [(hperm.flatMap_right fun p => τ p r).length_eq]
    rw [flatMap_length_congr _ _ (fun p => σ p r)
      (fun a ha => G.len a (List.mem_range.mp ha) r hr)]

theorem CollObj.lt {r : Nat} {o : RemapObj α π} {g : List Nat}
    (O : CollObj D P ins outs nqty permute packflag σ r o g) : ∀ j ∈ g, j < P := by
  intro j hj
  obtain ⟨q, hq⟩ := O.group_sub
  rw [hq] at hj
  exact List.mem_range.mp (List.mem_filter.mp hj).1

theorem CollObj.ents_send {r : Nat} {o : RemapObj α π} {g : List Nat}
    (O : CollObj D P ins outs nqty permute packflag σ r o g)
    (G : Geom D P ins outs nqty permute packflag σ τ) (hr : r < P) :
    EntsOK (o.sends.map fun e => (e.proc, e.size))
      (fun p => (σ r p).length) (fun p i => ∃ e f, o.sends[i]? = some e ∧
      e.size = (σ r p).length ∧ o.pack = some f ∧
      ∀ data buf c, f data e.off buf c e.plan = copyAll (packL c (σ r p)) data buf) g := by
  intro p hp
  have hpP := O.lt p hp
  have hprocs := sEnts_procs G hr _ (procLoop_lt P r hr)
  rw [← O.sends] at hprocs
  rcases findIdx?_spec o.sends SEnt.proc SEnt.size p with ⟨h1, h2⟩ | ⟨i, e, h1, h2, h3, h4⟩
  · left
    refine ⟨?_, h2⟩
    rw [hprocs, List.mem_filter, (procLoop_perm P r hr).mem_iff, List.mem_range] at h1
    by_contra h
    exact h1 ⟨hpP, by simpa using fun h' => h (by simp [h'])⟩
  · right
    have he : e ∈ o.sends := List.mem_of_getElem? h2
    rw [O.sends] at he
    obtain ⟨_, s1, s2, f, s3, s4⟩ := sEnts_mem G hr _ (procLoop_lt P r hr) he
    rw [h3] at s1 s2 s4
    refine ⟨by simpa using s1, i, h1, by rw [h4, s2], e, f, h2, s2, ?_, s4⟩
    rw [O.pack p hpP s1, s3]

theorem CollObj.ents_recv {r : Nat} {o : RemapObj α π} {g : List Nat}
    (O : CollObj D P ins outs nqty permute packflag σ r o g)
    (G : Geom D P ins outs nqty permute packflag σ τ) (hr : r < P) :
    EntsOK (o.recvs.map fun e => (e.proc, e.size))
      (fun p => (τ p r).length) (fun p i => ∃ e : REnt π, o.recvs[i]? = some e ∧
      e.size = (τ p r).length ∧ ∃ f, o.unpack = some f ∧
      ∀ buf data c, f buf c data e.off e.plan = copyAll (unpL c (τ p r)) buf data) g := by
  intro p hp
  have hpP := O.lt p hp
  have hl := G.len p hpP r hr
  have hprocs := rEnts_procs G hr _ (procLoop_lt P r hr) 0
  rw [← O.recvs] at hprocs
  rcases findIdx?_spec o.recvs REnt.proc REnt.size p with ⟨h1, h2⟩ | ⟨i, e, h1, h2, h3, h4⟩
  · left
    refine ⟨?_, h2⟩
    rw [hprocs, List.mem_filter, (procLoop_perm P r hr).mem_iff, List.mem_range] at h1
    by_contra h
    exact h1 ⟨hpP, by simpa using fun h' => h (by simp [hl, h'])⟩
  · right
    have he : e ∈ o.recvs := List.mem_of_getElem? h2
    rw [O.recvs] at he
    obtain ⟨_, s1, s2, _, _, f, s3, s4⟩ := rEnts_mem G hr _ (procLoop_lt P r hr) 0 he
    rw [h3] at s1 s2 s4
    refine ⟨?_, i, h1, by rw [h4, s2], e, h2, s2, f, ?_, s4⟩
    · dsimp only; rw [hl]; simpa using s1
    · rw [O.unpack p hpP s1, s3]

/-- Flattening over the group is flattening over all ranks. -/
theorem CollObj.flatMap_group {r : Nat} {o : RemapObj α π} {g : List Nat}
    (O : CollObj D P ins outs nqty permute packflag σ r o g) (hr : r < P) {γ : Type}
    (f : Nat → List γ) (hf : ∀ p < P, σ r p = [] → σ p r = [] → f p = []) :
    g.flatMap f = (List.range P).flatMap f := by
  obtain ⟨q, hq⟩ := O.group_sub
  rw [hq]
  apply flatMap_filter_nil
  intro p hp hqp
  have hpP := List.mem_range.mp hp
  have hng : p ∉ g := by
    rw [hq, List.mem_filter]; simp [hqp]
  rw [O.mem_group] at hng
  apply hf p hpP
  · by_contra h; exact hng (.single ⟨hr, hpP, Or.inl h⟩)
  · by_contra h; exact hng (.single ⟨hr, hpP, Or.inr h⟩)

/-- Members of the same group have the same list. -/
theorem CollObj.same {a b : Nat} {oa ob : RemapObj α π} {ga gb : List Nat}
    (Oa : CollObj D P ins outs nqty permute packflag σ a oa ga)
    (Ob : CollObj D P ins outs nqty permute packflag σ b ob gb) (hb : b ∈ ga) : ga = gb := by
  obtain ⟨q, hq⟩ := Oa.group_sub
  obtain ⟨q', hq'⟩ := Ob.group_sub
  have hab := (Oa.mem_group b).mp hb
  have hba := transGen_symm (fun _ _ => Talk.symm) hab
  have key : ∀ j, j ∈ ga ↔ j ∈ gb := by
    intro j
    rw [Oa.mem_group, Ob.mem_group]
    exact ⟨fun h => hba.trans h, fun h => hab.trans h⟩
  rw [hq, hq']
  apply List.filter_congr
  intro x hx
  have := key x
  rw [hq, hq', List.mem_filter, List.mem_filter] at this
  simp only [hx, true_and] at this
  exact Bool.eq_iff_iff.mpr this

/-- The whole collective remap of all ranks. -/
theorem remap_coll (G : Geom D P ins outs nqty permute packflag σ τ) (e : Bool) (inst ai ao : Nat)
    (obj : Nat → RemapObj α π)
    (hobj : ∀ r < P, remapSetup D P r ins outs nqty permute packflag true = some (obj r))
    (m : Nat → LMem α)
    (hm : MemOK P σ τ ai ao m (fun r => (obj r).sendsize) (fun r => (obj r).recvsize)) :
    ∃ m', StageOK e P (fun r => (obj r).prog true inst ai ao) m m' ∧
      ∀ r < P, (m' r).ub = Function.update (m r).ub ao (deliver P σ τ m ai ao r) ∧
        (∀ a, ((m' r).sb a).isSome = ((m r).sb a).isSome) ∧
        (∀ a, ((m' r).rb a).isSome = ((m r).rb a).isSome) := by
  have ho : ∀ r < P, ∃ g, CollObj D P ins outs nqty permute packflag σ r (obj r) g := by
    intro r hr
    obtain ⟨o, g, h1, h2⟩ := collObj_exists G hr
    rw [hobj r hr] at h1
    injection h1 with h1
    rw [h1]; exact ⟨g, h2⟩
  choose! grp ho using ho
  let sg : Nat → List GEnt := fun r =>
    groupArgs ((obj r).sends.map fun e => (e.proc, e.size)) (grp r) 0
  let rg : Nat → List GEnt := fun r =>
    groupArgs ((obj r).recvs.map fun e => (e.proc, e.size)) (grp r) 0
  let R : Coll α :=
    { inst := inst
      group := grp
      pks := fun r => collPacks (obj r).pack (obj r).sends ai (sg r) 0
      posts := fun r => (sg r).map fun g => (g.proc, g.displ, g.cnt)
      takes := fun r => (rg r).map fun g => (g.proc, g.displ, g.cnt)
      unps := fun r => collUnpacks (obj r).unpack (obj r).recvs ao (rg r) 0 }
  have hself : ∀ r < P, ∀ j ∈ grp r, r ∈ grp r := by
    intro r hr j hj
    rw [(ho r hr).mem_group] at hj ⊢
    exact hj.trans (transGen_symm (fun _ _ => Talk.symm) hj)
  have hargs : ∀ r < P, ∀ gs : List GEnt, gs.map GEnt.proc = grp r →
      (if decide (r ∈ grp r) = true then gs.map fun g => (g.proc, g.displ, g.cnt) else []) =
        gs.map fun g => (g.proc, g.displ, g.cnt) := by
    intro r hr gs hgs
    by_cases h : r ∈ grp r
    · simp [h]
    · have : grp r = [] := by
        cases hg : grp r with
        | nil => rfl
        | cons x l => exact absurd (hself r hr x (by simp [hg])) h
      have : gs = [] := by
        rw [this] at hgs
        simpa using hgs
      simp [this]
  have hprog : ∀ r < P, (obj r).prog true inst ai ao = R.prog r := by
    intro r hr
    simp only [RemapObj.prog, (ho r hr).coll, if_true, Coll.prog, R, collArgs]
    rw [hargs r hr _ (groupArgs_procs _ _ _), hargs r hr _ (groupArgs_procs _ _ _)]
  have hpf : ∀ r, (R.posts r).map Prod.fst = grp r := by
    intro r
    simp only [R, List.map_map]
    exact groupArgs_procs _ _ _
  have htf : ∀ r, (R.takes r).map Prod.fst = grp r := by
    intro r
    simp only [R, List.map_map]
    exact groupArgs_procs _ _ _
  have hglt : ∀ r < P, ∀ j ∈ grp r, j < P := fun r hr => (ho r hr).lt
  have hgnd : ∀ r < P, (grp r).Nodup := by
    intro r hr
    obtain ⟨q, hq⟩ := (ho r hr).group_sub
    rw [hq]; exact List.nodup_range.filter _
  have hsame : ∀ a < P, ∀ b ∈ grp a, grp a = grp b :=
    fun a ha b hb => (ho a ha).same (ho b (hglt a ha b hb)) hb
  have hMlen : ∀ a < P, ∀ b < P, (msg σ m ai a b).length = (σ a b).length :=
    fun a ha b hb => msg_length hm.inp ha hb
  have hflat : ∀ r < P, ∀ {γ : Type} (f : Nat → List γ),
      (∀ p < P, σ r p = [] → σ p r = [] → f p = []) →
      (grp r).flatMap f = (List.range P).flatMap f := fun r hr _ f hf => (ho r hr).flatMap_group hr f hf
  have hSP := fun r hr => (ho r hr).ents_send G hr
  have hRP := fun r hr => (ho r hr).ents_recv G hr
  have hphase : ∀ r < P, ∃ m' m1 m2, (locPhase (R.pks r) (m r) = some m1 ∧
      postBlks (R.posts r) m1 = some ((R.posts r).map fun p => msg σ m ai r p.1) ∧
      takePhase (fun a => msg σ m ai a r) (R.takes r) m1 = some m2 ∧
      locPhase (R.unps r) m2 = some m') ∧
      m'.ub = Function.update (m r).ub ao (deliver P σ τ m ai ao r) ∧
        (∀ a, (m'.sb a).isSome = ((m r).sb a).isSome) ∧
        (∀ a, (m'.rb a).isSome = ((m r).rb a).isSome) := by
    intro r hr
    have hg := hglt r hr
    have f1 : (grp r).flatMap (fun p => σ r p) = (List.range P).flatMap fun p => σ r p :=
      hflat r hr _ fun p _ h _ => h
    have f2 : (grp r).flatMap (fun p => τ p r) = (List.range P).flatMap fun p => τ p r :=
      hflat r hr _ fun p hp _ h => List.length_eq_zero_iff.mp (by rw [G.len p hp r hr, h]; rfl)
    have f3 : (grp r).flatMap (fun p => msg σ m ai p r) =
        (List.range P).flatMap fun p => msg σ m ai p r :=
      hflat r hr _ fun p hp _ h => by simp [msg, h]
    have l1 : ((grp r).flatMap fun p => gather ((m r).ub ai) (σ r p)).length =
        ((grp r).flatMap fun p => σ r p).length :=
      flatMap_length_congr _ _ _ fun p hp => hMlen r hr p (hg p hp)
    have l3 : ((grp r).flatMap fun p => msg σ m ai p r).length =
        ((List.range P).flatMap fun p => σ p r).length := by
      rw [f3]
      exact flatMap_length_congr _ _ _ fun p hp => hMlen p (List.mem_range.mp hp) r hr
    have hsb := hm.sb r hr
    rw [(ho r hr).sendsize, ← f1] at hsb
    have hrb := hm.rb r hr
    rw [(ho r hr).recvsize, ← l3] at hrb
    have p1 := collPacks_phase _ (obj r).pack (obj r).sends ai (fun p => σ r p) (grp r) 0 (m r)
      (hSP r hr) (fun p hp => hm.inp r hr p (hg p hp)) hsb
    have p2 := posts_phase ((obj r).sends.map fun e => (e.proc, e.size))
      (fun p => gather ((m r).ub ai) (σ r p)) (fun _ _ => True) (grp r) 0
      ⟨(m r).ub, storeBlk (m r).sb 0 ((grp r).flatMap fun p => gather ((m r).ub ai) (σ r p)), (m r).rb⟩
      (by
        intro p hp
        have := hMlen r hr p (hg p hp)
        simp only [msg] at this
        dsimp only
        rw [this]
        rcases hSP r hr p hp with h | ⟨h1, i, h2, h3, _⟩
        · exact Or.inl h
        · exact Or.inr ⟨h1, i, h2, h3, trivial⟩)
      (fun t ht => storeBlk_get _ _ _ _ ht)
    have p3 := takes_phase ((obj r).recvs.map fun e => (e.proc, e.size))
      (fun p => msg σ m ai p r) (fun _ _ => True) (grp r) 0
      ⟨(m r).ub, storeBlk (m r).sb 0 ((grp r).flatMap fun p => gather ((m r).ub ai) (σ r p)), (m r).rb⟩
      (by
        intro p hp
        have := hMlen p (hg p hp) r hr
        dsimp only
        rw [this, ← G.len p (hg p hp) r hr]
        rcases hRP r hr p hp with h | ⟨h1, i, h2, h3, _⟩
        · exact Or.inl h
        · exact Or.inr ⟨h1, i, h2, h3, trivial⟩) hrb
    have p4 := collUnpacks_phase _ (obj r).unpack (obj r).recvs ao (fun p => τ p r)
      (fun p => msg σ m ai p r) (grp r) 0
      ⟨(m r).ub, storeBlk (m r).sb 0 ((grp r).flatMap fun p => gather ((m r).ub ai) (σ r p)),
        storeBlk (m r).rb 0 ((grp r).flatMap fun p => msg σ m ai p r)⟩
      (hRP r hr) (fun p hp => by rw [hMlen p (hg p hp) r hr, G.len p (hg p hp) r hr])
      (fun p hp => hm.out p (hg p hp) r hr)
      (fun t ht => storeBlk_get _ _ _ _ ht)
    refine ⟨_, _, _, ⟨p1, ?_, p3, p4⟩, ?_, ?_, ?_⟩
    · refine p2.trans ?_
      have h := congrArg (List.map fun p => gather ((m r).ub ai) (σ r p)) (hpf r)
      rw [List.map_map] at h
      exact congrArg some h.symm
    · simp only [deliver]
      rw [f2, f3]
    · intro a
      simp only
      by_cases h1 : 0 ≤ a ∧ a < 0 + (((grp r).flatMap fun p => gather ((m r).ub ai) (σ r p)).length : Int)
      · rw [storeBlk_isSome _ _ _ _ (Or.inl h1), hsb a h1.1 (by omega)]
      · rw [storeBlk, if_neg h1]
    · intro a
      simp only
      by_cases h1 : 0 ≤ a ∧ a < 0 + (((grp r).flatMap fun p => msg σ m ai p r).length : Int)
      · rw [storeBlk_isSome _ _ _ _ (Or.inl h1), hrb a h1.1 (by omega)]
      · rw [storeBlk, if_neg h1]
  have : Nonempty (LMem α) := ⟨m 0⟩
  choose! m' m1 m2 hp hres using hphase
  refine ⟨m', ?_, hres⟩
  have hworks : R.Works P (msg σ m ai) m m' := by
    refine ⟨?_, ?_, ?_, ?_, ?_, ?_, fun r hr => ⟨m1 r, m2 r, hp r hr⟩⟩
    · intro a ha b hb
      rw [hpf] at hb; exact hglt a ha b hb
    · intro b hb a ha
      rw [htf] at ha; exact hglt b hb a ha
    · intro a ha
      rw [hpf]; exact hgnd a ha
    · intro b hb
      rw [htf]; exact hgnd b hb
    · intro a ha b hb
      rw [hpf, htf, (ho a ha).mem_group, (ho b hb).mem_group]
      exact ⟨transGen_symm (fun _ _ => Talk.symm), transGen_symm (fun _ _ => Talk.symm)⟩
    · intro a ha b hb
      rw [hpf] at hb
      exact hsame a ha b hb
  exact (StageOK.coll (e := e) R (msg σ m ai) m m' hworks).congr hprog

/-- Both branches. -/
theorem remap_stage (G : Geom D P ins outs nqty permute packflag σ τ)
    (hN : ∀ b < P, ((List.range P).flatMap fun a => τ a b).Nodup) (e : Bool)
    (collective : Bool) (inst ai ao : Nat) (obj : Nat → RemapObj α π)
    (hobj : ∀ r < P, remapSetup D P r ins outs nqty permute packflag collective = some (obj r))
    (m : Nat → LMem α)
    (hm : MemOK P σ τ ai ao m (fun r => (obj r).sendsize) (fun r => (obj r).recvsize)) :
    ∃ m', StageOK e P (fun r => (obj r).prog collective inst ai ao) m m' ∧
      ∀ r < P, (m' r).ub = Function.update (m r).ub ao (deliver P σ τ m ai ao r) ∧
        (∀ a, ((m' r).sb a).isSome = ((m r).sb a).isSome) ∧
        (∀ a, ((m' r).rb a).isSome = ((m r).rb a).isSome) := by
  cases collective
  · exact remap_p2p G hN e inst ai ao obj hobj m hm
  · exact remap_coll G e inst ai ao obj hobj m hm

/-- Setup returns on every rank. -/
theorem remapSetup_some (G : Geom D P ins outs nqty permute packflag σ τ) (collective : Bool)
    {r : Nat} (hr : r < P) :
    ∃ o, remapSetup D P r ins outs nqty permute packflag collective = some o := by
  cases collective
  · exact ⟨_, rfl⟩
  · obtain ⟨o, _, h, _⟩ := collObj_exists G hr
    exact ⟨o, h⟩

end

end FftMpi
