import Verif.RemapGroup
import Verif.Stage

/-!
# Correctness of a remap from the address lists of its messages
-/

namespace FftMpi

variable {α : Type}

/-! ## Order of the ranks -/

theorem procLoop_eq (P k iproc : Nat) (h : iproc < P) :
    procLoop P k iproc = (List.range k).map fun i => (iproc + 1 + i) % P := by
  induction k generalizing iproc with
  | zero => rfl
  | succ k ih =>
    simp only [procLoop, List.range_succ_eq_map, List.map_cons, List.map_map]
    by_cases h1 : iproc + 1 = P
    · rw [if_pos h1, ih 0 (by omega)]
      simp only [List.cons.injEq]
      refine ⟨by rw [Nat.add_zero, h1, Nat.mod_self], ?_⟩
      apply List.map_congr_left
      intro i _
      simp only [Function.comp]
      rw [show iproc + 1 + (i + 1) = 0 + 1 + i + P by omega, Nat.add_mod_right]
    · rw [if_neg h1, ih (iproc + 1) (by omega)]
      simp only [List.cons.injEq]
      refine ⟨by rw [Nat.add_zero, Nat.mod_eq_of_lt (by omega)], ?_⟩
      apply List.map_congr_left
      intro i _
      simp only [Function.comp]
      congr 1; omega

/-- The ranks other than `me` in the order of the loops. -/
def others (P me : Nat) : List Nat := procLoop P (P - 1) me

theorem procLoop_others (P me : Nat) (h : me < P) : procLoop P P me = others P me ++ [me] := by
  unfold others
  rw [procLoop_eq P _ me h, procLoop_eq P _ me h]
  obtain ⟨k, rfl⟩ : ∃ k, P = k + 1 := ⟨P - 1, by omega⟩
  rw [List.range_succ, List.map_append]
  simp only [Nat.add_sub_cancel, List.map_cons, List.map_nil, List.append_cancel_left_eq,
    List.cons.injEq, and_true]
  rw [show me + 1 + k = me + (k + 1) by omega, Nat.add_mod_right, Nat.mod_eq_of_lt h]

theorem procLoop_nodup (P me : Nat) (h : me < P) : (procLoop P P me).Nodup := by
  rw [procLoop_eq P _ me h]
  refine List.Nodup.map_on ?_ List.nodup_range
  intro x hx y hy hxy
  rw [List.mem_range] at hx hy
  have h1 : ∀ z, z < P → (me + 1 + z) % P = if me + 1 + z < P then me + 1 + z else me + 1 + z - P := by
    intro z hz
    split
    · rw [Nat.mod_eq_of_lt (by assumption)]
    · rw [Nat.mod_eq_sub_mod (by omega), Nat.mod_eq_of_lt (by omega)]
  rw [h1 x hx, h1 y hy] at hxy
  split at hxy <;> split at hxy <;> omega

theorem procLoop_lt (P me : Nat) (h : me < P) : ∀ p ∈ procLoop P P me, p < P := by
  rw [procLoop_eq P _ me h]
  intro p hp
  obtain ⟨i, _, rfl⟩ := List.mem_map.mp hp
  exact Nat.mod_lt _ (by omega)

theorem procLoop_perm (P me : Nat) (h : me < P) : (procLoop P P me).Perm (List.range P) := by
  have hs : List.Subperm (procLoop P P me) (List.range P) :=
    List.Nodup.subperm (procLoop_nodup P me h) (fun p hp => List.mem_range.mpr (procLoop_lt P me h p hp))
  apply hs.perm_of_length_le
  rw [procLoop_eq P _ me h]; simp

theorem others_perm (P me : Nat) (h : me < P) : (others P me ++ [me]).Perm (List.range P) := by
  rw [← procLoop_others P me h]; exact procLoop_perm P me h

theorem others_nodup (P me : Nat) (h : me < P) : (others P me).Nodup := by
  have := procLoop_nodup P me h
  rw [procLoop_others P me h] at this
  exact (List.nodup_append.mp this).1

theorem not_mem_others (P me : Nat) (h : me < P) : me ∉ others P me := by
  have := procLoop_nodup P me h
  rw [procLoop_others P me h] at this
  intro hm
  exact (List.nodup_append.mp this).2.2 me hm me (by simp) rfl

theorem mem_others (P me : Nat) (h : me < P) (p : Nat) : p ∈ others P me ↔ p < P ∧ p ≠ me := by
  have h1 := (others_perm P me h).mem_iff (a := p)
  simp only [List.mem_append, List.mem_singleton, List.mem_range] at h1
  have h2 := not_mem_others P me h
  constructor
  · intro hp
    exact ⟨h1.mp (Or.inl hp), fun he => h2 (he ▸ hp)⟩
  · rintro ⟨ha, hb⟩
    rcases h1.mpr ha with h | h
    · exact h
    · exact absurd h hb

/-! ## Geometry -/

/-- The messages of a remap: `σ a b` are the addresses of rank `a`'s input that go to rank `b`,
`τ a b` the addresses of rank `b`'s output that they go to. -/
structure Geom {E π : Type} (D : Dim α E π) (P : Nat) (ins outs : Nat → E)
    (nqty permute packflag : Int) (σ τ : Nat → Nat → List Int) : Prop where
  hit : ∀ a < P, ∀ b < P, σ a b ≠ [] → ∃ ov, D.collide (ins a) (outs b) = some ov ∧
    D.collide (outs b) (ins a) = some ov ∧ D.size nqty ov = (σ a b).length ∧
    (∃ f, D.packSel packflag = some f ∧ ∀ data buf c,
      f data (D.sendOff nqty (ins a) ov) buf c (D.sendPlan nqty (ins a) ov) =
        copyAll (packL c (σ a b)) data buf) ∧
    (∃ f, D.unpackSel packflag permute nqty = some f ∧ ∀ buf data c,
      f buf c data (D.recvOff permute nqty (outs b) ov) (D.recvPlan permute nqty (outs b) ov) =
        copyAll (unpL c (τ a b)) buf data)
  miss : ∀ a < P, ∀ b < P, σ a b = [] →
    D.collide (ins a) (outs b) = none ∧ D.collide (outs b) (ins a) = none
  len : ∀ a < P, ∀ b < P, (τ a b).length = (σ a b).length
  range : ∀ a < P, ∀ b < P, ∀ x ∈ τ a b, 0 ≤ x ∧ x < D.size nqty (outs b)

/-- Message from `a` to `b`. -/
def msg (σ : Nat → Nat → List Int) (m : Nat → LMem α) (ai a b : Nat) : List α :=
  gather ((m a).ub ai) (σ a b)

/-- The output array of rank `r` after the remap. -/
def deliver (P : Nat) (σ τ : Nat → Nat → List Int) (m : Nat → LMem α) (ai ao r : Nat) : Mem α :=
  scatter ((List.range P).flatMap fun a => τ a r) ((List.range P).flatMap fun a => msg σ m ai a r)
    ((m r).ub ao)

/-- The arrays and buffers of all ranks are large enough. -/
structure MemOK (P : Nat) (σ τ : Nat → Nat → List Int) (ai ao : Nat) (m : Nat → LMem α)
    (sendsize recvsize : Nat → Int) : Prop where
  inp : ∀ a < P, ∀ b < P, ∀ x ∈ σ a b, ((m a).ub ai x).isSome
  out : ∀ a < P, ∀ b < P, ∀ x ∈ τ a b, ((m b).ub ao x).isSome
  sb : ∀ r < P, accessible (m r).sb 0 (sendsize r)
  rb : ∀ r < P, accessible (m r).rb 0 (recvsize r)

theorem msg_length {P : Nat} {σ : Nat → Nat → List Int} {m : Nat → LMem α} {ai : Nat}
    (h : ∀ a < P, ∀ b < P, ∀ x ∈ σ a b, ((m a).ub ai x).isSome) {a b : Nat} (ha : a < P) (hb : b < P) :
    (msg σ m ai a b).length = (σ a b).length := gather_length (h a ha b hb)

theorem flatMap_length_congr {β γ : Type} (l : List Nat) (f : Nat → List β) (g : Nat → List γ)
    (h : ∀ x ∈ l, (f x).length = (g x).length) :
    (l.flatMap f).length = (l.flatMap g).length := by
  induction l with
  | nil => rfl
  | cons x l ih =>
    simp only [List.flatMap_cons, List.length_append]
    rw [h x (by simp), ih (fun y hy => h y (by simp [hy]))]

theorem scatter_perm (τ : Nat → List Int) (v : Nat → List α) (L1 L2 : List Nat) (hp : L1.Perm L2)
    (hlen : ∀ a ∈ L1, (v a).length = (τ a).length) (hn : (L1.flatMap τ).Nodup) (m : Mem α) :
    scatter (L1.flatMap τ) (L1.flatMap v) m = scatter (L2.flatMap τ) (L2.flatMap v) m := by
  induction hp generalizing m with
  | nil => rfl
  | cons x _ ih =>
    simp only [List.flatMap_cons] at hn ⊢
    rw [scatter_append _ _ _ _ _ (hlen x (by simp)), scatter_append _ _ _ _ _ (hlen x (by simp))]
    exact ih (fun a ha => hlen a (by simp [ha])) (List.nodup_append.mp hn).2.1 _
  | swap x y l =>
    simp only [List.flatMap_cons] at hn ⊢
    have hx := hlen x (by simp)
    have hy := hlen y (by simp)
    rw [scatter_append _ _ _ _ _ hy, scatter_append _ _ _ _ _ hx, scatter_append _ _ _ _ _ hx,
      scatter_append _ _ _ _ _ hy]
    congr 1
    apply scatter_comm
    intro a ha hb
    exact (List.nodup_append.mp hn).2.2 _ hb _ (by simp [ha]) rfl
  | trans h1 h2 ih1 ih2 =>
    rw [ih1 hlen hn]
    exact ih2 (fun a ha => hlen a (h1.mem_iff.mpr ha)) ((h1.flatMap_right τ).nodup_iff.mp hn) _

theorem nodup_int_length {l : List Int} {n : Int} (h : l.Nodup) (hl : ∀ x ∈ l, 0 ≤ x ∧ x < n) :
    (l.length : Int) ≤ max n 0 := by
  have : l ⊆ irange n := fun x hx => mem_irange.mpr (hl x hx)
  have := (List.Nodup.subperm h this).length_le
  simp only [irange, irangeN, List.length_map, List.length_range] at this
  omega

section
variable {E π : Type} {D : Dim α E π} {P : Nat} {ins outs : Nat → E}
  {nqty permute packflag : Int} {σ τ : Nat → Nat → List Int}

/-! ## Entries -/

/-- The send entry for rank `p`, if any. -/
def sEnt (D : Dim α E π) (nqty : Int) (inb : E) (outs : Nat → E) (p : Nat) : Option (SEnt π) :=
  (D.collide inb (outs p)).map fun ov =>
    { proc := p, off := D.sendOff nqty inb ov, size := D.size nqty ov,
      plan := D.sendPlan nqty inb ov }

theorem sEnt_none (G : Geom D P ins outs nqty permute packflag σ τ) {r p : Nat} (hr : r < P)
    (hp : p < P) (h : σ r p = []) : sEnt D nqty (ins r) outs p = none := by
  simp [sEnt, (G.miss r hr p hp h).1]

theorem sEnt_some (G : Geom D P ins outs nqty permute packflag σ τ) {r p : Nat} (hr : r < P)
    (hp : p < P) (h : σ r p ≠ []) : ∃ e, sEnt D nqty (ins r) outs p = some e ∧ e.proc = p ∧
      e.size = (σ r p).length ∧ ∃ f, D.packSel packflag = some f ∧ ∀ data buf c,
        f data e.off buf c e.plan = copyAll (packL c (σ r p)) data buf := by
  obtain ⟨ov, h1, _, h3, h4, _⟩ := G.hit r hr p hp h
  exact ⟨_, by simp [sEnt, h1]; rfl, rfl, h3, h4⟩

theorem sEnt_cases (G : Geom D P ins outs nqty permute packflag σ τ) {r p : Nat} (hr : r < P)
    (hp : p < P) : (σ r p = [] ∧ sEnt D nqty (ins r) outs p = none) ∨
      (σ r p ≠ [] ∧ ∃ e, sEnt D nqty (ins r) outs p = some e ∧ e.proc = p ∧
      e.size = (σ r p).length ∧ ∃ f, D.packSel packflag = some f ∧ ∀ data buf c,
        f data e.off buf c e.plan = copyAll (packL c (σ r p)) data buf) := by
  by_cases h : σ r p = []
  · exact Or.inl ⟨h, sEnt_none G hr hp h⟩
  · exact Or.inr ⟨h, sEnt_some G hr hp h⟩

theorem sEnts_procs (G : Geom D P ins outs nqty permute packflag σ τ) {r : Nat} (hr : r < P)
    (ps : List Nat) (hps : ∀ p ∈ ps, p < P) :
    (ps.filterMap (sEnt D nqty (ins r) outs)).map SEnt.proc = ps.filter fun p => σ r p ≠ [] := by
  induction ps with
  | nil => rfl
  | cons p ps ih =>
    have ih := ih (fun q hq => hps q (by simp [hq]))
    rcases sEnt_cases G hr (hps p (by simp)) with ⟨h, he⟩ | ⟨h, e, he, h1, _⟩
    · simp [he, h, ih]
    · simp [he, h, ih, h1]

theorem sEnts_mem (G : Geom D P ins outs nqty permute packflag σ τ) {r : Nat} (hr : r < P)
    (ps : List Nat) (hps : ∀ p ∈ ps, p < P) {e : SEnt π}
    (he : e ∈ ps.filterMap (sEnt D nqty (ins r) outs)) :
    e.proc ∈ ps ∧ σ r e.proc ≠ [] ∧ e.size = (σ r e.proc).length ∧
      ∃ f, D.packSel packflag = some f ∧ ∀ data buf c,
        f data e.off buf c e.plan = copyAll (packL c (σ r e.proc)) data buf := by
  obtain ⟨p, hp, h⟩ := List.mem_filterMap.mp he
  rcases sEnt_cases G hr (hps p hp) with ⟨_, h'⟩ | ⟨h0, e', h', h1, h2⟩
  · rw [h'] at h; cases h
  · rw [h'] at h
    cases h
    subst h1
    exact ⟨hp, h0, h2⟩

/-! ## Receive entries -/

theorem rEnt_cases (G : Geom D P ins outs nqty permute packflag σ τ) {r p : Nat} (hr : r < P)
    (hp : p < P) (ps : List Nat) (ib : Int) :
    (τ p r = [] ∧ σ p r = [] ∧ recvEntsFrom D permute nqty (outs r) ins (p :: ps) ib =
        recvEntsFrom D permute nqty (outs r) ins ps ib) ∨
    (τ p r ≠ [] ∧ σ p r ≠ [] ∧ ∃ e : REnt π, recvEntsFrom D permute nqty (outs r) ins (p :: ps) ib =
        e :: recvEntsFrom D permute nqty (outs r) ins ps (ib + (τ p r).length) ∧
      e.proc = p ∧ e.size = (τ p r).length ∧ e.bufloc = ib ∧
      ∃ f, D.unpackSel packflag permute nqty = some f ∧ ∀ buf data c,
        f buf c data e.off e.plan = copyAll (unpL c (τ p r)) buf data) := by
  have hl := G.len p hp r hr
  by_cases h : σ p r = []
  · left
    refine ⟨by rw [h] at hl; exact List.length_eq_zero_iff.mp hl, h, ?_⟩
    simp [recvEntsFrom, (G.miss p hp r hr h).2]
  · right
    refine ⟨?_, h, ?_⟩
    · intro h'; rw [h'] at hl; exact h (List.length_eq_zero_iff.mp hl.symm)
    · obtain ⟨ov, _, h2, h3, _, f, h5, h6⟩ := G.hit p hp r hr h
      refine ⟨⟨p, D.recvOff permute nqty (outs r) ov, D.size nqty ov, ib,
        D.recvPlan permute nqty (outs r) ov⟩, ?_, rfl, ?_, rfl, f, h5, h6⟩
      · simp only [recvEntsFrom, h2]
        rw [h3, hl]
      · rw [hl]; exact h3

theorem rEnts_procs (G : Geom D P ins outs nqty permute packflag σ τ) {r : Nat} (hr : r < P)
    (ps : List Nat) (hps : ∀ p ∈ ps, p < P) (ib : Int) :
    (recvEntsFrom D permute nqty (outs r) ins ps ib).map REnt.proc =
      ps.filter fun p => σ p r ≠ [] := by
  induction ps generalizing ib with
  | nil => rfl
  | cons p ps ih =>
    have ih := fun ib => ih (fun q hq => hps q (by simp [hq])) ib
    rcases rEnt_cases G hr (hps p (by simp)) ps ib with ⟨_, h, he⟩ | ⟨_, h, e, he, h1, _⟩
    · rw [he, ih]; simp [h]
    · rw [he, List.map_cons, ih, h1]; simp [h]

theorem rEnts_append (G : Geom D P ins outs nqty permute packflag σ τ) {r : Nat} (hr : r < P)
    (ps qs : List Nat) (hps : ∀ p ∈ ps, p < P) (ib : Int) :
    recvEntsFrom D permute nqty (outs r) ins (ps ++ qs) ib =
      recvEntsFrom D permute nqty (outs r) ins ps ib ++
      recvEntsFrom D permute nqty (outs r) ins qs (ib + (ps.flatMap fun a => τ a r).length) := by
  induction ps generalizing ib with
  | nil => simp [recvEntsFrom]
  | cons p ps ih =>
    have ih := fun ib => ih (fun q hq => hps q (by simp [hq])) ib
    rcases rEnt_cases G hr (hps p (by simp)) ps ib with ⟨ht, h, he⟩ | ⟨ht, h, e, he, _⟩
    · rw [he, List.flatMap_cons, ht, List.nil_append, ← ih]
      rcases rEnt_cases G hr (hps p (by simp)) (ps ++ qs) ib with ⟨_, _, he⟩ | ⟨ht', _⟩
      · exact he
      · exact absurd ht ht'
    · rcases rEnt_cases G hr (hps p (by simp)) (ps ++ qs) ib with ⟨ht', _⟩ | ⟨_, _, e', he', _⟩
      · exact absurd ht' ht
      · have : e = e' := by
          have h0 := rEnt_cases G hr (hps p (by simp)) [] ib
          obtain ⟨ov, _, h2, _⟩ := G.hit p (hps p (by simp)) r hr h
          simp only [recvEntsFrom, h2] at he he'
          rw [← (List.cons.inj he).1, ← (List.cons.inj he').1]
        subst this
        rw [List.cons_append, he', he, List.cons_append, ih, List.flatMap_cons, List.length_append]
        congr 3
        push_cast; ring

theorem rEnts_mem (G : Geom D P ins outs nqty permute packflag σ τ) {r : Nat} (hr : r < P)
    (ps : List Nat) (hps : ∀ p ∈ ps, p < P) (ib : Int) {e : REnt π}
    (he : e ∈ recvEntsFrom D permute nqty (outs r) ins ps ib) :
    e.proc ∈ ps ∧ σ e.proc r ≠ [] ∧ e.size = (τ e.proc r).length ∧
      ib ≤ e.bufloc ∧ e.bufloc + e.size ≤ ib + (ps.flatMap fun a => τ a r).length ∧
      ∃ f, D.unpackSel packflag permute nqty = some f ∧ ∀ buf data c,
        f buf c data e.off e.plan = copyAll (unpL c (τ e.proc r)) buf data := by
  induction ps generalizing ib with
  | nil => simp [recvEntsFrom] at he
  | cons p ps ih =>
    have ih := fun ib => ih (fun q hq => hps q (by simp [hq])) ib
    rcases rEnt_cases G hr (hps p (by simp)) ps ib with ⟨ht, h, heq⟩ | ⟨ht, h, e', heq, h1, h2, h3, h4⟩
    · rw [heq] at he
      obtain ⟨a1, a2, a3, a4, a5, a6⟩ := ih ib he
      refine ⟨by simp [a1], a2, a3, a4, ?_, a6⟩
      simpa [List.flatMap_cons, ht] using a5
    · rw [heq] at he
      rcases List.mem_cons.mp he with rfl | he
      · refine ⟨by simp [h1], by rw [h1]; exact h, by rw [h1]; exact h2, by omega, ?_, by rw [h1]; exact h4⟩
        rw [List.flatMap_cons, List.length_append, h2, h3]
        push_cast; omega
      · obtain ⟨a1, a2, a3, a4, a5, a6⟩ := ih _ he
        refine ⟨by simp [a1], a2, a3, by omega, ?_, a6⟩
        rw [List.flatMap_cons, List.length_append]
        push_cast; omega

/-! ## Point-to-point phases -/

/-- The receive posted for an entry. -/
def toPRecv (unpk : Option (CopyFn α π)) (ao : Nat) (e : REnt π) : PRecv α :=
  ⟨e.proc, e.bufloc, e.size, unpackRb unpk ao e.bufloc e⟩

/-- The send made for an entry. -/
def toPSend (pk : Option (CopyFn α π)) (ai : Nat) (e : SEnt π) : PSend α :=
  ⟨e.proc, e.size, packSb pk ai 0 e⟩

theorem postPhase_recv (G : Geom D P ins outs nqty permute packflag σ τ) {r : Nat} (hr : r < P)
    (unpk : Option (CopyFn α π)) (ao : Nat)
    (ps : List Nat) (hps : ∀ p ∈ ps, p < P) (ib : Int) (m : LMem α)
    (hacc : accessible m.rb ib (ps.flatMap fun a => τ a r).length) :
    postPhase ((recvEntsFrom D permute nqty (outs r) ins ps ib).map (toPRecv unpk ao)) m =
      some { m with rb := hideBlk m.rb ib (ps.flatMap fun a => τ a r).length } := by
  induction ps generalizing ib m with
  | nil =>
    simp only [recvEntsFrom, List.map_nil, postPhase, List.flatMap_nil, List.length_nil]
    congr 1
    ext1
    · rfl
    · rfl
    · funext a
      exact (hideBlk_other _ _ _ _ (by simp)).symm
  | cons p ps ih =>
    have ih := fun ib m => ih (fun q hq => hps q (by simp [hq])) ib m
    rw [List.flatMap_cons, List.length_append] at hacc ⊢
    rcases rEnt_cases G hr (hps p (by simp)) ps ib with ⟨ht, h, heq⟩ | ⟨ht, h, e', heq, h1, h2, h3, h4⟩
    · rw [heq, ht]
      simp only [List.length_nil, zero_add]
      apply ih
      simpa [ht] using hacc
    · rw [heq]
      simp only [List.map_cons, postPhase, toPRecv]
      rw [if_pos, h2, h3]
      · have := ih (ib + (τ p r).length) { m with rb := hideBlk m.rb ib (τ p r).length } (by
          intro a ha hb
          simp only
          rw [hideBlk_other _ _ _ _ (by omega)]
          exact hacc a (by omega) (by push_cast; omega))
        refine this.trans ?_
        simp only
        rw [hideBlk_append _ _ _ _ (by omega) (by omega)]
        push_cast; rfl
      · rw [h2, h3]
        exact ⟨by omega, fun a ha hb => hacc a (by omega) (by push_cast; omega)⟩

theorem sendPhase_send (G : Geom D P ins outs nqty permute packflag σ τ) {r : Nat} (hr : r < P)
    (pk : Option (CopyFn α π)) (ai : Nat) (N : Int)
    (ps : List Nat) (hps : ∀ p ∈ ps, p < P) (m : LMem α)
    (hpk : ∀ p ∈ ps, σ r p ≠ [] → pk = D.packSel packflag)
    (hin : ∀ p ∈ ps, ∀ x ∈ σ r p, (m.ub ai x).isSome)
    (hN : ∀ p ∈ ps, ((σ r p).length : Int) ≤ N)
    (hacc : accessible m.sb 0 N) :
    ∃ sb', sendPhase ((ps.filterMap (sEnt D nqty (ins r) outs)).map (toPSend pk ai)) m =
      some ({ m with sb := sb' }, (ps.filter fun p => σ r p ≠ []).map fun p =>
        gather (m.ub ai) (σ r p)) ∧ ∀ a, (sb' a).isSome = (m.sb a).isSome := by
  induction ps generalizing m with
  | nil => exact ⟨m.sb, by simp [sendPhase], fun _ => rfl⟩
  | cons p ps ih =>
    have hp := hps p (by simp)
    rcases sEnt_cases G hr hp with ⟨h, he⟩ | ⟨h, e, he, h1, h2, f, h3, h4⟩
    · obtain ⟨sb', i1, i2⟩ := ih (fun q hq => hps q (by simp [hq])) m
        (fun q hq => hpk q (by simp [hq])) (fun q hq => hin q (by simp [hq]))
        (fun q hq => hN q (by simp [hq])) hacc
      refine ⟨sb', ?_, i2⟩
      simpa [he, h] using i1
    · have hpk' := hpk p (by simp) h
      have hg := gather_length (hin p (by simp))
      have hacc' : accessible m.sb 0 (σ r p).length := fun a ha hb =>
        hacc a ha (by have := hN p (by simp); omega)
      have hdom : ∀ a, (storeBlk m.sb 0 (gather (m.ub ai) (σ r p)) a).isSome = (m.sb a).isSome := by
        intro a
        by_cases ha : 0 ≤ a ∧ a < 0 + ((gather (m.ub ai) (σ r p)).length : Int)
        · rw [storeBlk_isSome _ _ _ _ (Or.inl ha), hacc' a ha.1 (by rw [hg] at ha; exact ha.2)]
        · simp only [storeBlk, if_neg ha]
      obtain ⟨sb', i1, i2⟩ := ih (fun q hq => hps q (by simp [hq]))
        { m with sb := storeBlk m.sb 0 (gather (m.ub ai) (σ r p)) }
        (fun q hq => hpk q (by simp [hq])) (fun q hq => hin q (by simp [hq]))
        (fun q hq => hN q (by simp [hq]))
        (by intro a ha hb; simp only; rw [hdom]; exact hacc a ha hb)
      refine ⟨sb', ?_, fun a => by rw [i2 a]; exact hdom a⟩
      rw [List.filterMap_cons_some he, List.map_cons, sendPhase]
      have hpack : (toPSend pk ai e).pk m =
          some { m with sb := storeBlk m.sb 0 (gather (m.ub ai) (σ r p)) } := by
        simp only [toPSend, packSb, hpk', h3, Option.bind_some, h4]
        rw [copyAll_packL _ _ _ _ (hin p (by simp)) hacc']
        rfl
      rw [hpack]
      simp only [Option.bind_some]
      rw [readBlk_store _ _ _ (by rw [hg]; simp [toPSend, h2])]
      simp only [Option.bind_some, i1, Option.map_some]
      simp [h]

/-- Unpack code of an entry when the message `v` is in its region. -/
theorem unpackRb_eq (unpk : Option (CopyFn α π)) (ao : Nat) (e : REnt π) (l : List Int)
    (hf : ∃ f, unpk = some f ∧ ∀ buf data c, f buf c data e.off e.plan = copyAll (unpL c l) buf data)
    (b : Int) (v : List α) (m : LMem α) (hlen : v.length = l.length)
    (hb : ∀ t, (h : t < v.length) → m.rb (b + t) = some v[t])
    (hd : ∀ x ∈ l, (m.ub ao x).isSome) :
    unpackRb unpk ao b e m =
      some { m with ub := Function.update m.ub ao (scatter l v (m.ub ao)) } := by
  obtain ⟨f, rfl, h2⟩ := hf
  simp only [unpackRb, Option.bind_some, h2]
  rw [copyAll_unpL b l v _ _ hlen hb hd]
  rfl

theorem update_scatter_nil (m : LMem α) (ao : Nat) :
    Function.update m.ub ao (scatter [] ([] : List α) (m.ub ao)) = m.ub := by
  simp [scatter]

theorem waitPhase_recv (G : Geom D P ins outs nqty permute packflag σ τ) {r : Nat} (hr : r < P)
    (unpk : Option (CopyFn α π)) (ao : Nat) (M : Nat → List α)
    (ps : List Nat) (hps : ∀ p ∈ ps, p < P) (ib : Int) (m : LMem α)
    (hunp : ∀ p ∈ ps, σ p r ≠ [] → unpk = D.unpackSel packflag permute nqty)
    (hM : ∀ p ∈ ps, (M p).length = (τ p r).length)
    (hd : ∀ p ∈ ps, ∀ x ∈ τ p r, (m.ub ao x).isSome) :
    waitPhase M ((recvEntsFrom D permute nqty (outs r) ins ps ib).map (toPRecv unpk ao)) m =
      some { m with
        ub := Function.update m.ub ao
          (scatter (ps.flatMap fun a => τ a r) (ps.flatMap M) (m.ub ao)),
        rb := storeBlk m.rb ib (ps.flatMap M) } := by
  induction ps generalizing ib m with
  | nil => simp [recvEntsFrom, waitPhase, storeBlk_nil, scatter]
  | cons p ps ih =>
    have ih := fun ib m => ih (fun q hq => hps q (by simp [hq])) ib m
      (fun q hq => hunp q (by simp [hq])) (fun q hq => hM q (by simp [hq]))
    have hMp := hM p (by simp)
    simp only [List.flatMap_cons]
    rcases rEnt_cases G hr (hps p (by simp)) ps ib with ⟨ht, h, heq⟩ | ⟨ht, h, e, heq, h1, h2, h3, h4⟩
    · have hv : M p = [] := by rw [ht] at hMp; exact List.length_eq_zero_iff.mp hMp
      rw [heq, ht, hv, ih ib m (fun q hq => hd q (by simp [hq]))]
      simp
    · rw [heq]
      simp only [List.map_cons, waitPhase, toPRecv, h1, h2, h3]
      rw [if_pos (by rw [hMp])]
      rw [unpackRb_eq unpk ao e (τ p r) (by rw [hunp p (by simp) h]; exact h4) ib (M p)
        { ub := m.ub, sb := m.sb, rb := storeBlk m.rb ib (M p) } hMp
        (fun t ht => storeBlk_get _ _ _ _ ht) (hd p (by simp))]
      simp only [Option.bind_some]
      have := ih (ib + (τ p r).length)
        { ub := Function.update m.ub ao (scatter (τ p r) (M p) (m.ub ao)), sb := m.sb,
          rb := storeBlk m.rb ib (M p) }
        (by
          intro q hq x hx
          simp only [Function.update_self]
          exact scatter_isSome _ _ _ _ (hd q (by simp [hq]) x hx))
      refine this.trans ?_
      simp only [Function.update_self, Function.update_idem]
      rw [← hMp, storeBlk_append, scatter_append _ _ _ _ _ hMp]

theorem unpackRb_acc {unpk : Option (CopyFn α π)} {ao : Nat} {e : REnt π} {l : List Int}
    (hf : ∃ f, unpk = some f ∧ ∀ buf data c, f buf c data e.off e.plan = copyAll (unpL c l) buf data)
    {b : Int} {m m1 : LMem α} (h : unpackRb unpk ao b e m = some m1) :
    (∀ x ∈ l, (m.ub ao x).isSome) ∧ ∀ x, (m1.ub ao x).isSome = (m.ub ao x).isSome := by
  obtain ⟨f, hf, hf'⟩ := hf
  simp only [unpackRb, hf, Option.bind_some, hf'] at h
  obtain ⟨o, ho, rfl⟩ := Option.map_eq_some_iff.mp h
  constructor
  · intro x hx
    rw [← unpL_dst b l] at hx
    obtain ⟨p, hp, rfl⟩ := List.mem_map.mp hx
    exact (copyAll_some ho p hp).2
  · intro x
    simp only [Function.update_self]
    exact copyAll_dom ho x

theorem recvBack_entries (unpk : Option (CopyFn α π)) (ao : Nat) (e1 e2 : REnt π) (l1 l2 : List Int)
    (h2 : e2.size = l2.length)
    (hf1 : ∃ f, unpk = some f ∧ ∀ buf data c, f buf c data e1.off e1.plan = copyAll (unpL c l1) buf data)
    (hf2 : ∃ f, unpk = some f ∧ ∀ buf data c, f buf c data e2.off e2.plan = copyAll (unpL c l2) buf data) :
    RecvBack (toPRecv unpk ao e1) (toPRecv unpk ao e2) := by
  intro v w m m1 _ hw hm1 hm2
  simp only [toPRecv] at hw hm1 hm2 ⊢
  obtain ⟨m3, hm3⟩ := Option.isSome_iff_exists.mp hm2
  have a1 := (unpackRb_acc hf1 hm1).2
  have a2 := (unpackRb_acc hf2 hm3).1
  rw [unpackRb_eq unpk ao e2 l2 hf2 e2.bufloc w { m with rb := storeBlk m.rb e2.bufloc w } (by omega)
    (fun t ht => storeBlk_get _ _ _ _ ht) (fun x hx => by
      have := a2 x hx
      simp only at this a1
      rw [a1] at this; exact this)]
  rfl

theorem recvComm_entries (unpk : Option (CopyFn α π)) (ao : Nat) (e1 e2 : REnt π) (l1 l2 : List Int)
    (h1 : e1.size = l1.length) (h2 : e2.size = l2.length)
    (hf1 : ∃ f, unpk = some f ∧ ∀ buf data c, f buf c data e1.off e1.plan = copyAll (unpL c l1) buf data)
    (hf2 : ∃ f, unpk = some f ∧ ∀ buf data c, f buf c data e2.off e2.plan = copyAll (unpL c l2) buf data)
    (hdis : ∀ x ∈ l1, x ∉ l2)
    (hreg : e1.bufloc + e1.size ≤ e2.bufloc) :
    RecvComm (toPRecv unpk ao e1) (toPRecv unpk ao e2) := by
  refine ⟨recvBack_entries unpk ao e1 e2 l1 l2 h2 hf1 hf2,
    recvBack_entries unpk ao e2 e1 l2 l1 h1 hf2 hf1, ?_⟩
  intro v w m m1 m2 hv hw hm1 hm2
  simp only [toPRecv] at hv hw hm1 hm2 ⊢
  have acc : ∀ (e : REnt π) (l : List Int) (hf : ∃ f, unpk = some f ∧ ∀ buf data c,
      f buf c data e.off e.plan = copyAll (unpL c l) buf data) (b : Int) (m m1 : LMem α),
      unpackRb unpk ao b e m = some m1 → ∀ x ∈ l, (m.ub ao x).isSome := by
    rintro e l ⟨f, hf, hf'⟩ b m m1 h x hx
    simp only [unpackRb, hf, Option.bind_some, hf'] at h
    obtain ⟨o, ho, _⟩ := Option.map_eq_some_iff.mp h
    rw [← unpL_dst b l] at hx
    obtain ⟨p, hp, rfl⟩ := List.mem_map.mp hx
    exact (copyAll_some ho p hp).2
  have a1 := acc e1 l1 hf1 _ _ _ hm1
  have a2 := acc e2 l2 hf2 _ _ _ hm2
  simp only at a1 a2
  have lv : v.length = l1.length := by omega
  have lw : w.length = l2.length := by omega
  rw [unpackRb_eq unpk ao e1 l1 hf1 e1.bufloc v { m with rb := storeBlk m.rb e1.bufloc v } lv
    (fun t ht => storeBlk_get _ _ _ _ ht) a1] at hm1
  rw [unpackRb_eq unpk ao e2 l2 hf2 e2.bufloc w { m with rb := storeBlk m.rb e2.bufloc w } lw
    (fun t ht => storeBlk_get _ _ _ _ ht) a2] at hm2
  cases hm1
  cases hm2
  simp only
  rw [unpackRb_eq unpk ao e2 l2 hf2 e2.bufloc w _ lw (fun t ht => storeBlk_get _ _ _ _ ht) (by
    intro x hx; simp only [Function.update_self]; exact scatter_isSome _ _ _ _ (a2 x hx))]
  rw [unpackRb_eq unpk ao e1 l1 hf1 e1.bufloc v _ lv (fun t ht => storeBlk_get _ _ _ _ ht) (by
    intro x hx; simp only [Function.update_self]; exact scatter_isSome _ _ _ _ (a1 x hx))]
  refine ⟨_, rfl, ?_⟩
  simp only [Function.update_self, Function.update_idem]
  congr 2
  · rw [scatter_comm _ _ _ _ _ hdis]
  · funext a
    simp only [storeBlk]
    split_ifs <;> first | rfl | omega

end

end FftMpi
