import Verif.Remap32
import Verif.RemapWorks
import Mathlib.Algebra.Order.BigOperators.Group.List

/-!
# The 32-bit setup agrees with the unbounded one when everything fits
-/

namespace FftMpi

variable {α E π : Type}

/-- Size of the message between the extent `b` and rank `p`. -/
def wsize (D : Dim α E π) (nqty : Int) (b : E) (xs : Nat → E) (p : Nat) : Int :=
  match D.collide b (xs p) with
  | none => 0
  | some ov => D.size nqty ov

/-- Every expression of `setup` on rank `me` fits. -/
structure Safe32 (D' : Dim32 α E π) (D : Dim α E π) (P me : Nat) (ins outs : Nat → E)
    (nqty permute : Int) : Prop where
  ext_in : D'.extent (ins me) = true
  ext_out : D'.extent (outs me) = true
  col_io : ∀ i < P, ∀ j < P, D'.collide (ins i) (outs j) = some (D.collide (ins i) (outs j))
  col_oi : ∀ i < P, ∀ j < P, D'.collide (outs i) (ins j) = some (D.collide (outs i) (ins j))
  send : ∀ p < P, ∀ ov, D.collide (ins me) (outs p) = some ov →
    D'.sendOff nqty (ins me) ov = some (D.sendOff nqty (ins me) ov) ∧
    D'.sendPlan nqty (ins me) ov = some (D.sendPlan nqty (ins me) ov) ∧
    D'.size nqty ov = some (D.size nqty ov) ∧ 0 ≤ D.size nqty ov
  recv : ∀ p < P, ∀ ov, D.collide (outs me) (ins p) = some ov →
    D'.recvOff permute nqty (outs me) ov = some (D.recvOff permute nqty (outs me) ov) ∧
    D'.recvPlan permute nqty (outs me) ov = some (D.recvPlan permute nqty (outs me) ov) ∧
    D'.size nqty ov = some (D.size nqty ov) ∧ 0 ≤ D.size nqty ov
  rsize : D'.size nqty (outs me) = some (D.size nqty (outs me))
  sum_send : ∀ ps : List Nat, ps.Nodup → (∀ p ∈ ps, p < P) →
    (ps.map (wsize D nqty (ins me) outs)).sum ≤ 2147483647
  sum_recv : ∀ ps : List Nat, ps.Nodup → (∀ p ∈ ps, p < P) →
    (ps.map (wsize D nqty (outs me) ins)).sum ≤ 2147483647
  procs : 7 * (P : Int) ≤ 2147483647

/-- The unbounded parts with the 32-bit copy routines. -/
def Dim.withSel (D : Dim α E π) (D' : Dim32 α E π) : Dim α E π :=
  { D with packSel := D'.packSel, unpackSel := D'.unpackSel }

section
variable {D' : Dim32 α E π} {D : Dim α E π} {P me : Nat} {ins outs : Nat → E} {nqty permute : Int}

theorem Safe32.wsend_nonneg (h : Safe32 D' D P me ins outs nqty permute) {p : Nat} (hp : p < P) :
    0 ≤ wsize D nqty (ins me) outs p := by
  unfold wsize
  cases e : D.collide (ins me) (outs p) with
  | none => simp
  | some ov => exact (h.send p hp ov e).2.2.2

theorem Safe32.wrecv_nonneg (h : Safe32 D' D P me ins outs nqty permute) {p : Nat} (hp : p < P) :
    0 ≤ wsize D nqty (outs me) ins p := by
  unfold wsize
  cases e : D.collide (outs me) (ins p) with
  | none => simp
  | some ov => exact (h.recv p hp ov e).2.2.2

theorem sum_map_nonneg {f : Nat → Int} {ps : List Nat} (h : ∀ p ∈ ps, 0 ≤ f p) :
    0 ≤ (ps.map f).sum := by
  apply List.sum_nonneg
  intro x hx
  obtain ⟨p, hp, rfl⟩ := List.mem_map.mp hx
  exact h p hp

/-- The entries of the send loop over a list of ranks. -/
def sendEntsOf (D : Dim α E π) (nqty : Int) (inb : E) (outs : Nat → E) (ps : List Nat) :
    List (SEnt π) :=
  ps.filterMap fun p => (D.collide inb (outs p)).map fun ov =>
    { proc := p, off := D.sendOff nqty inb ov, size := D.size nqty ov,
      plan := D.sendPlan nqty inb ov }

theorem Safe32.sends_eq (h : Safe32 D' D P me ins outs nqty permute) (hme : me < P) :
    ∀ ps : List Nat, (∀ p ∈ ps, p < P) →
      sendEnts32 D' nqty (ins me) outs ps = some (sendEntsOf D nqty (ins me) outs ps) := by
  intro ps
  induction ps with
  | nil => intro _; rfl
  | cons p ps ih =>
    intro hps
    have hp := hps p (by simp)
    have ih := ih (fun q hq => hps q (by simp [hq]))
    simp only [sendEnts32]
    rw [h.col_io me hme p hp, Option.bind_some]
    unfold sendEntsOf at ih ⊢
    cases e : D.collide (ins me) (outs p) with
    | none =>
      simp only [List.filterMap_cons, e, Option.map_none]
      exact ih
    | some ov =>
      obtain ⟨h1, h2, h3, -⟩ := h.send p hp ov e
      simp only [h1, h2, h3, Option.bind_some, ih, Option.map_some, List.filterMap_cons, e]

theorem Safe32.recvs_eq (h : Safe32 D' D P me ins outs nqty permute) (hme : me < P) :
    ∀ (ps : List Nat) (ibuf : Int), (∀ p ∈ ps, p < P) → 0 ≤ ibuf →
      ibuf + (ps.map (wsize D nqty (outs me) ins)).sum ≤ 2147483647 →
      recvEnts32 D' permute nqty (outs me) ins ps ibuf =
        some (recvEntsFrom D permute nqty (outs me) ins ps ibuf) := by
  intro ps
  induction ps with
  | nil => intro _ _ _ _; rfl
  | cons p ps ih =>
    intro ibuf hps hb hs
    have hp := hps p (by simp)
    have hps' : ∀ q ∈ ps, q < P := fun q hq => hps q (by simp [hq])
    simp only [recvEnts32, recvEntsFrom]
    rw [h.col_oi me hme p hp, Option.bind_some]
    rw [List.map_cons, List.sum_cons] at hs
    have hn : 0 ≤ (ps.map (wsize D nqty (outs me) ins)).sum :=
      sum_map_nonneg fun q hq => h.wrecv_nonneg (hps' q hq)
    unfold wsize at hs
    cases e : D.collide (outs me) (ins p) with
    | none =>
      simp only [e] at hs
      exact ih ibuf hps' hb (by unfold wsize; omega)
    | some ov =>
      obtain ⟨h1, h2, h3, h4⟩ := h.recv p hp ov e
      simp only [e] at hs
      change _ + (_ + (ps.map (wsize D nqty (outs me) ins)).sum) ≤ _ at hs
      simp only [h1, h2, h3, Option.bind_some]
      rw [add32_eq (fits_of (by omega) (by omega)), Option.bind_some,
        ih (ibuf + D.size nqty ov) hps' (by omega) (by omega)]
      rfl

theorem sum32_eq : ∀ (xs : List Int) (s : Int), (∀ x ∈ xs, 0 ≤ x) → 0 ≤ s →
    s + xs.sum ≤ 2147483647 → sum32 xs s = some (s + xs.sum) := by
  intro xs
  induction xs with
  | nil => intro s _ _ _; simp [sum32]
  | cons x xs ih =>
    intro s hx hs hm
    have h1 := hx x (by simp)
    have h2 : 0 ≤ xs.sum := List.sum_nonneg fun y hy => hx y (by simp [hy])
    rw [List.sum_cons] at hm
    simp only [sum32]
    rw [add32_eq (fits_of (by omega) (by omega)), Option.bind_some,
      ih _ (fun y hy => hx y (by simp [hy])) (by omega) (by omega), List.sum_cons, add_assoc]

theorem sendEntsOf_sum (ps : List Nat) :
    ((sendEntsOf D nqty (ins me) outs ps).map SEnt.size).sum =
      (ps.map (wsize D nqty (ins me) outs)).sum := by
  induction ps with
  | nil => rfl
  | cons p ps ih =>
    unfold sendEntsOf at ih ⊢
    rw [List.map_cons, List.sum_cons, ← ih]
    conv_rhs => unfold wsize
    cases e : D.collide (ins me) (outs p) with
    | none => simp [e]
    | some ov => simp [e]

theorem recvEntsFrom_total (ps : List Nat) : ∀ ibuf : Int,
    ((recvEntsFrom D permute nqty (outs me) ins ps ibuf).map REnt.size).sum =
      (ps.map (wsize D nqty (outs me) ins)).sum := by
  induction ps with
  | nil => intro _; rfl
  | cons p ps ih =>
    intro ibuf
    simp only [recvEntsFrom]
    rw [List.map_cons, List.sum_cons]
    conv_rhs => enter [1]; unfold wsize
    cases e : D.collide (outs me) (ins p) with
    | none => simp only [zero_add]; exact ih ibuf
    | some ov => simp only [List.map_cons, List.sum_cons]; rw [ih]

theorem sendEntsOf_mem {ps : List Nat} {e : SEnt π} (he : e ∈ sendEntsOf D nqty (ins me) outs ps) :
    e.proc ∈ ps ∧ ∃ ov, D.collide (ins me) (outs e.proc) = some ov ∧
      e.off = D.sendOff nqty (ins me) ov ∧ e.plan = D.sendPlan nqty (ins me) ov ∧
      e.size = D.size nqty ov := by
  unfold sendEntsOf at he
  obtain ⟨p, hp, h⟩ := List.mem_filterMap.mp he
  obtain ⟨ov, ho, rfl⟩ := Option.map_eq_some_iff.mp h
  exact ⟨hp, ov, ho, rfl, rfl, rfl⟩

theorem recvEntsFrom_mem : ∀ {ps : List Nat} {ibuf : Int} {e : REnt π},
    e ∈ recvEntsFrom D permute nqty (outs me) ins ps ibuf →
    e.proc ∈ ps ∧ ∃ ov, D.collide (outs me) (ins e.proc) = some ov ∧
      e.off = D.recvOff permute nqty (outs me) ov ∧ e.plan = D.recvPlan permute nqty (outs me) ov ∧
      e.size = D.size nqty ov := by
  intro ps
  induction ps with
  | nil => intro _ _ h; simp [recvEntsFrom] at h
  | cons p ps ih =>
    intro ibuf e h
    simp only [recvEntsFrom] at h
    cases c : D.collide (outs me) (ins p) with
    | none =>
      rw [c] at h
      obtain ⟨h1, h2⟩ := ih h
      exact ⟨by simp [h1], h2⟩
    | some ov =>
      rw [c] at h
      rcases List.mem_cons.mp h with rfl | h
      · exact ⟨by simp, ov, c, rfl, rfl, rfl⟩
      · obtain ⟨h1, h2⟩ := ih h
        exact ⟨by simp [h1], h2⟩

/-- Size recorded for rank `p`. -/
def entSize (ents : List (Nat × Int)) (p : Nat) : Int :=
  match ents.findIdx? (fun e => e.1 == p) with
  | none => 0
  | some i => (ents.getD i (0, 0)).2

theorem findIdx?_mem {ents : List (Nat × Int)} {p i : Nat}
    (h : ents.findIdx? (fun e => e.1 == p) = some i) :
    (ents.getD i (0, 0)) ∈ ents ∧ (ents.getD i (0, 0)).1 = p := by
  obtain ⟨hi, h1, -⟩ := List.findIdx?_eq_some_iff_getElem.mp h
  have h2 : ents.getD i (0, 0) = ents[i] := by simp [List.getD, hi]
  rw [h2]
  exact ⟨List.getElem_mem hi, by simpa using h1⟩

theorem groupArgs32_eq (ents : List (Nat × Int)) (hpos : ∀ e ∈ ents, 0 ≤ e.2) :
    ∀ (ps : List Nat) (off : Int), 0 ≤ off → off + (ps.map (entSize ents)).sum ≤ 2147483647 →
      groupArgs32 ents ps off = some (groupArgs ents ps off) := by
  have hnn : ∀ p, 0 ≤ entSize ents p := by
    intro p
    unfold entSize
    cases e : ents.findIdx? (fun e => e.1 == p) with
    | none => simp
    | some i => exact hpos _ (findIdx?_mem e).1
  intro ps
  induction ps with
  | nil => intro _ _ _; rfl
  | cons p ps ih =>
    intro off h0 hs
    rw [List.map_cons, List.sum_cons] at hs
    have hn : 0 ≤ (ps.map (entSize ents)).sum := sum_map_nonneg fun q _ => hnn q
    have h1 := hnn p
    simp only [groupArgs32, groupArgs]
    unfold entSize at hs h1
    cases e : ents.findIdx? (fun e => e.1 == p) with
    | none =>
      simp only [e] at hs
      simp only
      rw [ih off h0 (by unfold entSize; omega)]
      rfl
    | some i =>
      simp only [e] at hs h1
      change _ + (_ + (ps.map (entSize ents)).sum) ≤ _ at hs
      simp only
      rw [add32_eq (fits_of (by omega) (by omega)), Option.bind_some, ih _ (by omega) (by omega)]
      rfl

theorem entSize_le {ents : List (Nat × Int)} {f : Nat → Int} {p : Nat} (h0 : 0 ≤ f p)
    (h : ∀ e ∈ ents, e.2 = f e.1) : entSize ents p ≤ f p := by
  unfold entSize
  cases e : ents.findIdx? (fun e => e.1 == p) with
  | none => exact h0
  | some i =>
    obtain ⟨h1, h2⟩ := findIdx?_mem e
    have := h _ h1
    rw [h2] at this
    exact this.le

theorem sum_map_le {f g : Nat → Int} {ps : List Nat} (h : ∀ p ∈ ps, f p ≤ g p) :
    (ps.map f).sum ≤ (ps.map g).sum := by
  induction ps with
  | nil => simp
  | cons p ps ih =>
    have h1 := h p (by simp)
    have h2 := ih fun q hq => h q (by simp [hq])
    simp only [List.map_cons, List.sum_cons]
    omega

/-! ### The group closure depends on the ranks of the job only -/

theorem foldl_congr_mem {β γ : Type} {I : γ → Prop} {f g : γ → β → γ} :
    ∀ (l : List β) (s : γ), I s → (∀ x ∈ l, ∀ s, I s → f s x = g s x ∧ I (f s x)) →
      l.foldl f s = l.foldl g s ∧ I (l.foldl f s) := by
  intro l
  induction l with
  | nil => intro s hs _; exact ⟨rfl, hs⟩
  | cons x l ih =>
    intro s hs h
    obtain ⟨h1, h2⟩ := h x (by simp) s hs
    obtain ⟨h3, h4⟩ := ih (f s x) h2 (fun y hy => h y (by simp [hy]))
    simp only [List.foldl_cons]
    rw [← h1]
    exact ⟨h3, h4⟩

theorem GrpSt.add_lt {s : GrpSt} {p P : Nat} (hs : ∀ q ∈ s.pgroup, q < P) (hp : p < P) :
    ∀ q ∈ (s.add p).pgroup, q < P := by
  intro q hq
  simp only [GrpSt.add, List.mem_append, List.mem_singleton] at hq
  rcases hq with hq | rfl
  · exact hs q hq
  · exact hp

theorem addProcs_lt {P : Nat} : ∀ (ps : List Nat) (s : GrpSt), (∀ p ∈ ps, p < P) →
    (∀ q ∈ s.pgroup, q < P) → ∀ q ∈ (addProcs ps s).pgroup, q < P := by
  intro ps
  induction ps with
  | nil => intro s _ h; exact h
  | cons p ps ih =>
    intro s hps h
    simp only [addProcs, List.foldl_cons]
    refine ih _ (fun q hq => hps q (by simp [hq])) ?_
    split
    · exact h
    · exact GrpSt.add_lt h (hps p (by simp))

theorem groupClosure_congr {io io' oi oi' : Nat → Nat → Bool} {P : Nat} {sendp recvp : List Nat}
    (h1 : ∀ i < P, ∀ j < P, io i j = io' i j) (h2 : ∀ i < P, ∀ j < P, oi i j = oi' i j)
    (hs : ∀ p ∈ sendp, p < P) (hr : ∀ p ∈ recvp, p < P) :
    groupClosure io oi P sendp recvp = groupClosure io' oi' P sendp recvp := by
  have hscan : ∀ i < P, ∀ s : GrpSt, (∀ q ∈ s.pgroup, q < P) →
      scanProcs io oi P i s = scanProcs io' oi' P i s ∧ ∀ q ∈ (scanProcs io oi P i s).pgroup, q < P := by
    intro i hi s hs
    refine foldl_congr_mem (I := fun s : GrpSt => ∀ q ∈ s.pgroup, q < P) _ s hs ?_
    intro j hj s hs
    have hj := List.mem_range.mp hj
    rw [h1 i hi j hj, h2 i hi j hj]
    refine ⟨rfl, ?_⟩
    split_ifs
    · exact hs
    · exact GrpSt.add_lt hs hj
    · exact GrpSt.add_lt hs hj
    · exact hs
  have hpass : ∀ s : GrpSt, (∀ q ∈ s.pgroup, q < P) →
      groupPass io oi P s = groupPass io' oi' P s ∧ ∀ q ∈ (groupPass io oi P s).pgroup, q < P := by
    intro s hs
    exact foldl_congr_mem (I := fun s : GrpSt => ∀ q ∈ s.pgroup, q < P) s.pgroup
      { s with active := false } hs (fun i hi t ht => hscan i (hs i hi) t ht)
  have hloop : ∀ (k : Nat) (s : GrpSt), (∀ q ∈ s.pgroup, q < P) →
      groupLoop io oi P k s = groupLoop io' oi' P k s := by
    intro k
    induction k with
    | zero => intro s _; rfl
    | succ k ih =>
      intro s hs
      obtain ⟨h3, h4⟩ := hpass s hs
      simp only [groupLoop]
      rw [← h3]
      split
      · exact ih _ h4
      · rfl
  exact hloop _ _ (addProcs_lt _ _ hr (addProcs_lt _ _ hs (by simp)))

theorem procLoop_length (P : Nat) : ∀ (k i : Nat), (procLoop P k i).length = k := by
  intro k
  induction k with
  | zero => intro _; rfl
  | succ k ih => intro i; simp only [procLoop, List.length_cons]; rw [ih]

theorem dropSelf_le32 (procs : List Nat) (me : Nat) (c : Bool) : dropSelf procs me c ≤ procs.length := by
  unfold dropSelf
  split <;> omega

theorem recvEntsFrom_length : ∀ (ps : List Nat) (ibuf : Int),
    (recvEntsFrom D permute nqty (outs me) ins ps ibuf).length ≤ ps.length := by
  intro ps
  induction ps with
  | nil => intro _; simp [recvEntsFrom]
  | cons p ps ih =>
    intro ibuf
    simp only [recvEntsFrom]
    cases D.collide (outs me) (ins p) with
    | none => exact (ih ibuf).trans (by simp)
    | some ov => simp only [List.length_cons]; have := ih (ibuf + D.size nqty ov); omega

/-- **The 32-bit setup does the same as the unbounded one.** -/
theorem Safe32.setup (h : Safe32 D' D P me ins outs nqty permute) (hme : me < P) (packflag : Int)
    (collective : Bool) :
    remapSetup32 D' P me ins outs nqty permute packflag collective =
      remapSetup (D.withSel D') P me ins outs nqty permute packflag collective := by
  have hpl : ∀ p ∈ procLoop P P me, p < P := procLoop_lt P me hme
  have hnd := procLoop_nodup P me hme
  have hlen := procLoop_length P P me
  have hse := h.sends_eq hme _ hpl
  have hre := h.recvs_eq hme _ 0 hpl le_rfl (by rw [zero_add]; exact h.sum_recv _ hnd hpl)
  have e1 : sendEnts (D.withSel D') P me nqty (ins me) outs =
      sendEntsOf D nqty (ins me) outs (procLoop P P me) := rfl
  have e2 : ∀ (ps : List Nat) (i : Int), recvEntsFrom (D.withSel D') permute nqty (outs me) ins ps i =
      recvEntsFrom D permute nqty (outs me) ins ps i := by
    intro ps
    induction ps with
    | nil => intro _; rfl
    | cons p ps ih =>
      intro i
      simp only [recvEntsFrom]
      change (match D.collide (outs me) (ins p) with | none => _ | some ov => _) = _
      cases D.collide (outs me) (ins p) with
      | none => exact ih i
      | some ov => simp only [ih]; rfl
  have hps := h.procs
  unfold remapSetup32 remapSetup
  rw [if_pos ⟨h.ext_in, h.ext_out⟩, hse, Option.bind_some, hre, Option.bind_some]
  unfold FftMpi.recvEnts
  rw [e1, e2]
  set S := sendEntsOf D nqty (ins me) outs (procLoop P P me) with hS
  set R := recvEntsFrom D permute nqty (outs me) ins (procLoop P P me) 0 with hR
  have lS : S.length ≤ P := by
    rw [hS]
    exact (List.length_filterMap_le _ _).trans hlen.le
  have lR : R.length ≤ P := (recvEntsFrom_length _ _).trans hlen.le
  have dS := dropSelf_le32 (S.map SEnt.proc) me collective
  have dR := dropSelf_le32 (R.map REnt.proc) me collective
  rw [List.length_map] at dS dR
  simp only []
  rw [mul32_eq (fits_of (by omega) (by omega)), Option.bind_some,
    mul32_eq (fits_of (by omega) (by omega)), Option.bind_some]
  have pS : ∀ e ∈ S, e.proc < P ∧ e.size = wsize D nqty (ins me) outs e.proc ∧ 0 ≤ e.size := by
    intro e he
    obtain ⟨h1, ov, h2, -, -, h3⟩ := sendEntsOf_mem he
    refine ⟨hpl _ h1, ?_, ?_⟩
    · unfold wsize; rw [h2]; exact h3
    · rw [h3]; exact (h.send _ (hpl _ h1) ov h2).2.2.2
  have pR : ∀ e ∈ R, e.proc < P ∧ e.size = wsize D nqty (outs me) ins e.proc ∧ 0 ≤ e.size := by
    intro e he
    obtain ⟨h1, ov, h2, -, -, h3⟩ := recvEntsFrom_mem he
    refine ⟨hpl _ h1, ?_, ?_⟩
    · unfold wsize; rw [h2]; exact h3
    · rw [h3]; exact (h.recv _ (hpl _ h1) ov h2).2.2.2
  cases collective with
  | false =>
    simp only [Bool.false_eq_true, if_false]
    rw [h.rsize]
    rfl
  | true =>
    simp only [if_true]
    have hc1 : collideAll D' P ins outs = true := by
      simp only [collideAll, List.all_eq_true, List.mem_range]
      intro i hi j hj
      rw [h.col_io i hi j hj]; rfl
    have hc2 : collideAll D' P outs ins = true := by
      simp only [collideAll, List.all_eq_true, List.mem_range]
      intro i hi j hj
      rw [h.col_oi i hi j hj]; rfl
    rw [if_pos ⟨hc1, hc2⟩]
    have hg := groupClosure_congr (P := P)
      (io := fun i j => ((D'.collide (ins i) (outs j)).getD none).isSome)
      (io' := fun i j => ((D.withSel D').collide (ins i) (outs j)).isSome)
      (oi := fun i j => ((D'.collide (outs i) (ins j)).getD none).isSome)
      (oi' := fun i j => ((D.withSel D').collide (outs i) (ins j)).isSome)
      (sendp := S.map SEnt.proc) (recvp := R.map REnt.proc)
      (fun i hi j hj => by simp only [h.col_io i hi j hj]; rfl)
      (fun i hi j hj => by simp only [h.col_oi i hi j hj]; rfl)
      (by intro p hp; obtain ⟨e, he, rfl⟩ := List.mem_map.mp hp; exact (pS e he).1)
      (by intro p hp; obtain ⟨e, he, rfl⟩ := List.mem_map.mp hp; exact (pR e he).1)
    rw [hg]
    cases hgc : groupClosure (fun i j => ((D.withSel D').collide (ins i) (outs j)).isSome)
      (fun i j => ((D.withSel D').collide (outs i) (ins j)).isSome) P
      (S.map SEnt.proc) (R.map REnt.proc) with
    | none => rfl
    | some s =>
      simp only [Option.bind_some, Option.map_some]
      have hnd' : (sortedGroup P s).Nodup := List.nodup_range.filter _
      have hlt' : ∀ p ∈ sortedGroup P s, p < P := by
        intro p hp
        exact List.mem_range.mp (List.mem_filter.mp hp).1
      have hlen' : (sortedGroup P s).length ≤ P := by
        have := List.length_filter_le s.pflag (List.range P)
        rw [List.length_range] at this
        exact this
      have sS : (S.map SEnt.size).sum = ((procLoop P P me).map (wsize D nqty (ins me) outs)).sum :=
        sendEntsOf_sum _
      have sR : (R.map REnt.size).sum = ((procLoop P P me).map (wsize D nqty (outs me) ins)).sum :=
        recvEntsFrom_total _ _
      have bS := h.sum_send _ hnd hpl
      have bR := h.sum_recv _ hnd hpl
      rw [sum32_eq (S.map SEnt.size) 0 (by
          intro x hx; obtain ⟨e, he, rfl⟩ := List.mem_map.mp hx; exact (pS e he).2.2) le_rfl (by omega),
        Option.bind_some,
        sum32_eq (R.map REnt.size) 0 (by
          intro x hx; obtain ⟨e, he, rfl⟩ := List.mem_map.mp hx; exact (pR e he).2.2) le_rfl (by omega),
        Option.bind_some]
      rw [groupArgs32_eq _ (by
          intro x hx; obtain ⟨e, he, rfl⟩ := List.mem_map.mp hx; exact (pS e he).2.2) _ 0 le_rfl (by
          rw [zero_add]
          refine le_trans (sum_map_le fun p hp => entSize_le (f := wsize D nqty (ins me) outs)
            (h.wsend_nonneg (hlt' p hp)) ?_) (h.sum_send _ hnd' hlt')
          intro x hx; obtain ⟨e, he, rfl⟩ := List.mem_map.mp hx; exact (pS e he).2.1),
        Option.bind_some,
        groupArgs32_eq _ (by
          intro x hx; obtain ⟨e, he, rfl⟩ := List.mem_map.mp hx; exact (pR e he).2.2) _ 0 le_rfl (by
          rw [zero_add]
          refine le_trans (sum_map_le fun p hp => entSize_le (f := wsize D nqty (outs me) ins)
            (h.wrecv_nonneg (hlt' p hp)) ?_) (h.sum_recv _ hnd' hlt')
          intro x hx; obtain ⟨e, he, rfl⟩ := List.mem_map.mp hx; exact (pR e he).2.1),
        Option.bind_some, mul32_eq (fits_of (by omega) (by omega)), Option.map_some]
      simp only [zero_add]
      rfl

/-! ### remap -/

theorem collPacks32_eq {pk pk' : Option (CopyFn α π)} {sends : List (SEnt π)} (ai : Nat)
    (hpk : ∀ e ∈ sends, ∀ b m, packSb pk' ai b e m = packSb pk ai b e m) :
    ∀ (gs : List GEnt) (off : Int), 0 ≤ off →
      (∀ g ∈ gs, ∀ i, g.map = some i → ∀ e, sends[i]? = some e → e.size = g.cnt) →
      (∀ g ∈ gs, 0 ≤ g.cnt) → off + (gs.map GEnt.cnt).sum ≤ 2147483647 →
      collPacks32 pk' sends ai gs off = collPacks pk sends ai gs off := by
  intro gs
  induction gs with
  | nil => intro _ _ _ _ _; rfl
  | cons g gs ih =>
    intro off h0 hm hc hs
    rw [List.map_cons, List.sum_cons] at hs
    have hg := hc g (by simp)
    have hn : 0 ≤ (gs.map GEnt.cnt).sum := by
      apply List.sum_nonneg
      intro x hx; obtain ⟨y, hy, rfl⟩ := List.mem_map.mp hx; exact hc y (by simp [hy])
    have hm' : ∀ g ∈ gs, ∀ i, g.map = some i → ∀ e, sends[i]? = some e → e.size = g.cnt :=
      fun y hy => hm y (by simp [hy])
    have hc' : ∀ g ∈ gs, 0 ≤ g.cnt := fun y hy => hc y (by simp [hy])
    simp only [collPacks32, collPacks]
    cases e : g.map with
    | none => exact ih off h0 hm' hc' (by omega)
    | some i =>
      simp only
      cases e2 : sends[i]? with
      | none => rfl
      | some x =>
        have hx := hm g (by simp) i e x e2
        have hxm := List.mem_of_getElem? e2
        simp only
        rw [add32_eq (fits_of (by omega) (by omega))]
        simp only
        rw [ih _ (by omega) hm' hc' (by omega)]
        congr 1
        funext m
        exact hpk x hxm off m

theorem collUnpacks32_eq {unpk unpk' : Option (CopyFn α π)} {recvs : List (REnt π)} (ao : Nat)
    (hpk : ∀ e ∈ recvs, ∀ b m, unpackRb unpk' ao b e m = unpackRb unpk ao b e m) :
    ∀ (gs : List GEnt) (off : Int), 0 ≤ off →
      (∀ g ∈ gs, ∀ i, g.map = some i → ∀ e, recvs[i]? = some e → e.size = g.cnt) →
      (∀ g ∈ gs, 0 ≤ g.cnt) → off + (gs.map GEnt.cnt).sum ≤ 2147483647 →
      collUnpacks32 unpk' recvs ao gs off = collUnpacks unpk recvs ao gs off := by
  intro gs
  induction gs with
  | nil => intro _ _ _ _ _; rfl
  | cons g gs ih =>
    intro off h0 hm hc hs
    rw [List.map_cons, List.sum_cons] at hs
    have hg := hc g (by simp)
    have hn : 0 ≤ (gs.map GEnt.cnt).sum := by
      apply List.sum_nonneg
      intro x hx; obtain ⟨y, hy, rfl⟩ := List.mem_map.mp hx; exact hc y (by simp [hy])
    have hm' : ∀ g ∈ gs, ∀ i, g.map = some i → ∀ e, recvs[i]? = some e → e.size = g.cnt :=
      fun y hy => hm y (by simp [hy])
    have hc' : ∀ g ∈ gs, 0 ≤ g.cnt := fun y hy => hc y (by simp [hy])
    simp only [collUnpacks32, collUnpacks]
    cases e : g.map with
    | none => exact ih off h0 hm' hc' (by omega)
    | some i =>
      simp only
      cases e2 : recvs[i]? with
      | none => rfl
      | some x =>
        have hx := hm g (by simp) i e x e2
        have hxm := List.mem_of_getElem? e2
        simp only
        rw [add32_eq (fits_of (by omega) (by omega))]
        simp only
        rw [ih _ (by omega) hm' hc' (by omega)]
        congr 1
        funext m
        exact hpk x hxm off m

/-- The entries made by `groupArgs`. -/
theorem groupArgs_facts (ents : List (Nat × Int)) : ∀ (ps : List Nat) (off : Int),
    ((groupArgs ents ps off).map GEnt.cnt).sum = (ps.map (entSize ents)).sum ∧
      ∀ g ∈ groupArgs ents ps off, (∀ i, g.map = some i → g.cnt = (ents.getD i (0, 0)).2 ∧ i < ents.length) ∧
        (g.map = none → g.cnt = 0) := by
  intro ps
  induction ps with
  | nil => intro off; simp [groupArgs]
  | cons p ps ih =>
    intro off
    simp only [groupArgs]
    rw [List.map_cons, List.sum_cons]
    conv => enter [1, 2, 1]; unfold entSize
    cases e : ents.findIdx? (fun e => e.1 == p) with
    | none =>
      obtain ⟨h1, h2⟩ := ih off
      refine ⟨by simp only [List.map_cons, List.sum_cons]; rw [h1], ?_⟩
      intro g hg
      rcases List.mem_cons.mp hg with rfl | hg
      · exact ⟨fun i hi => by simp at hi, fun _ => rfl⟩
      · exact h2 g hg
    | some i =>
      obtain ⟨h1, h2⟩ := ih (off + (ents.getD i (0, 0)).2)
      refine ⟨by simp only [List.map_cons, List.sum_cons]; rw [h1], ?_⟩
      intro g hg
      rcases List.mem_cons.mp hg with rfl | hg
      · obtain ⟨hi, -, -⟩ := List.findIdx?_eq_some_iff_getElem.mp e
        exact ⟨fun j hj => by simp only [Option.some.injEq] at hj; subst hj; exact ⟨rfl, hi⟩,
          fun hj => by simp at hj⟩
      · exact h2 g hg

/-- The 32-bit copy routines agree with the unbounded ones on the plans of this rank. -/
structure SafeCopy (D' : Dim32 α E π) (D : Dim α E π) (P me : Nat) (ins outs : Nat → E)
    (nqty permute packflag : Int) : Prop where
  pack : ∀ p < P, ∀ ov, D.collide (ins me) (outs p) = some ov → ∃ f f', D.packSel packflag = some f ∧
    D'.packSel packflag = some f' ∧ ∀ data d buf b,
      f' data d buf b (D.sendPlan nqty (ins me) ov) = f data d buf b (D.sendPlan nqty (ins me) ov)
  unpack : ∀ p < P, ∀ ov, D.collide (outs me) (ins p) = some ov →
    ∃ f f', D.unpackSel packflag permute nqty = some f ∧
    D'.unpackSel packflag permute nqty = some f' ∧ ∀ buf b data d,
      f' buf b data d (D.recvPlan permute nqty (outs me) ov) =
        f buf b data d (D.recvPlan permute nqty (outs me) ov)

/-- **The 32-bit remap does the same as the unbounded one**: the two setups give objects with the same
tables, and the instructions that the object made with 32-bit arithmetic executes with 32-bit arithmetic
are those of the unbounded model. -/
theorem Safe32.main (h : Safe32 D' D P me ins outs nqty permute) (hme : me < P) {packflag : Int}
    (hc : SafeCopy D' D P me ins outs nqty permute packflag) (collective : Bool)
    {o : RemapObj α π}
    (ho : remapSetup D P me ins outs nqty permute packflag collective = some o) :
    ∃ o', remapSetup32 D' P me ins outs nqty permute packflag collective = some o' ∧
      o'.sends = o.sends ∧ o'.recvs = o.recvs ∧ o'.nsend = o.nsend ∧ o'.nrecv = o.nrecv ∧
      o'.self = o.self ∧ o'.coll = o.coll ∧ o'.sendsize = o.sendsize ∧ o'.recvsize = o.recvsize ∧
      ∀ coll inst ai ao, o'.prog32 coll inst ai ao = o.prog coll inst ai ao := by
  have hpl : ∀ p ∈ procLoop P P me, p < P := procLoop_lt P me hme
  rw [h.setup hme]
  have e1 : sendEnts (D.withSel D') P me nqty (ins me) outs = sendEnts D P me nqty (ins me) outs := rfl
  have e2 : ∀ (ps : List Nat) (i : Int), recvEntsFrom (D.withSel D') permute nqty (outs me) ins ps i =
      recvEntsFrom D permute nqty (outs me) ins ps i := by
    intro ps
    induction ps with
    | nil => intro _; rfl
    | cons p ps ih =>
      intro i
      simp only [recvEntsFrom]
      change (match D.collide (outs me) (ins p) with | none => _ | some ov => _) = _
      cases D.collide (outs me) (ins p) with
      | none => exact ih i
      | some ov => simp only [ih]; rfl
  have e2' : recvEnts (D.withSel D') P me permute nqty (outs me) ins =
      recvEnts D P me permute nqty (outs me) ins := e2 _ _
  -- the copies agree
  have hpk : ∀ e ∈ sendEnts D P me nqty (ins me) outs, ∀ ai b m,
      packSb (D'.packSel packflag) ai b e m = packSb (D.packSel packflag) ai b e m ∧
      packRb (D'.packSel packflag) ai b e m = packRb (D.packSel packflag) ai b e m := by
    intro e he ai b m
    obtain ⟨h1, ov, h2, -, h3, -⟩ := sendEntsOf_mem (D := D) (nqty := nqty) (ins := ins) (me := me) he
    obtain ⟨f, f', hf, hf', heq⟩ := hc.pack _ (hpl _ h1) ov h2
    unfold packSb packRb
    rw [hf, hf']
    simp only [Option.bind_some, h3, heq, and_self]
  have hunpk : ∀ e ∈ recvEnts D P me permute nqty (outs me) ins, ∀ ao b m,
      unpackRb (D'.unpackSel packflag permute nqty) ao b e m =
        unpackRb (D.unpackSel packflag permute nqty) ao b e m := by
    intro e he ao b m
    obtain ⟨h1, ov, h2, -, h3, -⟩ := recvEntsFrom_mem (D := D) (nqty := nqty) (outs := outs) (me := me) he
    obtain ⟨f, f', hf, hf', heq⟩ := hc.unpack _ (hpl _ h1) ov h2
    unfold unpackRb
    rw [hf, hf']
    simp only [Option.bind_some, h3, heq]
  have pS : ∀ e ∈ sendEnts D P me nqty (ins me) outs,
      e.proc < P ∧ e.size = wsize D nqty (ins me) outs e.proc ∧ 0 ≤ e.size := by
    intro e he
    obtain ⟨h1, ov, h2, -, -, h3⟩ := sendEntsOf_mem (D := D) (nqty := nqty) (ins := ins) (me := me) he
    refine ⟨hpl _ h1, ?_, ?_⟩
    · unfold wsize; rw [h2]; exact h3
    · rw [h3]; exact (h.send _ (hpl _ h1) ov h2).2.2.2
  have pR : ∀ e ∈ recvEnts D P me permute nqty (outs me) ins,
      e.proc < P ∧ e.size = wsize D nqty (outs me) ins e.proc ∧ 0 ≤ e.size := by
    intro e he
    obtain ⟨h1, ov, h2, -, -, h3⟩ := recvEntsFrom_mem (D := D) (nqty := nqty) (outs := outs) (me := me) he
    refine ⟨hpl _ h1, ?_, ?_⟩
    · unfold wsize; rw [h2]; exact h3
    · rw [h3]; exact (h.recv _ (hpl _ h1) ov h2).2.2.2
  unfold remapSetup at ho ⊢
  rw [e1, e2']
  set S := sendEnts D P me nqty (ins me) outs with hS
  set R := recvEnts D P me permute nqty (outs me) ins with hR
  -- pack pointers
  have hpk' : ∀ e ∈ S, ∀ ai b m,
      packSb (if S = [] then none else (D.withSel D').packSel packflag) ai b e m =
        packSb (if S = [] then none else D.packSel packflag) ai b e m ∧
      packRb (if S = [] then none else (D.withSel D').packSel packflag) ai b e m =
        packRb (if S = [] then none else D.packSel packflag) ai b e m := by
    intro e he ai b m
    have : S ≠ [] := List.ne_nil_of_mem he
    rw [if_neg this, if_neg this]
    exact hpk e he ai b m
  have hunpk' : ∀ e ∈ R, ∀ ao b m,
      unpackRb (if R = [] then none else (D.withSel D').unpackSel packflag permute nqty) ao b e m =
        unpackRb (if R = [] then none else D.unpackSel packflag permute nqty) ao b e m := by
    intro e he ao b m
    have : R ≠ [] := List.ne_nil_of_mem he
    rw [if_neg this, if_neg this]
    exact hunpk e he ao b m
  have hp2p : ∀ (o1 o2 : RemapObj α π), o1.sends = S → o2.sends = S → o1.recvs = R → o2.recvs = R →
      o1.nsend = o2.nsend → o1.nrecv = o2.nrecv → o1.self = o2.self →
      o1.pack = (if S = [] then none else (D.withSel D').packSel packflag) →
      o2.pack = (if S = [] then none else D.packSel packflag) →
      o1.unpack = (if R = [] then none else (D.withSel D').unpackSel packflag permute nqty) →
      o2.unpack = (if R = [] then none else D.unpackSel packflag permute nqty) →
      ∀ ai ao, p2pProg (o1.p2pRecvs ao) (o1.p2pSends ai) (o1.p2pSelf ai ao) =
        p2pProg (o2.p2pRecvs ao) (o2.p2pSends ai) (o2.p2pSelf ai ao) := by
    intro o1 o2 a1 a2 a3 a4 a5 a6 a7 a8 a9 a10 a11 ai ao
    refine congr (congr (congrArg p2pProg ?_) ?_) ?_
    · unfold RemapObj.p2pRecvs
      rw [a3, a4, a6]
      refine List.map_congr_left fun e he => ?_
      have he := List.mem_of_mem_take he
      congr 1
      funext m
      rw [a10, a11]
      exact hunpk' e he ao _ m
    · unfold RemapObj.p2pSends
      rw [a1, a2, a5]
      refine List.map_congr_left fun e he => ?_
      have he := List.mem_of_mem_take he
      congr 1
      funext m
      rw [a8, a9]
      exact (hpk' e he ai _ m).1
    · unfold RemapObj.p2pSelf
      rw [a7, a1, a2, a3, a4, a5, a6]
      split
      · congr 1
        · funext m
          cases e3 : S[o2.nsend]? with
          | none => rfl
          | some s =>
            cases e4 : R[o2.nrecv]? with
            | none => rfl
            | some r =>
              simp only [Option.bind_some]
              rw [a8, a9]
              exact (hpk' s (List.mem_of_getElem? e3) ai _ m).2
        · congr 1
          funext m
          cases e4 : R[o2.nrecv]? with
          | none => rfl
          | some r =>
            simp only [Option.bind_some]
            rw [a10, a11]
            exact hunpk' r (List.mem_of_getElem? e4) ao _ m
      · rfl
  cases collective with
  | false =>
    simp only [Bool.false_eq_true, if_false, Option.some.injEq] at ho ⊢
    refine ⟨_, rfl, ?_⟩
    rw [← ho]
    refine ⟨rfl, rfl, rfl, rfl, rfl, rfl, rfl, rfl, ?_⟩
    intro coll inst ai ao
    cases coll with
    | true => rfl
    | false =>
      unfold RemapObj.prog32 RemapObj.prog
      simp only [Bool.false_eq_true, if_false]
      apply hp2p <;> rfl
  | true =>
    simp only [if_true] at ho ⊢
    change ∃ o', Option.map _ (groupClosure (fun i j => (D.collide (ins i) (outs j)).isSome)
      (fun i j => (D.collide (outs i) (ins j)).isSome) P (S.map SEnt.proc) (R.map REnt.proc)) = some o' ∧ _
    obtain ⟨s, hs, rfl⟩ := Option.map_eq_some_iff.mp ho
    rw [hs]
    refine ⟨_, rfl, rfl, rfl, rfl, rfl, rfl, rfl, rfl, rfl, ?_⟩
    intro coll inst ai ao
    unfold RemapObj.prog32 RemapObj.prog
    cases coll with
    | false =>
      simp only [Bool.false_eq_true, if_false]
      apply hp2p <;> rfl
    | true =>
      simp only [if_true]
      have hnd' : (sortedGroup P s).Nodup := List.nodup_range.filter _
      have hlt' : ∀ p ∈ sortedGroup P s, p < P := by
        intro p hp
        exact List.mem_range.mp (List.mem_filter.mp hp).1
      obtain ⟨f1, f2⟩ := groupArgs_facts (S.map fun e => (e.proc, e.size)) (sortedGroup P s) 0
      obtain ⟨g1, g2⟩ := groupArgs_facts (R.map fun e => (e.proc, e.size)) (sortedGroup P s) 0
      have hcnt : ∀ (n : Nat) (l : List (Nat × Int)), n < l.length → l.getD n (0, 0) ∈ l := by
        intro n l hn
        have h2 : l.getD n (0, 0) = l[n] := by simp [List.getD, hn]
        rw [h2]; exact List.getElem_mem hn
      congr 1
      · refine collPacks32_eq ai (fun e he b m => (hpk' e he ai b m).1) _ 0 le_rfl ?_ ?_ ?_
        · intro g hg i hi e he
          rw [((f2 g hg).1 i hi).1]
          simp [List.getD, List.getElem?_map, he]
        · intro g hg
          cases hi : g.map with
          | none => rw [(f2 g hg).2 hi]
          | some i =>
            obtain ⟨k1, k2⟩ := (f2 g hg).1 i hi
            rw [k1]
            obtain ⟨e, he, hee⟩ := List.mem_map.mp (hcnt i _ k2)
            rw [← hee]
            exact (pS e he).2.2
        · rw [f1, zero_add]
          refine le_trans (sum_map_le fun p hp => entSize_le (f := wsize D nqty (ins me) outs)
            (h.wsend_nonneg (hlt' p hp)) ?_) (h.sum_send _ hnd' hlt')
          intro x hx; obtain ⟨e, he, rfl⟩ := List.mem_map.mp hx; exact (pS e he).2.1
      · refine collUnpacks32_eq ao (fun e he b m => hunpk' e he ao b m) _ 0 le_rfl ?_ ?_ ?_
        · intro g hg i hi e he
          rw [((g2 g hg).1 i hi).1]
          simp [List.getD, List.getElem?_map, he]
        · intro g hg
          cases hi : g.map with
          | none => rw [(g2 g hg).2 hi]
          | some i =>
            obtain ⟨k1, k2⟩ := (g2 g hg).1 i hi
            rw [k1]
            obtain ⟨e, he, hee⟩ := List.mem_map.mp (hcnt i _ k2)
            rw [← hee]
            exact (pR e he).2.2
        · rw [g1, zero_add]
          refine le_trans (sum_map_le fun p hp => entSize_le (f := wsize D nqty (outs me) ins)
            (h.wrecv_nonneg (hlt' p hp)) ?_) (h.sum_recv _ hnd' hlt')
          intro x hx; obtain ⟨e, he, rfl⟩ := List.mem_map.mp hx; exact (pR e he).2.1

end

end FftMpi
