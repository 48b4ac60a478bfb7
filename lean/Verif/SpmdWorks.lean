import Verif.Remap2dMain
import Verif.Remap3dGeom
import Verif.RemapGroup
import Verif.SpmdLemmas
import Verif.SpmdSetup

/-!
# The programs of `SpmdSetup.lean` run in lockstep

and compute what the models with the arguments of all ranks say.
-/

noncomputable section

namespace FftMpi

variable {α E π ρ σ : Type}

open Relation

/-! ## Calls -/

theorem maxOf_flags (f : Nat → Bool) {P : Nat} (hP : 0 < P) :
    CollOp.maxOf (fun q => if f q then 1 else 0) P = if allMax P f then 1 else 0 := by
  induction P with
  | zero => omega
  | succ n ih =>
    cases n with
    | zero => simp [CollOp.maxOf, allMax]
    | succ n =>
      show Max.max (CollOp.maxOf _ (n + 1)) _ = _
      rw [ih (by omega)]
      have : allMax (n + 1 + 1) f = (allMax (n + 1) f || f (n + 1)) := by
        simp [allMax, List.range_succ, Bool.or_assoc]
      rw [this]
      cases allMax (n + 1) f <;> cases h : f (n + 1) <;> simp [h]

theorem Lock.anyFlag {P : Nat} (hP : 0 < P) (f : Nat → Bool) :
    Lock (E := E) P (fun r => Spmd.anyFlag (f r)) (fun _ => allMax P f) := by
  refine .call (fun r => .max (if f r then 1 else 0)) (fun _ (x : Int) => .ret (decide (x ≠ 0)))
    (fun _ => if allMax P f then (1 : Int) else (0 : Int)) (fun _ _ => rfl) (fun r _ => ?_) (.done fun r _ => ?_)
  · exact (if_pos (fun _ _ => rfl)).trans (congrArg some (maxOf_flags f hP))
  · cases allMax P f <;> rfl

theorem Lock.total {P : Nat} (f : Nat → Int) : Lock (E := E) P (fun r => Spmd.total (f r)) (fun _ => allSum P f) := by
  refine .call (fun r => .sum (f r)) (fun _ x => .ret x) (fun _ => allSum P f) (fun _ _ => rfl) (fun r _ => ?_)
    (.done fun r _ => rfl)
  exact if_pos (fun _ _ => rfl)

theorem Lock.allgather {P : Nat} (e : Nat → E) :
    Lock P (fun r => Spmd.allgather (e r)) (fun r q => if q < P then e q else e r) := by
  refine .call (fun r => .gather (e r)) (fun _ x => .ret x) (fun r q => if q < P then e q else e r) (fun _ _ => rfl)
    (fun r _ => ?_) (.done fun r _ => rfl)
  exact if_pos (fun _ _ => rfl)

theorem Lock.create {P : Nat} (g : Nat → List Nat) (hg : CollOp.Groups P g) :
    Lock (E := E) P (fun r => Spmd.create (g r)) (fun r => if r ∈ g r then some (g r) else none) := by
  refine .call (fun r => .create (g r)) (fun _ x => .ret x) (fun r => if r ∈ g r then some (g r) else none) (fun _ _ => rfl)
    (fun r _ => ?_) (.done fun r _ => rfl)
  exact if_pos ⟨fun _ _ => rfl, hg⟩

theorem Lock.fail {P : Nat} (e : SetupErr) :
    Lock (E := E) P (fun _ => Spmd.fail (ρ := ρ) e) (fun _ => .error e) := by
  refine .call (fun r => .barrier) (fun _ _ => .ret (.error e)) (fun _ => ()) (fun _ _ => rfl)
    (fun r _ => ?_) (.done fun r _ => rfl)
  exact if_pos (fun _ _ => rfl)

/-! ## Remaps -/

theorem recvEntsFrom_congr (D : Dim α E π) (permute nqty : Int) (outb : E) {ins ins' : Nat → E} (l : List Nat)
    (h : ∀ p ∈ l, ins p = ins' p) (b : Int) :
    recvEntsFrom D permute nqty outb ins l b = recvEntsFrom D permute nqty outb ins' l b := by
  induction l generalizing b with
  | nil => rfl
  | cons p ps ih =>
    have e := h p (by simp)
    have ih := fun b => ih (fun q hq => h q (by simp [hq])) b
    unfold recvEntsFrom
    rw [e]
    cases D.collide outb (ins' p) with
    | none => exact ih b
    | some ov => dsimp only; rw [ih]

theorem sendEnts_procs (D : Dim α E π) {P r : Nat} (hr : r < P) (nqty : Int) (inb : E) (outs : Nat → E) (p : Nat) :
    p ∈ (sendEnts D P r nqty inb outs).map SEnt.proc ↔ p < P ∧ (D.collide inb (outs p)).isSome := by
  unfold sendEnts
  rw [List.mem_map]
  constructor
  · rintro ⟨e, he, rfl⟩
    obtain ⟨q, hq, h⟩ := List.mem_filterMap.mp he
    obtain ⟨ov, h1, h2⟩ := Option.map_eq_some_iff.mp h
    subst h2
    exact ⟨procLoop_lt P r hr q hq, by rw [h1]; rfl⟩
  · rintro ⟨hp, h⟩
    obtain ⟨ov, h⟩ := Option.isSome_iff_exists.mp h
    refine ⟨{ proc := p, off := D.sendOff nqty inb ov, size := D.size nqty ov, plan := D.sendPlan nqty inb ov },
      List.mem_filterMap.mpr ⟨p, (procLoop_perm P r hr).mem_iff.mpr (List.mem_range.mpr hp), ?_⟩, rfl⟩
    rw [h]; rfl

theorem recvEntsFrom_procs (D : Dim α E π) (permute nqty : Int) (outb : E) (ins : Nat → E) (l : List Nat) (b : Int) (p : Nat) :
    p ∈ (recvEntsFrom D permute nqty outb ins l b).map REnt.proc ↔ p ∈ l ∧ (D.collide outb (ins p)).isSome := by
  induction l generalizing b with
  | nil => simp [recvEntsFrom]
  | cons q l ih =>
    unfold recvEntsFrom
    cases h : D.collide outb (ins q) with
    | none =>
      dsimp only
      rw [ih, List.mem_cons]
      constructor
      · rintro ⟨h1, h2⟩; exact ⟨Or.inr h1, h2⟩
      · rintro ⟨rfl | h1, h2⟩
        · rw [h] at h2; exact absurd h2 (by simp)
        · exact ⟨h1, h2⟩
    | some ov =>
      dsimp only
      rw [List.map_cons, List.mem_cons, ih, List.mem_cons]
      constructor
      · rintro (rfl | ⟨h1, h2⟩)
        · exact ⟨Or.inl rfl, by rw [h]; rfl⟩
        · exact ⟨Or.inr h1, h2⟩
      · rintro ⟨rfl | h1, h2⟩
        · exact Or.inl rfl
        · exact Or.inr ⟨h1, h2⟩

theorem recvEnts_procs (D : Dim α E π) {P r : Nat} (hr : r < P) (permute nqty : Int) (outb : E) (ins : Nat → E) (p : Nat) :
    p ∈ (recvEnts D P r permute nqty outb ins).map REnt.proc ↔ p < P ∧ (D.collide outb (ins p)).isSome := by
  unfold recvEnts
  rw [recvEntsFrom_procs, (procLoop_perm P r hr).mem_iff, List.mem_range]

/-- Ranks that exchange data. -/
def Linked (D : Dim α E π) (P : Nat) (ins outs : Nat → E) : Nat → Nat → Prop :=
  AdjP (fun i j => (D.collide (ins i) (outs j)).isSome) (fun i j => (D.collide (outs i) (ins j)).isSome) P

theorem Linked.congr (D : Dim α E π) {P : Nat} {ins outs ins' outs' : Nat → E} (h : ∀ q < P, ins q = ins' q)
    (h' : ∀ q < P, outs q = outs' q) : Linked D P ins outs = Linked D P ins' outs' := by
  funext i j
  unfold Linked AdjP
  refine propext (and_congr_right fun hi => and_congr_right fun hj => ?_)
  dsimp only
  rw [h i hi, h j hj, h' i hi, h' j hj]

theorem closure_linked (D : Dim α E π) {P r : Nat} (hr : r < P) (ins outs : Nat → E) (nqty permute : Int) :
    ∃ t, groupClosure (fun i j => (D.collide (ins i) (outs j)).isSome) (fun i j => (D.collide (outs i) (ins j)).isSome) P
        ((sendEnts D P r nqty (ins r) outs).map SEnt.proc)
        ((recvEnts D P r permute nqty (outs r) ins).map REnt.proc) = some t ∧
      ∀ j, t.pflag j = true ↔ TransGen (Linked D P ins outs) r j := by
  obtain ⟨t, h1, -, h2, h3, -⟩ := groupClosure_spec (fun i j => (D.collide (ins i) (outs j)).isSome)
    (fun i j => (D.collide (outs i) (ins j)).isSome) P r ((sendEnts D P r nqty (ins r) outs).map SEnt.proc)
    ((recvEnts D P r permute nqty (outs r) ins).map REnt.proc) (by
      intro p
      rw [sendEnts_procs D hr, recvEnts_procs D hr]
      unfold AdjP
      tauto)
  exact ⟨t, h1, fun j => (h2 j).trans (h3 j)⟩

theorem sendEnts_congr (D : Dim α E π) {P r : Nat} (hr : r < P) (nqty : Int) (inb : E) {outs outs' : Nat → E}
    (h : ∀ q < P, outs q = outs' q) : sendEnts D P r nqty inb outs = sendEnts D P r nqty inb outs' :=
  List.filterMap_congr fun p hp => by rw [h p (procLoop_lt P r hr p hp)]

theorem sortedGroup_congr {P : Nat} {s t : GrpSt} (h : ∀ j, s.pflag j = true ↔ t.pflag j = true) :
    sortedGroup P s = sortedGroup P t := by
  have : s.pflag = t.pflag := by funext j; exact Bool.eq_iff_iff.mpr (h j)
  unfold sortedGroup
  rw [this]

/-- `setup` reads only the boxes of existing ranks. -/
theorem remapSetup_congr (D : Dim α E π) {P r : Nat} (hr : r < P) {ins outs ins' outs' : Nat → E}
    (h : ∀ q < P, ins q = ins' q) (h' : ∀ q < P, outs q = outs' q) (nqty permute packflag : Int) (c : Bool) :
    remapSetup D P r ins outs nqty permute packflag c = remapSetup D P r ins' outs' nqty permute packflag c := by
  have e1 : sendEnts D P r nqty (ins r) outs = sendEnts D P r nqty (ins' r) outs' := by
    rw [h r hr, sendEnts_congr D hr nqty _ h']
  have e2 : recvEnts D P r permute nqty (outs r) ins = recvEnts D P r permute nqty (outs' r) ins' := by
    rw [h' r hr]
    exact recvEntsFrom_congr D _ _ _ _ (fun p hp => h p (procLoop_lt P r hr p hp)) _
  cases c with
  | false =>
    unfold remapSetup
    rw [e1, e2, h' r hr]
    rfl
  | true =>
    obtain ⟨t, a1, a2⟩ := closure_linked D hr ins outs nqty permute
    obtain ⟨t', b1, b2⟩ := closure_linked D hr ins' outs' nqty permute
    have e3 : sortedGroup P t = sortedGroup P t' :=
      sortedGroup_congr fun j => by rw [a2, b2, Linked.congr D h h']
    unfold remapSetup
    simp only [if_true]
    rw [a1, b1, e1, e2]
    simp only [Option.map_some, e3]

theorem remapSetup_total (D : Dim α E π) (P : Nat) (ins outs : Nat → E) (nqty permute packflag : Int) (c : Bool) :
    ∃ x : Nat → RemapObj α π, ∀ r < P, remapSetup D P r ins outs nqty permute packflag c = some (x r) := by
  have : ∀ r < P, ∃ x, remapSetup D P r ins outs nqty permute packflag c = some x := by
    intro r hr
    cases c with
    | false => exact ⟨_, rfl⟩
    | true =>
      obtain ⟨t, ht, -⟩ := closure_linked D hr ins outs nqty permute
      unfold remapSetup
      simp only [if_true]
      rw [ht]
      exact ⟨_, rfl⟩
  have hN : Nonempty (RemapObj α π) := ⟨⟨[], [], 0, 0, false, none, none, none, 0, 0⟩⟩
  choose! x hx using this
  exact ⟨x, hx⟩

/-- The groups of all ranks are a legal argument of `MPI_Comm_create`. -/
theorem remap_groups (D : Dim α E π) (hD : ∀ x y, (D.collide x y).isSome = (D.collide y x).isSome) {P : Nat}
    {ins outs : Nat → E} {t : Nat → GrpSt} (ht : ∀ r < P, ∀ j, (t r).pflag j = true ↔ TransGen (Linked D P ins outs) r j) :
    CollOp.Groups P (fun r => sortedGroup P (t r)) := by
  have hs : ∀ i j, Linked D P ins outs i j → Linked D P ins outs j i := by
    rintro i j ⟨hi, hj, h⟩
    refine ⟨hj, hi, ?_⟩
    dsimp only at h ⊢
    rw [hD, hD (outs j)]
    exact h.symm
  intro q hq
  refine ⟨List.Nodup.filter _ List.nodup_range, fun p hp => ?_⟩
  obtain ⟨h1, h2⟩ := List.mem_filter.mp hp
  have hpP := List.mem_range.mp h1
  have hqp := (ht q hq p).mp h2
  refine ⟨hpP, sortedGroup_congr fun j => ?_⟩
  rw [ht p hpP, ht q hq]
  exact ⟨fun h => hqp.trans h, fun h => (transGen_symm hs hqp).trans h⟩

/-- **Remap.** -/
theorem Does.remap (D : Dim α E π) (hD : ∀ x y, (D.collide x y).isSome = (D.collide y x).isSome) (P : Nat)
    (ins outs : Nat → E) (nqty permute packflag : Int) (c : Bool) :
    Does P (fun r => remapS D P r (ins r) (outs r) nqty permute packflag c)
      (fun r => remapSetup D P r ins outs nqty permute packflag c) := by
  intro x hx
  unfold remapS
  refine (Lock.allgather outs).bind ((Lock.allgather ins).bind ?_)
  have e : ∀ r < P, remapSetup D P r (fun q => if q < P then ins q else ins r) (fun q => if q < P then outs q else outs r)
      nqty permute packflag c = some (x r) := fun r hr => by
    rw [← hx r hr]
    exact remapSetup_congr D hr (fun q hq => if_pos hq) (fun q hq => if_pos hq) _ _ _ _
  refine (Does.lift _ x e).bind ?_
  cases c with
  | false =>
    refine .done fun r hr => ?_
    have : (x r).coll = none := by
      have h := hx r hr
      unfold remapSetup at h
      simp only [Bool.false_eq_true, if_false] at h
      rw [← Option.some.inj h]
    rw [this]
    rfl
  | true =>
    have := fun r (hr : r < P) => closure_linked D hr ins outs nqty permute
    have hN : Nonempty GrpSt := ⟨⟨fun _ => false, [], false⟩⟩
    choose! t ht using this
    have hc : ∀ r < P, ∃ ci, (x r).coll = some ci ∧ ci.pgroup = sortedGroup P (t r) ∧
        ci.newcomm = decide (r ∈ sortedGroup P (t r)) := by
      intro r hr
      have h := hx r hr
      unfold remapSetup at h
      simp only [if_true] at h
      rw [(ht r hr).1] at h
      rw [← Option.some.inj h]
      exact ⟨_, rfl, rfl, rfl⟩
    have hN : Nonempty CollInfo := ⟨⟨[], false, [], []⟩⟩
    choose! ci hci using hc
    have L : Lock (E := E) P (fun r => Spmd.create (ci r).pgroup)
        (fun r => if r ∈ (ci r).pgroup then some (ci r).pgroup else none) := by
      have := Lock.create (E := E) _ (remap_groups D hD fun r hr => (ht r hr).2)
      refine this.congr (fun r hr => ?_) fun r hr => ?_
      · rw [(hci r hr).2.1]
      · rw [(hci r hr).2.1]
    refine (L.bind (q := fun r newcomm => Pure.pure
      { x r with coll := some { ci r with newcomm := newcomm.isSome } }) (x := x) (.done fun r hr => ?_)).congr
        (fun r hr => ?_) fun _ _ => rfl
    · obtain ⟨h1, h2, h3⟩ := hci r hr
      have : (if r ∈ (ci r).pgroup then some (ci r).pgroup else none).isSome = (ci r).newcomm := by
        rw [h3, h2]
        by_cases hm : r ∈ sortedGroup P (t r) <;> simp [hm]
      show Spmd.ret _ = Spmd.ret _
      rw [this, ← h1]
    · rw [(hci r hr).1]

theorem collide3_symm (x y : Box3) : (collide3 x y).isSome = (collide3 y x).isSome := by
  rw [collide3_eq, collide3_eq]
  have : inter3 x y = inter3 y x := by unfold inter3; simp only [max_comm, min_comm]
  rw [this]

theorem collide2_symm (x y : Box2) : (collide2 x y).isSome = (collide2 y x).isSome := by
  rw [collide2_eq, collide2_eq]
  have : inter2 x y = inter2 y x := by unfold inter2; simp only [max_comm, min_comm]
  rw [this]

/-! ## FFT3d -/

/-- `Create` of rank `r`. -/
def Args3.create (a : Args3) (st : Settings) (P : Nat) (g : Grids) (r : Nat) : Create := { P, me := r, a, st, g }

/-- The boxes that rank `r` computes. -/
def Args3.boxes (a : Args3) (P : Nat) (g : Grids) (r : Nat) : Boxes3 :=
  ⟨fastBox P a g r, midBox a g r, slowBox P a g r, brickBox a g r, preflag P a, postflag P a g⟩

def Create.prefast (c : Create) (s : Int × Int) : Option (Option (RemapPair α) × (Int × Int)) :=
  if preflag c.P c.a then do
    let r ← newRemap c 0 c.bp c.a.ins c.fast 0
    some (some { remap3d := r, extra := none }, bump s r)
  else some (none, s)

def Create.fastmid (c : Create) (s : Int × Int) : Option (RemapPair α × (Int × Int)) :=
  if c.st.exchange = 0 then do
    let r ← newRemap c 1 c.pp c.fast c.mid 1
    some ({ remap3d := r, extra := none }, bump s r)
  else do
    let r ← newRemap c 1 c.bp c.fast c.brick 0
    let x ← newRemap c 2 c.bp c.brick c.mid 1
    some ({ remap3d := r, extra := some x }, bump (bump s r) x)

def Create.midslow (c : Create) (s : Int × Int) : Option (RemapPair α × (Int × Int)) :=
  if c.st.exchange = 0 then do
    let r ← newRemap c 3 c.pp (fun r => jki (c.mid r)) (fun r => jki (c.slow r)) 1
    some ({ remap3d := r, extra := none }, bump s r)
  else do
    let r ← newRemap c 3 c.bp (fun r => jki (c.mid r)) (fun r => jki (c.brick r)) 0
    let x ← newRemap c 4 c.bp (fun r => jki (c.brick r)) (fun r => jki (c.slow r)) 1
    some ({ remap3d := r, extra := some x }, bump (bump s r) x)

def Create.postslow (c : Create) (s : Int × Int) : Option (Option (RemapPair α) × (Int × Int)) :=
  if postflag c.P c.a c.g then do
    let np ← newpermute c.a.permute
    let r ← newRemap c 5 c.bp (fun r => kij (c.slow r)) (fun r => kij (c.a.outs r)) np
    some (some { remap3d := r, extra := none }, bump s r)
  else some (none, s)

def Create.preslow (c : Create) (s : Int × Int) : Option (Option (RemapPair α) × (Int × Int)) :=
  if postflag c.P c.a c.g then do
    let r ← newPreslow c
    some (some { remap3d := r, extra := none }, bump s r)
  else some (none, s)

def Create.slowmid (c : Create) (s : Int × Int) : Option (RemapPair α × (Int × Int)) :=
  if c.st.exchange = 0 then do
    let r ← newRemap c 7 c.pp (fun r => kij (c.slow r)) (fun r => kij (c.mid r)) 2
    some ({ remap3d := r, extra := none }, bump s r)
  else do
    let r ← newRemap c 7 c.bp (fun r => kij (c.slow r)) (fun r => kij (c.brick r)) 0
    let x ← newRemap c 8 c.bp (fun r => kij (c.brick r)) (fun r => kij (c.mid r)) 2
    some ({ remap3d := r, extra := some x }, bump (bump s r) x)

def Create.midfast (c : Create) (s : Int × Int) : Option (RemapPair α × (Int × Int)) :=
  if c.st.exchange = 0 then do
    let r ← newRemap c 9 c.pp (fun r => jki (c.mid r)) (fun r => jki (c.fast r)) 2
    some ({ remap3d := r, extra := none }, bump s r)
  else do
    let r ← newRemap c 9 c.bp (fun r => jki (c.mid r)) (fun r => jki (c.brick r)) 0
    let x ← newRemap c 10 c.bp (fun r => jki (c.brick r)) (fun r => jki (c.fast r)) 2
    some ({ remap3d := r, extra := some x }, bump s r)

def Create.postfast (c : Create) (s : Int × Int) : Option (Option (RemapPair α) × (Int × Int)) :=
  if preflag c.P c.a then do
    let r ← newRemap c 11 c.bp c.fast c.a.ins 0
    some (some { remap3d := r, extra := none }, bump s r)
  else some (none, s)

theorem forwardCreate_parts (c : Create) (s : Int × Int) : forwardCreate (α := α) c s =
    (c.prefast s >>= fun x => c.fastmid x.2 >>= fun y => c.midslow y.2 >>= fun z => c.postslow z.2 >>= fun w => some ({ prefast := x.1, fastmid := y.1, midslow := z.1, postslow := w.1 }, w.2)) := by
  unfold forwardCreate Create.prefast Create.fastmid Create.midslow Create.postslow
  by_cases h0 : preflag c.P c.a <;> by_cases h1 : postflag c.P c.a c.g <;> by_cases h2 : c.st.exchange = 0 <;>
    simp [h0, h1, h2, Option.bind_assoc]

theorem inverseCreate_parts (c : Create) (s : Int × Int) : inverseCreate (α := α) c s =
    (c.preslow s >>= fun x => c.slowmid x.2 >>= fun y => c.midfast y.2 >>= fun z => c.postfast z.2 >>= fun w => some ({ preslow := x.1, slowmid := y.1, midfast := z.1, postfast := w.1 }, w.2)) := by
  unfold inverseCreate Create.preslow Create.slowmid Create.midfast Create.postfast
  by_cases h0 : postflag c.P c.a c.g <;> by_cases h1 : preflag c.P c.a <;> by_cases h2 : c.st.exchange = 0 <;>
    simp [h0, h1, h2, Option.bind_assoc]

section three

variable (a : Args3) (st : Settings) (P : Nat) (g : Grids)

theorem Does.newRemap (c : Bool) {inst : Nat} {cs cs' : Nat → Bool} {ib ob : Nat → Box3} {is os : Nat → Nat → Box3}
    {permute : Int} (h1 : ∀ r, cs r = c) (h2 : ∀ r, cs' r = c) (h3 : ∀ r q, is r q = ib q) (h4 : ∀ r q, os r q = ob q) :
    Does P (fun r => (a.here st P r).newRemap (α := α) inst (cs r) (ib r) (ob r) permute)
      (fun r => FftMpi.newRemap (a.create st P g r) inst (cs' r) (is r) (os r) permute) := by
  obtain rfl : cs = fun _ => c := funext h1
  obtain rfl : cs' = fun _ => c := funext h2
  obtain rfl : is = fun _ => ib := funext fun r => funext (h3 r)
  obtain rfl : os = fun _ => ob := funext fun r => funext (h4 r)
  unfold Here3.newRemap FftMpi.newRemap
  have : ∀ r, (remapSetup dim3 (a.create st P g r).P (a.create st P g r).me ib ob 2 permute
      (a.create st P g r).st.packflag c).map (fun o => ({ obj := o, collective := c, inst } : Remap3 α)) =
      (remapSetup dim3 P r ib ob 2 permute st.packflag c >>= fun o => some { obj := o, collective := c, inst }) := by
    intro r
    show Option.map _ (remapSetup dim3 P r ib ob 2 permute st.packflag c) = _
    cases remapSetup (α := α) dim3 P r ib ob 2 permute st.packflag c <;> rfl
  simp only [this]
  exact (Does.remap dim3 collide3_symm P ib ob 2 permute st.packflag c).bind fun y _ => Does.pure _

theorem Does.newPreslow : Does P (fun r => (a.here st P r).newPreslow (α := α) (a.boxes P g r))
    (fun r => FftMpi.newPreslow (a.create st P g r)) := by
  unfold Here3.newPreslow FftMpi.newPreslow
  refine Does.ite (b := a.permute = 0) (fun _ =>
    Does.newRemap a st P g (collectiveBp st.collective) (fun _ => rfl) (fun _ => rfl) (fun _ _ => rfl) (fun _ _ => rfl)) fun _ => Does.ite (b := a.permute = 1) (fun _ =>
    Does.newRemap a st P g (collectiveBp st.collective) (fun _ => rfl) (fun _ => rfl) (fun _ _ => rfl) (fun _ _ => rfl)) fun _ => ?_
  refine Does.ite (b := a.permute = 2) (fun _ =>
    Does.newRemap a st P g (collectiveBp st.collective) (fun _ => rfl) (fun _ => rfl) (fun _ _ => rfl) (fun _ _ => rfl)) fun _ => ?_
  intro y hy
  exact .done fun r hr => absurd (hy r hr) (by simp)

theorem Does.prefast (s : Nat → Int × Int) : Does P (fun r => (a.here st P r).prefast (α := α) (a.boxes P g r) (s r))
    (fun r => (a.create st P g r).prefast (s r)) := by
  unfold Here3.prefast Create.prefast
  exact Does.ite (b := preflag P a = true) (fun _ => Does.bind (Does.newRemap a st P g (collectiveBp st.collective) (fun _ => rfl) (fun _ => rfl) (fun _ _ => rfl) (fun _ _ => rfl))
    fun y _ => Does.pure _) fun _ => Does.pure _

theorem Does.fastmid (s : Nat → Int × Int) : Does P (fun r => (a.here st P r).fastmid (α := α) (a.boxes P g r) (s r))
    (fun r => (a.create st P g r).fastmid (s r)) := by
  unfold Here3.fastmid Create.fastmid
  refine Does.ite (b := st.exchange = 0) (fun _ => ?_) fun _ => ?_
  · exact Does.bind (Does.newRemap a st P g (collectivePp st.collective) (fun _ => rfl) (fun _ => rfl) (fun _ _ => rfl) (fun _ _ => rfl)) fun y _ => Does.pure _
  · refine Does.bind (Does.newRemap a st P g (collectiveBp st.collective) (fun _ => rfl) (fun _ => rfl) (fun _ _ => rfl) (fun _ _ => rfl)) fun y _ => ?_
    exact Does.bind (Does.newRemap a st P g (collectiveBp st.collective) (fun _ => rfl) (fun _ => rfl) (fun _ _ => rfl) (fun _ _ => rfl)) fun y _ => Does.pure _

theorem Does.midslow (s : Nat → Int × Int) : Does P (fun r => (a.here st P r).midslow (α := α) (a.boxes P g r) (s r))
    (fun r => (a.create st P g r).midslow (s r)) := by
  unfold Here3.midslow Create.midslow
  refine Does.ite (b := st.exchange = 0) (fun _ => ?_) fun _ => ?_
  · exact Does.bind (Does.newRemap a st P g (collectivePp st.collective) (fun _ => rfl) (fun _ => rfl) (fun _ _ => rfl) (fun _ _ => rfl)) fun y _ => Does.pure _
  · refine Does.bind (Does.newRemap a st P g (collectiveBp st.collective) (fun _ => rfl) (fun _ => rfl) (fun _ _ => rfl) (fun _ _ => rfl)) fun y _ => ?_
    exact Does.bind (Does.newRemap a st P g (collectiveBp st.collective) (fun _ => rfl) (fun _ => rfl) (fun _ _ => rfl) (fun _ _ => rfl)) fun y _ => Does.pure _

theorem Does.postslow (s : Nat → Int × Int) : Does P (fun r => (a.here st P r).postslow (α := α) (a.boxes P g r) (s r))
    (fun r => (a.create st P g r).postslow (s r)) := by
  unfold Here3.postslow Create.postslow
  refine Does.ite (b := postflag P a g = true) (fun _ => ?_) fun _ => Does.pure _
  cases hn : newpermute a.permute with
  | none =>
    intro y hy
    refine .done fun r hr => absurd (hy r hr) ?_
    have : newpermute (a.create st P g r).a.permute = none := hn
    dsimp only
    rw [this]
    simp
  | some np =>
    have e1 : ∀ r, newpermute (a.create st P g r).a.permute = some np := fun _ => hn
    have e2 : ∀ r, newpermute (a.here st P r).permute = some np := fun _ => hn
    simp only [e1, e2]
    refine Does.congr (p := fun r => (a.here st P r).newRemap 5 (a.here st P r).bp (kij (a.boxes P g r).slow)
        (kij (a.here st P r).outb) np >>= fun x => Pure.pure (some { remap3d := x, extra := none }, bump (s r) x))
      (f := fun r => FftMpi.newRemap (a.create st P g r) 5 (a.create st P g r).bp
        (fun q => kij ((a.create st P g r).slow q)) (fun q => kij ((a.create st P g r).a.outs q)) np >>=
          fun x => some (some { remap3d := x, extra := none }, bump (s r) x))
      ?_ (fun _ _ => rfl) (fun _ _ => rfl)
    exact Does.bind (Does.newRemap a st P g (collectiveBp st.collective) (fun _ => rfl) (fun _ => rfl)
      (fun _ _ => rfl) (fun _ _ => rfl)) fun y _ => Does.pure _

theorem Does.preslow (s : Nat → Int × Int) : Does P (fun r => (a.here st P r).preslow (α := α) (a.boxes P g r) (s r))
    (fun r => (a.create st P g r).preslow (s r)) := by
  unfold Here3.preslow Create.preslow
  exact Does.ite (b := postflag P a g = true) (fun _ => (Does.newPreslow a st P g).bind fun y _ => Does.pure _) fun _ => Does.pure _

theorem Does.slowmid (s : Nat → Int × Int) : Does P (fun r => (a.here st P r).slowmid (α := α) (a.boxes P g r) (s r))
    (fun r => (a.create st P g r).slowmid (s r)) := by
  unfold Here3.slowmid Create.slowmid
  refine Does.ite (b := st.exchange = 0) (fun _ => ?_) fun _ => ?_
  · exact Does.bind (Does.newRemap a st P g (collectivePp st.collective) (fun _ => rfl) (fun _ => rfl) (fun _ _ => rfl) (fun _ _ => rfl)) fun y _ => Does.pure _
  · refine Does.bind (Does.newRemap a st P g (collectiveBp st.collective) (fun _ => rfl) (fun _ => rfl) (fun _ _ => rfl) (fun _ _ => rfl)) fun y _ => ?_
    exact Does.bind (Does.newRemap a st P g (collectiveBp st.collective) (fun _ => rfl) (fun _ => rfl) (fun _ _ => rfl) (fun _ _ => rfl)) fun y _ => Does.pure _

theorem Does.midfast (s : Nat → Int × Int) : Does P (fun r => (a.here st P r).midfast (α := α) (a.boxes P g r) (s r))
    (fun r => (a.create st P g r).midfast (s r)) := by
  unfold Here3.midfast Create.midfast
  refine Does.ite (b := st.exchange = 0) (fun _ => ?_) fun _ => ?_
  · exact Does.bind (Does.newRemap a st P g (collectivePp st.collective) (fun _ => rfl) (fun _ => rfl) (fun _ _ => rfl) (fun _ _ => rfl)) fun y _ => Does.pure _
  · refine Does.bind (Does.newRemap a st P g (collectiveBp st.collective) (fun _ => rfl) (fun _ => rfl) (fun _ _ => rfl) (fun _ _ => rfl)) fun y _ => ?_
    exact Does.bind (Does.newRemap a st P g (collectiveBp st.collective) (fun _ => rfl) (fun _ => rfl) (fun _ _ => rfl) (fun _ _ => rfl)) fun y _ => Does.pure _

theorem Does.postfast (s : Nat → Int × Int) : Does P (fun r => (a.here st P r).postfast (α := α) (a.boxes P g r) (s r))
    (fun r => (a.create st P g r).postfast (s r)) := by
  unfold Here3.postfast Create.postfast
  exact Does.ite (b := preflag P a = true) (fun _ => Does.bind (Does.newRemap a st P g (collectiveBp st.collective) (fun _ => rfl) (fun _ => rfl) (fun _ _ => rfl) (fun _ _ => rfl))
    fun y _ => Does.pure _) fun _ => Does.pure _

theorem Does.forward (s : Nat → Int × Int) : Does P (fun r => (a.here st P r).forward (α := α) (a.boxes P g r) (s r))
    (fun r => forwardCreate (a.create st P g r) (s r)) := by
  unfold Here3.forward
  simp only [forwardCreate_parts]
  exact (Does.prefast a st P g _).bind fun x _ => (Does.fastmid a st P g _).bind fun y _ => (Does.midslow a st P g _).bind fun z _ => (Does.postslow a st P g _).bind fun w _ => Does.pure _

theorem Does.inverse (s : Nat → Int × Int) : Does P (fun r => (a.here st P r).inverse (α := α) (a.boxes P g r) (s r))
    (fun r => inverseCreate (a.create st P g r) (s r)) := by
  unfold Here3.inverse
  simp only [inverseCreate_parts]
  exact (Does.preslow a st P g _).bind fun x _ => (Does.slowmid a st P g _).bind fun y _ => (Does.midfast a st P g _).bind fun z _ => (Does.postfast a st P g _).bind fun w _ => Does.pure _

theorem Does.main : Does P (fun r => (a.here st P r).main (α := α) (a.boxes P g r) (!inoutSame P a))
    (fun r => setupMain (a.create st P g r)) := by
  have e : ∀ r, setupMain (α := α) (a.create st P g r) =
      (forwardCreate (a.create st P g r) (0, 0) >>= fun x =>
        (if (!inoutSame P a) = false then some ((none : Option (Inverse α)), x.2)
          else inverseCreate (a.create st P g r) x.2 >>= fun z => some (some z.1, z.2)) >>= fun y =>
        (a.here st P r).plans (a.boxes P g r) >>= fun p =>
        some
          { same := !(!inoutSame P a)
            prefast := x.1.prefast, fastmid := some x.1.fastmid, midslow := some x.1.midslow, postslow := x.1.postslow
            preslow := y.1.bind Inverse.preslow, slowmid := y.1.map Inverse.slowmid
            midfast := y.1.map Inverse.midfast, postfast := y.1.bind Inverse.postfast
            insize := boxSize (a.ins r), outsize := boxSize (a.outs r)
            fftsize := (a.here st P r).fftSize (a.boxes P g r), sendsize := y.2.1, recvsize := y.2.2
            fftFast := p.1, fftMid := p.2.1, fftSlow := p.2.2
            norm := 1 / (a.nfast * a.nmid * a.nslow : ℝ)
            normnum := boxSize (a.outs r) }) := by
    intro r
    unfold setupMain
    rw [show setupFfts (a.create st P g r) = (a.here st P r).plans (a.boxes P g r) from rfl,
      show inoutSame (a.create st P g r).P (a.create st P g r).a = inoutSame P a from rfl]
    cases forwardCreate (α := α) (a.create st P g r) (0, 0) with
    | none => rfl
    | some x =>
      cases hs : inoutSame P a with
      | true => cases (a.here st P r).plans (a.boxes P g r) <;> rfl
      | false =>
        cases hi : inverseCreate (α := α) (a.create st P g r) x.2 with
        | none => simp [hi]
        | some z => cases hp : (a.here st P r).plans (a.boxes P g r) <;> simp [hi] <;>
            exact ⟨rfl, rfl, rfl, rfl, rfl⟩
  unfold Here3.main
  simp only [e]
  refine (Does.forward a st P g _).bind fun x _ => Does.bind ?_ fun y _ => (Does.lift _).bind fun p _ => Does.pure _
  unfold Here3.back
  exact Does.ite (b := (!inoutSame P a) = false) (fun _ => Does.pure _) fun _ => (Does.inverse a st P g _).bind fun z _ => Does.pure _

/-- **setup.** -/
theorem Does.setup : Does P (fun r => (a.here st P r).setup (α := α)) (fun r => fft3Setup P r a st) := by
  intro x hx
  rcases Nat.eq_zero_or_pos P with h0 | hP
  · exact .done fun r hr => by omega
  have err : ∀ e, setupCheck P a = some e → ∀ r < P, x r = .error e := by
    intro e he r hr
    have h := hx r hr
    unfold fft3Setup at h
    rw [he] at h
    exact (Option.some.inj h).symm
  by_cases h1 : a.nfast < 2 ∨ a.nmid < 2 ∨ a.nslow < 2
  · have e := err .dimension (by unfold setupCheck; rw [if_pos h1])
    exact (Lock.fail .dimension).congr (fun r _ => if_pos h1) fun r hr => (e r hr).symm
  by_cases h2 : (!primeFactorable a.nfast || !primeFactorable a.nmid || !primeFactorable a.nslow) = true
  · have e := err .factorable (by unfold setupCheck; rw [if_neg h1, if_pos h2])
    exact (Lock.fail .factorable).congr (fun r _ => (if_neg h1).trans (if_pos h2)) fun r hr => (e r hr).symm
  refine Lock.congr ?_ (fun r _ => (if_neg h1).trans (if_neg h2)) fun _ _ => rfl
  refine (Lock.anyFlag hP fun r => badIndices a.nfast a.nmid a.nslow (a.ins r)).bind ?_
  by_cases h3 : allMax P (fun r => badIndices a.nfast a.nmid a.nslow (a.ins r)) = true
  · have e := err .indices (by unfold setupCheck; rw [if_neg h1, if_neg h2, if_pos h3])
    exact (Lock.fail .indices).congr (fun r _ => if_pos h3) fun r hr => (e r hr).symm
  refine Lock.congr ?_ (fun r _ => if_neg h3) fun _ _ => rfl
  refine (Lock.total fun r => boxSize (a.ins r)).bind ?_
  by_cases h4 : allSum P (fun r => boxSize (a.ins r)) ≠ a.nfast * a.nmid * a.nslow
  · have e := err .tiling (by unfold setupCheck; rw [if_neg h1, if_neg h2, if_neg h3, if_pos h4])
    exact (Lock.fail .tiling).congr (fun r _ => if_pos h4) fun r hr => (e r hr).symm
  refine Lock.congr ?_ (fun r _ => if_neg h4) fun _ _ => rfl
  have hc : setupCheck P a = none := by
    unfold setupCheck; rw [if_neg h1, if_neg h2, if_neg h3, if_neg h4]
  refine (Lock.anyFlag hP fun r => (a.here st P r).differs).bind ?_
  cases hg : setupGrids P a st.exchange with
  | none =>
    have h := hx 0 hP
    unfold fft3Setup at h
    rw [hc] at h
    dsimp only at h
    rw [hg] at h
    exact absurd h (by simp)
  | some g =>
    refine (Does.lift _ (fun _ => g) fun r _ => hg).bind ?_
    refine (Lock.anyFlag hP fun r => (a.here st P r).notFast).bind ?_
    refine (Lock.anyFlag hP fun r => (a.here st P r).notSlow).bind ?_
    refine (Lock.anyFlag hP fun r => (a.here st P r).notOut ((a.here st P r).slowBox g 
      (allMax P fun r => (a.here st P r).notSlow))).bind ?_
    have hm : ∀ r < P, (setupMain (a.create st P g r) >>= fun f => some (Except.ok f)) = some (x r) := by
      intro r hr
      have h := hx r hr
      unfold fft3Setup at h
      rw [hc] at h
      dsimp only at h
      rw [hg] at h
      exact h
    have := Does.bind (q := fun _ f => Pure.pure (Except.ok f)) (Does.main (α := α) a st P g) (fun y _ => Does.pure _) x hm
    refine this.congr (fun r hr => ?_) fun _ _ => rfl
    have e : (!inoutSame P a) = allMax P fun r => (a.here st P r).differs := by
      unfold inoutSame
      rw [Bool.not_not]
      rfl
    rw [e]
    rfl

end three

/-! ## FFT2d -/

/-- `Create2` of rank `r`. -/
def Args2.create (a : Args2) (w : Int) (st : Settings) (P : Nat) (g : Nat × Nat) (r : Nat) : Create2 :=
  { w, P, me := r, a, st, g }

/-- The boxes that rank `r` computes. -/
def Args2.boxes (a : Args2) (P : Nat) (g : Nat × Nat) (r : Nat) : Boxes2 :=
  ⟨fastBox2 P a r, slowBox2 P a r, brickBox2 a g r, preflag2 P a, postflag2 P a⟩

def Create2.prefast (c : Create2) (s : Int × Int) : Option (Option (RemapPair2 α) × (Int × Int)) :=
  if preflag2 c.P c.a then do
    let r ← newRemap2 c 0 c.bp c.a.ins c.fast 0
    some (some { remap2d := r, extra := none }, bump2 s r)
  else some (none, s)

def Create2.fastslow (c : Create2) (s : Int × Int) : Option (RemapPair2 α × (Int × Int)) :=
  if c.st.exchange = 0 then do
    let r ← newRemap2 c 1 c.pp c.fast c.slow 1
    some ({ remap2d := r, extra := none }, bump2 s r)
  else do
    let r ← newRemap2 c 1 c.bp c.fast c.brick 0
    let x ← newRemap2 c 2 c.bp c.brick c.slow 1
    some ({ remap2d := r, extra := some x }, bump2 (bump2 s r) x)

def Create2.postslow (c : Create2) (s : Int × Int) : Option (Option (RemapPair2 α) × (Int × Int)) :=
  if postflag2 c.P c.a then do
    let np ← newpermute2 c.a.permute
    let r ← newRemap2 c 3 c.bp (fun r => ji (c.slow r)) (fun r => ji (c.a.outs r)) np
    some (some { remap2d := r, extra := none }, bump2 s r)
  else some (none, s)

def Create2.preslow (c : Create2) (s : Int × Int) : Option (Option (RemapPair2 α) × (Int × Int)) :=
  if postflag2 c.P c.a then do
    let r ← newPreslow2 c
    some (some { remap2d := r, extra := none }, bump2 s r)
  else some (none, s)

def Create2.slowfast (c : Create2) (s : Int × Int) : Option (RemapPair2 α × (Int × Int)) :=
  if c.st.exchange = 0 then do
    let r ← newRemap2 c 5 c.pp (fun r => ji (c.slow r)) (fun r => ji (c.fast r)) 1
    some ({ remap2d := r, extra := none }, bump2 s r)
  else do
    let r ← newRemap2 c 5 c.bp (fun r => ji (c.slow r)) (fun r => ji (c.brick r)) 0
    let x ← newRemap2 c 6 c.bp (fun r => ji (c.brick r)) (fun r => ji (c.fast r)) 1
    some ({ remap2d := r, extra := some x }, bump2 (bump2 s r) x)

def Create2.postfast (c : Create2) (s : Int × Int) : Option (Option (RemapPair2 α) × (Int × Int)) :=
  if preflag2 c.P c.a then do
    let r ← newRemap2 c 7 c.bp c.fast c.a.ins 0
    some (some { remap2d := r, extra := none }, bump2 s r)
  else some (none, s)

theorem forwardCreate2_parts (c : Create2) (s : Int × Int) : forwardCreate2 (α := α) c s =
    (c.prefast s >>= fun x => c.fastslow x.2 >>= fun y => c.postslow y.2 >>= fun z => some ({ prefast := x.1, fastslow := y.1, postslow := z.1 }, z.2)) := by
  unfold forwardCreate2 Create2.prefast Create2.fastslow Create2.postslow
  by_cases h0 : preflag2 c.P c.a <;> by_cases h1 : postflag2 c.P c.a <;> by_cases h2 : c.st.exchange = 0 <;>
    simp [h0, h1, h2, Option.bind_assoc]

theorem inverseCreate2_parts (c : Create2) (s : Int × Int) : inverseCreate2 (α := α) c s =
    (c.preslow s >>= fun x => c.slowfast x.2 >>= fun y => c.postfast y.2 >>= fun z => some ({ preslow := x.1, slowfast := y.1, postfast := z.1 }, z.2)) := by
  unfold inverseCreate2 Create2.preslow Create2.slowfast Create2.postfast
  by_cases h0 : postflag2 c.P c.a <;> by_cases h1 : preflag2 c.P c.a <;> by_cases h2 : c.st.exchange = 0 <;>
    simp [h0, h1, h2, Option.bind_assoc]

section two

variable (a : Args2) (w : Int) (st : Settings) (P : Nat) (g : Nat × Nat)

theorem Does.newRemap2 (c : Bool) {inst : Nat} {cs cs' : Nat → Bool} {ib ob : Nat → Box2} {is os : Nat → Nat → Box2}
    {permute : Int} (h1 : ∀ r, cs r = c) (h2 : ∀ r, cs' r = c) (h3 : ∀ r q, is r q = ib q) (h4 : ∀ r q, os r q = ob q) :
    Does P (fun r => (a.here w st P r).newRemap (α := α) inst (cs r) (ib r) (ob r) permute)
      (fun r => FftMpi.newRemap2 (a.create w st P g r) inst (cs' r) (is r) (os r) permute) := by
  obtain rfl : cs = fun _ => c := funext h1
  obtain rfl : cs' = fun _ => c := funext h2
  obtain rfl : is = fun _ => ib := funext fun r => funext (h3 r)
  obtain rfl : os = fun _ => ob := funext fun r => funext (h4 r)
  unfold Here2.newRemap FftMpi.newRemap2
  have : ∀ r, (remapSetup (dim2 (a.create w st P g r).w) (a.create w st P g r).P (a.create w st P g r).me ib ob 2 permute
      (a.create w st P g r).st.packflag c).map (fun o => ({ obj := o, collective := c, inst } : Remap2 α)) =
      (remapSetup (dim2 w) P r ib ob 2 permute st.packflag c >>= fun o => some { obj := o, collective := c, inst }) := by
    intro r
    show Option.map _ (remapSetup (dim2 w) P r ib ob 2 permute st.packflag c) = _
    cases remapSetup (α := α) (dim2 w) P r ib ob 2 permute st.packflag c <;> rfl
  simp only [this]
  exact (Does.remap (dim2 w) collide2_symm P ib ob 2 permute st.packflag c).bind fun y _ => Does.pure _

theorem Does.newPreslow2 : Does P (fun r => (a.here w st P r).newPreslow (α := α) (a.boxes P g r))
    (fun r => FftMpi.newPreslow2 (a.create w st P g r)) := by
  unfold Here2.newPreslow FftMpi.newPreslow2
  refine Does.ite (b := a.permute = 0) (fun _ =>
    Does.newRemap2 a w st P g (collectiveBp st.collective) (fun _ => rfl) (fun _ => rfl) (fun _ _ => rfl) (fun _ _ => rfl)) fun _ => Does.ite (b := a.permute = 1) (fun _ =>
    Does.newRemap2 a w st P g (collectiveBp st.collective) (fun _ => rfl) (fun _ => rfl) (fun _ _ => rfl) (fun _ _ => rfl)) fun _ => ?_
  intro y hy
  exact .done fun r hr => absurd (hy r hr) (by simp)

theorem Does.prefast2 (s : Nat → Int × Int) : Does P (fun r => (a.here w st P r).prefast (α := α) (a.boxes P g r) (s r))
    (fun r => (a.create w st P g r).prefast (s r)) := by
  unfold Here2.prefast Create2.prefast
  exact Does.ite (b := preflag2 P a = true) (fun _ => Does.bind (Does.newRemap2 a w st P g (collectiveBp st.collective) (fun _ => rfl) (fun _ => rfl) (fun _ _ => rfl) (fun _ _ => rfl))
    fun y _ => Does.pure _) fun _ => Does.pure _

theorem Does.fastslow2 (s : Nat → Int × Int) : Does P (fun r => (a.here w st P r).fastslow (α := α) (a.boxes P g r) (s r))
    (fun r => (a.create w st P g r).fastslow (s r)) := by
  unfold Here2.fastslow Create2.fastslow
  refine Does.ite (b := st.exchange = 0) (fun _ => ?_) fun _ => ?_
  · exact Does.bind (Does.newRemap2 a w st P g (collectivePp st.collective) (fun _ => rfl) (fun _ => rfl) (fun _ _ => rfl) (fun _ _ => rfl)) fun y _ => Does.pure _
  · refine Does.bind (Does.newRemap2 a w st P g (collectiveBp st.collective) (fun _ => rfl) (fun _ => rfl) (fun _ _ => rfl) (fun _ _ => rfl)) fun y _ => ?_
    exact Does.bind (Does.newRemap2 a w st P g (collectiveBp st.collective) (fun _ => rfl) (fun _ => rfl) (fun _ _ => rfl) (fun _ _ => rfl)) fun y _ => Does.pure _

theorem Does.postslow2 (s : Nat → Int × Int) : Does P (fun r => (a.here w st P r).postslow (α := α) (a.boxes P g r) (s r))
    (fun r => (a.create w st P g r).postslow (s r)) := by
  unfold Here2.postslow Create2.postslow
  refine Does.ite (b := postflag2 P a = true) (fun _ => ?_) fun _ => Does.pure _
  cases hn : newpermute2 a.permute with
  | none =>
    intro y hy
    refine .done fun r hr => absurd (hy r hr) ?_
    have : newpermute2 (a.create w st P g r).a.permute = none := hn
    dsimp only
    rw [this]
    simp
  | some np =>
    have e1 : ∀ r, newpermute2 (a.create w st P g r).a.permute = some np := fun _ => hn
    have e2 : ∀ r, newpermute2 (a.here w st P r).permute = some np := fun _ => hn
    simp only [e1, e2]
    refine Does.congr (p := fun r => (a.here w st P r).newRemap 3 (a.here w st P r).bp (ji (a.boxes P g r).slow)
        (ji (a.here w st P r).outb) np >>= fun x => Pure.pure (some { remap2d := x, extra := none }, bump2 (s r) x))
      (f := fun r => FftMpi.newRemap2 (a.create w st P g r) 3 (a.create w st P g r).bp
        (fun q => ji ((a.create w st P g r).slow q)) (fun q => ji ((a.create w st P g r).a.outs q)) np >>=
          fun x => some (some { remap2d := x, extra := none }, bump2 (s r) x))
      ?_ (fun _ _ => rfl) (fun _ _ => rfl)
    exact Does.bind (Does.newRemap2 a w st P g (collectiveBp st.collective) (fun _ => rfl) (fun _ => rfl)
      (fun _ _ => rfl) (fun _ _ => rfl)) fun y _ => Does.pure _

theorem Does.preslow2 (s : Nat → Int × Int) : Does P (fun r => (a.here w st P r).preslow (α := α) (a.boxes P g r) (s r))
    (fun r => (a.create w st P g r).preslow (s r)) := by
  unfold Here2.preslow Create2.preslow
  exact Does.ite (b := postflag2 P a = true) (fun _ => (Does.newPreslow2 a w st P g).bind fun y _ => Does.pure _) fun _ => Does.pure _

theorem Does.slowfast2 (s : Nat → Int × Int) : Does P (fun r => (a.here w st P r).slowfast (α := α) (a.boxes P g r) (s r))
    (fun r => (a.create w st P g r).slowfast (s r)) := by
  unfold Here2.slowfast Create2.slowfast
  refine Does.ite (b := st.exchange = 0) (fun _ => ?_) fun _ => ?_
  · exact Does.bind (Does.newRemap2 a w st P g (collectivePp st.collective) (fun _ => rfl) (fun _ => rfl) (fun _ _ => rfl) (fun _ _ => rfl)) fun y _ => Does.pure _
  · refine Does.bind (Does.newRemap2 a w st P g (collectiveBp st.collective) (fun _ => rfl) (fun _ => rfl) (fun _ _ => rfl) (fun _ _ => rfl)) fun y _ => ?_
    exact Does.bind (Does.newRemap2 a w st P g (collectiveBp st.collective) (fun _ => rfl) (fun _ => rfl) (fun _ _ => rfl) (fun _ _ => rfl)) fun y _ => Does.pure _

theorem Does.postfast2 (s : Nat → Int × Int) : Does P (fun r => (a.here w st P r).postfast (α := α) (a.boxes P g r) (s r))
    (fun r => (a.create w st P g r).postfast (s r)) := by
  unfold Here2.postfast Create2.postfast
  exact Does.ite (b := preflag2 P a = true) (fun _ => Does.bind (Does.newRemap2 a w st P g (collectiveBp st.collective) (fun _ => rfl) (fun _ => rfl) (fun _ _ => rfl) (fun _ _ => rfl))
    fun y _ => Does.pure _) fun _ => Does.pure _

theorem Does.forward2 (s : Nat → Int × Int) : Does P (fun r => (a.here w st P r).forward (α := α) (a.boxes P g r) (s r))
    (fun r => forwardCreate2 (a.create w st P g r) (s r)) := by
  unfold Here2.forward
  simp only [forwardCreate2_parts]
  exact (Does.prefast2 a w st P g _).bind fun x _ => (Does.fastslow2 a w st P g _).bind fun y _ => (Does.postslow2 a w st P g _).bind fun z _ => Does.pure _

theorem Does.inverse2 (s : Nat → Int × Int) : Does P (fun r => (a.here w st P r).inverse (α := α) (a.boxes P g r) (s r))
    (fun r => inverseCreate2 (a.create w st P g r) (s r)) := by
  unfold Here2.inverse
  simp only [inverseCreate2_parts]
  exact (Does.preslow2 a w st P g _).bind fun x _ => (Does.slowfast2 a w st P g _).bind fun y _ => (Does.postfast2 a w st P g _).bind fun z _ => Does.pure _

theorem Does.main2 : Does P (fun r => (a.here w st P r).main (α := α) (a.boxes P g r) (!inoutSame2 P a))
    (fun r => setupMain2 (a.create w st P g r)) := by
  have e : ∀ r, setupMain2 (α := α) (a.create w st P g r) =
      (forwardCreate2 (a.create w st P g r) (0, 0) >>= fun x =>
        (if (!inoutSame2 P a) = false then some ((none : Option (Inverse2 α)), x.2)
          else inverseCreate2 (a.create w st P g r) x.2 >>= fun z => some (some z.1, z.2)) >>= fun y =>
        (a.here w st P r).plans (a.boxes P g r) >>= fun p =>
        some
          { same := !(!inoutSame2 P a)
            prefast := x.1.prefast, fastslow := some x.1.fastslow, postslow := x.1.postslow
            preslow := y.1.bind Inverse2.preslow, slowfast := y.1.map Inverse2.slowfast
            postfast := y.1.bind Inverse2.postfast
            insize := boxSize2 (a.ins r), outsize := boxSize2 (a.outs r)
            fftsize := (a.here w st P r).fftSize (a.boxes P g r), sendsize := y.2.1, recvsize := y.2.2
            fftFast := p.1, fftSlow := p.2
            norm := 1 / (a.nfast * a.nslow : ℝ)
            normnum := boxSize2 (a.outs r) }) := by
    intro r
    unfold setupMain2
    rw [show setupFfts2 (a.create w st P g r) = (a.here w st P r).plans (a.boxes P g r) from rfl,
      show inoutSame2 (a.create w st P g r).P (a.create w st P g r).a = inoutSame2 P a from rfl]
    cases forwardCreate2 (α := α) (a.create w st P g r) (0, 0) with
    | none => rfl
    | some x =>
      cases hs : inoutSame2 P a with
      | true => cases (a.here w st P r).plans (a.boxes P g r) <;> rfl
      | false =>
        cases hi : inverseCreate2 (α := α) (a.create w st P g r) x.2 with
        | none => simp [hi]
        | some z => cases hp : (a.here w st P r).plans (a.boxes P g r) <;> simp [hi] <;>
            exact ⟨rfl, rfl, rfl, rfl, rfl⟩
  unfold Here2.main
  simp only [e]
  refine (Does.forward2 a w st P g _).bind fun x _ => Does.bind ?_ fun y _ => (Does.lift _).bind fun p _ => Does.pure _
  unfold Here2.back
  exact Does.ite (b := (!inoutSame2 P a) = false) (fun _ => Does.pure _) fun _ => (Does.inverse2 a w st P g _).bind fun z _ => Does.pure _

/-- **setup.** -/
theorem Does.setup2 : Does P (fun r => (a.here w st P r).setup (α := α)) (fun r => fft2Setup w P r a st) := by
  intro x hx
  rcases Nat.eq_zero_or_pos P with h0 | hP
  · exact .done fun r hr => by omega
  have err : ∀ e, setupCheck2 P a = some e → ∀ r < P, x r = .error e := by
    intro e he r hr
    have h := hx r hr
    unfold fft2Setup at h
    rw [he] at h
    exact (Option.some.inj h).symm
  by_cases h1 : a.nfast < 2 ∨ a.nslow < 2
  · have e := err .dimension (by unfold setupCheck2; rw [if_pos h1])
    exact (Lock.fail .dimension).congr (fun r _ => if_pos h1) fun r hr => (e r hr).symm
  by_cases h2 : (!primeFactorable a.nfast || !primeFactorable a.nslow) = true
  · have e := err .factorable (by unfold setupCheck2; rw [if_neg h1, if_pos h2])
    exact (Lock.fail .factorable).congr (fun r _ => (if_neg h1).trans (if_pos h2)) fun r hr => (e r hr).symm
  refine Lock.congr ?_ (fun r _ => (if_neg h1).trans (if_neg h2)) fun _ _ => rfl
  refine (Lock.anyFlag hP fun r => badIndices2 a.nfast a.nslow (a.ins r)).bind ?_
  by_cases h3 : allMax P (fun r => badIndices2 a.nfast a.nslow (a.ins r)) = true
  · have e := err .indices (by unfold setupCheck2; rw [if_neg h1, if_neg h2, if_pos h3])
    exact (Lock.fail .indices).congr (fun r _ => if_pos h3) fun r hr => (e r hr).symm
  refine Lock.congr ?_ (fun r _ => if_neg h3) fun _ _ => rfl
  refine (Lock.total fun r => boxSize2 (a.ins r)).bind ?_
  by_cases h4 : allSum P (fun r => boxSize2 (a.ins r)) ≠ a.nfast * a.nslow
  · have e := err .tiling (by unfold setupCheck2; rw [if_neg h1, if_neg h2, if_neg h3, if_pos h4])
    exact (Lock.fail .tiling).congr (fun r _ => if_pos h4) fun r hr => (e r hr).symm
  refine Lock.congr ?_ (fun r _ => if_neg h4) fun _ _ => rfl
  have hc : setupCheck2 P a = none := by
    unfold setupCheck2; rw [if_neg h1, if_neg h2, if_neg h3, if_neg h4]
  refine (Lock.anyFlag hP fun r => (a.here w st P r).differs).bind ?_
  cases hg : setupBrick2 P a st.exchange with
  | none =>
    have h := hx 0 hP
    unfold fft2Setup at h
    rw [hc] at h
    dsimp only at h
    rw [hg] at h
    exact absurd h (by simp)
  | some g =>
    refine (Does.lift _ (fun _ => g) fun r _ => hg).bind ?_
    refine (Lock.anyFlag hP fun r => (a.here w st P r).notFast).bind ?_
    refine (Lock.anyFlag hP fun r => (a.here w st P r).notSlow).bind ?_
    refine (Lock.anyFlag hP fun r => (a.here w st P r).notOut ((a.here w st P r).slowBox 
      (allMax P fun r => (a.here w st P r).notSlow))).bind ?_
    have hm : ∀ r < P, (setupMain2 (a.create w st P g r) >>= fun f => some (Except.ok f)) = some (x r) := by
      intro r hr
      have h := hx r hr
      unfold fft2Setup at h
      rw [hc] at h
      dsimp only at h
      rw [hg] at h
      exact h
    have := Does.bind (q := fun _ f => Pure.pure (Except.ok f)) (Does.main2 (α := α) a w st P g) (fun y _ => Does.pure _) x hm
    refine this.congr (fun r hr => ?_) fun _ _ => rfl
    have e : (!inoutSame2 P a) = allMax P fun r => (a.here w st P r).differs := by
      unfold inoutSame2
      rw [Bool.not_not]
      rfl
    rw [e]
    rfl

end two

end FftMpi
