import Verif.SpmdHang

/-!
# Ranks with different settings

`packflag` chooses routines that do the same copies; `exchange` and `collective` choose calls.  Here: programs that make
the same calls (`Sim`), remaps that do the same (`Alike`), and the number of calls of `MPI_Allgather` (`Gathers`).
-/

noncomputable section

namespace FftMpi

variable {α E π ρ σ τ υ : Type}

/-! ## Programs with the same calls -/

/-- The programs make the same calls and return related values. -/
inductive Sim (R : ρ → σ → Prop) : Spmd E ρ → Spmd E σ → Prop where
  | ret {x y} (h : R x y) : Sim R (.ret x) (.ret y)
  | ub : Sim R .ub .ub
  | call (c : CollOp E) {k k'} (h : ∀ a, Sim R (k a) (k' a)) : Sim R (.call c k) (.call c k')

theorem Sim.bind {R : ρ → σ → Prop} {S : τ → υ → Prop} {p : Spmd E ρ} {q : Spmd E σ} {f : ρ → Spmd E τ} {g : σ → Spmd E υ}
    (h : Sim R p q) (hf : ∀ x y, R x y → Sim S (f x) (g y)) : Sim S (p >>= f) (q >>= g) := by
  induction h with
  | ret h => exact hf _ _ h
  | ub => exact .ub
  | call c h ih => exact .call c ih

theorem Sim.refl {R : ρ → ρ → Prop} (hR : ∀ x, R x x) (p : Spmd E ρ) : Sim R p p := by
  induction p with
  | ret x => exact .ret (hR x)
  | ub => exact .ub
  | call c k ih => exact .call c ih

/-- The same program first. -/
theorem Sim.same {S : τ → υ → Prop} {f : ρ → Spmd E τ} {g : ρ → Spmd E υ} (p : Spmd E ρ)
    (hf : ∀ x, Sim S (f x) (g x)) : Sim S (p >>= f) (p >>= g) :=
  (Sim.refl (R := Eq) (fun _ => rfl) p).bind fun _ _ e => e ▸ hf _

theorem Sim.ite {R : ρ → σ → Prop} {b b' : Prop} [Decidable b] [Decidable b'] {p p' : Spmd E ρ} {q q' : Spmd E σ}
    (e : b ↔ b') (h : Sim R p q) (h' : Sim R p' q') : Sim R (if b then p else p') (if b' then q else q') := by
  by_cases hb : b
  · rw [if_pos hb, if_pos (e.mp hb)]; exact h
  · rw [if_neg hb, if_neg fun h => hb (e.mpr h)]; exact h'

theorem Lock.sim {R : ρ → σ → Prop} {P : Nat} (hP : 0 < P) {p : Nat → Spmd E ρ} {q : Nat → Spmd E σ} {y : Nat → σ}
    (h : Lock P q y) (hs : ∀ r < P, Sim R (p r) (q r)) : ∃ x, Lock P p x ∧ ∀ r < P, R (x r) (y r) := by
  induction h generalizing p with
  | @done q y h =>
    have : ∀ r < P, ∃ x, p r = .ret x ∧ R x (y r) := by
      intro r hr
      have e := hs r hr
      rw [h r hr] at e
      generalize p r = z at e
      cases e with
      | ret h => exact ⟨_, rfl, h⟩
    have : Nonempty ρ := ⟨(this 0 hP).choose⟩
    choose! x hx using ‹∀ r < P, ∃ x, p r = .ret x ∧ R x (y r)›
    exact ⟨x, .done fun r hr => (hx r hr).1, fun r hr => (hx r hr).2⟩
  | @call q y c k a h ha _ ih =>
    have : ∀ r, ∃ k' : (c r).Reply → Spmd E ρ, r < P → p r = .call (c r) k' ∧ ∀ a, Sim R (k' a) (k r a) := by
      intro r
      by_cases hr : r < P
      · have e := hs r hr
        rw [h r hr] at e
        generalize p r = z at e
        cases e with
        | call _ h => exact ⟨_, fun _ => ⟨rfl, h⟩⟩
      · exact ⟨fun _ => .ub, fun h => absurd h hr⟩
    choose k' hk using this
    obtain ⟨x, hx, hR⟩ := ih (p := fun r => k' r (a r)) fun r hr => (hk r hr).2 _
    exact ⟨x, .call c k' a (fun r hr => (hk r hr).1) ha hx, hR⟩

theorem Sim.symm {R : ρ → σ → Prop} {p : Spmd E ρ} {q : Spmd E σ} (h : Sim R p q) : Sim (fun y x => R x y) q p := by
  induction h with
  | ret h => exact .ret h
  | ub => exact .ub
  | call c _ ih => exact .call c ih

theorem Hangs.sim {R : ρ → σ → Prop} {P : Nat} (hP : 0 < P) {p : Nat → Spmd E ρ} {q : Nat → Spmd E σ}
    (h : Hangs P q) (hs : ∀ r < P, Sim R (p r) (q r)) : Hangs P p := by
  rcases lock_or_fails hP p with ⟨x, hx⟩ | hf
  · obtain ⟨y, hy, -⟩ := hx.sim hP fun r hr => (hs r hr).symm
    exact absurd hy h.not_lock
  · exact hf.hangs

/-! ## The number of calls of `MPI_Allgather` -/

/-- On all ways through the program that end, there are `n` calls of `MPI_Allgather`. -/
inductive Gathers : Nat → Spmd E ρ → Prop where
  | ret (x) : Gathers 0 (.ret x)
  | ub (n) : Gathers n .ub
  | call (c : CollOp E) {n k} (h : ∀ a, Gathers n (k a)) :
      Gathers (n + if c.kind = .gather then 1 else 0) (.call c k)

theorem Gathers.bind {p : Spmd E ρ} {f : ρ → Spmd E σ} {n m : Nat} (h : Gathers n p) (hf : ∀ x, Gathers m (f x)) :
    Gathers (n + m) (p >>= f) := by
  induction h with
  | ret x => rw [Nat.zero_add]; exact hf x
  | ub n => exact .ub _
  | @call c n k h ih =>
    rw [show n + (if c.kind = .gather then 1 else 0) + m = (n + m) + (if c.kind = .gather then 1 else 0) by omega]
    exact .call c ih

theorem Gathers.lift (o : Option ρ) : Gathers (E := E) 0 (Spmd.lift o) := by
  cases o with
  | none => exact .ub 0
  | some x => exact .ret x

theorem Gathers.ite {b : Prop} [Decidable b] {p q : Spmd E ρ} {n m : Nat} (h : Gathers n p) (h' : Gathers m q) :
    Gathers (if b then n else m) (if b then p else q) := by
  split
  · exact h
  · exact h'

theorem Gathers.remap (D : Dim α E π) (P me : Nat) (inb outb : E) (nqty permute packflag : Int) (c : Bool) :
    Gathers 2 (remapS D P me inb outb nqty permute packflag c) := by
  unfold remapS
  have hg : ∀ e : E, Gathers 1 (Spmd.allgather e) := fun e => Gathers.call (.gather e) fun f => .ret f
  refine Gathers.bind (n := 1) (m := 1) (hg _) fun _ => ?_
  refine Gathers.bind (n := 1) (m := 0) (hg _) fun _ => ?_
  refine Gathers.bind (n := 0) (m := 0) (.lift _) fun o => ?_
  cases o.coll with
  | none => exact .ret _
  | some ci =>
    refine Gathers.bind (n := 0) (m := 0) ?_ fun _ => .ret _
    exact Gathers.call (.create ci.pgroup) fun _ => .ret _

theorem answer_kind {P : Nat} {c : Nat → CollOp E} {r : Nat} {a : (c r).Reply} (h : CollOp.answer P c r (c r) = some a)
    {q : Nat} (hq : q < P) : (c q).kind = (c r).kind := by
  have : ∀ d : CollOp E, ∀ a : d.Reply, CollOp.answer P c r d = some a → CollOp.Match P c d.kind := by
    intro d a h
    cases d with
    | max y => by_contra hn; exact absurd ((if_neg hn).symm.trans h) (by simp)
    | sum y => by_contra hn; exact absurd ((if_neg hn).symm.trans h) (by simp)
    | gather y => by_contra hn; exact absurd ((if_neg hn).symm.trans h) (by simp)
    | create y =>
      by_contra hn
      exact absurd ((if_neg fun hh : CollOp.Match P c .create ∧ CollOp.Groups P (fun q => (c q).grp) => hn hh.1).symm.trans h)
        (by simp)
    | barrier => by_contra hn; exact absurd ((if_neg hn).symm.trans h) (by simp)
  exact this _ a h q hq

/-- Ranks that return have made the same number of calls. -/
theorem Lock.gathers {P : Nat} {p : Nat → Spmd E ρ} {x : Nat → ρ} (h : Lock P p x) {n : Nat → Nat}
    (hn : ∀ r < P, Gathers (n r) (p r)) {i j : Nat} (hi : i < P) (hj : j < P) : n i = n j := by
  induction h generalizing n with
  | @done p x h =>
    have : ∀ r < P, n r = 0 := by
      intro r hr
      have e := hn r hr
      rw [h r hr] at e
      generalize n r = z at e
      cases e; rfl
    rw [this i hi, this j hj]
  | @call p x c k a h ha _ ih =>
    have : ∀ r, ∃ m, r < P → n r = m + (if (c r).kind = .gather then 1 else 0) ∧ Gathers m (k r (a r)) := by
      intro r
      by_cases hr : r < P
      · have e := hn r hr
        rw [h r hr] at e
        generalize n r = z at e
        cases e with
        | call _ h => exact ⟨_, fun _ => ⟨rfl, h _⟩⟩
      · exact ⟨0, fun h => absurd h hr⟩
    choose m hm using this
    rw [(hm i hi).1, (hm j hj).1, ih fun r hr => (hm r hr).2, answer_kind (ha j hj) hi]

theorem Lock.after {P : Nat} {p q : Nat → Spmd E ρ} {x : Nat → ρ} (h : Comes P p q) (h' : Lock P p x) : Lock P q x := by
  induction h with
  | refl h => exact h'.congr (fun r hr => (h r hr).symm) fun _ _ => rfl
  | @call p q c k a h ha _ ih =>
    refine ih ?_
    cases h' with
    | @done _ _ e =>
      by_cases hP : 0 < P
      · exact absurd ((e 0 hP).symm.trans (h 0 hP)) (by simp)
      · exact .done fun r hr => absurd hr (by omega)
    | call c' k' a' h2 ha' t =>
      refine t.congr (fun r hr => ?_) fun _ _ => rfl
      have e := (h r hr).symm.trans (h2 r hr)
      have ec : ∀ q < P, c q = c' q := fun q hq => by
        have := (h q hq).symm.trans (h2 q hq)
        injection this
      have hh : ∀ (d d' : CollOp E) (f : d.Reply → Spmd E ρ) (f' : d'.Reply → Spmd E ρ) (b : d.Reply) (b' : d'.Reply),
          Spmd.call d f = .call d' f' → CollOp.answer P c r d = some b → CollOp.answer P c r d' = some b' → f b = f' b' := by
        rintro d d' f f' b b' e h1 h2
        injection e with e1 e2
        subst e1
        rw [eq_of_heq e2, Option.some.inj (h1.symm.trans h2)]
      exact hh _ _ _ _ _ _ e (ha r hr) ((answer_congr ec _ _).trans (ha' r hr))

/-! ## Remaps that do the same -/

/-- The two objects do the same; also after the member `newcomm` has been set. -/
structure RemapObj.Alike (o o' : RemapObj α π) : Prop where
  send : o.sendsize = o'.sendsize
  recv : o.recvsize = o'.recvsize
  coll : o.coll = o'.coll
  prog : ∀ c coll inst ai ao, ({ o with coll := c } : RemapObj α π).prog coll inst ai ao =
    ({ o' with coll := c } : RemapObj α π).prog coll inst ai ao

/-- The routines for two values of `packflag` do the same with the plans of the remap. -/
structure SameCopy (D : Dim α E π) (nqty permute pf pf' : Int) : Prop where
  pack : ∀ inb out ov, D.collide inb out = some ov → ∃ f f', D.packSel pf = some f ∧ D.packSel pf' = some f' ∧
    ∀ data d buf b, f data d buf b (D.sendPlan nqty inb ov) = f' data d buf b (D.sendPlan nqty inb ov)
  unpack : ∀ out inb ov, D.collide out inb = some ov → ∃ f f', D.unpackSel pf permute nqty = some f ∧
    D.unpackSel pf' permute nqty = some f' ∧
    ∀ buf b data d, f buf b data d (D.recvPlan permute nqty out ov) = f' buf b data d (D.recvPlan permute nqty out ov)

theorem collPacks_alike {pk pk' : Option (CopyFn α π)} {sends : List (SEnt π)} (ai : Nat)
    (h : ∀ e ∈ sends, ∀ b m, packSb pk ai b e m = packSb pk' ai b e m) :
    ∀ (gs : List GEnt) (off : Int), collPacks pk sends ai gs off = collPacks pk' sends ai gs off := by
  intro gs
  induction gs with
  | nil => intro _; rfl
  | cons g gs ih =>
    intro off
    simp only [collPacks]
    cases g.map with
    | none => exact ih off
    | some i =>
      dsimp only
      cases e : sends[i]? with
      | none => rfl
      | some x =>
        dsimp only
        rw [ih, funext (h x (List.mem_of_getElem? e) off)]

theorem collUnpacks_alike {unpk unpk' : Option (CopyFn α π)} {recvs : List (REnt π)} (ao : Nat)
    (h : ∀ e ∈ recvs, ∀ b m, unpackRb unpk ao b e m = unpackRb unpk' ao b e m) :
    ∀ (gs : List GEnt) (off : Int), collUnpacks unpk recvs ao gs off = collUnpacks unpk' recvs ao gs off := by
  intro gs
  induction gs with
  | nil => intro _; rfl
  | cons g gs ih =>
    intro off
    simp only [collUnpacks]
    cases g.map with
    | none => exact ih off
    | some i =>
      dsimp only
      cases e : recvs[i]? with
      | none => rfl
      | some x =>
        dsimp only
        rw [ih, funext (h x (List.mem_of_getElem? e) off)]

theorem recvFrom_mem {D : Dim α E π} {permute nqty : Int} {outb : E} {ins : Nat → E} {e : REnt π} :
    ∀ {ps : List Nat} {i : Int}, e ∈ recvEntsFrom D permute nqty outb ins ps i →
      ∃ p ov, D.collide outb (ins p) = some ov ∧ e.plan = D.recvPlan permute nqty outb ov := by
  intro ps
  induction ps with
  | nil => intro i h; exact absurd h (by simp [recvEntsFrom])
  | cons p ps ih =>
    intro i h
    simp only [recvEntsFrom] at h
    cases hc : D.collide outb (ins p) with
    | none => rw [hc] at h; exact ih h
    | some ov =>
      rw [hc] at h
      rcases List.mem_cons.mp h with rfl | h
      · exact ⟨p, ov, hc, rfl⟩
      · exact ih h

/-- Objects with the same tables and routines that do the same. -/
theorem RemapObj.alike_of {o o' : RemapObj α π} (h1 : o.sends = o'.sends) (h2 : o.recvs = o'.recvs)
    (h3 : o.nsend = o'.nsend) (h4 : o.nrecv = o'.nrecv) (h5 : o.self = o'.self) (h6 : o.coll = o'.coll)
    (h7 : o.sendsize = o'.sendsize) (h8 : o.recvsize = o'.recvsize)
    (hp : ∀ e ∈ o'.sends, ∀ ai b m, packSb o.pack ai b e m = packSb o'.pack ai b e m ∧
      packRb o.pack ai b e m = packRb o'.pack ai b e m)
    (hu : ∀ e ∈ o'.recvs, ∀ ao b m, unpackRb o.unpack ao b e m = unpackRb o'.unpack ao b e m) : o.Alike o' := by
  refine ⟨h7, h8, h6, fun c coll inst ai ao => ?_⟩
  unfold RemapObj.prog
  cases coll with
  | true =>
    simp only [if_true]
    cases c with
    | none => rfl
    | some ci =>
      dsimp only
      rw [h1, h2, collPacks_alike ai (fun e he b m => (hp e he ai b m).1),
        collUnpacks_alike ao (fun e he b m => hu e he ao b m)]
  | false =>
    simp only [Bool.false_eq_true, if_false]
    refine congr (congr (congrArg p2pProg ?_) ?_) ?_
    · unfold RemapObj.p2pRecvs
      dsimp only
      rw [h2, h4]
      refine List.map_congr_left fun e he => ?_
      rw [funext (hu e (List.mem_of_mem_take he) ao e.bufloc)]
    · unfold RemapObj.p2pSends
      dsimp only
      rw [h1, h3]
      refine List.map_congr_left fun e he => ?_
      rw [funext fun m => (hp e (List.mem_of_mem_take he) ai 0 m).1]
    · unfold RemapObj.p2pSelf
      dsimp only
      rw [h1, h2, h3, h4, h5]
      split
      · congr 1
        · funext m
          cases e3 : o'.sends[o'.nsend]? with
          | none => rfl
          | some s =>
            cases e4 : o'.recvs[o'.nrecv]? with
            | none => rfl
            | some r =>
              simp only [Option.bind_some]
              exact (hp s (List.mem_of_getElem? e3) ai _ m).2
        · congr 1
          funext m
          cases e4 : o'.recvs[o'.nrecv]? with
          | none => rfl
          | some r =>
            simp only [Option.bind_some]
            exact hu r (List.mem_of_getElem? e4) ao _ m
      · rfl

theorem remapSetup_alike {D : Dim α E π} {nqty permute pf pf' : Int} (h : SameCopy D nqty permute pf pf') (P me : Nat)
    (ins outs : Nat → E) (c : Bool) :
    (remapSetup D P me ins outs nqty permute pf c = none ∧ remapSetup D P me ins outs nqty permute pf' c = none) ∨
    ∃ o o', remapSetup D P me ins outs nqty permute pf c = some o ∧
      remapSetup D P me ins outs nqty permute pf' c = some o' ∧ o.Alike o' := by
  have hp : ∀ e ∈ sendEnts D P me nqty (ins me) outs, ∀ ai b m,
      packSb (if sendEnts D P me nqty (ins me) outs = [] then none else D.packSel pf) ai b e m =
        packSb (if sendEnts D P me nqty (ins me) outs = [] then none else D.packSel pf') ai b e m ∧
      packRb (if sendEnts D P me nqty (ins me) outs = [] then none else D.packSel pf) ai b e m =
        packRb (if sendEnts D P me nqty (ins me) outs = [] then none else D.packSel pf') ai b e m := by
    intro e he ai b m
    have hn := List.ne_nil_of_mem he
    rw [if_neg hn, if_neg hn]
    obtain ⟨p, -, hq⟩ := List.mem_filterMap.mp he
    obtain ⟨ov, ho, rfl⟩ := Option.map_eq_some_iff.mp hq
    obtain ⟨f, f', hf, hf', heq⟩ := h.pack _ _ ov ho
    unfold packSb packRb
    rw [hf, hf']
    simp only [Option.bind_some, heq, and_self]
  have hu : ∀ e ∈ recvEnts D P me permute nqty (outs me) ins, ∀ ao b m,
      unpackRb (if recvEnts D P me permute nqty (outs me) ins = [] then none else D.unpackSel pf permute nqty) ao b e m =
        unpackRb (if recvEnts D P me permute nqty (outs me) ins = [] then none else D.unpackSel pf' permute nqty)
          ao b e m := by
    intro e he ao b m
    have hn := List.ne_nil_of_mem he
    rw [if_neg hn, if_neg hn]
    obtain ⟨p, ov, ho, hpl⟩ := recvFrom_mem he
    obtain ⟨f, f', hf, hf', heq⟩ := h.unpack _ _ ov ho
    unfold unpackRb
    rw [hf, hf', hpl]
    simp only [Option.bind_some, heq]
  unfold remapSetup
  cases c with
  | false =>
    simp only [Bool.false_eq_true, if_false]
    exact .inr ⟨_, _, rfl, rfl, RemapObj.alike_of rfl rfl rfl rfl rfl rfl rfl rfl hp hu⟩
  | true =>
    simp only [if_true]
    cases groupClosure (fun i j => (D.collide (ins i) (outs j)).isSome)
        (fun i j => (D.collide (outs i) (ins j)).isSome) P
        ((sendEnts D P me nqty (ins me) outs).map SEnt.proc) ((recvEnts D P me permute nqty (outs me) ins).map REnt.proc) with
    | none => exact .inl ⟨rfl, rfl⟩
    | some s => exact .inr ⟨_, _, rfl, rfl, RemapObj.alike_of rfl rfl rfl rfl rfl rfl rfl rfl hp hu⟩

theorem Sim.remap {D : Dim α E π} {nqty permute pf pf' : Int} (h : SameCopy D nqty permute pf pf') (P me : Nat)
    (inb outb : E) (c : Bool) :
    Sim RemapObj.Alike (remapS D P me inb outb nqty permute pf c) (remapS D P me inb outb nqty permute pf' c) := by
  unfold remapS
  refine Sim.same _ fun outs => Sim.same _ fun ins => ?_
  rcases remapSetup_alike h P me ins outs c with ⟨e, e'⟩ | ⟨o, o', e, e', hA⟩
  · rw [e, e']; exact .ub
  rw [e, e']
  show Sim _ (match o.coll with | none => _ | some ci => _) (match o'.coll with | none => _ | some ci => _)
  rw [hA.coll]
  cases o'.coll with
  | none => exact .ret hA
  | some ci =>
    refine Sim.same _ fun nc => .ret ⟨hA.send, hA.recv, rfl, hA.prog⟩

theorem sameCopy3 {pf pf' permute : Int} (hp : pf = 0 ∨ pf = 1 ∨ pf = 2) (hp' : pf' = 0 ∨ pf' = 1 ∨ pf' = 2)
    (hm : permute = 0 ∨ permute = 1 ∨ permute = 2) : SameCopy (dim3 (α := α)) 2 permute pf pf' := by
  have hs : ∀ b1 b2 ov, collide3 b1 b2 = some ov →
      0 ≤ ov.isize ∧ 0 ≤ ov.jsize ∧ 0 < b1.isize ∧ 0 < b1.jsize ∧ 0 < b1.ksize := by
    intro b1 b2 ov h
    unfold collide3 at h
    dsimp only at h
    split at h
    · exact absurd h (by simp)
    · obtain rfl := Option.some.inj h
      simp only [Box3.isize, Box3.jsize, Box3.ksize]
      omega
  constructor
  · intro inb out ov h
    obtain ⟨f, hf, e⟩ := packSel3_eq (α := α) hp
    obtain ⟨f', hf', e'⟩ := packSel3_eq (α := α) hp'
    obtain ⟨h1, h2, h3, h4, h5⟩ := hs _ _ _ h
    refine ⟨f, f', hf, hf', fun data d buf b => ?_⟩
    have ok := sendPlan3_ok (nqty := 2) (by decide) (inb := inb) h1 h2 h3 h4
    exact (e _ _ _ _ _ ok).trans (e' _ _ _ _ _ ok).symm
  · intro out inb ov h
    obtain ⟨f, hf, e⟩ := unpackSel3_eq (α := α) (nqty := 2) hp hm
    obtain ⟨f', hf', e'⟩ := unpackSel3_eq (α := α) (nqty := 2) hp' hm
    obtain ⟨h1, h2, h3, h4, h5⟩ := hs _ _ _ h
    refine ⟨f, f', hf, hf', fun data d buf b => ?_⟩
    have ok := recvPlan3_ok (nqty := 2) hm (by decide) (out := out) h1 h2 h3 h4 h5
    exact (e _ _ _ _ _ ok.1 ok.2).trans (e' _ _ _ _ _ ok.1 ok.2).symm

theorem sameCopy2 {w pf pf' permute : Int} (hp : FlagOk2 w pf) (hp' : FlagOk2 w pf')
    (hm : permute = 0 ∨ permute = 1) : SameCopy (dim2 (α := α) w) 2 permute pf pf' := by
  have hs : ∀ b1 b2 ov, collide2 b1 b2 = some ov → 0 ≤ ov.isize ∧ 0 < b1.isize ∧ 0 < b1.jsize := by
    intro b1 b2 ov h
    unfold collide2 at h
    dsimp only at h
    split at h
    · exact absurd h (by simp)
    · obtain rfl := Option.some.inj h
      simp only [Box2.isize, Box2.jsize]
      omega
  constructor
  · intro inb out ov h
    obtain ⟨f, hf, e⟩ := packSel2_eq (α := α) hp
    obtain ⟨f', hf', e'⟩ := packSel2_eq (α := α) hp'
    obtain ⟨h1, h2, h3⟩ := hs _ _ _ h
    refine ⟨f, f', hf, hf', fun data d buf b => ?_⟩
    have ok := sendPlan2_ok (nqty := 2) (by decide) (inb := inb) h1 h2
    exact (e _ _ _ _ _ ok).trans (e' _ _ _ _ _ ok).symm
  · intro out inb ov h
    obtain ⟨f, hf, e⟩ := unpackSel2_eq (α := α) (nqty := 2) hp hm
    obtain ⟨f', hf', e'⟩ := unpackSel2_eq (α := α) (nqty := 2) hp' hm
    obtain ⟨h1, h2, h3⟩ := hs _ _ _ h
    refine ⟨f, f', hf, hf', fun data d buf b => ?_⟩
    have ok := recvPlan2_ok (nqty := 2) hm (by decide) (out := out) h1 h2 h3
    exact (e _ _ _ _ _ ok.1 ok.2).trans (e' _ _ _ _ _ ok.1 ok.2).symm

end FftMpi
