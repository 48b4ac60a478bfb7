import Verif.SpmdStuck

/-!
# Ranks with different settings of `collective`

A rank in point-to-point mode does not call `MPI_Comm_create`.  If the ranks do not agree about that in some remap, they
wait for each other for ever; if they agree in all remaps, the different settings do not matter.
-/

noncomputable section

namespace FftMpi

variable {α E π ρ σ : Type}

/-- The program does not begin with `MPI_Comm_create`. -/
def Quiet (p : Spmd E ρ) : Prop := ∀ d f, p = .call d f → d.kind ≠ .create

theorem Quiet.pure (x : ρ) : Quiet (E := E) (Pure.pure x) := fun _ _ h => nomatch h

theorem Quiet.ub : Quiet (E := E) (ρ := ρ) .ub := fun _ _ h => nomatch h

theorem Quiet.lift (o : Option ρ) : Quiet (E := E) (Spmd.lift o) := by
  cases o with
  | none => exact Quiet.ub
  | some x => exact Quiet.pure x

theorem Quiet.bind {p : Spmd E ρ} {f : ρ → Spmd E σ} (h : Quiet p) (hf : ∀ x, Quiet (f x)) : Quiet (p >>= f) := by
  cases p with
  | ret x => exact hf x
  | ub => exact Quiet.ub
  | call c k =>
    intro d g e
    have e : Spmd.call c (fun a => k a >>= f) = .call d g := e
    injection e with e
    rw [← e]
    exact h c k rfl

theorem Quiet.ite {b : Prop} [Decidable b] {p q : Spmd E ρ} (h : Quiet p) (k : Quiet q) : Quiet (if b then p else q) := by
  split
  · exact h
  · exact k

theorem Quiet.remap (D : Dim α E π) (P me : Nat) (inb outb : E) (nqty permute packflag : Int) (c : Bool) :
    Quiet (remapS D P me inb outb nqty permute packflag c) := by
  intro d f e
  unfold remapS at e
  have e : Spmd.call (.gather outb) _ = Spmd.call d f := e
  injection e with e
  rw [← e]
  simp [CollOp.kind]

/-- In lockstep the programs come to a point where rank `i` calls `MPI_Comm_create` and rank `j` does not. -/
def Clash (P : Nat) (i j : Nat) (p : Nat → Spmd E ρ) : Prop :=
  ∃ q, Comes P p q ∧ (∃ g k, q i = .call (.create g) k) ∧ Quiet (q j)

theorem Clash.stuck {P i j : Nat} {p : Nat → Spmd E ρ} (hi : i < P) (hj : j < P) (h : Clash P i j p) : Stuck P p := by
  obtain ⟨q, h1, ⟨g, k, h2⟩, h3⟩ := h
  exact h1.stuck hi hj h2 h3

theorem Clash.bind {P i j : Nat} {p : Nat → Spmd E ρ} {f : Nat → ρ → Spmd E σ} (h : Clash P i j p)
    (hf : ∀ x, Quiet (f j x)) : Clash P i j (fun r => p r >>= f r) := by
  obtain ⟨q, h1, ⟨g, k, h2⟩, h3⟩ := h
  refine ⟨_, h1.bind f, ⟨g, fun a => k a >>= f i, ?_⟩, h3.bind hf⟩
  show q i >>= f i = _
  rw [h2]; rfl

theorem Clash.after {P i j : Nat} {p p' : Nat → Spmd E ρ} (h : Comes P p p') (h' : Clash P i j p') : Clash P i j p := by
  obtain ⟨q, h1, h2⟩ := h'
  exact ⟨q, h.trans h1, h2⟩

theorem Lock.clash {P i j : Nat} {p : Nat → Spmd E ρ} {y : Nat → ρ} {f : Nat → ρ → Spmd E σ} (h : Lock P p y)
    (h' : Clash P i j (fun r => f r (y r))) : Clash P i j (fun r => p r >>= f r) := h'.after (h.thenC f)

theorem Clash.congr {P i j : Nat} {p q : Nat → Spmd E ρ} (h : Clash P i j p) (e : ∀ r < P, q r = p r) :
    Clash P i j q := h.after (.refl e)

theorem Lock.ofComes {P : Nat} {p q : Nat → Spmd E ρ} {x : Nat → ρ} (h : Comes P p q) (h' : Lock P q x) : Lock P p x := by
  induction h with
  | refl h => exact h'.congr h fun _ _ => rfl
  | call c k a h ha _ ih => exact .call c k a h ha (ih h')

/-- A remap whose ranks do not agree about the mode. -/
theorem Clash.remap (D : Dim α E π) (P : Nat) (ins outs : Nat → E) (nqty permute packflag : Int) (c : Nat → Bool)
    {i j : Nat} (hi : i < P) (_hj : j < P) (ci : c i = true) (cj : c j = false) :
    Clash P i j (fun r => remapS D P r (ins r) (outs r) nqty permute packflag (c r)) := by
  unfold remapS
  refine Lock.clash (Lock.allgather outs) (Lock.clash (Lock.allgather ins) ?_)
  refine ⟨_, .refl fun _ _ => rfl, ?_, ?_⟩
  · rw [ci]
    obtain ⟨t, ht, -⟩ := closure_linked D hi (fun q => if q < P then ins q else ins i)
      (fun q => if q < P then outs q else outs i) nqty permute
    unfold remapSetup
    simp only [if_true]
    rw [ht]
    exact ⟨_, _, rfl⟩
  · rw [cj]
    unfold remapSetup
    simp only [Bool.false_eq_true, if_false]
    exact Quiet.pure _

theorem exists_mixed {P : Nat} {f : Nat → Bool} (hP : 0 < P) (h : ¬∀ r < P, f r = f 0) :
    ∃ i < P, ∃ j < P, f i = true ∧ f j = false := by
  push Not at h
  obtain ⟨r, hr, h⟩ := h
  cases h0 : f 0 <;> cases h1 : f r
  · exact absurd (h1.trans h0.symm) h
  · exact ⟨r, hr, 0, hP, h1, h0⟩
  · exact ⟨0, hP, r, hr, h0, h1⟩
  · exact absurd (h1.trans h0.symm) h

/-! ## FFT3d -/

section three

variable (h : Here3)

theorem Quiet.newRemap3 (inst : Nat) (c : Bool) (inb outb : Box3) (permute : Int) :
    Quiet (h.newRemap (α := α) inst c inb outb permute) := (Quiet.remap _ _ _ _ _ _ _ _ _).bind fun _ => Quiet.pure _

theorem Quiet.prefast3 (b : Boxes3) (s : Int × Int) : Quiet (h.prefast (α := α) b s) :=
  ((Quiet.newRemap3 _ _ _ _ _ _).bind fun _ => Quiet.pure _).ite (Quiet.pure _)

theorem Quiet.fastmid3 (b : Boxes3) (s : Int × Int) : Quiet (h.fastmid (α := α) b s) :=
  ((Quiet.newRemap3 _ _ _ _ _ _).bind fun _ => Quiet.pure _).ite
    ((Quiet.newRemap3 _ _ _ _ _ _).bind fun _ => (Quiet.newRemap3 _ _ _ _ _ _).bind fun _ => Quiet.pure _)

theorem Quiet.midslow3 (b : Boxes3) (s : Int × Int) : Quiet (h.midslow (α := α) b s) :=
  ((Quiet.newRemap3 _ _ _ _ _ _).bind fun _ => Quiet.pure _).ite
    ((Quiet.newRemap3 _ _ _ _ _ _).bind fun _ => (Quiet.newRemap3 _ _ _ _ _ _).bind fun _ => Quiet.pure _)

theorem Quiet.postslow3 (b : Boxes3) (s : Int × Int) : Quiet (h.postslow (α := α) b s) :=
  ((Quiet.lift _).bind fun _ => (Quiet.newRemap3 _ _ _ _ _ _).bind fun _ => Quiet.pure _).ite (Quiet.pure _)

theorem Quiet.newPreslow3 (b : Boxes3) : Quiet (h.newPreslow (α := α) b) :=
  (Quiet.newRemap3 _ _ _ _ _ _).ite ((Quiet.newRemap3 _ _ _ _ _ _).ite ((Quiet.newRemap3 _ _ _ _ _ _).ite Quiet.ub))

theorem Quiet.preslow3 (b : Boxes3) (s : Int × Int) : Quiet (h.preslow (α := α) b s) :=
  ((Quiet.newPreslow3 _ _).bind fun _ => Quiet.pure _).ite (Quiet.pure _)

theorem Quiet.slowmid3 (b : Boxes3) (s : Int × Int) : Quiet (h.slowmid (α := α) b s) :=
  ((Quiet.newRemap3 _ _ _ _ _ _).bind fun _ => Quiet.pure _).ite
    ((Quiet.newRemap3 _ _ _ _ _ _).bind fun _ => (Quiet.newRemap3 _ _ _ _ _ _).bind fun _ => Quiet.pure _)

theorem Quiet.midfast3 (b : Boxes3) (s : Int × Int) : Quiet (h.midfast (α := α) b s) :=
  ((Quiet.newRemap3 _ _ _ _ _ _).bind fun _ => Quiet.pure _).ite
    ((Quiet.newRemap3 _ _ _ _ _ _).bind fun _ => (Quiet.newRemap3 _ _ _ _ _ _).bind fun _ => Quiet.pure _)

theorem Quiet.postfast3 (b : Boxes3) (s : Int × Int) : Quiet (h.postfast (α := α) b s) :=
  ((Quiet.newRemap3 _ _ _ _ _ _).bind fun _ => Quiet.pure _).ite (Quiet.pure _)

theorem Quiet.inverse3 (b : Boxes3) (s : Int × Int) : Quiet (h.inverse (α := α) b s) :=
  (Quiet.preslow3 _ _ _).bind fun _ => (Quiet.slowmid3 _ _ _).bind fun _ => (Quiet.midfast3 _ _ _).bind fun _ =>
    (Quiet.postfast3 _ _ _).bind fun _ => Quiet.pure _

theorem Quiet.back3 (b : Boxes3) (d : Bool) (s : Int × Int) : Quiet (h.back (α := α) b d s) :=
  (Quiet.pure _).ite ((Quiet.inverse3 _ _ _).bind fun _ => Quiet.pure _)

end three

section three

variable (a : Args3) (st : Settings) (P : Nat)

/-- The arguments of rank `r` with its own setting of `collective`. -/
def Args3.own (col : Nat → Int) (r : Nat) : Here3 := a.here { st with collective := col r } P r

/-- In all remaps of `setup` the ranks agree about calling `MPI_Comm_create`. -/
def Args3.Agree (g : Grids) (col : Nat → Int) : Prop :=
  (st.exchange = 0 → ∀ r < P, collectivePp (col r) = collectivePp (col 0)) ∧
  (st.exchange ≠ 0 ∨ preflag P a = true ∨ postflag P a g = true → ∀ r < P, collectiveBp (col r) = collectiveBp (col 0))

/-- `setup` up to the remaps does not depend on `collective`. -/
theorem Comes.setup3 {g : Grids} (hP : 0 < P) (hc : setupCheck P a = none) (hg : setupGrids P a st.exchange = some g)
    (col : Nat → Int) : Comes P (fun r => (a.own st P col r).setup (α := α))
      (fun r => (a.own st P col r).main (a.boxes P g r) (!inoutSame P a) >>= fun f => Pure.pure (.ok f)) := by
  unfold setupCheck at hc
  by_cases h1 : a.nfast < 2 ∨ a.nmid < 2 ∨ a.nslow < 2
  · rw [if_pos h1] at hc; exact absurd hc (by simp)
  by_cases h2 : (!primeFactorable a.nfast || !primeFactorable a.nmid || !primeFactorable a.nslow) = true
  · rw [if_neg h1, if_pos h2] at hc; exact absurd hc (by simp)
  refine Comes.start ?_ fun r _ => (if_neg h1).trans (if_neg h2)
  refine ((Lock.anyFlag hP fun r => badIndices a.nfast a.nmid a.nslow (a.ins r)).thenC _).trans ?_
  by_cases h3 : allMax P (fun r => badIndices a.nfast a.nmid a.nslow (a.ins r)) = true
  · rw [if_neg h1, if_neg h2, if_pos h3] at hc; exact absurd hc (by simp)
  refine Comes.start ?_ fun r _ => if_neg h3
  refine ((Lock.total fun r => boxSize (a.ins r)).thenC _).trans ?_
  by_cases h4 : allSum P (fun r => boxSize (a.ins r)) ≠ a.nfast * a.nmid * a.nslow
  · rw [if_neg h1, if_neg h2, if_neg h3, if_pos h4] at hc; exact absurd hc (by simp)
  refine Comes.start ?_ fun r _ => if_neg h4
  refine ((Lock.anyFlag hP fun r => (a.own st P col r).differs).thenC _).trans ?_
  refine ((Does.lift _ (fun _ => g) fun r _ => hg).thenC _).trans ?_
  refine ((Lock.anyFlag hP fun r => (a.own st P col r).notFast).thenC _).trans ?_
  refine ((Lock.anyFlag hP fun r => (a.own st P col r).notSlow).thenC _).trans ?_
  refine ((Lock.anyFlag hP fun r => (a.own st P col r).notOut ((a.own st P col r).slowBox g
    (allMax P fun r => (a.own st P col r).notSlow))).thenC _).trans (.refl fun r hr => ?_)
  have e : (!inoutSame P a) = allMax P fun r => (a.own st P col r).differs := by
    unfold inoutSame
    rw [Bool.not_not]
    rfl
  rw [e]
  rfl

variable {a st P}

theorem own_prefast {g : Grids} {col : Nat → Int} {r : Nat} (s : Int × Int)
    (h : preflag P a = true → collectiveBp (col r) = collectiveBp (col 0)) :
    (a.own st P col r).prefast (α := α) (a.boxes P g r) s =
      (a.here { st with collective := col 0 } P r).prefast (a.boxes P g r) s := by
  unfold Here3.prefast
  by_cases hp : preflag P a = true
  · rw [if_pos (show (a.boxes P g r).pre = true from hp), if_pos (show (a.boxes P g r).pre = true from hp)]
    have e : (a.own st P col r).bp = (a.here { st with collective := col 0 } P r).bp := h hp
    rw [e]
    rfl
  · rw [if_neg (show ¬(a.boxes P g r).pre = true from hp), if_neg (show ¬(a.boxes P g r).pre = true from hp)]

theorem own_fastmid {g : Grids} {col : Nat → Int} {r : Nat} (s : Int × Int)
    (h : st.exchange = 0 → collectivePp (col r) = collectivePp (col 0))
    (h' : st.exchange ≠ 0 → collectiveBp (col r) = collectiveBp (col 0)) :
    (a.own st P col r).fastmid (α := α) (a.boxes P g r) s =
      (a.here { st with collective := col 0 } P r).fastmid (a.boxes P g r) s := by
  unfold Here3.fastmid
  by_cases hp : st.exchange = 0
  · rw [if_pos (show (a.own st P col r).st.exchange = 0 from hp), if_pos (show (a.here { st with collective := col 0 } P r).st.exchange = 0 from hp)]
    have e : (a.own st P col r).pp = (a.here { st with collective := col 0 } P r).pp := h hp
    rw [e]
    rfl
  · rw [if_neg (show ¬(a.own st P col r).st.exchange = 0 from hp), if_neg (show ¬(a.here { st with collective := col 0 } P r).st.exchange = 0 from hp)]
    have e : (a.own st P col r).bp = (a.here { st with collective := col 0 } P r).bp := h' hp
    rw [e]
    rfl

theorem own_midslow {g : Grids} {col : Nat → Int} {r : Nat} (s : Int × Int)
    (h : st.exchange = 0 → collectivePp (col r) = collectivePp (col 0))
    (h' : st.exchange ≠ 0 → collectiveBp (col r) = collectiveBp (col 0)) :
    (a.own st P col r).midslow (α := α) (a.boxes P g r) s =
      (a.here { st with collective := col 0 } P r).midslow (a.boxes P g r) s := by
  unfold Here3.midslow
  by_cases hp : st.exchange = 0
  · rw [if_pos (show (a.own st P col r).st.exchange = 0 from hp), if_pos (show (a.here { st with collective := col 0 } P r).st.exchange = 0 from hp)]
    have e : (a.own st P col r).pp = (a.here { st with collective := col 0 } P r).pp := h hp
    rw [e]
    rfl
  · rw [if_neg (show ¬(a.own st P col r).st.exchange = 0 from hp), if_neg (show ¬(a.here { st with collective := col 0 } P r).st.exchange = 0 from hp)]
    have e : (a.own st P col r).bp = (a.here { st with collective := col 0 } P r).bp := h' hp
    rw [e]
    rfl

theorem own_slowmid {g : Grids} {col : Nat → Int} {r : Nat} (s : Int × Int)
    (h : st.exchange = 0 → collectivePp (col r) = collectivePp (col 0))
    (h' : st.exchange ≠ 0 → collectiveBp (col r) = collectiveBp (col 0)) :
    (a.own st P col r).slowmid (α := α) (a.boxes P g r) s =
      (a.here { st with collective := col 0 } P r).slowmid (a.boxes P g r) s := by
  unfold Here3.slowmid
  by_cases hp : st.exchange = 0
  · rw [if_pos (show (a.own st P col r).st.exchange = 0 from hp), if_pos (show (a.here { st with collective := col 0 } P r).st.exchange = 0 from hp)]
    have e : (a.own st P col r).pp = (a.here { st with collective := col 0 } P r).pp := h hp
    rw [e]
    rfl
  · rw [if_neg (show ¬(a.own st P col r).st.exchange = 0 from hp), if_neg (show ¬(a.here { st with collective := col 0 } P r).st.exchange = 0 from hp)]
    have e : (a.own st P col r).bp = (a.here { st with collective := col 0 } P r).bp := h' hp
    rw [e]
    rfl

theorem own_midfast {g : Grids} {col : Nat → Int} {r : Nat} (s : Int × Int)
    (h : st.exchange = 0 → collectivePp (col r) = collectivePp (col 0))
    (h' : st.exchange ≠ 0 → collectiveBp (col r) = collectiveBp (col 0)) :
    (a.own st P col r).midfast (α := α) (a.boxes P g r) s =
      (a.here { st with collective := col 0 } P r).midfast (a.boxes P g r) s := by
  unfold Here3.midfast
  by_cases hp : st.exchange = 0
  · rw [if_pos (show (a.own st P col r).st.exchange = 0 from hp), if_pos (show (a.here { st with collective := col 0 } P r).st.exchange = 0 from hp)]
    have e : (a.own st P col r).pp = (a.here { st with collective := col 0 } P r).pp := h hp
    rw [e]
    rfl
  · rw [if_neg (show ¬(a.own st P col r).st.exchange = 0 from hp), if_neg (show ¬(a.here { st with collective := col 0 } P r).st.exchange = 0 from hp)]
    have e : (a.own st P col r).bp = (a.here { st with collective := col 0 } P r).bp := h' hp
    rw [e]
    rfl

theorem own_postfast {g : Grids} {col : Nat → Int} {r : Nat} (s : Int × Int)
    (h : preflag P a = true → collectiveBp (col r) = collectiveBp (col 0)) :
    (a.own st P col r).postfast (α := α) (a.boxes P g r) s =
      (a.here { st with collective := col 0 } P r).postfast (a.boxes P g r) s := by
  unfold Here3.postfast
  by_cases hp : preflag P a = true
  · rw [if_pos (show (a.boxes P g r).pre = true from hp), if_pos (show (a.boxes P g r).pre = true from hp)]
    have e : (a.own st P col r).bp = (a.here { st with collective := col 0 } P r).bp := h hp
    rw [e]
    rfl
  · rw [if_neg (show ¬(a.boxes P g r).pre = true from hp), if_neg (show ¬(a.boxes P g r).pre = true from hp)]

theorem own_postslow {g : Grids} {col : Nat → Int} {r : Nat} (s : Int × Int)
    (h : postflag P a g = true → collectiveBp (col r) = collectiveBp (col 0)) :
    (a.own st P col r).postslow (α := α) (a.boxes P g r) s =
      (a.here { st with collective := col 0 } P r).postslow (a.boxes P g r) s := by
  unfold Here3.postslow
  by_cases hp : postflag P a g = true
  · rw [if_pos (show (a.boxes P g r).post = true from hp), if_pos (show (a.boxes P g r).post = true from hp)]
    have e : (a.own st P col r).bp = (a.here { st with collective := col 0 } P r).bp := h hp
    rw [e]
    rfl
  · rw [if_neg (show ¬(a.boxes P g r).post = true from hp), if_neg (show ¬(a.boxes P g r).post = true from hp)]

theorem own_preslow {g : Grids} {col : Nat → Int} {r : Nat} (s : Int × Int)
    (h : postflag P a g = true → collectiveBp (col r) = collectiveBp (col 0)) :
    (a.own st P col r).preslow (α := α) (a.boxes P g r) s =
      (a.here { st with collective := col 0 } P r).preslow (a.boxes P g r) s := by
  unfold Here3.preslow Here3.newPreslow
  by_cases hp : postflag P a g = true
  · rw [if_pos (show (a.boxes P g r).post = true from hp), if_pos (show (a.boxes P g r).post = true from hp)]
    have e : (a.own st P col r).bp = (a.here { st with collective := col 0 } P r).bp := h hp
    rw [e]
    rfl
  · rw [if_neg (show ¬(a.boxes P g r).post = true from hp), if_neg (show ¬(a.boxes P g r).post = true from hp)]

/-- If the ranks agree, the different settings do not matter. -/
theorem own_main {g : Grids} {col : Nat → Int} (h : a.Agree st P g col) {r : Nat} (hr : r < P) (d : Bool) :
    (a.own st P col r).main (α := α) (a.boxes P g r) d =
      (a.here { st with collective := col 0 } P r).main (a.boxes P g r) d := by
  have p1 : st.exchange = 0 → collectivePp (col r) = collectivePp (col 0) := fun e => h.1 e r hr
  have p2 : st.exchange ≠ 0 → collectiveBp (col r) = collectiveBp (col 0) := fun e => h.2 (.inl e) r hr
  have p3 : preflag P a = true → collectiveBp (col r) = collectiveBp (col 0) := fun e => h.2 (.inr (.inl e)) r hr
  have p4 : postflag P a g = true → collectiveBp (col r) = collectiveBp (col 0) := fun e => h.2 (.inr (.inr e)) r hr
  unfold Here3.main Here3.forward Here3.back Here3.inverse
  simp only [own_prefast _ p3, own_fastmid _ p1 p2, own_midslow _ p1 p2, own_postslow _ p4, own_preslow _ p4,
    own_slowmid _ p1 p2, own_midfast _ p1 p2, own_postfast _ p3]
  rfl

theorem Clash.newRemap3 {inst : Nat} {ib ob : Nat → Box3} {permute : Int} {col : Nat → Int} (c : Nat → Bool) {i j : Nat}
    (hi : i < P) (hj : j < P) (ci : c i = true) (cj : c j = false) :
    Clash P i j (fun r => (a.own st P col r).newRemap (α := α) inst (c r) (ib r) (ob r) permute) :=
  (Clash.remap dim3 P ib ob 2 permute st.packflag c hi hj ci cj).bind fun _ => Quiet.pure _

theorem bind_some {f : Nat → Option ρ} {g : Nat → ρ → Option σ} {y : Nat → σ} (hP : 0 < P)
    (h : ∀ r < P, (f r >>= g r) = some (y r)) :
    ∃ x : Nat → ρ, (∀ r < P, f r = some (x r)) ∧ ∀ r < P, g r (x r) = some (y r) := by
  have : ∀ r < P, ∃ x, f r = some x ∧ g r x = some (y r) := fun r hr => Option.bind_eq_some_iff.mp (h r hr)
  obtain ⟨x0, -⟩ := this 0 hP
  have hN : Nonempty ρ := ⟨x0⟩
  choose! x hx using this
  exact ⟨x, fun r hr => (hx r hr).1, fun r hr => (hx r hr).2⟩

/-- If the ranks do not agree, the remaps are never made. -/
theorem Clash.forward3 {g : Grids} {col : Nat → Int} (hP : 0 < P) (h : ¬a.Agree st P g col)
    {y : Nat → Forward α × (Int × Int)}
    (hy : ∀ r < P, forwardCreate (a.create { st with collective := col 0 } P g r) (0, 0) = some (y r)) :
    ∃ i < P, ∃ j < P, Clash P i j (fun r => (a.own st P col r).forward (α := α) (a.boxes P g r) (0, 0)) := by
  simp only [forwardCreate_parts] at hy
  obtain ⟨y1, e1, hy⟩ := bind_some hP hy
  obtain ⟨y2, e2, hy⟩ := bind_some hP hy
  obtain ⟨y3, e3, hy⟩ := bind_some hP hy
  unfold Here3.forward
  by_cases h1 : preflag P a = true ∧ ¬∀ r < P, collectiveBp (col r) = collectiveBp (col 0)
  · obtain ⟨i, hi, j, hj, ci, cj⟩ := exists_mixed hP h1.2
    refine ⟨i, hi, j, hj, Clash.bind ?_ fun _ => (Quiet.fastmid3 _ _ _).bind fun _ => (Quiet.midslow3 _ _ _).bind fun _ =>
      (Quiet.postslow3 _ _ _).bind fun _ => Quiet.pure _⟩
    unfold Here3.prefast
    refine Clash.congr ?_ fun r hr => if_pos (show (a.boxes P g r).pre = true from h1.1)
    exact (Clash.newRemap3 (fun r => collectiveBp (col r)) hi hj ci cj).bind fun _ => Quiet.pure _
  have p3 : preflag P a = true → ∀ r < P, collectiveBp (col r) = collectiveBp (col 0) := fun e => by
    by_contra hn; exact h1 ⟨e, hn⟩
  have L1 : Lock P (fun r => (a.own st P col r).prefast (α := α) (a.boxes P g r) (0, 0)) y1 :=
    (Does.prefast a { st with collective := col 0 } P g _ y1 e1).congr (fun r hr => own_prefast _ fun e => p3 e r hr)
      fun _ _ => rfl
  by_cases h2 : st.exchange = 0 ∧ ¬∀ r < P, collectivePp (col r) = collectivePp (col 0)
  · obtain ⟨i, hi, j, hj, ci, cj⟩ := exists_mixed hP h2.2
    refine ⟨i, hi, j, hj, Lock.clash L1 (Clash.bind ?_ fun _ => (Quiet.midslow3 _ _ _).bind fun _ =>
      (Quiet.postslow3 _ _ _).bind fun _ => Quiet.pure _)⟩
    unfold Here3.fastmid
    refine Clash.congr ?_ fun r hr => if_pos (show (a.own st P col r).st.exchange = 0 from h2.1)
    exact (Clash.newRemap3 (fun r => collectivePp (col r)) hi hj ci cj).bind fun _ => Quiet.pure _
  have p1 : st.exchange = 0 → ∀ r < P, collectivePp (col r) = collectivePp (col 0) := fun e => by
    by_contra hn; exact h2 ⟨e, hn⟩
  by_cases h3 : st.exchange ≠ 0 ∧ ¬∀ r < P, collectiveBp (col r) = collectiveBp (col 0)
  · obtain ⟨i, hi, j, hj, ci, cj⟩ := exists_mixed hP h3.2
    refine ⟨i, hi, j, hj, Lock.clash L1 (Clash.bind ?_ fun _ => (Quiet.midslow3 _ _ _).bind fun _ =>
      (Quiet.postslow3 _ _ _).bind fun _ => Quiet.pure _)⟩
    unfold Here3.fastmid
    refine Clash.congr ?_ fun r hr => if_neg (show ¬(a.own st P col r).st.exchange = 0 from h3.1)
    exact (Clash.newRemap3 (fun r => collectiveBp (col r)) hi hj ci cj).bind fun _ =>
      (Quiet.newRemap3 _ _ _ _ _ _).bind fun _ => Quiet.pure _
  have p2 : st.exchange ≠ 0 → ∀ r < P, collectiveBp (col r) = collectiveBp (col 0) := fun e => by
    by_contra hn; exact h3 ⟨e, hn⟩
  have L2 : Lock P (fun r => (a.own st P col r).fastmid (α := α) (a.boxes P g r) (y1 r).2) y2 :=
    (Does.fastmid a { st with collective := col 0 } P g _ y2 e2).congr
      (fun r hr => own_fastmid _ (fun e => p1 e r hr) fun e => p2 e r hr) fun _ _ => rfl
  have L3 : Lock P (fun r => (a.own st P col r).midslow (α := α) (a.boxes P g r) (y2 r).2) y3 :=
    (Does.midslow a { st with collective := col 0 } P g _ y3 e3).congr
      (fun r hr => own_midslow _ (fun e => p1 e r hr) fun e => p2 e r hr) fun _ _ => rfl
  have h4 : postflag P a g = true ∧ ¬∀ r < P, collectiveBp (col r) = collectiveBp (col 0) := by
    by_contra h4
    refine h ⟨p1, fun hh => ?_⟩
    rcases hh with hh | hh | hh
    · exact p2 hh
    · exact p3 hh
    · by_contra hn; exact h4 ⟨hh, hn⟩
  obtain ⟨i, hi, j, hj, ci, cj⟩ := exists_mixed hP h4.2
  obtain ⟨y4, e4, -⟩ := bind_some hP hy
  have hnp : ∃ np, newpermute a.permute = some np := by
    have e := e4 0 hP
    unfold Create.postslow at e
    split at e
    · obtain ⟨np, e, -⟩ := Option.bind_eq_some_iff.mp e
      exact ⟨np, e⟩
    · rename_i hn; exact absurd h4.1 hn
  obtain ⟨np, hnp⟩ := hnp
  refine ⟨i, hi, j, hj, Lock.clash L1 (Lock.clash L2 (Lock.clash L3 (Clash.bind ?_ fun _ => Quiet.pure _)))⟩
  unfold Here3.postslow
  refine Clash.congr ?_ fun r hr => if_pos (show (a.boxes P g r).post = true from h4.1)
  refine Clash.congr (p := fun r => (a.own st P col r).newRemap 5 (collectiveBp (col r)) (kij (a.boxes P g r).slow)
    (kij (a.own st P col r).outb) np >>= fun x => Pure.pure (some { remap3d := x, extra := none }, bump (y3 r).2 x)) ?_
    fun r hr => ?_
  · exact (Clash.newRemap3 (fun r => collectiveBp (col r)) hi hj ci cj).bind fun _ => Quiet.pure _
  · rw [show newpermute (a.own st P col r).permute = some np from hnp]
    rfl

/-- **Different settings of `collective`.** -/
theorem setup3_own {g : Grids} {col : Nat → Int} (hP : 0 < P) (hc : setupCheck P a = none)
    (hg : setupGrids P a st.exchange = some g) {x : Nat → Except SetupErr (Fft3 α)}
    (hx : ∀ r < P, fft3Setup P r a { st with collective := col 0 } = some (x r)) :
    (a.Agree st P g col → Lock P (fun r => (a.own st P col r).setup) x) ∧
    (¬a.Agree st P g col → Stuck P (fun r => (a.own st P col r).setup (α := α))) := by
  have hm : ∀ r < P, (setupMain (a.create { st with collective := col 0 } P g r) >>= fun f => some (Except.ok f)) =
      some (x r) := by
    intro r hr
    have h := hx r hr
    unfold fft3Setup at h
    rw [hc] at h
    dsimp only at h
    rw [hg] at h
    exact h
  constructor
  · intro hA
    have L := Does.bind (q := fun _ f => Pure.pure (Except.ok f)) (Does.main (α := α) a { st with collective := col 0 } P g)
      (fun y _ => Does.pure _) x hm
    refine Lock.ofComes (Comes.setup3 a st P hP hc hg col) ?_
    exact L.congr (fun r hr => by rw [own_main hA hr]) fun _ _ => rfl
  · intro hA
    obtain ⟨y, e, -⟩ := bind_some hP hm
    have : ∀ r < P, ∃ z, forwardCreate (α := α) (a.create { st with collective := col 0 } P g r) (0, 0) = some z := by
      intro r hr
      have e := e r hr
      unfold setupMain at e
      obtain ⟨z, e, -⟩ := Option.bind_eq_some_iff.mp e
      exact ⟨z, e⟩
    have hN : Nonempty (Forward α × (Int × Int)) := ⟨(this 0 hP).choose⟩
    choose! z hz using this
    obtain ⟨i, hi, j, hj, C⟩ := Clash.forward3 hP hA hz
    refine Clash.stuck hi hj (Clash.after (Comes.setup3 a st P hP hc hg col) (Clash.bind ?_ fun _ => Quiet.pure _))
    unfold Here3.main
    exact C.bind fun _ => (Quiet.back3 _ _ _ _).bind fun _ => (Quiet.lift _).bind fun _ => Quiet.pure _


end three

/-! ## FFT2d -/

section two

variable (h : Here2)

theorem Quiet.newRemap2 (inst : Nat) (c : Bool) (inb outb : Box2) (permute : Int) :
    Quiet (h.newRemap (α := α) inst c inb outb permute) := (Quiet.remap _ _ _ _ _ _ _ _ _).bind fun _ => Quiet.pure _

theorem Quiet.prefast2 (b : Boxes2) (s : Int × Int) : Quiet (h.prefast (α := α) b s) :=
  ((Quiet.newRemap2 _ _ _ _ _ _).bind fun _ => Quiet.pure _).ite (Quiet.pure _)

theorem Quiet.fastslow2 (b : Boxes2) (s : Int × Int) : Quiet (h.fastslow (α := α) b s) :=
  ((Quiet.newRemap2 _ _ _ _ _ _).bind fun _ => Quiet.pure _).ite
    ((Quiet.newRemap2 _ _ _ _ _ _).bind fun _ => (Quiet.newRemap2 _ _ _ _ _ _).bind fun _ => Quiet.pure _)

theorem Quiet.postslow2 (b : Boxes2) (s : Int × Int) : Quiet (h.postslow (α := α) b s) :=
  ((Quiet.lift _).bind fun _ => (Quiet.newRemap2 _ _ _ _ _ _).bind fun _ => Quiet.pure _).ite (Quiet.pure _)

theorem Quiet.newPreslow2 (b : Boxes2) : Quiet (h.newPreslow (α := α) b) :=
  (Quiet.newRemap2 _ _ _ _ _ _).ite ((Quiet.newRemap2 _ _ _ _ _ _).ite Quiet.ub)

theorem Quiet.preslow2 (b : Boxes2) (s : Int × Int) : Quiet (h.preslow (α := α) b s) :=
  ((Quiet.newPreslow2 _ _).bind fun _ => Quiet.pure _).ite (Quiet.pure _)

theorem Quiet.slowfast2 (b : Boxes2) (s : Int × Int) : Quiet (h.slowfast (α := α) b s) :=
  ((Quiet.newRemap2 _ _ _ _ _ _).bind fun _ => Quiet.pure _).ite
    ((Quiet.newRemap2 _ _ _ _ _ _).bind fun _ => (Quiet.newRemap2 _ _ _ _ _ _).bind fun _ => Quiet.pure _)

theorem Quiet.postfast2 (b : Boxes2) (s : Int × Int) : Quiet (h.postfast (α := α) b s) :=
  ((Quiet.newRemap2 _ _ _ _ _ _).bind fun _ => Quiet.pure _).ite (Quiet.pure _)

theorem Quiet.inverse2 (b : Boxes2) (s : Int × Int) : Quiet (h.inverse (α := α) b s) :=
  (Quiet.preslow2 _ _ _).bind fun _ => (Quiet.slowfast2 _ _ _).bind fun _ =>  (Quiet.postfast2 _ _ _).bind fun _ => Quiet.pure _

theorem Quiet.back2 (b : Boxes2) (d : Bool) (s : Int × Int) : Quiet (h.back (α := α) b d s) :=
  (Quiet.pure _).ite ((Quiet.inverse2 _ _ _).bind fun _ => Quiet.pure _)

end two

section two

variable (a : Args2) (w : Int) (st : Settings) (P : Nat)

/-- The arguments of rank `r` with its own setting of `collective`. -/
def Args2.own (col : Nat → Int) (r : Nat) : Here2 := a.here w { st with collective := col r } P r

/-- In all remaps of `setup` the ranks agree about calling `MPI_Comm_create`. -/
def Args2.Agree (col : Nat → Int) : Prop :=
  (st.exchange = 0 → ∀ r < P, collectivePp (col r) = collectivePp (col 0)) ∧
  (st.exchange ≠ 0 ∨ preflag2 P a = true ∨ postflag2 P a = true → ∀ r < P, collectiveBp (col r) = collectiveBp (col 0))

/-- `setup` up to the remaps does not depend on `collective`. -/
theorem Comes.setup2 {g : Nat × Nat} (hP : 0 < P) (hc : setupCheck2 P a = none) (hg : setupBrick2 P a st.exchange = some g)
    (col : Nat → Int) : Comes P (fun r => (a.own w st P col r).setup (α := α))
      (fun r => (a.own w st P col r).main (a.boxes P g r) (!inoutSame2 P a) >>= fun f => Pure.pure (.ok f)) := by
  unfold setupCheck2 at hc
  by_cases h1 : a.nfast < 2 ∨ a.nslow < 2
  · rw [if_pos h1] at hc; exact absurd hc (by simp)
  by_cases h2 : (!primeFactorable a.nfast || !primeFactorable a.nslow) = true
  · rw [if_neg h1, if_pos h2] at hc; exact absurd hc (by simp)
  refine Comes.start ?_ fun r _ => (if_neg h1).trans (if_neg h2)
  refine ((Lock.anyFlag hP fun r => badIndices2 a.nfast a.nslow (a.ins r)).thenC _).trans ?_
  by_cases h3 : allMax P (fun r => badIndices2 a.nfast a.nslow (a.ins r)) = true
  · rw [if_neg h1, if_neg h2, if_pos h3] at hc; exact absurd hc (by simp)
  refine Comes.start ?_ fun r _ => if_neg h3
  refine ((Lock.total fun r => boxSize2 (a.ins r)).thenC _).trans ?_
  by_cases h4 : allSum P (fun r => boxSize2 (a.ins r)) ≠ a.nfast * a.nslow
  · rw [if_neg h1, if_neg h2, if_neg h3, if_pos h4] at hc; exact absurd hc (by simp)
  refine Comes.start ?_ fun r _ => if_neg h4
  refine ((Lock.anyFlag hP fun r => (a.own w st P col r).differs).thenC _).trans ?_
  refine ((Does.lift _ (fun _ => g) fun r _ => hg).thenC _).trans ?_
  refine ((Lock.anyFlag hP fun r => (a.own w st P col r).notFast).thenC _).trans ?_
  refine ((Lock.anyFlag hP fun r => (a.own w st P col r).notSlow).thenC _).trans ?_
  refine ((Lock.anyFlag hP fun r => (a.own w st P col r).notOut ((a.own w st P col r).slowBox
    (allMax P fun r => (a.own w st P col r).notSlow))).thenC _).trans (.refl fun r hr => ?_)
  have e : (!inoutSame2 P a) = allMax P fun r => (a.own w st P col r).differs := by
    unfold inoutSame2
    rw [Bool.not_not]
    rfl
  rw [e]
  rfl

variable {a w st P}

theorem own2_prefast {g : Nat × Nat} {col : Nat → Int} {r : Nat} (s : Int × Int)
    (h : preflag2 P a = true → collectiveBp (col r) = collectiveBp (col 0)) :
    (a.own w st P col r).prefast (α := α) (a.boxes P g r) s =
      (a.here w { st with collective := col 0 } P r).prefast (a.boxes P g r) s := by
  unfold Here2.prefast
  by_cases hp : preflag2 P a = true
  · rw [if_pos (show (a.boxes P g r).pre = true from hp), if_pos (show (a.boxes P g r).pre = true from hp)]
    have e : (a.own w st P col r).bp = (a.here w { st with collective := col 0 } P r).bp := h hp
    rw [e]
    rfl
  · rw [if_neg (show ¬(a.boxes P g r).pre = true from hp), if_neg (show ¬(a.boxes P g r).pre = true from hp)]

theorem own2_fastslow {g : Nat × Nat} {col : Nat → Int} {r : Nat} (s : Int × Int)
    (h : st.exchange = 0 → collectivePp (col r) = collectivePp (col 0))
    (h' : st.exchange ≠ 0 → collectiveBp (col r) = collectiveBp (col 0)) :
    (a.own w st P col r).fastslow (α := α) (a.boxes P g r) s =
      (a.here w { st with collective := col 0 } P r).fastslow (a.boxes P g r) s := by
  unfold Here2.fastslow
  by_cases hp : st.exchange = 0
  · rw [if_pos (show (a.own w st P col r).st.exchange = 0 from hp), if_pos (show (a.here w { st with collective := col 0 } P r).st.exchange = 0 from hp)]
    have e : (a.own w st P col r).pp = (a.here w { st with collective := col 0 } P r).pp := h hp
    rw [e]
    rfl
  · rw [if_neg (show ¬(a.own w st P col r).st.exchange = 0 from hp), if_neg (show ¬(a.here w { st with collective := col 0 } P r).st.exchange = 0 from hp)]
    have e : (a.own w st P col r).bp = (a.here w { st with collective := col 0 } P r).bp := h' hp
    rw [e]
    rfl

theorem own2_slowfast {g : Nat × Nat} {col : Nat → Int} {r : Nat} (s : Int × Int)
    (h : st.exchange = 0 → collectivePp (col r) = collectivePp (col 0))
    (h' : st.exchange ≠ 0 → collectiveBp (col r) = collectiveBp (col 0)) :
    (a.own w st P col r).slowfast (α := α) (a.boxes P g r) s =
      (a.here w { st with collective := col 0 } P r).slowfast (a.boxes P g r) s := by
  unfold Here2.slowfast
  by_cases hp : st.exchange = 0
  · rw [if_pos (show (a.own w st P col r).st.exchange = 0 from hp), if_pos (show (a.here w { st with collective := col 0 } P r).st.exchange = 0 from hp)]
    have e : (a.own w st P col r).pp = (a.here w { st with collective := col 0 } P r).pp := h hp
    rw [e]
    rfl
  · rw [if_neg (show ¬(a.own w st P col r).st.exchange = 0 from hp), if_neg (show ¬(a.here w { st with collective := col 0 } P r).st.exchange = 0 from hp)]
    have e : (a.own w st P col r).bp = (a.here w { st with collective := col 0 } P r).bp := h' hp
    rw [e]
    rfl

theorem own2_postfast {g : Nat × Nat} {col : Nat → Int} {r : Nat} (s : Int × Int)
    (h : preflag2 P a = true → collectiveBp (col r) = collectiveBp (col 0)) :
    (a.own w st P col r).postfast (α := α) (a.boxes P g r) s =
      (a.here w { st with collective := col 0 } P r).postfast (a.boxes P g r) s := by
  unfold Here2.postfast
  by_cases hp : preflag2 P a = true
  · rw [if_pos (show (a.boxes P g r).pre = true from hp), if_pos (show (a.boxes P g r).pre = true from hp)]
    have e : (a.own w st P col r).bp = (a.here w { st with collective := col 0 } P r).bp := h hp
    rw [e]
    rfl
  · rw [if_neg (show ¬(a.boxes P g r).pre = true from hp), if_neg (show ¬(a.boxes P g r).pre = true from hp)]

theorem own2_postslow {g : Nat × Nat} {col : Nat → Int} {r : Nat} (s : Int × Int)
    (h : postflag2 P a = true → collectiveBp (col r) = collectiveBp (col 0)) :
    (a.own w st P col r).postslow (α := α) (a.boxes P g r) s =
      (a.here w { st with collective := col 0 } P r).postslow (a.boxes P g r) s := by
  unfold Here2.postslow
  by_cases hp : postflag2 P a = true
  · rw [if_pos (show (a.boxes P g r).post = true from hp), if_pos (show (a.boxes P g r).post = true from hp)]
    have e : (a.own w st P col r).bp = (a.here w { st with collective := col 0 } P r).bp := h hp
    rw [e]
    rfl
  · rw [if_neg (show ¬(a.boxes P g r).post = true from hp), if_neg (show ¬(a.boxes P g r).post = true from hp)]

theorem own2_preslow {g : Nat × Nat} {col : Nat → Int} {r : Nat} (s : Int × Int)
    (h : postflag2 P a = true → collectiveBp (col r) = collectiveBp (col 0)) :
    (a.own w st P col r).preslow (α := α) (a.boxes P g r) s =
      (a.here w { st with collective := col 0 } P r).preslow (a.boxes P g r) s := by
  unfold Here2.preslow Here2.newPreslow
  by_cases hp : postflag2 P a = true
  · rw [if_pos (show (a.boxes P g r).post = true from hp), if_pos (show (a.boxes P g r).post = true from hp)]
    have e : (a.own w st P col r).bp = (a.here w { st with collective := col 0 } P r).bp := h hp
    rw [e]
    rfl
  · rw [if_neg (show ¬(a.boxes P g r).post = true from hp), if_neg (show ¬(a.boxes P g r).post = true from hp)]

/-- If the ranks agree, the different settings do not matter. -/
theorem own2_main {g : Nat × Nat} {col : Nat → Int} (h : a.Agree st P col) {r : Nat} (hr : r < P) (d : Bool) :
    (a.own w st P col r).main (α := α) (a.boxes P g r) d =
      (a.here w { st with collective := col 0 } P r).main (a.boxes P g r) d := by
  have p1 : st.exchange = 0 → collectivePp (col r) = collectivePp (col 0) := fun e => h.1 e r hr
  have p2 : st.exchange ≠ 0 → collectiveBp (col r) = collectiveBp (col 0) := fun e => h.2 (.inl e) r hr
  have p3 : preflag2 P a = true → collectiveBp (col r) = collectiveBp (col 0) := fun e => h.2 (.inr (.inl e)) r hr
  have p4 : postflag2 P a = true → collectiveBp (col r) = collectiveBp (col 0) := fun e => h.2 (.inr (.inr e)) r hr
  unfold Here2.main Here2.forward Here2.back Here2.inverse
  simp only [own2_prefast _ p3, own2_fastslow _ p1 p2, own2_postslow _ p4, own2_preslow _ p4,
    own2_slowfast _ p1 p2, own2_postfast _ p3]
  rfl

theorem Clash.newRemap2 {inst : Nat} {ib ob : Nat → Box2} {permute : Int} {col : Nat → Int} (c : Nat → Bool) {i j : Nat}
    (hi : i < P) (hj : j < P) (ci : c i = true) (cj : c j = false) :
    Clash P i j (fun r => (a.own w st P col r).newRemap (α := α) inst (c r) (ib r) (ob r) permute) :=
  (Clash.remap (dim2 w) P ib ob 2 permute st.packflag c hi hj ci cj).bind fun _ => Quiet.pure _

/-- If the ranks do not agree, the remaps are never made. -/
theorem Clash.forward2 {g : Nat × Nat} {col : Nat → Int} (hP : 0 < P) (h : ¬a.Agree st P col)
    {y : Nat → Forward2 α × (Int × Int)}
    (hy : ∀ r < P, forwardCreate2 (a.create w { st with collective := col 0 } P g r) (0, 0) = some (y r)) :
    ∃ i < P, ∃ j < P, Clash P i j (fun r => (a.own w st P col r).forward (α := α) (a.boxes P g r) (0, 0)) := by
  simp only [forwardCreate2_parts] at hy
  obtain ⟨y1, e1, hy⟩ := bind_some hP hy
  obtain ⟨y2, e2, hy⟩ := bind_some hP hy
  unfold Here2.forward
  by_cases h1 : preflag2 P a = true ∧ ¬∀ r < P, collectiveBp (col r) = collectiveBp (col 0)
  · obtain ⟨i, hi, j, hj, ci, cj⟩ := exists_mixed hP h1.2
    refine ⟨i, hi, j, hj, Clash.bind ?_ fun _ => (Quiet.fastslow2 _ _ _).bind fun _ =>
      (Quiet.postslow2 _ _ _).bind fun _ => Quiet.pure _⟩
    unfold Here2.prefast
    refine Clash.congr ?_ fun r hr => if_pos (show (a.boxes P g r).pre = true from h1.1)
    exact (Clash.newRemap2 (fun r => collectiveBp (col r)) hi hj ci cj).bind fun _ => Quiet.pure _
  have p3 : preflag2 P a = true → ∀ r < P, collectiveBp (col r) = collectiveBp (col 0) := fun e => by
    by_contra hn; exact h1 ⟨e, hn⟩
  have L1 : Lock P (fun r => (a.own w st P col r).prefast (α := α) (a.boxes P g r) (0, 0)) y1 :=
    (Does.prefast2 a w { st with collective := col 0 } P g _ y1 e1).congr (fun r hr => own2_prefast _ fun e => p3 e r hr)
      fun _ _ => rfl
  by_cases h2 : st.exchange = 0 ∧ ¬∀ r < P, collectivePp (col r) = collectivePp (col 0)
  · obtain ⟨i, hi, j, hj, ci, cj⟩ := exists_mixed hP h2.2
    refine ⟨i, hi, j, hj, Lock.clash L1 (Clash.bind ?_ fun _ =>
      (Quiet.postslow2 _ _ _).bind fun _ => Quiet.pure _)⟩
    unfold Here2.fastslow
    refine Clash.congr ?_ fun r hr => if_pos (show (a.own w st P col r).st.exchange = 0 from h2.1)
    exact (Clash.newRemap2 (fun r => collectivePp (col r)) hi hj ci cj).bind fun _ => Quiet.pure _
  have p1 : st.exchange = 0 → ∀ r < P, collectivePp (col r) = collectivePp (col 0) := fun e => by
    by_contra hn; exact h2 ⟨e, hn⟩
  by_cases h3 : st.exchange ≠ 0 ∧ ¬∀ r < P, collectiveBp (col r) = collectiveBp (col 0)
  · obtain ⟨i, hi, j, hj, ci, cj⟩ := exists_mixed hP h3.2
    refine ⟨i, hi, j, hj, Lock.clash L1 (Clash.bind ?_ fun _ =>
      (Quiet.postslow2 _ _ _).bind fun _ => Quiet.pure _)⟩
    unfold Here2.fastslow
    refine Clash.congr ?_ fun r hr => if_neg (show ¬(a.own w st P col r).st.exchange = 0 from h3.1)
    exact (Clash.newRemap2 (fun r => collectiveBp (col r)) hi hj ci cj).bind fun _ =>
      (Quiet.newRemap2 _ _ _ _ _ _).bind fun _ => Quiet.pure _
  have p2 : st.exchange ≠ 0 → ∀ r < P, collectiveBp (col r) = collectiveBp (col 0) := fun e => by
    by_contra hn; exact h3 ⟨e, hn⟩
  have L2 : Lock P (fun r => (a.own w st P col r).fastslow (α := α) (a.boxes P g r) (y1 r).2) y2 :=
    (Does.fastslow2 a w { st with collective := col 0 } P g _ y2 e2).congr
      (fun r hr => own2_fastslow _ (fun e => p1 e r hr) fun e => p2 e r hr) fun _ _ => rfl
  have h4 : postflag2 P a = true ∧ ¬∀ r < P, collectiveBp (col r) = collectiveBp (col 0) := by
    by_contra h4
    refine h ⟨p1, fun hh => ?_⟩
    rcases hh with hh | hh | hh
    · exact p2 hh
    · exact p3 hh
    · by_contra hn; exact h4 ⟨hh, hn⟩
  obtain ⟨i, hi, j, hj, ci, cj⟩ := exists_mixed hP h4.2
  obtain ⟨y4, e4, -⟩ := bind_some hP hy
  have hnp : ∃ np, newpermute2 a.permute = some np := by
    have e := e4 0 hP
    unfold Create2.postslow at e
    split at e
    · obtain ⟨np, e, -⟩ := Option.bind_eq_some_iff.mp e
      exact ⟨np, e⟩
    · rename_i hn; exact absurd h4.1 hn
  obtain ⟨np, hnp⟩ := hnp
  refine ⟨i, hi, j, hj, Lock.clash L1 (Lock.clash L2 (Clash.bind ?_ fun _ => Quiet.pure _))⟩
  unfold Here2.postslow
  refine Clash.congr ?_ fun r hr => if_pos (show (a.boxes P g r).post = true from h4.1)
  refine Clash.congr (p := fun r => (a.own w st P col r).newRemap 3 (collectiveBp (col r)) (ji (a.boxes P g r).slow)
    (ji (a.own w st P col r).outb) np >>= fun x => Pure.pure (some { remap2d := x, extra := none }, bump2 (y2 r).2 x)) ?_
    fun r hr => ?_
  · exact (Clash.newRemap2 (fun r => collectiveBp (col r)) hi hj ci cj).bind fun _ => Quiet.pure _
  · rw [show newpermute2 (a.own w st P col r).permute = some np from hnp]
    rfl

/-- **Different settings of `collective`.** -/
theorem setup2_own {g : Nat × Nat} {col : Nat → Int} (hP : 0 < P) (hc : setupCheck2 P a = none)
    (hg : setupBrick2 P a st.exchange = some g) {x : Nat → Except SetupErr (Fft2 α)}
    (hx : ∀ r < P, fft2Setup w P r a { st with collective := col 0 } = some (x r)) :
    (a.Agree st P col → Lock P (fun r => (a.own w st P col r).setup) x) ∧
    (¬a.Agree st P col → Stuck P (fun r => (a.own w st P col r).setup (α := α))) := by
  have hm : ∀ r < P, (setupMain2 (a.create w { st with collective := col 0 } P g r) >>= fun f => some (Except.ok f)) =
      some (x r) := by
    intro r hr
    have h := hx r hr
    unfold fft2Setup at h
    rw [hc] at h
    dsimp only at h
    rw [hg] at h
    exact h
  constructor
  · intro hA
    have L := Does.bind (q := fun _ f => Pure.pure (Except.ok f)) (Does.main2 (α := α) a w { st with collective := col 0 } P g)
      (fun y _ => Does.pure _) x hm
    refine Lock.ofComes (Comes.setup2 a w st P hP hc hg col) ?_
    exact L.congr (fun r hr => by rw [own2_main hA hr]) fun _ _ => rfl
  · intro hA
    obtain ⟨y, e, -⟩ := bind_some hP hm
    have : ∀ r < P, ∃ z, forwardCreate2 (α := α) (a.create w { st with collective := col 0 } P g r) (0, 0) = some z := by
      intro r hr
      have e := e r hr
      unfold setupMain2 at e
      obtain ⟨z, e, -⟩ := Option.bind_eq_some_iff.mp e
      exact ⟨z, e⟩
    have hN : Nonempty (Forward2 α × (Int × Int)) := ⟨(this 0 hP).choose⟩
    choose! z hz using this
    obtain ⟨i, hi, j, hj, C⟩ := Clash.forward2 hP hA hz
    refine Clash.stuck hi hj (Clash.after (Comes.setup2 a w st P hP hc hg col) (Clash.bind ?_ fun _ => Quiet.pure _))
    unfold Here2.main
    exact C.bind fun _ => (Quiet.back2 _ _ _ _).bind fun _ => (Quiet.lift _).bind fun _ => Quiet.pure _


end two

end FftMpi
