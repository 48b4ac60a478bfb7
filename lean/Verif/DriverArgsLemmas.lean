import Verif.DriverArgs

/-!
# Lemmas about the command line
-/

namespace FftMpi

namespace Driver

variable {three : Bool} {neg : String → Bool} {me : Nat} {args : List String}

/-! ## Two ranks -/

/-- The variables on rank `me`, compared with those on rank 0. -/
def RelCmd (me : Nat) (o0 o : Cmd) : Prop := ∃ s, o = { o0 with seed := s } ∧ (o0.iflag = 3 → s = o0.seed + me)

def RelOut {γ : Type} (R : γ → γ → Prop) : Out γ → Out γ → Prop
  | .error e, .error e' => e' = e
  | .ok x, .ok y => R x y
  | _, _ => False

/-- Related, if both are defined. -/
def RelRes {γ : Type} (R : γ → γ → Prop) (a b : Option (Out γ)) : Prop :=
  ∀ x y, a = some x → b = some y → RelOut R x y

def RelStep (me : Nat) (a b : Nat × Cmd) : Prop := b.1 = a.1 ∧ RelCmd me a.2 b.2

theorem RelRes.err {γ : Type} (R : γ → γ → Prop) (e : String) : RelRes R (some (.error e)) (some (.error e)) := by
  intro x y hx hy
  cases hx
  cases hy
  rfl

theorem RelRes.okay {γ : Type} {R : γ → γ → Prop} {a b : γ} (h : R a b) : RelRes R (some (.ok a)) (some (.ok b)) := by
  intro x y hx hy
  cases hx
  cases hy
  exact h

theorem RelRes.bind {γ δ : Type} {R : γ → γ → Prop} (x : Option δ) {f g : δ → Option (Out γ)}
    (h : ∀ d, x = some d → RelRes R (f d) (g d)) : RelRes R (x.bind f) (x.bind g) := by
  cases x with
  | none => intro y z hy; exact (nomatch hy)
  | some d => exact h d rfl

theorem RelRes.map {γ δ : Type} {R : γ → γ → Prop} (x : Option δ) {f g : δ → Out γ}
    (h : ∀ d, x = some d → RelOut R (f d) (g d)) : RelRes R (x.map f) (x.map g) := by
  cases x with
  | none => intro y z hy; exact (nomatch hy)
  | some d =>
    intro y z hy hz
    cases hy
    cases hz
    exact h d rfl

theorem RelRes.ite {γ : Type} {R : γ → γ → Prop} {c : Prop} [Decidable c] {a b a' b' : Option (Out γ)}
    (h : c → RelRes R a b) (h' : ¬ c → RelRes R a' b') : RelRes R (if c then a else a') (if c then b else b') := by
  by_cases hc : c
  · rw [if_pos hc, if_pos hc]; exact h hc
  · rw [if_neg hc, if_neg hc]; exact h' hc

/-- A property of the result of a choice. -/
theorem ite_ind {γ : Type} (Q : γ → Prop) {c : Prop} [Decidable c] {a b : γ} (h : c → Q a) (h' : ¬ c → Q b) :
    Q (if c then a else b) := by
  by_cases hc : c
  · rw [if_pos hc]; exact h hc
  · rw [if_neg hc]; exact h' hc

theorem grid_rel (iarg : Nat) {f g : Int → Int → Int → Cmd} (h : ∀ x y z, RelCmd me (f x y z) (g x y z)) :
    RelRes (RelStep me) (grid three args iarg f) (grid three args iarg g) := by
  unfold grid
  split_ifs
  · exact .err _ _
  · exact .bind _ fun x _ => .bind _ fun y _ => .map _ fun z _ => ⟨rfl, h x y z⟩
  · exact .err _ _
  · exact .bind _ fun x _ => .map _ fun y _ => ⟨rfl, h x y 0⟩

theorem one_rel (iarg : Nat) {f g : Int → Cmd} (h : ∀ x, RelCmd me (f x) (g x)) :
    RelRes (RelStep me) (one args iarg f) (one args iarg g) := by
  unfold one
  split_ifs
  · exact .err _ _
  · exact .map _ fun x _ => ⟨rfl, h x⟩

/-- Two tables with the same words. -/
inductive RelWords (me : Nat) : List (String × Cmd) → List (String × Cmd) → Prop where
  | nil : RelWords me [] []
  | cons (s : String) {a b : Cmd} {l l'} : RelCmd me a b → RelWords me l l' → RelWords me ((s, a) :: l) ((s, b) :: l')

theorem RelWords.lookup {l l' : List (String × Cmd)} (h : RelWords me l l') (s : String) :
    (l.lookup s = none ∧ l'.lookup s = none) ∨ ∃ a b, l.lookup s = some a ∧ l'.lookup s = some b ∧ RelCmd me a b := by
  induction h with
  | nil => exact Or.inl ⟨rfl, rfl⟩
  | cons t h _ ih =>
    by_cases hs : s == t
    · right
      exact ⟨_, _, by simp [List.lookup, hs], by simp [List.lookup, hs], h⟩
    · simpa [List.lookup, hs] using ih

theorem choice_rel (iarg : Nat) {l l' : List (String × Cmd)} (h : RelWords me l l') :
    RelRes (RelStep me) (choice args iarg l) (choice args iarg l') := by
  unfold choice
  split_ifs
  · exact .err _ _
  · refine .map _ fun s _ => ?_
    rcases h.lookup s with ⟨h1, h2⟩ | ⟨a, b, h1, h2, h3⟩
    · rw [h1, h2]; rfl
    · rw [h1, h2]; exact ⟨rfl, h3⟩

theorem add32_some {a b c : Int} (h : add32 a b = some c) : c = a + b ∧ Fits c := by
  unfold add32 ck at h
  split_ifs at h with hf
  cases h
  exact ⟨rfl, hf⟩

theorem initArg_rel (iarg : Nat) {o0 o : Cmd} (h : RelCmd me o0 o) :
    RelRes (RelStep me) (initArg 0 args iarg o0) (initArg me args iarg o) := by
  obtain ⟨s, rfl, hs⟩ := h
  unfold initArg
  split_ifs
  · exact .err _ _
  · refine .bind _ fun w _ => ?_
    split_ifs
    · exact .okay ⟨rfl, s, rfl, fun h => absurd h (show ¬ (0 : Int) = 3 by decide)⟩
    · exact .okay ⟨rfl, s, rfl, fun h => absurd h (show ¬ (1 : Int) = 3 by decide)⟩
    · exact .okay ⟨rfl, s, rfl, fun h => absurd h (show ¬ (2 : Int) = 3 by decide)⟩
    · refine .bind _ fun v _ => ?_
      intro x y hx hy
      simp only [Option.map_eq_some_iff] at hx hy
      obtain ⟨v1, h1, rfl⟩ := hx
      obtain ⟨v2, h2, rfl⟩ := hy
      have e1 := (add32_some h1).1
      have e2 := (add32_some h2).1
      refine ⟨rfl, v2, rfl, fun _ => ?_⟩
      show v2 = v1 + me
      rw [e1, e2]
      simp

theorem tuneArg_rel (iarg : Nat) {o0 o : Cmd} (h : RelCmd me o0 o) :
    RelRes (RelStep me) (tuneArg neg args iarg o0) (tuneArg neg args iarg o) := by
  obtain ⟨s, rfl, hs⟩ := h
  unfold tuneArg
  split_ifs
  · exact .err _ _
  · exact .bind _ fun x _ => .bind _ fun y _ => .map _ fun z _ => ⟨rfl, s, rfl, hs⟩

theorem argStep_rel (iarg : Nat) {o0 o : Cmd} (h : RelCmd me o0 o) :
    RelRes (RelStep me) (argStep three neg 0 args iarg o0) (argStep three neg me args iarg o) := by
  have h' := h
  obtain ⟨s, rfl, hs⟩ := h
  unfold argStep
  refine .bind _ fun w _ => ?_
  refine .ite (fun _ => .err _ _) fun _ => ?_
  refine .ite (fun _ => grid_rel _ fun x y z => ⟨s, rfl, hs⟩) fun _ => ?_
  refine .ite (fun _ => grid_rel _ fun x y z => ⟨s, rfl, hs⟩) fun _ => ?_
  refine .ite (fun _ => grid_rel _ fun x y z => ⟨s, rfl, hs⟩) fun _ => ?_
  refine .ite (fun _ => one_rel _ fun x => ⟨s, rfl, hs⟩) fun _ => ?_
  refine .ite (fun _ => initArg_rel _ h') fun _ => ?_
  refine .ite (fun _ => tuneArg_rel _ h') fun _ => ?_
  refine .ite (fun _ => one_rel _ fun x => ⟨s, rfl, hs⟩) fun _ => ?_
  refine .ite (fun _ => choice_rel _ (.cons _ ⟨s, rfl, hs⟩ (.cons _ ⟨s, rfl, hs⟩ (.cons _ ⟨s, rfl, hs⟩ .nil)))) fun _ => ?_
  refine .ite (fun _ => choice_rel _ (.cons _ ⟨s, rfl, hs⟩ (.cons _ ⟨s, rfl, hs⟩ .nil))) fun _ => ?_
  refine .ite (fun _ => choice_rel _ (.cons _ ⟨s, rfl, hs⟩ (.cons _ ⟨s, rfl, hs⟩ (.cons _ ⟨s, rfl, hs⟩ .nil)))) fun _ => ?_
  refine .ite (fun _ => .okay ⟨rfl, s, rfl, hs⟩) fun _ => ?_
  refine .ite (fun _ => .okay ⟨rfl, s, rfl, hs⟩) fun _ => ?_
  refine .ite (fun _ => .okay ⟨rfl, s, rfl, hs⟩) fun _ => ?_
  refine .ite (fun _ => .okay ⟨rfl, s, rfl, hs⟩) fun _ => ?_
  exact .err _ _

theorem argLoop_rel (n : Nat) : ∀ (iarg : Nat) {o0 o : Cmd}, RelCmd me o0 o →
    RelRes (RelCmd me) (argLoop three neg 0 args n iarg o0) (argLoop three neg me args n iarg o) := by
  induction n with
  | zero => intro iarg o0 o _ x y hx; exact (nomatch hx)
  | succ n ih =>
    intro iarg o0 o h
    unfold argLoop
    split_ifs
    · have hs := argStep_rel (three := three) (neg := neg) (args := args) iarg h
      rcases h1 : argStep three neg 0 args iarg o0 with _ | ⟨e⟩ | ⟨i0, p0⟩
      · intro x y hx; exact (nomatch hx)
      · rcases h2 : argStep three neg me args iarg o with _ | ⟨e'⟩ | ⟨i, p⟩
        · intro x y _ hy; exact (nomatch hy)
        · have := hs _ _ h1 h2
          cases this
          exact .err _ _
        · exact absurd (hs _ _ h1 h2) (fun h => h)
      · rcases h2 : argStep three neg me args iarg o with _ | ⟨e'⟩ | ⟨i, p⟩
        · intro x y _ hy; exact (nomatch hy)
        · exact absurd (hs _ _ h1 h2) (fun h => h)
        · obtain ⟨h3, h4⟩ := hs _ _ h1 h2
          dsimp only at h3 h4 ⊢
          rw [h3]
          exact ih i0 h4
    · exact .okay h

/-! ## What the variables are -/

/-- A number after `-i`. -/
def SeedArg (args : List String) (v : Int) : Prop :=
  ∃ i s, argv args i = some "-i" ∧ argv args (i + 1) = some s ∧ s ≠ "zero" ∧ s ≠ "step" ∧ s ≠ "index" ∧ atoi s = some v

/-- Numbers after `-pin` or `-pout`. -/
def ProcArg (three : Bool) (args : List String) (x y z : Int) : Prop :=
  ∃ i, (argv args i = some "-pin" ∨ argv args i = some "-pout") ∧ num args (i + 1) = some x ∧
    num args (i + 2) = some y ∧ (three = true → num args (i + 3) = some z)

/-- What the loop preserves. -/
structure Good (three : Bool) (me : Nat) (args : List String) (o : Cmd) : Prop where
  nx : Fits o.nx
  ny : Fits o.ny
  nz : Fits o.nz
  pin : (o.inpx = 0 ∧ o.inpy = 0 ∧ (three = true → o.inpz = 0)) ∨ ProcArg three args o.inpx o.inpy o.inpz
  pout : (o.outpx = 0 ∧ o.outpy = 0 ∧ (three = true → o.outpz = 0)) ∨ ProcArg three args o.outpx o.outpy o.outpz
  iflag : o.iflag = 0 ∨ o.iflag = 1 ∨ o.iflag = 2 ∨ (o.iflag = 3 ∧ ∃ v, SeedArg args v ∧ o.seed = v + me ∧ Fits o.seed)
  cflag : o.cflag = 0 ∨ o.cflag = 1 ∨ o.cflag = 2
  eflag : o.eflag = 0 ∨ o.eflag = 1
  pflag : o.pflag = 0 ∨ o.pflag = 1 ∨ o.pflag = 2

theorem good_default : Good three me args Cmd.default where
  nx := by decide
  ny := by decide
  nz := by decide
  pin := Or.inl ⟨rfl, rfl, fun _ => rfl⟩
  pout := Or.inl ⟨rfl, rfl, fun _ => rfl⟩
  iflag := Or.inl rfl
  cflag := Or.inr (Or.inr rfl)
  eflag := Or.inl rfl
  pflag := Or.inr (Or.inr rfl)

theorem ck_some {x y : Int} (h : ck x = some y) : y = x ∧ Fits y := by
  unfold ck at h
  split_ifs at h with hf
  cases h
  exact ⟨rfl, hf⟩

theorem atoi_fits {s : String} {v : Int} (h : atoi s = some v) : Fits v := by
  unfold atoi at h
  split at h <;> exact (ck_some h).2

theorem num_fits {i : Nat} {v : Int} (h : num args i = some v) : Fits v := by
  unfold num at h
  rw [Option.bind_eq_some_iff] at h
  obtain ⟨s, _, h⟩ := h
  exact atoi_fits h

theorem fits_zero : Fits 0 := by decide

theorem grid_ok {iarg i : Nat} {f : Int → Int → Int → Cmd} {o : Cmd} (h : grid three args iarg f = some (.ok (i, o))) :
    iarg < i ∧ ∃ x y z, num args (iarg + 1) = some x ∧ num args (iarg + 2) = some y ∧
      (three = true → num args (iarg + 3) = some z) ∧ Fits z ∧ o = f x y z := by
  unfold grid at h
  split_ifs at h with h3 h4 h4
  · cases h
  · simp only [Option.bind_eq_some_iff, Option.map_eq_some_iff] at h
    obtain ⟨x, hx, y, hy, z, hz, h⟩ := h
    cases h
    exact ⟨by omega, x, y, z, hx, hy, fun _ => hz, num_fits hz, rfl⟩
  · cases h
  · simp only [Option.bind_eq_some_iff, Option.map_eq_some_iff] at h
    obtain ⟨x, hx, y, hy, h⟩ := h
    cases h
    exact ⟨by omega, x, y, 0, hx, hy, fun h => absurd h h3, fits_zero, rfl⟩

theorem one_ok {iarg i : Nat} {f : Int → Cmd} {o : Cmd} (h : one args iarg f = some (.ok (i, o))) :
    iarg < i ∧ ∃ x, num args (iarg + 1) = some x ∧ o = f x := by
  unfold one at h
  split_ifs at h with h4
  · cases h
  simp only [Option.map_eq_some_iff] at h
  obtain ⟨x, hx, h⟩ := h
  cases h
  exact ⟨by omega, x, hx, rfl⟩

theorem choice_ok {iarg i : Nat} {l : List (String × Cmd)} {o : Cmd} (h : choice args iarg l = some (.ok (i, o))) :
    iarg < i ∧ ∃ s, l.lookup s = some o := by
  unfold choice at h
  split_ifs at h with h4
  · cases h
  simp only [Option.map_eq_some_iff] at h
  obtain ⟨s, _, h⟩ := h
  rcases hl : l.lookup s with _ | p
  · rw [hl] at h; cases h
  · rw [hl] at h
    cases h
    exact ⟨by omega, s, hl⟩

theorem lookup_mem {l : List (String × Cmd)} {s : String} {o : Cmd} (h : l.lookup s = some o) : ∃ t, (t, o) ∈ l := by
  induction l with
  | nil => cases h
  | cons p l ih =>
    obtain ⟨t, a⟩ := p
    by_cases hs : s == t
    · simp [List.lookup, hs] at h
      exact ⟨t, by simp [h]⟩
    · simp [List.lookup, hs] at h
      obtain ⟨t', ht⟩ := ih h
      exact ⟨t', List.mem_cons_of_mem _ ht⟩

theorem initArg_ok {iarg i : Nat} {o o' : Cmd} (h : initArg me args iarg o = some (.ok (i, o'))) :
    iarg < i ∧ ∃ s, argv args (iarg + 1) = some s ∧
      (o' = { o with iflag := 0 } ∨ o' = { o with iflag := 1 } ∨ o' = { o with iflag := 2 } ∨
        ∃ v, s ≠ "zero" ∧ s ≠ "step" ∧ s ≠ "index" ∧ atoi s = some v ∧ Fits (v + me) ∧
          o' = { o with iflag := 3, seed := v + me }) := by
  unfold initArg at h
  split_ifs at h with h4
  · cases h
  rw [Option.bind_eq_some_iff] at h
  obtain ⟨s, hs, h⟩ := h
  split_ifs at h with h1 h2 h3
  · cases h; exact ⟨by omega, s, hs, Or.inl rfl⟩
  · cases h; exact ⟨by omega, s, hs, Or.inr (Or.inl rfl)⟩
  · cases h; exact ⟨by omega, s, hs, Or.inr (Or.inr (Or.inl rfl))⟩
  · simp only [Option.bind_eq_some_iff, Option.map_eq_some_iff] at h
    obtain ⟨v, hv, w, hw, h⟩ := h
    cases h
    obtain ⟨rfl, hf⟩ := add32_some hw
    exact ⟨by omega, s, hs, Or.inr (Or.inr (Or.inr ⟨v, h1, h2, h3, hv, hf, rfl⟩))⟩

theorem tuneArg_ok {iarg i : Nat} {o o' : Cmd} (h : tuneArg neg args iarg o = some (.ok (i, o'))) :
    iarg < i ∧ ∃ x y z, o' = { o with tuneflag := true, tuneper := x, tmneg := y, tuneextra := z } := by
  unfold tuneArg at h
  split_ifs at h with h4
  · cases h
  simp only [Option.bind_eq_some_iff, Option.map_eq_some_iff] at h
  obtain ⟨x, _, y, _, z, _, h⟩ := h
  cases h
  exact ⟨by omega, x, _, z, rfl⟩

theorem argStep_ok {iarg i : Nat} {o o' : Cmd} (g : Good three me args o)
    (h : argStep three neg me args iarg o = some (.ok (i, o'))) : iarg < i ∧ Good three me args o' := by
  unfold argStep at h
  rw [Option.bind_eq_some_iff] at h
  obtain ⟨s, hs, h⟩ := h
  revert h
  let Q : Option (Out (Nat × Cmd)) → Prop := fun x => x = some (.ok (i, o')) → iarg < i ∧ Good three me args o'
  refine ite_ind Q (fun _ h => nomatch h) fun _ => ?_
  refine ite_ind Q (fun h2 h => ?_) fun _ => ?_
  · obtain ⟨hi, x, y, z, hx, hy, hz, hf, rfl⟩ := grid_ok h
    exact ⟨hi, { g with nx := num_fits hx, ny := num_fits hy, nz := hf }⟩
  refine ite_ind Q (fun h3 h => ?_) fun _ => ?_
  · obtain ⟨hi, x, y, z, hx, hy, hz, hf, rfl⟩ := grid_ok h
    exact ⟨hi, { g with pin := Or.inr ⟨iarg, Or.inl (by rw [hs, h3]), hx, hy, hz⟩ }⟩
  refine ite_ind Q (fun h4 h => ?_) fun _ => ?_
  · obtain ⟨hi, x, y, z, hx, hy, hz, hf, rfl⟩ := grid_ok h
    exact ⟨hi, { g with pout := Or.inr ⟨iarg, Or.inr (by rw [hs, h4]), hx, hy, hz⟩ }⟩
  refine ite_ind Q (fun h5 h => ?_) fun _ => ?_
  · obtain ⟨hi, x, hx, rfl⟩ := one_ok h
    exact ⟨hi, { g with }⟩
  refine ite_ind Q (fun h6 h => ?_) fun _ => ?_
  · obtain ⟨hi, t, ht, h⟩ := initArg_ok h
    refine ⟨hi, ?_⟩
    rcases h with rfl | rfl | rfl | ⟨v, k1, k2, k3, k4, k5, rfl⟩
    · exact { g with iflag := Or.inl rfl }
    · exact { g with iflag := Or.inr (Or.inl rfl) }
    · exact { g with iflag := Or.inr (Or.inr (Or.inl rfl)) }
    · exact { g with iflag := Or.inr (Or.inr (Or.inr ⟨rfl, v, ⟨iarg, t, by rw [hs, h6], ht, k1, k2, k3, k4⟩, rfl, k5⟩)) }
  refine ite_ind Q (fun h7 h => ?_) fun _ => ?_
  · obtain ⟨hi, x, y, z, rfl⟩ := tuneArg_ok h
    exact ⟨hi, { g with }⟩
  refine ite_ind Q (fun h8 h => ?_) fun _ => ?_
  · obtain ⟨hi, x, hx, rfl⟩ := one_ok h
    exact ⟨hi, { g with }⟩
  refine ite_ind Q (fun h9 h => ?_) fun _ => ?_
  · obtain ⟨hi, t, ht⟩ := choice_ok h
    refine ⟨hi, ?_⟩
    obtain ⟨t, hm⟩ := lookup_mem ht
    simp only [List.mem_cons, Prod.mk.injEq, List.not_mem_nil, or_false] at hm
    rcases hm with ⟨_, rfl⟩ | ⟨_, rfl⟩ | ⟨_, rfl⟩
    · exact { g with cflag := Or.inl rfl }
    · exact { g with cflag := Or.inr (Or.inl rfl) }
    · exact { g with cflag := Or.inr (Or.inr rfl) }
  refine ite_ind Q (fun h10 h => ?_) fun _ => ?_
  · obtain ⟨hi, t, ht⟩ := choice_ok h
    refine ⟨hi, ?_⟩
    obtain ⟨t, hm⟩ := lookup_mem ht
    simp only [List.mem_cons, Prod.mk.injEq, List.not_mem_nil, or_false] at hm
    rcases hm with ⟨_, rfl⟩ | ⟨_, rfl⟩
    · exact { g with eflag := Or.inl rfl }
    · exact { g with eflag := Or.inr rfl }
  refine ite_ind Q (fun h11 h => ?_) fun _ => ?_
  · obtain ⟨hi, t, ht⟩ := choice_ok h
    refine ⟨hi, ?_⟩
    obtain ⟨t, hm⟩ := lookup_mem ht
    simp only [List.mem_cons, Prod.mk.injEq, List.not_mem_nil, or_false] at hm
    rcases hm with ⟨_, rfl⟩ | ⟨_, rfl⟩ | ⟨_, rfl⟩
    · exact { g with pflag := Or.inl rfl }
    · exact { g with pflag := Or.inr (Or.inl rfl) }
    · exact { g with pflag := Or.inr (Or.inr rfl) }
  refine ite_ind Q (fun h12 h => ?_) fun _ => ?_
  · cases h; exact ⟨by omega, { g with }⟩
  refine ite_ind Q (fun h13 h => ?_) fun _ => ?_
  · cases h; exact ⟨by omega, { g with }⟩
  refine ite_ind Q (fun h14 h => ?_) fun _ => ?_
  · cases h; exact ⟨by omega, { g with }⟩
  refine ite_ind Q (fun h15 h => ?_) fun _ => ?_
  · cases h; exact ⟨by omega, { g with }⟩
  exact fun h => nomatch h

theorem argLoop_ok (n : Nat) : ∀ (iarg : Nat) {o o' : Cmd}, Good three me args o →
    argLoop three neg me args n iarg o = some (.ok o') → Good three me args o' := by
  induction n with
  | zero => intro iarg o o' _ h; cases h
  | succ n ih =>
    intro iarg o o' g h
    unfold argLoop at h
    split_ifs at h
    · rcases h1 : argStep three neg me args iarg o with _ | ⟨e⟩ | ⟨i, p⟩
      · rw [h1] at h; cases h
      · rw [h1] at h; cases h
      · rw [h1] at h
        exact ih i (argStep_ok g h1).2 h
    · cases h
      exact g

/-! ## Defined behaviour -/

theorem argv_some {i : Nat} (h : i < args.length) : ∃ s, argv args i = some s ∧ s ∈ args :=
  ⟨args[i], by simp [argv, h], List.getElem_mem h⟩

theorem num_some (hn : ∀ s ∈ args, ∃ v, atoi s = some v) {i : Nat} (h : i < args.length) : ∃ v, num args i = some v := by
  obtain ⟨s, h1, h2⟩ := argv_some h
  obtain ⟨v, hv⟩ := hn s h2
  exact ⟨v, by simp [num, h1, hv]⟩

theorem grid_some (hn : ∀ s ∈ args, ∃ v, atoi s = some v) (iarg : Nat) (f : Int → Int → Int → Cmd) :
    ∃ x, grid three args iarg f = some x := by
  unfold grid
  split_ifs with h1 h2 h2
  · exact ⟨_, rfl⟩
  · obtain ⟨x, hx⟩ := num_some hn (i := iarg + 1) (by omega)
    obtain ⟨y, hy⟩ := num_some hn (i := iarg + 2) (by omega)
    obtain ⟨z, hz⟩ := num_some hn (i := iarg + 3) (by omega)
    exact ⟨_, by simp [hx, hy, hz]; rfl⟩
  · exact ⟨_, rfl⟩
  · obtain ⟨x, hx⟩ := num_some hn (i := iarg + 1) (by omega)
    obtain ⟨y, hy⟩ := num_some hn (i := iarg + 2) (by omega)
    exact ⟨_, by simp [hx, hy]; rfl⟩

theorem one_some (hn : ∀ s ∈ args, ∃ v, atoi s = some v) (iarg : Nat) (f : Int → Cmd) :
    ∃ x, one args iarg f = some x := by
  unfold one
  split_ifs with h1
  · exact ⟨_, rfl⟩
  · obtain ⟨x, hx⟩ := num_some hn (i := iarg + 1) (by omega)
    exact ⟨_, by simp [hx]; rfl⟩

theorem choice_some (iarg : Nat) (l : List (String × Cmd)) : ∃ x, choice args iarg l = some x := by
  unfold choice
  split_ifs with h1
  · exact ⟨_, rfl⟩
  · obtain ⟨x, hx, _⟩ := argv_some (args := args) (i := iarg + 1) (by omega)
    exact ⟨_, by rw [hx]; rfl⟩

theorem initArg_some (hn : ∀ s ∈ args, ∃ v, atoi s = some v) (hs : ∀ v, SeedArg args v → Fits (v + me)) {iarg : Nat}
    (hi : argv args iarg = some "-i") (o : Cmd) : ∃ x, initArg me args iarg o = some x := by
  unfold initArg
  split_ifs with h1
  · exact ⟨_, rfl⟩
  · obtain ⟨s, hx, hm⟩ := argv_some (args := args) (i := iarg + 1) (by omega)
    rw [hx]
    simp only [Option.bind_some]
    split_ifs with k1 k2 k3
    · exact ⟨_, rfl⟩
    · exact ⟨_, rfl⟩
    · exact ⟨_, rfl⟩
    · obtain ⟨v, hv⟩ := hn s hm
      have := add32_eq (hs v ⟨iarg, s, hi, hx, k1, k2, k3, hv⟩)
      exact ⟨_, by rw [hv, Option.bind_some, this]; rfl⟩

theorem tuneArg_some (hn : ∀ s ∈ args, ∃ v, atoi s = some v) (iarg : Nat) (o : Cmd) :
    ∃ x, tuneArg neg args iarg o = some x := by
  unfold tuneArg
  split_ifs with h2
  · exact ⟨_, rfl⟩
  · obtain ⟨x, hx⟩ := num_some hn (i := iarg + 1) (by omega)
    obtain ⟨y, hy, _⟩ := argv_some (args := args) (i := iarg + 2) (by omega)
    obtain ⟨z, hz⟩ := num_some hn (i := iarg + 3) (by omega)
    exact ⟨_, by simp [hx, hy, hz]; rfl⟩

theorem argStep_some (hn : ∀ s ∈ args, ∃ v, atoi s = some v) (hs : ∀ v, SeedArg args v → Fits (v + me)) {iarg : Nat}
    (hi : iarg < args.length) (o : Cmd) : ∃ x, argStep three neg me args iarg o = some x := by
  unfold argStep
  obtain ⟨s, hx, hm⟩ := argv_some hi
  rw [hx]
  simp only [Option.bind_some]
  let Q : Option (Out (Nat × Cmd)) → Prop := fun x => ∃ y, x = some y
  refine ite_ind Q (fun h1 => ⟨_, rfl⟩) fun _ => ?_
  refine ite_ind Q (fun h2 => grid_some hn _ _) fun _ => ?_
  refine ite_ind Q (fun h3 => grid_some hn _ _) fun _ => ?_
  refine ite_ind Q (fun h4 => grid_some hn _ _) fun _ => ?_
  refine ite_ind Q (fun h5 => one_some hn _ _) fun _ => ?_
  refine ite_ind Q (fun h6 => initArg_some hn hs (by rw [hx, h6]) _) fun _ => ?_
  refine ite_ind Q (fun h7 => tuneArg_some hn _ _) fun _ => ?_
  refine ite_ind Q (fun h8 => one_some hn _ _) fun _ => ?_
  refine ite_ind Q (fun h9 => choice_some _ _) fun _ => ?_
  refine ite_ind Q (fun h10 => choice_some _ _) fun _ => ?_
  refine ite_ind Q (fun h11 => choice_some _ _) fun _ => ?_
  refine ite_ind Q (fun h12 => ⟨_, rfl⟩) fun _ => ?_
  refine ite_ind Q (fun h13 => ⟨_, rfl⟩) fun _ => ?_
  refine ite_ind Q (fun h14 => ⟨_, rfl⟩) fun _ => ?_
  refine ite_ind Q (fun h15 => ⟨_, rfl⟩) fun _ => ?_
  exact ⟨_, rfl⟩

theorem argLoop_some (hn : ∀ s ∈ args, ∃ v, atoi s = some v) (hs : ∀ v, SeedArg args v → Fits (v + me)) (n : Nat) :
    ∀ (iarg : Nat) {o : Cmd}, Good three me args o → args.length - iarg < n →
      ∃ x, argLoop three neg me args n iarg o = some x := by
  induction n with
  | zero =>
    intro iarg o g h
    omega
  | succ n ih =>
    intro iarg o g h
    unfold argLoop
    split_ifs with hi
    · obtain ⟨x, hx⟩ := argStep_some (three := three) (neg := neg) hn hs hi o
      rw [hx]
      rcases x with e | ⟨i, p⟩
      · exact ⟨_, rfl⟩
      · have := argStep_ok g hx
        exact ih i this.2 (by omega)
    · exact ⟨_, rfl⟩

end Driver

end FftMpi
