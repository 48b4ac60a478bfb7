import Mathlib.Tactic.Linarith
import Verif.Output

/-!
# Lemmas for `Output.lean`
-/

namespace FftMpi

variable {T : Type}

/-! ## Executions are bounded -/

/-- The number of actions left. -/
def outLeft (p : Nat → List (OutAct T)) : Nat → Nat
  | 0 => 0
  | P + 1 => outLeft p P + (p P).length

theorem outLeft_congr {p q : Nat → List (OutAct T)} : ∀ {P : Nat}, (∀ r < P, (p r).length = (q r).length) →
    outLeft p P = outLeft q P
  | 0, _ => rfl
  | P + 1, h => by
    show outLeft p P + _ = outLeft q P + _
    rw [outLeft_congr fun r hr => h r (by omega), h P (by omega)]

theorem outLeft_update (p : Nat → List (OutAct T)) (r : Nat) (q : List (OutAct T)) : ∀ {P : Nat}, r < P →
    outLeft (Function.update p r q) P + (p r).length = outLeft p P + q.length
  | 0, h => absurd h (by omega)
  | P + 1, h => by
    show outLeft _ P + _ + _ = outLeft p P + _ + _
    by_cases hr : r = P
    · subst hr
      rw [Function.update_self, outLeft_congr (q := p) fun i hi => by rw [Function.update_of_ne (by omega)]]
      omega
    · have := outLeft_update p r q (P := P) (by omega)
      rw [Function.update_of_ne (fun h => hr h.symm)]
      omega

theorem outLeft_pop {p : Nat → List (OutAct T)} {q : Nat → List (OutAct T)} : ∀ {P : Nat},
    (∀ r < P, (p r).length = (q r).length + 1) → outLeft p P = outLeft q P + P
  | 0, _ => rfl
  | P + 1, h => by
    show outLeft p P + _ = outLeft q P + _ + _
    rw [outLeft_pop fun r hr => h r (by omega), h P (by omega)]
    omega

theorem OutStep.left {e : Bool} {P : Nat} {s t : OutSt T} (h : OutStep e P s t) :
    outLeft t.prog P < outLeft s.prog P := by
  cases h with
  | @print r x p hr h =>
    have := outLeft_update s.prog r p hr
    rw [h, List.length_cons] at this
    show outLeft (Function.update s.prog r p) P < _
    omega
  | @send r p he hr h =>
    have := outLeft_update s.prog r p (show r < P by omega)
    rw [h, List.length_cons] at this
    show outLeft (Function.update s.prog r p) P < _
    omega
  | @recv r n p hr h hn =>
    have := outLeft_update s.prog (r + 1) p hr
    rw [h, List.length_cons] at this
    show outLeft (Function.update s.prog (r + 1) p) P < _
    omega
  | @sync r p q hr h h' hn =>
    have h1 := outLeft_update s.prog r p (show r < P by omega)
    have h2 := outLeft_update (Function.update s.prog r p) (r + 1) q hr
    rw [h, List.length_cons] at h1
    rw [Function.update_of_ne (by omega), h', List.length_cons] at h2
    show outLeft (Function.update (Function.update s.prog r p) (r + 1) q) P < _
    omega
  | @barrier p hP h =>
    have := outLeft_pop (p := s.prog) (q := fun r => if r < P then p r else s.prog r) (P := P) fun r hr => by
      rw [h r hr, if_pos hr, List.length_cons]
    show outLeft (fun r => if r < P then p r else s.prog r) P < _
    omega

theorem OutRun.bound {e : Bool} {P n : Nat} {s t : OutSt T} (h : OutRun e P n s t) : n + outLeft t.prog P ≤ outLeft s.prog P := by
  induction h with
  | done => omega
  | step h _ ih =>
    have := h.left
    omega

theorem OutRun.append {e : Bool} {P m n : Nat} {s t u : OutSt T} (h : OutRun e P m s t) (k : OutRun e P n t u) :
    OutRun e P (m + n) s u := by
  induction h with
  | done => simpa using k
  | step h _ ih =>
    have := OutRun.step h (ih k)
    rwa [show ∀ a : Nat, a + 1 + n = a + n + 1 by intro a; omega]

theorem OutRun.one {e : Bool} {P : Nat} {s t : OutSt T} (h : OutStep e P s t) : OutRun e P 1 s t := .step h (.done _)

/-- To prove `OutEnds`, give an invariant. -/
theorem outEnds_of {e : Bool} {P : Nat} {Q : List T → Prop} (I : OutSt T → Prop) {s : OutSt T} (hs : I s)
    (hstep : ∀ t u, I t → OutStep e P t u → I u)
    (hgo : ∀ t, I t → (t.Final P ∧ Q t.log) ∨ ∃ u, OutStep e P t u) : OutEnds e P s Q := by
  refine ⟨⟨outLeft s.prog P, fun n t h => ?_⟩, fun n t h => hgo t ?_⟩
  · have := h.bound; omega
  · induction h with
    | done => exact hs
    | step h _ ih => exact ih (hstep _ _ hs h)

theorem OutEnds.after {e : Bool} {P n : Nat} {Q : List T → Prop} {s t : OutSt T} (h : OutEnds e P s Q)
    (k : OutRun e P n s t) : OutEnds e P t Q :=
  ⟨⟨outLeft t.prog P, fun m u h => by have := h.bound; omega⟩, fun m u hu => h.2 (n + m) u (k.append hu)⟩

/-- There is an execution to the end. -/
theorem OutEnds.run {e : Bool} {P : Nat} {Q : List T → Prop} {s : OutSt T} (h : OutEnds e P s Q) :
    ∃ n t, OutRun e P n s t ∧ t.Final P ∧ Q t.log := by
  generalize hk : outLeft s.prog P = k
  induction k using Nat.strong_induction_on generalizing s with
  | _ k ih =>
    rcases h.2 0 s (.done s) with hf | ⟨u, hu⟩
    · exact ⟨0, s, .done s, hf⟩
    · obtain ⟨n, t, hr, hf⟩ := ih _ (hk ▸ hu.left) (h.after (.one hu)) rfl
      exact ⟨n + 1, t, .step hu hr, hf⟩

theorem OutEnds.mono {e : Bool} {P : Nat} {Q Q' : List T → Prop} {s : OutSt T} (h : OutEnds e P s Q)
    (hQ : ∀ l, Q l → Q' l) : OutEnds e P s Q' :=
  ⟨h.1, fun n t k => (h.2 n t k).imp (fun x => ⟨x.1, hQ _ x.2⟩) id⟩

/-- Lines are only added. -/
theorem OutRun.log {e : Bool} {P n : Nat} {s t : OutSt T} (h : OutRun e P n s t) : ∃ l, t.log = s.log ++ l := by
  induction h with
  | done => exact ⟨[], by simp⟩
  | step h _ ih =>
    obtain ⟨l, hl⟩ := ih
    cases h with
    | @print r x p _ _ => exact ⟨x :: l, by rw [hl]; simp⟩
    | send => exact ⟨l, hl⟩
    | recv => exact ⟨l, hl⟩
    | sync => exact ⟨l, hl⟩
    | barrier => exact ⟨l, hl⟩

/-- A rank that prints. -/
theorem OutRun.prints (e : Bool) {P r : Nat} (hr : r < P) (p : List (OutAct T)) : ∀ (xs : List T) (s : OutSt T),
    s.prog r = xs.map .print ++ p → OutRun e P xs.length s ⟨Function.update s.prog r p, s.chan, s.log ++ xs⟩
  | [], s, h => by
    have : Function.update s.prog r p = s.prog := by
      rw [← show s.prog r = p from h]; exact Function.update_eq_self r s.prog
    rw [this, List.append_nil]
    exact .done s
  | x :: xs, s, h => by
    have k := OutRun.prints e hr p xs ⟨Function.update s.prog r (xs.map .print ++ p), s.chan, s.log ++ [x]⟩
      (by simp)
    simp only [Function.update_idem, List.append_assoc, List.singleton_append] at k
    exact .step (.print hr h) k

/-! ## One part after the other -/

/-- `s` is as `t` with a barrier and more afterwards. -/
structure OutFirst (P : Nat) (b : Nat → List (OutAct T)) (s t : OutSt T) : Prop where
  prog : ∀ r < P, s.prog r = t.prog r ++ .barrier :: b r
  chan : ∀ r, r + 1 < P → s.chan r = t.chan r
  log : s.log = t.log

/-- `s` is as `t`, and the lines `l` have been printed before. -/
structure OutLast (P : Nat) (l : List T) (s t : OutSt T) : Prop where
  prog : ∀ r < P, s.prog r = t.prog r
  chan : ∀ r, r + 1 < P → s.chan r = t.chan r
  log : s.log = l ++ t.log

theorem update_of {P : Nat} {β : Type} {R : Nat → β → β → Prop} {f g : Nat → β} (h : ∀ r < P, R r (f r) (g r)) {i : Nat}
    {x y : β} (hx : R i x y) : ∀ r < P, R r (Function.update f i x r) (Function.update g i y r) := by
  intro r hr
  by_cases hi : r = i
  · subst hi; rw [Function.update_self, Function.update_self]; exact hx
  · rw [Function.update_of_ne hi, Function.update_of_ne hi]; exact h r hr

theorem update_chan {P : Nat} {f g : Nat → Nat} (h : ∀ r, r + 1 < P → f r = g r) {i x : Nat} :
    ∀ r, r + 1 < P → Function.update f i x r = Function.update g i x r := by
  intro r hr
  by_cases hi : r = i
  · subst hi; rw [Function.update_self, Function.update_self]
  · rw [Function.update_of_ne hi, Function.update_of_ne hi]; exact h r hr

theorem head_of_append {a : OutAct T} {p x b : List (OutAct T)} (ha : a ≠ .barrier) (h : x ++ .barrier :: b = a :: p) :
    ∃ q, x = a :: q ∧ p = q ++ .barrier :: b := by
  cases x with
  | nil => rw [List.nil_append, List.cons.injEq] at h; exact absurd h.1.symm ha
  | cons c q =>
    rw [List.cons_append, List.cons.injEq] at h
    exact ⟨q, by rw [h.1], h.2.symm⟩

/-- A step of the first part, or the barrier. -/
theorem OutFirst.step {e : Bool} {P : Nat} {b : Nat → List (OutAct T)} {s t s' : OutSt T} (h : OutFirst P b s t)
    (ht : (∀ r < P, t.prog r = []) ∨ ∃ u, OutStep e P t u) (k : OutStep e P s s') :
    (∃ t', OutStep e P t t' ∧ OutFirst P b s' t') ∨
      ((∀ r < P, t.prog r = []) ∧ OutLast P t.log s' ⟨b, t.chan, []⟩) := by
  cases k with
  | @print r x p hr hp =>
    rw [h.prog r hr] at hp
    obtain ⟨q, h1, rfl⟩ := head_of_append (by simp) hp
    exact .inl ⟨_, .print hr h1, ⟨update_of (R := fun r x y => x = y ++ .barrier :: b r) h.prog rfl, h.chan, by show s.log ++ [x] = _; rw [h.log]⟩⟩
  | @send r p he hr hp =>
    rw [h.prog r (by omega)] at hp
    obtain ⟨q, h1, rfl⟩ := head_of_append (by simp) hp
    refine .inl ⟨_, .send he hr h1, ⟨update_of (R := fun r x y => x = y ++ .barrier :: b r) h.prog rfl, ?_, h.log⟩⟩
    rw [h.chan r hr]
    exact update_chan h.chan
  | @recv r n p hr hp hn =>
    rw [h.prog _ hr] at hp
    obtain ⟨q, h1, rfl⟩ := head_of_append (by simp) hp
    rw [h.chan r hr] at hn
    exact .inl ⟨_, .recv hr h1 hn, ⟨update_of (R := fun r x y => x = y ++ .barrier :: b r) h.prog rfl, update_chan h.chan, h.log⟩⟩
  | @sync r p q hr hp hq hn =>
    rw [h.prog r (by omega)] at hp
    rw [h.prog _ hr] at hq
    obtain ⟨p', h1, rfl⟩ := head_of_append (by simp) hp
    obtain ⟨q', h2, rfl⟩ := head_of_append (by simp) hq
    rw [h.chan r hr] at hn
    exact .inl ⟨_, .sync hr h1 h2 hn, ⟨update_of (R := fun r x y => x = y ++ .barrier :: b r) (update_of (R := fun r x y => x = y ++ .barrier :: b r) h.prog rfl) rfl, h.chan, h.log⟩⟩
  | @barrier p hP hp =>
    have key : ∀ r < P, t.prog r = [] ∧ p r = b r ∨ ∃ q, t.prog r = .barrier :: q ∧ p r = q ++ .barrier :: b r := by
      intro r hr
      have := hp r hr
      rw [h.prog r hr] at this
      cases hc : t.prog r with
      | nil => rw [hc, List.nil_append, List.cons.injEq] at this; exact .inl ⟨rfl, this.2.symm⟩
      | cons c q =>
        rw [hc, List.cons_append, List.cons.injEq] at this
        exact .inr ⟨q, by rw [this.1], this.2.symm⟩
    by_cases ha : ∀ r < P, t.prog r = []
    · refine .inr ⟨ha, ⟨fun r hr => ?_, h.chan, by show s.log = _; rw [h.log, List.append_nil]⟩⟩
      show (if r < P then p r else s.prog r) = b r
      rw [if_pos hr]
      rcases key r hr with h1 | ⟨q, h1, -⟩
      · exact h1.2
      · rw [ha r hr] at h1; cases h1
    · left
      rcases ht with ht | ⟨u, hu⟩
      · exact absurd ht ha
      have hb : ∃ q : Nat → List (OutAct T), ∀ r < P, t.prog r = .barrier :: q r := by
        cases hu with
        | @print r x p' hr hp' =>
          rcases key r hr with h1 | ⟨q, h1, -⟩
          · rw [h1.1] at hp'; cases hp'
          · rw [h1] at hp'; cases hp'
        | @send r p' he hr hp' =>
          rcases key r (by omega) with h1 | ⟨q, h1, -⟩
          · rw [h1.1] at hp'; cases hp'
          · rw [h1] at hp'; cases hp'
        | @recv r n p' hr hp' hn =>
          rcases key _ hr with h1 | ⟨q, h1, -⟩
          · rw [h1.1] at hp'; cases hp'
          · rw [h1] at hp'; cases hp'
        | @sync r p' q' hr hp' hq' hn =>
          rcases key _ hr with h1 | ⟨q, h1, -⟩
          · rw [h1.1] at hq'; cases hq'
          · rw [h1] at hq'; cases hq'
        | @barrier q hP hq => exact ⟨q, hq⟩
      obtain ⟨q, hq⟩ := hb
      refine ⟨_, .barrier hP hq, ⟨fun r hr => ?_, h.chan, h.log⟩⟩
      show (if r < P then p r else s.prog r) = (if r < P then q r else t.prog r) ++ _
      rw [if_pos hr, if_pos hr]
      rcases key r hr with h1 | ⟨q', h1, h2⟩
      · rw [hq r hr] at h1; cases h1.1
      · rw [hq r hr, List.cons.injEq] at h1
        rw [h2, h1.2]

theorem OutLast.step {e : Bool} {P : Nat} {l : List T} {s t s' : OutSt T} (h : OutLast P l s t) (k : OutStep e P s s') :
    ∃ t', OutStep e P t t' ∧ OutLast P l s' t' := by
  cases k with
  | @print r x p hr hp =>
    exact ⟨_, .print hr ((h.prog r hr).symm.trans hp), ⟨update_of h.prog rfl, h.chan, by
      show s.log ++ [x] = l ++ (t.log ++ [x]); rw [h.log, List.append_assoc]⟩⟩
  | @send r p he hr hp =>
    refine ⟨_, .send he hr ((h.prog r (by omega)).symm.trans hp), ⟨update_of h.prog rfl, ?_, h.log⟩⟩
    rw [h.chan r hr]
    exact update_chan h.chan
  | @recv r n p hr hp hn =>
    exact ⟨_, .recv hr ((h.prog _ hr).symm.trans hp) ((h.chan r hr).symm.trans hn),
      ⟨update_of h.prog rfl, update_chan h.chan, h.log⟩⟩
  | @sync r p q hr hp hq hn =>
    exact ⟨_, .sync hr ((h.prog r (by omega)).symm.trans hp) ((h.prog _ hr).symm.trans hq) ((h.chan r hr).symm.trans hn),
      ⟨update_of (update_of h.prog rfl) rfl, h.chan, h.log⟩⟩
  | @barrier p hP hp =>
    refine ⟨_, .barrier hP (fun r hr => (h.prog r hr).symm.trans (hp r hr)), ⟨fun r hr => ?_, h.chan, h.log⟩⟩
    show (if r < P then p r else s.prog r) = if r < P then p r else t.prog r
    rw [if_pos hr, if_pos hr]

theorem OutLast.symm_step {e : Bool} {P : Nat} {l : List T} {s t t' : OutSt T} (h : OutLast P l s t)
    (k : OutStep e P t t') : ∃ s', OutStep e P s s' := by
  cases k with
  | @print r x p hr hp => exact ⟨_, .print hr ((h.prog r hr).trans hp)⟩
  | @send r p he hr hp => exact ⟨_, .send he hr ((h.prog r (by omega)).trans hp)⟩
  | @recv r n p hr hp hn => exact ⟨_, .recv hr ((h.prog _ hr).trans hp) ((h.chan r hr).trans hn)⟩
  | @sync r p q hr hp hq hn =>
    exact ⟨_, .sync hr ((h.prog r (by omega)).trans hp) ((h.prog _ hr).trans hq) ((h.chan r hr).trans hn)⟩
  | @barrier p hP hp => exact ⟨_, .barrier hP fun r hr => (h.prog r hr).trans (hp r hr)⟩

theorem OutFirst.symm_step {e : Bool} {P : Nat} {b : Nat → List (OutAct T)} {s t t' : OutSt T} (h : OutFirst P b s t)
    (k : OutStep e P t t') : ∃ s', OutStep e P s s' ∧ OutFirst P b s' t' := by
  have key : ∀ {r : Nat} {a : OutAct T} {p : List (OutAct T)}, r < P → t.prog r = a :: p →
      s.prog r = a :: (p ++ .barrier :: b r) := fun hr hp => by rw [h.prog _ hr, hp]; rfl
  have up : ∀ {f g : Nat → List (OutAct T)} {i : Nat} {y : List (OutAct T)}, (∀ r < P, f r = g r ++ .barrier :: b r) →
      ∀ r < P, Function.update f i (y ++ .barrier :: b i) r = Function.update g i y r ++ .barrier :: b r :=
    fun h => update_of (R := fun r x y => x = y ++ .barrier :: b r) h rfl
  cases k with
  | @print r x p hr hp => exact ⟨_, .print hr (key hr hp), ⟨up h.prog, h.chan, by show s.log ++ [x] = _; rw [h.log]⟩⟩
  | @send r p he hr hp =>
    refine ⟨_, .send he hr (key (by omega) hp), ⟨up h.prog, ?_, h.log⟩⟩
    rw [h.chan r hr]
    exact update_chan h.chan
  | @recv r n p hr hp hn =>
    exact ⟨_, .recv hr (key hr hp) ((h.chan r hr).trans hn), ⟨up h.prog, update_chan h.chan, h.log⟩⟩
  | @sync r p q hr hp hq hn =>
    exact ⟨_, .sync hr (key (by omega) hp) (key hr hq) ((h.chan r hr).trans hn), ⟨up (up h.prog), h.chan, h.log⟩⟩
  | @barrier p hP hp =>
    refine ⟨_, .barrier hP fun r hr => key hr (hp r hr), ⟨fun r hr => ?_, h.chan, h.log⟩⟩
    show (if r < P then _ else s.prog r) = (if r < P then p r else t.prog r) ++ _
    rw [if_pos hr, if_pos hr]

theorem OutEnds.last {e : Bool} {P : Nat} {Q Q' : List T → Prop} {l : List T} {s t : OutSt T} (h : OutLast P l s t)
    (k : OutEnds e P t Q) (hQ : ∀ m, Q m → Q' (l ++ m)) : OutEnds e P s Q' := by
  refine outEnds_of (fun s => ∃ t, OutLast P l s t ∧ OutEnds e P t Q) ⟨t, h, k⟩ ?_ ?_
  · rintro s s' ⟨t, h, k⟩ hs
    obtain ⟨t', h1, h2⟩ := h.step hs
    exact ⟨t', h2, k.after (.one h1)⟩
  · rintro s ⟨t, h, k⟩
    rcases k.2 0 t (.done t) with ⟨hf, hq⟩ | ⟨u, hu⟩
    · exact .inl ⟨⟨fun r hr => (h.prog r hr).trans (hf.1 r hr), fun r hr => (h.chan r hr).trans (hf.2 r hr)⟩,
        h.log ▸ hQ _ hq⟩
    · exact .inr (h.symm_step hu)

/-- **Two parts with a barrier between them.** -/
theorem OutEnds.seq {e : Bool} {P : Nat} (hP : 0 < P) {Q Q' Q'' : List T → Prop} {a b : Nat → List (OutAct T)}
    (ha : OutEnds e P (outStart a) Q) (hb : OutEnds e P (outStart b) Q') (hQ : ∀ l m, Q l → Q' m → Q'' (l ++ m)) :
    OutEnds e P (outStart fun r => a r ++ .barrier :: b r) Q'' := by
  refine outEnds_of (fun s => (∃ t, OutFirst P b s t ∧ OutEnds e P t Q) ∨
    ∃ l t, Q l ∧ OutLast P l s t ∧ OutEnds e P t Q') (.inl ⟨outStart a, ⟨fun _ _ => rfl, fun _ _ => rfl, rfl⟩, ha⟩) ?_ ?_
  · rintro s s' (⟨t, h, k⟩ | ⟨l, t, hl, h, k⟩) hs
    · have hgo := k.2 0 t (.done t)
      rcases h.step (hgo.imp (fun x => x.1.1) id) hs with ⟨t', h1, h2⟩ | ⟨h1, h2⟩
      · exact .inl ⟨t', h2, k.after (.one h1)⟩
      · right
        rcases hgo with ⟨hf, hq⟩ | ⟨u, hu⟩
        · exact ⟨t.log, outStart b, hq, ⟨h2.prog, fun r hr => (h2.chan r hr).trans (hf.2 r hr), h2.log⟩, hb⟩
        · exfalso
          cases hu with
          | @print r x p hr hp => rw [h1 r hr] at hp; cases hp
          | @send r p he hr hp => rw [h1 r (by omega)] at hp; cases hp
          | @recv r n p hr hp hn => rw [h1 _ hr] at hp; cases hp
          | @sync r p q hr hp hq hn => rw [h1 _ hr] at hq; cases hq
          | @barrier p hP hp => have := hp 0 hP; rw [h1 0 hP] at this; cases this
    · obtain ⟨t', h1, h2⟩ := h.step hs
      exact .inr ⟨l, t', hl, h2, k.after (.one h1)⟩
  · rintro s (⟨t, h, k⟩ | ⟨l, t, hl, h, k⟩)
    · right
      rcases k.2 0 t (.done t) with ⟨hf, hq⟩ | ⟨u, hu⟩
      · exact ⟨_, .barrier hP (p := b) fun r hr => by rw [h.prog r hr, hf.1 r hr]; rfl⟩
      · exact (h.symm_step hu).imp fun _ x => x.1
    · rcases k.2 0 t (.done t) with ⟨hf, hq⟩ | ⟨u, hu⟩
      · exact .inl ⟨⟨fun r hr => (h.prog r hr).trans (hf.1 r hr), fun r hr => (h.chan r hr).trans (hf.2 r hr)⟩,
          h.log ▸ hQ _ _ hl hq⟩
      · exact .inr (h.symm_step hu)

theorem OutRun.first {e : Bool} {P n : Nat} {b : Nat → List (OutAct T)} {t t' : OutSt T} (k : OutRun e P n t t') :
    ∀ {s : OutSt T}, OutFirst P b s t → ∃ s', OutRun e P n s s' ∧ OutFirst P b s' t' := by
  induction k with
  | done => exact fun {s} h => ⟨s, .done s, h⟩
  | step k _ ih =>
    intro s h
    obtain ⟨s1, h1, h2⟩ := h.symm_step k
    obtain ⟨s2, h3, h4⟩ := ih h2
    exact ⟨s2, .step h1 h3, h4⟩

/-- An execution can come to the point after the barrier. -/
theorem OutEnds.reach {e : Bool} {P : Nat} (hP : 0 < P) {Q : List T → Prop} {a : Nat → List (OutAct T)}
    (ha : OutEnds e P (outStart a) Q) (b : Nat → List (OutAct T)) :
    ∃ n s l, OutRun e P n (outStart fun r => a r ++ .barrier :: b r) s ∧ Q l ∧ (∀ r < P, s.prog r = b r) ∧
      (∀ r, r + 1 < P → s.chan r = 0) ∧ s.log = l := by
  obtain ⟨n, t, hr, hf, hq⟩ := ha.run
  obtain ⟨s, h1, h2⟩ := hr.first (b := b) (s := outStart fun r => a r ++ .barrier :: b r)
    ⟨fun _ _ => rfl, fun _ _ => rfl, rfl⟩
  refine ⟨n + 1, ⟨fun r => if r < P then b r else s.prog r, s.chan, s.log⟩, t.log, h1.append (.one (.barrier hP fun r hr => ?_)), hq,
    fun r hr => if_pos hr, fun r hr => (h2.chan r hr).trans (hf.2 r hr), h2.log⟩
  rw [h2.prog r hr, hf.1 r hr]
  rfl

/-! ## Some lines only -/

/-- The program without the lines that `q` leaves out. -/
def OutAct.keep (q : T → Bool) : OutAct T → Bool
  | .print x => q x
  | _ => true

/-- The state without these lines. -/
def OutSt.only (q : T → Bool) (s : OutSt T) : OutSt T :=
  ⟨fun r => (s.prog r).filter (OutAct.keep q), s.chan, s.log.filter q⟩

theorem filter_update {q : T → Bool} (f : Nat → List (OutAct T)) (i : Nat) (x : List (OutAct T)) :
    (fun r => (Function.update f i x r).filter (OutAct.keep q)) =
      Function.update (fun r => (f r).filter (OutAct.keep q)) i (x.filter (OutAct.keep q)) := by
  funext r
  by_cases h : r = i
  · subst h; rw [Function.update_self, Function.update_self]
  · rw [Function.update_of_ne h, Function.update_of_ne h]

theorem OutStep.only {e : Bool} {P : Nat} {s t : OutSt T} (q : T → Bool) (h : OutStep e P s t) :
    t.only q = s.only q ∨ OutStep e P (s.only q) (t.only q) := by
  cases h with
  | @print r x p hr hp =>
    unfold OutSt.only
    dsimp only
    rw [filter_update, List.filter_append]
    by_cases hx : q x = true
    · right
      rw [show [x].filter q = [x] by simp [hx]]
      exact .print (s := s.only q) hr (by show (s.prog r).filter _ = _; rw [hp]; simp [OutAct.keep, hx])
    · left
      rw [show [x].filter q = [] by simp [hx], List.append_nil]
      have : (s.prog r).filter (OutAct.keep q) = p.filter (OutAct.keep q) := by rw [hp]; simp [OutAct.keep, hx]
      rw [← this, Function.update_eq_self r fun r => (s.prog r).filter (OutAct.keep q)]
  | @send r p he hr hp =>
    right
    unfold OutSt.only
    dsimp only
    rw [filter_update]
    exact .send (s := s.only q) he hr (by show (s.prog r).filter _ = _; rw [hp]; exact List.filter_cons_of_pos rfl)
  | @recv r n p hr hp hn =>
    right
    unfold OutSt.only
    dsimp only
    rw [filter_update]
    exact .recv (s := s.only q) hr (by show (s.prog _).filter _ = _; rw [hp]; exact List.filter_cons_of_pos rfl) hn
  | @sync r p p' hr hp hp' hn =>
    right
    unfold OutSt.only
    dsimp only
    rw [filter_update, filter_update]
    exact .sync (s := s.only q) hr (by show (s.prog r).filter _ = _; rw [hp]; exact List.filter_cons_of_pos rfl)
      (by show (s.prog _).filter _ = _; rw [hp']; exact List.filter_cons_of_pos rfl) hn
  | @barrier p hP hp =>
    right
    unfold OutSt.only
    dsimp only
    have : (fun r => (if r < P then p r else s.prog r).filter (OutAct.keep q)) =
        fun r => if r < P then (p r).filter (OutAct.keep q) else (s.prog r).filter (OutAct.keep q) := by
      funext r; split <;> rfl
    rw [this]
    exact .barrier (s := s.only q) (p := fun r => (p r).filter (OutAct.keep q)) hP fun r hr => by
      show (s.prog r).filter _ = _; rw [hp r hr]; exact List.filter_cons_of_pos rfl

/-- If without some lines the program ends, then also with them, and what is printed without these lines is the same. -/
theorem OutEnds.only {e : Bool} {P : Nat} {Q : List T → Prop} (q : T → Bool) {s : OutSt T}
    (h : OutEnds e P (s.only q) Q) : OutEnds e P s fun l => Q (l.filter q) := by
  refine outEnds_of (fun s => OutEnds e P (s.only q) Q) h ?_ ?_
  · intro t u ht hu
    rcases hu.only q with h | h
    · rw [h]; exact ht
    · exact ht.after (.one h)
  · intro t ht
    by_cases hp : ∃ r < P, ∃ x p, t.prog r = .print x :: p
    · obtain ⟨r, hr, x, p, hp⟩ := hp
      exact .inr ⟨_, .print hr hp⟩
    · push Not at hp
      have head : ∀ {r : Nat} {a : OutAct T} {p : List (OutAct T)}, r < P → (t.prog r).filter (OutAct.keep q) = a :: p →
          ∃ p', t.prog r = a :: p' := by
        intro r a p hr ha
        cases hc : t.prog r with
        | nil => rw [hc] at ha; cases ha
        | cons c p' =>
          have hk : OutAct.keep q c = true := by
            cases c with
            | print x => exact absurd hc (hp r hr x p')
            | _ => rfl
          rw [hc, List.filter_cons_of_pos hk, List.cons.injEq] at ha
          exact ⟨p', by rw [ha.1]⟩
      rcases ht.2 0 _ (.done _) with ⟨hf, hq⟩ | ⟨u, hu⟩
      · refine .inl ⟨⟨fun r hr => ?_, hf.2⟩, hq⟩
        cases hc : t.prog r with
        | nil => rfl
        | cons c p' =>
          have hk : OutAct.keep q c = true := by
            cases c with
            | print x => exact absurd hc (hp r hr x p')
            | _ => rfl
          have := hf.1 r hr
          rw [show (t.only q).prog r = (t.prog r).filter (OutAct.keep q) from rfl, hc, List.filter_cons_of_pos hk] at this
          cases this
      · right
        generalize ht' : t.only q = t' at hu
        cases hu with
        | @print r x p hr h1 =>
          subst ht'
          obtain ⟨p', h'⟩ := head hr h1
          exact ⟨_, .print hr h'⟩
        | @send r p he hr h1 =>
          subst ht'
          obtain ⟨p', h'⟩ := head (by omega) h1
          exact ⟨_, .send he hr h'⟩
        | @recv r n p hr h1 hn =>
          subst ht'
          obtain ⟨p', h'⟩ := head hr h1
          exact ⟨_, .recv hr h' hn⟩
        | @sync r p p2 hr h1 h2 hn =>
          subst ht'
          obtain ⟨p', h'⟩ := head (by omega) h1
          obtain ⟨p'', h''⟩ := head hr h2
          exact ⟨_, .sync hr h' h'' hn⟩
        | @barrier p hP h1 =>
          subst ht'
          have : ∀ r, ∃ p', r < P → t.prog r = .barrier :: p' := by
            intro r
            by_cases hr : r < P
            · obtain ⟨p', h'⟩ := head hr (h1 r hr)
              exact ⟨p', fun _ => h'⟩
            · exact ⟨[], fun h => absurd h hr⟩
          choose f hf using this
          exact ⟨_, .barrier hP hf⟩

end FftMpi
