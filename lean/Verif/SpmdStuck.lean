import Verif.SpmdWorks

/-!
# Ranks that wait for each other for ever

`Stuck P p`: some execution comes to a state in which no rank can make a step, though some rank has not returned.
-/

noncomputable section

namespace FftMpi

variable {α E π ρ σ : Type}

/-- Some schedule leads to a state in which no rank can go on and some rank has not returned: a deadlock, or calls that do
not fit together. -/
def Stuck (P : Nat) (p : Nat → Spmd E ρ) : Prop :=
  ∃ n t, RunC P n (startC p) t ∧ (∀ r < P, stepC P t r = none) ∧ ∃ r < P, ∀ y, (t r).prog ≠ .ret y

theorem Stuck.not_returns {P : Nat} {p : Nat → Spmd E ρ} (h : Stuck P p) : ∀ x, ¬Returns P p x := by
  intro x hx
  obtain ⟨n, t, h1, h2, r, hr, h3⟩ := h
  rcases (hx.2 n t h1).1 with h | ⟨q, hq, h⟩
  · exact h3 _ (h r hr)
  · rw [h2 q hq] at h
    exact absurd h (by simp)

/-- After some calls in lockstep the programs `p` have become `q`. -/
inductive Comes (P : Nat) : (Nat → Spmd E ρ) → (Nat → Spmd E ρ) → Prop where
  | refl {p q} (h : ∀ r < P, p r = q r) : Comes P p q
  | call {p q} (c : Nat → CollOp E) (k : ∀ r, (c r).Reply → Spmd E ρ) (a : ∀ r, (c r).Reply)
      (h : ∀ r < P, p r = .call (c r) (k r)) (ha : ∀ r < P, CollOp.answer P c r (c r) = some (a r))
      (t : Comes P (fun r => k r (a r)) q) : Comes P p q

theorem Comes.start {P : Nat} {p p' q : Nat → Spmd E ρ} (h : Comes P p q) (e : ∀ r < P, p' r = p r) : Comes P p' q := by
  cases h with
  | refl h => exact .refl fun r hr => (e r hr).trans (h r hr)
  | call c k a h ha t => exact .call c k a (fun r hr => (e r hr).trans (h r hr)) ha t

theorem Comes.trans {P : Nat} {p q s : Nat → Spmd E ρ} (h : Comes P p q) (h' : Comes P q s) : Comes P p s := by
  induction h with
  | refl h => exact h'.start h
  | call c k a h ha _ ih => exact .call c k a h ha (ih h')

theorem Comes.bind {P : Nat} {p q : Nat → Spmd E ρ} (h : Comes P p q) (f : Nat → ρ → Spmd E σ) :
    Comes P (fun r => p r >>= f r) (fun r => q r >>= f r) := by
  induction h with
  | refl h => exact .refl fun r hr => by rw [h r hr]
  | call c k a h ha _ ih => exact .call c (fun r a => k r a >>= f r) a (fun r hr => by rw [h r hr]; rfl) ha ih

theorem Lock.comes {P : Nat} {p : Nat → Spmd E ρ} {y : Nat → ρ} (h : Lock P p y) :
    Comes P p (fun r => Pure.pure (y r)) := by
  induction h with
  | done h => exact .refl h
  | call c k a h ha _ ih => exact .call c k a h ha ih

theorem Lock.thenC {P : Nat} {p : Nat → Spmd E ρ} {y : Nat → ρ} (h : Lock P p y) (f : Nat → ρ → Spmd E σ) :
    Comes P (fun r => p r >>= f r) (fun r => f r (y r)) := h.comes.bind f

/-! ## Executions in lockstep -/

theorem RunC.append {P n m : Nat} {s t u : Nat → RankC E ρ} (h : RunC P n s t) (h' : RunC P m t u) :
    ∃ k, RunC P k s u := by
  induction h with
  | refl => exact ⟨m, h'⟩
  | step r hr hs _ ih =>
    obtain ⟨k, hk⟩ := ih h'
    exact ⟨k + 1, .step r hr hs hk⟩

/-- Ranks below `j` have made the call of their program. -/
def callAll (j : Nat) (s : Nat → RankC E ρ) : Nat → RankC E ρ := fun r =>
  if r < j then
    match (s r).prog with
    | .call c k => ⟨.call c k, (s r).hist ++ [c], true⟩
    | _ => s r
  else s r

theorem callAll_run {P : Nat} {s : Nat → RankC E ρ} (hs : ∀ r < P, (s r).waiting = false) :
    ∀ j ≤ P, ∃ k, RunC P k s (callAll j s) := by
  intro j
  induction j with
  | zero => intro _; exact ⟨0, by
      have : callAll 0 s = s := by funext r; simp [callAll]
      rw [this]; exact .refl s⟩
  | succ j ih =>
    intro hj
    obtain ⟨k, hk⟩ := ih (by omega)
    have hsame : callAll j s j = s j := by simp [callAll]
    cases hp : (s j).prog with
    | ret x =>
      refine ⟨k, ?_⟩
      have : callAll (j + 1) s = callAll j s := by
        funext r
        unfold callAll
        by_cases h : r < j
        · rw [if_pos h, if_pos (by omega)]
        · by_cases h' : r = j
          · subst h'; rw [if_pos (by omega), if_neg (by omega), hp]
          · rw [if_neg h, if_neg (by omega)]
      rw [this]; exact hk
    | ub =>
      refine ⟨k, ?_⟩
      have : callAll (j + 1) s = callAll j s := by
        funext r
        unfold callAll
        by_cases h : r < j
        · rw [if_pos h, if_pos (by omega)]
        · by_cases h' : r = j
          · subst h'; rw [if_pos (by omega), if_neg (by omega), hp]
          · rw [if_neg h, if_neg (by omega)]
      rw [this]; exact hk
    | call c f =>
      have hstep : stepC P (callAll j s) j = some (callAll (j + 1) s) := by
        unfold stepC
        rw [hsame, hp]
        dsimp only
        rw [if_pos (hs j (by omega))]
        congr 1
        funext r
        by_cases h' : r = j
        · subst h'
          rw [Function.update_self]
          unfold callAll
          rw [if_pos (by omega), hp]
        · rw [Function.update_of_ne h']
          unfold callAll
          by_cases h : r < j
          · rw [if_pos h, if_pos (by omega)]
          · rw [if_neg h, if_neg (by omega)]
      exact hk.append (.step j (by omega) hstep (.refl _))

theorem RunC.nil {P : Nat} (s : Nat → RankC E ρ) : RunC P 0 s s := .refl s

/-- Calls of all ranks that fit together return. -/
theorem answered_run {P m : Nat} {s : Nat → RankC E ρ} (c : Nat → CollOp E) (k : ∀ r, (c r).Reply → Spmd E ρ)
    (a : ∀ r, (c r).Reply) (hp : ∀ r < P, (s r).prog = .call (c r) (k r)) (hw : ∀ r < P, (s r).waiting = true)
    (hh : ∀ r < P, ∃ l, (s r).hist = l ++ [c r] ∧ l.length = m)
    (ha : ∀ r < P, CollOp.answer P c r (c r) = some (a r)) :
    ∀ j ≤ P, ∃ n, RunC P n s (fun r => if r < j then ⟨k r (a r), (s r).hist, false⟩ else s r) := by
  intro j
  induction j with
  | zero => intro _; exact ⟨0, by simpa using RunC.nil s⟩
  | succ j ih =>
    intro hj
    obtain ⟨n, hn⟩ := ih (by omega)
    refine hn.append (.step j (by omega) ?_ (.refl _))
    have hl : ∀ q < P, (s q).hist.length = m + 1 := by
      intro q hq
      obtain ⟨l, h1, h2⟩ := hh q hq
      rw [h1, List.length_append, h2]; rfl
    have hist : ∀ q, (if q < j then (⟨k q (a q), (s q).hist, false⟩ : RankC E ρ) else s q).hist = (s q).hist := by
      intro q; split <;> rfl
    unfold stepC
    simp only [lt_irrefl, if_false]
    rw [hp j (by omega)]
    dsimp only
    rw [if_neg (by rw [hw j (by omega)]; simp), if_pos]
    · rw [answer_congr (d := c), ha j (by omega)]
      · show some _ = some _
        congr 1
        funext r
        dsimp only
        by_cases h' : r = j
        · subst h'
          rw [Function.update_self, if_pos (by omega)]
        · rw [Function.update_of_ne h']
          by_cases h : r < j
          · rw [if_pos h, if_pos (by omega)]
          · rw [if_neg h, if_neg (by omega)]
      · intro q hq
        rw [hist, hl j (by omega)]
        obtain ⟨l, h1, h2⟩ := hh q hq
        rw [h1, List.getD_eq_getElem?_getD, List.getElem?_append_right (by omega)]
        simp [h2]
    · refine ⟨?_, fun q hq => ?_⟩
      · simp only [lt_irrefl, if_false]; exact hw j (by omega)
      · simp only [lt_irrefl, if_false]
        rw [hist, hl j (by omega), hl q hq]

theorem Comes.run {P : Nat} {p q : Nat → Spmd E ρ} (h : Comes P p q) {m : Nat} {s : Nat → RankC E ρ}
    (hp : ∀ r < P, (s r).prog = p r) (hw : ∀ r < P, (s r).waiting = false) (hl : ∀ r < P, (s r).hist.length = m) :
    ∃ n t m', RunC P n s t ∧ (∀ r < P, (t r).prog = q r) ∧ (∀ r < P, (t r).waiting = false) ∧
      ∀ r < P, (t r).hist.length = m' := by
  induction h generalizing m s with
  | refl h => exact ⟨0, s, m, .refl s, fun r hr => (hp r hr).trans (h r hr), hw, hl⟩
  | @call p q c k a h ha t ih =>
    obtain ⟨n1, R1⟩ := callAll_run hw P (le_refl _)
    have e : ∀ r < P, callAll P s r = ⟨.call (c r) (k r), (s r).hist ++ [c r], true⟩ := by
      intro r hr
      unfold callAll
      rw [if_pos hr, hp r hr, h r hr]
    obtain ⟨n2, R2⟩ := answered_run (s := callAll P s) (m := m) c k a (fun r hr => by rw [e r hr])
      (fun r hr => by rw [e r hr]) (fun r hr => ⟨(s r).hist, by rw [e r hr], hl r hr⟩) ha P (le_refl _)
    obtain ⟨n3, R3⟩ := R1.append R2
    obtain ⟨n4, t, m', R4, x1, x2, x3⟩ := ih (m := m + 1)
      (s := fun r => if r < P then ⟨k r (a r), (callAll P s r).hist, false⟩ else callAll P s r)
      (fun r hr => by simp [hr]) (fun r hr => by simp [hr]) (fun r hr => by simp [hr, e r hr, hl r hr])
    obtain ⟨n5, R5⟩ := R3.append R4
    exact ⟨n5, t, m', R5, x1, x2, x3⟩

/-- **A clash**: rank `i` makes a call and rank `j` none, or another one. -/
theorem Comes.stuck {P : Nat} {p q : Nat → Spmd E ρ} (h : Comes P p q) {i j : Nat} (hi : i < P) (hj : j < P)
    {c : CollOp E} {k : c.Reply → Spmd E ρ} (hc : q i = .call c k)
    (hd : ∀ d f, q j = .call d f → d.kind ≠ c.kind) : Stuck P p := by
  obtain ⟨n, t, m, R, h1, h2, h3⟩ := h.run (s := startC p) (m := 0) (fun _ _ => rfl) (fun _ _ => rfl) (fun _ _ => rfl)
  obtain ⟨n1, R1⟩ := callAll_run h2 P (le_refl _)
  obtain ⟨n2, R2⟩ := R.append R1
  have prog : ∀ r, (callAll P t r).prog = (t r).prog := by
    intro r
    unfold callAll
    split
    · split
      · rename_i e; exact e.symm
      · rfl
    · rfl
  refine ⟨n2, callAll P t, R2, fun r hr => ?_, i, hi, fun y => by rw [prog, h1 i hi, hc]; simp⟩
  unfold stepC
  rw [prog]
  cases hp : (t r).prog with
  | ret => rfl
  | ub => rfl
  | call d f =>
    dsimp only
    have er : callAll P t r = ⟨.call d f, (t r).hist ++ [d], true⟩ := by
      unfold callAll; rw [if_pos hr, hp]
    rw [er]
    dsimp only
    rw [if_neg (by simp)]
    have lr : ((t r).hist ++ [d]).length = m + 1 := by rw [List.length_append, h3 r hr]; rfl
    by_cases hR : ReadyC P (callAll P t) r
    · rw [if_pos hR]
      -- all ranks have made a call
      have hcall : ∀ x < P, ∃ d f, (t x).prog = .call d f ∧ (callAll P t x).hist = (t x).hist ++ [d] := by
        intro x hx
        have hlen := hR.2 x hx
        rw [er] at hlen
        dsimp only at hlen
        rw [lr] at hlen
        have : ∀ e, callAll P t x = e → m + 1 ≤ e.hist.length := by rintro e rfl; exact hlen
        unfold callAll at this
        rw [if_pos hx] at this
        cases hpx : (t x).prog with
        | ret y =>
          rw [hpx] at this
          have : m + 1 ≤ (t x).hist.length := this _ rfl
          have := h3 x hx
          omega
        | ub =>
          rw [hpx] at this
          have : m + 1 ≤ (t x).hist.length := this _ rfl
          have := h3 x hx
          omega
        | call d f =>
          refine ⟨d, f, rfl, ?_⟩
          unfold callAll
          rw [if_pos hx, hpx]
      obtain ⟨di, fi, e1, e2⟩ := hcall i hi
      obtain ⟨dj, fj, e3, e4⟩ := hcall j hj
      have hdi : di.kind = c.kind := by
        rw [h1 i hi, hc] at e1
        injection e1 with e1
        rw [e1]
      have hdj : dj.kind ≠ c.kind := hd dj fj (by rw [← h1 j hj]; exact e3)
      have hget : ∀ x < P, ∀ d', (callAll P t x).hist = (t x).hist ++ [d'] →
          (callAll P t x).hist.getD (((t r).hist ++ [d]).length - 1) d = d' := by
        intro x hx d' e
        rw [e, lr, List.getD_eq_getElem?_getD, List.getElem?_append_right (by rw [h3 x hx]; omega)]
        simp [h3 x hx]
      have hM : ∀ kd, ¬CollOp.Match P
          (fun q => (callAll P t q).hist.getD (((t r).hist ++ [d]).length - 1) d) kd := by
        intro kd hm
        have a1 := hm i hi
        have a2 := hm j hj
        dsimp only at a1 a2
        rw [hget i hi di e2] at a1
        rw [hget j hj dj e4] at a2
        exact hdj (by rw [a2, ← a1, hdi])
      have : CollOp.answer P (fun q => (callAll P t q).hist.getD (((t r).hist ++ [d]).length - 1) d) r d = none := by
        cases d with
        | max x => exact if_neg (hM _)
        | sum x => exact if_neg (hM _)
        | gather x => exact if_neg (hM _)
        | create x => exact if_neg fun h => hM _ h.1
        | barrier => exact if_neg (hM _)
      rw [this]
      rfl
    · rw [if_neg hR]

end FftMpi
