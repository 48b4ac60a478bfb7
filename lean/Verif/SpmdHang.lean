import Verif.SpmdMixed

/-!
# Programs that hang under every schedule

`Stuck` (`SpmdStuck.lean`) says that some schedule comes to a dead end.  Here: either the ranks return under every schedule,
or some rank returns under no schedule (`returns_or_hangs`), so that the first dead end decides.
-/

noncomputable section

namespace FftMpi

variable {α E π ρ σ τ : Type}

/-- Under every schedule: executions are bounded, and one rank never returns. -/
def Hangs (P : Nat) (p : Nat → Spmd E ρ) : Prop :=
  (∃ N, ∀ n t, RunC P n (startC p) t → n ≤ N) ∧
  ∃ r < P, ∀ n t, RunC P n (startC p) t → ∀ y, (t r).prog ≠ .ret y

/-- In lockstep the programs come to a point where not all ranks have returned and the calls do not fit together. -/
inductive FailsC (P : Nat) : (Nat → Spmd E ρ) → Prop where
  | here {p} (h : ∃ r < P, ∀ y, p r ≠ .ret y)
      (hs : ∀ (c : Nat → CollOp E) (k : ∀ r, (c r).Reply → Spmd E ρ), (∀ r < P, p r = .call (c r) (k r)) → ∀ r < P, CollOp.answer P c r (c r) = none) : FailsC P p
  | call {p} (c : Nat → CollOp E) (k : ∀ r, (c r).Reply → Spmd E ρ) (a : ∀ r, (c r).Reply)
      (h : ∀ r < P, p r = .call (c r) (k r)) (ha : ∀ r < P, CollOp.answer P c r (c r) = some (a r))
      (t : FailsC P (fun r => k r (a r))) : FailsC P p

/-- If one rank gets no answer, nobody does. -/
theorem answer_none {P : Nat} {c : Nat → CollOp E} {r : Nat} (hr : r < P) (h : CollOp.answer P c r (c r) = none)
    {q : Nat} (hq : q < P) : CollOp.answer P c q (c q) = none := by
  by_contra hn
  have hk : ∀ (x : Nat) (d : CollOp E), CollOp.answer P c x d ≠ none →
      CollOp.Match P c d.kind ∧ (d.kind = .create → CollOp.Groups P (fun q => (c q).grp)) := by
    intro x d hd
    cases d with
    | max y =>
      by_cases hm : CollOp.Match P c .max
      · exact ⟨hm, fun e => nomatch e⟩
      · exact absurd (if_neg hm) hd
    | sum y =>
      by_cases hm : CollOp.Match P c .sum
      · exact ⟨hm, fun e => nomatch e⟩
      · exact absurd (if_neg hm) hd
    | gather y =>
      by_cases hm : CollOp.Match P c .gather
      · exact ⟨hm, fun e => nomatch e⟩
      · exact absurd (if_neg hm) hd
    | create y =>
      by_cases hm : CollOp.Match P c .create ∧ CollOp.Groups P (fun q => (c q).grp)
      · exact ⟨hm.1, fun _ => hm.2⟩
      · exact absurd (if_neg hm) hd
    | barrier =>
      by_cases hm : CollOp.Match P c .barrier
      · exact ⟨hm, fun e => nomatch e⟩
      · exact absurd (if_neg hm) hd
  obtain ⟨h1, h2⟩ := hk q (c q) hn
  have e := h1 r hr
  rw [← e] at h1 h2
  revert h h1 h2
  generalize c r = d
  intro h h1 h2
  cases d with
  | max y => exact absurd ((if_pos (show CollOp.Match P c .max from h1)).symm.trans h) (by simp)
  | sum y => exact absurd ((if_pos (show CollOp.Match P c .sum from h1)).symm.trans h) (by simp)
  | gather y => exact absurd ((if_pos (show CollOp.Match P c .gather from h1)).symm.trans h) (by simp)
  | create y =>
    have hm : CollOp.Match P c .create ∧ CollOp.Groups P (fun q => (c q).grp) := ⟨h1, h2 rfl⟩
    exact absurd ((if_pos hm).symm.trans h) (by simp)
  | barrier => exact absurd ((if_pos (show CollOp.Match P c .barrier from h1)).symm.trans h) (by simp)

/-- Some reply. -/
def CollOp.dflt : (c : CollOp E) → c.Reply
  | .max _ => (0 : Int)
  | .sum _ => (0 : Int)
  | .gather e => fun _ : Nat => e
  | .create _ => (none : Option (List Nat))
  | .barrier => ()

/-- The call that the program begins with. -/
def Spmd.op : Spmd E ρ → CollOp E
  | .call c _ => c
  | _ => .barrier

/-- The program after that call. -/
def Spmd.next : (p : Spmd E ρ) → p.op.Reply → Spmd E ρ
  | .call _ k => k
  | .ret _ => fun _ => .ub
  | .ub => fun _ => .ub

/-- **Either or.** -/
theorem lock_or_fails {P : Nat} (hP : 0 < P) (p : Nat → Spmd E ρ) : (∃ x, Lock P p x) ∨ FailsC P p := by
  have key : ∀ (z : Spmd E ρ) (p : Nat → Spmd E ρ), p 0 = z → (∃ x, Lock P p x) ∨ FailsC P p := by
    intro z
    induction z with
    | ret x =>
      intro p h0
      by_cases hall : ∀ r < P, ∃ y, p r = .ret y
      · have : Nonempty ρ := ⟨x⟩
        choose! y hy using hall
        exact .inl ⟨y, .done hy⟩
      · push Not at hall
        exact .inr (.here hall fun c k hc => absurd ((hc 0 hP).symm.trans h0) (by simp))
    | ub =>
      intro p h0
      exact .inr (.here ⟨0, hP, fun y => by rw [h0]; simp⟩ fun c k hc => absurd ((hc 0 hP).symm.trans h0) (by simp))
    | call c0 k0 ih =>
      intro p h0
      have n0 : ∃ r < P, ∀ y, p r ≠ .ret y := ⟨0, hP, fun y => by rw [h0]; simp⟩
      by_cases hall : ∀ r < P, p r = .call (p r).op (p r).next
      · by_cases ha : ∀ r < P, (CollOp.answer P (fun q => (p q).op) r (p r).op).isSome
        · have ha' : ∀ r < P, CollOp.answer P (fun q => (p q).op) r (p r).op =
              some ((CollOp.answer P (fun q => (p q).op) r (p r).op).getD (p r).op.dflt) := by
            intro r hr
            obtain ⟨x, hx⟩ := Option.isSome_iff_exists.mp (ha r hr)
            rw [hx]; rfl
          have e0 : ∀ z : Spmd E ρ, z = .call c0 k0 → ∀ a : z.op.Reply, ∃ a', z.next a = k0 a' := by
            rintro _ rfl a; exact ⟨a, rfl⟩
          obtain ⟨a', e⟩ := e0 (p 0) h0 ((CollOp.answer P (fun q => (p q).op) 0 (p 0).op).getD (p 0).op.dflt)
          rcases ih a' (fun r => (p r).next ((CollOp.answer P (fun q => (p q).op) r (p r).op).getD (p r).op.dflt)) e with
            ⟨x, h⟩ | h
          · exact .inl ⟨x, .call _ _ _ hall ha' h⟩
          · exact .inr (.call _ _ _ hall ha' h)
        · push Not at ha
          obtain ⟨r, hr, hn⟩ := ha
          refine .inr (.here n0 fun c k hc q hq => ?_)
          have hn : CollOp.answer P (fun q => (p q).op) r (p r).op = none := by simpa using hn
          have ec : ∀ q < P, (p q).op = c q := fun q hq => by rw [hc q hq]; rfl
          have := answer_none (c := fun q => (p q).op) hr hn hq
          rw [answer_congr ec] at this
          rw [ec q hq] at this
          exact this
      · push Not at hall
        obtain ⟨r, hr, hn⟩ := hall
        refine .inr (.here n0 fun c k hc => absurd (hc r hr) fun h => hn ?_)
        rw [h]; rfl
  exact key _ p rfl

/-! ## Schedules -/

/-- The calls in lockstep up to the dead end, and the programs between them. -/
structure LevelsF (P n : Nat) (lev : Nat → Nat → Spmd E ρ) (C : Nat → Nat → CollOp E) : Prop where
  call : ∀ i < n, ∀ r < P, ∃ k a, lev i r = .call (C i r) k ∧ CollOp.answer P (C i) r (C i r) = some a ∧
    lev (i + 1) r = k a
  last : ∀ r < P, ∀ c k, lev n r = .call c k → c = C n r
  stop : (∀ r < P, ∃ k, lev n r = .call (C n r) k) → ∀ r < P, CollOp.answer P (C n) r (C n r) = none
  left : ∃ r < P, ∀ y, lev n r ≠ .ret y

theorem FailsC.levels {P : Nat} {p : Nat → Spmd E ρ} (h : FailsC P p) :
    ∃ n lev C, LevelsF P n lev C ∧ ∀ r < P, lev 0 r = p r := by
  induction h with
  | @here p h hs =>
    refine ⟨0, fun _ => p, fun _ r => (p r).op, ⟨fun i hi => absurd hi (Nat.not_lt_zero _), fun r hr c k e => ?_,
      fun hk => ?_, h⟩, fun _ _ => rfl⟩
    · show c = (p r).op
      rw [show p r = _ from e]; rfl
    · refine hs (fun r => (p r).op) (fun r => (p r).next) fun r hr => ?_
      obtain ⟨k, e⟩ := hk r hr
      have : ∀ (z : Spmd E ρ) (c : CollOp E) (k : c.Reply → Spmd E ρ), z = .call c k → z = .call z.op z.next := by
        rintro _ c k rfl; rfl
      exact this _ _ _ e
  | @call p c k a h ha t ih =>
    obtain ⟨n, lev, C, L, h0⟩ := ih
    refine ⟨n + 1, fun i r => match i with | 0 => p r | i + 1 => lev i r,
      fun i r => match i with | 0 => c r | i + 1 => C i r, ⟨?_, L.last, L.stop, L.left⟩, fun _ _ => rfl⟩
    intro i hi r hr
    cases i with
    | zero => exact ⟨k r, a r, h r hr, ha r hr, h0 r hr⟩
    | succ i => exact L.call i (by omega) r hr

structure AlongF (P n : Nat) (lev : Nat → Nat → Spmd E ρ) (C : Nat → Nat → CollOp E) (t : Nat → RankC E ρ)
    (pos : Nat → Nat) : Prop where
  le : ∀ r < P, pos r ≤ n
  prog : ∀ r < P, (t r).prog = lev (pos r) r
  free : ∀ r < P, (t r).waiting = false → (t r).hist = (List.range (pos r)).map fun i => C i r
  wait : ∀ r < P, (t r).waiting = true →
    (∃ k, lev (pos r) r = .call (C (pos r) r) k) ∧ (t r).hist = (List.range (pos r + 1)).map fun i => C i r

section

variable {P n : Nat} {lev : Nat → Nat → Spmd E ρ} {C : Nat → Nat → CollOp E} {t : Nat → RankC E ρ} {pos : Nat → Nat}

theorem AlongF.len (A : AlongF P n lev C t pos) {r : Nat} (hr : r < P) :
    (t r).hist.length = pos r + (if (t r).waiting then 1 else 0) := by
  cases h : (t r).waiting
  · rw [A.free r hr h]; simp
  · rw [(A.wait r hr h).2]; simp

theorem AlongF.hist (A : AlongF P n lev C t pos) {r i : Nat} (hr : r < P) (hi : i < (t r).hist.length) (d : CollOp E) :
    (t r).hist.getD i d = C i r := by
  have : ∃ m, (t r).hist = (List.range m).map fun i => C i r := by
    cases h : (t r).waiting
    · exact ⟨_, A.free r hr h⟩
    · exact ⟨_, (A.wait r hr h).2⟩
  obtain ⟨m, hm⟩ := this
  rw [hm, List.length_map, List.length_range] at hi
  rw [hm, List.getD_eq_getElem?_getD, List.getElem?_map, List.getElem?_range hi]
  rfl

theorem LevelsF.op (L : LevelsF P n lev C) {i r : Nat} (hi : i ≤ n) (hr : r < P) {c : CollOp E}
    {k : c.Reply → Spmd E ρ} (h : lev i r = .call c k) : c = C i r := by
  rcases Nat.lt_or_ge i n with hn | hn
  · obtain ⟨k', a, e, -⟩ := L.call i hn r hr
    rw [h] at e
    injection e
  · obtain rfl : i = n := by omega
    exact L.last r hr c k h

theorem AlongF.step (L : LevelsF P n lev C) {u : Nat → RankC E ρ} (A : AlongF P n lev C t pos) {r : Nat} (hr : r < P)
    (h : stepC P t r = some u) : (∃ pos', AlongF P n lev C u pos') ∧ (∀ q, q ≠ r → u q = t q) ∧
      2 * (u r).hist.length + (if (t r).waiting then 1 else 0) =
        2 * (t r).hist.length + (if (u r).waiting then 1 else 0) + 1 := by
  unfold stepC at h
  have hp := A.prog r hr
  cases hl : lev (pos r) r with
  | ret x => rw [hp, hl] at h; exact absurd h (by simp)
  | ub => rw [hp, hl] at h; exact absurd h (by simp)
  | call c f =>
    have ec := L.op (A.le r hr) hr hl
    rw [hp, hl] at h
    dsimp only at h
    by_cases hw : (t r).waiting = false
    · rw [if_pos hw] at h
      obtain rfl := Option.some.inj h
      refine ⟨⟨pos, A.le, ?_, ?_, ?_⟩, fun q hq => Function.update_of_ne hq _ _, ?_⟩
      · intro q hq
        by_cases e : q = r
        · subst e; rw [Function.update_self]; exact A.prog q hq
        · rw [Function.update_of_ne e]; exact A.prog q hq
      · intro q hq
        by_cases e : q = r
        · subst e; rw [Function.update_self]; intro hh; exact absurd hh (by simp)
        · rw [Function.update_of_ne e]; exact A.free q hq
      · intro q hq
        by_cases e : q = r
        · subst e
          rw [Function.update_self]
          intro _
          subst ec
          refine ⟨⟨f, hl⟩, ?_⟩
          show _ ++ _ = _
          rw [A.free q hq hw, List.range_succ, List.map_append]
          rfl
        · rw [Function.update_of_ne e]; exact A.wait q hq
      · rw [Function.update_self, hw]
        simp
        omega
    · rw [if_neg hw] at h
      have hw' : (t r).waiting = true := by simpa using hw
      by_cases hR : ReadyC P t r
      · rw [if_pos hR] at h
        have hlen := A.len hr
        rw [hw'] at hlen
        have hi : (t r).hist.length - 1 = pos r := by simp [hlen]
        have hcong : CollOp.answer P (fun q => (t q).hist.getD ((t r).hist.length - 1) c) r c =
            CollOp.answer P (C (pos r)) r c := by
          refine answer_congr (fun q hq => ?_) _ _
          have := hR.2 q hq
          rw [hi]
          exact A.hist hq (by simp at hlen; omega) _
        rw [hcong] at h
        rcases Nat.lt_or_ge (pos r) n with hn | hn
        · obtain ⟨k, a, e1, e2, e3⟩ := L.call (pos r) hn r hr
          subst ec
          have ek : f = k := by rw [hl] at e1; injection e1
          subst ek
          rw [e2] at h
          obtain rfl := Option.some.inj h
          refine ⟨⟨Function.update pos r (pos r + 1), ?_, ?_, ?_, ?_⟩, fun q hq => Function.update_of_ne hq _ _, ?_⟩
          · intro q hq
            by_cases e : q = r
            · subst e; rw [Function.update_self]; omega
            · rw [Function.update_of_ne e]; exact A.le q hq
          · intro q hq
            by_cases e : q = r
            · subst e; dsimp only; rw [Function.update_self, Function.update_self, e3]
            · dsimp only; rw [Function.update_of_ne e, Function.update_of_ne e]; exact A.prog q hq
          · intro q hq
            by_cases e : q = r
            · subst e
              dsimp only
              rw [Function.update_self, Function.update_self]
              intro _
              exact (A.wait q hq hw').2
            · dsimp only; rw [Function.update_of_ne e, Function.update_of_ne e]; exact A.free q hq
          · intro q hq
            by_cases e : q = r
            · subst e; dsimp only; rw [Function.update_self]; intro hh; exact absurd hh (by simp)
            · dsimp only; rw [Function.update_of_ne e, Function.update_of_ne e]; exact A.wait q hq
          · simp [hw']
        · -- the last level: everybody waits
          have hn' : pos r = n := by have := A.le r hr; omega
          have hall : ∀ q < P, ∃ k, lev n q = .call (C n q) k := by
            intro q hq
            have h1 := hR.2 q hq
            have h2 := A.len hq
            have h3 := A.le q hq
            have hwq : (t q).waiting = true := by
              cases hwq : (t q).waiting
              · rw [hwq] at h2; simp at h2 hlen; omega
              · rfl
            rw [hwq] at h2
            have : pos q = n := by simp at h2 hlen; omega
            have := (A.wait q hq hwq).1
            rwa [‹pos q = n›] at this
          have hnone := L.stop hall r hr
          rw [← hn', ← ec] at hnone
          rw [hnone] at h
          exact absurd h (by simp)
      · rw [if_neg hR] at h
        exact absurd h (by simp)

theorem AlongF.count (L : LevelsF P n lev C) {k : Nat} {u : Nat → RankC E ρ} (R : RunC P k t u)
    (A : ∃ pos, AlongF P n lev C t pos) : (∃ pos, AlongF P n lev C u pos) ∧
      k + (∑ r ∈ Finset.range P, (2 * (t r).hist.length + (if (t r).waiting then 0 else 1))) =
        ∑ r ∈ Finset.range P, (2 * (u r).hist.length + (if (u r).waiting then 0 else 1)) := by
  induction R with
  | refl => exact ⟨A, by omega⟩
  | @step k s t u r hr h q ih =>
    obtain ⟨pos, A⟩ := A
    obtain ⟨A', h1, h2⟩ := A.step L hr h
    obtain ⟨B, e⟩ := ih A'
    refine ⟨B, ?_⟩
    rw [← e]
    have hm : r ∈ Finset.range P := Finset.mem_range.mpr hr
    rw [← Finset.add_sum_erase _ _ hm, ← Finset.add_sum_erase (Finset.range P) (fun r => 2 * (t r).hist.length + _) hm]
    have : ∑ y ∈ (Finset.range P).erase r, (2 * (t y).hist.length + (if (t y).waiting then 0 else 1)) =
        ∑ y ∈ (Finset.range P).erase r, (2 * (s y).hist.length + (if (s y).waiting then 0 else 1)) :=
      Finset.sum_congr rfl fun y hy => by rw [h1 y (Finset.ne_of_mem_erase hy)]
    rw [this]
    cases h3 : (s r).waiting <;> cases h4 : (t r).waiting <;> rw [h3, h4] at h2 <;> simp at h2 ⊢ <;> omega

end

theorem FailsC.hangs {P : Nat} {p : Nat → Spmd E ρ} (h : FailsC P p) : Hangs P p := by
  obtain ⟨n, lev, C, L, h0⟩ := h.levels
  have A0 : AlongF P n lev C (startC p) (fun _ => 0) := by
    refine ⟨fun _ _ => Nat.zero_le _, fun r hr => (h0 r hr).symm, fun _ _ _ => rfl, fun r hr hw => ?_⟩
    exact absurd hw (by simp [startC])
  refine ⟨⟨(2 * n + 3) * P, fun k t R => ?_⟩, ?_⟩
  · obtain ⟨⟨pos, A⟩, e⟩ := AlongF.count L R ⟨_, A0⟩
    have : ∑ r ∈ Finset.range P, (2 * (t r).hist.length + (if (t r).waiting then 0 else 1)) ≤
        ∑ r ∈ Finset.range P, (2 * n + 3) := by
      refine Finset.sum_le_sum fun r hr => ?_
      have hr := Finset.mem_range.mp hr
      rw [A.len hr]
      have := A.le r hr
      cases hw : (t r).waiting <;> simp <;> omega
    rw [Finset.sum_const, Finset.card_range, nsmul_eq_mul, mul_comm] at this
    simp only [Nat.cast_id] at this
    omega
  · obtain ⟨r, hr, hn⟩ := L.left
    refine ⟨r, hr, fun k t R y => ?_⟩
    obtain ⟨⟨pos, A⟩, -⟩ := AlongF.count L R ⟨_, A0⟩
    rw [A.prog r hr]
    rcases Nat.lt_or_ge (pos r) n with h | h
    · obtain ⟨k, a, e, -⟩ := L.call (pos r) h r hr
      rw [e]; simp
    · rw [show pos r = n by have := A.le r hr; omega]
      exact hn y

/-- **The ranks return under every schedule, or one of them returns under none.** -/
theorem returns_or_hangs {P : Nat} (hP : 0 < P) (p : Nat → Spmd E ρ) : (∃ x, Returns P p x) ∨ Hangs P p := by
  rcases lock_or_fails hP p with ⟨x, h⟩ | h
  · exact .inl ⟨x, h.returns⟩
  · exact .inr h.hangs

theorem RunC.snoc {P n : Nat} {s t u : Nat → RankC E ρ} (R : RunC P n s t) {r : Nat} (hr : r < P)
    (h : stepC P t r = some u) : RunC P (n + 1) s u := by
  induction R with
  | refl s => exact .step r hr h (.refl _)
  | step q hq hs _ ih => exact .step q hq hs (ih h)

/-- Some execution cannot be continued, if their lengths are bounded. -/
theorem RunC.maximal {P N : Nat} {s : Nat → RankC E ρ} (hN : ∀ n t, RunC P n s t → n ≤ N) :
    ∃ n t, RunC P n s t ∧ ∀ r < P, stepC P t r = none := by
  by_contra hc
  push Not at hc
  have : ∀ m, ∃ t, RunC P m s t := by
    intro m
    induction m with
    | zero => exact ⟨s, .refl s⟩
    | succ m ih =>
      obtain ⟨t, R⟩ := ih
      obtain ⟨r, hr, h⟩ := hc m t R
      obtain ⟨u, hu⟩ := Option.ne_none_iff_exists'.mp h
      exact ⟨u, R.snoc hr hu⟩
  obtain ⟨t, R⟩ := this (N + 1)
  have := hN _ _ R
  omega

theorem Hangs.stuck {P : Nat} {p : Nat → Spmd E ρ} (h : Hangs P p) : Stuck P p := by
  obtain ⟨⟨N, hN⟩, r, hr, hn⟩ := h
  obtain ⟨n, t, R, hs⟩ := RunC.maximal hN
  exact ⟨n, t, R, hs, r, hr, hn n t R⟩

theorem Stuck.hangs {P : Nat} {p : Nat → Spmd E ρ} (h : Stuck P p) : Hangs P p := by
  obtain ⟨n, t, R, hs, r, hr, hn⟩ := id h
  rcases returns_or_hangs (Nat.lt_of_le_of_lt (Nat.zero_le r) hr) p with ⟨x, hx⟩ | hh
  · exact absurd hx (h.not_returns x)
  · exact hh

theorem Hangs.not_lock {P : Nat} {p : Nat → Spmd E ρ} (h : Hangs P p) {x : Nat → ρ} : ¬Lock P p x :=
  fun l => h.stuck.not_returns x l.returns

end FftMpi
