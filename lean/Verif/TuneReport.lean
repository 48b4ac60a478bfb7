import Verif.TuneLemmas
import Mathlib.Tactic.Ring
import Mathlib.Tactic.Linarith
import Mathlib.Tactic.FieldSimp
import Mathlib.Tactic.NormNum

/-!
# What `tune` leaves behind, in one statement
-/

namespace FftMpi

variable {fs : Settings → Int} {own root : Clock}

/-- The trials that `tune` runs after the first one, for a number `nruns` of runs that the budget allows:
how many of the earlier runs are reported, the pairs of `collective` and `exchange`, the values of
`packflag`. -/
def tunePlan (nruns : Int) (st : Settings) : Nat × List (Int × Int) × List Int :=
  if nruns ≥ 10 then (0, [(0, 0), (0, 1), (1, 0), (1, 1), (2, 0), (2, 1)], [0, 1, 2])
  else if nruns ≥ 7 then (0, [(0, 0), (0, 1), (1, 0), (1, 1), (2, 0), (2, 1)], [])
  else if nruns ≥ 4 then (0, [(0, 0), (1, 0), (2, 0)], [])
  else if nruns = 3 then (0, [(1, 0), (2, 0)], [])
  else if nruns = 2 ∧ st ≠ ⟨2, 0, 2⟩ then (1, [(2, 0)], [])
  else (1, [], [])

/-- The members after `tune`. -/
structure Report (fs : Settings → Int) (root own : Clock) (b : Budget) (flag : Int) (s r : TuneSt)
    (n0 : Nat) (ce : List (Int × Int)) (ps : List Int) : Prop where
  len : r.runs.length = 1 + ce.length + ps.length
  ntrial : r.ntrial = n0 + ce.length + ps.length
  memoryflag : r.memoryflag = s.memoryflag
  npertrial : r.npertrial = b.niter
  first : ∃ d, fs s.st ≤ d ∧ r.runs[0]? = some ⟨s.st, 1, 1, 0, fs s.st, d⟩
  rest : ∀ i st, (ce.map (fun x => (⟨x.1, x.2, 2⟩ : Settings)) ++
      ps.map fun x => ⟨r.st.collective, r.st.exchange, x⟩)[i]? = some st →
    ∃ d, fs st ≤ d ∧ r.runs[1 + i]? = some ⟨st, 1, b.niter, b.tflag, fs st, d⟩
  slots : ∀ i < r.ntrial, ∃ q, r.runs[1 - n0 + i]? = some q ∧
    r.slots i = ⟨q.st, (tuneTrial (own.run (1 - n0 + i)) q.tflag).scale root.fp (tuneScale root.fp flag b.niter)⟩
  none : ce = [] → r.st = s.st ∧ ps = [] ∧ r.besttime = root.fp ((root.run 0).tfft * tuneScale root.fp flag b.niter)
  ceBest : ce ≠ [] → ∃ k x, ce[k]? = some x ∧ r.st.collective = x.1 ∧ r.st.exchange = x.2 ∧
    (∀ i < ce.length, (own.run (1 + k)).tfft ≤ (own.run (1 + i)).tfft) ∧
    (∀ i < k, (own.run (1 + k)).tfft < (own.run (1 + i)).tfft) ∧
    (ps = [] → r.st.packflag = 2 ∧ r.besttime = root.fp ((own.run (1 + k)).tfft * tuneScale root.fp flag b.niter))
  pBest : ps ≠ [] → ∃ k x, ps[k]? = some x ∧ r.st.packflag = x ∧
    (∀ i < ps.length, (own.run (1 + ce.length + k)).tfft ≤ (own.run (1 + ce.length + i)).tfft) ∧
    (∀ i < k, (own.run (1 + ce.length + k)).tfft < (own.run (1 + ce.length + i)).tfft) ∧
    r.besttime = root.fp ((own.run (1 + ce.length + k)).tfft * tuneScale root.fp flag b.niter)

theorem Shape.report {b : Budget} {flag : Int} {s s1 s2 r : TuneSt} {ce : List (Int × Int)} {ps : List Int}
    (n0 : Nat) (hn0 : n0 = 0 ∨ n0 = 1 ∧ b.tflag = 0)
    (R1 : Ran fs own 1 0 { s with ntrial := 0, maxfftsize := 0, runs := [] } [s.st] { s1 with ntrial := 1 })
    (l1 : s1.runs.length = 1) (hce : ce ≠ []) (n2 : s2.ntrial = n0) (r2 : s2.runs = s1.runs)
    (sl2 : s2.slots = s1.slots) (hm : r.memoryflag = s.memoryflag) (hnp : r.npertrial = b.niter)
    (h : Shape root.fp fs own b.niter b.tflag flag s2 ce ps r) :
    Report fs root own b flag s r n0 ce ps := by
  obtain ⟨⟨s4, R4, q1, q2, q3⟩, hb, hp⟩ := h
  have n4 := R4.ntrial
  have l4 := R4.len
  simp only [List.length_append, List.length_map] at n4 l4
  rw [r2, l1] at l4
  rw [n2] at n4
  rw [r2, l1] at hb hp
  refine ⟨by rw [q2, l4]; omega, by rw [q1, n4]; omega, hm, hnp, ?_, ?_, ?_, ?_, ?_, hp⟩
  · obtain ⟨d, hd, e⟩ := R1.newRun 0 s.st rfl
    refine ⟨d, hd, ?_⟩
    rw [q2, R4.oldRun 0 (by rw [r2, l1]; omega), r2]
    simpa using e
  · intro i st hst
    obtain ⟨d, hd, e⟩ := R4.newRun i st hst
    rw [r2, l1] at e
    exact ⟨d, hd, by rw [q2]; exact e⟩
  · intro i hi
    rw [q1] at hi
    rw [q3 i hi]
    have new : ∀ i, n0 + i < s4.ntrial → ∃ q, r.runs[1 + i]? = some q ∧
        s4.slots (n0 + i) = ⟨q.st, tuneTrial (own.run (1 + i)) q.tflag⟩ := by
      intro i hi
      obtain ⟨st, hst⟩ : ∃ st, (ce.map (fun x => (⟨x.1, x.2, 2⟩ : Settings)) ++
          ps.map fun x => ⟨r.st.collective, r.st.exchange, x⟩)[i]? = some st := by
        exact ⟨_, List.getElem?_eq_getElem (by simp only [List.length_append, List.length_map]; omega)⟩
      obtain ⟨d, hd, e⟩ := R4.newRun i st hst
      have es := R4.newSlot i st hst
      rw [r2, l1] at e es
      rw [n2] at es
      exact ⟨_, by rw [q2]; exact e, es⟩
    rcases hn0 with rfl | ⟨rfl, htf⟩
    · obtain ⟨q, e1, e2⟩ := new i (by omega)
      refine ⟨q, by simpa using e1, ?_⟩
      rw [Nat.zero_add] at e2
      rw [e2]
    · cases i with
      | zero =>
        obtain ⟨d, hd, e⟩ := R1.newRun 0 s.st rfl
        have es := R1.newSlot 0 s.st rfl
        simp only [List.length_nil, Nat.add_zero] at e es
        refine ⟨_, by rw [q2, R4.oldRun 0 (by rw [r2, l1]; omega), r2]; exact e, ?_⟩
        rw [R4.oldSlot 0 (by omega), sl2, es]
      | succ i =>
        obtain ⟨q, e1, e2⟩ := new i (by omega)
        refine ⟨q, ?_, ?_⟩
        · rw [← e1]; congr 1; omega
        · rw [Nat.add_comm i 1, e2, Nat.sub_self, Nat.zero_add]
  · intro h; exact absurd h hce
  · intro _; exact hb

/-- The number of iterations that the time allows, fft3d.cpp:810. -/
def timeQuot (fp : ℚ → ℚ) (t : TuneArgs) (ts tf : ℚ) : ℚ := fp (fp (fp (t.tmax / 10) - ts) / tf)

/-- `timetotal`, fft3d.cpp:805-806. -/
def timeTotal (fp : ℚ → ℚ) (t : TuneArgs) (ts tf : ℚ) : ℚ :=
  if t.tflag ≠ 0 then fp (10 * fp (ts + fp (3 * t.niter * tf))) else fp (10 * fp (ts + fp (t.niter * tf)))

theorem tuneBudget_cases {fp : ℚ → ℚ} {t : TuneArgs} {ts tf : ℚ} {b : Budget} (h : tuneBudget fp t ts tf = some b) :
    (¬ (t.tmax > 0 ∧ timeTotal fp t ts tf > t.tmax) ∧ b = ⟨t.niter, t.tflag, 10⟩) ∨
    (t.tmax > 0 ∧ timeTotal fp t ts tf > t.tmax) ∧ tf ≠ 0 ∧ ∃ n1,
      castInt (if t.tflag ≠ 0 then fp (timeQuot fp t ts tf / 3) else timeQuot fp t ts tf) = some n1 ∧
      (0 < n1 ∧ b = ⟨n1, t.tflag, 10⟩ ∨
        n1 ≤ 0 ∧ ∃ n2, castInt (timeQuot fp t ts tf) = some n2 ∧
          (0 < n2 ∧ b = ⟨n2, 0, 10⟩ ∨
            n2 ≤ 0 ∧ fp (ts + tf) ≠ 0 ∧ ∃ n3, castInt (fp (t.tmax / fp (ts + tf))) = some n3 ∧ b = ⟨1, 0, n3⟩)) := by
  unfold tuneBudget at h
  by_cases h1 : t.tflag ≠ 0 ∧ ¬ isInt (3 * t.niter)
  · rw [if_pos h1] at h; cases h
  rw [if_neg h1] at h
  change (if t.tmax > 0 ∧ timeTotal fp t ts tf > t.tmax then _ else _) = _ at h
  by_cases h2 : t.tmax > 0 ∧ timeTotal fp t ts tf > t.tmax
  · refine Or.inr ⟨h2, ?_⟩
    rw [if_pos h2, Option.bind_eq_bind, Option.bind_eq_some_iff] at h
    obtain ⟨q, hq, h⟩ := h
    unfold fdiv at hq
    by_cases htf : tf = 0
    · rw [if_pos htf] at hq; cases hq
    rw [if_neg htf] at hq
    obtain rfl := Option.some.inj hq
    refine ⟨htf, ?_⟩
    rw [Option.bind_eq_bind, Option.bind_eq_some_iff] at h
    obtain ⟨n1, hn1, h⟩ := h
    refine ⟨n1, hn1, ?_⟩
    by_cases h3 : n1 ≤ 0
    · refine Or.inr ⟨h3, ?_⟩
      rw [if_pos h3, Option.bind_eq_some_iff] at h
      obtain ⟨n2, hn2, h⟩ := h
      refine ⟨n2, hn2, ?_⟩
      by_cases h4 : n2 ≤ 0
      · refine Or.inr ⟨h4, ?_⟩
        rw [if_pos h4, Option.bind_eq_some_iff] at h
        obtain ⟨r, hr, h⟩ := h
        unfold fdiv at hr
        by_cases hs : fp (ts + tf) = 0
        · rw [if_pos hs] at hr; cases hr
        rw [if_neg hs] at hr
        obtain rfl := Option.some.inj hr
        rw [Option.bind_eq_some_iff] at h
        obtain ⟨n3, hn3, h⟩ := h
        exact ⟨hs, n3, hn3, (Option.some.inj h).symm⟩
      · rw [if_neg h4] at h
        exact Or.inl ⟨not_le.mp h4, (Option.some.inj h).symm⟩
    · rw [if_neg h3] at h
      exact Or.inl ⟨not_le.mp h3, (Option.some.inj h).symm⟩
  · rw [if_neg h2] at h
    exact Or.inl ⟨h2, (Option.some.inj h).symm⟩

theorem tuneBudget_small {fp : ℚ → ℚ} {t : TuneArgs} {ts tf : ℚ} {b : Budget} (h : tuneBudget fp t ts tf = some b)
    (hn : b.nruns ≠ 10) : b.niter = 1 ∧ b.tflag = 0 := by
  rcases tuneBudget_cases h with ⟨-, rfl⟩ | ⟨-, -, n1, -, ⟨-, rfl⟩ | ⟨-, n2, -, ⟨-, rfl⟩ | ⟨-, -, n3, -, rfl⟩⟩⟩
  · exact absurd rfl hn
  · exact absurd rfl hn
  · exact absurd rfl hn
  · exact ⟨rfl, rfl⟩

/-- If the checks pass, the conversions have a defined result and no measured time reaches `BIG`, `tune`
ends and leaves a `Report` of the planned trials. -/
theorem tune_report {sf : Bool} {t : TuneArgs} {s : TuneSt} {b : Budget} (hc : tuneCheck sf t = none)
    (hb : tuneBudget root.fp t root.setup0 (root.run 0).tfft = some b) (hbig : ∀ k, (own.run k).tfft < tuneBIG) :
    ∃ r, tune fs root own sf t s = some (.ok r) ∧
      Report fs root own b t.flag s r (tunePlan b.nruns s.st).1 (tunePlan b.nruns s.st).2.1
        (tunePlan b.nruns s.st).2.2 := by
  obtain ⟨s1, R1, st1, n1, l1, ht, -⟩ := tune_eq (fs := fs) (own := own) root sf t s hc
  rw [ht b hb]
  have small := tuneBudget_small hb
  have six : cePairs (0, 3, 0, 2) = [(0, 0), (0, 1), (1, 0), (1, 1), (2, 0), (2, 1)] := by decide
  have three : cePairs (0, 3, 0, 1) = [(0, 0), (1, 0), (2, 0)] := by decide
  have two : cePairs (1, 3, 0, 1) = [(1, 0), (2, 0)] := by decide
  have one : cePairs (2, 3, 0, 1) = [(2, 0)] := by decide
  have pk : loopVals 0 3 = [0, 1, 2] := by decide
  unfold tuneBounds tunePlan
  rw [← st1]
  by_cases h9 : b.nruns - 1 ≥ 9
  · rw [if_pos h9, if_pos (show b.nruns ≥ 10 by omega)]
    obtain ⟨r, e, hm, hnp, S⟩ := tuneTail_cep (fs := fs) (own := own) b t.flag s.memoryflag (0, 3, 0, 2) (0, 3)
      { s1 with ntrial := 0 } (by decide) (by decide) (by simp only [six, pk]; simp) hbig
    rw [six] at S
    simp only [pk] at S
    exact ⟨r, congrArg (Option.map Except.ok) e,
      Shape.report (s2 := { s1 with ntrial := 0 }) 0 (Or.inl rfl) R1 l1 (by simp) rfl rfl rfl hm hnp S⟩
  rw [if_neg h9, if_neg (show ¬ b.nruns ≥ 10 by omega)]
  by_cases h6 : b.nruns - 1 ≥ 6
  · rw [if_pos h6, if_pos (show b.nruns ≥ 7 by omega)]
    obtain ⟨r, e, hm, hnp, S⟩ := tuneTail_ce (fs := fs) (own := own) b t.flag s.memoryflag (0, 3, 0, 2)
      { s1 with ntrial := 0, pbest := some 2 } (by decide) (by simp only [six]; simp) rfl hbig
    rw [six] at S
    exact ⟨r, congrArg (Option.map Except.ok) e,
      Shape.report (s2 := { s1 with ntrial := 0, pbest := some 2 }) 0 (Or.inl rfl) R1 l1 (by simp) rfl rfl rfl hm hnp S⟩
  rw [if_neg h6, if_neg (show ¬ b.nruns ≥ 7 by omega)]
  by_cases h3 : b.nruns - 1 ≥ 3
  · rw [if_pos h3, if_pos (show b.nruns ≥ 4 by omega)]
    obtain ⟨r, e, hm, hnp, S⟩ := tuneTail_ce (fs := fs) (own := own) b t.flag s.memoryflag (0, 3, 0, 1)
      { s1 with ntrial := 0, pbest := some 2 } (by decide) (by simp only [three]; simp) rfl hbig
    rw [three] at S
    exact ⟨r, congrArg (Option.map Except.ok) e,
      Shape.report (s2 := { s1 with ntrial := 0, pbest := some 2 }) 0 (Or.inl rfl) R1 l1 (by simp) rfl rfl rfl hm hnp S⟩
  rw [if_neg h3, if_neg (show ¬ b.nruns ≥ 4 by omega)]
  by_cases h2 : b.nruns - 1 = 2
  · rw [if_pos h2, if_pos (show b.nruns = 3 by omega)]
    obtain ⟨r, e, hm, hnp, S⟩ := tuneTail_ce (fs := fs) (own := own) b t.flag s.memoryflag (1, 3, 0, 1)
      { s1 with ntrial := 0, pbest := some 2 } (by decide) (by simp only [two]; simp) rfl hbig
    rw [two] at S
    exact ⟨r, congrArg (Option.map Except.ok) e,
      Shape.report (s2 := { s1 with ntrial := 0, pbest := some 2 }) 0 (Or.inl rfl) R1 l1 (by simp) rfl rfl rfl hm hnp S⟩
  rw [if_neg h2, if_neg (show ¬ b.nruns = 3 by omega)]
  by_cases h1 : b.nruns - 1 = 1 ∧ s1.st ≠ tuneDefaults
  · rw [if_pos h1, if_pos (show b.nruns = 2 ∧ s1.st ≠ ⟨2, 0, 2⟩ from ⟨by omega, h1.2⟩)]
    obtain ⟨r, e, hm, hnp, S⟩ := tuneTail_ce (fs := fs) (own := own) b t.flag s.memoryflag (2, 3, 0, 1)
      { s1 with ntrial := 1, pbest := some 2 } (by decide) (by simp only [one]; simp) rfl hbig
    rw [one] at S
    exact ⟨r, congrArg (Option.map Except.ok) e,
      Shape.report (s2 := { s1 with ntrial := 1, pbest := some 2 }) 1 (Or.inr ⟨rfl, (small (by omega)).2⟩) R1 l1 (by simp) rfl rfl rfl hm hnp S⟩
  rw [if_neg h1, if_neg (show ¬ (b.nruns = 2 ∧ s1.st ≠ ⟨2, 0, 2⟩) from fun h => h1 ⟨by omega, h.2⟩)]
  refine ⟨_, rfl, ?_⟩
  obtain ⟨d, hd, e⟩ := R1.newRun 0 s.st rfl
  have es := R1.newSlot 0 s.st rfl
  simp only [List.length_nil, Nat.add_zero] at e es
  refine ⟨by simp [scaleStage, l1], by simp [scaleStage], rfl, rfl, ⟨d, hd, e⟩, by simp, ?_, ?_, ?_, ?_⟩
  · intro i hi
    have : i = 0 := by simp [scaleStage] at hi; exact hi
    subst this
    refine ⟨_, e, ?_⟩
    simp only [scaleStage, Function.update_self, es, if_pos, Nat.lt_one_iff, scale_eq]
    rw [st1]
  · intro _
    exact ⟨st1, rfl, by simp only [scaleStage, scale_eq]⟩
  · intro h; exact absurd rfl h
  · intro h; exact absurd rfl h

end FftMpi
