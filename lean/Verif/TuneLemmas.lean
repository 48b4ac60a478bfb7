import Verif.Tune

/-!
# Lemmas on `tune`: what a sequence of timing trials leaves behind
-/

namespace FftMpi

variable {fs : Settings → Int} {own : Clock}

/-- From `s` to `s'` the trials with settings `L` were run, `niter` and `tflag` each. -/
structure Ran (fs : Settings → Int) (own : Clock) (niter tflag : Int) (s : TuneSt) (L : List Settings)
    (s' : TuneSt) : Prop where
  ntrial : s'.ntrial = s.ntrial + L.length
  len : s'.runs.length = s.runs.length + L.length
  oldRun : ∀ i < s.runs.length, s'.runs[i]? = s.runs[i]?
  newRun : ∀ i st, L[i]? = some st → ∃ d, fs st ≤ d ∧
    s'.runs[s.runs.length + i]? = some ⟨st, 1, niter, tflag, fs st, d⟩
  oldSlot : ∀ j < s.ntrial, s'.slots j = s.slots j
  newSlot : ∀ i st, L[i]? = some st →
    s'.slots (s.ntrial + i) = ⟨st, tuneTrial (own.run (s.runs.length + i)) tflag⟩

theorem Ran.nil (niter tflag : Int) (s : TuneSt) : Ran fs own niter tflag s [] s :=
  ⟨by simp, by simp, fun _ _ => rfl, by simp, fun _ _ => rfl, by simp⟩

theorem Ran.append {niter tflag : Int} {L2 : List Settings} {s s1 s' : TuneSt} (L1 : List Settings)
    (h1 : Ran fs own niter tflag s L1 s1) (h2 : Ran fs own niter tflag s1 L2 s') :
    Ran fs own niter tflag s (L1 ++ L2) s' := by
    have n1 := h1.ntrial
    have l1 := h1.len
    refine ⟨?_, ?_, ?_, ?_, ?_, ?_⟩
    · rw [h2.ntrial, n1, List.length_append]; omega
    · rw [h2.len, l1, List.length_append]; omega
    · intro i hi
      rw [h2.oldRun i (by omega), h1.oldRun i hi]
    · intro i x hx
      by_cases hi : i < L1.length
      · rw [List.getElem?_append_left hi] at hx
        obtain ⟨d, hd, e⟩ := h1.newRun i x hx
        exact ⟨d, hd, by rw [h2.oldRun _ (by omega)]; exact e⟩
      · rw [List.getElem?_append_right (by omega)] at hx
        obtain ⟨d, hd, e⟩ := h2.newRun _ x hx
        refine ⟨d, hd, ?_⟩
        rw [← e]; congr 1; omega
    · intro j hj
      rw [h2.oldSlot j (by omega), h1.oldSlot j hj]
    · intro i x hx
      by_cases hi : i < L1.length
      · rw [List.getElem?_append_left hi] at hx
        rw [h2.oldSlot _ (by omega)]
        exact h1.newSlot i x hx
      · rw [List.getElem?_append_right (by omega)] at hx
        have e := h2.newSlot _ x hx
        have ea : s1.ntrial + (i - L1.length) = s.ntrial + i := by omega
        have eb : s1.runs.length + (i - L1.length) = s.runs.length + i := by omega
        rw [ea, eb] at e
        exact e

theorem Ran.cons {niter tflag : Int} {s s1 s' : TuneSt} {st : Settings} {L : List Settings}
    (h1 : Ran fs own niter tflag s [st] s1) (h2 : Ran fs own niter tflag s1 L s') :
    Ran fs own niter tflag s (st :: L) s' := Ran.append [st] h1 h2

/-- One trial. -/
theorem runTrial_ok {niter tflag : Int} {st : Settings} {s : TuneSt} (h : s.ntrial < 10) :
    ∃ s1, runTrial fs own niter tflag st s = some s1 ∧ s1.ntrial = s.ntrial ∧
      s1.st = st ∧ s1.memoryflag = 1 ∧ s1.cbest = s.cbest ∧ s1.ebest = s.ebest ∧ s1.pbest = s.pbest ∧
      s1.besttime = s.besttime ∧
      (s1.slots s.ntrial) = ⟨st, tuneTrial (own.run s.runs.length) tflag⟩ ∧
      Ran fs own niter tflag s [st] { s1 with ntrial := s.ntrial + 1 } := by
  unfold runTrial
  rw [if_pos h]
  refine ⟨_, rfl, rfl, rfl, rfl, rfl, rfl, rfl, rfl, by simp, ?_⟩
  refine ⟨by simp, by simp, ?_, ?_, ?_, ?_⟩
  · intro i hi
    simp [List.getElem?_append_left hi]
  · intro i x hx
    cases i with
    | zero =>
      simp only [List.getElem?_cons_zero, Option.some.injEq] at hx
      subst hx
      refine ⟨_, ?_, by simp; rfl⟩
      split <;> omega
    | succ i => simp at hx
  · intro j hj
    simp only
    rw [Function.update_of_ne (by omega)]
  · intro i x hx
    cases i with
    | zero =>
      simp only [List.getElem?_cons_zero, Option.some.injEq] at hx
      subst hx
      simp
    | succ i => simp at hx

/-- `Ran` speaks of the trials only. -/
theorem Ran.congr {niter tflag : Int} {s s' s'' : TuneSt} {L : List Settings}
    (h : Ran fs own niter tflag s L s') (h1 : s''.ntrial = s'.ntrial) (h2 : s''.runs = s'.runs)
    (h3 : s''.slots = s'.slots) : Ran fs own niter tflag s L s'' := by
  obtain ⟨a, b, c, d, e, f⟩ := h
  constructor <;> (try rw [h1]) <;> (try rw [h2]) <;> (try rw [h3]) <;> assumption

theorem tuneTrial_tfft (w : Times) (tflag : Int) : (tuneTrial w tflag).tfft = w.tfft := by
  unfold tuneTrial; split <;> rfl

/-- What the loops over `cflag` and `eflag` do, for the pairs in `L`. -/
theorem ceLoop (b : Budget) : ∀ (L : List (Int × Int)) (s : TuneSt), s.ntrial + L.length ≤ 10 →
    ∃ s', L.foldlM (fun s x => ceBody fs own b x.1 x.2 s) s = some s' ∧
      Ran fs own b.niter b.tflag s (L.map fun x => ⟨x.1, x.2, 2⟩) s' ∧ s'.pbest = s.pbest ∧
      ((s'.besttime = s.besttime ∧ s'.cbest = s.cbest ∧ s'.ebest = s.ebest ∧
          ∀ i < L.length, s.besttime ≤ (own.run (s.runs.length + i)).tfft) ∨
        ∃ k x, L[k]? = some x ∧ s'.cbest = some x.1 ∧ s'.ebest = some x.2 ∧
          s'.besttime = (own.run (s.runs.length + k)).tfft ∧ s'.besttime < s.besttime ∧
          (∀ i < L.length, s'.besttime ≤ (own.run (s.runs.length + i)).tfft) ∧
          ∀ i < k, s'.besttime < (own.run (s.runs.length + i)).tfft)
  | [], s, _ => ⟨s, rfl, Ran.nil _ _ _, rfl, Or.inl ⟨rfl, rfl, rfl, by simp⟩⟩
  | x :: L, s, h => by
    simp only [List.length_cons] at h
    obtain ⟨s1, e1, n1, _, _, c1, x1, p1, b1, sl1, R1⟩ :=
      runTrial_ok (fs := fs) (own := own) (niter := b.niter) (tflag := b.tflag)
        (st := ⟨x.1, x.2, 2⟩) (s := s) (by omega)
    have eb : ∃ s2, ceBody fs own b x.1 x.2 s = some s2 ∧ s2.ntrial = s.ntrial + 1 ∧ s2.runs = s1.runs ∧
        s2.slots = s1.slots ∧ s2.pbest = s.pbest ∧
        ((s2.besttime = s.besttime ∧ s2.cbest = s.cbest ∧ s2.ebest = s.ebest ∧
            s.besttime ≤ (own.run s.runs.length).tfft) ∨
          (s2.besttime = (own.run s.runs.length).tfft ∧ s2.besttime < s.besttime ∧
            s2.cbest = some x.1 ∧ s2.ebest = some x.2)) := by
      unfold ceBody
      rw [e1]
      simp only [Option.bind_eq_bind, Option.bind_some, n1, sl1, tuneTrial_tfft, b1]
      by_cases hlt : (own.run s.runs.length).tfft < s.besttime
      · refine ⟨_, rfl, ?_, ?_, ?_, ?_, Or.inr ?_⟩ <;> simp [hlt, n1, p1]
      · refine ⟨_, rfl, ?_, ?_, ?_, ?_, Or.inl ?_⟩ <;> simp [hlt, n1, p1, b1, c1, x1]
        exact not_lt.mp hlt
    obtain ⟨s2, e2, n2, r2, sl2, p2, hb⟩ := eb
    have R2 : Ran fs own b.niter b.tflag s [⟨x.1, x.2, 2⟩] s2 := R1.congr n2 r2 sl2
    obtain ⟨s', e', R', p', hb'⟩ := ceLoop b L s2 (by omega)
    have l2 := R2.len
    simp only [List.length_cons, List.length_nil] at l2
    refine ⟨s', ?_, ?_, p'.trans p2, ?_⟩
    · rw [List.foldlM_cons, e2]; exact e'
    · exact R2.cons R'
    · have sh : ∀ i, s2.runs.length + i = s.runs.length + (i + 1) := fun i => by omega
      simp only [sh] at hb'
      have all : ∀ q : ℚ, q ≤ (own.run s.runs.length).tfft →
          (∀ i < L.length, q ≤ (own.run (s.runs.length + (i + 1))).tfft) →
          ∀ i < (x :: L).length, q ≤ (own.run (s.runs.length + i)).tfft := by
        intro q h0 h1 i hi
        cases i with
        | zero => simpa using h0
        | succ i => exact h1 i (by simpa using hi)
      rcases hb' with ⟨q1, q2, q3, q4⟩ | ⟨k, y, q1, q2, q3, q4, q5, q6, q7⟩
      · rcases hb with ⟨u1, u2, u3, u4⟩ | ⟨u1, u2, u3, u4⟩
        · exact Or.inl ⟨q1.trans u1, q2.trans u2, q3.trans u3, all _ u4 (fun i hi => u1 ▸ q4 i hi)⟩
        · refine Or.inr ⟨0, x, rfl, q2.trans u3, q3.trans u4, q1.trans u1, q1 ▸ u2, all _ ?_ ?_, by simp⟩
          · rw [q1, u1]
          · intro i hi; rw [q1]; exact q4 i hi
      · refine Or.inr ⟨k + 1, y, by simpa using q1, q2, q3, q4, ?_, all _ ?_ q6, ?_⟩
        · rcases hb with ⟨u1, -⟩ | ⟨u1, u2, -⟩
          · rw [← u1]; exact q5
          · exact q5.trans u2
        · rcases hb with ⟨u1, -, -, u4⟩ | ⟨u1, u2, -⟩
          · exact (q5.le.trans u1.le).trans u4
          · rw [← u1]; exact q5.le
        · intro i hi
          cases i with
          | zero =>
            rcases hb with ⟨u1, -, -, u4⟩ | ⟨u1, u2, -⟩
            · exact lt_of_lt_of_le q5 (u1.le.trans u4)
            · rw [Nat.add_zero, ← u1]; exact q5
          | succ i => exact q7 i (by omega)

/-- What the loop over `pflag` does. -/
theorem pLoop (b : Budget) (c e : Int) : ∀ (L : List Int) (s : TuneSt), s.ntrial + L.length ≤ 10 →
    s.cbest = some c → s.ebest = some e →
    ∃ s', L.foldlM (fun s x => pBody fs own b x s) s = some s' ∧
      Ran fs own b.niter b.tflag s (L.map fun x => ⟨c, e, x⟩) s' ∧ s'.cbest = some c ∧ s'.ebest = some e ∧
      ((s'.besttime = s.besttime ∧ s'.pbest = s.pbest ∧
          ∀ i < L.length, s.besttime ≤ (own.run (s.runs.length + i)).tfft) ∨
        ∃ k x, L[k]? = some x ∧ s'.pbest = some x ∧
          s'.besttime = (own.run (s.runs.length + k)).tfft ∧ s'.besttime < s.besttime ∧
          (∀ i < L.length, s'.besttime ≤ (own.run (s.runs.length + i)).tfft) ∧
          ∀ i < k, s'.besttime < (own.run (s.runs.length + i)).tfft)
  | [], s, _, hc, he => ⟨s, rfl, Ran.nil _ _ _, hc, he, Or.inl ⟨rfl, rfl, by simp⟩⟩
  | x :: L, s, h, hc, he => by
    simp only [List.length_cons] at h
    obtain ⟨s1, e1, n1, _, _, c1, x1, p1, b1, sl1, R1⟩ :=
      runTrial_ok (fs := fs) (own := own) (niter := b.niter) (tflag := b.tflag)
        (st := ⟨c, e, x⟩) (s := s) (by omega)
    have eb : ∃ s2, pBody fs own b x s = some s2 ∧ s2.ntrial = s.ntrial + 1 ∧ s2.runs = s1.runs ∧
        s2.slots = s1.slots ∧ s2.cbest = some c ∧ s2.ebest = some e ∧
        ((s2.besttime = s.besttime ∧ s2.pbest = s.pbest ∧
            s.besttime ≤ (own.run s.runs.length).tfft) ∨
          (s2.besttime = (own.run s.runs.length).tfft ∧ s2.besttime < s.besttime ∧
            s2.pbest = some x)) := by
      unfold pBody
      rw [hc, he]
      simp only [Option.bind_eq_bind, Option.bind_some]
      rw [e1]
      simp only [Option.bind_some, n1, sl1, tuneTrial_tfft, b1]
      by_cases hlt : (own.run s.runs.length).tfft < s.besttime
      · refine ⟨_, rfl, ?_, ?_, ?_, ?_, ?_, Or.inr ?_⟩ <;> simp [hlt, n1, c1, x1, hc, he]
      · refine ⟨_, rfl, ?_, ?_, ?_, ?_, ?_, Or.inl ?_⟩ <;> simp [hlt, n1, p1, b1, c1, x1, hc, he]
        exact not_lt.mp hlt
    obtain ⟨s2, e2, n2, r2, sl2, c2, x2, hb⟩ := eb
    have R2 : Ran fs own b.niter b.tflag s [⟨c, e, x⟩] s2 := R1.congr n2 r2 sl2
    obtain ⟨s', e', R', c', x', hb'⟩ := pLoop b c e L s2 (by omega) c2 x2
    have l2 := R2.len
    simp only [List.length_cons, List.length_nil] at l2
    refine ⟨s', ?_, ?_, c', x', ?_⟩
    · rw [List.foldlM_cons, e2]; exact e'
    · exact R2.cons R'
    · have sh : ∀ i, s2.runs.length + i = s.runs.length + (i + 1) := fun i => by omega
      simp only [sh] at hb'
      have all : ∀ q : ℚ, q ≤ (own.run s.runs.length).tfft →
          (∀ i < L.length, q ≤ (own.run (s.runs.length + (i + 1))).tfft) →
          ∀ i < (x :: L).length, q ≤ (own.run (s.runs.length + i)).tfft := by
        intro q h0 h1 i hi
        cases i with
        | zero => simpa using h0
        | succ i => exact h1 i (by simpa using hi)
      rcases hb' with ⟨q1, q2, q4⟩ | ⟨k, y, q1, q2, q4, q5, q6, q7⟩
      · rcases hb with ⟨u1, u2, u4⟩ | ⟨u1, u2, u3⟩
        · exact Or.inl ⟨q1.trans u1, q2.trans u2, all _ u4 (fun i hi => u1 ▸ q4 i hi)⟩
        · refine Or.inr ⟨0, x, rfl, q2.trans u3, q1.trans u1, q1 ▸ u2, all _ ?_ ?_, by simp⟩
          · rw [q1, u1]
          · intro i hi; rw [q1]; exact q4 i hi
      · refine Or.inr ⟨k + 1, y, by simpa using q1, q2, q4, ?_, all _ ?_ q6, ?_⟩
        · rcases hb with ⟨u1, -⟩ | ⟨u1, u2, -⟩
          · rw [← u1]; exact q5
          · exact q5.trans u2
        · rcases hb with ⟨u1, -, u4⟩ | ⟨u1, u2, -⟩
          · exact (q5.le.trans u1.le).trans u4
          · rw [← u1]; exact q5.le
        · intro i hi
          cases i with
          | zero =>
            rcases hb with ⟨u1, -, u4⟩ | ⟨u1, u2, -⟩
            · exact lt_of_lt_of_le q5 (u1.le.trans u4)
            · rw [Nat.add_zero, ← u1]; exact q5
          | succ i => exact q7 i (by omega)

/-- The two nested loops as one loop over pairs. -/
theorem foldlM_pairs {σ : Type} (f : σ → Int → Int → Option σ) (es : List Int) :
    ∀ (cs : List Int) (s : σ),
      cs.foldlM (fun s c => es.foldlM (fun s e => f s c e) s) s =
        (cs.flatMap fun c => es.map fun e => (c, e)).foldlM (fun s x => f s x.1 x.2) s
  | [], s => rfl
  | c :: cs, s => by
    rw [List.foldlM_cons, List.flatMap_cons, List.foldlM_append, List.foldlM_map]
    congr 1
    funext s
    exact foldlM_pairs f es cs s

/-- Multiplier of the measured times, fft3d.cpp:973-974. -/
def tuneScale (fp : ℚ → ℚ) (flag niter : Int) : ℚ :=
  if flag = 0 then fp (fp (1 / niter) * (1 / 2)) else fp (1 / niter)

/-- The final values: `r` is what `tune` returns if from `s2` on the trials over the pairs `ce` and then over
the values `ps` of `packflag` were run. -/
structure Shape (fp : ℚ → ℚ) (fs : Settings → Int) (own : Clock) (niter tflag flag : Int) (s2 : TuneSt)
    (ce : List (Int × Int)) (ps : List Int) (r : TuneSt) : Prop where
  ran : ∃ s4, Ran fs own niter tflag s2
      (ce.map (fun x => ⟨x.1, x.2, 2⟩) ++ ps.map fun x => ⟨r.st.collective, r.st.exchange, x⟩) s4 ∧
    r.ntrial = s4.ntrial ∧ r.runs = s4.runs ∧
    ∀ i < s4.ntrial, r.slots i = { s4.slots i with t := (s4.slots i).t.scale fp (tuneScale fp flag niter) }
  ceBest : ∃ k x, ce[k]? = some x ∧ r.st.collective = x.1 ∧ r.st.exchange = x.2 ∧
    (∀ i < ce.length, (own.run (s2.runs.length + k)).tfft ≤ (own.run (s2.runs.length + i)).tfft) ∧
    (∀ i < k, (own.run (s2.runs.length + k)).tfft < (own.run (s2.runs.length + i)).tfft) ∧
    (ps = [] → r.st.packflag = 2 ∧
      r.besttime = fp ((own.run (s2.runs.length + k)).tfft * tuneScale fp flag niter))
  pBest : ps ≠ [] → ∃ k x, ps[k]? = some x ∧ r.st.packflag = x ∧
    (∀ i < ps.length, (own.run (s2.runs.length + ce.length + k)).tfft ≤
      (own.run (s2.runs.length + ce.length + i)).tfft) ∧
    (∀ i < k, (own.run (s2.runs.length + ce.length + k)).tfft <
      (own.run (s2.runs.length + ce.length + i)).tfft) ∧
    r.besttime = fp ((own.run (s2.runs.length + ce.length + k)).tfft * tuneScale fp flag niter)

theorem scale_eq (fp : ℚ → ℚ) (flag niter : Int) :
    (if flag = 0 then fp (fp ((1 : ℚ) / niter) * (1 / 2)) else fp (1 / niter)) = tuneScale fp flag niter := rfl

/-- The values of the loop variables. -/
def cePairs (x : Int × Int × Int × Int) : List (Int × Int) :=
  (loopVals x.1 x.2.1).flatMap fun c => (loopVals x.2.2.1 x.2.2.2).map fun e => (c, e)

theorem ceStage_ok (b : Budget) (x : Int × Int × Int × Int) (hne : cePairs x ≠ []) (s : TuneSt)
    (hn : s.ntrial + (cePairs x).length ≤ 10) (hbig : ∀ k, (own.run k).tfft < tuneBIG) :
    ∃ s', ceStage fs own b (some x) s = some s' ∧
      Ran fs own b.niter b.tflag s ((cePairs x).map fun x => ⟨x.1, x.2, 2⟩) s' ∧ s'.pbest = s.pbest ∧
      ∃ k y, (cePairs x)[k]? = some y ∧ s'.cbest = some y.1 ∧ s'.ebest = some y.2 ∧
          s'.besttime = (own.run (s.runs.length + k)).tfft ∧
          (∀ i < (cePairs x).length, s'.besttime ≤ (own.run (s.runs.length + i)).tfft) ∧
          ∀ i < k, s'.besttime < (own.run (s.runs.length + i)).tfft := by
  obtain ⟨s', e, R, p, h⟩ := ceLoop (fs := fs) (own := own) b (cePairs x) { s with besttime := tuneBIG } hn
  refine ⟨s', ?_, ⟨R.ntrial, R.len, R.oldRun, R.newRun, R.oldSlot, R.newSlot⟩, p, ?_⟩
  · unfold ceStage
    obtain ⟨c0, c1, e0, e1⟩ := x
    simp only
    rw [foldlM_pairs (fun s c e => ceBody fs own b c e s)]
    exact e
  · rcases h with ⟨-, -, -, h⟩ | ⟨k, y, h1, h2, h3, h4, -, h6⟩
    · exact absurd (h 0 (List.length_pos_iff.mpr hne)) (not_le.mpr (hbig _))
    · exact ⟨k, y, h1, h2, h3, h4, h6⟩

theorem pStage_ok (b : Budget) (x : Int × Int) (hne : loopVals x.1 x.2 ≠ []) (s : TuneSt) (c e : Int)
    (hn : s.ntrial + (loopVals x.1 x.2).length ≤ 10) (hc : s.cbest = some c) (he : s.ebest = some e)
    (hbig : ∀ k, (own.run k).tfft < tuneBIG) :
    ∃ s', pStage fs own b (some x) s = some s' ∧
      Ran fs own b.niter b.tflag s ((loopVals x.1 x.2).map fun x => ⟨c, e, x⟩) s' ∧
      s'.cbest = some c ∧ s'.ebest = some e ∧
      ∃ k y, (loopVals x.1 x.2)[k]? = some y ∧ s'.pbest = some y ∧
          s'.besttime = (own.run (s.runs.length + k)).tfft ∧
          (∀ i < (loopVals x.1 x.2).length, s'.besttime ≤ (own.run (s.runs.length + i)).tfft) ∧
          ∀ i < k, s'.besttime < (own.run (s.runs.length + i)).tfft := by
  obtain ⟨s', e, R, p, p', h⟩ :=
    pLoop (fs := fs) (own := own) b c e (loopVals x.1 x.2) { s with besttime := tuneBIG } hn hc he
  refine ⟨s', ?_, ⟨R.ntrial, R.len, R.oldRun, R.newRun, R.oldSlot, R.newSlot⟩, p, p', ?_⟩
  · unfold pStage
    exact e
  · rcases h with ⟨-, -, h⟩ | ⟨k, y, h1, h2, h3, -, h6⟩
    · exact absurd (h 0 (List.length_pos_iff.mpr hne)) (not_le.mpr (hbig _))
    · exact ⟨k, y, h1, h2, h3, h6⟩

/-- The last part of `tune` after the bounds of the loops are known. -/
def tuneTail (fp : ℚ → ℚ) (fs : Settings → Int) (own : Clock) (b : Budget) (flag memoryflag : Int) (bd : Bounds)
    (s2 : TuneSt) : Option TuneSt := do
  let s3 ← ceStage fs own b bd.ce s2
  let s4 ← pStage fs own b bd.p s3
  finalStage memoryflag (scaleStage fp flag b.niter s4)

theorem tuneTail_ce {fp : ℚ → ℚ} (b : Budget) (flag mf : Int) (x : Int × Int × Int × Int) (s2 : TuneSt)
    (hne : cePairs x ≠ []) (hn : s2.ntrial + (cePairs x).length ≤ 10) (hp : s2.pbest = some 2)
    (hbig : ∀ k, (own.run k).tfft < tuneBIG) :
    ∃ r, tuneTail fp fs own b flag mf { ce := some x, p := none } s2 = some r ∧ r.memoryflag = mf ∧
      r.npertrial = b.niter ∧ Shape fp fs own b.niter b.tflag flag s2 (cePairs x) [] r := by
  obtain ⟨s3, e3, R3, p3, k, y, h1, h2, h3, h4, h5, h6⟩ := ceStage_ok (fs := fs) b x hne s2 hn hbig
  rw [hp] at p3
  unfold tuneTail
  simp only [e3, pStage, finalStage, scaleStage, Option.bind_eq_bind, Option.bind_some, h2, h3, p3]
  refine ⟨_, rfl, rfl, rfl, ⟨?_, ?_, ?_⟩⟩
  · refine ⟨s3, by simpa using R3, rfl, rfl, ?_⟩
    intro i hi
    simp only [if_pos hi, scale_eq]
  · refine ⟨k, y, h1, rfl, rfl, ?_, ?_, ?_⟩
    · intro i hi
      rw [← h4]; exact h5 i hi
    · intro i hi
      rw [← h4]; exact h6 i hi
    · intro _
      refine ⟨rfl, ?_⟩
      simp only [h4, scale_eq]
  · intro h; exact absurd rfl h

theorem tuneTail_cep {fp : ℚ → ℚ} (b : Budget) (flag mf : Int) (x : Int × Int × Int × Int) (z : Int × Int) (s2 : TuneSt)
    (hne : cePairs x ≠ []) (hnz : loopVals z.1 z.2 ≠ [])
    (hn : s2.ntrial + (cePairs x).length + (loopVals z.1 z.2).length ≤ 10)
    (hbig : ∀ k, (own.run k).tfft < tuneBIG) :
    ∃ r, tuneTail fp fs own b flag mf { ce := some x, p := some z } s2 = some r ∧ r.memoryflag = mf ∧
      r.npertrial = b.niter ∧ Shape fp fs own b.niter b.tflag flag s2 (cePairs x) (loopVals z.1 z.2) r := by
  obtain ⟨s3, e3, R3, p3, k, y, h1, h2, h3, h4, h5, h6⟩ := ceStage_ok (fs := fs) b x hne s2 (by omega) hbig
  have n3 := R3.ntrial
  have l3 := R3.len
  rw [List.length_map] at n3 l3
  obtain ⟨s4, e4, R4, c4, x4, m, w, g1, g2, g3, g4, g5⟩ :=
    pStage_ok (fs := fs) b z hnz s3 y.1 y.2 (by omega) h2 h3 hbig
  unfold tuneTail
  simp only [e3, e4, finalStage, scaleStage, Option.bind_eq_bind, Option.bind_some, c4, x4, g2]
  refine ⟨_, rfl, rfl, rfl, ⟨?_, ?_, ?_⟩⟩
  · refine ⟨s4, Ran.append _ R3 R4, rfl, rfl, ?_⟩
    intro i hi
    simp only [if_pos hi, scale_eq]
  · refine ⟨k, y, h1, rfl, rfl, ?_, ?_, ?_⟩
    · intro i hi
      rw [← h4]; exact h5 i hi
    · intro i hi
      rw [← h4]; exact h6 i hi
    · intro h; exact absurd h hnz
  · intro _
    rw [l3] at g3 g4 g5
    refine ⟨m, w, g1, rfl, ?_, ?_, ?_⟩
    · intro i hi
      rw [← g3]; exact g4 i hi
    · intro i hi
      rw [← g3]; exact g5 i hi
    · simp only [g3, scale_eq]

/-- `tune` as its checks, its first run, and its tail. -/
theorem tune_eq (root : Clock) (sf : Bool) (t : TuneArgs) (s : TuneSt) (hc : tuneCheck sf t = none) :
    ∃ s1, Ran fs own 1 0 { s with ntrial := 0, maxfftsize := 0, runs := [] } [s.st]
          { s1 with ntrial := 1 } ∧ s1.st = s.st ∧ s1.ntrial = 0 ∧ s1.runs.length = 1 ∧
      (∀ b, tuneBudget root.fp t root.setup0 (root.run 0).tfft = some b →
        tune fs root own sf t s =
          (tuneTail root.fp fs own b t.flag s.memoryflag (tuneBounds b.nruns (root.run 0).tfft s1).1
            (tuneBounds b.nruns (root.run 0).tfft s1).2).map Except.ok) ∧
      (tuneBudget root.fp t root.setup0 (root.run 0).tfft = none → tune fs root own sf t s = none) := by
  obtain ⟨s1, e1, n1, st1, -, -, -, -, -, -, R1⟩ :=
    runTrial_ok (fs := fs) (own := own) (niter := 1) (tflag := 0) (st := s.st)
      (s := { s with ntrial := 0, maxfftsize := 0, runs := [] }) (by simp)
  refine ⟨s1, R1, st1, n1, by simpa using R1.len, ?_, ?_⟩
  · intro b hb
    unfold tune tuneTail
    rw [hc]
    simp only [e1, tuneTrial_tfft, hb, Option.bind_eq_bind, Option.bind_some]
    cases ceStage fs own b (tuneBounds b.nruns (root.run 0).tfft s1).1.ce
        (tuneBounds b.nruns (root.run 0).tfft s1).2 with
    | none => rfl
    | some s3 =>
      simp only [Option.bind_some]
      cases pStage fs own b (tuneBounds b.nruns (root.run 0).tfft s1).1.p s3 with
      | none => rfl
      | some s4 =>
        simp only [Option.bind_some]
        cases finalStage s.memoryflag (scaleStage root.fp t.flag b.niter s4) <;> rfl
  · intro hb
    unfold tune
    rw [hc]
    simp only [e1, tuneTrial_tfft, hb, Option.bind_eq_bind, Option.bind_some, Option.bind_none]

end FftMpi
