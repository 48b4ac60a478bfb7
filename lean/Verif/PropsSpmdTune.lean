import Verif.PropsSpmd
import Verif.PropsTune

/-!
# C71: `setup` in `tune` returns on all ranks

`tune` calls `setup` before each trial and at its end.  The settings are those of the rank (C32 and C33).
-/

noncomputable section

namespace FftMpi

/-! ## The settings of the trials -/

theorem Report.run {fs : Settings → Int} {root own : Clock} {b : Budget} {flag : Int} {s r : TuneSt} {n0 : Nat}
    {ce : List (Int × Int)} {ps : List Int} (R : Report fs root own b flag s r n0 ce ps) (k : Nat) :
    (r.runs[k]?).map Trial.st = (s.st :: (ce.map (fun x => (⟨x.1, x.2, 2⟩ : Settings)) ++
      ps.map fun x => ⟨r.st.collective, r.st.exchange, x⟩))[k]? := by
  cases k with
  | zero =>
    obtain ⟨d, -, e⟩ := R.first
    rw [e]
    rfl
  | succ i =>
    rw [List.getElem?_cons_succ]
    cases h : (ce.map (fun x => (⟨x.1, x.2, 2⟩ : Settings)) ++
      ps.map fun x => ⟨r.st.collective, r.st.exchange, x⟩)[i]? with
    | some st =>
      obtain ⟨d, -, e⟩ := R.rest i st h
      rw [Nat.add_comm, e]
      rfl
    | none =>
      have h1 := List.getElem?_eq_none_iff.mp h
      rw [List.length_append, List.length_map, List.length_map] at h1
      rw [List.getElem?_eq_none (by rw [R.len]; omega)]
      rfl

theorem Report.runs_valid {fs : Settings → Int} {root own : Clock} {b : Budget} {flag : Int} {s r : TuneSt} {n : Int}
    (R : Report fs root own b flag s r (tunePlan n s.st).1 (tunePlan n s.st).2.1 (tunePlan n s.st).2.2)
    (hs : s.st.Valid) : r.st.Valid ∧ ∀ (k : Nat) (q : Trial), r.runs[k]? = some q → q.st.Valid := by
  obtain ⟨-, -, -, hps⟩ := tunePlan_facts n s.st
  constructor
  · rcases R.good with h | ⟨h, -⟩
    · have := h.2.2
      show r.st.packflag = 0 ∨ r.st.packflag = 1 ∨ r.st.packflag = 2
      omega
    · rw [h]; exact hs
  · intro k q hq
    have e := R.run k
    rw [hq] at e
    have hm := List.mem_of_getElem? e.symm
    rcases List.mem_cons.mp hm with h | h
    · rw [h]; exact hs
    rcases List.mem_append.mp h with h | h
    · obtain ⟨x, -, h⟩ := List.mem_map.mp h
      rw [← h]; exact .inr (.inr rfl)
    · obtain ⟨x, hx, h⟩ := List.mem_map.mp h
      rw [← h]
      have := hps x hx
      show x = 0 ∨ x = 1 ∨ x = 2
      omega

theorem tunePlan_first (n : Int) (st : Settings) : (tunePlan n st).2.2 = [] ∨ (tunePlan n st).2.1.length = 6 := by
  unfold tunePlan
  split_ifs <;> simp

/-- On all ranks the trials have the same settings up to number 6, and all if the clocks put them in the same order. -/
theorem tune_same {P : Nat} {fsz : Nat → Settings → Int} {clk : Nat → Clock} {t : TuneArgs} {s r : Nat → TuneSt}
    (hs : ∀ a < P, (s a).st = (s 0).st)
    (h : ∀ a < P, tune (fsz a) (clk 0) (clk a) false t (s a) = some (.ok (r a)))
    (hbig : ∀ a < P, ∀ k, ((clk a).run k).tfft < tuneBIG) :
    (∀ k < 7, ∀ a < P, ∀ b < P, ((r a).runs[k]?).map Trial.st = ((r b).runs[k]?).map Trial.st) ∧
    ((∀ a < P, ∀ b < P, (r a).st = (r b).st) →
      ∀ k : Nat, ∀ a < P, ∀ b < P, ((r a).runs[k]?).map Trial.st = ((r b).runs[k]?).map Trial.st) := by
  have key : ∀ a < P, ∃ bu, tuneBudget (clk 0).fp t (clk 0).setup0 ((clk 0).run 0).tfft = some bu ∧
      Report (fsz a) (clk 0) (clk a) bu t.flag (s a) (r a) (tunePlan bu.nruns (s 0).st).1
        (tunePlan bu.nruns (s 0).st).2.1 (tunePlan bu.nruns (s 0).st).2.2 := by
    intro a ha
    obtain ⟨-, bu, hb, R⟩ := tune_some_report (h a ha) (hbig a ha)
    rw [hs a ha] at R
    exact ⟨bu, hb, R⟩
  constructor
  · intro k hk a ha b hb
    obtain ⟨bu, e1, R1⟩ := key a ha
    obtain ⟨bu', e2, R2⟩ := key b hb
    rw [e1] at e2
    obtain rfl := Option.some.inj e2
    rw [R1.run, R2.run, hs a ha, hs b hb]
    rcases tunePlan_first bu.nruns (s 0).st with h6 | h6
    · rw [h6]; rfl
    · cases k with
      | zero => rfl
      | succ i =>
        rw [List.getElem?_cons_succ, List.getElem?_cons_succ, List.getElem?_append_left (by simp; omega),
          List.getElem?_append_left (by simp; omega)]
  · intro hst k a ha b hb
    obtain ⟨bu, e1, R1⟩ := key a ha
    obtain ⟨bu', e2, R2⟩ := key b hb
    rw [e1] at e2
    obtain rfl := Option.some.inj e2
    rw [R1.run, R2.run, hs a ha, hs b hb, hst a ha b hb]

theorem tune_runs_valid {fs : Settings → Int} {root own : Clock} {t : TuneArgs} {s r : TuneSt}
    (h : tune fs root own false t s = some (.ok r)) (hbig : ∀ k, (own.run k).tfft < tuneBIG) (hs : s.st.Valid) :
    r.st.Valid ∧ ∀ (k : Nat) (q : Trial), r.runs[k]? = some q → q.st.Valid := by
  obtain ⟨-, bu, hb, R⟩ := tune_some_report h hbig
  exact R.runs_valid hs

/-! ## C71 -/

/-- **C71**: on all ranks `setup` returns in all calls before the trials of `packflag`; if the ranks' clocks put the trials
in the same order, in all calls.

Missing: all calls for all clocks; this is wrong, `C71_false`. -/
theorem C71_partial {P : Nat} {g : Args3} {fsz : Nat → Settings → Int} {clk : Nat → Clock} {t : TuneArgs} {s r : Nat → TuneSt}
    (hv : g.Valid P) (hst : (s 0).st.Valid) (hs : ∀ a < P, (s a).st = (s 0).st)
    (h : ∀ a < P, tune (fsz a) (clk 0) (clk a) false t (s a) = some (.ok (r a)))
    (hbig : ∀ a < P, ∀ k, ((clk a).run k).tfft < tuneBIG) :
    (∀ (k : Nat) (q : Nat → Trial), (∀ a < P, (r a).runs[k]? = some (q a)) →
      (k < 7 ∨ ∀ a < P, ∀ b < P, ∀ i j, ((clk a).run i).tfft < ((clk a).run j).tfft ↔
        ((clk b).run i).tfft < ((clk b).run j).tfft) →
      ∃ f, SetUp3 P g (q 0).st f ∧ Returns P (fun a => (g.here (q a).st P a).setup) (fun a => .ok (f a))) ∧
    ((∀ a < P, ∀ b < P, ∀ i j, ((clk a).run i).tfft < ((clk a).run j).tfft ↔
        ((clk b).run i).tfft < ((clk b).run j).tfft) →
      ∃ f, SetUp3 P g (r 0).st f ∧ Returns P (fun a => (g.here (r a).st P a).setup) (fun a => .ok (f a))) := by
  have h0 : 0 < P := hv.procs
  obtain ⟨V, W⟩ := tune_runs_valid (h 0 h0) (hbig 0 h0) hst
  obtain ⟨A, B⟩ := tune_same hs h hbig
  constructor
  · intro k q hq hh
    have e : ∀ a < P, (q a).st = (q 0).st := by
      intro a ha
      have : ((r a).runs[k]?).map Trial.st = ((r 0).runs[k]?).map Trial.st := by
        rcases hh with hk | ho
        · exact A k hk a ha 0 h0
        · exact B ((C33_partial hs h hbig).2 ho) k a ha 0 h0
      rw [hq a ha, hq 0 h0] at this
      exact Option.some.inj this
    obtain ⟨f, S⟩ := setUp3_exists hv (W k _ (hq 0 h0))
    exact ⟨f, S, ((Does.setup g _ P _ S.result).congr (fun a ha => by rw [e a ha]) fun _ _ => rfl).returns⟩
  · intro ho
    obtain ⟨f, S⟩ := setUp3_exists hv V
    exact ⟨f, S, ((Does.setup g _ P _ S.result).congr
      (fun a ha => by rw [(C33_partial hs h hbig).2 ho a ha 0 h0]) fun _ _ => rfl).returns⟩

theorem valid2_double {st : Settings} (h : st.Valid) : st.Valid2 1 := by
  rcases h with h | h | h
  · exact .inl h
  · exact .inr (.inl h)
  · exact .inr (.inr ⟨h, rfl⟩)

/-- **C71** for FFT2d with doubles.

Missing: all calls for all clocks; this is wrong, `C71_false`. -/
theorem C71_partial2 {P : Nat} {g : Args2} {fsz : Nat → Settings → Int} {clk : Nat → Clock} {t : TuneArgs} {s r : Nat → TuneSt}
    (hv : g.Valid P) (hst : (s 0).st.Valid) (hs : ∀ a < P, (s a).st = (s 0).st)
    (h : ∀ a < P, tune (fsz a) (clk 0) (clk a) false t (s a) = some (.ok (r a)))
    (hbig : ∀ a < P, ∀ k, ((clk a).run k).tfft < tuneBIG) :
    (∀ (k : Nat) (q : Nat → Trial), (∀ a < P, (r a).runs[k]? = some (q a)) →
      (k < 7 ∨ ∀ a < P, ∀ b < P, ∀ i j, ((clk a).run i).tfft < ((clk a).run j).tfft ↔
        ((clk b).run i).tfft < ((clk b).run j).tfft) →
      ∃ f, SetUp2 1 P g (q 0).st f ∧ Returns P (fun a => (g.here 1 (q a).st P a).setup) (fun a => .ok (f a))) ∧
    ((∀ a < P, ∀ b < P, ∀ i j, ((clk a).run i).tfft < ((clk a).run j).tfft ↔
        ((clk b).run i).tfft < ((clk b).run j).tfft) →
      ∃ f, SetUp2 1 P g (r 0).st f ∧ Returns P (fun a => (g.here 1 (r a).st P a).setup) (fun a => .ok (f a))) := by
  have h0 : 0 < P := hv.procs
  obtain ⟨V, W⟩ := tune_runs_valid (h 0 h0) (hbig 0 h0) hst
  obtain ⟨A, B⟩ := tune_same hs h hbig
  constructor
  · intro k q hq hh
    have e : ∀ a < P, (q a).st = (q 0).st := by
      intro a ha
      have : ((r a).runs[k]?).map Trial.st = ((r 0).runs[k]?).map Trial.st := by
        rcases hh with hk | ho
        · exact A k hk a ha 0 h0
        · exact B ((C33_partial hs h hbig).2 ho) k a ha 0 h0
      rw [hq a ha, hq 0 h0] at this
      exact Option.some.inj this
    obtain ⟨f, S⟩ := setUp2_exists (w := 1) hv (valid2_double (W k _ (hq 0 h0)))
    exact ⟨f, S, ((Does.setup2 g 1 _ P _ S.result).congr (fun a ha => by rw [e a ha]) fun _ _ => rfl).returns⟩
  · intro ho
    obtain ⟨f, S⟩ := setUp2_exists (w := 1) hv (valid2_double V)
    exact ⟨f, S, ((Does.setup2 g 1 _ P _ S.result).congr
      (fun a ha => by rw [(C33_partial hs h hbig).2 ho a ha 0 h0]) fun _ _ => rfl).returns⟩

/-- Ranks with point-to-point and collective pencil to pencil remaps, and settings that are equal otherwise. -/
theorem C70_pp3 {P : Nat} {a : Args3} {st : Settings} (hv : a.Valid P) (hst : st.Valid) (he : st.exchange = 0)
    {col : Nat → Int} (hc : ∃ r < P, collectivePp (col r) ≠ collectivePp (col 0)) :
    Hangs P (fun r => (a.here { st with collective := col r } P r).setup (α := ℝ)) := by
  obtain ⟨g, hg, -⟩ := setupGrids_ok hv.round hv.procs hv.fast hv.mid hv.slow st.exchange
  refine (C70_mixed3 hv hst hg col).2 fun h => ?_
  obtain ⟨r, hr, hn⟩ := hc
  exact hn (h.1 he r hr)

theorem C70_pp2 {w : Int} {P : Nat} {a : Args2} {st : Settings} (hv : a.Valid P) (hst : st.Valid2 w) (he : st.exchange = 0)
    {col : Nat → Int} (hc : ∃ r < P, collectivePp (col r) ≠ collectivePp (col 0)) :
    Hangs P (fun r => (a.here w { st with collective := col r } P r).setup (α := ℝ)) := by
  obtain ⟨g, hg, -⟩ := setupBrick2_ok hv.round hv.procs hv.fast hv.slow st.exchange
  refine (C70_mixed2 hv hst hg col).2 fun h => ?_
  obtain ⟨r, hr, hn⟩ := hc
  exact hn (h.1 he r hr)

/-- **C71 does not hold** (disagreement 35): on two or more ranks whose clocks differ by a tenth of a second in
two trials, `tune` sets the ranks up differently in its trial number 7, and `setup` of
FFT3d and FFT2d never returns, for all valid arguments.  Only the clock of rank 0 is like `clk 0`, the others are like `clk 1`. -/
theorem C71_false : ∃ (clk : Nat → Clock) (r0 r1 : TuneSt) (q0 q1 : Trial),
    (∀ k, |((clk 0).run k).tfft - ((clk 1).run k).tfft| ≤ 1 / 10) ∧
    tune (fun _ => 8) (clk 0) (clk 0) false freely newTuneSt = some (.ok r0) ∧
    tune (fun _ => 8) (clk 0) (clk 1) false freely newTuneSt = some (.ok r1) ∧
    r0.runs[7]? = some q0 ∧ r1.runs[7]? = some q1 ∧
    (∀ P ≥ 2, ∀ a : Args3, a.Valid P →
      Hangs P (fun r => (a.here (if r = 0 then q0.st else q1.st) P r).setup (α := ℝ))) ∧
    ∀ P ≥ 2, ∀ w, ∀ a : Args2, a.Valid P →
      Hangs P (fun r => (a.here w (if r = 0 then q0.st else q1.st) P r).setup (α := ℝ)) := by
  refine ⟨fun a => if a = 0 then clock 1 [(1, 9 / 10)] else clock 1 [(3, 9 / 10)], ?_⟩
  obtain ⟨q0, e0⟩ := C32_defined (fs := fun _ => 8) (root := clock 1 [(1, 9 / 10)]) (own := clock 1 [(1, 9 / 10)])
    (sf := false) (t := freely) newTuneSt timeFp_id (by decide) (by decide) (by norm_num [clock])
    (by norm_num [clock, took, timeOf]) (by norm_num [clock, took, intMax, timeOf])
    (clock_big (by norm_num [tuneBIG]))
  obtain ⟨q1, e1⟩ := C32_defined (fs := fun _ => 8) (root := clock 1 [(1, 9 / 10)]) (own := clock 1 [(3, 9 / 10)])
    (sf := false) (t := freely) newTuneSt timeFp_id (by decide) (by decide) (by norm_num [clock])
    (by norm_num [clock, took, timeOf]) (by norm_num [clock, took, intMax, timeOf])
    (clock_big (by norm_num [tuneBIG]))
  obtain ⟨-, b, hb, R0⟩ := tune_some_report e0 (clock_big (by norm_num [tuneBIG]))
  obtain ⟨-, b', hb', R1⟩ := tune_some_report e1 (clock_big (by norm_num [tuneBIG]))
  have hbv : tuneBudget (clock 1 [(1, 9 / 10)]).fp freely (clock 1 [(1, 9 / 10)]).setup0 ((clock 1 [(1, 9 / 10)]).run 0).tfft =
      some ⟨1, 0, 10⟩ := by simp [tuneBudget, freely]
  rw [hbv] at hb hb'
  obtain rfl := Option.some.inj hb
  obtain rfl := Option.some.inj hb'
  obtain ⟨k, x, hk, hx, hx', f1, -⟩ := R0.ceBest (by simp [tunePlan])
  obtain ⟨m, y, hm, hy, hy', g1, -⟩ := R1.ceBest (by simp [tunePlan])
  have f := f1 0 (by simp [tunePlan])
  have g := g1 2 (by simp [tunePlan])
  have hk0 : k = 0 := by
    by_contra hk0
    have : 1 + k ≠ 1 := by omega
    simp [clock, took, timeOf, hk0] at f
    norm_num at f
  have hm2 : m = 2 := by
    by_contra hm2
    have : 1 + m ≠ 3 := by omega
    simp [clock, took, timeOf, this] at g
    norm_num at g
  subst hk0 hm2
  simp [tunePlan] at hk hm
  subst hk hm
  obtain ⟨d0, -, t0⟩ := R0.rest 6 ⟨q0.st.collective, q0.st.exchange, 0⟩ (by simp [tunePlan])
  obtain ⟨d1, -, t1⟩ := R1.rest 6 ⟨q1.st.collective, q1.st.exchange, 0⟩ (by simp [tunePlan])
  refine ⟨q0, q1, _, _, ?_, e0, e1, t0, t1, fun P hP a hv => ?_, fun P hP w a hv => ?_⟩
  · intro k
    simp only [if_pos, if_neg, one_ne_zero, not_false_eq_true]
    by_cases h1 : k = 1
    · subst h1; norm_num [clock, took, timeOf, abs_le]
    · by_cases h3 : k = 3
      · subst h3; norm_num [clock, took, timeOf, abs_le]
      · simp [clock, took, timeOf, h1, h3]
  · have := C70_pp3 (st := ⟨0, 0, 0⟩) hv (by simp [Settings.Valid]) rfl (col := fun r => if r = 0 then 0 else 1)
      ⟨1, hP, by decide⟩
    have e : ∀ r : Nat, ({ collective := if r = 0 then 0 else 1, exchange := 0, packflag := 0 } : Settings) =
        if r = 0 then ⟨q0.st.collective, q0.st.exchange, 0⟩ else ⟨q1.st.collective, q1.st.exchange, 0⟩ := by
      intro r
      rw [hx, hx', hy, hy']
      by_cases h : r = 0 <;> simp [h]
    simp only [e] at this
    exact this
  · have := C70_pp2 (w := w) (st := ⟨0, 0, 0⟩) hv (.inl rfl) rfl (col := fun r => if r = 0 then 0 else 1)
      ⟨1, hP, by decide⟩
    have e : ∀ r : Nat, ({ collective := if r = 0 then 0 else 1, exchange := 0, packflag := 0 } : Settings) =
        if r = 0 then ⟨q0.st.collective, q0.st.exchange, 0⟩ else ⟨q1.st.collective, q1.st.exchange, 0⟩ := by
      intro r
      rw [hx, hx', hy, hy']
      by_cases h : r = 0 <;> simp [h]
    simp only [e] at this
    exact this

/-! ## An example -/

/-- Two ranks, the clock of the second late by one second in each trial: all calls of `setup` return. -/
example : ∃ r : Nat → TuneSt,
    (∀ a < 2, tune (fun _ => 8) (lateClock 0) (lateClock a) false freely newTuneSt = some (.ok (r a))) ∧
    ∃ f, SetUp3 2 (demo3 1) (r 0).st f ∧
      Returns 2 (fun a => ((demo3 1).here (r a).st 2 a).setup) (fun a => .ok (f a)) := by
  have hbig : ∀ a < 2, ∀ k, ((lateClock a).run k).tfft < tuneBIG := by
    intro a ha k
    have h1 : timeOf [(2, 1 / 2)] k ≤ 1 := by simp only [timeOf]; split_ifs <;> norm_num
    have h2 : (a : ℚ) < 2 := by exact_mod_cast ha
    simp only [lateClock, took, tuneBIG]
    linarith
  have ex : ∀ a < 2, ∃ r, tune (fun _ => 8) (lateClock 0) (lateClock a) false freely newTuneSt = some (.ok r) :=
    fun a ha => C32_defined newTuneSt timeFp_id (by decide) (by decide) (by norm_num [lateClock])
      (by norm_num [lateClock, took, timeOf]) (by norm_num [lateClock, took, timeOf, intMax]) (hbig a ha)
  have : Nonempty TuneSt := ⟨newTuneSt⟩
  choose! r hr using ex
  refine ⟨r, hr, (C71_partial (fsz := fun _ _ => 8) (clk := lateClock) (s := fun _ => newTuneSt)
    (demo3_valid 1 (by decide)) (by simp [Settings.Valid, newTuneSt]) (fun _ _ => rfl) hr hbig).2 ?_⟩
  intro a _ b _ i j
  simp [lateClock, took]

end FftMpi
