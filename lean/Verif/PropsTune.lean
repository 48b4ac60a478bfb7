import Verif.TuneFp

/-!
# Properties of `tune` (C32 to C35)

`root` and `own` are arbitrary clocks, so the statements hold for every behaviour of the wall clock.  `r.runs`
is the list of the timing trials that were run, the first one is the trial with the caller's settings.  The
arithmetic of `tune` is that of `double` (`TimeFp`).
-/

namespace FftMpi

variable {fs : Settings → Int} {own root : Clock}

/-- The documented values, doc/api_setup.txt. -/
def GoodSettings (st : Settings) : Prop :=
  (0 ≤ st.collective ∧ st.collective ≤ 2) ∧ (0 ≤ st.exchange ∧ st.exchange ≤ 1) ∧
    (0 ≤ st.packflag ∧ st.packflag ≤ 2)

/-! ## Examples of clocks -/

/-- A trial that took the time `x`. -/
def took (x : ℚ) : Times := ⟨x, x / 2, x / 3, x / 8, x / 8, x / 8, x / 8⟩

/-- The times in `l`, 1 for all others. -/
def timeOf : List (Nat × ℚ) → Nat → ℚ
  | [], _ => 1
  | x :: l, k => if k = x.1 then x.2 else timeOf l k

/-- A clock by which `setup` takes the time `u`, a trial 1, but the trials listed in `l` the times given. -/
def clock (u : ℚ) (l : List (Nat × ℚ)) : Clock where
  setup0 := u
  run k := took (timeOf l k)

/-- The members after the constructor of `FFT3d`, fft3d.cpp:113-178. -/
def newTuneSt : TuneSt where
  st := ⟨2, 0, 2⟩
  memoryflag := 1
  ntrial := 0
  npertrial := 0
  cbest := some (-1)
  ebest := some (-1)
  pbest := some (-1)
  besttime := 0
  slots := fun _ => ⟨⟨0, 0, 0⟩, took 0⟩
  maxfftsize := 0
  runs := []

theorem clock_big {u : ℚ} {l : List (Nat × ℚ)} (h : ∀ x ∈ l, x.2 < tuneBIG) (k : Nat) :
    ((clock u l).run k).tfft < tuneBIG := by
  simp only [clock, took]
  induction l with
  | nil => norm_num [timeOf, tuneBIG]
  | cons x l ih =>
    unfold timeOf
    split_ifs
    · exact h x (by simp)
    · exact ih fun y hy => h y (by simp [hy])

/-! ## C32 -/

theorem tune_some {sf : Bool} {t : TuneArgs} {s r : TuneSt} (h : tune fs root own sf t s = some (.ok r)) :
    tuneCheck sf t = none ∧ ∃ b, tuneBudget root.fp t root.setup0 (root.run 0).tfft = some b := by
  have hc : tuneCheck sf t = none := by
    cases hc : tuneCheck sf t with
    | none => rfl
    | some e => unfold tune at h; rw [hc] at h; simp at h
  refine ⟨hc, ?_⟩
  cases hb : tuneBudget root.fp t root.setup0 (root.run 0).tfft with
  | some b => exact ⟨b, rfl⟩
  | none =>
    obtain ⟨s1, -, -, -, -, -, hn⟩ := tune_eq (fs := fs) (own := own) root sf t s hc
    rw [hn hb] at h
    cases h

theorem tune_some_report {sf : Bool} {t : TuneArgs} {s r : TuneSt}
    (h : tune fs root own sf t s = some (.ok r)) (hbig : ∀ k, (own.run k).tfft < tuneBIG) :
    tuneCheck sf t = none ∧ ∃ b, tuneBudget root.fp t root.setup0 (root.run 0).tfft = some b ∧
      Report fs root own b t.flag s r (tunePlan b.nruns s.st).1 (tunePlan b.nruns s.st).2.1
        (tunePlan b.nruns s.st).2.2 := by
  obtain ⟨hc, b, hb⟩ := tune_some h
  obtain ⟨r', e, R⟩ := tune_report (fs := fs) (own := own) (s := s) hc hb hbig
  rw [h] at e
  obtain rfl := Except.ok.inj (Option.some.inj e)
  exact ⟨hc, b, hb, R⟩

/-- What the plan may be. -/
theorem tunePlan_facts (n : Int) (st : Settings) :
    (tunePlan n st).1 ≤ 1 ∧ (tunePlan n st).1 + (tunePlan n st).2.1.length + (tunePlan n st).2.2.length ≤ 9 ∧
    (∀ x ∈ (tunePlan n st).2.1, (0 ≤ x.1 ∧ x.1 ≤ 2) ∧ 0 ≤ x.2 ∧ x.2 ≤ 1) ∧
    (∀ x ∈ (tunePlan n st).2.2, 0 ≤ x ∧ x ≤ 2) := by
  unfold tunePlan
  split_ifs <;> decide

theorem Report.good {b : Budget} {flag : Int} {s r : TuneSt} {n : Int}
    (R : Report fs root own b flag s r (tunePlan n s.st).1 (tunePlan n s.st).2.1 (tunePlan n s.st).2.2) :
    GoodSettings r.st ∨ r.st = s.st ∧ r.runs.length = 1 := by
  obtain ⟨-, -, hce, hps⟩ := tunePlan_facts n s.st
  by_cases h0 : (tunePlan n s.st).2.1 = []
  · obtain ⟨e, ep, -⟩ := R.none h0
    refine Or.inr ⟨e, ?_⟩
    rw [R.len, h0, ep]; rfl
  · left
    obtain ⟨k, x, hk, hx1, hx2, -, -, hp⟩ := R.ceBest h0
    have hx := hce x (List.mem_of_getElem? hk)
    refine ⟨hx1 ▸ hx.1, hx2 ▸ hx.2, ?_⟩
    by_cases h1 : (tunePlan n s.st).2.2 = []
    · rw [(hp h1).1]; decide
    · obtain ⟨m, y, hm, hy, -⟩ := R.pBest h1
      exact hy ▸ hps y (List.mem_of_getElem? hm)

/-- **C32** for timings that a run can have: if `tune` returns, the settings are documented ones, or no trial
but the first was run and they are those of the caller; `memoryflag` is what the caller set; at most 10 array
elements are used; element `i` of the reported ones holds the settings of the trial it reports, which is the
`i`-th of the last `ntrial` trials; and in every trial the array has room for the FFT.

Missing: that `tune` returns, see `C32_defined`, `C32_false`; times of `10^20` and more. -/
theorem C32_partial {sf : Bool} {t : TuneArgs} {s r : TuneSt} (h : tune fs root own sf t s = some (.ok r))
    (hbig : ∀ k, (own.run k).tfft < tuneBIG) :
    (GoodSettings r.st ∨ r.st = s.st ∧ r.runs.length = 1) ∧ r.memoryflag = s.memoryflag ∧
    r.ntrial ≤ 10 ∧ r.ntrial ≤ r.runs.length ∧
    (∀ i < r.ntrial, ∃ q, r.runs[r.runs.length - r.ntrial + i]? = some q ∧ (r.slots i).st = q.st) ∧
    (∀ q ∈ r.runs, q.memoryflag = 1 ∧ q.fftsize = fs q.st ∧ q.fftsize ≤ q.data) := by
  obtain ⟨-, b, -, R⟩ := tune_some_report h hbig
  obtain ⟨f1, f2, -⟩ := tunePlan_facts b.nruns s.st
  have hn := R.ntrial
  have hl := R.len
  refine ⟨R.good, R.memoryflag, by omega, by omega, ?_, ?_⟩
  · intro i hi
    obtain ⟨q, e, es⟩ := R.slots i hi
    refine ⟨q, ?_, by rw [es]⟩
    rw [← e]; congr 1; omega
  · intro q hq
    obtain ⟨i, hi, rfl⟩ := List.getElem_of_mem hq
    cases i with
    | zero =>
      obtain ⟨d, hd, e⟩ := R.first
      rw [List.getElem?_eq_getElem hi] at e
      rw [Option.some.inj e]
      exact ⟨rfl, rfl, hd⟩
    | succ i =>
      obtain ⟨st, hst⟩ : ∃ st, ((tunePlan b.nruns s.st).2.1.map (fun x => (⟨x.1, x.2, 2⟩ : Settings)) ++
          (tunePlan b.nruns s.st).2.2.map fun x => ⟨r.st.collective, r.st.exchange, x⟩)[i]? = some st :=
        ⟨_, List.getElem?_eq_getElem (by simp only [List.length_append, List.length_map]; omega)⟩
      obtain ⟨d, hd, e⟩ := R.rest i st hst
      rw [Nat.add_comm 1 i, List.getElem?_eq_getElem hi] at e
      rw [Option.some.inj e]
      exact ⟨rfl, rfl, hd⟩

/-- The measured time `m` of `niter` trials, of two FFTs each if `flag` is 0, divided by the number of FFTs, up to rounding. -/
def PerFft (flag niter : Int) (m x : ℚ) : Prop :=
  |x - m / ((if flag = 0 then 2 else 1) * niter)| ≤ |m / ((if flag = 0 then 2 else 1) * niter)| / 2 ^ 50

theorem tuneBudget_pos {fp : ℚ → ℚ} {t : TuneArgs} {ts tf : ℚ} {b : Budget} {sf : Bool} (hc : tuneCheck sf t = none)
    (h : tuneBudget fp t ts tf = some b) : 0 < b.niter := by
  have hn : 0 < t.niter := by
    unfold tuneCheck at hc
    split_ifs at hc with h1 h2 h4 h5
    push Not at h4
    exact h4.1
  rcases tuneBudget_cases h with ⟨-, rfl⟩ | ⟨-, -, n1, -, ⟨h1, rfl⟩ | ⟨-, n2, -, ⟨h2, rfl⟩ | ⟨-, -, n3, -, rfl⟩⟩⟩
  · exact hn
  · exact h1
  · exact h2
  · exact Int.one_pos

/-- The reported times are the measured ones, divided by the number of FFTs of the trial; those of the 1d FFTs and the
remaps are 0 if they were not measured. -/
theorem C32_times {sf : Bool} {t : TuneArgs} {s r : TuneSt} (h : tune fs root own sf t s = some (.ok r))
    (T : TimeFp root.fp) (hbig : ∀ k, (own.run k).tfft < tuneBIG) :
    ∀ i < r.ntrial, ∃ q, r.runs[r.runs.length - r.ntrial + i]? = some q ∧ q.niter = r.npertrial ∧
      PerFft t.flag q.niter (own.run (r.runs.length - r.ntrial + i)).tfft (r.slots i).t.tfft ∧
      ∀ f ∈ [Times.t1d, Times.tremap, Times.tremap1, Times.tremap2, Times.tremap3, Times.tremap4],
        if q.tflag = 0 then f (r.slots i).t = 0
        else PerFft t.flag q.niter (f (own.run (r.runs.length - r.ntrial + i))) (f (r.slots i).t) := by
  obtain ⟨hc, b, hb, R⟩ := tune_some_report h hbig
  obtain ⟨f1, f2, -⟩ := tunePlan_facts b.nruns s.st
  have hn := R.ntrial
  have hl := R.len
  have hnp := R.npertrial
  intro i hi
  obtain ⟨q, e, es⟩ := R.slots i hi
  have ei : r.runs.length - r.ntrial + i = 1 - (tunePlan b.nruns s.st).1 + i := by omega
  have hq : q.niter = b.niter := by
    rcases Nat.eq_zero_or_pos (1 - (tunePlan b.nruns s.st).1 + i) with h0 | h0
    · rw [h0] at e
      obtain ⟨d, hd, e'⟩ := R.first
      rw [e] at e'
      rw [Option.some.inj e']
      have h10 : b.nruns ≠ 10 := by
        intro h10
        rw [h10] at h0
        unfold tunePlan at h0
        simp at h0
      exact (tuneBudget_small hb h10).1.symm
    · obtain ⟨j, hj⟩ : ∃ j, 1 - (tunePlan b.nruns s.st).1 + i = 1 + j := ⟨_, (Nat.add_sub_cancel' h0).symm⟩
      rw [hj] at e
      obtain ⟨st, hst⟩ : ∃ st, ((tunePlan b.nruns s.st).2.1.map (fun x => (⟨x.1, x.2, 2⟩ : Settings)) ++
          (tunePlan b.nruns s.st).2.2.map fun x => ⟨r.st.collective, r.st.exchange, x⟩)[j]? = some st :=
        ⟨_, List.getElem?_eq_getElem (by simp only [List.length_append, List.length_map]; omega)⟩
      obtain ⟨d, hd, e'⟩ := R.rest j st hst
      rw [e] at e'
      rw [Option.some.inj e']
  refine ⟨q, by rw [ei]; exact e, hq.trans hnp.symm, ?_⟩
  rw [es, ei, hq]
  have near := fun x => T.scale_near x t.flag b.niter (tuneBudget_pos hc hb)
  refine ⟨?_, ?_⟩
  · simp only [Times.scale, tuneTrial_tfft]
    exact near _
  · intro f hf
    split_ifs with hz
    · simp only [List.mem_cons, List.not_mem_nil, or_false] at hf
      rcases hf with rfl | rfl | rfl | rfl | rfl | rfl <;> simp [Times.scale, tuneTrial, hz, T.zero]
    · simp only [List.mem_cons, List.not_mem_nil, or_false] at hf
      rcases hf with rfl | rfl | rfl | rfl | rfl | rfl <;> simp only [Times.scale, tuneTrial, if_pos hz, ne_eq] <;>
        exact near _

theorem castInt_ge {q : ℚ} {z : Int} (h : castInt q = some z) (hz : 0 < z) : (z : ℚ) ≤ q := by
  unfold castInt at h
  simp only at h
  split_ifs at h with h1 h2 h2
  · rw [← Option.some.inj h]; exact Int.floor_le q
  · have : ⌈q⌉ ≤ 0 := Int.ceil_le.mpr (by push_cast; linarith)
    have := Option.some.inj h
    omega

theorem castInt_nonpos {q : ℚ} {z : Int} (h : castInt q = some z) (hz : z ≤ 0) : q < 1 := by
  unfold castInt at h
  simp only at h
  split_ifs at h with h1 h2 h2
  · have := Option.some.inj h
    have := Int.lt_floor_add_one q
    have h3 : (⌊q⌋ : ℚ) ≤ 0 := by exact_mod_cast (show ⌊q⌋ ≤ 0 by omega)
    linarith
  · linarith

theorem castInt_some {q : ℚ} (h1 : -(intMax : ℚ) - 1 ≤ q) (h2 : q < intMax + 1) : ∃ z, castInt q = some z := by
  unfold castInt
  simp only
  split_ifs with a b b
  · exact ⟨_, rfl⟩
  · refine absurd ⟨?_, ?_⟩ b
    · have := Int.floor_nonneg.mpr a
      have : (0 : Int) ≤ intMax := by decide
      omega
    · have : ⌊q⌋ < intMax + 1 := Int.floor_lt.mpr (by push_cast; exact h2)
      omega
  · exact ⟨_, rfl⟩
  · refine absurd ⟨?_, ?_⟩ b
    · have h3 : (-intMax - 1 : Int) ≤ ⌈q⌉ := by
        have : ((-intMax - 1 : Int) : ℚ) ≤ ⌈q⌉ := (by push_cast; exact h1 : ((-intMax - 1 : Int) : ℚ) ≤ q).trans
          (Int.le_ceil q)
        exact_mod_cast this
      exact h3
    · have : ⌈q⌉ ≤ 0 := Int.ceil_le.mpr (by push_cast; linarith [not_le.mp a])
      have : (0 : Int) ≤ intMax := by decide
      omega

/-- `tune` returns if the arguments are accepted, `3*niter` does not overflow, the clock of rank 0 shows a
positive time for the first FFT, `setup` took at most about `2^31` times as long, and no time is `10^20` or
more. -/
theorem C32_defined {sf : Bool} {t : TuneArgs} (s : TuneSt) (T : TimeFp root.fp) (hc : tuneCheck sf t = none)
    (h3 : 3 * t.niter ≤ intMax) (hs : 0 ≤ root.setup0) (hf : 0 < (root.run 0).tfft)
    (hr : root.setup0 ≤ intMax * (root.run 0).tfft) (hbig : ∀ k, (own.run k).tfft < tuneBIG) :
    ∃ r, tune fs root own sf t s = some (.ok r) := by
  suffices ∃ b, tuneBudget root.fp t root.setup0 (root.run 0).tfft = some b by
    obtain ⟨b, hb⟩ := this
    obtain ⟨r, e, -⟩ := tune_report (fs := fs) (own := own) (s := s) hc hb hbig
    exact ⟨r, e⟩
  have hn : 0 < t.niter ∧ 0 ≤ t.tmax := by
    unfold tuneCheck at hc
    split_ifs at hc with h1 h2 h4 h5
    push Not at h4
    exact h4
  have hi : isInt (3 * t.niter) := ⟨by have : (0 : Int) ≤ intMax := by decide
                                       omega, h3⟩
  have h3q : (3 * t.niter : ℚ) ≤ intMax := by exact_mod_cast h3
  have hnq : (0 : ℚ) < t.niter := by exact_mod_cast hn.1
  set ts := root.setup0
  set tf := (root.run 0).tfft
  have him : (0 : ℚ) < intMax := by norm_num [intMax]
  unfold tuneBudget
  rw [if_neg (by intro h; exact h.2 hi)]
  change ∃ b, (if t.tmax > 0 ∧ timeTotal root.fp t ts tf > t.tmax then _ else _) = _
  by_cases h2 : t.tmax > 0 ∧ timeTotal root.fp t ts tf > t.tmax
  · rw [if_pos h2]
    have hq1 : timeQuot root.fp t ts tf < 3 * t.niter + 1 / 8 := by
      have h2' := h2.2
      unfold timeTotal at h2'
      split_ifs at h2'
      · exact T.quot_lt hs hf hr (by positivity) h3q hn.2 h2'
      · have := T.quot_lt hs hf hr hnq.le (by linarith) hn.2 h2'
        linarith
    have hq0 := T.quot_ge hs hf hr hn.2
    have fd : fdiv root.fp (root.fp (root.fp (t.tmax / 10) - ts)) tf = some (timeQuot root.fp t ts tf) := by
      unfold fdiv; rw [if_neg hf.ne']; rfl
    set q := timeQuot root.fp t ts tf
    have hq3 : root.fp (q / 3) < intMax + 1 ∧ -(intMax : ℚ) - 1 ≤ root.fp (q / 3) := by
      have him1 : (1 : ℚ) ≤ intMax := by norm_num [intMax]
      have a := T.le_max him.le (show q / 3 ≤ intMax by linarith)
      have b := T.ge_neg him.le (show -(intMax : ℚ) ≤ q / 3 by linarith)
      have : (1 + 1 / 2 ^ 53) * (intMax : ℚ) < intMax + 1 := by norm_num [intMax]
      constructor <;> linarith
    obtain ⟨n1, e1⟩ : ∃ z, castInt (if t.tflag ≠ 0 then root.fp (q / 3) else q) = some z := by
      apply castInt_some
      · split_ifs <;> linarith [hq3.2]
      · split_ifs <;> linarith [hq3.1]
    obtain ⟨n2, e2⟩ : ∃ z, castInt q = some z := castInt_some (by linarith) (by linarith)
    simp only [fd, e1, e2, Option.bind_eq_bind, Option.bind_some]
    by_cases g1 : n1 ≤ 0
    · rw [if_pos g1]
      by_cases g2 : n2 ≤ 0
      · rw [if_pos g2]
        have hlt := castInt_nonpos e2 g2
        have hsum : 0 < ts + tf := by linarith
        have hsum' := T.pos hsum
        have fd2 : fdiv root.fp t.tmax (root.fp (ts + tf)) = some (root.fp (t.tmax / root.fp (ts + tf))) := by
          unfold fdiv; rw [if_neg hsum'.ne']
        obtain ⟨n3, e3⟩ : ∃ z, castInt (root.fp (t.tmax / root.fp (ts + tf))) = some z := by
          apply castInt_some
          · have := T.nonneg (div_nonneg hn.2 hsum'.le)
            linarith
          · have h5 := T.runs_le hn.2 hsum
            have h6 := T.quot_small hs hf hn.2 hlt
            have h7 : root.fp (t.tmax / root.fp (ts + tf)) * (ts + tf) ≤ 11 * (ts + tf) := by linarith
            have h8 := le_of_mul_le_mul_right h7 hsum
            have : (11 : ℚ) ≤ intMax := by norm_num [intMax]
            linarith
        rw [fd2]
        simp only [Option.bind_some, e3]
        exact ⟨_, rfl⟩
      · rw [if_neg g2]; exact ⟨_, rfl⟩
    · rw [if_neg g1]; exact ⟨_, rfl⟩
  · rw [if_neg h2]; exact ⟨_, rfl⟩

/-- The budget that is used below: unlimited time, one FFT per trial. -/
def freely : TuneArgs := { flag := 1, niter := 1, tmax := 0, tflag := 0 }

example : ∃ r, tune (fun _ => 8) (clock 1 []) (clock 1 [(4, 1 / 2)]) false freely newTuneSt = some (.ok r) ∧
    GoodSettings r.st := by
  obtain ⟨r, e⟩ := C32_defined (fs := fun _ => 8) (root := clock 1 []) (own := clock 1 [(4, 1 / 2)]) (sf := false)
    (t := freely) newTuneSt timeFp_id (by decide) (by decide) (by norm_num [clock]) (by norm_num [clock, took, timeOf])
    (by norm_num [clock, took, timeOf, intMax]) (clock_big (by norm_num [tuneBIG]))
  refine ⟨r, e, ?_⟩
  rcases (C32_partial e (clock_big (by norm_num [tuneBIG]))).1 with h | h
  · exact h
  · rw [h.1]; simp [GoodSettings, newTuneSt]

/-- **C32 does not hold for all timings**: if the clock of rank 0 shows no time between start and end of the
first FFT, and `tmax` is smaller than ten times the time of `setup`, the conversion of an infinite number of
iterations to `int` has no defined result. -/
theorem C32_false : ∃ (root own : Clock) (t : TuneArgs), tuneCheck false t = none ∧
    tune (fun _ => 8) root own false t newTuneSt = none := by
  refine ⟨clock 1 [(0, 0)], clock 1 [], { freely with tmax := 5 }, by decide, ?_⟩
  obtain ⟨s1, -, -, -, -, -, hn⟩ := tune_eq (fs := fun _ => 8) (own := clock 1 []) (clock 1 [(0, 0)]) false
    { freely with tmax := 5 } newTuneSt (by decide)
  apply hn
  have e : ((clock 1 [(0, 0)]).run 0).tfft = 0 := by simp [clock, took, timeOf]
  rw [e]
  simp [tuneBudget, freely, clock, fdiv]
  norm_num

/-! ## C33 -/

/-- Position of the first minimum is determined by the order of the values. -/
theorem first_min_unique {f g : Nat → ℚ} {n k m : Nat} (hfg : ∀ i j, f i < f j ↔ g i < g j)
    (hk : k < n) (hm : m < n) (f1 : ∀ i < n, f k ≤ f i) (f2 : ∀ i < k, f k < f i) (g1 : ∀ i < n, g m ≤ g i)
    (g2 : ∀ i < m, g m < g i) : k = m := by
  rcases lt_trichotomy k m with h | h | h
  · exact absurd ((hfg m k).mpr (g2 k h)) (not_lt.mpr (f1 m hm))
  · exact h
  · exact absurd ((hfg k m).mp (f2 m h)) (not_lt.mpr (g1 k hk))

/-- **C33** if the ranks' clocks put the trials in the same order: all ranks leave `tune` with the same
settings.  Without the assumption on the clocks: all ranks run the same number of trials, with the same number
of FFTs.

Missing: the same settings for all clocks; this is wrong, `C33_false`. -/
theorem C33_partial {P : Nat} {fsz : Nat → Settings → Int} {clk : Nat → Clock} {t : TuneArgs} {s r : Nat → TuneSt}
    (hs : ∀ a < P, (s a).st = (s 0).st)
    (h : ∀ a < P, tune (fsz a) (clk 0) (clk a) false t (s a) = some (.ok (r a)))
    (hbig : ∀ a < P, ∀ k, ((clk a).run k).tfft < tuneBIG) :
    (∀ a < P, ∀ b < P, (r a).ntrial = (r b).ntrial ∧ (r a).npertrial = (r b).npertrial ∧
      (r a).runs.length = (r b).runs.length) ∧
    ((∀ a < P, ∀ b < P, ∀ i j, ((clk a).run i).tfft < ((clk a).run j).tfft ↔
        ((clk b).run i).tfft < ((clk b).run j).tfft) →
      ∀ a < P, ∀ b < P, (r a).st = (r b).st) := by
  have key : ∀ a < P, ∃ bu, tuneBudget (clk 0).fp t (clk 0).setup0 ((clk 0).run 0).tfft = some bu ∧
      Report (fsz a) (clk 0) (clk a) bu t.flag (s a) (r a) (tunePlan bu.nruns (s 0).st).1
        (tunePlan bu.nruns (s 0).st).2.1 (tunePlan bu.nruns (s 0).st).2.2 := by
    intro a ha
    obtain ⟨-, bu, hb, R⟩ := tune_some_report (h a ha) (hbig a ha)
    rw [hs a ha] at R
    exact ⟨bu, hb, R⟩
  refine ⟨?_, ?_⟩
  · intro a ha b hb
    obtain ⟨bu, e1, R1⟩ := key a ha
    obtain ⟨bu', e2, R2⟩ := key b hb
    rw [e1] at e2
    obtain rfl := Option.some.inj e2
    exact ⟨R1.ntrial.trans R2.ntrial.symm, R1.npertrial.trans R2.npertrial.symm, R1.len.trans R2.len.symm⟩
  · intro hord a ha b hb
    obtain ⟨bu, e1, R1⟩ := key a ha
    obtain ⟨bu', e2, R2⟩ := key b hb
    rw [e1] at e2
    obtain rfl := Option.some.inj e2
    have hab := hord a ha b hb
    by_cases h0 : (tunePlan bu.nruns (s 0).st).2.1 = []
    · rw [(R1.none h0).1, (R2.none h0).1, hs a ha, hs b hb]
    · obtain ⟨k, x, hk, hx1, hx2, f1, f2, fp⟩ := R1.ceBest h0
      obtain ⟨m, y, hm, hy1, hy2, g1, g2, gp⟩ := R2.ceBest h0
      have hkl := (List.getElem?_eq_some_iff.mp hk).1
      have hml := (List.getElem?_eq_some_iff.mp hm).1
      have ekm : k = m := first_min_unique (f := fun i => ((clk a).run (1 + i)).tfft)
        (g := fun i => ((clk b).run (1 + i)).tfft) (fun i j => hab _ _) hkl hml f1 f2 g1 g2
      subst ekm
      rw [hk] at hm
      obtain rfl := Option.some.inj hm
      have hp : (r a).st.packflag = (r b).st.packflag := by
        by_cases h1 : (tunePlan bu.nruns (s 0).st).2.2 = []
        · rw [(fp h1).1, (gp h1).1]
        · obtain ⟨k', x', hk', hx', f1', f2', -⟩ := R1.pBest h1
          obtain ⟨m', y', hm', hy', g1', g2', -⟩ := R2.pBest h1
          have hkl' := (List.getElem?_eq_some_iff.mp hk').1
          have hml' := (List.getElem?_eq_some_iff.mp hm').1
          have ekm' : k' = m' := first_min_unique
            (f := fun i => ((clk a).run (1 + (tunePlan bu.nruns (s 0).st).2.1.length + i)).tfft)
            (g := fun i => ((clk b).run (1 + (tunePlan bu.nruns (s 0).st).2.1.length + i)).tfft)
            (fun i j => hab _ _) hkl' hml' f1' f2' g1' g2'
          subst ekm'
          rw [hk'] at hm'
          rw [hx', hy', Option.some.inj hm']
      have e : (r a).st.collective = (r b).st.collective := hx1.trans hy1.symm
      have e' : (r a).st.exchange = (r b).st.exchange := hx2.trans hy2.symm
      cases ha' : (r a).st
      cases hb' : (r b).st
      rw [ha', hb'] at e e' hp
      simp only at e e' hp
      rw [e, e', hp]

/-- Three ranks with clocks that show different times, in the same order. -/
def lateClock (a : Nat) : Clock := { setup0 := 1, run := fun k => took (timeOf [(2, 1 / 2)] k + a) }

example : ∃ r : Nat → TuneSt,
    (∀ a < 3, tune (fun _ => 8) (lateClock 0) (lateClock a) false freely newTuneSt = some (.ok (r a))) ∧
    ∀ a < 3, ∀ b < 3, (r a).st = (r b).st := by
  have hbig : ∀ a < 3, ∀ k, ((lateClock a).run k).tfft < tuneBIG := by
    intro a ha k
    have h1 : timeOf [(2, 1 / 2)] k ≤ 1 := by simp only [timeOf]; split_ifs <;> norm_num
    have h2 : (a : ℚ) < 3 := by exact_mod_cast ha
    simp only [lateClock, took, tuneBIG]
    linarith
  have ex : ∀ a < 3, ∃ r, tune (fun _ => 8) (lateClock 0) (lateClock a) false freely newTuneSt = some (.ok r) :=
    fun a ha => C32_defined newTuneSt timeFp_id (by decide) (by decide) (by norm_num [lateClock])
      (by norm_num [lateClock, took, timeOf]) (by norm_num [lateClock, took, timeOf, intMax]) (hbig a ha)
  have : Nonempty TuneSt := ⟨newTuneSt⟩
  choose! r hr using ex
  refine ⟨r, hr, (C33_partial (P := 3) (fsz := fun _ _ => 8) (clk := lateClock) (s := fun _ => newTuneSt)
    (fun _ _ => rfl) hr hbig).2 ?_⟩
  intro a _ b _ i j
  simp [lateClock, took]

/-- **C33 does not hold**: two ranks whose clocks differ by a tenth of a second in two trials. -/
theorem C33_false : ∃ (clk : Nat → Clock) (r0 r1 : TuneSt),
    (∀ k, |((clk 0).run k).tfft - ((clk 1).run k).tfft| ≤ 1 / 10) ∧
    tune (fun _ => 8) (clk 0) (clk 0) false freely newTuneSt = some (.ok r0) ∧
    tune (fun _ => 8) (clk 0) (clk 1) false freely newTuneSt = some (.ok r1) ∧
    r0.st.collective ≠ r1.st.collective := by
  refine ⟨fun a => if a = 0 then clock 1 [(1, 9 / 10)] else clock 1 [(3, 9 / 10)], ?_⟩
  obtain ⟨q0, e0⟩ := C32_defined (fs := fun _ => 8) (root := clock 1 [(1, 9 / 10)]) (own := clock 1 [(1, 9 / 10)])
    (sf := false) (t := freely) newTuneSt timeFp_id (by decide) (by decide) (by norm_num [clock])
    (by norm_num [clock, took, timeOf]) (by norm_num [clock, took, intMax, timeOf])
    (clock_big (by norm_num [tuneBIG]))
  obtain ⟨q1, e1⟩ := C32_defined (fs := fun _ => 8) (root := clock 1 [(1, 9 / 10)]) (own := clock 1 [(3, 9 / 10)])
    (sf := false) (t := freely) newTuneSt timeFp_id (by decide) (by decide) (by norm_num [clock])
    (by norm_num [clock, took, timeOf]) (by norm_num [clock, took, intMax, timeOf])
    (clock_big (by norm_num [tuneBIG]))
  refine ⟨q0, q1, ?_, e0, e1, ?_⟩
  · intro k
    simp only [if_pos, if_neg, one_ne_zero, not_false_eq_true]
    by_cases h1 : k = 1
    · subst h1; norm_num [clock, took, timeOf, abs_le]
    · by_cases h3 : k = 3
      · subst h3; norm_num [clock, took, timeOf, abs_le]
      · simp [clock, took, timeOf, h1, h3]
  · obtain ⟨-, b, hb, R0⟩ := tune_some_report e0 (clock_big (by norm_num [tuneBIG]))
    obtain ⟨-, b', hb', R1⟩ := tune_some_report e1 (clock_big (by norm_num [tuneBIG]))
    have hbv : tuneBudget (clock 1 [(1, 9 / 10)]).fp freely (clock 1 [(1, 9 / 10)]).setup0 ((clock 1 [(1, 9 / 10)]).run 0).tfft =
        some ⟨1, 0, 10⟩ := by simp [tuneBudget, freely]
    rw [hbv] at hb hb'
    obtain rfl := Option.some.inj hb
    obtain rfl := Option.some.inj hb'
    obtain ⟨k, x, hk, hx, -, f1, -⟩ := R0.ceBest (by simp [tunePlan])
    obtain ⟨m, y, hm, hy, -, g1, -⟩ := R1.ceBest (by simp [tunePlan])
    have f := f1 0 (by simp [tunePlan])
    have g := g1 2 (by simp [tunePlan])
    have hk0 : k = 0 := by
      by_contra hk0
      have : 1 + k ≠ 1 := by omega
      simp [clock, took, timeOf, hk0] at f
      norm_num at f
    have hm2 : m = 2 := by
      by_contra hm2
      have : 1 + m ≠ 3 := by omega
      simp [clock, took, timeOf, this] at g
      norm_num at g
    subst hk0 hm2
    simp [tunePlan] at hk hm
    rw [hx, hy, ← hk, ← hm]
    decide

/-! ## C34 -/

/-- Number `k` of the trials is the fastest, per FFT, and the settings and the reported best time are its. -/
def Fastest (own : Clock) (flag : Int) (r : TuneSt) : Prop :=
  ∃ k q, r.runs[k]? = some q ∧ r.st = q.st ∧ r.besttime = own.fp ((own.run k).tfft * tuneScale own.fp flag q.niter) ∧
    ∀ i q', r.runs[i]? = some q' → r.besttime ≤ own.fp ((own.run i).tfft * tuneScale own.fp flag q'.niter)

/-- **C34** stage by stage: if more than one trial was run, either at most 6 trials follow the first one, and
the settings and the best time are those of the fastest of them; or 6 trials with different `collective` and
`exchange` and then 3 with different `packflag` follow, the values of `collective` and `exchange` are those of
the fastest of the 6, and the settings and the best time are those of the fastest of the 3.

Missing: the fastest of all trials; this is wrong, `C34_first_false`, `C34_pack_false`. -/
theorem C34_partial {sf : Bool} {t : TuneArgs} {s r : TuneSt} (h : tune fs root own sf t s = some (.ok r))
    (T : TimeFp root.fp) (hbig : ∀ k, (own.run k).tfft < tuneBIG) :
    r.runs.length = 1 ∨
    (2 ≤ r.runs.length ∧ r.runs.length ≤ 7 ∧ ∃ k q, 1 ≤ k ∧ r.runs[k]? = some q ∧ r.st = q.st ∧
      PerFft t.flag q.niter (own.run k).tfft r.besttime ∧
      ∀ i, 1 ≤ i → i < r.runs.length → (own.run k).tfft ≤ (own.run i).tfft) ∨
    (r.runs.length = 10 ∧
      (∃ k q, 1 ≤ k ∧ k < 7 ∧ r.runs[k]? = some q ∧ r.st.collective = q.st.collective ∧
        r.st.exchange = q.st.exchange ∧ ∀ i, 1 ≤ i → i < 7 → (own.run k).tfft ≤ (own.run i).tfft) ∧
      ∃ k q, 7 ≤ k ∧ k < 10 ∧ r.runs[k]? = some q ∧ r.st = q.st ∧
        PerFft t.flag q.niter (own.run k).tfft r.besttime ∧
        ∀ i, 7 ≤ i → i < 10 → (own.run k).tfft ≤ (own.run i).tfft) := by
  obtain ⟨hc, b, hb, R⟩ := tune_some_report h hbig
  have hl := R.len
  have near := fun x => T.scale_near x t.flag b.niter (tuneBudget_pos hc hb)
  by_cases h0 : (tunePlan b.nruns s.st).2.1 = []
  · left
    rw [hl, h0, (R.none h0).2.1]; rfl
  right
  obtain ⟨k, x, hk, hx1, hx2, f1, -, fp⟩ := R.ceBest h0
  have hkl := (List.getElem?_eq_some_iff.mp hk).1
  have hpos : 0 < (tunePlan b.nruns s.st).2.1.length := by omega
  have hst : ∀ q : Settings, r.st.collective = q.collective → r.st.exchange = q.exchange →
      r.st.packflag = q.packflag → r.st = q := by
    intro q h1 h2 h3
    cases hr : r.st
    cases q
    rw [hr] at h1 h2 h3
    simp only at h1 h2 h3
    rw [h1, h2, h3]
  obtain ⟨d, hd, ek⟩ := R.rest k ⟨x.1, x.2, 2⟩ (by
    rw [List.getElem?_append_left (by rw [List.length_map]; exact hkl), List.getElem?_map, hk]; rfl)
  by_cases h1 : (tunePlan b.nruns s.st).2.2 = []
  · left
    rw [h1] at hl
    have hle : (tunePlan b.nruns s.st).2.1.length ≤ 6 := by
      unfold tunePlan; split_ifs <;> decide
    obtain ⟨hp, hbt⟩ := fp h1
    refine ⟨by simp at hl; omega, by simp at hl; omega, 1 + k, _, by omega, ek, hst _ hx1 hx2 hp,
      by rw [hbt]; exact near _, ?_⟩
    intro i h1i hi
    have := f1 (i - 1) (by simp at hl; omega)
    rwa [Nat.add_sub_cancel' h1i] at this
  · right
    have hsix : (tunePlan b.nruns s.st).2.1.length = 6 ∧ (tunePlan b.nruns s.st).2.2.length = 3 := by
      unfold tunePlan at h1 ⊢
      split_ifs at h1 ⊢ <;> first | exact absurd rfl h1 | decide
    rw [hsix.1, hsix.2] at hl
    obtain ⟨m, y, hm, hy, g1, -, hbt⟩ := R.pBest h1
    have hml := (List.getElem?_eq_some_iff.mp hm).1
    obtain ⟨d', hd', em⟩ := R.rest (6 + m) ⟨r.st.collective, r.st.exchange, y⟩ (by
      rw [List.getElem?_append_right (by rw [List.length_map]; omega), List.length_map, hsix.1,
        Nat.add_sub_cancel_left, List.getElem?_map, hm]; rfl)
    rw [hsix.1] at g1 hbt hkl
    rw [hsix.2] at g1 hml
    refine ⟨hl, ⟨1 + k, _, by omega, by omega, ek, hx1, hx2, ?_⟩,
      ⟨1 + 6 + m, _, by omega, by omega, by rw [Nat.add_assoc]; exact em, hst _ rfl rfl hy, ?_, ?_⟩⟩
    · intro i h1i hi
      have := f1 (i - 1) (by omega)
      rwa [Nat.add_sub_cancel' h1i] at this
    · rw [hbt]; exact near _
    · intro i h7 hi
      have := g1 (i - 7) (by omega)
      have e1 : 1 + 6 + (i - 7) = i := by omega
      rw [e1] at this
      exact this

/-- What `tune` with unlimited time does, for a clock by which the trials take the times `l`. -/
theorem tune_freely (l : List (Nat × ℚ)) (h : ∀ x ∈ l, x.2 < tuneBIG) :
    ∃ r, tune (fun _ => 8) (clock 1 l) (clock 1 l) false freely newTuneSt = some (.ok r) ∧
      Report (fun _ => 8) (clock 1 l) (clock 1 l) ⟨1, 0, 10⟩ 1 newTuneSt r 0
        [(0, 0), (0, 1), (1, 0), (1, 1), (2, 0), (2, 1)] [0, 1, 2] := by
  have hbv : tuneBudget (clock 1 l).fp freely (clock 1 l).setup0 ((clock 1 l).run 0).tfft = some ⟨1, 0, 10⟩ := by
    simp [tuneBudget, freely]
  obtain ⟨r, e, R⟩ := tune_report (fs := fun _ => 8) (own := clock 1 l) (root := clock 1 l) (sf := false)
    (t := freely) (s := newTuneSt) (by decide) hbv (clock_big h)
  exact ⟨r, e, by simpa [tunePlan, freely] using R⟩

/-- **C34 does not hold**: the first trial, with the caller's settings, is the fastest, and is ignored. -/
theorem C34_first_false : ∃ (clk : Clock) (r : TuneSt),
    tune (fun _ => 8) clk clk false freely newTuneSt = some (.ok r) ∧ ¬ Fastest clk freely.flag r := by
  obtain ⟨r, e, R⟩ := tune_freely [(0, 1 / 2)] (by norm_num [tuneBIG])
  refine ⟨_, r, e, ?_⟩
  rintro ⟨k, q, -, -, -, h⟩
  obtain ⟨d, -, e0⟩ := R.first
  have h0 := h 0 _ e0
  obtain ⟨m, y, -, -, -, -, hb⟩ := R.pBest (by simp)
  rw [hb] at h0
  simp [clock, took, timeOf, tuneScale, freely] at h0
  norm_num at h0

/-- **C34 does not hold**: a trial of the first six is faster than all of the last three, and the settings
are not its. -/
theorem C34_pack_false : ∃ (clk : Clock) (r : TuneSt),
    tune (fun _ => 8) clk clk false freely newTuneSt = some (.ok r) ∧
    (∃ q, r.runs[5]? = some q ∧ ∀ i q', i ≠ 5 → r.runs[i]? = some q' →
      (clk.run 5).tfft / q.niter < (clk.run i).tfft / q'.niter) ∧
    ¬ Fastest clk freely.flag r ∧ ∀ q, r.runs[5]? = some q → r.st ≠ q.st := by
  obtain ⟨r, e, R⟩ := tune_freely [(5, 1 / 2), (9, 7 / 10), (7, 3 / 5)] (by norm_num [tuneBIG])
  obtain ⟨d, -, e5⟩ := R.rest 4 ⟨2, 0, 2⟩ rfl
  obtain ⟨m, y, hm, hy, g1, -, hb⟩ := R.pBest (by simp)
  have hml := (List.getElem?_eq_some_iff.mp hm).1
  simp at hml
  have c5 : ((clock 1 [(5, 1 / 2), (9, 7 / 10), (7, 3 / 5)]).run 5).tfft = 1 / 2 := by
    norm_num [clock, took, timeOf]
  have hc : ∀ i, i ≠ 5 → 3 / 5 ≤ ((clock 1 [(5, 1 / 2), (9, 7 / 10), (7, 3 / 5)]).run i).tfft := by
    intro i hi
    by_cases h9 : i = 9
    · subst h9; norm_num [clock, took, timeOf]
    · by_cases h7 : i = 7
      · subst h7; norm_num [clock, took, timeOf]
      · simp [clock, took, timeOf, hi, h7, h9]; norm_num
  have hm0 : m = 0 := by
    by_contra hm0
    have := g1 0 (by simp)
    have : m = 1 ∨ m = 2 := by omega
    rcases this with rfl | rfl <;> norm_num [clock, took, timeOf] at this
  subst hm0
  have hniter : ∀ (i : Nat) (q : Trial), r.runs[i]? = some q → q.niter = 1 := by
    intro i q hq
    cases i with
    | zero =>
      obtain ⟨d, -, e0⟩ := R.first
      rw [hq] at e0
      rw [Option.some.inj e0]
    | succ i =>
      have hil := (List.getElem?_eq_some_iff.mp hq).1
      have hl := R.len
      simp at hl
      obtain ⟨st, hst⟩ : ∃ st, (([(0, 0), (0, 1), (1, 0), (1, 1), (2, 0), (2, 1)] : List (Int × Int)).map
            (fun x => (⟨x.1, x.2, 2⟩ : Settings)) ++
          ([0, 1, 2] : List Int).map fun x => ⟨r.st.collective, r.st.exchange, x⟩)[i]? = some st :=
        ⟨_, List.getElem?_eq_getElem (by simp; omega)⟩
      obtain ⟨d', -, e'⟩ := R.rest i st hst
      rw [Nat.add_comm 1 i, hq] at e'
      rw [Option.some.inj e']
  refine ⟨_, r, e, ⟨_, e5, ?_⟩, ?_, ?_⟩
  · intro i q' hi hq'
    rw [hniter i q' hq', c5]
    have := hc i hi
    simp [tuneScale]
    norm_num at this ⊢
    linarith
  · rintro ⟨k, q, -, -, -, h⟩
    have := h 5 _ e5
    rw [c5, hb] at this
    norm_num [clock, took, timeOf, tuneScale, freely] at this
  · intro q hq hst
    rw [e5] at hq
    rw [← Option.some.inj hq] at hst
    simp at hm
    rw [hst] at hy
    simp at hy
    omega

/-! ## C35 -/

/-- The time that a trial takes if `setup` takes the time `ts` and an FFT the time `tf`; with `tflag` the FFTs,
1d FFTs and remaps of an iteration are reckoned as 3 FFTs (fft3d.cpp:805). -/
def Trial.cost (ts tf : ℚ) (q : Trial) : ℚ := ts + (if q.tflag ≠ 0 then 3 else 1) * q.niter * tf

theorem Report.cost {b : Budget} {flag : Int} {s r : TuneSt} {n0 : Nat} {ce : List (Int × Int)} {ps : List Int}
    (ts tf : ℚ) (R : Report fs root own b flag s r n0 ce ps) :
    (r.runs.map (Trial.cost ts tf)).sum = (ts + tf) +
      (ce.length + ps.length : Nat) * (ts + (if b.tflag ≠ 0 then 3 else 1) * b.niter * tf) := by
  have hl := R.len
  have e : r.runs.map (Trial.cost ts tf) = (ts + tf) ::
      List.replicate (ce.length + ps.length) (ts + (if b.tflag ≠ 0 then 3 else 1) * b.niter * tf) := by
    apply List.ext_getElem?
    intro i
    rw [List.getElem?_map]
    cases i with
    | zero =>
      obtain ⟨d, -, e0⟩ := R.first
      rw [e0]
      simp [Trial.cost]
    | succ i =>
      rw [List.getElem?_cons_succ]
      by_cases hi : i < ce.length + ps.length
      · obtain ⟨st, hst⟩ : ∃ st, (ce.map (fun x => (⟨x.1, x.2, 2⟩ : Settings)) ++
            ps.map fun x => ⟨r.st.collective, r.st.exchange, x⟩)[i]? = some st :=
          ⟨_, List.getElem?_eq_getElem (by simp only [List.length_append, List.length_map]; omega)⟩
        obtain ⟨d', -, e'⟩ := R.rest i st hst
        rw [Nat.add_comm i 1, e', List.getElem?_replicate, if_pos hi]
        rfl
      · rw [List.getElem?_eq_none (by omega), List.getElem?_replicate, if_neg hi]
        rfl
  rw [e, List.sum_cons, List.sum_replicate, nsmul_eq_mul]

/-- **C35**, time: if every `setup` takes the time `ts` and every FFT the time `tf` measured in the first run,
then all trials together take at most `tmax`, unless the first run alone takes longer; both up to the rounding
errors of `double`. -/
theorem C35_time {sf : Bool} {t : TuneArgs} {s r : TuneSt} (h : tune fs root own sf t s = some (.ok r))
    (T : TimeFp root.fp) (hbig : ∀ k, (own.run k).tfft < tuneBIG) (hmax : 0 < t.tmax) (hs : 0 ≤ root.setup0)
    (hf : 0 < (root.run 0).tfft) :
    (r.runs.map (Trial.cost root.setup0 (root.run 0).tfft)).sum ≤ t.tmax * (1 + 1 / 2 ^ 50) ∨
      t.tmax < (root.setup0 + (root.run 0).tfft) * (1 + 1 / 2 ^ 53) := by
  obtain ⟨hc, b, hb, R⟩ := tune_some_report h hbig
  rw [R.cost]
  set ts := root.setup0
  set tf := (root.run 0).tfft
  have hn : 0 < t.niter := by
    unfold tuneCheck at hc
    split_ifs at hc with h1 h2 h4 h5
    push Not at h4
    exact h4.1
  -- ten trials of the same kind fit
  have ten : ∀ c : ℚ, b.nruns = 10 → 10 * c ≤ t.tmax * (1 + 1 / 2 ^ 50) → ts + tf ≤ c →
      ts + tf + ((tunePlan b.nruns s.st).2.1.length + (tunePlan b.nruns s.st).2.2.length : Nat) * c ≤
        t.tmax * (1 + 1 / 2 ^ 50) := by
    intro c h10 hc1 hc2
    have : (tunePlan b.nruns s.st).2.1.length + (tunePlan b.nruns s.st).2.2.length = 9 := by
      rw [h10]; simp [tunePlan]
    rw [this]
    push_cast
    linarith
  have one_le : ∀ (n : Int) (tg : Int), 0 < n → ts + tf ≤ ts + (if tg ≠ 0 then 3 else 1) * (n : ℚ) * tf := by
    intro n tg h0
    have h1 : (1 : ℚ) ≤ n := by exact_mod_cast h0
    have h2 : (1 : ℚ) ≤ (if tg ≠ 0 then 3 else 1) * (n : ℚ) := by split_ifs <;> linarith
    nlinarith
  -- from above, for a quotient of which the iterations are a part
  have quot : ∀ m : ℚ, 0 < m → m ≤ timeQuot root.fp t ts tf * (1 + 1 / 2 ^ 53) →
      10 * (ts + m * tf) ≤ t.tmax * (1 + 1 / 2 ^ 50) := by
    intro m hm hq
    have q0 : 0 < timeQuot root.fp t ts tf := by
      by_contra hh
      have : timeQuot root.fp t ts tf * (1 + 1 / 2 ^ 53) ≤ 0 :=
        mul_nonpos_of_nonpos_of_nonneg (not_lt.mp hh) (by norm_num)
      linarith
    have h1 := T.quot_time hmax.le hs hf q0
    have h2 : m * tf ≤ timeQuot root.fp t ts tf * (1 + 1 / 2 ^ 53) * tf := by gcongr
    have h3 : (1 + 1 / 2 ^ 53) * (ts + timeQuot root.fp t ts tf * tf) ≤
        (1 + 1 / 2 ^ 53) * ((1 + 1 / 2 ^ 53) ^ 3 * (t.tmax / 10)) := by gcongr
    have h4 : (1 + 1 / 2 ^ 53 : ℚ) ^ 4 ≤ 1 + 1 / 2 ^ 50 := by norm_num
    have h5 : (1 + 1 / 2 ^ 53 : ℚ) ^ 4 * t.tmax ≤ (1 + 1 / 2 ^ 50) * t.tmax := by gcongr
    have h6 : 0 ≤ 1 / 2 ^ 53 * ts := by positivity
    linarith
  rcases tuneBudget_cases hb with ⟨hno, rfl⟩ | ⟨hyes, htf, n1, e1, ⟨h1, rfl⟩ | ⟨h1, n2, e2, ⟨h2, rfl⟩ | ⟨h2, hsum, n3, e3, rfl⟩⟩⟩
  · left
    apply ten _ rfl _ (one_le _ _ hn)
    have : timeTotal root.fp t ts tf ≤ t.tmax := by
      by_contra hh
      exact hno ⟨hmax, not_le.mp hh⟩
    have hnq : (0 : ℚ) < t.niter := by exact_mod_cast hn
    have key : ∀ m : ℚ, 0 ≤ m → root.fp (10 * root.fp (ts + root.fp (m * tf))) ≤ t.tmax →
        10 * (ts + m * tf) ≤ t.tmax * (1 + 1 / 2 ^ 50) := by
      intro m hm h
      have h1 := (T.total_ge hs hf.le hm).trans h
      have h2 : (1 : ℚ) ≤ (1 + 1 / 2 ^ 50) * (1 - 1 / 2 ^ 53) ^ 3 := by norm_num
      have h3 : (1 + 1 / 2 ^ 50) * (10 * ((1 - 1 / 2 ^ 53) ^ 3 * (ts + m * tf))) ≤ (1 + 1 / 2 ^ 50) * t.tmax := by
        gcongr
      have h4 : 0 ≤ 10 * (ts + m * tf) := by positivity
      have h5 := mul_le_mul_of_nonneg_right h2 h4
      linarith
    unfold timeTotal at this
    simp only
    split_ifs at this ⊢
    · exact key _ (by positivity) this
    · rw [one_mul]; exact key _ hnq.le this
  · left
    apply ten _ rfl _ (one_le _ _ h1)
    have := castInt_ge e1 h1
    have h1q : (0 : ℚ) < n1 := by exact_mod_cast h1
    simp only
    split_ifs at this ⊢ with hz
    · refine quot _ (by positivity) ?_
      have q0 : 0 ≤ timeQuot root.fp t ts tf / 3 := by
        by_contra hh
        have := T.mono (not_le.mp hh).le
        rw [T.zero] at this
        linarith
      have := T.le q0
      linarith
    · rw [one_mul]
      refine quot _ h1q ?_
      nlinarith
  · left
    apply ten _ rfl _ (one_le _ _ h2)
    have := castInt_ge e2 h2
    have h2q : (0 : ℚ) < n2 := by exact_mod_cast h2
    simp only [ne_eq, not_true_eq_false, if_false, one_mul]
    refine quot _ h2q ?_
    nlinarith
  · have hpos : 0 < ts + tf := by linarith
    by_cases h3 : 0 < n3
    · left
      have hge := castInt_ge e3 h3
      have hr := T.runs_le hmax.le hpos
      have hcount : ((tunePlan n3 s.st).2.1.length + (tunePlan n3 s.st).2.2.length : Nat) + 1 ≤ n3 := by
        unfold tunePlan
        split_ifs <;> simp <;> omega
      have hq : (((tunePlan n3 s.st).2.1.length + (tunePlan n3 s.st).2.2.length : Nat) : ℚ) + 1 ≤ n3 := by
        exact_mod_cast hcount
      have hq2 := mul_le_mul_of_nonneg_right (hq.trans hge) hpos.le
      have : (1 + 1 / 2 ^ 51) * t.tmax ≤ (1 + 1 / 2 ^ 50) * t.tmax := by
        gcongr ?_ * _
        norm_num
      simp only [ne_eq, not_true_eq_false, if_false]
      push_cast at hq2 ⊢
      linarith
    · right
      have := T.lt_one (lt_of_not_ge fun hh => by
        have := castInt_nonpos e3 (not_lt.mp h3)
        linarith)
      rw [div_lt_one (T.pos hpos)] at this
      have := T.le hpos.le
      linarith

/-- Twelve seconds for trials of two seconds each. -/
example : ∃ r, tune (fun _ => 8) (clock 1 []) (clock 1 []) false { freely with tmax := 12 } newTuneSt =
      some (.ok r) ∧ (r.runs.map (Trial.cost 1 1)).sum ≤ 12 * (1 + 1 / 2 ^ 50) := by
  obtain ⟨r, e⟩ := C32_defined (fs := fun _ => 8) (root := clock 1 []) (own := clock 1 []) (sf := false)
    (t := { freely with tmax := 12 }) newTuneSt timeFp_id (by decide +kernel) (by decide) (by norm_num [clock])
    (by norm_num [clock, took, timeOf]) (by norm_num [clock, took, timeOf, intMax]) (clock_big (by simp))
  refine ⟨r, e, ?_⟩
  rcases C35_time e timeFp_id (clock_big (by simp)) (by norm_num) (by norm_num [clock]) (by norm_num [clock, took, timeOf])
    with h | h
  · simpa [clock, took, timeOf] using h
  · norm_num [clock, took, timeOf] at h

/-- **C35**, iterations: without `tflag`, the number of iterations is not increased; with `tflag`, it is at
most 2 if it is.  (`setup` took at most about `2^31` times as long as the FFT.)

Missing: not increased with `tflag` either; this is wrong, `C35_niter_false`. -/
theorem C35_niter_partial {sf : Bool} {t : TuneArgs} {s r : TuneSt} (h : tune fs root own sf t s = some (.ok r))
    (T : TimeFp root.fp) (hbig : ∀ k, (own.run k).tfft < tuneBIG) (hni : t.niter ≤ intMax) (hs : 0 ≤ root.setup0)
    (hf : 0 < (root.run 0).tfft) (hr : root.setup0 ≤ intMax * (root.run 0).tfft) :
    r.npertrial ≤ max t.niter 2 ∧ (t.tflag = 0 → r.npertrial ≤ t.niter) ∧ 1 ≤ r.npertrial := by
  obtain ⟨hc, b, hb, R⟩ := tune_some_report h hbig
  rw [R.npertrial]
  set ts := root.setup0
  set tf := (root.run 0).tfft
  have hn : 0 < t.niter := by
    unfold tuneCheck at hc
    split_ifs at hc with h1 h2 h4 h5
    push Not at h4
    exact h4.1
  rcases tuneBudget_cases hb with ⟨hno, rfl⟩ | ⟨hyes, htf, n1, e1, ⟨h1, rfl⟩ | ⟨h1, n2, e2, ⟨h2, rfl⟩ | ⟨h2, hsum, n3, e3, rfl⟩⟩⟩
  · exact ⟨le_max_left _ _, fun _ => le_refl _, hn⟩
  · suffices n1 ≤ t.niter from ⟨le_max_of_le_left this, fun _ => this, h1⟩
    have := castInt_ge e1 h1
    have ht := hyes.2
    have h0 := hyes.1.le
    have hnq : (0 : ℚ) < t.niter := by exact_mod_cast hn
    have hni' : (t.niter : ℚ) ≤ intMax := by exact_mod_cast hni
    unfold timeTotal at ht
    have : (n1 : ℚ) < t.niter + 1 := by
      split_ifs at this ht with hz
      · have hi : isInt (3 * t.niter) := by
          by_contra hh
          unfold tuneBudget at hb
          rw [if_pos ⟨hz, hh⟩] at hb
          cases hb
        have hi' : (3 * t.niter : ℚ) ≤ intMax := by exact_mod_cast hi.2
        have q := T.quot_lt hs hf hr (by positivity) hi' h0 ht
        have q2 := T.le_max (show 0 ≤ (t.niter : ℚ) + 1 / 24 by positivity)
          (show timeQuot root.fp t ts tf / 3 ≤ t.niter + 1 / 24 by linarith)
        have : (intMax : ℚ) = 2147483647 := by norm_num [intMax]
        linarith
      · have q := T.quot_lt hs hf hr hnq.le hni' h0 ht
        linarith
    have : n1 < t.niter + 1 := by exact_mod_cast this
    omega
  · have hge := castInt_ge e2 h2
    have hlt := castInt_nonpos e1 h1
    refine ⟨?_, ?_, h2⟩
    · apply le_max_of_le_right
      have : (n2 : ℚ) < 3 := by
        split_ifs at hlt
        · have := T.lt_one hlt
          rw [div_lt_iff₀ (by norm_num)] at this; linarith
        · linarith
      have : n2 < 3 := by exact_mod_cast this
      simp only
      omega
    · intro h0
      rw [if_neg (by simp [h0])] at e1
      rw [e1] at e2
      have := Option.some.inj e2
      omega
  · exact ⟨le_max_of_le_left hn, fun _ => hn, le_refl _⟩

/-- **C35 does not hold**: with `tflag` and a budget that allows more than two but less than three FFTs per
trial, the number of iterations is increased from 1 to 2. -/
theorem C35_niter_false : ∃ (clk : Clock) (t : TuneArgs) (r : TuneSt),
    tune (fun _ => 8) clk clk false t newTuneSt = some (.ok r) ∧ t.niter < r.npertrial := by
  refine ⟨clock 1 [], { flag := 1, niter := 1, tmax := 35, tflag := 1 }, ?_⟩
  have fl : ⌊(5 / 6 : ℚ)⌋ = 0 := by rw [Int.floor_eq_iff]; norm_num
  have fl2 : ⌊(5 / 2 : ℚ)⌋ = 2 := by rw [Int.floor_eq_iff]; norm_num
  have hb : tuneBudget (clock 1 []).fp { flag := 1, niter := 1, tmax := 35, tflag := 1 } (clock 1 []).setup0
      ((clock 1 []).run 0).tfft = some ⟨2, 0, 10⟩ := by
    have i0 : isInt 0 := by decide
    have i2 : isInt 2 := by decide
    have i3 : isInt 3 := by decide
    norm_num [tuneBudget, clock, took, timeOf, fdiv, castInt, fl, fl2, i0, i2, i3]
  obtain ⟨r, e, R⟩ := tune_report (fs := fun _ => 8) (own := clock 1 []) (root := clock 1 []) (sf := false)
    (t := { flag := 1, niter := 1, tmax := 35, tflag := 1 }) (s := newTuneSt) (by decide +kernel) hb
    (clock_big (by simp))
  exact ⟨r, e, by rw [R.npertrial]; decide⟩

end FftMpi
