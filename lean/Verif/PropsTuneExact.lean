import Verif.PropsTune
import Mathlib.Tactic.IntervalCases

/-!
# C32 to C35: exactly when `tune` returns if there is no time limit or no measured time, when two ranks choose the same settings, and when the choice is the fastest
-/

namespace FftMpi

/-- Of the trials `lo` to `hi - 1` number `k` is the fastest on the clock `c`, and the first one of these. -/
structure FirstBest (c : Clock) (lo hi k : Nat) : Prop where
  range : lo ≤ k ∧ k < hi
  best : ∀ i, lo ≤ i → i < hi → (c.run k).tfft ≤ (c.run i).tfft
  first : ∀ i, lo ≤ i → i < k → (c.run k).tfft < (c.run i).tfft

theorem FirstBest.unique {c : Clock} {lo hi k m : Nat} (h : FirstBest c lo hi k) (g : FirstBest c lo hi m) : k = m := by
  rcases lt_trichotomy k m with hk | hk | hk
  · exact absurd (g.first k h.range.1 hk) (not_lt.mpr (h.best m g.range.1 g.range.2))
  · exact hk
  · exact absurd (h.first m g.range.1 hk) (not_lt.mpr (g.best k h.range.1 h.range.2))

/-- **C33, exactly.**  Two ranks that run `tune` with the same settings before leave it with the same settings if and only if on both of
their clocks the same trial is the first of the fastest: of those that follow the first one, at most six, and of the last three of ten. -/
theorem C33_iff {P : Nat} {fsz : Nat → Settings → Int} {clk : Nat → Clock} {t : TuneArgs} {s r : Nat → TuneSt}
    (hs : ∀ a < P, (s a).st = (s 0).st)
    (h : ∀ a < P, tune (fsz a) (clk 0) (clk a) false t (s a) = some (.ok (r a)))
    (hbig : ∀ a < P, ∀ k, ((clk a).run k).tfft < tuneBIG) {a b : Nat} (ha : a < P) (hb : b < P) :
    (r a).st = (r b).st ↔
      (2 ≤ (r a).runs.length → ∃ k, FirstBest (clk a) 1 (min (r a).runs.length 7) k ∧ FirstBest (clk b) 1 (min (r a).runs.length 7) k) ∧
      ((r a).runs.length = 10 → ∃ k, FirstBest (clk a) 7 10 k ∧ FirstBest (clk b) 7 10 k) := by
  have key : ∀ a < P, ∃ bu, tuneBudget (clk 0).fp t (clk 0).setup0 ((clk 0).run 0).tfft = some bu ∧
      Report (fsz a) (clk 0) (clk a) bu t.flag (s a) (r a) (tunePlan bu.nruns (s 0).st).1
        (tunePlan bu.nruns (s 0).st).2.1 (tunePlan bu.nruns (s 0).st).2.2 := by
    intro a ha
    obtain ⟨-, bu, hb, R⟩ := tune_some_report (h a ha) (hbig a ha)
    rw [hs a ha] at R
    exact ⟨bu, hb, R⟩
  obtain ⟨bu, e1, R1⟩ := key a ha
  obtain ⟨bu', e2, R2⟩ := key b hb
  rw [e1] at e2
  obtain rfl := Option.some.inj e2
  have hst : ∀ p q : Settings, p.collective = q.collective → p.exchange = q.exchange → p.packflag = q.packflag → p = q := by
    rintro ⟨⟩ ⟨⟩ h1 h2 h3
    simp only at h1 h2 h3
    rw [h1, h2, h3]
  have facts : (tunePlan bu.nruns (s 0).st).2.1.Nodup ∧ (tunePlan bu.nruns (s 0).st).2.2.Nodup ∧
      ((tunePlan bu.nruns (s 0).st).2.2 = [] ∧ (tunePlan bu.nruns (s 0).st).2.1.length ≤ 6 ∨
        (tunePlan bu.nruns (s 0).st).2.1.length = 6 ∧ (tunePlan bu.nruns (s 0).st).2.2.length = 3) := by
    unfold tunePlan
    split_ifs <;> decide
  obtain ⟨nd1, nd2, hlen⟩ := facts
  have l1 := R1.len
  by_cases h0 : (tunePlan bu.nruns (s 0).st).2.1 = []
  · obtain ⟨n1, n2, -⟩ := R1.none h0
    rw [h0, n2] at l1
    rw [n1, (R2.none h0).1, hs a ha, hs b hb]
    simp [l1]
  have hpos := List.length_pos_of_ne_nil h0
  have hmin : min (r a).runs.length 7 = 1 + (tunePlan bu.nruns (s 0).st).2.1.length := by
    rcases hlen with ⟨h, h'⟩ | ⟨h, h'⟩
    · rw [h] at l1; simp at l1; omega
    · omega
  obtain ⟨k, x, hk, hx1, hx2, f1, f2, fp⟩ := R1.ceBest h0
  obtain ⟨m, y, hm, hy1, hy2, g1, g2, gp⟩ := R2.ceBest h0
  obtain ⟨hkl, hk'⟩ := List.getElem?_eq_some_iff.mp hk
  obtain ⟨hml, hm'⟩ := List.getElem?_eq_some_iff.mp hm
  have mk : ∀ (c : Clock) (o n k : Nat), k < n → (∀ i < n, (c.run (o + k)).tfft ≤ (c.run (o + i)).tfft) →
      (∀ i < k, (c.run (o + k)).tfft < (c.run (o + i)).tfft) → FirstBest c o (o + n) (o + k) := by
    intro c o n k hk h1 h2
    refine ⟨by omega, fun i hi hi' => ?_, fun i hi hi' => ?_⟩
    · have := h1 (i - o) (by omega)
      rwa [Nat.add_sub_cancel' hi] at this
    · have := h2 (i - o) (by omega)
      rwa [Nat.add_sub_cancel' hi] at this
  have bA := mk (clk a) 1 _ k hkl f1 f2
  have bB := mk (clk b) 1 _ m hml g1 g2
  have hce : (∃ j, FirstBest (clk a) 1 (min (r a).runs.length 7) j ∧ FirstBest (clk b) 1 (min (r a).runs.length 7) j) ↔ k = m := by
    rw [hmin]
    constructor
    · rintro ⟨j, j1, j2⟩
      have := j1.unique bA
      have := j2.unique bB
      omega
    · rintro rfl
      exact ⟨_, bA, bB⟩
  have hxy : k = m ↔ ((r a).st.collective = (r b).st.collective ∧ (r a).st.exchange = (r b).st.exchange) := by
    rw [hx1, hx2, hy1, hy2, ← Prod.ext_iff, ← hk', ← hm', nd1.getElem_inj_iff]
  have h2 : 2 ≤ (r a).runs.length := by omega
  by_cases h1 : (tunePlan bu.nruns (s 0).st).2.2 = []
  · have hne : ¬ (r a).runs.length = 10 := by
      rcases hlen with ⟨h, h'⟩ | ⟨h, h'⟩
      · rw [h] at l1; simp at l1; omega
      · rw [h1] at h'; cases h'
    have p1 := (fp h1).1
    have p2 := (gp h1).1
    constructor
    · intro he
      exact ⟨fun _ => hce.mpr (hxy.mpr (by rw [he]; exact ⟨rfl, rfl⟩)), fun h => absurd h hne⟩
    · rintro ⟨h, -⟩
      obtain ⟨q1, q2⟩ := hxy.mp (hce.mp (h h2))
      exact hst _ _ q1 q2 (by rw [p1, p2])
  · have h6 := hlen.resolve_left fun h => h1 h.1
    obtain ⟨k', x', hk2, hx', f1', f2', -⟩ := R1.pBest h1
    obtain ⟨m', y', hm2, hy', g1', g2', -⟩ := R2.pBest h1
    obtain ⟨hkl', hke⟩ := List.getElem?_eq_some_iff.mp hk2
    obtain ⟨hml', hme⟩ := List.getElem?_eq_some_iff.mp hm2
    have cA := mk (clk a) _ _ k' hkl' f1' f2'
    have cB := mk (clk b) _ _ m' hml' g1' g2'
    rw [h6.1, h6.2] at cA cB
    have hpp : (∃ j, FirstBest (clk a) 7 10 j ∧ FirstBest (clk b) 7 10 j) ↔ (r a).st.packflag = (r b).st.packflag := by
      rw [hx', hy', ← hke, ← hme, nd2.getElem_inj_iff]
      constructor
      · rintro ⟨j, j1, j2⟩
        have := j1.unique cA
        have := j2.unique cB
        omega
      · rintro rfl
        exact ⟨_, cA, cB⟩
    have h10 : (r a).runs.length = 10 := by omega
    constructor
    · intro he
      exact ⟨fun _ => hce.mpr (hxy.mpr (by rw [he]; exact ⟨rfl, rfl⟩)), fun _ => hpp.mpr (by rw [he])⟩
    · rintro ⟨h, h'⟩
      obtain ⟨q1, q2⟩ := hxy.mp (hce.mp (h h2))
      exact hst _ _ q1 q2 (hpp.mp (h' h10))

/-- Two clocks that order the trials in different ways (4 and 5), but agree on the fastest. -/
def unlikeClock (a : Nat) : Clock := if a = 0 then clock 1 [(2, 1 / 2)] else clock 1 [(2, 1 / 2), (5, 3 / 4)]

example : ∃ r : Nat → TuneSt,
    (∀ a < 2, tune (fun _ => 8) (unlikeClock 0) (unlikeClock a) false freely newTuneSt = some (.ok (r a))) ∧
    (r 0).runs.length = 10 ∧ (r 0).st = (r 1).st ∧
    ¬ (((unlikeClock 0).run 5).tfft < ((unlikeClock 0).run 4).tfft ↔
      ((unlikeClock 1).run 5).tfft < ((unlikeClock 1).run 4).tfft) := by
  have hbig : ∀ a < 2, ∀ k, ((unlikeClock a).run k).tfft < tuneBIG := by
    intro a _
    unfold unlikeClock
    split_ifs
    · exact clock_big (by norm_num [tuneBIG])
    · exact clock_big (by norm_num [tuneBIG])
  have ex : ∀ a < 2, ∃ r, tune (fun _ => 8) (unlikeClock 0) (unlikeClock a) false freely newTuneSt = some (.ok r) :=
    fun a ha => C32_defined newTuneSt timeFp_id (by decide) (by decide) (by norm_num [unlikeClock, clock])
      (by norm_num [unlikeClock, clock, took, timeOf]) (by norm_num [unlikeClock, clock, took, timeOf, intMax]) (hbig a ha)
  have : Nonempty TuneSt := ⟨newTuneSt⟩
  choose! r hr using ex
  have h10 : (r 0).runs.length = 10 := by
    obtain ⟨-, b, hb, R⟩ := tune_some_report (hr 0 (by decide)) (hbig 0 (by decide))
    have hbv : tuneBudget (unlikeClock 0).fp freely (unlikeClock 0).setup0 ((unlikeClock 0).run 0).tfft = some ⟨1, 0, 10⟩ := by
      simp [tuneBudget, freely]
    rw [hbv] at hb
    obtain rfl := Option.some.inj hb
    rw [R.len]
    rfl
  refine ⟨r, hr, h10, (C33_iff (P := 2) (fsz := fun _ _ => 8) (clk := unlikeClock) (s := fun _ => newTuneSt)
    (fun _ _ => rfl) hr hbig (by decide) (by decide)).mpr ⟨fun _ => ⟨2, ?_, ?_⟩, fun _ => ⟨7, ?_, ?_⟩⟩, ?_⟩
  · rw [h10, show min 10 7 = 7 from rfl]
    refine ⟨by decide, fun i _ _ => ?_, fun i _ _ => ?_⟩ <;> (interval_cases i <;> norm_num [unlikeClock, clock, took, timeOf])
  · rw [h10, show min 10 7 = 7 from rfl]
    refine ⟨by decide, fun i _ _ => ?_, fun i _ _ => ?_⟩ <;> (interval_cases i <;> norm_num [unlikeClock, clock, took, timeOf])
  · refine ⟨by decide, fun i _ _ => ?_, fun i _ _ => ?_⟩
    · interval_cases i <;> norm_num [unlikeClock, clock, took, timeOf]
    · omega
  · refine ⟨by decide, fun i _ _ => ?_, fun i _ _ => ?_⟩
    · interval_cases i <;> norm_num [unlikeClock, clock, took, timeOf]
    · omega
  · norm_num [unlikeClock, clock, took, timeOf]

/-- **C34, exactly.**  After ten trials the chosen settings are those of a trial that no other one after the first beat, if and only if one
of the last three is such a trial, or the last of all is the first of the fastest of these three: it has the settings of one of the six
before. -/
theorem C34_iff {fs : Settings → Int} {root own : Clock} {sf : Bool} {t : TuneArgs} {s r : TuneSt}
    (h : tune fs root own sf t s = some (.ok r)) (hbig : ∀ k, (own.run k).tfft < tuneBIG) (h10 : r.runs.length = 10) :
    (∃ k q, 1 ≤ k ∧ r.runs[k]? = some q ∧ r.st = q.st ∧ ∀ i, 1 ≤ i → i < 10 → (own.run k).tfft ≤ (own.run i).tfft) ↔
      (∃ k, 7 ≤ k ∧ k < 10 ∧ ∀ i, 1 ≤ i → i < 10 → (own.run k).tfft ≤ (own.run i).tfft) ∨ FirstBest own 7 10 9 := by
  obtain ⟨-, b, hb, R⟩ := tune_some_report h hbig
  have plan : (tunePlan b.nruns s.st).2.1 = [(0, 0), (0, 1), (1, 0), (1, 1), (2, 0), (2, 1)] ∧
      (tunePlan b.nruns s.st).2.2 = [0, 1, 2] := by
    have := R.len
    rw [h10] at this
    unfold tunePlan at this ⊢
    split_ifs at this ⊢ <;> simp at this ⊢
  rw [plan.1, plan.2] at R
  obtain ⟨k, x, hk, hx1, hx2, f1, -, -⟩ := R.ceBest (by simp)
  obtain ⟨m, y, hm, hy, g1, g2, -⟩ := R.pBest (by simp)
  have hk6 : k < 6 := (List.getElem?_eq_some_iff.mp hk).1
  have hm3 : m < 3 := (List.getElem?_eq_some_iff.mp hm).1
  have g1' : ∀ i, 7 ≤ i → i < 10 → (own.run (7 + m)).tfft ≤ (own.run i).tfft := fun i hi hi' => by
    have : (own.run (7 + m)).tfft ≤ (own.run (7 + (i - 7))).tfft := g1 (i - 7) (show i - 7 < 3 by omega)
    rwa [show (7 + (i - 7) : Nat) = i by omega] at this
  have f1' : ∀ i, 1 ≤ i → i < 7 → (own.run (1 + k)).tfft ≤ (own.run i).tfft := fun i hi hi' => by
    have := f1 (i - 1) (show i - 1 < 6 by omega)
    rwa [show (1 + (i - 1) : Nat) = i by omega] at this
  have bB : FirstBest own 7 10 (7 + m) := ⟨by omega, g1', fun i hi hi' => by
    have : (own.run (7 + m)).tfft < (own.run (7 + (i - 7))).tfft := g2 (i - 7) (by omega)
    rwa [show (7 + (i - 7) : Nat) = i by omega] at this⟩
  have hym : y = (m : Int) := by
    interval_cases m <;> simp at hm <;> simp [← hm]
  have hst : r.st = ⟨x.1, x.2, y⟩ := by
    cases hr : r.st
    rw [hr] at hx1 hx2 hy
    simp only at hx1 hx2 hy
    rw [hx1, hx2, hy]
  obtain ⟨d, -, ek⟩ := R.rest k ⟨x.1, x.2, 2⟩ (by
    rw [List.getElem?_append_left (by simpa using hk6), List.getElem?_map, hk]; rfl)
  obtain ⟨d', -, em⟩ := R.rest (6 + m) ⟨r.st.collective, r.st.exchange, y⟩ (by
    rw [List.getElem?_append_right (by simp), List.getElem?_map]
    simp [hm])
  rw [show 1 + (6 + m) = 7 + m by omega] at em
  have st7 : r.st = ⟨r.st.collective, r.st.exchange, y⟩ := by rw [hst]
  constructor
  · rintro ⟨j, q, hj, hq, hs, hmin⟩
    have hj10 : j < 10 := by rw [← h10]; exact (List.getElem?_eq_some_iff.mp hq).1
    by_cases h7 : 7 ≤ j
    · exact .inl ⟨j, h7, hj10, hmin⟩
    · right
      have hp : r.st.packflag = 2 := by
        obtain ⟨z, hz⟩ : ∃ z, ([(0, 0), (0, 1), (1, 0), (1, 1), (2, 0), (2, 1)] : List (Int × Int))[j - 1]? = some z :=
          ⟨_, List.getElem?_eq_getElem (show j - 1 < 6 by omega)⟩
        obtain ⟨d, -, ej⟩ := R.rest (j - 1) ⟨z.1, z.2, 2⟩ (by
          rw [List.getElem?_append_left (show j - 1 < _ by simp; omega), List.getElem?_map, hz]; rfl)
        rw [Nat.add_sub_cancel' hj, hq] at ej
        rw [hs, Option.some.inj ej]
      have : m = 2 := by omega
      subst this
      exact bB
  · rintro (⟨j, h7, hj, hmin⟩ | hB)
    · exact ⟨7 + m, _, by omega, em, st7, fun i hi hi' => (g1' j h7 hj).trans (hmin i hi hi')⟩
    · have hm2 : m = 2 := by have := bB.unique hB; omega
      subst hm2
      rcases le_total (own.run (1 + k)).tfft (own.run (7 + 2)).tfft with hle | hle
      · refine ⟨1 + k, _, by omega, ek, by rw [hst, hym]; rfl, fun i hi hi' => ?_⟩
        rcases Nat.lt_or_ge i 7 with h | h
        · exact f1' i hi h
        · exact hle.trans (g1' i h hi')
      · refine ⟨7 + 2, _, by omega, em, st7, fun i hi hi' => ?_⟩
        rcases Nat.lt_or_ge i 7 with h | h
        · exact hle.trans (f1' i hi h)
        · exact g1' i h hi'

/-- A clock with which the second of the six is the fastest of all, and the last of the three the fastest of these: a choice of the
fastest by the second way of `C34_iff`, and not by the first. -/
example : ∃ r, tune (fun _ => 8) (clock 1 [(2, 1 / 2), (9, 3 / 4)]) (clock 1 [(2, 1 / 2), (9, 3 / 4)]) false freely newTuneSt = some (.ok r) ∧
    r.runs.length = 10 ∧
    (∃ k q, 1 ≤ k ∧ r.runs[k]? = some q ∧ r.st = q.st ∧ ∀ i, 1 ≤ i → i < 10 →
      ((clock 1 [(2, 1 / 2), (9, 3 / 4)]).run k).tfft ≤ ((clock 1 [(2, 1 / 2), (9, 3 / 4)]).run i).tfft) ∧
    ¬ ∃ k, 7 ≤ k ∧ k < 10 ∧ ∀ i, 1 ≤ i → i < 10 →
      ((clock 1 [(2, 1 / 2), (9, 3 / 4)]).run k).tfft ≤ ((clock 1 [(2, 1 / 2), (9, 3 / 4)]).run i).tfft := by
  obtain ⟨r, e, R⟩ := tune_freely [(2, 1 / 2), (9, 3 / 4)] (by norm_num [tuneBIG])
  refine ⟨r, e, R.len, (C34_iff e (clock_big (by norm_num [tuneBIG])) R.len).mpr (.inr ⟨by decide, fun i _ _ => ?_, fun i _ _ => ?_⟩), ?_⟩
  · interval_cases i <;> norm_num [clock, took, timeOf]
  · interval_cases i <;> norm_num [clock, took, timeOf]
  · rintro ⟨k, h7, hk, hm⟩
    have := hm 2 (by decide) (by decide)
    interval_cases k <;> norm_num [clock, took, timeOf] at this

/-- `tune` with accepted arguments returns exactly if the computation of the budget has a defined result. -/
theorem tune_returns_iff {fs : Settings → Int} {root own : Clock} {sf : Bool} {t : TuneArgs} (s : TuneSt)
    (hc : tuneCheck sf t = none) (hbig : ∀ k, (own.run k).tfft < tuneBIG) :
    (∃ r, tune fs root own sf t s = some (.ok r)) ↔ ∃ b, tuneBudget root.fp t root.setup0 (root.run 0).tfft = some b := by
  constructor
  · rintro ⟨r, h⟩
    obtain ⟨-, b, hb, -⟩ := tune_some_report h hbig
    exact ⟨b, hb⟩
  · rintro ⟨b, hb⟩
    obtain ⟨r, e, -⟩ := tune_report (fs := fs) (own := own) (s := s) hc hb hbig
    exact ⟨r, e⟩

/-- **C32, exactly, without a time limit**: `tune` returns if and only if it does not have to time the parts, or three times the
number of iterations is an `int` (fft3d.cpp:805). -/
theorem C32_unlimited_iff {fs : Settings → Int} {root own : Clock} {sf : Bool} {t : TuneArgs} (s : TuneSt)
    (hc : tuneCheck sf t = none) (hbig : ∀ k, (own.run k).tfft < tuneBIG) (h0 : t.tmax = 0) :
    (∃ r, tune fs root own sf t s = some (.ok r)) ↔ t.tflag = 0 ∨ 3 * t.niter ≤ 2147483647 := by
  have hn : 0 < t.niter := by
    unfold tuneCheck at hc
    split_ifs at hc with h1 h2 h4 h5
    push Not at h4
    exact h4.1
  have hi : isInt (3 * t.niter) ↔ 3 * t.niter ≤ 2147483647 := by
    unfold isInt intMax; omega
  rw [tune_returns_iff s hc hbig, ← hi]
  unfold tuneBudget
  simp only [h0]
  by_cases h1 : t.tflag = 0
  · simp [h1]
  · by_cases h2 : isInt (3 * t.niter) <;> simp [h1, h2]

/-- **C32, exactly, if the clock of rank 0 shows no time for the first FFT**: `tune` returns if and only if there is no time limit, or ten
times the time of `setup` is within it. -/
theorem C32_zero_iff {fs : Settings → Int} {root own : Clock} {sf : Bool} {t : TuneArgs} (s : TuneSt) (T : TimeFp root.fp)
    (hc : tuneCheck sf t = none) (hbig : ∀ k, (own.run k).tfft < tuneBIG) (h3 : t.tflag = 0 ∨ 3 * t.niter ≤ 2147483647)
    (hz : (root.run 0).tfft = 0) :
    (∃ r, tune fs root own sf t s = some (.ok r)) ↔ t.tmax = 0 ∨ root.fp (10 * root.fp root.setup0) ≤ t.tmax := by
  have hn : 0 < t.niter ∧ 0 ≤ t.tmax := by
    unfold tuneCheck at hc
    split_ifs at hc with h1 h2 h4 h5
    push Not at h4
    exact h4
  have hi : ¬(t.tflag ≠ 0 ∧ ¬isInt (3 * t.niter)) := by
    unfold isInt intMax; omega
  have f0 : root.fp 0 = 0 := by simpa using T.int 0 (by norm_num)
  rw [tune_returns_iff s hc hbig, hz]
  unfold tuneBudget
  rw [if_neg hi]
  simp only [mul_zero, f0, add_zero, ite_self]
  by_cases h1 : t.tmax > 0 ∧ root.fp (10 * root.fp root.setup0) > t.tmax
  · rw [if_pos h1]
    constructor
    · rintro ⟨b, hb⟩
      simp [fdiv] at hb
    · rintro (h | h)
      · exact absurd h h1.1.ne'
      · exact absurd h1.2 (not_lt.mpr h)
  · rw [if_neg h1]
    refine ⟨fun _ => ?_, fun _ => ⟨_, rfl⟩⟩
    by_contra h
    push Not at h
    exact h1 ⟨lt_of_le_of_ne hn.2 (Ne.symm h.1), h.2⟩

/-- Both cases: with a limit of 10 and of 5 times the time of `setup`, and a clock that shows no time for the first FFT. -/
example : (∃ r, tune (fun _ => 8) (clock 1 [(0, 0)]) (clock 1 []) false { freely with tmax := 10 } newTuneSt = some (.ok r)) ∧
    ¬ ∃ r, tune (fun _ => 8) (clock 1 [(0, 0)]) (clock 1 []) false { freely with tmax := 5 } newTuneSt = some (.ok r) := by
  have hb : ∀ k, ((clock 1 []).run k).tfft < tuneBIG := clock_big (by simp)
  have hz : ((clock 1 [(0, 0)]).run 0).tfft = 0 := by simp [clock, took, timeOf]
  constructor
  · rw [C32_zero_iff newTuneSt timeFp_id (by decide) hb (.inr (by decide)) hz]
    norm_num [clock]
  · rw [C32_zero_iff newTuneSt timeFp_id (by decide) hb (.inr (by decide)) hz]
    norm_num [clock]

/-- Both cases of `C32_unlimited_iff`: 1 and 10^9 iterations. -/
example : (∃ r, tune (fun _ => 8) (clock 1 []) (clock 1 []) false { freely with tmax := 0, tflag := 1, niter := 1 } newTuneSt = some (.ok r)) ∧
    ¬ ∃ r, tune (fun _ => 8) (clock 1 []) (clock 1 []) false { freely with tmax := 0, tflag := 1, niter := 1000000000 } newTuneSt = some (.ok r) := by
  have hb : ∀ k, ((clock 1 []).run k).tfft < tuneBIG := clock_big (by simp)
  constructor
  · rw [C32_unlimited_iff newTuneSt (by decide) hb rfl]
    decide
  · rw [C32_unlimited_iff newTuneSt (by decide) hb rfl]
    decide

theorem castInt_floor {q : ℚ} {z : Int} (h : castInt q = some z) (hz : 0 < z) : z = ⌊q⌋ := by
  unfold castInt at h
  simp only at h
  split_ifs at h with h1 h2 h2
  · exact (Option.some.inj h).symm
  · have h3 : ⌈q⌉ ≤ 0 := Int.ceil_le.mpr (by push_cast; linarith)
    have := Option.some.inj h
    omega

/-- The largest number of FFTs of time `tf` for which ten trials fit. -/
theorem greatest_floor {ts tf m w : ℚ} (hf : 0 < tf) (hw : 0 < w) :
    IsGreatest {n : ℤ | 10 * (ts + w * n * tf) ≤ m} ⌊(m / 10 - ts) / tf / w⌋ := by
  have key : ∀ n : ℤ, n ≤ ⌊(m / 10 - ts) / tf / w⌋ ↔ 10 * (ts + w * n * tf) ≤ m := by
    intro n
    rw [Int.le_floor, le_div_iff₀ hw, le_div_iff₀ hf]
    constructor <;> intro h <;> nlinarith
  exact ⟨(key _).mp le_rfl, fun n hn => (key n).mpr hn⟩

/-- **C35, exactly, in exact arithmetic**: a trial has the number of iterations that was asked for if ten trials of them fit into `tmax`
(or there is no limit); otherwise the largest number for which ten trials fit, with the parts timed if this was asked for (three FFTs for
one) and one iteration of that fits; otherwise the largest number without; otherwise one. -/
theorem C35_exact {fs : Settings → Int} {root own : Clock} {sf : Bool} {t : TuneArgs} {s r : TuneSt}
    (h : tune fs root own sf t s = some (.ok r)) (hfp : root.fp = id) (hbig : ∀ k, (own.run k).tfft < tuneBIG)
    {ts tf w : ℚ} (hs : root.setup0 = ts) (hf : (root.run 0).tfft = tf) (hpos : 0 < tf) (hw : w = if t.tflag = 0 then 1 else 3) :
    ((t.tmax = 0 ∨ 10 * (ts + w * t.niter * tf) ≤ t.tmax) → r.npertrial = t.niter) ∧
    (0 < t.tmax → t.tmax < 10 * (ts + w * t.niter * tf) →
      (10 * (ts + w * tf) ≤ t.tmax → IsGreatest {n : ℤ | 10 * (ts + w * n * tf) ≤ t.tmax} r.npertrial) ∧
      (t.tmax < 10 * (ts + w * tf) → 10 * (ts + tf) ≤ t.tmax → IsGreatest {n : ℤ | 10 * (ts + n * tf) ≤ t.tmax} r.npertrial) ∧
      (t.tmax < 10 * (ts + tf) → r.npertrial = 1)) := by
  obtain ⟨hc, b, hb, R⟩ := tune_some_report h hbig
  rw [R.npertrial]
  rw [hs, hf, hfp] at hb
  have hw0 : 0 < w := by rw [hw]; split_ifs <;> norm_num
  have tot : timeTotal id t ts tf = 10 * (ts + w * t.niter * tf) := by
    unfold timeTotal
    rw [hw]
    by_cases h0 : t.tflag = 0 <;> simp [h0]
  have quot : timeQuot id t ts tf = (t.tmax / 10 - ts) / tf := rfl
  have quot' : (if t.tflag ≠ 0 then id (timeQuot id t ts tf / 3) else timeQuot id t ts tf) = (t.tmax / 10 - ts) / tf / w := by
    rw [quot, hw]
    by_cases h0 : t.tflag = 0 <;> simp [h0]
  have fits : ∀ v : ℚ, 0 < v → (1 ≤ (t.tmax / 10 - ts) / tf / v ↔ 10 * (ts + v * tf) ≤ t.tmax) := by
    intro v hv
    rw [le_div_iff₀ hv, le_div_iff₀ hpos]
    constructor <;> intro h <;> nlinarith
  have fit1 := fits 1 one_pos
  rw [div_one, one_mul] at fit1
  have fitw := fits w hw0
  have great := greatest_floor (ts := ts) (m := t.tmax) hpos hw0
  have great1 := greatest_floor (ts := ts) (m := t.tmax) hpos one_pos
  simp only [one_mul, div_one] at great1
  rcases tuneBudget_cases hb with ⟨hno, rfl⟩ | ⟨hyes, -, n1, e1, H⟩
  · rw [tot] at hno
    refine ⟨fun _ => rfl, fun h1 h2 => absurd ⟨h1, h2⟩ hno⟩
  rw [tot] at hyes
  rw [quot'] at e1
  refine ⟨?_, fun _ _ => ?_⟩
  · rintro (h1 | h1)
    · exact absurd h1 hyes.1.ne'
    · exact absurd hyes.2 (not_lt.mpr h1)
  have mono : ¬ 10 * (ts + tf) ≤ t.tmax → ¬ 10 * (ts + w * tf) ≤ t.tmax := by
    intro h1 h2
    apply h1
    have : 1 ≤ w := by rw [hw]; split_ifs <;> norm_num
    nlinarith
  rcases H with ⟨p1, rfl⟩ | ⟨p1, n2, e2, H⟩
  · have hw1 : 10 * (ts + w * tf) ≤ t.tmax := fitw.mp (le_trans (by exact_mod_cast p1) (castInt_ge e1 p1))
    refine ⟨fun _ => ?_, fun h1 => absurd hw1 (not_le.mpr h1), fun h1 => absurd hw1 (mono (not_le.mpr h1))⟩
    show IsGreatest _ n1
    rw [castInt_floor e1 p1]
    exact great
  have hw1 : ¬ 10 * (ts + w * tf) ≤ t.tmax := fun h1 => absurd (fitw.mpr h1) (not_le.mpr (castInt_nonpos e1 p1))
  rw [quot] at e2
  rcases H with ⟨p2, rfl⟩ | ⟨p2, -, n3, -, rfl⟩
  · have h11 : 10 * (ts + tf) ≤ t.tmax := fit1.mp (le_trans (by exact_mod_cast p2) (castInt_ge e2 p2))
    refine ⟨fun h1 => absurd h1 hw1, fun _ _ => ?_, fun h1 => absurd h11 (not_le.mpr h1)⟩
    show IsGreatest _ n2
    rw [castInt_floor e2 p2]
    exact great1
  · have h11 : ¬ 10 * (ts + tf) ≤ t.tmax := fun h1 => absurd (fit1.mpr h1) (not_le.mpr (castInt_nonpos e2 p2))
    exact ⟨fun h1 => absurd h1 hw1, fun _ h1 => absurd h1 h11, fun _ => rfl⟩

/-- **C35, exactly: when the number of iterations grows** (in exact arithmetic): from one to two, if the parts are timed, and ten trials of
two FFTs fit into `tmax`, but not of three. -/
theorem C35_niter_iff {fs : Settings → Int} {root own : Clock} {sf : Bool} {t : TuneArgs} {s r : TuneSt}
    (h : tune fs root own sf t s = some (.ok r)) (hfp : root.fp = id) (hbig : ∀ k, (own.run k).tfft < tuneBIG)
    {ts tf : ℚ} (hs : root.setup0 = ts) (hf : (root.run 0).tfft = tf) (hpos : 0 < tf) :
    t.niter < r.npertrial ↔ t.tflag ≠ 0 ∧ t.niter = 1 ∧ 0 < t.tmax ∧ 10 * (ts + 2 * tf) ≤ t.tmax ∧ t.tmax < 10 * (ts + 3 * tf) := by
  have hn : 0 < t.niter ∧ 0 ≤ t.tmax := by
    have hc := (tune_some_report h hbig).1
    unfold tuneCheck at hc
    split_ifs at hc with h1 h2 h4 h5
    push Not at h4
    exact h4
  have hnq : (1 : ℚ) ≤ t.niter := by exact_mod_cast hn.1
  obtain ⟨w, hw⟩ : ∃ w : ℚ, w = if t.tflag = 0 then 1 else 3 := ⟨_, rfl⟩
  obtain ⟨A, B⟩ := C35_exact h hfp hbig hs hf hpos hw
  have hw1 : 1 ≤ w := by rw [hw]; split_ifs <;> norm_num
  constructor
  · intro hlt
    have h0 : ¬(t.tmax = 0 ∨ 10 * (ts + w * t.niter * tf) ≤ t.tmax) := fun h => by
      rw [A h] at hlt
      exact lt_irrefl _ hlt
    push Not at h0
    have hm : 0 < t.tmax := lt_of_le_of_ne hn.2 (Ne.symm h0.1)
    obtain ⟨B1, B2, B3⟩ := B hm h0.2
    have hq : (t.niter : ℚ) + 1 ≤ r.npertrial := by exact_mod_cast hlt
    rcases le_or_gt (10 * (ts + w * tf)) t.tmax with h1 | h1
    · have g : 10 * (ts + w * r.npertrial * tf) ≤ t.tmax := (B1 h1).1
      have : w * t.niter * tf ≤ w * r.npertrial * tf :=
        mul_le_mul_of_nonneg_right (mul_le_mul_of_nonneg_left (by linarith) (by linarith)) hpos.le
      linarith [h0.2]
    rcases le_or_gt (10 * (ts + tf)) t.tmax with h2 | h2
    · have g : 10 * (ts + r.npertrial * tf) ≤ t.tmax := (B2 h1 h2).1
      have ht : t.tflag ≠ 0 := by
        intro h3
        rw [if_pos h3] at hw
        rw [hw, one_mul] at h1
        linarith
      rw [if_neg ht] at hw
      rw [hw] at h1
      have h3 : (r.npertrial : ℚ) < 3 := by
        by_contra h3
        have : 3 * tf ≤ r.npertrial * tf := mul_le_mul_of_nonneg_right (by linarith) hpos.le
        linarith
      have h4 : r.npertrial < 3 := by exact_mod_cast h3
      have h5 : t.niter = 1 := by omega
      have h6 : r.npertrial = 2 := by omega
      rw [h6] at g
      exact ⟨ht, h5, hm, by exact_mod_cast g, h1⟩
    · rw [B3 h2] at hlt
      omega
  · rintro ⟨ht, h1, hm, h2, h3⟩
    rw [if_neg ht] at hw
    rw [hw, h1] at B
    have := ((B hm (by push_cast; linarith)).2.1 h3 (by linarith)).2 (show (2 : ℤ) ∈ {n : ℤ | 10 * (ts + n * tf) ≤ t.tmax} by
      show 10 * (ts + ((2 : ℤ) : ℚ) * tf) ≤ t.tmax
      exact_mod_cast h2)
    omega

/-- The trials of `C35_niter_false`: a limit of 35 allows two FFTs of time 1 after a `setup` of time 1, not three. -/
example : ∃ r, tune (fun _ => 8) (clock 1 []) (clock 1 []) false { freely with niter := 1, tmax := 35, tflag := 1 } newTuneSt = some (.ok r) ∧
    (clock 1 []).fp = id ∧ 1 < r.npertrial := by
  obtain ⟨r, e⟩ := C32_defined (fs := fun _ => 8) (root := clock 1 []) (own := clock 1 []) (sf := false)
    (t := { freely with niter := 1, tmax := 35, tflag := 1 }) newTuneSt timeFp_id (by decide +kernel) (by decide) (by norm_num [clock])
    (by norm_num [clock, took, timeOf]) (by norm_num [clock, took, timeOf, intMax]) (clock_big (by simp))
  exact ⟨r, e, rfl, (C35_niter_iff e rfl (clock_big (by simp)) (ts := 1) (tf := 1) rfl (by norm_num [clock, took, timeOf]) one_pos).mpr
    (by norm_num)⟩

end FftMpi
