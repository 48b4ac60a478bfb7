import Verif.DriverTimesReports
import Verif.DriverRound
import Mathlib.Analysis.SpecialFunctions.Log.Base

/-!
# C77: the times and statistics that the test programs report
-/

noncomputable section

namespace FftMpi

namespace Driver

open Classical in
/-- The time that the actions of a kind take together. -/
def spent (q : Act → Prop) (l : List (Act × ℝ)) : ℝ := (l.map fun x => if q x.1 then x.2 else 0).sum

/-- The action is work of the kind `p`. -/
def Does (p : Job → Prop) (a : Act) : Prop := ∃ j, a = .job j ∧ p j

/-- The action is not work: a barrier, a reading of the clock, an assignment. -/
def Idle (a : Act) : Prop := ∀ j, a ≠ .job j

/-- **C77.**  Each time that the C++ test programs print is that between two readings of the clock just after barriers, and
the work between them is all of that which the text names, and no other work.  Without `-tune` the time for tuning is 0. -/
theorem C77_times (o : TimeOpt) :
    (∃ i j, Reports (testActs o) .timefft isFft i j) ∧
    (∃ i j, Reports (testActs o) .timeinit isInit i j) ∧
    (∃ i j, Reports (testActs o) .timesetup isSetup i j) ∧
    (o.tune = true → ∃ i j, Reports (testActs o) .timetune isTune i j) ∧
    (o.tune = false → ∀ rnd tick l s, l.map Prod.fst = testActs o → (TimeSt.exec rnd tick l s).val .timetune = 0) ∧
    (o.tflag = true → (∃ i j, Reports (testActs o) .time1d is1d i j) ∧ (∃ i j, Reports (testActs o) .timeRemap isRemaps i j) ∧
      ∀ k, 1 ≤ k → k ≤ o.dim + 1 → ∃ i j, Reports (testActs o) (.remap k) (isRemap k) i j) := by
  refine ⟨⟨_, _, reports_fft o _⟩, ⟨_, _, reports_init o _⟩, ?_, fun h => ⟨_, _, reports_tune o _ h⟩, ?_, fun h => ⟨reports_1d o _ h,
    reports_remaps o _ h, ?_⟩⟩
  · cases h : o.tune with
    | true => exact ⟨_, _, reports_setup_tune o _ h⟩
    | false => exact ⟨_, _, reports_setup o _ h⟩
  · intro h rnd tick l s hl
    have : testActs o = ([.barrier, .wtime .main1, .job .grids, .job .create, .barrier, .wtime .plan1, .job .setup, .barrier,
        .wtime .plan2, .diff .timesetup .plan2 .plan1]) ++ (.zero .timetune :: rest' o fun _ k => k) := by
      rw [testActs, main_eq]
      simp [planActs, h]
    rw [this] at hl
    obtain ⟨l₁, l₂, rfl, h₁, h₂⟩ := List.map_eq_append_iff.mp hl
    obtain ⟨z, l₃, rfl, h₃, h₄⟩ := List.map_eq_cons_iff.mp h₂
    have hk : Keeps .timetune (rest' o fun _ k => k) := by
      refine keeps_rest' ?_ ?_ ?_ ?_ ?_ ?_ ?_ ?_ <;> simp
    rw [TimeSt.exec_append, TimeSt.exec, TimeSt.exec_keeps _ _ (h₄ ▸ hk), h₃]
    simp [TimeSt.act]
  · intro k h1 h2
    obtain ⟨k, rfl⟩ : ∃ m, k = m + 1 := ⟨k - 1, by omega⟩
    exact reports_single o (fun _ k => k) h (fun _ _ _ _ _ _ e => by exact_mod_cast e) (by omega)

/-! ## What that means for the measured time -/

theorem sum_nonneg {l : List (Act × ℝ)} (h : ∀ x ∈ l, 0 ≤ x.2) : 0 ≤ (l.map Prod.snd).sum := by
  refine List.sum_nonneg fun x hx => ?_
  obtain ⟨y, hy, rfl⟩ := List.mem_map.mp hx
  exact h y hy

theorem clockAt_le {s : TimeSt} {l : List (Act × ℝ)} (h : ∀ x ∈ l, 0 ≤ x.2) {m n : Nat} (hmn : m ≤ n) :
    clockAt s l m ≤ clockAt s l n := by
  unfold clockAt
  obtain ⟨d, rfl⟩ := Nat.exists_eq_add_of_le hmn
  rw [List.take_add, List.map_append, List.sum_append]
  have := sum_nonneg (l := (l.drop m).take d) fun x hx => h x (List.mem_of_mem_drop (List.mem_of_mem_take hx))
  linarith

theorem spent_append (q : Act → Prop) (l m : List (Act × ℝ)) : spent q (l ++ m) = spent q l + spent q m := by
  simp [spent]

theorem spent_zero {q : Act → Prop} {l : List (Act × ℝ)} (h : ∀ x ∈ l, ¬ q x.1) : spent q l = 0 := by
  unfold spent
  refine List.sum_eq_zero fun y hy => ?_
  obtain ⟨x, hx, rfl⟩ := List.mem_map.mp hy
  rw [if_neg (h x hx)]

theorem spent_nonneg {q : Act → Prop} {l : List (Act × ℝ)} (h : ∀ x ∈ l, 0 ≤ x.2) : 0 ≤ spent q l := by
  unfold spent
  refine List.sum_nonneg fun y hy => ?_
  obtain ⟨x, hx, rfl⟩ := List.mem_map.mp hy
  split
  · exact h x hx
  · exact le_refl _

theorem spent_all {q r : Act → Prop} {l : List (Act × ℝ)} (h : ∀ x ∈ l, (q x.1 ∧ ¬ r x.1) ∨ (¬ q x.1 ∧ r x.1)) :
    (l.map Prod.snd).sum = spent q l + spent r l := by
  induction l with
  | nil => simp [spent]
  | cons x l ih =>
    have := ih fun y hy => h y (List.mem_cons_of_mem _ hy)
    simp only [spent, List.map_cons, List.sum_cons] at *
    rw [this]
    rcases h x (by simp) with ⟨h1, h2⟩ | ⟨h1, h2⟩
    · rw [if_pos h1, if_neg h2]; ring
    · rw [if_neg h1, if_pos h2]; ring

theorem mem_take_fst {l : List (Act × ℝ)} {n : Nat} {x : Act × ℝ} (h : x ∈ l.take n) :
    ∃ k < n, (l.map Prod.fst)[k]? = some x.1 := by
  obtain ⟨k, hk, rfl⟩ := List.mem_iff_getElem.mp h
  rw [List.length_take] at hk
  refine ⟨k, by omega, ?_⟩
  rw [List.getElem_take, List.getElem?_map, List.getElem?_eq_getElem (by omega)]
  rfl

theorem mem_drop_fst {l : List (Act × ℝ)} {n : Nat} {x : Act × ℝ} (h : x ∈ l.drop n) :
    ∃ k, n ≤ k ∧ (l.map Prod.fst)[k]? = some x.1 := by
  obtain ⟨k, hk, rfl⟩ := List.mem_iff_getElem.mp h
  rw [List.length_drop] at hk
  refine ⟨n + k, by omega, ?_⟩
  rw [List.getElem_drop, List.getElem?_map, List.getElem?_eq_getElem (by omega)]
  rfl

section

variable {acts : List Act} {v : Var} {p : Job → Prop} {i j : Nat}

theorem Reports.split (R : Reports acts v p i j) {l : List (Act × ℝ)} (hl : l.map Prod.fst = acts) {m n : Nat} (hm : i < m)
    (hm' : m ≤ i + 2) (hn : j ≤ n) (hn' : n ≤ j + 2) :
    ∃ mid : List (Act × ℝ), l.take n = l.take m ++ mid ∧ (∀ x ∈ mid, x ∈ l) ∧ spent (Does p) mid = spent (Does p) l ∧
      (mid.map Prod.snd).sum = spent (Does p) mid + spent Idle mid ∧ spent Idle l = spent Idle (l.take m) + spent Idle mid +
        spent Idle (l.drop n) := by
  have hlt := R.lt
  obtain ⟨x₀, y₀, rx, ry⟩ := R.read
  have hmn : m ≤ n := by
    by_contra hc
    have : j = i + 1 := by omega
    rw [this] at ry
    have := R.second
    rw [‹j = i + 1›, rx] at this
    simp at this
  have e : l.take n = l.take m ++ (l.drop m).take (n - m) := by
    rw [← List.take_add]; congr 1; omega
  have e' : l = l.take m ++ (l.drop m).take (n - m) ++ l.drop n := by
    rw [← e, List.take_append_drop]
  have hA : spent (Does p) (l.take m) = 0 := spent_zero fun x hx hd => by
    obtain ⟨k, hk, hx⟩ := mem_take_fst hx
    obtain ⟨J, hJ, hp⟩ := hd
    rw [hl, hJ] at hx
    have := (R.jobs k J hx).mp hp
    have : k = i + 1 := by omega
    rw [this, rx] at hx
    simp at hx
  have hC : spent (Does p) (l.drop n) = 0 := spent_zero fun x hx hd => by
    obtain ⟨k, hk, hx⟩ := mem_drop_fst hx
    obtain ⟨J, hJ, hp⟩ := hd
    rw [hl, hJ] at hx
    have := (R.jobs k J hx).mp hp
    omega
  refine ⟨(l.drop m).take (n - m), e, fun x hx => List.mem_of_mem_drop (List.mem_of_mem_take hx), ?_, spent_all ?_, ?_⟩
  · conv_rhs => rw [e', spent_append, spent_append, hA, hC]
    ring
  · intro x hx
    rw [← List.drop_take] at hx
    obtain ⟨k, hk, rfl⟩ := List.mem_iff_getElem.mp hx
    rw [List.length_drop, List.length_take] at hk
    have hg : acts[m + k]? = some (((l.take n).drop m)[k]'(by rw [List.length_drop, List.length_take]; omega)).1 := by
      rw [← hl, List.getElem_drop, List.getElem_take, List.getElem?_map, List.getElem?_eq_getElem (by omega)]
      rfl
    generalize (((l.take n).drop m)[k]'(by rw [List.length_drop, List.length_take]; omega)) = z at *
    by_cases hd : Idle z.1
    · exact Or.inr ⟨fun ⟨J, hJ, _⟩ => hd J hJ, hd⟩
    · refine Or.inl ⟨?_, hd⟩
      unfold Idle at hd
      push Not at hd
      obtain ⟨J, hJ⟩ := hd
      refine ⟨J, hJ, (R.jobs (m + k) J (by rw [hg, hJ])).mpr ⟨by omega, ?_⟩⟩
      by_contra hc
      have : m + k = j ∨ m + k = j + 1 := by omega
      rcases this with h | h
      · have := R.second; rw [← h, hg, hJ] at this; simp at this
      · rw [← h, hg, hJ] at ry; simp at ry
  · conv_lhs => rw [e', spent_append, spent_append]

/-- The time between the two readings is that of the work which the text names, and at most that of barriers, readings and
assignments more. -/
theorem C77_work (R : Reports acts v p i j) {rnd tick : ℝ → ℝ} {l : List (Act × ℝ)} {s : TimeSt}
    (hl : l.map Prod.fst = acts) (h0 : ∀ x ∈ l, 0 ≤ x.2) :
    ∃ a b : ℝ, (TimeSt.exec rnd tick l s).val v = rnd (tick b - tick a) ∧ s.now ≤ a ∧
      spent (Does p) l ≤ b - a ∧ b - a ≤ spent (Does p) l + spent Idle l := by
  obtain ⟨mid, e, hmem, h1, h2, h3⟩ := R.split hl (m := i + 2) (n := j + 2) (by omega) (by omega) (by omega) (by omega)
  refine ⟨_, _, R.value rnd tick l s hl, ?_, ?_⟩
  · have := clockAt_le (s := s) h0 (Nat.zero_le (i + 2))
    simpa [clockAt] using this
  have hd : clockAt s l (j + 2) - clockAt s l (i + 2) = spent (Does p) l + spent Idle mid := by
    unfold clockAt
    rw [e, List.map_append, List.sum_append, h2, h1]
    ring
  rw [hd, h3]
  have ha := spent_nonneg (q := Idle) (l := mid) fun x hx => h0 x (hmem x hx)
  have hb := spent_nonneg (q := Idle) (l := l.take (i + 2)) fun x hx => h0 x (List.mem_of_mem_take hx)
  have hc := spent_nonneg (q := Idle) (l := l.drop (j + 2)) fun x hx => h0 x (List.mem_of_mem_drop hx)
  constructor <;> linarith

/-- The barriers: no rank leaves one before all have entered it. -/
def Synced (P : Nat) (acts : List Act) (l : Nat → List (Act × ℝ)) (s : Nat → TimeSt) : Prop :=
  ∀ n, acts[n]? = some .barrier → ∀ r < P, ∀ q < P, clockAt (s r) (l r) n ≤ clockAt (s q) (l q) (n + 1)

/-- A rank `q` that prints the time: its first reading is after all that any rank `r` did before the first barrier, its second
reading after all work of the kind that rank `r` did since that barrier. -/
theorem C77_ranks (R : Reports acts v p i j) {P : Nat} {l : Nat → List (Act × ℝ)} {s : Nat → TimeSt}
    (hl : ∀ r < P, (l r).map Prod.fst = acts) (h0 : ∀ r < P, ∀ x ∈ l r, 0 ≤ x.2) (hs : Synced P acts l s)
    {rnd tick : ℝ → ℝ} {q r : Nat} (hq : q < P) (hr : r < P) :
    ∃ a b : ℝ, (TimeSt.exec rnd tick (l q) (s q)).val v = rnd (tick b - tick a) ∧
      clockAt (s r) (l r) i ≤ a ∧ clockAt (s r) (l r) (i + 1) + spent (Does p) (l r) ≤ b := by
  refine ⟨_, _, R.value rnd tick (l q) (s q) (hl q hq), ?_, ?_⟩
  · exact le_trans (hs i R.first r hr q hq) (clockAt_le (h0 q hq) (by omega))
  · refine le_trans ?_ (le_trans (hs j R.second r hr q hq) (clockAt_le (h0 q hq) (by omega)))
    obtain ⟨mid, e, hmem, h1, h2, -⟩ := R.split (hl r hr) (m := i + 1) (n := j) (by omega) (by omega) (by omega) (by omega)
    unfold clockAt
    rw [e, List.map_append, List.sum_append, h2, h1]
    have ha := spent_nonneg (q := Idle) (l := mid) fun x hx => h0 r hr x (hmem x hx)
    linarith

end

/-- No time is negative, if the clock does not run backwards; nor is the time without that for setup or tuning. -/
theorem C77_nonneg (o : TimeOpt) {rnd tick : ℝ → ℝ} (R : Rounding rnd) (ht : Monotone tick) {l : List (Act × ℝ)} {s : TimeSt}
    (hl : l.map Prod.fst = testActs o) (h0 : ∀ x ∈ l, 0 ≤ x.2) {t : TimeSt} (e : TimeSt.exec rnd tick l s = t) :
    0 ≤ t.val .timefft ∧ 0 ≤ t.val .timeinit ∧ 0 ≤ t.val .timesetup ∧ 0 ≤ t.val .timetune ∧
    (o.tflag = true → 0 ≤ t.val .time1d ∧ 0 ≤ t.val .timeRemap ∧ ∀ k, 1 ≤ k → k ≤ o.dim + 1 → 0 ≤ t.val (.remap k)) ∧
    0 ≤ initTime o rnd t.val ∧ (o.tune = true → t.val .timesetup ≤ t.val .timetune) := by
  subst e
  have r0 : rnd 0 = 0 := by simpa using R.int 0 (by simp)
  have pos : ∀ {v p i j}, Reports (testActs o) v p i j → 0 ≤ (TimeSt.exec rnd tick l s).val v := by
    intro v p i j H
    rw [H.value rnd tick l s hl, ← r0]
    exact R.mono (sub_nonneg.mpr (ht (clockAt_le h0 (by have := H.lt; omega))))
  have nest : ∀ {v p i j v' p' i' j'}, Reports (testActs o) v p i j → Reports (testActs o) v' p' i' j' → i ≤ i' → j' ≤ j →
      (TimeSt.exec rnd tick l s).val v' ≤ (TimeSt.exec rnd tick l s).val v := by
    intro v p i j v' p' i' j' H H' hi hj
    rw [H.value rnd tick l s hl, H'.value rnd tick l s hl]
    exact R.mono (sub_le_sub (ht (clockAt_le h0 (by omega))) (ht (clockAt_le h0 (by omega))))
  obtain ⟨⟨_, _, c1⟩, -, ⟨_, _, c3⟩, c4, c5, c6⟩ := C77_times o
  have ci := reports_init o fun _ k => k
  refine ⟨pos c1, pos ci, pos c3, ?_, ?_, ?_, ?_⟩
  · cases h : o.tune with
    | true => obtain ⟨_, _, c⟩ := c4 h; exact pos c
    | false => exact le_of_eq (c5 h rnd tick l s hl).symm
  · intro h
    obtain ⟨⟨_, _, a1⟩, ⟨_, _, a2⟩, a3⟩ := c6 h
    exact ⟨pos a1, pos a2, fun k h1 h2 => by obtain ⟨_, _, c⟩ := a3 k h1 h2; exact pos c⟩
  · unfold initTime
    cases h : o.tune with
    | true =>
      rw [if_pos rfl, ← r0]
      refine R.mono (sub_nonneg.mpr (nest ci (reports_tune o _ h) (by omega) ?_))
      rw [plan_tune h]
      decide
    | false =>
      rw [if_neg (by decide), ← r0]
      refine R.mono (sub_nonneg.mpr (nest ci (reports_setup o _ h) (by omega) ?_))
      simp [planActs, h]
  · intro h
    exact nest (reports_tune o _ h) (reports_setup_tune o _ h) (by omega) (by omega)

/-- Initialization without setup of the plan and tuning. -/
def isPrep : Job → Prop
  | .grids | .create | .allocate | .initialize => True
  | _ => False

theorem spent_add {q r t : Act → Prop} {l : List (Act × ℝ)} (h : ∀ x ∈ l, (t x.1 ↔ q x.1 ∨ r x.1) ∧ ¬ (q x.1 ∧ r x.1)) :
    spent t l = spent q l + spent r l := by
  induction l with
  | nil => simp [spent]
  | cons x l ih =>
    have := ih fun y hy => h y (List.mem_cons_of_mem _ hy)
    simp only [spent, List.map_cons, List.sum_cons] at *
    rw [this]
    obtain ⟨h1, h2⟩ := h x (by simp)
    by_cases hq : q x.1 <;> by_cases hr : r x.1 <;> simp [h1, hq, hr] at h2 ⊢ <;> ring

theorem trials_tune {o : TimeOpt} (h : o.tune = false) : Jobs (· ≠ .trials) (testActs o) := by
  unfold testActs
  rw [main_eq]
  have : planActs o = [.job .create, .barrier, .wtime .plan1, .job .setup, .barrier, .wtime .plan2,
      .diff .timesetup .plan2 .plan1, .zero .timetune] := by
    simp [planActs, h]
  rw [this]
  job_simp
  exact jobs_rest' (by simp) (by simp) (by simp) (by simp) (by simp) (by simp) (by simp) (by simp) (by simp)

/-- "Initialize grid": with an exact clock and exact subtraction the time for the grids, the plan object, the allocation and the
initial data, but for the time of barriers, readings and assignments. -/
theorem C77_init (o : TimeOpt) {l : List (Act × ℝ)} {s : TimeSt} (hl : l.map Prod.fst = testActs o) (h0 : ∀ x ∈ l, 0 ≤ x.2) :
    |initTime o id (TimeSt.exec id id l s).val - spent (Does isPrep) l| ≤ spent Idle l := by
  have ci := reports_init o fun _ k => k
  obtain ⟨a, b, e, -, h1, h2⟩ := C77_work ci (rnd := id) (tick := id) (s := s) hl h0
  have hx : ∀ x ∈ l, ∀ J, x.1 = .job J → .job J ∈ testActs o := by
    intro x hx J hJ
    rw [← hl, ← hJ]
    exact List.mem_map_of_mem hx
  unfold initTime
  cases h : o.tune with
  | true =>
    obtain ⟨a', b', e', -, h1', h2'⟩ := C77_work (reports_tune o (fun _ k => k) h) (rnd := id) (tick := id) (s := s) hl h0
    have hs : spent (Does isInit) l = spent (Does isPrep) l + spent (Does isTune) l := by
      refine spent_add fun x _ => ?_
      unfold Does
      constructor
      · constructor
        · rintro ⟨J, hJ, hp⟩
          cases J <;> simp only [isInit] at hp <;> first | exact Or.inl ⟨_, hJ, trivial⟩ | exact Or.inr ⟨_, hJ, trivial⟩
        · rintro (⟨J, hJ, hp⟩ | ⟨J, hJ, hp⟩) <;> exact ⟨J, hJ, by cases J <;> simp_all [isInit, isPrep, isTune]⟩
      · rintro ⟨⟨J, hJ, hp⟩, ⟨J', hJ', hp'⟩⟩
        rw [hJ] at hJ'
        cases hJ'
        cases J <;> simp_all [isPrep, isTune]
    rw [if_pos rfl, e, e', abs_le]
    simp only [id] at *
    constructor <;> linarith
  | false =>
    obtain ⟨a', b', e', -, h1', h2'⟩ := C77_work (reports_setup o (fun _ k => k) h) (rnd := id) (tick := id) (s := s) hl h0
    have hs : spent (Does isInit) l = spent (Does isPrep) l + spent (Does isSetup) l := by
      refine spent_add fun x hm => ?_
      unfold Does
      constructor
      · constructor
        · rintro ⟨J, hJ, hp⟩
          have hn : J ≠ .trials := trials_tune h J (hx x hm J hJ)
          cases J <;> simp only [isInit, ne_eq, not_true_eq_false] at hp hn <;>
            first | exact Or.inl ⟨_, hJ, trivial⟩ | exact Or.inr ⟨_, hJ, trivial⟩
        · rintro (⟨J, hJ, hp⟩ | ⟨J, hJ, hp⟩) <;> exact ⟨J, hJ, by cases J <;> simp_all [isInit, isPrep, isSetup]⟩
      · rintro ⟨⟨J, hJ, hp⟩, ⟨J', hJ', hp'⟩⟩
        rw [hJ] at hJ'
        cases hJ'
        cases J <;> simp_all [isPrep, isSetup]
    rw [if_neg (by decide), e, e', abs_le]
    simp only [id] at *
    constructor <;> linarith

/-! ## The number of transforms -/

theorem count_loop {o : TimeOpt} {call : Int → Job} {a : Act} :
    (loopActs o call).count a = o.nloop * (passActs o call).count a := by
  unfold loopActs
  rw [List.count_flatten, List.map_replicate, List.sum_replicate, smul_eq_mul]

theorem count_zero {J : Job} {l : List Act} (h : Jobs (· ≠ J) l) : l.count (.job J) = 0 :=
  List.count_eq_zero.mpr fun hm => h J hm rfl

/-- How often a transform in direction `d` is called: `nloop` times, the inverse one only in modes 0 and 1. -/
def calls (o : TimeOpt) (d : Int) : Nat := if d = 1 then o.nloop else if d = -1 ∧ o.mode < 2 then o.nloop else 0

theorem count_own {o : TimeOpt} {call : Int → Job} (hc : ∀ d d', call d = call d' → d = d') (d : Int) :
    (loopActs o call).count (.job (call d)) = calls o d := by
  have e : ∀ d', (Act.job (call d') = Act.job (call d)) ↔ d' = d :=
    fun d' => ⟨fun h => hc _ _ (by injection h), fun h => by rw [h]⟩
  rw [count_loop]
  unfold calls passActs
  by_cases hm : o.mode < 2
  · rw [if_pos hm]
    simp only [List.count_cons, List.count_nil, beq_iff_eq, e, hm, and_true]
    by_cases h1 : d = 1
    · subst h1; simp
    · by_cases h2 : d = -1
      · subst h2; simp
      · simp [h1, h2, Ne.symm h1, Ne.symm h2]
  · rw [if_neg hm]
    simp only [List.count_cons, List.count_nil, beq_iff_eq, e, hm, and_false]
    by_cases h1 : d = 1
    · subst h1; simp
    · simp [h1, Ne.symm h1]

theorem sum_one {f : Nat → Nat} {k c : Nat} (hf : ∀ m, m ≠ k → f m = 0) (hk : f k = c) {n : Nat} (h : k < n) :
    ((List.range n).map f).sum = c := by
  obtain ⟨l, e, hl⟩ := range_split h
  rw [e, List.map_append, List.map_cons, List.sum_append, List.sum_cons, hk,
    List.sum_eq_zero fun x hx => by
      obtain ⟨m, hm, rfl⟩ := List.mem_map.mp hx
      exact hf m (by have := List.mem_range.mp hm; omega),
    List.sum_eq_zero fun x hx => by
      obtain ⟨m, hm, rfl⟩ := List.mem_map.mp hx
      exact hf m (by have := hl m hm; omega)]
  omega

/-- Each kind of transform is called `nloop` times in a direction: FFTs always, the other kinds with `-t`; the inverse direction
only in modes 0 and 1.  `nfft` is the number of FFTs. -/
theorem C77_count (o : TimeOpt) :
    (∀ d, (testActs o).count (.job (.fft d)) = calls o d) ∧
    nfftOf o = (testActs o).count (.job (.fft 1)) + (testActs o).count (.job (.fft (-1))) ∧
    (o.tflag = true → ∀ d, (testActs o).count (.job (.only1d d)) = calls o d ∧
      (testActs o).count (.job (.remaps d)) = calls o d ∧
      ∀ k : Nat, 1 ≤ k → k ≤ o.dim + 1 → (testActs o).count (.job (.oneRemap d k)) = calls o d) := by
  have hf : ∀ d, (testActs o).count (.job (.fft d)) = calls o d := by
    intro d
    have : testActs o = before' o ++ ([.barrier, .wtime .main1] ++ (loopActs o .fft ++ ([.barrier, .wtime .main2,
        .diff .timefft .main2 .main1] ++ afterActs o fun _ k => k))) := by
      simp [testActs, mainActs, beforeActs, before', List.append_assoc]
    rw [this, List.count_append, List.count_append, List.count_append, List.count_append, count_own (by simp),
      count_zero (l := before' o), count_zero (l := [_, _]), count_zero (l := [_, _, _]), count_zero (l := afterActs o _)]
    · omega
    · exact jobs_after (by simp) (by simp) (by simp) (by simp) (by simp) (by simp)
    · job_simp
    · job_simp
    · unfold before'
      job_simp
      exact ⟨jobs_plan (by simp) (by simp) (by simp), jobs_output _ (by simp)⟩
  refine ⟨hf, ?_, ?_⟩
  · rw [hf, hf]
    unfold nfftOf calls
    by_cases hm : o.mode < 2
    · simp [hm]; omega
    · simp [hm]
  · intro ht d
    have he : ∀ {J : Job}, J ≠ .create → J ≠ .setup → J ≠ .trials → J ≠ .grids → J ≠ .validate → J ≠ .output → (∀ d, J ≠ .fft d) →
        J ≠ .allocate → J ≠ .initialize → (early o).count (.job J) = 0 := by
      intro J h1 h2 h3 h4 h5 h6 h7 h8 h9
      exact count_zero (jobs_early h1.symm h2.symm h3.symm h4.symm h5.symm h6.symm (fun d => (h7 d).symm) h8.symm h9.symm)
    have hb : ∀ {J : Job} {call : Int → Job} {v : Var}, J ≠ .clear → (∀ d, call d ≠ J) → (blockActs o call v).count (.job J) = 0 :=
      fun h1 h2 => count_zero (jobs_block h1.symm h2)
    have hb' : ∀ {call : Int → Job} {v : Var}, (∀ d d', call d = call d' → d = d') → call d ≠ .clear →
        (blockActs o call v).count (.job (call d)) = calls o d := by
      intro call v h1 h2
      unfold blockActs
      rw [List.count_append, List.count_append, count_own h1]
      simp [List.count_cons, Ne.symm h2]
    have hs : ∀ {J : Job}, J ≠ .clear → (∀ d w, Job.oneRemap d w ≠ J) → (singles o fun _ k => k).count (.job J) = 0 := by
      intro J h1 h2
      refine count_zero ?_
      unfold singles
      job_simp
      exact ⟨h1.symm, jobs_singles fun _ _ _ => h2 _ _⟩
    rw [testActs, main_timing o _ ht]
    refine ⟨?_, ?_, ?_⟩
    · rw [List.count_append, List.count_append, List.count_append, he, hb' (by simp) (by simp), hb, hs] <;> simp
    · rw [List.count_append, List.count_append, List.count_append, he, hb, hb' (by simp) (by simp), hs] <;> simp
    · intro k h1 h2
      obtain ⟨k, rfl⟩ : ∃ m, k = m + 1 := ⟨k - 1, by omega⟩
      rw [List.count_append, List.count_append, List.count_append, he, hb, hb] <;> try simp
      unfold singles
      rw [List.count_append, List.count_flatMap, sum_one (k := k) (c := calls o d) _ _ (by omega)]
      · simp [List.count_cons]
      · intro m hm
        refine count_zero (jobs_single fun d' => ?_)
        simp only [ne_eq, Job.oneRemap.injEq, not_and]
        intro _ e
        exact hm (by push_cast at e; omega)
      · simp only [Function.comp_apply, singleActs]
        have := count_own (o := o) (call := fun d => Job.oneRemap d ((k + 1 : Nat) : Int)) (by simp) d
        rw [List.count_append]
        simp only [Nat.cast_add, Nat.cast_one] at this ⊢
        rw [this]
        simp [List.count_cons]

/-! ## The statistics -/

/-- `x` is `y` with a relative error of at most `e`. -/
def Within (e x y : ℝ) : Prop := (1 - e) * y ≤ x ∧ x ≤ (1 + e) * y

theorem Within.mono {e f x y : ℝ} (h : Within e x y) (hf : e ≤ f) (hy : 0 ≤ y) : Within f x y :=
  ⟨by nlinarith [h.1], by nlinarith [h.2]⟩

theorem Within.pos {e x y : ℝ} (h : Within e x y) (he : e < 1) (hy : 0 < y) : 0 < x := by
  have : 0 < (1 - e) * y := by apply mul_pos <;> linarith
  linarith [h.1]

theorem Within.nonneg {e x y : ℝ} (h : Within e x y) (he : e < 1) (hy : 0 ≤ y) : 0 ≤ x := by
  have : 0 ≤ (1 - e) * y := by apply mul_nonneg <;> linarith
  linarith [h.1]

theorem Within.mul {e f x y z w : ℝ} (h : Within e x y) (h' : Within f z w) (he : 0 ≤ e) (he1 : e < 1) (hf : 0 ≤ f) (hf1 : f < 1)
    (hy : 0 ≤ y) (hw : 0 ≤ w) : Within (e + f + e * f) (x * z) (y * w) := by
  have hx := h.nonneg he1 hy
  have hz := h'.nonneg hf1 hw
  have hyw := mul_nonneg hy hw
  constructor
  · have h1 : ((1 - e) * y) * ((1 - f) * w) ≤ x * z :=
      mul_le_mul h.1 h'.1 (by apply mul_nonneg <;> linarith) hx
    nlinarith [mul_nonneg (mul_nonneg he hf) hyw]
  · have h1 : x * z ≤ ((1 + e) * y) * ((1 + f) * w) :=
      mul_le_mul h.2 h'.2 hz (by apply mul_nonneg <;> linarith)
    nlinarith

theorem Within.inv {f z w : ℝ} (h' : Within f z w) (hf : 0 ≤ f) (hf1 : f ≤ 1 / 2) (hw : 0 < w) :
    Within (2 * f) (1 / z) (1 / w) := by
  have hz := h'.pos (by linarith) hw
  constructor
  · rw [mul_one_div, div_le_div_iff₀ hw hz]
    have := h'.2
    nlinarith [mul_nonneg hf hw.le, mul_nonneg hf hz.le, mul_nonneg (mul_nonneg hf hf) hw.le]
  · rw [mul_one_div, div_le_div_iff₀ hz hw]
    have := h'.1
    have h1 : (1 + 2 * f) * ((1 - f) * w) ≤ (1 + 2 * f) * z := mul_le_mul_of_nonneg_left this (by linarith)
    have h2 : w ≤ (1 + 2 * f) * ((1 - f) * w) := by
      have : 0 ≤ f * (1 - 2 * f) * w := by apply mul_nonneg (mul_nonneg hf (by linarith)) hw.le
      nlinarith
    linarith

theorem Within.div {e f x y z w : ℝ} (h : Within e x y) (h' : Within f z w) (he : 0 ≤ e) (he1 : e < 1) (hf : 0 ≤ f)
    (hf1 : f < 1 / 2) (hy : 0 ≤ y) (hw : 0 < w) : Within (e + 2 * f + e * (2 * f)) (x / z) (y / w) := by
  have := h.mul (h'.inv hf hf1.le hw) he he1 (by linarith) (by linarith) hy (by positivity)
  rwa [← div_eq_mul_one_div x, ← div_eq_mul_one_div y] at this

theorem Within.trans {e f x y z : ℝ} (h : Within f x y) (h' : Within e y z) (he : 0 ≤ e) (he1 : e < 1) (hf : 0 ≤ f) (hf1 : f < 1)
    (hz : 0 ≤ z) : Within (e + f + e * f) x z := by
  constructor
  · have h1 : (1 - f) * ((1 - e) * z) ≤ (1 - f) * y := mul_le_mul_of_nonneg_left h'.1 (by linarith)
    nlinarith [h.1, mul_nonneg (mul_nonneg he hf) hz]
  · have h1 : (1 + f) * y ≤ (1 + f) * ((1 + e) * z) := mul_le_mul_of_nonneg_left h'.2 (by linarith)
    nlinarith [h.2]

/-- Rounding to nearest, without underflow or overflow. -/
structure Nearest (rnd : ℝ → ℝ) : Prop extends Rounding rnd where
  near : ∀ x, 0 ≤ x → Within (1 / 2 ^ 53) (rnd x) x

theorem nearest53 : Nearest rnd53 where
  toRounding := rounding53
  near x hx := by
    have := rnd53_err x
    rw [abs_of_nonneg hx, abs_le] at this
    constructor <;> nlinarith [this.1, this.2]

theorem nsize_exact {rnd : ℝ → ℝ} (R : Nearest rnd) : ∀ (sizes : List Nat) (a : Nat), (∀ n ∈ sizes, 1 ≤ n) → a * sizes.prod ≤ 2 ^ 53 →
    sizes.foldl (fun (x : ℝ) (n : Nat) => rnd (x * n)) (a : ℝ) = ((a * sizes.prod : Nat) : ℝ)
  | [], a, _, _ => by simp
  | n :: l, a, h, hp => by
    rw [List.foldl_cons]
    rw [List.prod_cons, ← mul_assoc] at hp
    have hl : ∀ m ∈ l, 1 ≤ m := fun m hm => h m (List.mem_cons_of_mem _ hm)
    have h1 : 1 ≤ l.prod := List.one_le_prod_of_one_le hl
    have hle : a * n ≤ 2 ^ 53 := le_trans (Nat.le_mul_of_pos_right _ h1) hp
    have e : rnd ((a : ℝ) * n) = ((a * n : Nat) : ℝ) := by
      have := R.int ((a * n : Nat) : Int) (by rw [abs_of_nonneg (by positivity)]; exact_mod_cast hle)
      push_cast at this ⊢
      exact this
    rw [e, nsize_exact R l (a * n) hl hp, List.prod_cons, mul_assoc]

/-- The statistics: the time per FFT is the time divided by the number of FFTs, the rate is the usual number of operations,
5 N log₂ N, per FFT and second, in units of 2^30, up to relative errors of 2^-53 and 2^-46.  `ln`, the logarithm of the C
library, may have a relative error of 2^-50. -/
theorem C77_report (o : TimeOpt) {rnd ln : ℝ → ℝ} (R : Nearest rnd) (hln : ∀ x, 1 ≤ x → Within (1 / 2 ^ 50) (ln x) (Real.log x))
    {val : Var → ℝ} (ht : 0 < val .timefft) (hn : 0 < o.nloop) {sizes : List Nat} (hs : ∀ n ∈ sizes, 1 ≤ n)
    (hN : sizes.prod ≤ 2 ^ 53) :
    ∃ one rate, onetime o rnd val = some one ∧ Within (1 / 2 ^ 53) one (val .timefft / nfftOf o) ∧
      floprate o rnd ln val sizes = some rate ∧
      Within (1 / 2 ^ 46) rate (5 * sizes.prod * Real.logb 2 sizes.prod / (val .timefft / nfftOf o) / 2 ^ 30) := by
  have hnf : (0 : ℝ) < nfftOf o := by
    have : 0 < nfftOf o := by unfold nfftOf; split <;> omega
    exact_mod_cast this
  have h1 : onetime o rnd val = some (rnd (val .timefft / nfftOf o)) := by
    unfold onetime fquot
    rw [if_neg hnf.ne']
  have hone : 0 < val .timefft / nfftOf o := div_pos ht hnf
  have w1 := R.near _ hone.le
  have hN1 : 1 ≤ sizes.prod := List.one_le_prod_of_one_le hs
  have hsz : nsizeOf rnd sizes = (sizes.prod : ℝ) := by
    have := nsize_exact R sizes 1 hs (by simpa using hN)
    simpa [nsizeOf] using this
  set N : ℝ := (sizes.prod : ℝ) with hNdef
  have hN1' : (1 : ℝ) ≤ N := Nat.one_le_cast.mpr hN1
  have hl2 : (0 : ℝ) < Real.log 2 := Real.log_pos (by norm_num)
  have w2 := hln 2 (by norm_num)
  have hln2 : 0 < ln 2 := w2.pos (by norm_num) hl2
  have wN := hln N hN1'
  have hlN : 0 ≤ Real.log N := Real.log_nonneg hN1'
  have hlg : 0 ≤ Real.log N / Real.log 2 := div_nonneg hlN hl2.le
  -- log2n
  have a1 : Within (4 / 2 ^ 50) (ln N / ln 2) (Real.log N / Real.log 2) := by
    have := wN.div w2 (by norm_num) (by norm_num) (by norm_num) (by norm_num) hlN hl2
    exact this.mono (by norm_num) hlg
  have a2 : Within (5 / 2 ^ 50) (rnd (ln N / ln 2)) (Real.log N / Real.log 2) :=
    ((R.near _ (a1.nonneg (by norm_num) hlg)).trans a1 (by norm_num) (by norm_num) (by norm_num) (by norm_num) hlg).mono
      (by norm_num) hlg
  have h5 : (0 : ℝ) ≤ 5 * N := by linarith
  have a3 : Within (6 / 2 ^ 50) (rnd (5 * N) * rnd (ln N / ln 2)) (5 * N * (Real.log N / Real.log 2)) :=
    ((R.near _ h5).mul a2 (by norm_num) (by norm_num) (by norm_num) (by norm_num) h5 hlg).mono (by norm_num)
      (mul_nonneg h5 hlg)
  have hop := mul_nonneg h5 hlg
  have a4 : Within (7 / 2 ^ 50) (rnd (rnd (5 * N) * rnd (ln N / ln 2))) (5 * N * (Real.log N / Real.log 2)) :=
    ((R.near _ (a3.nonneg (by norm_num) hop)).trans a3 (by norm_num) (by norm_num) (by norm_num) (by norm_num) hop).mono
      (by norm_num) hop
  have hq : 0 ≤ 5 * N * (Real.log N / Real.log 2) / (val .timefft / nfftOf o) := div_nonneg hop hone.le
  have hone' : 0 < rnd (val .timefft / nfftOf o) := w1.pos (by norm_num) hone
  have a5 : Within (10 / 2 ^ 50) (rnd (rnd (5 * N) * rnd (ln N / ln 2)) / rnd (val .timefft / nfftOf o))
      (5 * N * (Real.log N / Real.log 2) / (val .timefft / nfftOf o)) := by
    have := a4.div w1 (by norm_num) (by norm_num) (by norm_num) (by norm_num) hop hone
    exact this.mono (by norm_num) hq
  have a6 := ((R.near _ (a5.nonneg (by norm_num) hq)).trans a5 (by norm_num) (by norm_num) (by norm_num) (by norm_num) hq).mono
    (f := 11 / 2 ^ 50) (by norm_num) hq
  have a7 : Within (11 / 2 ^ 50) (rnd (rnd (rnd (5 * N) * rnd (ln N / ln 2)) / rnd (val .timefft / nfftOf o)) / 2 ^ 30)
      (5 * N * (Real.log N / Real.log 2) / (val .timefft / nfftOf o) / 2 ^ 30) := by
    obtain ⟨b1, b2⟩ := a6
    constructor
    · rw [← mul_div_assoc]; exact div_le_div_of_nonneg_right b1 (by norm_num)
    · rw [← mul_div_assoc]; exact div_le_div_of_nonneg_right b2 (by norm_num)
  have hz := div_nonneg hq (show (0 : ℝ) ≤ 2 ^ 30 by norm_num)
  have a8 := ((R.near _ (a7.nonneg (by norm_num) hz)).trans a7 (by norm_num) (by norm_num) (by norm_num) (by norm_num) hz).mono
    (f := 1 / 2 ^ 46) (by norm_num) hz
  refine ⟨_, _, h1, w1, ?_, a8⟩
  · unfold floprate fquot
    rw [hsz, if_neg hln2.ne', Option.bind_some, h1, Option.bind_some, if_neg hone'.ne']
    rfl

/-- If the clock shows no difference, the rate has no value: the programs print `inf` or `nan`. -/
theorem C77_rate_false : ∃ (o : TimeOpt) (l : List (Act × ℝ)) (s : TimeSt), 0 < o.nloop ∧ l.map Prod.fst = testActs o ∧
    (∀ x ∈ l, 0 < x.2) ∧ ∀ ln, floprate o rnd53 ln (TimeSt.exec rnd53 (fun _ => 0) l s).val [8, 8, 8] = none := by
  let o : TimeOpt := ⟨3, false, 0, 1, false, false, false⟩
  have hm : ((testActs o).map fun a => (a, (1 : ℝ))).map Prod.fst = testActs o := by
    rw [List.map_map]; exact List.map_id _
  refine ⟨o, (testActs o).map fun a => (a, 1), ⟨0, fun _ => 0⟩, by decide, hm, by simp, ?_⟩
  intro ln
  have hv := (reports_fft o fun _ k => k).value rnd53 (fun _ => 0) ((testActs o).map fun a => (a, 1)) ⟨0, fun _ => 0⟩ hm
  simp only [sub_self, rnd53_zero] at hv
  unfold floprate onetime
  rw [hv]
  unfold fquot
  simp [rnd53_zero, nfftOf, o]

/-! ## The programs in Fortran -/

theorem reports_callF (o : TimeOpt) (h3 : o.dim = 3) (ht : o.tflag = true) {k : Nat} (hk : k < 4) :
    ∃ i j, Reports (testActsF o) (.remap (k + 1)) (isCall (fun d k => if k = 4 ∧ (2 ≤ o.mode ∨ d = -1) then 5 else (k : Int)) (k + 1)) i j := by
  refine reports_single { o with vflag := !o.vflag } _ ht ?_ (by show k < o.dim + 1; omega)
  intro d d' k k' hk hk' e
  have hk : k ≤ o.dim + 1 := hk
  have hk' : k' ≤ o.dim + 1 := hk'
  split_ifs at e <;> omega

/-- test3d_f90: the times cover what those of test3d cover (test2d_f90 does what `testActs` says, with `vflag` inverted), except that of remap #4, which covers calls with the number 5. -/
theorem C77_f90_partial (o : TimeOpt) (h3 : o.dim = 3) :
    (∃ i j, Reports (testActsF o) .timefft isFft i j) ∧
    (∃ i j, Reports (testActsF o) .timeinit isInit i j) ∧
    (∃ i j, Reports (testActsF o) .timesetup isSetup i j) ∧
    (o.tune = true → ∃ i j, Reports (testActsF o) .timetune isTune i j) ∧
    (o.tflag = true → (∃ i j, Reports (testActsF o) .time1d is1d i j) ∧ (∃ i j, Reports (testActsF o) .timeRemap isRemaps i j) ∧
      ∀ k, 1 ≤ k → k ≤ 3 → ∃ i j, Reports (testActsF o) (.remap k) (isRemap k) i j) := by
  refine ⟨⟨_, _, reports_fft _ _⟩, ⟨_, _, reports_init _ _⟩, ?_, fun h => ⟨_, _, reports_tune _ _ h⟩, fun h => ⟨reports_1d _ _ h,
    reports_remaps _ _ h, ?_⟩⟩
  · cases h : o.tune with
    | true => exact ⟨_, _, reports_setup_tune _ _ h⟩
    | false => exact ⟨_, _, reports_setup _ _ h⟩
  · intro k h1 h2
    obtain ⟨k, rfl⟩ : ∃ m, k = m + 1 := ⟨k - 1, by omega⟩
    obtain ⟨i, j, R⟩ := reports_callF o h3 h (k := k) (by omega)
    refine ⟨i, j, ?_⟩
    rwa [show isCall (fun d k => if k = 4 ∧ (2 ≤ o.mode ∨ d = -1) then 5 else (k : Int)) (k + 1) = isRemap (k + 1) from ?_] at R
    funext J
    cases J <;> simp [isCall, isRemap]
    rw [if_neg (by omega)]

/-- Remap #4 in test3d_f90: no call of the inverse remap 4 exists, nor in modes 2 and 3 one of the forward remap 4; the time is that of
calls with the number 5 (and the forward ones in modes 0 and 1).  By `C65_remap4_false` the number 5 means no remap at all. -/
theorem C77_f90_false (o : TimeOpt) (h3 : o.dim = 3) (ht : o.tflag = true) :
    (∃ i j, Reports (testActsF o) (.remap 4)
      (fun J => if 2 ≤ o.mode then ∃ d, J = .oneRemap d 5 else J = .oneRemap (-1) 5 ∨ ∃ d, d ≠ -1 ∧ J = .oneRemap d 4) i j) ∧
    (testActsF o).count (.job (.oneRemap (-1) 4)) = 0 ∧
    (2 ≤ o.mode → (testActsF o).count (.job (.oneRemap 1 4)) = 0) := by
  have hz : ∀ d, (2 ≤ o.mode ∨ d = -1) → (testActsF o).count (.job (.oneRemap d 4)) = 0 := by
    intro d hd
    refine count_zero ?_
    unfold testActsF
    rw [main_timing { o with vflag := !o.vflag } _ ht]
    unfold singles
    job_simp
    refine ⟨jobs_early ?_ ?_ ?_ ?_ ?_ ?_ ?_ ?_ ?_, jobs_block ?_ ?_, jobs_block ?_ ?_, jobs_singles fun m _ d' => ?_⟩ <;> try simp
    rintro rfl
    split_ifs with h4
    · omega
    · intro e
      exact h4 ⟨by omega, hd⟩
  refine ⟨?_, hz _ (Or.inr rfl), fun h => hz _ (Or.inl h)⟩
  obtain ⟨i, j, R⟩ := reports_callF o h3 ht (k := 3) (by omega)
  refine ⟨i, j, ?_⟩
  rwa [show isCall (fun d k => if k = 4 ∧ (2 ≤ o.mode ∨ d = -1) then 5 else (k : Int)) (3 + 1) = _ from ?_] at R
  funext J
  by_cases hm : 2 ≤ o.mode
  · cases J <;> simp [isCall, hm]
  · cases J with
    | oneRemap d w =>
      by_cases hd : d = -1
      · subst hd; simp [isCall, hm]
      · simp [isCall, hm, hd]
    | _ => simp [isCall, hm]

theorem mul32_pos {x y : Int} (h : 0 ≤ x * y) : mul32 x y = if x * y < 2 ^ 31 then some (x * y) else none := by
  unfold mul32 ck
  by_cases hf : x * y < 2 ^ 31
  · rw [if_pos hf, if_pos ⟨by omega, by omega⟩]
  · rw [if_neg hf, if_neg fun hc => hf (by have := hc.2; omega)]

/-- `gridbytes` in Fortran (`sz` is 8 or 4): the value exists if and only if it is less than 2^31, though it is assigned to a
variable of 64 bits. -/
theorem C77_f90_bytes {sz fftsize : Int} (hs : sz = 8 ∨ sz = 4) (h0 : 0 ≤ fftsize) :
    gridBytesF sz fftsize = if 2 * sz * fftsize < 2 ^ 31 then some (2 * sz * fftsize) else none := by
  have h1 : mul32 sz 2 = some (2 * sz) := by rcases hs with rfl | rfl <;> decide
  unfold gridBytesF
  rw [h1, Option.bind_some]
  have h2 : 0 ≤ 2 * sz * fftsize := by rcases hs with rfl | rfl <;> omega
  exact mul32_pos h2

/-- A grid of 2^27 points on a rank, 2 GBytes: no value. -/
theorem C77_f90_bytes_false : gridBytesF 8 (2 ^ 27) = none ∧ (2 : Int) ^ 27 < 2 ^ 31 := by decide

/-- `nsize` in test2d_f90: the value exists if and only if the grid has less than 2^31 points, on all ranks together. -/
theorem C77_f90_nsize {nx ny : Int} (hx : 0 < nx) (hy : 0 < ny) :
    nsizeF2 nx ny = if nx * ny < 2 ^ 31 then some (nx * ny) else none := by
  exact mul32_pos (mul_pos hx hy).le

theorem C77_f90_nsize_false : nsizeF2 65536 32768 = none := by decide

/-! ## Examples -/

/-- `test3d -n 2 -t -tune`. -/
def timeDemo : TimeOpt := ⟨3, true, 0, 2, false, false, true⟩

/-- Each action takes one second. -/
def secs (o : TimeOpt) : List (Act × ℝ) := (testActs o).map fun a => (a, 1)

theorem secs_fst (o : TimeOpt) : (secs o).map Prod.fst = testActs o := by
  unfold secs
  rw [List.map_map]
  exact List.map_id _

theorem secs_pos (o : TimeOpt) : ∀ x ∈ secs o, 0 ≤ x.2 := by simp [secs]

theorem clock_secs (o : TimeOpt) (t : ℝ) {n : Nat} (h : n ≤ (testActs o).length) :
    clockAt ⟨t, fun _ => 0⟩ (secs o) n = t + n := by
  unfold clockAt secs
  rw [← List.map_take, List.map_map]
  simp [Function.comp_def, List.map_const', h]

/-- Four transforms, a barrier and the reading of the clock. -/
example : (TimeSt.exec rnd53 id (secs timeDemo) ⟨0, fun _ => 0⟩).val .timefft = 6 := by
  rw [(reports_fft timeDemo fun _ k => k).value _ _ _ _ (secs_fst timeDemo)]
  rw [clock_secs _ _ (by decide), clock_secs _ _ (by decide)]
  have h1 : (before' timeDemo).length = 22 := by decide
  have h2 : (loopActs timeDemo .fft).length = 4 := by decide
  rw [h1, h2]
  norm_num
  exact_mod_cast rnd53_int (n := 6) (by norm_num)

example : (testActs timeDemo).count (.job (.oneRemap (-1) 4)) = 2 :=
  ((C77_count timeDemo).2.2 rfl (-1)).2.2 4 (by norm_num) (by decide)

example : 0 ≤ initTime timeDemo rnd53 (TimeSt.exec rnd53 id (secs timeDemo) ⟨0, fun _ => 0⟩).val :=
  (C77_nonneg timeDemo rounding53 monotone_id (secs_fst _) (secs_pos _) rfl).2.2.2.2.2.1

/-- Two ranks that do the same at the same time. -/
example : Synced 2 (testActs timeDemo) (fun _ => secs timeDemo) (fun _ => ⟨0, fun _ => 0⟩) :=
  fun _ _ _ _ _ _ => clockAt_le (secs_pos _) (by omega)

example : ∃ one rate, onetime timeDemo rnd53 (fun _ => 1) = some one ∧ Within (1 / 2 ^ 53) one (1 / 4) ∧
    floprate timeDemo rnd53 Real.log (fun _ => 1) [8, 8, 8] = some rate ∧
    Within (1 / 2 ^ 46) rate (5 * 512 * Real.logb 2 512 / (1 / 4) / 2 ^ 30) := by
  have := C77_report timeDemo (rnd := rnd53) (ln := Real.log) nearest53 (fun x hx => ?_) (val := fun _ => 1) one_pos (by decide)
    (sizes := [8, 8, 8]) (by decide) (by decide)
  · have e : nfftOf timeDemo = 4 := by decide
    simpa [e] using this
  · have := Real.log_nonneg hx
    constructor <;> nlinarith

end Driver

end FftMpi
