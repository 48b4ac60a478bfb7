import Verif.DriverTimesLemmas

/-!
# What the reported times cover (specification and lemmas for C77)
-/

noncomputable section

namespace FftMpi

namespace Driver

/-- The time when a rank has done the first `n` actions. -/
def clockAt (s : TimeSt) (l : List (Act × ℝ)) (n : Nat) : ℝ := s.now + ((l.take n).map Prod.snd).sum

/-- At the end the variable `v` is the time between two readings of the clock, each just after a barrier (actions `i` and
`j`); the work between is that of the kind `p`, all of it. -/
structure Reports (acts : List Act) (v : Var) (p : Job → Prop) (i j : Nat) : Prop where
  first : acts[i]? = some .barrier
  second : acts[j]? = some .barrier
  read : ∃ x y, acts[i + 1]? = some (.wtime x) ∧ acts[j + 1]? = some (.wtime y)
  lt : i < j
  jobs : ∀ (k : Nat) (J : Job), acts[k]? = some (.job J) → (p J ↔ i < k ∧ k < j)
  value : ∀ (rnd tick : ℝ → ℝ) (l : List (Act × ℝ)) (s : TimeSt), l.map Prod.fst = acts →
    (TimeSt.exec rnd tick l s).val v = rnd (tick (clockAt s l (j + 2)) - tick (clockAt s l (i + 2)))

theorem reports_of {acts A B C : List Act} {v x y : Var} {p : Job → Prop}
    (h : acts = A ++ ([.barrier, .wtime x] ++ (B ++ ([.barrier, .wtime y] ++ C))))
    (hxy : x ≠ y) (hx : Keeps x B) (hC : Ends C v x y)
    (hA : Jobs (fun j => ¬ p j) A) (hB : Jobs p B) (hC' : Jobs (fun j => ¬ p j) C) :
    Reports acts v p A.length (A.length + 2 + B.length) := by
  subst h
  refine ⟨?_, ?_, ⟨x, y, ?_, ?_⟩, by omega, ?_, ?_⟩
  · rw [List.getElem?_append_right (le_refl _)]
    simp
  · rw [List.getElem?_append_right (by omega), List.getElem?_append_right (by simp; omega),
      List.getElem?_append_right (by simp; omega)]
    simp [show A.length + 2 + B.length - A.length - 2 - B.length = 0 by omega]
  · rw [List.getElem?_append_right (by omega)]
    simp
  · rw [List.getElem?_append_right (by omega), List.getElem?_append_right (by simp; omega),
      List.getElem?_append_right (by simp; omega)]
    simp [show A.length + 2 + B.length + 1 - A.length - 2 - B.length = 1 by omega]
  · intro k J hk
    by_cases h1 : k < A.length
    · rw [List.getElem?_append_left h1] at hk
      have := hA J (List.mem_of_getElem? hk)
      exact ⟨fun h => absurd h this, fun h => by omega⟩
    · rw [List.getElem?_append_right (by omega)] at hk
      by_cases h2 : k - A.length < 2
      · rw [List.getElem?_append_left (by simpa using h2)] at hk
        have := List.mem_of_getElem? hk
        simp at this
      · rw [List.getElem?_append_right (by simp; omega)] at hk
        simp only [List.length_cons, List.length_nil] at hk
        by_cases h3 : k - A.length - (0 + 1 + 1) < B.length
        · rw [List.getElem?_append_left h3] at hk
          have := hB J (List.mem_of_getElem? hk)
          exact ⟨fun _ => ⟨by omega, by omega⟩, fun _ => this⟩
        · rw [List.getElem?_append_right (by omega)] at hk
          by_cases h4 : k - A.length - (0 + 1 + 1) - B.length < 2
          · rw [List.getElem?_append_left (by simpa using h4)] at hk
            have := List.mem_of_getElem? hk
            simp at this
          · rw [List.getElem?_append_right (by simp; omega)] at hk
            have := hC' J (List.mem_of_getElem? hk)
            exact ⟨fun h => absurd h this, fun h => by omega⟩
  · intro rnd tick l s hl
    obtain ⟨lA, l₁, rfl, hA', h₁⟩ := List.map_eq_append_iff.mp hl
    obtain ⟨lx, l₂, rfl, hx', h₂⟩ := List.map_eq_append_iff.mp h₁
    obtain ⟨lB, l₃, rfl, hB', h₃⟩ := List.map_eq_append_iff.mp h₂
    obtain ⟨ly, lC, rfl, hy', hC''⟩ := List.map_eq_append_iff.mp h₃
    unfold clockAt
    rw [show lA ++ (lx ++ (lB ++ (ly ++ lC))) = (lA ++ lx ++ lB ++ ly) ++ lC by simp,
      take_map_fst (A := A ++ [.barrier, .wtime x] ++ B ++ [.barrier, .wtime y]) (by simp [hA', hx', hB', hy'])
        (by simp; omega),
      show (lA ++ lx ++ lB ++ ly) ++ lC = (lA ++ lx) ++ (lB ++ (ly ++ lC)) by simp,
      take_map_fst (A := A ++ [.barrier, .wtime x]) (by simp [hA', hx']) (by simp)]
    rw [TimeSt.exec_append, TimeSt.exec_append, TimeSt.exec_append, hC rnd tick lC _ hC'']
    have hw : ∀ (l : List (Act × ℝ)) (z : Var) (t : TimeSt), l.map Prod.fst = [.barrier, .wtime z] →
        (TimeSt.exec rnd tick l t).val z = tick (t.now + (l.map Prod.snd).sum) ∧
        ∀ w, w ≠ z → (TimeSt.exec rnd tick l t).val w = t.val w := by
      intro l z t hl
      obtain ⟨u, l', rfl, hu, h'⟩ := List.map_eq_cons_iff.mp hl
      obtain ⟨u', l'', rfl, hu', h''⟩ := List.map_eq_cons_iff.mp h'
      obtain rfl := List.map_eq_nil_iff.mp h''
      constructor
      · simp [TimeSt.exec, TimeSt.act, hu, hu', add_assoc]
      · intro w hw
        simp [TimeSt.exec, TimeSt.act, hu, hu', Function.update_of_ne hw]
    congr 1
    rw [(hw ly y _ hy').1, (hw ly y _ hy').2 x hxy, TimeSt.exec_keeps lB _ (hB' ▸ hx), TimeSt.exec_append,
      (hw lx x _ hx').1, TimeSt.exec_now, TimeSt.exec_now, TimeSt.exec_now]
    simp only [List.map_append, List.sum_append]
    congr 2 <;> ring

/-! ## Which work a time covers -/

/-- The FFTs. -/
def isFft : Job → Prop | .fft _ => True | _ => False
/-- Setup of the grid and the plan, allocation, initial data. -/
def isInit : Job → Prop
  | .grids | .create | .setup | .trials | .allocate | .initialize => True
  | _ => False
def isSetup : Job → Prop | .setup => True | _ => False
/-- `tune`: the trials and the last `setup`. -/
def isTune : Job → Prop | .setup | .trials => True | _ => False
def is1d : Job → Prop | .only1d _ => True | _ => False
def isRemaps : Job → Prop | .remaps _ => True | _ => False
/-- Remap number `k` of either direction. -/
def isRemap (k : Nat) : Job → Prop | .oneRemap _ w => w = k | _ => False

/-- The calls of remap number `k` that a program with the numbers `which` makes. -/
def isCall (which : Int → Nat → Int) (k : Nat) : Job → Prop | .oneRemap d w => w = which d k | _ => False

section

variable {o : TimeOpt} {which : Int → Nat → Int}

theorem keeps_single {v : Var} {k : Nat} (h : v ≠ .stamp (k + 2)) (h' : v ≠ .remap (k + 1)) : Keeps v (singleActs o which k) := by
  unfold singleActs
  simp only [keeps_append, keeps_cons, keeps_loop, keeps_nil, Act.target, ne_eq, Option.some.injEq, reduceCtorEq,
    not_false_eq_true, true_and, and_true]
  exact ⟨fun e => h e.symm, fun e => h' e.symm⟩

theorem jobs_single {p : Job → Prop} {k : Nat} (h : ∀ d, p (.oneRemap d (which d (k + 1)))) :
    Jobs p (singleActs o which k) := by
  unfold singleActs
  simp only [jobs_append, jobs_cons, jobs_nil, reduceCtorEq, false_imp_iff, implies_true, and_true]
  exact jobs_loop h

theorem keeps_singles {v : Var} {l : List Nat} (h : ∀ k ∈ l, v ≠ .stamp (k + 2) ∧ v ≠ .remap (k + 1)) :
    Keeps v (l.flatMap (singleActs o which)) := by
  intro a ha
  obtain ⟨k, hk, ha⟩ := List.mem_flatMap.mp ha
  exact keeps_single (h k hk).1 (h k hk).2 a ha

theorem jobs_singles {p : Job → Prop} {l : List Nat} (h : ∀ k ∈ l, ∀ d, p (.oneRemap d (which d (k + 1)))) :
    Jobs p (l.flatMap (singleActs o which)) := by
  intro j ha
  obtain ⟨k, hk, ha⟩ := List.mem_flatMap.mp ha
  exact jobs_single (h k hk) j ha

macro "job_simp" : tactic =>
  `(tactic| simp only [jobs_append, jobs_cons, jobs_nil, keeps_append, keeps_cons, keeps_nil, keeps_loop, Act.target, ne_eq,
    Option.some.injEq, reduceCtorEq, not_false_eq_true, Act.job.injEq, false_imp_iff, implies_true, and_true, true_and, forall_eq,
    if_true, if_false, Bool.false_eq_true])

theorem keeps_block {v w : Var} {call : Int → Job} (h : ∀ k, v ≠ .stamp k) (h' : v ≠ w) : Keeps v (blockActs o call w) := by
  unfold blockActs
  job_simp
  exact ⟨fun e => h _ e.symm, fun e => h _ e.symm, fun e => h' e.symm⟩

theorem jobs_block {p : Job → Prop} {w : Var} {call : Int → Job} (h : p .clear) (h' : ∀ d, p (call d)) :
    Jobs p (blockActs o call w) := by
  unfold blockActs
  job_simp
  exact ⟨h, jobs_loop h'⟩

theorem keeps_timing {v : Var} (h : ∀ k, v ≠ .stamp k) (h1 : v ≠ .time1d) (h2 : v ≠ .timeRemap) (h3 : ∀ k, v ≠ .remap k) :
    Keeps v (timingActs o which) := by
  unfold timingActs
  split
  · job_simp
    exact ⟨⟨keeps_block h h1, keeps_block h h2⟩, fun e => h _ e.symm, keeps_singles fun k _ => ⟨h _, h3 _⟩⟩
  · exact keeps_nil

theorem jobs_timing {p : Job → Prop} (h : p .clear) (h1 : ∀ d, p (.only1d d)) (h2 : ∀ d, p (.remaps d))
    (h3 : ∀ d w, p (.oneRemap d w)) : Jobs p (timingActs o which) := by
  unfold timingActs
  split
  · job_simp
    exact ⟨⟨jobs_block h h1, jobs_block h h2⟩, h, jobs_singles fun k _ d => h3 _ _⟩
  · exact jobs_nil

theorem keeps_output (v : Var) (j : Job) (b : Bool) : Keeps v (if b then [.job j] else []) := by
  split <;> job_simp

theorem jobs_output {p : Job → Prop} {j : Job} (b : Bool) (h : p j) : Jobs p (if b then [.job j] else []) := by
  split
  · job_simp; exact h
  · job_simp

theorem keeps_after {v : Var} (h : ∀ k, v ≠ .stamp k) (h1 : v ≠ .time1d) (h2 : v ≠ .timeRemap) (h3 : ∀ k, v ≠ .remap k) :
    Keeps v (afterActs o which) := by
  unfold afterActs
  rw [keeps_append, keeps_append]
  exact ⟨⟨keeps_output _ _ _, keeps_output _ _ _⟩, keeps_timing h h1 h2 h3⟩

theorem jobs_after {p : Job → Prop} (h : p .clear) (h1 : ∀ d, p (.only1d d)) (h2 : ∀ d, p (.remaps d))
    (h3 : ∀ d w, p (.oneRemap d w)) (h4 : p .validate) (h5 : p .output) : Jobs p (afterActs o which) := by
  unfold afterActs
  rw [jobs_append, jobs_append]
  exact ⟨⟨jobs_output _ h4, jobs_output _ h5⟩, jobs_timing h h1 h2 h3⟩

theorem jobs_plan {p : Job → Prop} (h : p .create) (h1 : p .setup) (h2 : p .trials) : Jobs p (planActs o) := by
  unfold planActs
  cases o.tune <;> job_simp
  · exact ⟨h, h1⟩
  · exact ⟨h, h2, h1⟩

/-- Before the loop, without the last barrier. -/
def before' (o : TimeOpt) : List Act :=
  [.barrier, .wtime .main1, .job .grids] ++ planActs o ++
  [.job .allocate, .job .initialize, .barrier, .wtime .main2, .diff .timeinit .main2 .main1] ++
  (if o.oflag then [.job .output] else [])

theorem reports_fft (o : TimeOpt) (which : Int → Nat → Int) :
    Reports (mainActs o which) .timefft isFft (before' o).length ((before' o).length + 2 + (loopActs o .fft).length) := by
  refine reports_of (A := before' o) (B := loopActs o .fft) (C := .diff .timefft .main2 .main1 :: afterActs o which)
    (x := .main1) (y := .main2) ?_ (by simp) (keeps_loop _ _ _) ?_ ?_ ?_ ?_
  · simp [mainActs, beforeActs, before', List.append_assoc]
  · refine ends_diff (d := []) keeps_nil keeps_nil (keeps_after ?_ ?_ ?_ ?_) <;> simp
  · unfold before'
    job_simp
    exact ⟨⟨⟨id, jobs_plan id id id⟩, id, id⟩, jobs_output _ id⟩
  · exact jobs_loop fun _ => trivial
  · job_simp
    exact jobs_after id (fun _ => id) (fun _ => id) (fun _ _ => id) id id

/-- After the initialization. -/
def restActs (o : TimeOpt) (which : Int → Nat → Int) : List Act :=
  (if o.oflag then [.job .output] else []) ++ [.barrier] ++
  (.wtime .main1 :: (loopActs o .fft ++ [.barrier])) ++ [.wtime .main2, .diff .timefft .main2 .main1] ++
  afterActs o which

theorem keeps_rest {v : Var} (h : ∀ k, v ≠ .stamp k) (h1 : v ≠ .time1d) (h2 : v ≠ .timeRemap) (h3 : ∀ k, v ≠ .remap k)
    (h4 : v ≠ .main1) (h5 : v ≠ .main2) (h6 : v ≠ .timefft) : Keeps v (restActs o which) := by
  unfold restActs
  job_simp
  exact ⟨⟨⟨keeps_output _ _ _, fun e => h4 e.symm⟩, fun e => h5 e.symm, fun e => h6 e.symm⟩, keeps_after h h1 h2 h3⟩

theorem jobs_rest {p : Job → Prop} (h : p .clear) (h1 : ∀ d, p (.only1d d)) (h2 : ∀ d, p (.remaps d))
    (h3 : ∀ d w, p (.oneRemap d w)) (h4 : p .validate) (h5 : p .output) (h6 : ∀ d, p (.fft d)) :
    Jobs p (restActs o which) := by
  unfold restActs
  job_simp
  exact ⟨⟨jobs_output _ h5, jobs_loop h6⟩, jobs_after h h1 h2 h3 h4 h5⟩

theorem reports_init (o : TimeOpt) (which : Int → Nat → Int) :
    Reports (mainActs o which) .timeinit isInit 0 (0 + 2 + ((planActs o).length + 3)) := by
  have := reports_of (acts := mainActs o which) (v := .timeinit) (p := isInit) (A := [])
    (B := .job .grids :: planActs o ++ [.job .allocate, .job .initialize])
    (C := .diff .timeinit .main2 .main1 :: restActs o which) (x := .main1) (y := .main2) ?_ (by simp) ?_ ?_ ?_ ?_ ?_
  · simpa [Nat.add_assoc] using this
  · simp [mainActs, beforeActs, restActs, List.append_assoc]
  · unfold planActs
    cases o.tune <;> job_simp
  · refine ends_diff (d := []) keeps_nil keeps_nil (keeps_rest ?_ ?_ ?_ ?_ ?_ ?_ ?_) <;> simp
  · exact jobs_nil
  · job_simp
    exact ⟨⟨trivial, jobs_plan trivial trivial trivial⟩, trivial, trivial⟩
  · job_simp
    exact jobs_rest id (fun _ => id) (fun _ => id) (fun _ _ => id) id id (fun _ => id)

/-- After `plan`. -/
def rest' (o : TimeOpt) (which : Int → Nat → Int) : List Act :=
  [.job .allocate, .job .initialize, .barrier, .wtime .main2, .diff .timeinit .main2 .main1] ++ restActs o which

theorem keeps_rest' {v : Var} (h : ∀ k, v ≠ .stamp k) (h1 : v ≠ .time1d) (h2 : v ≠ .timeRemap) (h3 : ∀ k, v ≠ .remap k)
    (h4 : v ≠ .main1) (h5 : v ≠ .main2) (h6 : v ≠ .timefft) (h7 : v ≠ .timeinit) : Keeps v (rest' o which) := by
  unfold rest'
  job_simp
  exact ⟨⟨fun e => h5 e.symm, fun e => h7 e.symm⟩, keeps_rest h h1 h2 h3 h4 h5 h6⟩

theorem jobs_rest' {p : Job → Prop} (h : p .clear) (h1 : ∀ d, p (.only1d d)) (h2 : ∀ d, p (.remaps d))
    (h3 : ∀ d w, p (.oneRemap d w)) (h4 : p .validate) (h5 : p .output) (h6 : ∀ d, p (.fft d)) (h7 : p .allocate)
    (h8 : p .initialize) : Jobs p (rest' o which) := by
  unfold rest'
  job_simp
  exact ⟨⟨h7, h8⟩, jobs_rest h h1 h2 h3 h4 h5 h6⟩

theorem main_eq (o : TimeOpt) (which : Int → Nat → Int) :
    mainActs o which = [.barrier, .wtime .main1, .job .grids] ++ (planActs o ++ rest' o which) := by
  simp [mainActs, beforeActs, rest', restActs, List.append_assoc]

theorem reports_setup (o : TimeOpt) (which : Int → Nat → Int) (h : o.tune = false) :
    Reports (mainActs o which) .timesetup isSetup 4 7 := by
  have hp : planActs o = [.job .create, .barrier, .wtime .plan1, .job .setup, .barrier, .wtime .plan2,
      .diff .timesetup .plan2 .plan1, .zero .timetune] := by
    simp [planActs, h]
  refine reports_of (A := [.barrier, .wtime .main1, .job .grids, .job .create]) (B := [.job .setup])
    (C := .diff .timesetup .plan2 .plan1 :: .zero .timetune :: rest' o which) (x := .plan1) (y := .plan2) ?_ (by simp) ?_ ?_ ?_ ?_ ?_
  · rw [main_eq, hp]; rfl
  · job_simp
  · refine ends_diff (d := []) keeps_nil keeps_nil (keeps_cons.mpr ⟨by simp [Act.target], keeps_rest' ?_ ?_ ?_ ?_ ?_ ?_ ?_ ?_⟩) <;> simp
  · job_simp
    exact ⟨id, id⟩
  · job_simp
    exact trivial
  · job_simp
    exact jobs_rest' id (fun _ => id) (fun _ => id) (fun _ _ => id) id id (fun _ => id) id id

theorem plan_tune {o : TimeOpt} (h : o.tune = true) : planActs o = [.job .create, .barrier, .wtime .plan1,
    .job .trials, .barrier, .wtime .tune1, .job .setup, .barrier, .wtime .tune2, .diff .setuptime .tune2 .tune1,
    .barrier, .wtime .plan2, .copy .timesetup .setuptime, .diff .timetune .plan2 .plan1] := by
  simp [planActs, h]

theorem reports_setup_tune (o : TimeOpt) (which : Int → Nat → Int) (h : o.tune = true) :
    Reports (mainActs o which) .timesetup isSetup 7 10 := by
  refine reports_of (A := [.barrier, .wtime .main1, .job .grids, .job .create, .barrier, .wtime .plan1, .job .trials])
    (B := [.job .setup])
    (C := [] ++ .diff .setuptime .tune2 .tune1 :: [.barrier, .wtime .plan2] ++
      .copy .timesetup .setuptime :: (.diff .timetune .plan2 .plan1 :: rest' o which))
    (x := .tune1) (y := .tune2) ?_ (by simp) ?_ ?_ ?_ ?_ ?_
  · rw [main_eq, plan_tune h]; rfl
  · job_simp
  · refine ends_copy keeps_nil keeps_nil ?_ (keeps_cons.mpr ⟨by simp [Act.target], keeps_rest' ?_ ?_ ?_ ?_ ?_ ?_ ?_ ?_⟩) <;> try simp
    job_simp
  · job_simp
    exact ⟨id, id, id⟩
  · job_simp
    exact trivial
  · job_simp
    exact jobs_rest' id (fun _ => id) (fun _ => id) (fun _ _ => id) id id (fun _ => id) id id

theorem reports_tune (o : TimeOpt) (which : Int → Nat → Int) (h : o.tune = true) :
    Reports (mainActs o which) .timetune isTune 4 13 := by
  refine reports_of (A := [.barrier, .wtime .main1, .job .grids, .job .create])
    (B := [.job .trials, .barrier, .wtime .tune1, .job .setup, .barrier, .wtime .tune2, .diff .setuptime .tune2 .tune1])
    (C := [.copy .timesetup .setuptime] ++ .diff .timetune .plan2 .plan1 :: rest' o which)
    (x := .plan1) (y := .plan2) ?_ (by simp) ?_ ?_ ?_ ?_ ?_
  · rw [main_eq, plan_tune h]; rfl
  · job_simp
  · refine ends_diff ?_ ?_ (keeps_rest' ?_ ?_ ?_ ?_ ?_ ?_ ?_ ?_) <;> first | job_simp | simp
  · job_simp
    exact ⟨id, id⟩
  · job_simp
    exact ⟨trivial, trivial⟩
  · job_simp
    exact jobs_rest' id (fun _ => id) (fun _ => id) (fun _ _ => id) id id (fun _ => id) id id

/-- All before `timing`. -/
def early (o : TimeOpt) : List Act :=
  beforeActs o ++
  (.wtime .main1 :: (loopActs o .fft ++ [.barrier])) ++ [.wtime .main2, .diff .timefft .main2 .main1] ++
  (if o.vflag then [.job .validate] else []) ++ (if o.oflag then [.job .output] else [])

theorem jobs_early {p : Job → Prop} (h : p .create) (h1 : p .setup) (h2 : p .trials) (h3 : p .grids) (h4 : p .validate)
    (h5 : p .output) (h6 : ∀ d, p (.fft d)) (h7 : p .allocate) (h8 : p .initialize) : Jobs p (early o) := by
  unfold early beforeActs
  job_simp
  exact ⟨⟨⟨⟨⟨⟨h3, jobs_plan h h1 h2⟩, h7, h8⟩, jobs_output _ h5⟩, jobs_loop h6⟩, jobs_output _ h4⟩, jobs_output _ h5⟩

/-- The single remaps. -/
def singles (o : TimeOpt) (which : Int → Nat → Int) : List Act :=
  [.job .clear, .barrier, .wtime (.stamp 1)] ++ (List.range (o.dim + 1)).flatMap (singleActs o which)

theorem main_timing (o : TimeOpt) (which : Int → Nat → Int) (h : o.tflag = true) :
    mainActs o which = early o ++ (blockActs o .only1d .time1d ++ (blockActs o .remaps .timeRemap ++ singles o which)) := by
  simp [mainActs, early, afterActs, timingActs, singles, h, List.append_assoc]

theorem reports_1d (o : TimeOpt) (which : Int → Nat → Int) (h : o.tflag = true) :
    ∃ i j, Reports (mainActs o which) .time1d is1d i j := by
  refine ⟨_, _, reports_of (A := early o ++ [.job .clear]) (B := loopActs o .only1d)
    (C := .diff .time1d (.stamp 2) (.stamp 1) :: (blockActs o .remaps .timeRemap ++ singles o which)) (x := .stamp 1) (y := .stamp 2)
    ?_ (by simp) (keeps_loop _ _ _) ?_ ?_ ?_ ?_⟩
  · rw [main_timing o which h]
    simp [blockActs, List.append_assoc]
  · refine ends_diff (d := []) keeps_nil keeps_nil (keeps_append.mpr ⟨keeps_block (by simp) (by simp), ?_⟩)
    unfold singles
    job_simp
    exact keeps_singles fun k _ => by simp
  · job_simp
    exact ⟨jobs_early id id id id id id (fun _ => id) id id, id⟩
  · exact jobs_loop fun _ => trivial
  · unfold singles
    job_simp
    exact ⟨jobs_block id fun _ => id, id, jobs_singles fun _ _ _ => id⟩

theorem reports_remaps (o : TimeOpt) (which : Int → Nat → Int) (h : o.tflag = true) :
    ∃ i j, Reports (mainActs o which) .timeRemap isRemaps i j := by
  refine ⟨_, _, reports_of (A := early o ++ blockActs o .only1d .time1d ++ [.job .clear]) (B := loopActs o .remaps)
    (C := .diff .timeRemap (.stamp 2) (.stamp 1) :: singles o which) (x := .stamp 1) (y := .stamp 2)
    ?_ (by simp) (keeps_loop _ _ _) ?_ ?_ ?_ ?_⟩
  · rw [main_timing o which h]
    rw [show blockActs o .remaps .timeRemap = [.job .clear, .barrier, .wtime (.stamp 1)] ++ loopActs o .remaps ++
      [.barrier, .wtime (.stamp 2), .diff .timeRemap (.stamp 2) (.stamp 1)] from rfl]
    simp [List.append_assoc]
  · refine ends_diff (d := []) keeps_nil keeps_nil ?_
    unfold singles
    job_simp
    exact keeps_singles fun k _ => by simp
  · job_simp
    exact ⟨⟨jobs_early id id id id id id (fun _ => id) id id, jobs_block id fun _ => id⟩, id⟩
  · exact jobs_loop fun _ => trivial
  · unfold singles
    job_simp
    exact ⟨id, jobs_singles fun _ _ _ => id⟩

theorem range_split {n k : Nat} (h : k < n) : ∃ l, List.range n = List.range k ++ k :: l ∧ ∀ m ∈ l, k < m := by
  refine ⟨(List.range (n - k - 1)).map (k + 1 + ·), ?_, ?_⟩
  · conv_lhs => rw [show n = k + ((n - k - 1) + 1) by omega, List.range_add, List.range_succ_eq_map]
    simp [Function.comp_def, Nat.add_assoc, Nat.add_comm 1]
  · intro m hm
    obtain ⟨r, -, rfl⟩ := List.mem_map.mp hm
    omega

theorem reports_single (o : TimeOpt) (which : Int → Nat → Int) (h : o.tflag = true)
    (hw : ∀ d d' k k', k ≤ o.dim + 1 → k' ≤ o.dim + 1 → which d k = which d' k' → k = k') {k : Nat} (hk : k < o.dim + 1) :
    ∃ i j, Reports (mainActs o which) (.remap (k + 1)) (isCall which (k + 1)) i j := by
  obtain ⟨l, hl, hm⟩ := range_split hk
  have hA : Jobs (fun j => ¬ isCall which (k + 1) j)
      (early o ++ blockActs o .only1d .time1d ++ blockActs o .remaps .timeRemap ++ [.job .clear]) := by
    job_simp
    exact ⟨⟨⟨jobs_early id id id id id id (fun _ => id) id id, jobs_block id fun _ => id⟩, jobs_block id fun _ => id⟩, id⟩
  have hother : ∀ m, m ≠ k → m ∈ List.range (o.dim + 1) → ∀ d, ¬ isCall which (k + 1) (.oneRemap d (which d (m + 1))) := by
    intro m hm hr d e
    have := List.mem_range.mp hr
    exact hm (by have := hw _ _ _ _ (by omega) (by omega) e; omega)
  have hC : Ends (.diff (.remap (k + 1)) (.stamp (k + 2)) (.stamp (k + 1)) :: l.flatMap (singleActs o which))
      (.remap (k + 1)) (.stamp (k + 1)) (.stamp (k + 2)) := by
    refine ends_diff (d := []) keeps_nil keeps_nil (keeps_singles fun m hm' => ⟨by simp, ?_⟩)
    have := hm m hm'
    simp only [ne_eq, Var.remap.injEq]
    omega
  have hC' : Jobs (fun j => ¬ isCall which (k + 1) j)
      (.diff (.remap (k + 1)) (.stamp (k + 2)) (.stamp (k + 1)) :: l.flatMap (singleActs o which)) := by
    job_simp
    exact jobs_singles fun m hm' => hother m (by have := hm m hm'; omega) (by rw [hl]; simp [hm'])
  have hloop : Jobs (isCall which (k + 1)) (loopActs o fun d => .oneRemap d (which d (k + 1))) := jobs_loop fun _ => rfl
  cases k with
  | zero =>
    refine ⟨_, _, reports_of (A := early o ++ blockActs o .only1d .time1d ++ blockActs o .remaps .timeRemap ++ [.job .clear])
      (B := loopActs o fun d => .oneRemap d (which d 1)) (C := .diff (.remap 1) (.stamp 2) (.stamp 1) :: l.flatMap (singleActs o which))
      (x := .stamp 1) (y := .stamp 2) ?_ (by simp) (keeps_loop _ _ _) hC hA hloop hC'⟩
    rw [main_timing o which h, singles, hl]
    simp [singleActs, List.append_assoc]
  | succ k =>
    refine ⟨_, _, reports_of (A := early o ++ blockActs o .only1d .time1d ++ blockActs o .remaps .timeRemap ++ [.job .clear] ++
        [.barrier, .wtime (.stamp 1)] ++ (List.range k).flatMap (singleActs o which) ++
        loopActs o fun d => .oneRemap d (which d (k + 1)))
      (B := .diff (.remap (k + 1)) (.stamp (k + 2)) (.stamp (k + 1)) :: loopActs o fun d => .oneRemap d (which d (k + 2)))
      (C := .diff (.remap (k + 2)) (.stamp (k + 3)) (.stamp (k + 2)) :: l.flatMap (singleActs o which))
      (x := .stamp (k + 2)) (y := .stamp (k + 3)) ?_ (by simp) ?_ hC ?_ ?_ hC'⟩
    · rw [main_timing o which h, singles, hl, List.range_succ]
      simp [singleActs, List.append_assoc]
    · job_simp
    · rw [jobs_append, jobs_append, jobs_append]
      have hr : ∀ m, m ≤ k → m ∈ List.range (o.dim + 1) := fun m hm => List.mem_range.mpr (by omega)
      refine ⟨⟨⟨hA, by job_simp⟩, jobs_singles fun m hm' => ?_⟩, jobs_loop (hother k (by omega) (hr k le_rfl))⟩
      have := List.mem_range.mp hm'
      exact hother m (by omega) (hr m (by omega))
    · job_simp
      exact hloop

end

end Driver

end FftMpi
