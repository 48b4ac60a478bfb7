import Mathlib.Data.List.TakeWhile
import Verif.DriverF
import Verif.PropsDriverOut
import Verif.PropsDriverRun
import Verif.PropsSimple

/-!
# C65: the Fortran test programs
-/

noncomputable section

namespace FftMpi

open Driver DriverF

/-! ## The command line -/

/-- Unfolding `if` in a goal about all results. -/
theorem DriverF.ite_out {α : Type} {p : α → Prop} {c : Prop} [Decidable c] {x y : α} (h1 : c → p x) (h2 : ¬c → p y) :
    p (if c then x else y) := by
  split_ifs with h
  · exact h1 h
  · exact h2 h

/-- What is claimed of a step: the data are zero or random afterwards. -/
def DriverF.Plain (x : Option (Out (Nat × Cmd1))) : Prop := ∀ i o, x = some (.ok (i, o)) → o.iflag = 0 ∨ o.iflag = 3

theorem DriverF.plain_error (m : String) : Plain (some (.error m)) := by
  intro i o h
  cases h

theorem DriverF.plain_ok {i : Nat} {o : Cmd1} (h : o.iflag = 0 ∨ o.iflag = 3) : Plain (some (.ok (i, o))) := by
  intro i' o' h'
  cases h'
  exact h

theorem DriverF.plain_bind {α : Type} {x : Option α} {f : α → Option (Out (Nat × Cmd1))} (h : ∀ a, Plain (f a)) :
    Plain (x.bind f) := by
  intro i o ho
  cases x with
  | none => cases ho
  | some a => exact h a i o ho

theorem DriverF.plain_map {α : Type} {x : Option α} {f : α → Out (Nat × Cmd1)} (h : ∀ a, Plain (some (f a))) :
    Plain (x.map f) := by
  intro i o ho
  cases x with
  | none => cases ho
  | some a => exact h a i o ho

theorem DriverF.plain_grid (three : Bool) (args : List String) (iarg : Nat) {set : Int → Int → Int → Cmd1}
    (h : ∀ x y z, (set x y z).iflag = 0 ∨ (set x y z).iflag = 3) : Plain (gridF three args iarg set) := by
  unfold gridF
  refine ite_out (fun _ => ite_out (fun _ => plain_error _) fun _ => ?_) fun _ =>
    ite_out (fun _ => plain_error _) fun _ => ?_
  · exact plain_bind fun x => plain_bind fun y => plain_map fun z => plain_ok (h x y z)
  · exact plain_bind fun x => plain_map fun y => plain_ok (h x y 0)

theorem DriverF.plain_one (args : List String) (iarg : Nat) {set : Int → Cmd1}
    (h : ∀ x, (set x).iflag = 0 ∨ (set x).iflag = 3) : Plain (oneF args iarg set) := by
  unfold oneF
  exact ite_out (fun _ => plain_error _) fun _ => plain_map fun x => plain_ok (h x)

theorem DriverF.plain_choice (args : List String) (iarg : Nat) {words : List (String × Cmd1)}
    (h : ∀ w ∈ words, w.2.iflag = 0 ∨ w.2.iflag = 3) : Plain (choiceF args iarg words) := by
  unfold choiceF
  refine ite_out (fun _ => plain_error _) fun _ => plain_map fun s => ?_
  cases hf : words.find? fun w => isWord s w.1 with
  | none => exact plain_error _
  | some w => exact plain_ok (h w (List.mem_of_find?_eq_some hf))

/-- A word is not two words. -/
theorem DriverF.isWord_unique {s a b : String} (ha : isWord s a = true) (hb : isWord s b = true) : a = b := by
  unfold isWord at ha hb
  exact String.toList_inj.mp ((of_decide_eq_true ha).symm.trans (of_decide_eq_true hb))

theorem DriverF.plain_init {me : Nat} {args : List String} {iarg : Nat} {s : String} (hs : isWord s "-i" = true)
    {o : Cmd1} : Plain (initArgF me args iarg s o) := by
  unfold initArgF
  refine ite_out (fun _ => plain_error _) fun _ => ite_out (fun _ => plain_ok (Or.inl rfl)) fun _ =>
    ite_out (fun h => ?_) fun _ => ite_out (fun h => ?_) fun _ => ?_
  · exact absurd (isWord_unique hs h) (by decide)
  · exact absurd (isWord_unique hs h) (by decide)
  · exact plain_bind fun n => plain_map fun v => plain_ok (Or.inr rfl)

theorem DriverF.plain_step (three : Bool) (me : Nat) (args : List String) (iarg : Nat) {o : Cmd1}
    (ho : o.iflag = 0 ∨ o.iflag = 3) : Plain (argStepF three me args iarg o) := by
  unfold argStepF
  refine plain_bind fun s => ?_
  refine ite_out (fun _ => plain_error _) fun _ => ?_
  refine ite_out (fun _ => plain_grid _ _ _ fun _ _ _ => ho) fun _ => ?_
  refine ite_out (fun _ => plain_grid _ _ _ fun _ _ _ => ho) fun _ => ?_
  refine ite_out (fun _ => plain_grid _ _ _ fun _ _ _ => ho) fun _ => ?_
  refine ite_out (fun _ => plain_one _ _ fun _ => ho) fun _ => ?_
  refine ite_out (fun h => plain_init h) fun _ => ?_
  refine ite_out (fun _ => ?_) fun _ => ?_
  · unfold tuneArgF
    exact ite_out (fun _ => plain_error _) fun _ =>
      plain_bind fun _ => plain_bind fun _ => plain_map fun _ => plain_ok ho
  refine ite_out (fun _ => plain_one _ _ fun _ => ho) fun _ => ?_
  refine ite_out (fun _ => plain_choice _ _ ?_) fun _ => ?_
  · intro w hw
    simp only [List.mem_cons, List.not_mem_nil, or_false] at hw
    rcases hw with rfl | rfl | rfl <;> exact ho
  refine ite_out (fun _ => plain_choice _ _ ?_) fun _ => ?_
  · intro w hw
    simp only [List.mem_cons, List.not_mem_nil, or_false] at hw
    rcases hw with rfl | rfl <;> exact ho
  refine ite_out (fun _ => plain_choice _ _ ?_) fun _ => ?_
  · intro w hw
    simp only [List.mem_cons, List.not_mem_nil, or_false] at hw
    rcases hw with rfl | rfl | rfl <;> exact ho
  refine ite_out (fun _ => plain_ok ho) fun _ => ?_
  refine ite_out (fun _ => plain_ok ho) fun _ => ?_
  refine ite_out (fun _ => plain_ok ho) fun _ => ?_
  exact ite_out (fun _ => plain_ok ho) fun _ => plain_error _

theorem DriverF.plain_loop (three : Bool) (me : Nat) (args : List String) (n : Nat) :
    ∀ (iarg : Nat) (o o' : Cmd1), (o.iflag = 0 ∨ o.iflag = 3) → argLoopF three me args n iarg o = some (.ok o') →
      o'.iflag = 0 ∨ o'.iflag = 3 := by
  induction n with
  | zero => intro iarg o o' _ h; cases h
  | succ n ih =>
    intro iarg o o' ho h
    unfold argLoopF at h
    by_cases hi : iarg < args.length
    · rw [if_pos hi] at h
      have hp := plain_step three me args iarg ho
      rcases hs : argStepF three me args iarg o with _ | (e | ⟨i, o1⟩)
      · rw [hs] at h; cases h
      · rw [hs] at h; cases h
      · rw [hs] at h
        exact ih i o1 o' (hp i o1 hs) h
    · rw [if_neg hi] at h
      cases h
      exact ho

/-- **C65 (choice of the data).**  No command line makes the Fortran programs start with the data `step` or `index`. -/
theorem C65_words {three : Bool} {P me : Nat} {args : List String} {o : Cmd1}
    (h : optionsF three P me args = some (.ok o)) : o.iflag = 0 ∨ o.iflag = 3 := by
  unfold optionsF at h
  rcases hl : argLoopF three me args (args.length + 1) 1 Cmd1.default with _ | (e | o1)
  · rw [hl] at h; cases h
  · rw [hl] at h; cases h
  · rw [hl] at h
    have key := plain_loop three me args _ _ _ _ (Or.inl rfl) hl
    dsimp only at h
    split_ifs at h with h0
    · cases h
    · rcases hg : gridCheck three P o1.inpx o1.inpy o1.inpz with _ | (_ | e)
      · rw [hg] at h; cases h
      · rw [hg] at h
        rcases hg' : gridCheck three P o1.outpx o1.outpy o1.outpz with _ | (_ | e)
        · rw [hg'] at h; cases h
        · rw [hg'] at h
          rcases hr : runCheck true o1.toCmd with _ | e
          · simp only [Option.bind_some, Option.map_some, hr] at h
            cases h
            exact key
          · simp only [Option.bind_some, Option.map_some, hr] at h
            cases h
        · rw [hg'] at h; cases h
      · rw [hg] at h; cases h

/-- **C65 (`-i` with a word).**  `-i zero`, `-i step` and `-i index`, which the programs announce, end them with a
run-time error. -/
theorem C65_words_false (three : Bool) (P me : Nat) (prog : String) (rest : List String) {w : String}
    (hw : w = "zero" ∨ w = "step" ∨ w = "index") : optionsF three P me (prog :: "-i" :: w :: rest) = none := by
  have hr : readI w = none := by rcases hw with rfl | rfl | rfl <;> decide
  have hs : argStepF three me (prog :: "-i" :: w :: rest) 1 Cmd1.default = none := by
    unfold argStepF
    have e0 : argv (prog :: "-i" :: w :: rest) 1 = some "-i" := rfl
    rw [e0, Option.bind_some]
    rw [if_neg (by decide), if_neg (by decide), if_neg (by decide), if_neg (by decide), if_neg (by decide),
      if_pos (by decide)]
    unfold initArgF
    rw [if_neg (by simp), if_neg (by decide), if_neg (by decide), if_neg (by decide)]
    have e1 : numF (prog :: "-i" :: w :: rest) (1 + 1) = none := by
      show (some w).bind readI = none
      exact hr
    rw [e1]
    rfl
  unfold optionsF
  have : argLoopF three me (prog :: "-i" :: w :: rest) ((prog :: "-i" :: w :: rest).length + 1) 1 Cmd1.default = none := by
    unfold argLoopF
    rw [if_pos (by simp), hs]
  rw [this]

/-- A command line that works: a grid, a seed, validation. -/
example : ∃ o, optionsF true 2 1 ["test3d_f90", "-g", "6", "5", "4", "-i", "12345", "-v"] = some (.ok o) ∧
    o.nx = 6 ∧ o.iflag = 3 ∧ o.seedinit = 12345 ∧ o.seed = 12346 ∧ o.vflag = true := by
  refine ⟨_, rfl, ?_⟩
  decide

/-- **C65 (time limit of `-tune`).**  A limit that is written without a decimal point is divided by 1000. -/
theorem C65_tmax_false {s : String} (hs : s.length ≤ 10) (h0 : s ≠ "") (hd : ∀ c ∈ s.toList, '0' ≤ c ∧ c ≤ '9') :
    ∃ v, allDigits 0 s.toList = some v ∧ readF s = some ((v : ℚ) / 1000) := by
  have hb : ∀ c ∈ s.toList, c ≠ ' ' ∧ c ≠ '.' ∧ c ≠ '-' ∧ c ≠ '+' := by
    intro c hc
    have := hd c hc
    refine ⟨?_, ?_, ?_, ?_⟩ <;> rintro rfl <;> revert this <;> decide
  have hall : ∀ (l : List Char) (v : Int), (∀ c ∈ l, '0' ≤ c ∧ c ≤ '9') → ∃ u, allDigits v l = some u := by
    intro l
    induction l with
    | nil => intro v _; exact ⟨v, rfl⟩
    | cons c l ih =>
      intro v hl
      unfold allDigits
      rw [if_pos (hl c (by simp))]
      exact ih _ fun x hx => hl x (by simp [hx])
  obtain ⟨v, hv⟩ := hall s.toList 0 hd
  refine ⟨v, hv, ?_⟩
  have e1 : (s.toList.take 10).filter (· ≠ ' ') = s.toList := by
    rw [List.take_of_length_le (by rw [String.length_toList]; exact hs)]
    rw [List.filter_eq_self]
    intro c hc
    simpa using (hb c hc).1
  obtain ⟨c, t, hct⟩ : ∃ c t, s.toList = c :: t := by
    cases h : s.toList with
    | nil => exact absurd (String.toList_inj.mp (h.trans (by rfl))) h0
    | cons c t => exact ⟨c, t, rfl⟩
  have hc := hb c (by rw [hct]; simp)
  have e2 : s.toList.takeWhile (· ≠ '.') = s.toList := by
    apply List.takeWhile_eq_self_iff.mpr
    intro x hx
    simpa using (hb x hx).2.1
  have e3 : s.toList.dropWhile (· ≠ '.') = [] := by
    apply List.dropWhile_eq_nil_iff.mpr
    intro x hx
    simpa using (hb x hx).2.1
  have e4 : '.' ∉ s.toList := fun h => (hb _ h).2.1 rfl
  have e5 : s.toList.head? = some c := by rw [hct]; rfl
  unfold readF
  simp only [e1, e5, Option.some.injEq, hc.2.2.1, hc.2.2.2, or_self, if_false, e2, e3, List.tail_nil, List.append_nil, hv, e4]
  norm_num

/-- The number that digits stand for. -/
def DriverF.decimal (l : List Char) : Int := l.foldl (fun v c => 10 * v + ((c.toNat : Int) - 48)) 0

theorem DriverF.allDigits_decimal {l : List Char} (h : ∀ c ∈ l, '0' ≤ c ∧ c ≤ '9') : allDigits 0 l = some (decimal l) := by
  have key : ∀ (l : List Char) (v : Int), (∀ c ∈ l, '0' ≤ c ∧ c ≤ '9') →
      allDigits v l = some (l.foldl (fun v c => 10 * v + ((c.toNat : Int) - 48)) v) := by
    intro l
    induction l with
    | nil => intro v _; rfl
    | cons c l ih =>
      intro v hl
      have hc := hl c (by simp)
      unfold allDigits
      rw [if_pos hc, ih _ fun x hx => hl x (by simp [hx]), List.foldl_cons]
      have h48 : '0'.toNat ≤ c.toNat := hc.1
      have e48 : '0'.toNat = 48 := rfl
      rw [e48] at h48 ⊢
      have : (((c.toNat - 48 : Nat)) : Int) = (c.toNat : Int) - 48 := by omega
      rw [this]
  exact key l 0 h

/-- **C65 (integers of the command line).**  Ten characters that are digits after an optional sign are read as the number
they stand for. -/
theorem C65_number {sgn ds : List Char} (hs : sgn = [] ∨ sgn = ['+'] ∨ sgn = ['-']) (h0 : ds ≠ [])
    (hd : ∀ c ∈ ds, '0' ≤ c ∧ c ≤ '9') (hl : sgn.length + ds.length ≤ 10) {v : Int}
    (hv : v = if sgn = ['-'] then -decimal ds else decimal ds) (hr : -2 ^ 31 ≤ v ∧ v < 2 ^ 31) :
    readI (String.ofList (sgn ++ ds)) = some v := by
  have hb : ∀ c ∈ ds, c ≠ ' ' ∧ c ≠ '-' ∧ c ≠ '+' := by
    intro c hc
    have := hd c hc
    refine ⟨?_, ?_, ?_⟩ <;> rintro rfl <;> revert this <;> decide
  have e : ((String.ofList (sgn ++ ds)).toList.take 10).filter (· ≠ ' ') = sgn ++ ds := by
    rw [String.toList_ofList, List.take_of_length_le (by simpa using hl), List.filter_eq_self]
    intro c hc
    rcases List.mem_append.mp hc with h | h
    · rcases hs with rfl | rfl | rfl
      · cases h
      · simp only [List.mem_singleton] at h; subst h; decide
      · simp only [List.mem_singleton] at h; subst h; decide
    · simpa using (hb c h).1
  obtain ⟨c, t, rfl⟩ : ∃ c t, ds = c :: t := by
    cases ds with
    | nil => exact absurd rfl h0
    | cons c t => exact ⟨c, t, rfl⟩
  have ec : ck v = some v := by
    refine ck_eq ?_
    unfold Fits
    omega
  unfold readI
  rw [e]
  rcases hs with rfl | rfl | rfl
  · have hc := hb c (by simp)
    rw [List.nil_append]
    split
    · rename_i heq
      exact absurd (List.cons.inj heq).1 hc.2.1
    · rename_i heq
      exact absurd (List.cons.inj heq).1 hc.2.2
    · rw [allDigits_decimal hd, Option.bind_some]
      rw [if_neg (by decide)] at hv
      rw [← hv, ec]
  · show (allDigits 0 (c :: t)).bind ck = _
    rw [allDigits_decimal hd, Option.bind_some]
    rw [if_neg (by decide)] at hv
    rw [← hv, ec]
  · show ((allDigits 0 (c :: t)).bind fun v => ck (-v)) = _
    rw [allDigits_decimal hd, Option.bind_some]
    rw [if_pos rfl] at hv
    rw [← hv, ec]

/-- Numbers with and without a sign. -/
example : readI "+128" = some 128 ∧ readI "-7" = some (-7) ∧ readI "2147483647" = some 2147483647 :=
  ⟨C65_number (sgn := ['+']) (ds := ['1', '2', '8']) (by decide) (by decide) (by decide) (by decide) (by decide) (by decide),
   C65_number (sgn := ['-']) (ds := ['7']) (by decide) (by decide) (by decide) (by decide) (by decide) (by decide),
   C65_number (sgn := []) (ds := ['2', '1', '4', '7', '4', '8', '3', '6', '4', '7']) (by decide) (by decide) (by decide)
     (by decide) (by decide) (by decide)⟩

/-- **C65 (time limit of `-tune` with a decimal point).**  Digits with a decimal point after an optional sign, ten
characters at most, are read as the number they stand for. -/
theorem C65_tmax_point {sgn ws fs : List Char} (hs : sgn = [] ∨ sgn = ['+'] ∨ sgn = ['-'])
    (hw : ∀ c ∈ ws, '0' ≤ c ∧ c ≤ '9') (hf : ∀ c ∈ fs, '0' ≤ c ∧ c ≤ '9')
    (hl : sgn.length + ws.length + 1 + fs.length ≤ 10) :
    readF (String.ofList (sgn ++ (ws ++ '.' :: fs))) =
      some ((if sgn = ['-'] then -1 else 1) * ((decimal (ws ++ fs) : ℚ) / 10 ^ fs.length)) := by
  have hb : ∀ c ∈ ws ++ fs, c ≠ ' ' ∧ c ≠ '.' ∧ c ≠ '-' ∧ c ≠ '+' := by
    intro c hc
    have : '0' ≤ c ∧ c ≤ '9' := (List.mem_append.mp hc).elim (hw c) (hf c)
    refine ⟨?_, ?_, ?_, ?_⟩ <;> rintro rfl <;> revert this <;> decide
  have e : ((String.ofList (sgn ++ (ws ++ '.' :: fs))).toList.take 10).filter (· ≠ ' ') = sgn ++ (ws ++ '.' :: fs) := by
    rw [String.toList_ofList, List.take_of_length_le (by simp; omega), List.filter_eq_self]
    intro c hc
    rcases List.mem_append.mp hc with h | h
    · rcases hs with rfl | rfl | rfl
      · cases h
      · simp only [List.mem_singleton] at h; subst h; decide
      · simp only [List.mem_singleton] at h; subst h; decide
    · rcases List.mem_append.mp h with h | h
      · simpa using (hb c (by simp [h])).1
      · rcases List.mem_cons.mp h with rfl | h
        · decide
        · simpa using (hb c (by simp [h])).1
  have e2 : (ws ++ '.' :: fs).takeWhile (· ≠ '.') = ws := by
    rw [List.takeWhile_append_of_pos (by intro x hx; simpa using (hb x (by simp [hx])).2.1)]
    simp
  have e3 : (ws ++ '.' :: fs).dropWhile (· ≠ '.') = '.' :: fs := by
    rw [List.dropWhile_append_of_pos (by intro x hx; simpa using (hb x (by simp [hx])).2.1)]
    simp
  have ed := allDigits_decimal (l := ws ++ fs) fun c hc => (List.mem_append.mp hc).elim (hw c) (hf c)
  have hp : '.' ∈ ws ++ '.' :: fs := by simp
  have hh : (ws ++ '.' :: fs).head? ≠ some '-' ∧ (ws ++ '.' :: fs).head? ≠ some '+' := by
    cases ws with
    | nil => simp
    | cons c t =>
      have := hb c (by simp)
      simp [this.2.2.1, this.2.2.2]
  unfold readF
  simp only [e]
  rcases hs with rfl | rfl | rfl
  · simp only [List.nil_append, hh.1, hh.2, or_self, if_false, e2, e3, List.tail_cons, ed, hp, if_true]
    simp
  · have h1 : (['+'] ++ (ws ++ '.' :: fs)).head? = some '+' := rfl
    have h2 : (['+'] ++ (ws ++ '.' :: fs)).tail = ws ++ '.' :: fs := rfl
    simp only [h1, h2, or_true, if_true, e2, e3, List.tail_cons, ed, hp]
    simp
  · have h1 : (['-'] ++ (ws ++ '.' :: fs)).head? = some '-' := rfl
    have h2 : (['-'] ++ (ws ++ '.' :: fs)).tail = ws ++ '.' :: fs := rfl
    simp only [h1, h2, true_or, if_true, e2, e3, List.tail_cons, ed, hp]
    simp

/-- Ten and a half seconds. -/
example : readF "+10.5" = some (21 / 2) := by
  have := C65_tmax_point (sgn := ['+']) (ws := ['1', '0']) (fs := ['5']) (by decide) (by decide) (by decide) (by decide)
  refine this.trans ?_
  have e : decimal (['1', '0'] ++ ['5']) = 105 := by decide
  rw [e, if_neg (by decide)]
  norm_num

/-- `-tune 5 10 0` tunes for 0.01 seconds instead of 10. -/
example : readF "10" = some (1 / 100) ∧ readF "10.0" = some 10 := by
  constructor <;> decide +kernel

/-! ## The data -/

/-- Element `x` of the array with the random numbers that begin with `seed`. -/
def DriverF.randTgtF (seed : Int) (x : Int) : ℝ := (16807 ^ (x.toNat + 1) * seed % 2147483647 : Int) / 2 ^ 31

theorem DriverF.randomF_seedAt {seed : Int} (h0 : 0 ≤ seed) (h1 : seed ≤ 2147483647) (k : Nat) :
    randomF (seedAt seed k) = some (seedAt seed (k + 1), randTgtF seed k) := by
  unfold randomF
  rw [random_seedAt id h0 h1, Option.map_some]
  unfold seedAt randTgtF seedAfter
  rw [if_neg (Nat.succ_ne_zero k)]
  simp

theorem DriverF.fillRandomF_fills {seed : Int} (h0 : 0 ≤ seed) (h1 : seed ≤ 2147483647) (n : Int) :
    Fills n (fillRandomF n seed) (randTgtF seed) := by
  intro w hw
  unfold fillRandomF
  rcases le_or_gt n 0 with hn | hn
  · rw [forN_neg (by omega)]
    simp only [Option.map_some]
    congr 1
    funext x
    rw [if_neg (by omega)]
  obtain ⟨N, hN⟩ := Int.eq_ofNat_of_zero_le (show 0 ≤ 2 * n by omega)
  obtain ⟨w', k1, k2⟩ := forN_inv (fun k (u : Int × Mem ℝ) => u = (seedAt seed k, filled k (randTgtF seed) w))
    (fun m (s : Int × Mem ℝ) => (randomF s.1).bind fun p => (fset s.2 (m + 1) p.2).map fun w => (p.1, w)) N (seed, w)
    (by rw [Nat.cast_zero, filled_zero]; rfl) (by
      rintro k hk u rfl
      refine ⟨_, ?_, rfl⟩
      simp only [randomF_seedAt h0 h1, Option.bind_some, fset, add_sub_cancel_right]
      rw [filled_set hw (by omega), Option.map_some])
  rw [hN, k1, Option.map_some, k2]
  rfl

theorem DriverF.checkRandomF_checks {seed : Int} (h0 : 0 ≤ seed) (h1 : seed ≤ 2147483647) (n : Int) :
    Checks n (checkRandomF n seed) (randTgtF seed) := by
  intro w v hw
  unfold checkRandomF
  rcases le_or_gt n 0 with hn | hn
  · rw [forN_neg (by omega)]
    exact ⟨0, rfl, (UpTo.zero v _).checks (Or.inr ⟨rfl, hn⟩)⟩
  obtain ⟨N, hN⟩ := Int.eq_ofNat_of_zero_le (show 0 ≤ 2 * n by omega)
  obtain ⟨e, k1, k2⟩ := forN_inv (fun k (e : Int × ℝ) => e.1 = seedAt seed k ∧ UpTo k v (randTgtF seed) e.2)
    (fun m (s : Int × ℝ) => (randomF s.1).bind fun p => (fget w (m + 1)).map fun x => (p.1, worse |x - p.2| s.2)) N
    (seed, 0) ⟨rfl, UpTo.zero v _⟩ (by
      rintro k hk ⟨s, e⟩ ⟨rfl, he⟩
      simp only [randomF_seedAt h0 h1, Option.bind_some, fget, add_sub_cancel_right]
      rw [hw k (by omega) (by omega)]
      exact ⟨_, rfl, rfl, he.next⟩)
  refine ⟨e.2, by rw [hN, k1]; rfl, ?_⟩
  exact k2.2.checks (Or.inl hN.symm)

theorem DriverF.zeroF_eq (n : Int) : zeroF n = fillZero n := by
  funext w
  unfold zeroF fillZero
  simp only [fset, add_sub_cancel_right]

theorem DriverF.checkZeroF_eq (n : Int) : checkZeroF n = checkZero n := by
  funext w
  unfold checkZeroF checkZero
  simp only [fget, add_sub_cancel_right]

theorem DriverF.checkAtF_eq {γ : Type} (n : Int) (pt : Int → Option γ) (val : γ → ℝ) : checkAtF n pt val = checkAt n pt val := by
  funext w
  unfold checkAtF checkAt
  simp only [fget, add_sub_cancel_right]
  have : ∀ m : Int, 2 * m + 2 - 1 = 2 * m + 1 := by intro m; ring
  simp only [this]

/-- The data that `initialize` should store: zeros, or the numbers that begin with `seedinit + me`. -/
def DriverF.startF (i : Init) (me : Nat) (x : Int) : ℝ :=
  match i with
  | .random n => (16807 ^ (x.toNat + 1) * (n + me) % 2147483647 : Int) / 2 ^ 31
  | _ => 0

/-- What `validate` compares with: the numbers that begin with `seedinit`. -/
def DriverF.checkTgt (i : Init) (x : Int) : ℝ := startF i 0 x

/-- Zero or random: all that the command line can choose, see `C65_words`. -/
def DriverF.Plain0 (i : Init) : Prop := i = .zero ∨ ∃ n, i = .random n

theorem DriverF.init3_fills {o : Opt3} {me : Nat} {b : Box3} (hi : Plain0 o.iflag) (hs : SeedOk o.iflag me) :
    Fills (nfft3 b) (initialize3 o me b) (startF o.iflag me) := by
  intro w hw
  unfold initialize3
  rcases hi with hi | ⟨n, hi⟩
  · rw [hi]
    simp only [zeroF_eq]
    exact fillZero_fills _ w hw
  · rw [hi]
    exact fillRandomF_fills (hs n hi).1 (hs n hi).2 _ w hw

theorem DriverF.init2_fills {o : Opt2} {me : Nat} {b : Box2} (hi : Plain0 o.iflag) (hs : SeedOk o.iflag me) :
    Fills (nfft2 b) (initialize2 o me b) (startF o.iflag me) := by
  intro w hw
  unfold initialize2
  rcases hi with hi | ⟨n, hi⟩
  · rw [hi]
    simp only [zeroF_eq]
    exact fillZero_fills _ w hw
  · rw [hi]
    exact fillRandomF_fills (hs n hi).1 (hs n hi).2 _ w hw

theorem DriverF.val3_checks {o : Opt3} {b : Box3} (hi : Plain0 o.iflag) (hs : SeedOk o.iflag 0) :
    Checks (nfft3 b) (validate3 o b) (checkTgt o.iflag) := by
  intro w v hw
  unfold validate3
  rcases hi with hi | ⟨n, hi⟩
  · rw [hi]
    simp only [checkZeroF_eq]
    exact checkZero_checks _ w v hw
  · have := hs n hi
    rw [hi]
    have e : checkTgt (.random n) = randTgtF n := by
      funext x
      unfold checkTgt startF randTgtF
      simp
    rw [e]
    exact checkRandomF_checks (by simpa using this.1) (by simpa using this.2) _ w v hw

theorem DriverF.val2_checks {o : Opt2} {b : Box2} (hi : Plain0 o.iflag) (hs : SeedOk o.iflag 0) :
    Checks (nfft2 b) (validate2 o b) (checkTgt o.iflag) := by
  intro w v hw
  unfold validate2
  rcases hi with hi | ⟨n, hi⟩
  · rw [hi]
    simp only [checkZeroF_eq]
    exact checkZero_checks _ w v hw
  · have := hs n hi
    rw [hi]
    have e : checkTgt (.random n) = randTgtF n := by
      funext x
      unfold checkTgt startF randTgtF
      simp
    rw [e]
    exact checkRandomF_checks (by simpa using this.1) (by simpa using this.2) _ w v hw

/-- **C65 (`initialize`, partial).**  The data are zeros or the numbers of the generator, inside of the array.  Missing:
the other two kinds of data, see `C65_initialize_false` and `C65_initialize_2d`; the command line cannot choose them. -/
theorem C65_initialize_partial {o : Opt3} {P : Nat} (ho : o.Accepted P) (hi : Plain0 o.iflag) {r : Nat} (hr : r < P)
    {b : Box3} (hb : b.Proper) {w : Mem ℝ} (hw : accessible w 0 (2 * b.count)) :
    ∃ w', initialize3 o r b w = some w' ∧ (∀ x, ¬(0 ≤ x ∧ x < 2 * b.count) → w' x = w x) ∧
      ∀ x : Nat, (x : Int) < 2 * b.count →
        (o.iflag = .zero → w' x = some 0) ∧
        (∀ n, o.iflag = .random n → w' x = some (((16807 ^ (x + 1) * (n + r) % 2147483647 : Int) : ℝ) / 2 ^ 31)) := by
  have h := init3_fills (b := b) hi (seedOk3 ho hr)
  rw [nfft3_eq hb] at h
  refine ⟨_, h w hw, fun x hx => if_neg hx, fun x hx => ⟨fun hz => ?_, fun n hn => ?_⟩⟩
  · rw [if_pos ⟨by omega, hx⟩, hz]
    rfl
  · rw [if_pos ⟨by omega, hx⟩, hn]
    rfl

/-- **C65 (`initialize` with `step` or `index`, 3d).**  The assignments begin one element before the array. -/
theorem C65_initialize_false {o : Opt3} (hi : o.iflag = .step ∨ o.iflag = .index) (r : Nat) {b : Box3} (hb : b.Proper)
    (hn : 0 < b.count) {w : Mem ℝ} (hw : w (-1) = none) : initialize3 o r b w = none := by
  have key : ∀ val : Int × Int × Int → ℝ, fillAtF (nfft3 b) (point3 b) val w = none := by
    intro val
    unfold fillAtF
    rw [nfft3_eq hb]
    obtain ⟨i, j, k, _, _, hp⟩ := point3_ok hb (m := 0) le_rfl (by rw [nfft3_eq hb]; exact hn)
    refine forN_first hn ?_
    rw [hp]
    simp [fset, Mem.set, hw]
  unfold initialize3
  rcases hi with hi | hi <;> rw [hi] <;> exact key _

theorem DriverF.fset_eq {w : Mem ℝ} {i : Int} (h : (w (i - 1)).isSome) (v : ℝ) :
    fset w i v = some (Function.update w (i - 1) (some v)) := set_some h v

/-- The array after `k` passes of the loop of `step`. -/
def DriverF.stepMem (o : Opt2) (b : Box2) (w : Mem ℝ) (k : Int) (x : Int) : Option ℝ :=
  if 0 ≤ x ∧ x < 2 * k then
    if x % 2 = 0 then some (((point2 b (x / 2)).map (stepAt2 o)).getD 0)
    else if ((point2 b (x / 2)).map (stepAt2 o)).getD 0 = 1 then w x else some 0
  else w x

theorem DriverF.fillStepF2_eq {o : Opt2} {b : Box2} (hb : b.Proper) {w : Mem ℝ} (hw : accessible w 0 (2 * nfft2 b)) :
    fillStepF2 o (nfft2 b) (point2 b) w = some (stepMem o b w (nfft2 b)) := by
  unfold fillStepF2
  rcases le_or_gt (nfft2 b) 0 with hn | hn
  · rw [forN_neg hn]
    congr 1
    funext x
    unfold stepMem
    rw [if_neg (by omega)]
  obtain ⟨N, hN⟩ := Int.eq_ofNat_of_zero_le hn.le
  obtain ⟨w', h1, h2⟩ := forN_inv (fun k (u : Mem ℝ) => u = stepMem o b w k)
    (fun m w => (point2 b m).bind fun g =>
      if g.1 < (o.nx / 2 : Nat) ∧ g.2 < (o.ny / 2 : Nat) then fset w (2 * m + 1) 1
      else (fset w (2 * m + 1) 0).bind fun w => fset w (2 * m + 2) 0) N w
    (by funext x; unfold stepMem; rw [if_neg (by omega)]) (by
      rintro k hk u rfl
      obtain ⟨i, j, _, _, hp⟩ := point2_ok hb (m := (k : Int)) (by omega) (by omega)
      refine ⟨_, ?_, rfl⟩
      have a0 : stepMem o b w k (2 * k) = w (2 * k) := by unfold stepMem; rw [if_neg (by omega)]
      have a1 : stepMem o b w k (2 * k + 1) = w (2 * k + 1) := by unfold stepMem; rw [if_neg (by omega)]
      have s0 : (w (2 * k)).isSome := hw _ (by omega) (by omega)
      have s1 : (w (2 * k + 1)).isSome := hw _ (by omega) (by omega)
      have d0 : (2 * (k : Int)) / 2 = k := by omega
      have d1 : (2 * (k : Int) + 1) / 2 = k := by omega
      have far : ∀ x : Int, x ≠ 2 * k → x ≠ 2 * k + 1 → stepMem o b w ((k + 1 : Nat) : Int) x = stepMem o b w k x := by
        intro x h1 h2
        unfold stepMem
        by_cases hx : 0 ≤ x ∧ x < 2 * (k : Int)
        · rw [if_pos hx, if_pos (by push_cast; omega)]
        · rw [if_neg hx, if_neg (by push_cast; omega)]
      have n0 : stepMem o b w ((k + 1 : Nat) : Int) (2 * k) = some (stepAt2 o (i, j)) := by
        unfold stepMem
        rw [if_pos (by push_cast; omega), if_pos (by omega), d0, hp]
        rfl
      have n1 : stepMem o b w ((k + 1 : Nat) : Int) (2 * k + 1) =
          if stepAt2 o (i, j) = 1 then w (2 * k + 1) else some 0 := by
        unfold stepMem
        rw [if_pos (by push_cast; omega), if_neg (by omega), d1, hp]
        rfl
      rw [hp, Option.bind_some]
      by_cases hg : i < (o.nx / 2 : Nat) ∧ j < (o.ny / 2 : Nat)
      · have v : stepAt2 o (i, j) = 1 := by unfold stepAt2; rw [if_pos hg]
        rw [if_pos hg, fset_eq (by rw [add_sub_cancel_right, a0]; exact s0)]
        congr 1
        funext x
        rw [add_sub_cancel_right]
        by_cases h1 : x = 2 * k
        · rw [h1, Function.update_self, n0, v]
        · rw [Function.update_of_ne h1]
          by_cases h2 : x = 2 * k + 1
          · rw [h2, a1, n1, if_pos v]
          · exact (far x h1 h2).symm
      · have v : stepAt2 o (i, j) = 0 := by unfold stepAt2; rw [if_neg hg]
        have e2 : 2 * (k : Int) + 2 - 1 = 2 * k + 1 := by ring
        rw [if_neg hg, fset_eq (by rw [add_sub_cancel_right, a0]; exact s0), Option.bind_some, add_sub_cancel_right,
          fset_eq (by rw [e2, Function.update_of_ne (by omega), a1]; exact s1)]
        congr 1
        funext x
        rw [e2]
        by_cases h2 : x = 2 * k + 1
        · rw [h2, Function.update_self, n1, if_neg (by rw [v]; norm_num)]
        · rw [Function.update_of_ne h2]
          by_cases h1 : x = 2 * k
          · rw [h1, Function.update_self, n0, v]
          · rw [Function.update_of_ne h1]
            exact (far x h1 h2).symm)
  rw [hN, h1, h2]

/-- **C65 (`initialize` in test2d_f90).**  `index` is right.  `step` stores the real parts, and zero in the imaginary parts
of the points where the real part is zero; the imaginary parts of the other points are not set. -/
theorem C65_initialize_2d {o : Opt2} {P : Nat} (ho : o.Accepted P) {r : Nat} (hr : r < P) {b : Box2} (hb : b.Proper)
    {w : Mem ℝ} (hw : accessible w 0 (2 * b.count)) :
    (o.iflag = .index → ∃ w', initialize2 o r b w = some w' ∧ HoldsBox2 0 b (fun i j => ((i + j + 1 : Int) : ℂ)) w') ∧
    (o.iflag = .step → ∃ w', initialize2 o r b w = some w' ∧ ∀ i j, b.Has i j →
      if i < (o.nx / 2 : Nat) ∧ j < (o.ny / 2 : Nat) then
        w' (addr2 0 b 2 i j 0) = some 1 ∧ w' (addr2 0 b 2 i j 1) = w (addr2 0 b 2 i j 1)
      else w' (addr2 0 b 2 i j 0) = some 0 ∧ w' (addr2 0 b 2 i j 1) = some 0) := by
  constructor
  · intro hi
    obtain ⟨w', h1, h2, _⟩ := C61_initialize_2d (rnd := id) ho hr hb hw
    refine ⟨w', ?_, ?_⟩
    · rw [← h1]
      unfold initialize2 Opt2.initialize
      rw [hi]
      dsimp only
      unfold fillIndexF2 fillAt fset
      have : ∀ m : Int, 2 * m + 2 - 1 = 2 * m + 1 := by intro m; ring
      simp only [add_sub_cancel_right, this]
    · unfold Opt2.Data at h2
      rw [hi] at h2
      exact h2
  · intro hi
    refine ⟨_, by unfold initialize2; rw [hi]; exact fillStepF2_eq hb (by rw [nfft2_eq hb]; exact hw), ?_⟩
    intro i j hh
    have h1 := addr2_range (permute := 0) (Or.inl rfl) (nqty := 1) (q := 0) hh (by decide)
    have h3 : ∀ q, addr2 0 b 2 i j q = 2 * addr2 0 b 1 i j 0 + q := by
      intro q
      rw [← addr2_lift (Or.inl rfl), ← addr2_lift (Or.inl rfl), addr3_two]
    have hn := nfft2_eq hb
    have hp := point2_addr hh
    have d0 : (2 * addr2 0 b 1 i j 0) / 2 = addr2 0 b 1 i j 0 := by omega
    have d1 : (2 * addr2 0 b 1 i j 0 + 1) / 2 = addr2 0 b 1 i j 0 := by omega
    have n0 : stepMem o b w (nfft2 b) (2 * addr2 0 b 1 i j 0) = some (stepAt2 o (i, j)) := by
      unfold stepMem
      rw [if_pos (by omega), if_pos (by omega), d0, hp]
      rfl
    have n1 : stepMem o b w (nfft2 b) (2 * addr2 0 b 1 i j 0 + 1) =
        if stepAt2 o (i, j) = 1 then w (2 * addr2 0 b 1 i j 0 + 1) else some 0 := by
      unfold stepMem
      rw [if_pos (by omega), if_neg (by omega), d1, hp]
      rfl
    rw [h3, h3, add_zero, n0, n1]
    by_cases hg : i < (o.nx / 2 : Nat) ∧ j < (o.ny / 2 : Nat)
    · have v : stepAt2 o (i, j) = 1 := by unfold stepAt2; rw [if_pos hg]
      rw [if_pos hg, v, if_pos rfl]
      exact ⟨rfl, rfl⟩
    · have v : stepAt2 o (i, j) = 0 := by unfold stepAt2; rw [if_neg hg]
      rw [if_neg hg, v, if_neg zero_ne_one]
      exact ⟨rfl, rfl⟩

/-- A box of test2d_f90 and an array of eight elements that hold old values. -/
example : (⟨1, 2, 1, 2⟩ : Box2).Proper ∧ accessible (fun x => if 0 ≤ x ∧ x < 8 then some (5 : ℝ) else none) 0
    (2 * (⟨1, 2, 1, 2⟩ : Box2).count) ∧ (⟨1, 2, 1, 2⟩ : Box2).Has 1 1 := by
  refine ⟨by simp [Box2.Proper, Box2.isize, Box2.jsize], ?_, by simp [Box2.Has]⟩
  intro x h0 h1
  have : (⟨1, 2, 1, 2⟩ : Box2).count = 4 := by decide
  rw [this] at h1
  simp only
  rw [if_pos ⟨h0, by omega⟩]
  rfl

/-- **C65 (`output`).**  The values printed begin one element before the array: undefined on every rank with points. -/
theorem C65_output_false {b b' : Box3} (hb : b.Proper) (hn : 0 < b.count) {w : Mem ℝ} (hw : w (-1) = none)
    (flag : Nat) : outputF3 flag b b' w = none := by
  unfold outputF3 printedF
  rw [nfft3_eq hb]
  refine forN_first hn ?_
  rcases point3 (if flag = 0 then b else b') 0 with _ | g
  · rfl
  · simp [fget, hw]

theorem C65_output_2d_false {b b' : Box2} (hb : b.Proper) (hn : 0 < b.count) {w : Mem ℝ} (hw : w (-1) = none)
    (flag : Nat) : outputF2 flag b b' w = none := by
  unfold outputF2 printedF
  rw [nfft2_eq hb]
  refine forN_first hn ?_
  rcases point2 (if flag = 0 then b else b') 0 with _ | g
  · rfl
  · simp [fget, hw]

/-- **C65 (which values `output` prints).**  Were the element before the array accessible, then the lines would be those
of test3d.cpp for an array moved by one element: each point would have the imaginary part of the point before it and its own
real part. -/
theorem C65_output_shift {b : Box3} (b' : Box3) (hb : b.Proper) {w : Mem ℝ} (hw : accessible w (-1) (2 * b.count)) :
    ∃ l, outputF3 0 b b' w = some l ∧ Lines3 0 b (fun x => w (x - 1)) l :=
  C63_output (w := fun x => w (x - 1)) b' hb fun x h0 h1 => hw (x - 1) (by omega) (by omega)

theorem C65_output_shift_2d {b : Box2} (b' : Box2) (hb : b.Proper) {w : Mem ℝ} (hw : accessible w (-1) (2 * b.count)) :
    ∃ l, outputF2 0 b b' w = some l ∧ Lines2 0 b (fun x => w (x - 1)) l :=
  C63_output_2d (w := fun x => w (x - 1)) b' hb fun x h0 h1 => hw (x - 1) (by omega) (by omega)

/-- A box of one point. -/
example : (⟨0, 0, 0, 0, 0, 0⟩ : Box3).Proper ∧ accessible (fun _ => some (1 : ℝ)) (-1)
    (2 * (⟨0, 0, 0, 0, 0, 0⟩ : Box3).count) := ⟨by simp [Box3.Proper, Box3.isize, Box3.jsize, Box3.ksize], fun _ _ _ => rfl⟩

/-- **C65 (`-v`).**  The error is computed only without `-v` and printed only with it: with `-v` the program prints a
variable that has no value, without `-v` nothing. -/
theorem C65_report_false (check : Option ℝ) :
    report true check = none ∧ report false check = check.map fun _ => none := by
  constructor
  · rfl
  · cases check <;> rfl

/-! ## The programs -/

/-- Two numbers with different seeds are different. -/
theorem DriverF.start_ne {n : Int} {r : Nat} (h0 : 0 < n) (hr : 0 < r) (h1 : n + (r : Int) < 2147483647) :
    startF (.random n) r 0 ≠ checkTgt (.random n) 0 := by
  unfold checkTgt startF
  simp only [Int.toNat_zero, zero_add, pow_one]
  intro h
  have h' : ((16807 * (n + (r : Int)) % 2147483647 : Int) : ℝ) = ((16807 * (n + ((0 : Nat) : Int)) % 2147483647 : Int) : ℝ) := by
    have := (div_left_inj' (show (2 ^ 31 : ℝ) ≠ 0 by norm_num)).mp h
    exact this
  have h2 := Int.cast_injective h'
  omega

theorem DriverF.nfft_fromOne (b : Box3) : nfft3 (fromOne b) = nfft3 b := by
  unfold nfft3 fromOne Box3.isize Box3.jsize Box3.ksize
  simp

/-- The largest difference is zero if and only if the data are zero or only the first rank has points. -/
theorem DriverF.eps_iff {P : Nat} {i : Init} (hi : Plain0 i)
    (hs : ∀ n, i = .random n → ∀ r < P, 0 < n + (r : Int) ∧ n + (r : Int) < 2147483647) {cnt : Nat → Int}
    (h0 : ∀ r < P, 0 ≤ cnt r) {eps : ℝ}
    (h1 : ∀ r < P, ∀ x, 0 ≤ x → x < 2 * cnt r → |startF i r x - checkTgt i x| ≤ eps)
    (h2 : eps = 0 ∨ ∃ r < P, ∃ x, 0 ≤ x ∧ x < 2 * cnt r ∧ eps = |startF i r x - checkTgt i x|) :
    eps = 0 ↔ i = .zero ∨ ∀ r < P, 0 < r → cnt r = 0 := by
  constructor
  · intro he
    rcases hi with hi | ⟨n, hi⟩
    · exact Or.inl hi
    · right
      intro r hr hr0
      by_contra hc
      have := h0 r hr
      have k := h1 r hr 0 le_rfl (by omega)
      rw [he] at k
      have k' := abs_eq_zero.mp (le_antisymm k (abs_nonneg _))
      subst hi
      have s0 := hs n rfl 0 (by omega)
      exact start_ne (by simpa using s0.1) hr0 (hs n rfl r hr).2 (sub_eq_zero.mp k')
  · intro h
    rcases h2 with h2 | ⟨r, hr, x, hx, hx', h2⟩
    · exact h2
    · rw [h2]
      rcases h with h | h
      · subst h
        simp [checkTgt, startF]
      · by_cases hr0 : r = 0
        · subst hr0
          simp [checkTgt]
        · have := h r hr (by omega)
          omega

/-- **C65 (validation, 3d, partial).**  With the data that the command line can choose, and boxes that `setup` gets
counted from zero, the program runs to the end on all ranks, and the transforms restore the data: the error is zero if the
data are zero or only rank 0 has points.  In all other cases it is not: `validate` compares with the numbers of rank 0 on
every rank.  Missing: no rank may have more points on input than on output, as for test3d.cpp, and `-i step`, `-i index`. -/
theorem C65_run_partial {o : Opt3} {P : Nat} (ho : o.Accepted P) (hm : o.mode < 2) (hi : Plain0 o.iflag)
    (hM : ∀ n, o.iflag = .random n → n + (P : Int) ≤ 2147483647) {a : Args3} {b : Nat → Box3}
    (hab : ∀ r < P, a.ins r = fromOne (b r)) {f : Nat → Fft3 ℝ} (S : SetUp3 P a o.settings f) (e : Bool)
    (J J' : Nat → Nat → Nat → Junk) {m : Nat → LMem ℝ} (hb : Bufs P f 0 m) (hr : RoomBack P a o.settings m)
    (hio : o.rflag = true ∨ o.nloop = 0 ∨ ∀ r < P, (a.ins r).count ≤ (a.outs r).count) :
    ∃ m' eps, Terminates e P (fun r => run3F o r (b r) (f r) (J r) (J' r)) m m' ∧
      epsmax P (fun r => validate3 o (b r) ((m' r).ub 0)) = some eps ∧
      (eps = 0 ↔ o.iflag = .zero ∨ ∀ r < P, 0 < r → (a.ins r).count = 0) := by
  have hs : ∀ r < P, 0 ≤ (a.ins r).count ∧ (a.ins r).count ≤ fsz f r := by
    obtain ⟨c, rfl, rfl, _, _, R⟩ := S.ready
    exact fun r hr => ⟨count_nonneg _, R.size_ins hr⟩
  have hn : ∀ r < P, nfft3 (b r) = (a.ins r).count := by
    intro r hr
    rw [← nfft_fromOne, ← hab r hr, nfft3_eq (S.args.properIn r hr).1]
  have hf : ∀ r < P, Fills (a.ins r).count (initialize3 o r (b r)) (startF o.iflag r) := by
    intro r hr
    rw [← hn r hr]
    exact init3_fills hi (seedOk3 ho hr)
  have hc : ∀ r < P, Checks (a.ins r).count (validate3 o (b r)) (checkTgt o.iflag) := by
    intro r hr
    rw [← hn r hr]
    exact val3_checks hi (seedOk3 ho ho.procs)
  obtain ⟨m1, s1, h1⟩ := fillStep e (size := fsz f) (m := m) hs hb.data hf
  obtain ⟨m2, s2, h2⟩ := loop3_ok S e J J' o.rflag hm h1 (hb.congr s1.dom) (hr.congr s1.dom) o.nloop
  have h2' : Vals P (fun r => (a.ins r).count) (fun r => startF o.iflag r) m2 := h2.congr fun r hr x hx hx' => by
    rw [passFactor_one (hio.imp_right fun h => h.imp_right fun h => h r hr) hx', one_mul]
  obtain ⟨eps, h3, _, h5, h6⟩ := eps_all ho.procs h2' hc
  refine ⟨m2, eps, ((s1.append s2).congr fun r _ => rfl).ok.terminates, h3, ?_⟩
  exact eps_iff hi (fun n hn r hr => ⟨(ho.seed n hn r hr).1, by have := hM n hn; omega⟩) (fun r hr => (hs r hr).1) h5 h6

theorem C65_run_2d_partial {o : Opt2} {P : Nat} (ho : o.Accepted P) (hm : o.mode < 2) (hi : Plain0 o.iflag)
    (hM : ∀ n, o.iflag = .random n → n + (P : Int) ≤ 2147483647) {w : Int} {a : Args2} {b : Nat → Box2}
    (hab : ∀ r < P, a.ins r = ⟨(b r).ilo - 1, (b r).ihi - 1, (b r).jlo - 1, (b r).jhi - 1⟩) {f : Nat → Fft2 ℝ}
    (S : SetUp2 w P a o.settings f) (e : Bool)
    (J J' : Nat → Nat → Nat → Junk) {m : Nat → LMem ℝ} (hb : Bufs2 P f 0 m)
    (hio : o.rflag = true ∨ o.nloop = 0 ∨ ∀ r < P, (a.ins r).count ≤ (a.outs r).count) :
    ∃ m' eps, Terminates e P (fun r => run2F o r (b r) (f r) (J r) (J' r)) m m' ∧
      epsmax P (fun r => validate2 o (b r) ((m' r).ub 0)) = some eps ∧
      (eps = 0 ↔ o.iflag = .zero ∨ ∀ r < P, 0 < r → (a.ins r).count = 0) := by
  have hs : ∀ r < P, 0 ≤ (a.ins r).count ∧ (a.ins r).count ≤ fsz2 f r := by
    obtain ⟨c, rfl, rfl, rfl, _, _, R⟩ := S.ready
    exact fun r hr => ⟨by rw [← Box2.lift_count]; exact count_nonneg _, R.size_ins hr⟩
  have hn : ∀ r < P, nfft2 (b r) = (a.ins r).count := by
    intro r hr
    rw [← nfft2_eq (S.args.properIn r hr).1, hab r hr]
    unfold nfft2 Box2.isize Box2.jsize
    simp
  have hf : ∀ r < P, Fills (a.ins r).count (initialize2 o r (b r)) (startF o.iflag r) := by
    intro r hr
    rw [← hn r hr]
    exact init2_fills hi (seedOk2 ho hr)
  have hc : ∀ r < P, Checks (a.ins r).count (validate2 o (b r)) (checkTgt o.iflag) := by
    intro r hr
    rw [← hn r hr]
    exact val2_checks hi (seedOk2 ho ho.procs)
  obtain ⟨m1, s1, h1⟩ := fillStep e (size := fsz2 f) (m := m) hs hb.data hf
  obtain ⟨m2, s2, h2⟩ := loop2_ok S e J J' o.rflag hm h1 (hb.congr s1.dom) o.nloop
  have h2' : Vals P (fun r => (a.ins r).count) (fun r => startF o.iflag r) m2 := h2.congr fun r hr x hx hx' => by
    rw [passFactor_one (hio.imp_right fun h => h.imp_right fun h => h r hr) hx', one_mul]
  obtain ⟨eps, h3, _, h5, h6⟩ := eps_all ho.procs h2' hc
  refine ⟨m2, eps, ((s1.append s2).congr fun r _ => rfl).ok.terminates, h3, ?_⟩
  exact eps_iff hi (fun n hn r hr => ⟨(ho.seed n hn r hr).1, by have := hM n hn; omega⟩) (fun r hr => (hs r hr).1) h5 h6

/-- **C65 (test3d_f90 in mode 0).**  With the same processor grid for input and output (the default), supported sizes, and
at most `2^22` for the number of ranks times a size (the bricks are computed in single precision): `setup` succeeds on all
ranks, every execution with the memory that the program allocates runs to the end, and the error that `validate` finds is
zero exactly if the data are zero or only rank 0 has points. -/
theorem C65_test3d_partial {rnd rnd1 : ℝ → ℝ} (R : Rounding rnd) (R1 : Simple.Single rnd1) {o : Opt3} {P : Nat}
    (ho : o.Accepted P) (hx : Supported o.nx ∧ P * o.nx ≤ 2 ^ 22) (hy : Supported o.ny ∧ P * o.ny ≤ 2 ^ 22)
    (hz : Supported o.nz ∧ P * o.nz ≤ 2 ^ 22) (hi : Plain0 o.iflag)
    (hM : ∀ n, o.iflag = .random n → n + (P : Int) ≤ 2147483647) (hm : o.mode = 0) (hp : o.pin = o.pout) :
    ∃ (a : Args3) (p : Nat × Nat × Nat) (f : Nat → Fft3 ℝ), args3 rnd rnd1 o P = some a ∧ o.inGrid rnd P = some p ∧
      (∀ r < P, fft3Setup P r a o.settings = some (.ok (f r))) ∧
      ∀ (e : Bool) (J J' : Nat → Nat → Nat → Junk) (m : Nat → LMem ℝ),
        (∀ r < P, accessible ((m r).ub 0) 0 (2 * (f r).fftsize) ∧ accessible (m r).sb 0 (f r).sendsize ∧
          accessible (m r).rb 0 (f r).recvsize) →
        ∃ m' eps,
          Terminates e P (fun r => run3F o r (box3F rnd1 p o.nx o.ny o.nz r) (f r) (J r) (J' r)) m m' ∧
          epsmax P (fun r => validate3 o (box3F rnd1 p o.nx o.ny o.nz r) ((m' r).ub 0)) = some eps ∧
          (eps = 0 ↔ o.iflag = .zero ∨ ∀ r < P, 0 < r → (a.ins r).count = 0) := by
  obtain ⟨p, h1, h2⟩ := inGrid3_ok R ho
  have hgrid : o.outGrid rnd P = some p := by
    rw [← h1]
    unfold Opt3.inGrid Opt3.outGrid
    rw [hp, if_pos (Or.inl hm)]
  have ha : args3 rnd rnd1 o P =
      some (Simple.args rnd o.nx o.ny o.nz fun r => Simple.fromOne (Simple.boxF rnd1 p o.nx o.ny o.nz r)) := by
    unfold args3
    rw [h1, hgrid, Option.bind_some, Option.map_some, if_pos (Or.inl hm)]
    rfl
  have hv := C64_bricks_f90_partial R1
    (⟨(Nat.le_mul_of_pos_right _ ho.nx.1).trans (hx.2.trans (by norm_num)), R.rel⟩ : FpOK P rnd) ho.procs hx hy hz h2
  have hst : o.settings.Valid := by
    unfold Settings.Valid Opt3.settings
    exact ho.pflag
  obtain ⟨f, S⟩ := setUp3_exists hv hst
  refine ⟨_, p, f, ha, h1, S.result, ?_⟩
  intro e J J' m hmem
  exact C65_run_partial ho (by omega) hi hM (b := fun r => box3F rnd1 p o.nx o.ny o.nz r) (fun r _ => rfl) S e J J'
    ⟨fun r hr => (hmem r hr).1, fun r hr => (hmem r hr).2.1, fun r hr => (hmem r hr).2.2⟩
    (Or.inr (Or.inl ⟨rfl, fun r _ => rfl⟩)) (Or.inr (Or.inr fun r _ => le_rfl))

/-- Random data on 7 ranks, for rounding to 53 and to 24 binary digits: the hypotheses of `C65_test3d_partial`. -/
example : let o : Opt3 := { default3 with iflag := .random 1, nloop := 10, nx := 60 }
    Rounding rnd53 ∧ Simple.Single Simple.rnd24 ∧ o.Accepted 7 ∧ (Supported o.nx ∧ 7 * o.nx ≤ 2 ^ 22) ∧
      (Supported o.ny ∧ 7 * o.ny ≤ 2 ^ 22) ∧ Plain0 o.iflag ∧ o.mode = 0 ∧ o.pin = o.pout :=
  ⟨rounding53, Simple.single24, { default3_accepted (P := 7) (by decide) with
      nx := by decide
      seed := by
        intro n hn r hr
        cases hn
        omega }, ⟨supported_of (k := 3) (by decide) (by decide), by decide⟩,
    ⟨supported_of (k := 3) (by decide) (by decide), by decide⟩, Or.inr ⟨1, rfl⟩, rfl, rfl⟩

/-- **C65 (timing of the fourth remap).**  `timing` calls `fft3d_only_one_remap` with `which = 5` for the way back in modes
0 and 1 and for the way forward in modes 2 and 3 (test3d_f90.f90:961, 965): nothing is executed. -/
theorem C65_remap4_false (f : Fft3 ℝ) (flag : Int) (ai ao : Nat) : f.onlyOneRemap flag 5 ai ao = [] := by
  unfold Fft3.onlyOneRemap
  simp

end FftMpi
