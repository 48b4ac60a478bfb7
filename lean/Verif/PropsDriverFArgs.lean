import Verif.PropsDriverPy

/-!
# C65: the command line of the Fortran test programs

Compared with that of the C++ programs, which C62 is about.
-/

noncomputable section

namespace FftMpi

open Driver DriverF DriverPy

/-! ## Specification -/

/-- A word that can be read as an integer: at most ten characters. -/
def DriverF.Number (s : String) : Prop := s.length ≤ 10 ∧ (readI s).isSome

/-- The numbers are where they must be: no argument contains a blank, the words after the options that are
followed by numbers can be read as numbers. -/
structure DriverF.Readable (three : Bool) (neg : String → Bool) (args : List String) : Prop where
  blank : ∀ s ∈ args, ' ' ∉ s.toList
  grid : ∀ i w s, args[i]? = some w → (w = "-g" ∨ w = "-pin" ∨ w = "-pout") →
    (args[i + 1]? = some s ∨ args[i + 2]? = some s ∨ (three = true ∧ args[i + 3]? = some s)) → Number s
  one : ∀ i w s, args[i]? = some w → (w = "-n" ∨ w = "-m" ∨ w = "-i") → args[i + 1]? = some s → Number s
  tune : ∀ i s, args[i]? = some "-tune" → (args[i + 1]? = some s ∨ args[i + 3]? = some s) → Number s
  tmax : ∀ i s, args[i]? = some "-tune" → args[i + 2]? = some s → ∃ x, readF s = some x ∧ neg s = decide (x < 0)

/-- The variables that the C++ program has, too. -/
def DriverF.low : Out Cmd1 → Out Cmd
  | .error e => .error e
  | .ok o => .ok o.toCmd

/-! ## Words and numbers -/

namespace DriverF

theorem isWord_iff {s w : String} (hs : ' ' ∉ s.toList) (hw : w.length < 32) : isWord s w = true ↔ s = w := by
  have e : ((s.toList.take 32).reverse.dropWhile (· = ' ')).reverse = s.toList.take 32 := by
    have hn : (s.toList.take 32).reverse.dropWhile (· = ' ') = (s.toList.take 32).reverse := by
      cases h : (s.toList.take 32).reverse with
      | nil => rfl
      | cons c t =>
        rw [List.dropWhile_cons_of_neg]
        have hc : c ∈ s.toList := by
          have : c ∈ (s.toList.take 32).reverse := by rw [h]; simp
          exact List.mem_of_mem_take (List.mem_reverse.mp this)
        simp only [decide_eq_true_eq]
        rintro rfl
        exact hs hc
    rw [hn, List.reverse_reverse]
  unfold isWord
  rw [e, decide_eq_true_eq]
  constructor
  · intro h
    have hl : (s.toList.take 32).length < 32 := by rw [h, String.length_toList]; exact hw
    rw [List.length_take] at hl
    rw [List.take_of_length_le (by omega)] at h
    exact String.toList_inj.mp h
  · rintro rfl
    exact List.take_of_length_le (by rw [String.length_toList]; omega)

theorem readI_atoi {s : String} (hb : ' ' ∉ s.toList) (h : Number s) : readI s = atoi s := by
  obtain ⟨hl, hr⟩ := h
  have e : (s.toList.take 10).filter (· ≠ ' ') = s.toList := by
    rw [List.take_of_length_le (by rw [String.length_toList]; exact hl), List.filter_eq_self]
    intro c hc
    simp only [decide_eq_true_eq]
    rintro rfl
    exact hb hc
  have dig : ∀ l x, allDigits 0 l = some x → digits 0 l = x := by
    intro l x hx
    have := digits_of_all (rest := []) (fun c hc => by cases hc) l 0 x hx
    rwa [List.append_nil] at this
  have notsp : ∀ c t, isSpace c = false → (c :: t).dropWhile isSpace = c :: t := by
    intro c t h
    rw [List.dropWhile_cons_of_neg]
    rw [h]
    decide
  unfold readI at hr ⊢
  unfold atoi
  rw [e] at hr ⊢
  generalize s.toList = l at hr
  split at hr
  · rename_i c t
    rw [notsp _ _ (by decide)]
    simp only
    cases ha : allDigits 0 (c :: t) with
    | none => rw [ha] at hr; cases hr
    | some x => rw [dig _ _ ha]; rfl
  · rename_i c t
    rw [notsp _ _ (by decide)]
    simp only
    cases ha : allDigits 0 (c :: t) with
    | none => rw [ha] at hr; cases hr
    | some x => rw [dig _ _ ha]; rfl
  · rename_i h1 h2
    cases l with
    | nil => rfl
    | cons c t =>
      cases ha : allDigits 0 (c :: t) with
      | none => rw [ha] at hr; cases hr
      | some x =>
        have hc : '0' ≤ c ∧ c ≤ '9' := by
          by_contra hc
          simp only [allDigits, if_neg hc] at ha
          cases ha
        have hsp : isSpace c = false := by
          by_contra hsp
          have hsp : isSpace c = true := by simpa using hsp
          unfold isSpace at hsp
          simp only [decide_eq_true_eq] at hsp
          rcases hsp with rfl | rfl | rfl | rfl | rfl | rfl <;> revert hc <;> decide
        rw [notsp _ _ hsp]
        have hx := dig _ _ ha
        split
        · rename_i heq
          cases heq
          exact absurd hc (by decide)
        · rename_i heq
          cases heq
          exact absurd hc (by decide)
        · rw [hx]
          rfl

/-! ## The loop -/

/-- The variables of the C++ program after one pass. -/
def lowStep : Out (Nat × Cmd1) → Out (Nat × Cmd)
  | .error e => .error e
  | .ok (i, o) => .ok (i, o.toCmd)

variable {three : Bool} {neg : String → Bool} {P me : Nat} {args : List String}

theorem numF_eq (hb : ∀ s ∈ args, ' ' ∉ s.toList) {i : Nat} (h : ∀ s, args[i]? = some s → Number s) :
    numF args i = num args i := by
  unfold numF num argv
  cases hs : args[i]? with
  | none => rfl
  | some s => exact readI_atoi (hb s (List.mem_of_getElem? hs)) (h s hs)

theorem map_ite {c : Prop} [Decidable c] {γ δ : Type} {f : γ → δ} {x y : Option γ} :
    (if c then x else y).map f = if c then x.map f else y.map f := by split_ifs <;> rfl

theorem gridF_low (h : Readable three neg args) {iarg : Nat} {w : String} (hw : args[iarg]? = some w)
    (hw' : w = "-g" ∨ w = "-pin" ∨ w = "-pout") {set : Int → Int → Int → Cmd1} {set' : Int → Int → Int → Cmd}
    (hs : ∀ x y z, (set x y z).toCmd = set' x y z) :
    (gridF three args iarg set).map lowStep = grid three args iarg set' := by
  have e1 : numF args (iarg + 1) = num args (iarg + 1) :=
    numF_eq h.blank fun s hs => h.grid iarg w s hw hw' (Or.inl hs)
  have e2 : numF args (iarg + 2) = num args (iarg + 2) :=
    numF_eq h.blank fun s hs => h.grid iarg w s hw hw' (Or.inr (Or.inl hs))
  unfold gridF grid
  by_cases ht : three = true
  · have e3 : numF args (iarg + 3) = num args (iarg + 3) :=
      numF_eq h.blank fun s hs => h.grid iarg w s hw hw' (Or.inr (Or.inr ⟨ht, hs⟩))
    rw [if_pos ht, if_pos ht, map_ite, e1, e2, e3]
    split_ifs
    · rfl
    · cases num args (iarg + 1) <;> cases num args (iarg + 2) <;> cases num args (iarg + 3) <;>
        simp [lowStep, hs]
  · rw [if_neg ht, if_neg ht, map_ite, e1, e2]
    split_ifs
    · rfl
    · cases num args (iarg + 1) <;> cases num args (iarg + 2) <;> simp [lowStep, hs]

theorem oneF_low (h : Readable three neg args) {iarg : Nat} {w : String} (hw : args[iarg]? = some w)
    (hw' : w = "-n" ∨ w = "-m" ∨ w = "-i") {set : Int → Cmd1} {set' : Int → Cmd} (hs : ∀ x, (set x).toCmd = set' x) :
    (oneF args iarg set).map lowStep = one args iarg set' := by
  have e1 : numF args (iarg + 1) = num args (iarg + 1) :=
    numF_eq h.blank fun s hs => h.one iarg w s hw hw' hs
  unfold oneF one
  rw [map_ite, e1]
  split_ifs
  · rfl
  · cases num args (iarg + 1) <;> simp [lowStep, hs]

theorem find_lookup {s : String} (hs : ' ' ∉ s.toList) (l : List (String × Cmd1)) (hl : ∀ p ∈ l, p.1.length < 32) :
    (l.find? fun w => isWord s w.1).map (fun w => w.2.toCmd) = (l.map fun w => (w.1, w.2.toCmd)).lookup s := by
  induction l with
  | nil => rfl
  | cons p l ih =>
    have hp := isWord_iff hs (hl p (by simp))
    by_cases h : s = p.1
    · rw [List.find?_cons_of_pos (by rw [hp]; exact h), List.map_cons, ← h]
      simp
    · have h' : (s == p.1) = false := by simpa using h
      rw [List.find?_cons_of_neg (by rw [hp]; exact h), List.map_cons, List.lookup_cons, h']
      exact ih fun q hq => hl q (by simp [hq])

theorem choiceF_low (hb : ∀ s ∈ args, ' ' ∉ s.toList) {iarg : Nat} {l : List (String × Cmd1)}
    (hl : ∀ p ∈ l, p.1.length < 32) :
    (choiceF args iarg l).map lowStep = choice args iarg (l.map fun w => (w.1, w.2.toCmd)) := by
  unfold choiceF choice
  rw [map_ite]
  split_ifs
  · rfl
  · unfold argv
    cases hs : args[iarg + 1]? with
    | none => rfl
    | some s =>
      have := find_lookup (hb s (List.mem_of_getElem? hs)) l hl
      simp only [Option.map_some]
      rw [← this]
      cases l.find? fun w => isWord s w.1 <;> rfl

theorem readI_ne {s : String} (h : (readI s).isSome) : s ≠ "zero" ∧ s ≠ "step" ∧ s ≠ "index" := by
  refine ⟨?_, ?_, ?_⟩ <;> rintro rfl <;> revert h <;> decide

theorem initF_low (h : Readable three neg args) {iarg : Nat} (hw : args[iarg]? = some "-i") {o : Cmd1} :
    (initArgF me args iarg "-i" o).map lowStep = initArg me args iarg o.toCmd := by
  unfold initArgF initArg
  rw [map_ite]
  split_ifs with h1 h2 h3 h4
  · rfl
  · exact absurd h2 (by decide)
  · exact absurd h3 (by decide)
  · exact absurd h4 (by decide)
  · unfold numF argv
    cases hs : args[iarg + 1]? with
    | none => rfl
    | some s =>
      have hn := h.one iarg "-i" s hw (by decide) hs
      obtain ⟨k1, k2, k3⟩ := readI_ne hn.2
      simp only [Option.bind_some]
      rw [if_neg k1, if_neg k2, if_neg k3, readI_atoi (h.blank s (List.mem_of_getElem? hs)) hn]
      cases atoi s with
      | none => rfl
      | some v =>
        simp only [Option.bind_some]
        cases add32 v me <;> rfl

theorem tuneF_low (h : Readable three neg args) {iarg : Nat} (hw : args[iarg]? = some "-tune") {o : Cmd1} :
    (tuneArgF args iarg o).map lowStep = tuneArg neg args iarg o.toCmd := by
  have e1 : numF args (iarg + 1) = num args (iarg + 1) :=
    numF_eq h.blank fun s hs => h.tune iarg s hw (Or.inl hs)
  have e3 : numF args (iarg + 3) = num args (iarg + 3) :=
    numF_eq h.blank fun s hs => h.tune iarg s hw (Or.inr hs)
  unfold tuneArgF tuneArg
  rw [map_ite, e1, e3]
  split_ifs
  · rfl
  · unfold argv
    cases hs : args[iarg + 2]? with
    | none => cases num args (iarg + 1) <;> simp
    | some s =>
      obtain ⟨x, hx, hn⟩ := h.tmax iarg s hw hs
      cases num args (iarg + 1) <;> cases num args (iarg + 3) <;> simp [hx, hn, lowStep]

theorem stepF_low (h : Readable three neg args) (iarg : Nat) (o : Cmd1) :
    (argStepF three me args iarg o).map lowStep = argStep three neg me args iarg o.toCmd := by
  unfold argStepF argStep
  cases hs : argv args iarg with
  | none => rfl
  | some s =>
    have hs' : args[iarg]? = some s := hs
    have hb := h.blank s (List.mem_of_getElem? hs')
    have w : ∀ w : String, w.length < 32 → (isWord s w = true ↔ s = w) := fun w hw => isWord_iff hb hw
    simp only [Option.bind_some, w "-h" (by decide), w "-g" (by decide), w "-pin" (by decide), w "-pout" (by decide),
      w "-n" (by decide), w "-i" (by decide), w "-tune" (by decide), w "-m" (by decide), w "-c" (by decide),
      w "-e" (by decide), w "-p" (by decide), w "-t" (by decide), w "-r" (by decide), w "-o" (by decide),
      w "-v" (by decide), map_ite]
    refine if_congr Iff.rfl rfl ?_
    by_cases k : s = "-g"
    · rw [if_pos k, if_pos k]
      exact gridF_low h hs' (by simp [k]) fun _ _ _ => rfl
    rw [if_neg k, if_neg k]
    clear k
    by_cases k : s = "-pin"
    · rw [if_pos k, if_pos k]
      exact gridF_low h hs' (by simp [k]) fun _ _ _ => rfl
    rw [if_neg k, if_neg k]
    clear k
    by_cases k : s = "-pout"
    · rw [if_pos k, if_pos k]
      exact gridF_low h hs' (by simp [k]) fun _ _ _ => rfl
    rw [if_neg k, if_neg k]
    clear k
    by_cases k : s = "-n"
    · rw [if_pos k, if_pos k]
      exact oneF_low h hs' (by simp [k]) fun _ => rfl
    rw [if_neg k, if_neg k]
    clear k
    by_cases k : s = "-i"
    · rw [if_pos k, if_pos k]
      subst k
      exact initF_low h hs'
    rw [if_neg k, if_neg k]
    clear k
    by_cases k : s = "-tune"
    · rw [if_pos k, if_pos k]
      subst k
      exact tuneF_low h hs'
    rw [if_neg k, if_neg k]
    clear k
    by_cases k : s = "-m"
    · rw [if_pos k, if_pos k]
      exact oneF_low h hs' (by simp [k]) fun _ => rfl
    rw [if_neg k, if_neg k]
    clear k
    refine if_congr Iff.rfl (choiceF_low h.blank ?_) (if_congr Iff.rfl (choiceF_low h.blank ?_)
      (if_congr Iff.rfl (choiceF_low h.blank ?_) rfl))
    · simp [String.length]
    · simp [String.length]
    · simp [String.length]

theorem loopF_low (h : Readable three neg args) (n : Nat) : ∀ (iarg : Nat) (o : Cmd1),
    (argLoopF three me args n iarg o).map low = argLoop three neg me args n iarg o.toCmd := by
  induction n with
  | zero => intro iarg o; rfl
  | succ n ih =>
    intro iarg o
    unfold argLoopF argLoop
    rw [map_ite]
    refine if_congr Iff.rfl ?_ rfl
    rw [← stepF_low h iarg o]
    rcases argStepF three me args iarg o with _ | (e | ⟨i, o1⟩)
    · rfl
    · rfl
    · exact ih i o1

end DriverF

/-- **C65 (command line of test3d_f90).**  If the numbers are where they must be, test3d_f90 does with the command line
what test3d does: the same error messages, the same values. -/
theorem C65_options {neg : String → Bool} {P me : Nat} {args : List String} (h : Readable true neg args) :
    (optionsF true P me args).map low = options true neg P me args := by
  have hl := loopF_low (me := me) h (args.length + 1) 1 Cmd1.default
  unfold optionsF options argCheck
  rw [show Cmd1.default.toCmd = Cmd.default from rfl] at hl
  rw [← hl]
  rcases argLoopF true me args (args.length + 1) 1 Cmd1.default with _ | (e | o)
  · rfl
  · rfl
  · simp only [Option.map_some, low]
    by_cases hg : o.nx ≤ 0 ∨ o.ny ≤ 0 ∨ (True ∧ o.nz ≤ 0)
    · rw [if_pos hg, if_pos hg]
      rfl
    rw [if_neg hg, if_neg hg]
    rcases gridCheck true P o.inpx o.inpy o.inpz with _ | (_ | e)
    · rfl
    · rcases gridCheck true P o.outpx o.outpy o.outpz with _ | (_ | e)
      · rfl
      · simp only [Option.bind_some, Option.map_some]
        rcases runCheck true o.toCmd with _ | e <;> rfl
      · rfl
    · rfl

/-- **C65 (command line of test2d_f90).**  The same, but test2d_f90 accepts `-n 0` together with `-tune`. -/
theorem C65_options_2d {neg : String → Bool} {P me : Nat} {args : List String} (h : Readable false neg args) :
    (optionsF false P me args).map low = options false neg P me args ∨
    (∃ o, optionsF false P me args = some (.ok o) ∧ o.nloop = 0 ∧ o.tuneflag = true) ∨
    ∃ e, optionsF false P me args = some (.error e) ∧ options false neg P me args = some (.error "Invalid Nloop") := by
  have hl := loopF_low (me := me) h (args.length + 1) 1 Cmd1.default
  unfold optionsF options argCheck
  rw [show Cmd1.default.toCmd = Cmd.default from rfl] at hl
  rw [← hl]
  rcases argLoopF false me args (args.length + 1) 1 Cmd1.default with _ | (e | o)
  · exact Or.inl rfl
  · exact Or.inl rfl
  · simp only [Option.map_some, low]
    by_cases hg : o.nx ≤ 0 ∨ o.ny ≤ 0 ∨ (false = true ∧ o.nz ≤ 0)
    · rw [if_pos hg, if_pos hg]
      exact Or.inl rfl
    rw [if_neg hg, if_neg hg]
    rcases gridCheck false P o.inpx o.inpy o.inpz with _ | (_ | e)
    · exact Or.inl rfl
    · rcases gridCheck false P o.outpx o.outpy o.outpz with _ | (_ | e)
      · exact Or.inl rfl
      · simp only [Option.bind_some, Option.map_some]
        by_cases h0 : o.nloop = 0
        · right
          have e2 : runCheck false o.toCmd = some "Invalid Nloop" := by
            unfold runCheck
            rw [if_pos (Or.inr ⟨rfl, by omega⟩)]
          rw [e2]
          rcases e1 : runCheck true o.toCmd with _ | e
          · exact Or.inl ⟨o, rfl, h0, ((runCheck_ok e1).nloop0 h0).2⟩
          · exact Or.inr ⟨e, rfl, rfl⟩
        · left
          have e2 : runCheck false o.toCmd = runCheck true o.toCmd := by
            unfold runCheck
            refine if_congr ?_ rfl rfl
            constructor
            · rintro (k | ⟨_, k⟩)
              · exact Or.inl k
              · exact Or.inl (by omega)
            · rintro (k | ⟨k, _⟩)
              · exact Or.inl k
              · cases k
          rw [e2]
          rcases runCheck true o.toCmd with _ | e <;> rfl
      · exact Or.inl rfl
    · exact Or.inl rfl

/-! ## The variables that the C++ programs do not have -/

namespace DriverF

/-- `seed` is `seedinit` plus the rank; the time limit is the number two words after `-tune`. -/
def Extra (me : Nat) (args : List String) (o : Cmd1) : Prop :=
  (o.iflag = 3 → o.seed = o.seedinit + me) ∧
  (o.tuneflag = true → ∃ i w s, args[i]? = some w ∧ isWord w "-tune" = true ∧ args[i + 2]? = some s ∧
    readF s = some o.tunemax ∧ o.tmneg = decide (o.tunemax < 0))

/-- What is claimed of a step. -/
def Each (Q : Cmd1 → Prop) (x : Option (Out (Nat × Cmd1))) : Prop := ∀ i o, x = some (.ok (i, o)) → Q o

variable {Q : Cmd1 → Prop} {me : Nat} {args : List String}

theorem each_error (m : String) : Each Q (some (.error m)) := by
  intro i o h
  cases h

theorem each_ok {i : Nat} {o : Cmd1} (h : Q o) : Each Q (some (.ok (i, o))) := by
  intro i' o' h'
  cases h'
  exact h

theorem each_bind {α : Type} {x : Option α} {f : α → Option (Out (Nat × Cmd1))} (h : ∀ a, x = some a → Each Q (f a)) :
    Each Q (x.bind f) := by
  intro i o ho
  cases x with
  | none => cases ho
  | some a => exact h a rfl i o ho

theorem each_map {α : Type} {x : Option α} {f : α → Out (Nat × Cmd1)} (h : ∀ a, x = some a → Each Q (some (f a))) :
    Each Q (x.map f) := by
  intro i o ho
  cases x with
  | none => cases ho
  | some a => exact h a rfl i o ho

theorem each_grid (three : Bool) (args : List String) (iarg : Nat) {set : Int → Int → Int → Cmd1}
    (h : ∀ x y z, Q (set x y z)) : Each Q (gridF three args iarg set) := by
  unfold gridF
  refine ite_out (fun _ => ite_out (fun _ => each_error _) fun _ => ?_) fun _ =>
    ite_out (fun _ => each_error _) fun _ => ?_
  · exact each_bind fun x _ => each_bind fun y _ => each_map fun z _ => each_ok (h x y z)
  · exact each_bind fun x _ => each_map fun y _ => each_ok (h x y 0)

theorem each_one (args : List String) (iarg : Nat) {set : Int → Cmd1} (h : ∀ x, Q (set x)) :
    Each Q (oneF args iarg set) := by
  unfold oneF
  exact ite_out (fun _ => each_error _) fun _ => each_map fun x _ => each_ok (h x)

theorem each_choice (args : List String) (iarg : Nat) {words : List (String × Cmd1)} (h : ∀ w ∈ words, Q w.2) :
    Each Q (choiceF args iarg words) := by
  unfold choiceF
  refine ite_out (fun _ => each_error _) fun _ => each_map fun s _ => ?_
  cases hf : words.find? fun w => isWord s w.1 with
  | none => exact each_error _
  | some w => exact each_ok (h w (List.mem_of_find?_eq_some hf))

theorem each_step (three : Bool) (iarg : Nat) {o : Cmd1} (ho : Extra me args o) :
    Each (Extra me args) (argStepF three me args iarg o) := by
  unfold argStepF
  refine each_bind fun s hs => ?_
  refine ite_out (fun _ => each_error _) fun _ => ?_
  refine ite_out (fun _ => each_grid _ _ _ fun _ _ _ => ho) fun _ => ?_
  refine ite_out (fun _ => each_grid _ _ _ fun _ _ _ => ho) fun _ => ?_
  refine ite_out (fun _ => each_grid _ _ _ fun _ _ _ => ho) fun _ => ?_
  refine ite_out (fun _ => each_one _ _ fun _ => ho) fun _ => ?_
  refine ite_out (fun _ => ?_) fun _ => ?_
  · unfold initArgF
    refine ite_out (fun _ => each_error _) fun _ => ite_out (fun _ => each_ok ⟨fun h => ?_, ho.2⟩) fun _ =>
      ite_out (fun _ => each_ok ⟨fun h => ?_, ho.2⟩) fun _ => ite_out (fun _ => each_ok ⟨fun h => ?_, ho.2⟩) fun _ => ?_
    · exact absurd h (show ¬(0 : Int) = 3 by decide)
    · exact absurd h (show ¬(1 : Int) = 3 by decide)
    · exact absurd h (show ¬(2 : Int) = 3 by decide)
    · refine each_bind fun n _ => each_map fun v hv => each_ok ⟨fun _ => ?_, ho.2⟩
      exact (ck_some hv).1
  refine ite_out (fun hw => ?_) fun _ => ?_
  · unfold tuneArgF
    refine ite_out (fun _ => each_error _) fun _ =>
      each_bind fun x _ => each_bind fun y hy => each_map fun z _ => each_ok ⟨ho.1, fun _ => ?_⟩
    rw [Option.bind_eq_some_iff] at hy
    obtain ⟨t, ht, hy⟩ := hy
    exact ⟨iarg, s, t, hs, hw, ht, hy, rfl⟩
  refine ite_out (fun _ => each_one _ _ fun _ => ho) fun _ => ?_
  refine ite_out (fun _ => each_choice _ _ ?_) fun _ => ?_
  · intro w hw
    simp only [List.mem_cons, List.not_mem_nil, or_false] at hw
    rcases hw with rfl | rfl | rfl <;> exact ho
  refine ite_out (fun _ => each_choice _ _ ?_) fun _ => ?_
  · intro w hw
    simp only [List.mem_cons, List.not_mem_nil, or_false] at hw
    rcases hw with rfl | rfl <;> exact ho
  refine ite_out (fun _ => each_choice _ _ ?_) fun _ => ?_
  · intro w hw
    simp only [List.mem_cons, List.not_mem_nil, or_false] at hw
    rcases hw with rfl | rfl | rfl <;> exact ho
  refine ite_out (fun _ => each_ok ho) fun _ => ?_
  refine ite_out (fun _ => each_ok ho) fun _ => ?_
  refine ite_out (fun _ => each_ok ho) fun _ => ?_
  exact ite_out (fun _ => each_ok ho) fun _ => each_error _

theorem each_loop (three : Bool) (n : Nat) : ∀ (iarg : Nat) (o o' : Cmd1), Extra me args o →
    argLoopF three me args n iarg o = some (.ok o') → Extra me args o' := by
  induction n with
  | zero => intro iarg o o' _ h; cases h
  | succ n ih =>
    intro iarg o o' ho h
    unfold argLoopF at h
    by_cases hi : iarg < args.length
    · rw [if_pos hi] at h
      have hp := each_step three iarg ho
      rcases hs : argStepF three me args iarg o with _ | (e | ⟨i, o1⟩)
      · rw [hs] at h; cases h
      · rw [hs] at h; cases h
      · rw [hs] at h
        exact ih i o1 o' (hp i o1 hs) h
    · rw [if_neg hi] at h
      cases h
      exact ho

end DriverF

/-- **C65 (seed and time limit).**  An accepted seed on rank `me` is the number kept in `seedinit` plus the rank, and the
time limit is the number two words after `-tune`. -/
theorem C65_extra {three : Bool} {P me : Nat} {args : List String} {o : Cmd1}
    (h : optionsF three P me args = some (.ok o)) :
    (o.iflag = 3 → o.seed = o.seedinit + me) ∧
    (o.tuneflag = true → ∃ i w s, args[i]? = some w ∧ isWord w "-tune" = true ∧ args[i + 2]? = some s ∧
      readF s = some o.tunemax ∧ o.tmneg = decide (o.tunemax < 0)) := by
  unfold optionsF at h
  rcases hl : argLoopF three me args (args.length + 1) 1 Cmd1.default with _ | (e | o1)
  · rw [hl] at h; cases h
  · rw [hl] at h; cases h
  · rw [hl] at h
    have key := each_loop three _ _ _ _ (args := args) (me := me)
      ⟨fun h => absurd h (by decide), fun h => absurd h (by decide)⟩ hl
    dsimp only at h
    split_ifs at h with h0
    · cases h
    · rcases hg : gridCheck three P o1.inpx o1.inpy o1.inpz with _ | (_ | e)
      · rw [hg] at h; cases h
      · rw [hg] at h
        rcases hg' : gridCheck three P o1.outpx o1.outpy o1.outpz with _ | (_ | e)
        · rw [hg'] at h; cases h
        · rw [hg'] at h
          rcases hr : runCheck true o1.toCmd with _ | e
          · simp only [Option.bind_some, Option.map_some, hr] at h
            cases h
            exact key
          · simp only [Option.bind_some, Option.map_some, hr] at h
            cases h
        · rw [hg'] at h; cases h
      · rw [hg] at h; cases h

/-- A command line that meets the hypotheses, with every option that is followed by numbers. -/
def DriverF.cmdLineF : List String :=
  ["./test3d_f90", "-g", "16", "+8", "8", "-pin", "2", "2", "1", "-i", "5", "-tune", "3", "10.0", "0", "-m", "1", "-c", "all"]

theorem DriverF.cmdLineF_readable (neg : String → Bool) (hn : neg "10.0" = false) : Readable true neg cmdLineF where
  blank := by decide +kernel
  grid := by
    intro i w s hw hw' hs
    have hi : i < 19 := by
      by_contra hi
      have : cmdLineF[i]? = none := List.getElem?_eq_none (by show 19 ≤ i; omega)
      rw [this] at hw
      cases hw
    have key : ∀ i < 19, ∀ w ∈ cmdLineF[i]?, (w = "-g" ∨ w = "-pin" ∨ w = "-pout") →
        (∀ s ∈ cmdLineF[i + 1]?, s.length ≤ 10 ∧ (readI s).isSome = true) ∧
        (∀ s ∈ cmdLineF[i + 2]?, s.length ≤ 10 ∧ (readI s).isSome = true) ∧
        ∀ s ∈ cmdLineF[i + 3]?, s.length ≤ 10 ∧ (readI s).isSome = true := by decide +kernel
    obtain ⟨k1, k2, k3⟩ := key i hi w hw hw'
    rcases hs with hs | hs | ⟨_, hs⟩
    · exact k1 s hs
    · exact k2 s hs
    · exact k3 s hs
  one := by
    intro i w s hw hw' hs
    have hi : i < 19 := by
      by_contra hi
      have : cmdLineF[i]? = none := List.getElem?_eq_none (by show 19 ≤ i; omega)
      rw [this] at hw
      cases hw
    have key : ∀ i < 19, ∀ w ∈ cmdLineF[i]?, (w = "-n" ∨ w = "-m" ∨ w = "-i") →
        ∀ s ∈ cmdLineF[i + 1]?, s.length ≤ 10 ∧ (readI s).isSome = true := by decide +kernel
    exact key i hi w hw hw' s hs
  tune := by
    intro i s hw hs
    have hi : i < 19 := by
      by_contra hi
      have : cmdLineF[i]? = none := List.getElem?_eq_none (by show 19 ≤ i; omega)
      rw [this] at hw
      cases hw
    have key : ∀ i < 19, cmdLineF[i]? = some "-tune" →
        (∀ s ∈ cmdLineF[i + 1]?, s.length ≤ 10 ∧ (readI s).isSome = true) ∧
        ∀ s ∈ cmdLineF[i + 3]?, s.length ≤ 10 ∧ (readI s).isSome = true := by decide +kernel
    obtain ⟨k1, k2⟩ := key i hi hw
    rcases hs with hs | hs
    · exact k1 s hs
    · exact k2 s hs
  tmax := by
    intro i s hw hs
    have hi : i < 19 := by
      by_contra hi
      have : cmdLineF[i]? = none := List.getElem?_eq_none (by show 19 ≤ i; omega)
      rw [this] at hw
      cases hw
    have key : ∀ i < 19, cmdLineF[i]? = some "-tune" → ∀ s ∈ cmdLineF[i + 2]?, s = "10.0" := by decide +kernel
    rw [key i hi hw s hs]
    refine ⟨10, by decide +kernel, ?_⟩
    rw [hn]
    decide +kernel

/-- On 4 ranks rank 3 accepts it, in both languages. -/
example : (optionsF true 4 3 cmdLineF).map low = options true (fun _ => false) 4 3 cmdLineF ∧
    options true (fun _ => false) 4 3 cmdLineF = some (.ok { Cmd.default with
      nx := 16, inpx := 2, inpy := 2, inpz := 1, iflag := 3, seed := 8, tuneflag := true, tuneper := 3, mode := 1
      cflag := 1 }) :=
  ⟨C65_options (cmdLineF_readable _ rfl), by decide +kernel⟩

/-- Without the hypotheses: what `atoi` reads as 8 ends the Fortran program. -/
example : optionsF true 1 0 ["test3d_f90", "-n", "8x"] = none ∧
    ∃ o, options true (fun _ => false) 1 0 ["test3d", "-n", "8x"] = some (.ok o) ∧ o.nloop = 8 :=
  ⟨by decide +kernel, _, rfl, by decide +kernel⟩

end FftMpi
