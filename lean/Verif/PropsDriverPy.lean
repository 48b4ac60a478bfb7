import Verif.DriverPy
import Verif.PropsDriverArgs
import Verif.PropsDriverF
import Verif.PropsPackage

/-!
# C66: the Python test programs
-/

noncomputable section

namespace FftMpi

open Driver DriverF DriverPy

/-! ## Numbers -/

theorem DriverPy.digits_of_all {rest : List Char} (hr : ∀ c, rest.head? = some c → ¬('0' ≤ c ∧ c ≤ '9')) :
    ∀ (l : List Char) (v x : Int), allDigits v l = some x → digits v (l ++ rest) = x := by
  intro l
  induction l with
  | nil =>
    intro v x h
    simp only [allDigits, Option.some.injEq] at h
    subst h
    cases rest with
    | nil => rfl
    | cons c t => simp only [List.nil_append, digits, if_neg (hr c rfl)]
  | cons c l ih =>
    intro v x h
    simp only [allDigits] at h
    split_ifs at h with hc
    · simp only [List.cons_append, digits, if_pos hc]
      exact ih _ _ h

theorem DriverPy.trim_right (l : List Char) :
    ∃ ws, l = (l.reverse.dropWhile isSpace).reverse ++ ws ∧ ∀ c ∈ ws, isSpace c = true := by
  refine ⟨(l.reverse.takeWhile isSpace).reverse, ?_, ?_⟩
  · rw [← List.reverse_append, List.takeWhile_append_dropWhile, List.reverse_reverse]
  · intro c hc
    rw [List.mem_reverse] at hc
    exact List.mem_takeWhile_imp hc

theorem DriverPy.not_digit_of_space {ws : List Char} (h : ∀ c ∈ ws, isSpace c = true) :
    ∀ c, ws.head? = some c → ¬('0' ≤ c ∧ c ≤ '9') := by
  intro c hc
  have := h c (List.mem_of_mem_head? hc)
  unfold isSpace at this
  simp only [decide_eq_true_eq] at this
  rcases this with rfl | rfl | rfl | rfl | rfl | rfl <;> decide

/-- **C66 (numbers).**  What `int` accepts, `atoi` reads as the same number, if it is an `int`. -/
theorem C66_int {s : String} {v : Int} (h : pyInt s = some v) : atoi s = ck v := by
  obtain ⟨ws, hl, hw⟩ := trim_right (s.toList.dropWhile isSpace)
  have hd := not_digit_of_space hw
  unfold pyInt at h
  unfold atoi
  rw [hl]
  generalize ((s.toList.dropWhile isSpace).reverse.dropWhile isSpace).reverse = l at h
  split at h
  · cases h
  · rename_i c t
    simp only [Option.map_eq_some_iff] at h
    obtain ⟨x, h1, rfl⟩ := h
    have := digits_of_all hd _ _ _ h1
    simp only [List.cons_append] at this ⊢
    rw [this]
  · rename_i c t
    have := digits_of_all hd _ _ _ h
    simp only [List.cons_append] at this ⊢
    rw [this]
  · rename_i h0 h1 h2
    have hx := digits_of_all hd _ _ _ h
    cases l with
    | nil => exact absurd rfl h0
    | cons c t =>
      have hc : '0' ≤ c ∧ c ≤ '9' := by
        by_contra hc
        simp only [allDigits, if_neg hc] at h
        cases h
      simp only [List.cons_append] at hx ⊢
      split
      · rename_i heq
        cases heq
        exact absurd hc (by decide)
      · rename_i heq
        cases heq
        exact absurd hc (by decide)
      · rw [hx]

/-- White space, signs, and what `int` rejects; `atoi` reads a prefix. -/
example : pyInt " -12 " = some (-12) ∧ pyInt "+7" = some 7 ∧ pyInt "3.5" = none ∧ atoi "3.5" = some 3 ∧ pyInt "" = none ∧
    pyInt "-" = none ∧ pyInt "99999999999" = some 99999999999 := by
  refine ⟨?_, ?_, ?_, ?_, ?_, ?_, ?_⟩ <;> decide +kernel

/-! ## The command line -/

/-- The right side has every result of the left side. -/
def DriverPy.Ext {γ : Type} (x y : Option γ) : Prop := ∀ r, x = some r → y = some r

namespace DriverPy

theorem Ext.rfl {γ : Type} {x : Option γ} : Ext x x := fun _ h => h

theorem Ext.ite {γ : Type} {c : Prop} [Decidable c] {x y x' y' : Option γ} (h1 : Ext x x') (h2 : Ext y y') :
    Ext (if c then x else y) (if c then x' else y') := by
  split_ifs
  · exact h1
  · exact h2

theorem Ext.bind {γ δ : Type} {x x' : Option γ} {f f' : γ → Option δ} (h : Ext x x') (h' : ∀ a, Ext (f a) (f' a)) :
    Ext (x.bind f) (x'.bind f') := by
  intro r hr
  rw [Option.bind_eq_some_iff] at hr ⊢
  obtain ⟨a, h1, h2⟩ := hr
  exact ⟨a, h a h1, h' a r h2⟩

theorem Ext.map {γ δ : Type} {x x' : Option γ} {f : γ → δ} (h : Ext x x') : Ext (x.map f) (x'.map f) := by
  intro r hr
  rw [Option.map_eq_some_iff] at hr ⊢
  obtain ⟨a, h1, h2⟩ := hr
  exact ⟨a, h a h1, h2⟩

/-- All numbers on the command line are `int`, also after adding the rank. -/
def Ints (me : Nat) (args : List String) : Prop :=
  ∀ s ∈ args, ∀ v, pyInt s = some v → -2147483648 ≤ v ∧ v + me ≤ 2147483647

variable {three : Bool} {flt : String → Option Bool} {neg : String → Bool} {P me : Nat} {args : List String}

theorem ext_int (h : Ints me args) {s : String} (hs : s ∈ args) : Ext (pyInt s) (atoi s) := by
  intro v hv
  rw [C66_int hv]
  have := h s hs v hv
  exact ck_eq ⟨by omega, by omega⟩

theorem ext_num (h : Ints me args) (i : Nat) : Ext (numPy args i) (num args i) := by
  intro v hv
  unfold numPy at hv
  unfold num
  rw [Option.bind_eq_some_iff] at hv ⊢
  obtain ⟨s, h1, h2⟩ := hv
  exact ⟨s, h1, ext_int h (List.mem_of_getElem? h1) v h2⟩

theorem ext_grid (h : Ints me args) (iarg : Nat) (set : Int → Int → Int → Cmd) :
    Ext (gridPy three args iarg set) (grid three args iarg set) := by
  unfold gridPy grid
  refine Ext.ite (Ext.ite Ext.rfl ?_) (Ext.ite Ext.rfl ?_)
  · exact (ext_num h _).bind fun _ => (ext_num h _).bind fun _ => (ext_num h _).map
  · exact (ext_num h _).bind fun _ => (ext_num h _).map

theorem ext_one (h : Ints me args) (iarg : Nat) (set : Int → Cmd) : Ext (onePy args iarg set) (one args iarg set) := by
  unfold onePy one
  exact Ext.ite Ext.rfl (ext_num h _).map

theorem ext_init (h : Ints me args) (iarg : Nat) (o : Cmd) : Ext (initArgPy me args iarg o) (initArg me args iarg o) := by
  unfold initArgPy initArg
  refine Ext.ite Ext.rfl ?_
  intro r hr
  rw [Option.bind_eq_some_iff] at hr ⊢
  obtain ⟨s, h1, h2⟩ := hr
  refine ⟨s, h1, ?_⟩
  revert h2
  refine Ext.ite Ext.rfl (Ext.ite Ext.rfl (Ext.ite Ext.rfl ?_)) r
  intro r hr
  rw [Option.map_eq_some_iff] at hr
  obtain ⟨v, hv, rfl⟩ := hr
  have hs : s ∈ args := List.mem_of_getElem? h1
  have := h s hs v hv
  rw [ext_int h hs v hv, Option.bind_some]
  have e : add32 v me = some (v + me) := ck_eq ⟨by omega, by omega⟩
  rw [e]
  rfl

theorem ext_tune (h : Ints me args) (hn : ∀ s b, flt s = some b → neg s = b) (iarg : Nat) (o : Cmd) :
    Ext (tuneArgPy flt args iarg o) (tuneArg neg args iarg o) := by
  unfold tuneArgPy tuneArg
  refine Ext.ite Ext.rfl ((ext_num h _).bind fun x => ?_)
  intro r hr
  simp only [Option.bind_eq_some_iff] at hr ⊢
  obtain ⟨b, ⟨s, h1, h2⟩, h3⟩ := hr
  refine ⟨s, h1, ?_⟩
  rw [hn s b h2]
  exact (ext_num h _).map r h3

theorem ext_step (h : Ints me args) (hn : ∀ s b, flt s = some b → neg s = b) (iarg : Nat) (o : Cmd) :
    Ext (argStepPy three flt me args iarg o) (argStep three neg me args iarg o) := by
  unfold argStepPy argStep
  refine Ext.rfl.bind fun s => Ext.ite Ext.rfl (Ext.ite (ext_grid h _ _) (Ext.ite (ext_grid h _ _)
    (Ext.ite (ext_grid h _ _) (Ext.ite (ext_one h _ _) (Ext.ite (ext_init h _ _) (Ext.ite (ext_tune h hn _ _)
    (Ext.ite (ext_one h _ _) Ext.rfl)))))))

theorem ext_loop (h : Ints me args) (hn : ∀ s b, flt s = some b → neg s = b) (n : Nat) :
    ∀ (iarg : Nat) (o : Cmd), Ext (argLoopPy three flt me args n iarg o) (argLoop three neg me args n iarg o) := by
  induction n with
  | zero => intro iarg o r hr; cases hr
  | succ n ih =>
    intro iarg o
    unfold argLoopPy argLoop
    refine Ext.ite ?_ Ext.rfl
    intro r hr
    rcases hs : argStepPy three flt me args iarg o with _ | (e | ⟨i, o1⟩)
    · rw [hs] at hr; cases hr
    · rw [hs] at hr
      rw [ext_step h hn iarg o _ hs]
      exact hr
    · rw [hs] at hr
      rw [ext_step h hn iarg o _ hs]
      exact ih i o1 r hr

/-- What the check of the input grid accepts. -/
theorem inCheck_ok {x y z : Int} (h : inCheck three P x y z = none) :
    (x = 0 ∧ y = 0 ∧ (three = true → z = 0)) ∨ (0 < x ∧ 0 < y ∧ (three = true → 0 < z) ∧ x * y = P) := by
  unfold inCheck at h
  split_ifs at h with h1 h2 h3
  · exact Or.inl h1
  · refine Or.inr ⟨by omega, by omega, fun ht => ?_, not_not.mp h3⟩
    by_contra hz
    exact h2 (Or.inr (Or.inr ⟨ht, by omega⟩))

/-- What the check of the output grid accepts. -/
theorem outCheck_ok {x y z : Int} (h : outCheck three P x y z = none) :
    (x = 0 ∧ y = 0 ∧ (three = true → z = 0)) ∨ (0 < x ∧ 0 < y ∧ x * y = P) := by
  unfold outCheck at h
  split_ifs at h with h1 h2 h3
  · exact Or.inl h1
  · exact Or.inr ⟨by omega, by omega, not_not.mp h3⟩

/-- When test3d.cpp accepts a grid that test3d.py accepts. -/
theorem gridCheck_iff (hP : 0 < P ∧ P < 2 ^ 31) {x y z : Int}
    (h : (x = 0 ∧ y = 0 ∧ (three = true → z = 0)) ∨ (0 < x ∧ 0 < y ∧ x * y = P)) :
    gridCheck three P x y z = some none ↔ (three = true → x = 0 ∨ z = 1) := by
  rcases h with h | ⟨hx, hy, hxy⟩
  · unfold gridCheck
    rw [if_pos h]
    simp [h.1]
  · unfold gridCheck
    rw [if_neg (by omega)]
    have e : mul32 x y = some (P : Int) := by
      unfold mul32
      rw [hxy]
      exact ck_eq ⟨by omega, by omega⟩
    rw [e, Option.bind_some]
    cases three with
    | false => simp [hx, hy]
    | true =>
      simp only [forall_const, true_and, if_true]
      constructor
      · intro h
        by_cases hz : x ≤ 0 ∨ y ≤ 0 ∨ z ≤ 0
        · rw [if_pos hz] at h; cases h
        · rw [if_neg hz, Option.map_eq_some_iff] at h
          obtain ⟨v, h1, h2⟩ := h
          have h1 := (ck_some h1).1
          have h3 : v = (P : Int) := by
            by_contra h3
            rw [if_pos h3] at h2
            cases h2
          right
          have hv : (P : Int) * z = P * 1 := by rw [mul_one, ← h1, h3]
          exact mul_left_cancel₀ (by omega) hv
      · rintro (h0 | rfl)
        · omega
        · rw [if_neg (by omega)]
          have e1 : mul32 (P : Int) 1 = some (P : Int) := by
            unfold mul32
            rw [mul_one]
            exact ck_eq ⟨by omega, by omega⟩
          simp [e1]

end DriverPy

/-- **C66 (command line).**  A command line that the Python program accepts gives the same values in the C++ program,
if its numbers are `int`; and the C++ program accepts it exactly if the third numbers of the processor grids are 1 (or
the grids are not given).  For test2d.py nothing has to be said. -/
theorem C66_options {three : Bool} {flt : String → Option Bool} {neg : String → Bool} {P me : Nat} {args : List String}
    {o : Cmd} (hP : 0 < P ∧ P < 2 ^ 31)
    (h : optionsPy three flt P me args = some (.ok o))
    (hI : ∀ s ∈ args, ∀ v, pyInt s = some v → -2147483648 ≤ v ∧ v + me ≤ 2147483647)
    (hn : ∀ s b, flt s = some b → neg s = b) :
    options three neg P me args = some (.ok o) ↔
      (three = true → (o.inpx = 0 ∨ o.inpz = 1) ∧ (o.outpx = 0 ∨ o.outpz = 1)) := by
  unfold optionsPy at h
  rcases hl : argLoopPy three flt me args (args.length + 1) 1 Cmd.default with _ | (e | o1)
  · rw [hl] at h; cases h
  · rw [hl] at h; cases h
  · rw [hl] at h
    have hl' := ext_loop (three := three) hI hn _ _ _ _ hl
    simp only [Option.some.injEq] at h
    rcases hc : argCheckPy three P o1 with _ | e
    swap
    · rw [hc] at h; cases h
    rw [hc] at h
    cases h
    unfold argCheckPy at hc
    by_cases hg : o.nx ≤ 0 ∨ o.ny ≤ 0 ∨ (three = true ∧ o.nz ≤ 0)
    · rw [if_pos hg] at hc; cases hc
    rw [if_neg hg] at hc
    rcases hi : inCheck three P o.inpx o.inpy o.inpz with _ | e
    swap
    · rw [hi] at hc; cases hc
    rcases ho : outCheck three P o.outpx o.outpy o.outpz with _ | e
    swap
    · rw [hi, ho] at hc; cases hc
    rw [hi, ho] at hc
    simp only at hc
    have hrun : runCheck three o = none := by
      unfold runCheck at hc ⊢
      have hnl : ¬(o.nloop < 0 ∨ (false = false ∧ o.nloop ≤ 0)) := by
        intro hn
        rw [if_pos hn] at hc
        cases hc
      rw [if_neg hnl] at hc
      rw [if_neg (show ¬(o.nloop < 0 ∨ (three = false ∧ o.nloop ≤ 0)) by simp only [true_and] at hnl; omega)]
      exact hc
    have g1 := gridCheck_iff (three := three) hP (z := o.inpz) ((inCheck_ok hi).imp id fun h => ⟨h.1, h.2.1, h.2.2.2⟩)
    have g2 := gridCheck_iff (three := three) hP (z := o.outpz) (outCheck_ok ho)
    unfold options
    rw [hl']
    simp only [argCheck, if_neg hg]
    constructor
    · intro h ht
      rcases e1 : gridCheck three P o.inpx o.inpy o.inpz with _ | _ | e
      · rw [e1] at h; cases h
      · rcases e2 : gridCheck three P o.outpx o.outpy o.outpz with _ | _ | e
        · rw [e1, e2] at h; cases h
        · exact ⟨g1.mp e1 ht, g2.mp e2 ht⟩
        · rw [e1, e2] at h; cases h
      · rw [e1] at h; cases h
    · intro h
      rw [g1.mpr fun ht => (h ht).1, Option.bind_some]
      simp only
      rw [g2.mpr fun ht => (h ht).2]
      simp [hrun]

/-- A command line that meets the hypotheses of `C66_options`, for both programs. -/
example : let flt : String → Option Bool := fun _ => some false
    (∃ o, optionsPy true flt 6 3 ["test3d.py", "-pin", "2", "3", "1", "-i", "82783", "-v"] = some (.ok o) ∧ o.inpz = 1) ∧
    (∃ o, optionsPy false flt 6 3 ["test2d.py", "-pin", "2", "3", "-m", "3"] = some (.ok o) ∧ o.mode = 3) := by
  refine ⟨⟨{ Cmd.default with inpx := 2, inpy := 3, inpz := 1, iflag := 3, seed := 82786, vflag := true }, ?_, rfl⟩,
    ⟨{ Cmd.default with inpx := 2, inpy := 3, mode := 3 }, ?_, rfl⟩⟩ <;> decide +kernel

/-- **C66 (options of test2d.py).**  What all ranks accept satisfies the assumptions of C60, C61 and C63, as in test2d.cpp. -/
theorem C66_accepted_2d {flt : String → Option Bool} {P : Nat} {args : List String} {c : Nat → Cmd}
    (hP : 0 < P ∧ P < 2 ^ 31) (h : ∀ r < P, optionsPy false flt P r args = some (.ok (c r)))
    (hI : ∀ s ∈ args, ∀ v, pyInt s = some v → -2147483648 ≤ v ∧ v + P ≤ 2147483648) :
    ∃ o : Opt2, o.Accepted P ∧ (∀ r < P, (c r).opt2 r = o) ∧ (∀ r < P, (c r).vflag = (c 0).vflag) ∧
      ((c 0).vflag = true → o.mode < 2) ∧ 0 < o.nloop ∧
      (o.cflag = 0 ∨ o.cflag = 1 ∨ o.cflag = 2) ∧ (o.eflag = 0 ∨ o.eflag = 1) :=
  C62_accepted_2d (neg := fun s => (flt s).getD false) hP.1 fun r hr =>
    (C66_options hP (h r hr) (fun s hs v hv => by have := hI s hs v hv; omega) (fun s b hb => by rw [hb]; rfl)).mpr
      (fun ht => by cases ht)

/-- **C66 (options of test3d.py).**  The same for test3d.py if the third numbers of the grids are 1. -/
theorem C66_accepted_partial {flt : String → Option Bool} {P : Nat} {args : List String} {c : Nat → Cmd}
    (hP : 0 < P ∧ P < 2 ^ 31) (h : ∀ r < P, optionsPy true flt P r args = some (.ok (c r)))
    (hI : ∀ s ∈ args, ∀ v, pyInt s = some v → -2147483648 ≤ v ∧ v + P ≤ 2147483648)
    (h1 : ∀ r < P, ((c r).inpx = 0 ∨ (c r).inpz = 1) ∧ ((c r).outpx = 0 ∨ (c r).outpz = 1)) :
    ∃ o : Opt3, o.Accepted P ∧ (∀ r < P, (c r).opt3 r = o) ∧ (∀ r < P, (c r).vflag = (c 0).vflag) ∧
      ((c 0).vflag = true → o.mode < 2) ∧ (o.nloop = 0 → (c 0).tuneflag = true) ∧
      (o.cflag = 0 ∨ o.cflag = 1 ∨ o.cflag = 2) ∧ (o.eflag = 0 ∨ o.eflag = 1) :=
  C62_accepted (neg := fun s => (flt s).getD false) hP.1 fun r hr =>
    (C66_options hP (h r hr) (fun s hs v hv => by have := hI s hs v hv; omega) (fun s b hb => by rw [hb]; rfl)).mpr
      (fun _ => h1 r hr)

/-- **C66 (what test3d.py should accept).**  On 8 ranks it rejects the grid 2 x 2 x 2, and `-n 0` together with `-tune`;
test3d.cpp accepts both. -/
theorem C66_rejects_false :
    let flt : String → Option Bool := fun _ => some false
    optionsPy true flt 8 0 ["test3d.py", "-pin", "2", "2", "2"] =
      some (.error "Specified proc grid does not match nprocs") ∧
    options true (fun _ => false) 8 0 ["test3d", "-pin", "2", "2", "2"] =
      some (.ok { Cmd.default with inpx := 2, inpy := 2, inpz := 2 }) ∧
    optionsPy true flt 8 0 ["test3d.py", "-n", "0", "-tune", "5", "10.0", "0"] = some (.error "Invalid Nloop") ∧
    options true (fun _ => false) 8 0 ["test3d", "-n", "0", "-tune", "5", "10.0", "0"] =
      some (.ok { Cmd.default with nloop := 0, tuneflag := true, tuneper := 5 }) := by
  refine ⟨?_, ?_, ?_, ?_⟩ <;> decide +kernel

/-- **C66 (what test3d.py should reject).**  On 4 ranks it accepts grids for 8 processors and for none, and negative
numbers. -/
theorem C66_accepts_false :
    let flt : String → Option Bool := fun _ => some false
    optionsPy true flt 4 0 ["test3d.py", "-pin", "2", "2", "2"] =
      some (.ok { Cmd.default with inpx := 2, inpy := 2, inpz := 2 }) ∧
    optionsPy true flt 4 0 ["test3d.py", "-pout", "2", "2", "0"] =
      some (.ok { Cmd.default with outpx := 2, outpy := 2 }) ∧
    optionsPy true flt 4 0 ["test3d.py", "-pout", "2", "2", "-3"] =
      some (.ok { Cmd.default with outpx := 2, outpy := 2, outpz := -3 }) ∧
    optionsPy true flt 4 0 ["test3d.py", "-i", "99999999999"] =
      some (.ok { Cmd.default with iflag := 3, seed := 99999999999 }) := by
  refine ⟨?_, ?_, ?_, ?_⟩ <;> decide +kernel

/-! ## Processor grids and boxes -/

/-- The first value of `bestsurf` is too large also after rounding. -/
theorem DriverPy.lt_start {rnd : ℝ → ℝ} (R : Rounding rnd) {x : ℝ} (h1 : 1 ≤ x) (h2 : x ≤ 2 ^ 80) :
    x < rnd (2 * rnd x) := by
  have a := abs_le.mp (R.rel x (le_trans (by norm_num) h1) (h2.trans (by norm_num)))
  have b := R.one_le h1
  have c := R.le_two h1 (h2.trans (by norm_num))
  have d := abs_le.mp (R.rel (2 * rnd x) (le_trans (by norm_num) (show (1 : ℝ) ≤ 2 * rnd x by linarith))
    (by norm_num at h2 ⊢; linarith))
  have e1 : x / 2 ^ 53 ≤ x / 4 := by gcongr; norm_num
  have e2 : 2 * rnd x / 2 ^ 53 ≤ 2 * rnd x / 4 := by gcongr; norm_num
  linarith [a.1, d.1]

/-- The result of `proc3d`. -/
theorem DriverPy.proc3dPy_ok {rnd : ℝ → ℝ} (R : Rounding rnd) {nx ny nz P : Nat} (hx : 0 < nx ∧ nx < 2 ^ 31)
    (hy : 0 < ny ∧ ny < 2 ^ 31) (hz : 0 < nz ∧ nz < 2 ^ 31) (hP : 0 < P) :
    ∃ p, proc3dPy rnd nx ny nz P = some p ∧ p.1 * p.2.1 * p.2.2 = P ∧
      ∀ q : Nat × Nat × Nat, q.1 * q.2.1 * q.2.2 = P → surfPy3 nx ny nz p ≤ surfPy3 nx ny nz q := by
  set b0 : ℝ := rnd (2 * rnd ((nx * ny + ny * nz + nz * nx : Nat) : ℝ)) with hb0
  set surf : Nat × Nat × Nat → ℝ := fun c => ((surfPy3 nx ny nz c : Nat) : ℝ) with hsurf
  have key : ∀ i : Nat, ∀ S b, 0 < i → Best surf (b0, (0, 0, 0)) S b →
      Best surf (b0, (0, 0, 0)) (S ∪ {c | ∃ j, (0 < j ∧ j ≤ P / i ∧ P / i % j = 0) ∧ c ∈ ({(i, j, P / i / j)} : Set _)})
        (divLoop (P / i) (fun ipy b => keep surf (i, ipy, P / i / ipy) b) b) := by
    intro i S b _ hb
    exact Best.divLoop (P / i) _ (fun j => {(i, j, P / i / j)}) (fun j S b _ hb => hb.keep _) hb
  have main := Best.divLoop P (fun ipx b => divLoop (P / ipx) (fun ipy b =>
    keep surf (ipx, ipy, P / ipx / ipy) b) b) _ key (Best.start surf (b0, (0, 0, 0)))
  set b := divLoop P (fun ipx b => divLoop (P / ipx) (fun ipy b =>
    keep surf (ipx, ipy, P / ipx / ipy) b) b) (b0, (0, 0, 0)) with hb
  have cand : ∀ q : Nat × Nat × Nat, q.1 * q.2.1 * q.2.2 = P → b.1 ≤ surf q := by
    rintro ⟨q1, q2, q3⟩ hq
    simp only at hq
    have h1 : 0 < q1 := Nat.pos_of_ne_zero (by rintro rfl; simp at hq; omega)
    have h2 : 0 < q2 := Nat.pos_of_ne_zero (by rintro rfl; simp at hq; omega)
    have h3 : 0 < q3 := Nat.pos_of_ne_zero (by rintro rfl; simp at hq; omega)
    have e1 : P / q1 = q2 * q3 := by
      rw [← hq, mul_assoc]; exact Nat.mul_div_cancel_left _ h1
    have e2 : q2 * q3 / q2 = q3 := Nat.mul_div_cancel_left _ h2
    apply main.le
    right
    refine ⟨q1, ⟨h1, ?_, ?_⟩, ?_⟩
    · rw [← hq, mul_assoc]; exact Nat.le_mul_of_pos_right _ (Nat.mul_pos h2 h3)
    · rw [← hq, mul_assoc]; exact Nat.mul_mod_right _ _
    · refine ⟨q2, ⟨h2, ?_, ?_⟩, ?_⟩
      · rw [e1]; exact Nat.le_mul_of_pos_right _ h3
      · rw [e1]; exact Nat.mul_mod_right _ _
      · rw [e1, e2]; rfl
  have good : b.2.1 * b.2.2.1 * b.2.2.2 = P ∧ b.1 = surf b.2 := by
    rcases main.mem with h | ⟨c, hc, h⟩
    · exfalso
      have h1 : b.1 ≤ surf (1, 1, P) := cand (1, 1, P) (by simp)
      rw [h] at h1
      simp only at h1
      set N := nx * ny + ny * nz + nz * nx with hN
      have mx : nx * ny ≤ 2 ^ 31 * 2 ^ 31 := Nat.mul_le_mul hx.2.le hy.2.le
      have my : ny * nz ≤ 2 ^ 31 * 2 ^ 31 := Nat.mul_le_mul hy.2.le hz.2.le
      have mz : nz * nx ≤ 2 ^ 31 * 2 ^ 31 := Nat.mul_le_mul hz.2.le hx.2.le
      have pos : 0 < nx * ny := Nat.mul_pos hx.1 hy.1
      have n1 : (1 : ℝ) ≤ (N : ℝ) := by exact_mod_cast (show 1 ≤ N by omega)
      have n2 : (N : ℝ) ≤ 2 ^ 80 := by exact_mod_cast (show N ≤ 2 ^ 80 by omega)
      have q3 : (N : ℝ) < b0 := lt_start R n1 n2
      have q4 : surf (1, 1, P) ≤ N := by
        simp only [hsurf]
        have d : nz / P ≤ nz := Nat.div_le_self nz P
        have : surfPy3 nx ny nz (1, 1, P) ≤ N := by
          simp only [surfPy3, Nat.div_one]
          exact Nat.add_le_add (Nat.add_le_add_left (Nat.mul_le_mul_left _ d) _) (Nat.mul_le_mul_right _ d)
        exact_mod_cast this
      linarith
    · rcases hc with hc | ⟨i, ⟨hi1, hi2, hi3⟩, hc⟩
      · exact hc.elim
      obtain ⟨j, ⟨hj1, hj2, hj3⟩, hc⟩ := hc
      rw [Set.mem_singleton_iff] at hc
      subst hc
      rw [h]
      refine ⟨?_, rfl⟩
      simp only
      rw [mul_assoc, Nat.mul_div_cancel' (Nat.dvd_of_mod_eq_zero hj3),
        Nat.mul_div_cancel' (Nat.dvd_of_mod_eq_zero hi3)]
  refine ⟨b.2, ?_, good.1, ?_⟩
  · unfold proc3dPy
    simp only
    rw [← hsurf, ← hb0, ← hb, if_neg (by simpa using good.1)]
  · intro q hq
    have := cand q hq
    rw [good.2] at this
    simp only [hsurf] at this
    exact_mod_cast this

/-- The result of `proc2d`. -/
theorem DriverPy.proc2dPy_ok {rnd : ℝ → ℝ} (R : Rounding rnd) {nx ny P : Nat} (hx : 0 < nx ∧ nx < 2 ^ 31)
    (hy : 0 < ny ∧ ny < 2 ^ 31) (hP : 0 < P) :
    ∃ p, proc2dPy rnd nx ny P = some p ∧ p.1 * p.2 = P ∧
      ∀ q : Nat × Nat, q.1 * q.2 = P → surfPy2 nx ny p ≤ surfPy2 nx ny q := by
  set b0 : ℝ := rnd (2 * rnd ((nx + ny : Nat) : ℝ)) with hb0
  set surf : Nat × Nat → ℝ := fun c => ((surfPy2 nx ny c : Nat) : ℝ) with hsurf
  have main := Best.divLoop (surf := surf) (init := (b0, (0, 0))) P (fun ipx b => keep surf (ipx, P / ipx) b)
    (fun i => {(i, P / i)}) (fun i S b _ hb => hb.keep _) (Best.start surf (b0, (0, 0)))
  set b := divLoop P (fun ipx b => keep surf (ipx, P / ipx) b) (b0, (0, 0)) with hb
  have cand : ∀ q : Nat × Nat, q.1 * q.2 = P → b.1 ≤ surf q := by
    rintro ⟨q1, q2⟩ hq
    simp only at hq
    have h1 : 0 < q1 := Nat.pos_of_ne_zero (by rintro rfl; simp at hq; omega)
    have h2 : 0 < q2 := Nat.pos_of_ne_zero (by rintro rfl; simp at hq; omega)
    have e1 : P / q1 = q2 := by rw [← hq]; exact Nat.mul_div_cancel_left _ h1
    apply main.le
    right
    refine ⟨q1, ⟨h1, ?_, ?_⟩, ?_⟩
    · rw [← hq]; exact Nat.le_mul_of_pos_right _ h2
    · rw [← hq]; exact Nat.mul_mod_right _ _
    · rw [e1]; rfl
  have good : b.2.1 * b.2.2 = P ∧ b.1 = surf b.2 := by
    rcases main.mem with h | ⟨c, hc, h⟩
    · exfalso
      have h1 : b.1 ≤ surf (1, P) := cand (1, P) (by simp)
      rw [h] at h1
      simp only at h1
      have n1 : (1 : ℝ) ≤ ((nx + ny : Nat) : ℝ) := by exact_mod_cast (show 1 ≤ nx + ny by omega)
      have n2 : ((nx + ny : Nat) : ℝ) ≤ 2 ^ 80 := by exact_mod_cast (show nx + ny ≤ 2 ^ 80 by omega)
      have q3 : ((nx + ny : Nat) : ℝ) < b0 := lt_start R n1 n2
      have q4 : surf (1, P) ≤ ((nx + ny : Nat) : ℝ) := by
        simp only [hsurf]
        have : surfPy2 nx ny (1, P) ≤ nx + ny := by
          simp only [surfPy2, Nat.div_one]
          exact Nat.add_le_add_left (Nat.div_le_self ny P) _
        exact_mod_cast this
      linarith
    · rcases hc with hc | ⟨i, ⟨hi1, hi2, hi3⟩, hc⟩
      · exact hc.elim
      rw [Set.mem_singleton_iff] at hc
      subst hc
      rw [h]
      exact ⟨Nat.mul_div_cancel' (Nat.dvd_of_mod_eq_zero hi3), rfl⟩
  refine ⟨b.2, ?_, good.1, ?_⟩
  · unfold proc2dPy
    simp only
    rw [← hsurf, ← hb0, ← hb, if_neg (by simpa using good.1)]
  · intro q hq
    have := cand q hq
    rw [good.2] at this
    simp only [hsurf] at this
    exact_mod_cast this

/-- **C66 (search).**  `proc3d` and `proc2d` always find a grid for all processors, and it is the best one for edges that
are rounded down. -/
theorem C66_proc_partial {rnd : ℝ → ℝ} (R : Rounding rnd) {nx ny nz P : Nat} (hx : 0 < nx ∧ nx < 2 ^ 31)
    (hy : 0 < ny ∧ ny < 2 ^ 31) (hz : 0 < nz ∧ nz < 2 ^ 31) (hP : 0 < P) :
    (∃ p, proc3dPy rnd nx ny nz P = some p ∧ p.1 * p.2.1 * p.2.2 = P ∧
      ∀ q : Nat × Nat × Nat, q.1 * q.2.1 * q.2.2 = P →
        nx / p.1 * (ny / p.2.1) + ny / p.2.1 * (nz / p.2.2) + nz / p.2.2 * (nx / p.1) ≤
        nx / q.1 * (ny / q.2.1) + ny / q.2.1 * (nz / q.2.2) + nz / q.2.2 * (nx / q.1)) ∧
    (∃ p, proc2dPy rnd nx ny P = some p ∧ p.1 * p.2 = P ∧
      ∀ q : Nat × Nat, q.1 * q.2 = P → nx / p.1 + ny / p.2 ≤ nx / q.1 + ny / q.2) :=
  ⟨proc3dPy_ok R hx hy hz hP, proc2dPy_ok R hx hy hP⟩

/-- The factorisations of 4. -/
theorem DriverPy.four {p : Nat × Nat × Nat} (h : p.1 * p.2.1 * p.2.2 = 4) :
    p ∈ [(1, 1, 4), (1, 2, 2), (1, 4, 1), (2, 1, 2), (2, 2, 1), (4, 1, 1)] := by
  obtain ⟨a, b, c⟩ := p
  dsimp only at h
  have ha : a ∣ 4 := ⟨b * c, by rw [← mul_assoc]; exact h.symm⟩
  have hb : b ∣ 4 := ⟨a * c, by rw [← mul_assoc, mul_comm b a]; exact h.symm⟩
  have ha' := Nat.le_of_dvd (by decide) ha
  have hb' := Nat.le_of_dvd (by decide) hb
  interval_cases a <;> interval_cases b <;> simp_all <;> omega

/-- The factorisations of 6. -/
theorem DriverPy.six {p : Nat × Nat} (h : p.1 * p.2 = 6) : p ∈ [(1, 6), (2, 3), (3, 2), (6, 1)] := by
  obtain ⟨a, b⟩ := p
  dsimp only at h
  have ha' := Nat.le_of_dvd (by decide) (show a ∣ 6 from ⟨b, h.symm⟩)
  interval_cases a <;> simp_all <;> omega

/-- **C66 (search, what is not true).**  The surface is not the smallest: on 4 ranks the grid 3 x 12 x 3 is not divided
into cubes (surface 27) but into bricks of 3/2 x 12 x 3/2 (surface 153/4); on 6 ranks the grid 8 x 9 into rectangles of
8/3 x 9/2 (43/6) instead of 4 x 3 (7).  test3d.cpp and test2d.cpp find the best ones (`C60_proc3d_exact`). -/
theorem C66_proc_false {rnd : ℝ → ℝ} (R : Rounding rnd) :
    (proc3dPy rnd 3 12 3 4 = some (2, 1, 2) ∧ area3 3 12 3 (2, 1, 2) = 153 / 4 ∧ area3 3 12 3 (1, 4, 1) = 27) ∧
    (proc2dPy rnd 8 9 6 = some (3, 2) ∧ edge2 8 9 (3, 2) = 43 / 6 ∧ edge2 8 9 (2, 3) = 7) := by
  refine ⟨⟨?_, by norm_num [area3], by norm_num [area3]⟩, ⟨?_, by norm_num [edge2], by norm_num [edge2]⟩⟩
  · obtain ⟨p, h1, h2, h3⟩ := proc3dPy_ok R (nx := 3) (ny := 12) (nz := 3) (P := 4) (by decide) (by decide) (by decide) (by decide)
    rw [h1]
    have h := h3 (2, 1, 2) rfl
    have hp := four h2
    simp only [List.mem_cons, List.not_mem_nil, or_false] at hp
    rcases hp with rfl | rfl | rfl | rfl | rfl | rfl
    all_goals first | rfl | (exfalso; revert h; decide)
  · obtain ⟨p, h1, h2, h3⟩ := proc2dPy_ok R (nx := 8) (ny := 9) (P := 6) (by decide) (by decide) (by decide)
    rw [h1]
    have h := h3 (3, 2) rfl
    have hp := six h2
    simp only [List.mem_cons, List.not_mem_nil, or_false] at hp
    rcases hp with rfl | rfl | rfl | rfl
    all_goals first | rfl | (exfalso; revert h; decide)

/-- **C66 (boxes of an accepted input grid).**  With a grid that test3d.py accepts, every point of the FFT grid is in the
box of a rank exactly if the third number is 1; with a larger one nobody has the last plane. -/
theorem C66_boxes {rnd : ℝ → ℝ} (R : Rounding rnd) {p : Nat × Nat × Nat} {P nx ny nz : Nat} (hP : 0 < P)
    (hp : p.1 * p.2.1 = P) (h3 : 0 < p.2.2) (hx : 0 < nx ∧ P * nx < 2 ^ 53) (hy : 0 < ny ∧ P * ny < 2 ^ 53)
    (hz : 0 < nz ∧ P * nz < 2 ^ 53) :
    (Tiles3 P (box3 rnd p nx ny nz) nx ny nz ↔ p.2.2 = 1) ∧
      (1 < p.2.2 → ∀ r < P, ∀ i j k, (box3 rnd p nx ny nz r).Has i j k → k < nz - 1) := by
  have last : 1 < p.2.2 → ∀ r < P, ∀ i j k, (box3 rnd p nx ny nz r).Has i j k → k < nz - 1 := by
    intro h1 r hr i j k hh
    have hk : k ≤ (box3 rnd p nx ny nz r).khi := hh.2.2.2
    have e : (box3 rnd p nx ny nz r).khi = hi rnd (r / (p.1 * p.2.1)) nz p.2.2 := rfl
    have z : r / (p.1 * p.2.1) = 0 := Nat.div_eq_of_lt (by rw [hp]; exact hr)
    have hz' : nz ≤ P * nz := Nat.le_mul_of_pos_left nz hP
    rw [e, z, hi_eq R (by rw [zero_add, one_mul]; omega) hz.1 h3] at hk
    unfold blockHi at hk
    have hlt : nz / p.2.2 < nz := Nat.div_lt_self hz.1 h1
    rw [zero_add, one_mul] at hk
    omega
  refine ⟨⟨fun T => ?_, fun h1 => ?_⟩, last⟩
  · by_contra hne
    obtain ⟨r, hr, hh⟩ := T.owner 0 0 (nz - 1) (by omega) (by omega) (by omega)
    have := last (by omega) r hr 0 0 (nz - 1) hh
    omega
  · have hpp : p.1 * p.2.1 * p.2.2 = P := by rw [h1, mul_one, hp]
    have e : ∀ r < P, box3 rnd p nx ny nz r = gridBox p nx ny nz r := fun r hr => box3_eq R hpp hP hx hy hz hr
    have T := gridBox_tiles hpp hP nx ny nz
    refine ⟨?_, ?_, ?_⟩
    · intro a ha i j k hh
      rw [e a ha] at hh
      exact T.inside a ha i j k hh
    · intro i j k hi hj hk
      obtain ⟨a, ha, hh⟩ := T.owner i j k hi hj hk
      exact ⟨a, ha, by rw [e a ha]; exact hh⟩
    · intro a ha b hb i j k h1 h2
      rw [e a ha] at h1
      rw [e b hb] at h2
      exact T.disjoint a ha b hb i j k h1 h2

/-- Grids of the kind in `C66_boxes`: 2 x 2 x 2 on 4 ranks is accepted (`C66_accepts_false`) and misses a plane. -/
example : Rounding rnd53 ∧ (0 < 4 ∧ ((2, 2, 2) : Nat × Nat × Nat).1 * ((2, 2, 2) : Nat × Nat × Nat).2.1 = 4) ∧ 4 * 8 < 2 ^ 53 :=
  ⟨rounding53, by decide, by decide⟩

/-- **C66 (division by zero).**  `-pout Px Py 0` is accepted, and then `grid_setup` divides by zero. -/
theorem C66_division_false (rnd : ℝ → ℝ) {o : Opt3} {P : Nat} (h1 : o.pout.1 ≠ 0) (h3 : o.pout.2.2 = 0) :
    argsPy3 rnd o P = none := by
  unfold argsPy3
  have e : outGrid3 rnd o P = some o.pout := by
    unfold outGrid3
    rw [if_pos (Or.inl h1)]
  rw [e]
  cases inGrid3 rnd o P with
  | none => rfl
  | some p =>
    simp only [Option.bind_some]
    exact if_pos (Or.inr (Or.inr (Or.inr h3)))

/-! ## Data -/

/-- **C66 (random numbers).**  For seeds that are non-negative `int` the numbers are those of the C++ programs. -/
theorem C66_random (rnd : ℝ → ℝ) {seed : Int} (h0 : 0 ≤ seed) (h1 : seed ≤ 2147483647) :
    random rnd seed = some (randomPy rnd seed) := by
  have key : 16807 * seed % 2147483647 = (randomPy rnd seed).1 := by
    unfold randomPy
    simp only
    have hk : seed = seed / 127773 * 127773 + seed % 127773 := by omega
    generalize hq : seed / 127773 = k at *
    generalize hr : seed % 127773 = t at *
    have ht : 0 ≤ t ∧ t < 127773 := by omega
    have hk0 : 0 ≤ k ∧ k ≤ 16807 := by omega
    split_ifs with hs
    · omega
    · omega
  rw [random_eq rnd h0 h1]
  have e : randomPy rnd seed = ((randomPy rnd seed).1, rnd (rnd (1 / 2147483647) * ((randomPy rnd seed).1 : Int))) := rfl
  rw [e, ← key]

/-- **C66 (random numbers, large seeds).**  The Python programs also accept seeds that are no `int`; the numbers are then
not between 0 and 1. -/
theorem C66_random_false : (randomPy id 999999999999).1 = -18770257373 ∧ (randomPy id 999999999999).2 < 0 := by
  have e : (randomPy id 999999999999).1 = -18770257373 := by
    unfold randomPy
    norm_num
  refine ⟨e, ?_⟩
  have e2 : (randomPy id 999999999999).2 = 1 / 2147483647 * ((randomPy id 999999999999).1 : Int) := rfl
  rw [e2, e]
  norm_num

namespace DriverPy

variable {rnd : ℝ → ℝ}

/-- Two loops that do the same in all states that occur. -/
theorem forFrom_congr_inv {σ : Type} {body body' : Int → σ → Option σ} (I : σ → Prop) (n : Nat) :
    ∀ (i : Int) (s : σ), I s → (∀ i s, I s → body i s = body' i s) → (∀ i s s', I s → body i s = some s' → I s') →
      forFrom i n body s = forFrom i n body' s := by
  induction n with
  | zero => intro i s _ _ _; rfl
  | succ n ih =>
    intro i s hs h1 h2
    simp only [forFrom]
    rw [← h1 i s hs]
    cases hb : body i s with
    | none => rfl
    | some s' =>
      simp only [Option.bind_some]
      exact ih (i + 1) s' (h2 i s s' hs hb) h1 h2

theorem randomPy_range {seed : Int} (h0 : 0 ≤ seed) (h1 : seed ≤ 2147483647) :
    0 ≤ (randomPy rnd seed).1 ∧ (randomPy rnd seed).1 ≤ 2147483647 := by
  have h := C66_random rnd h0 h1
  rw [random_eq rnd h0 h1] at h
  have e := congrArg Prod.fst (Option.some.inj h)
  simp only at e
  omega

theorem fillRandomPy_eq {nfft seed : Int} (h0 : 0 < seed) (h1 : seed < 2 ^ 31) (w : Mem ℝ) :
    fillRandomPy rnd nfft seed w = fillRandom rnd nfft seed w := by
  unfold fillRandomPy fillRandom forN
  congr 1
  refine forFrom_congr_inv (fun s => 0 ≤ s.1 ∧ s.1 ≤ 2147483647) _ _ _ ⟨h0.le, by simp only; omega⟩ ?_ ?_
  · intro i s hs
    simp only [C66_random rnd hs.1 hs.2, Option.bind_some]
  · intro i s s' hs h
    rw [Option.map_eq_some_iff] at h
    obtain ⟨w', _, rfl⟩ := h
    exact randomPy_range (rnd := rnd) hs.1 hs.2

theorem checkRandomPy_eq {nfft seed : Int} (h0 : 0 < seed) (h1 : seed < 2 ^ 31) (w : Mem ℝ) :
    checkRandomPy rnd nfft seed w = checkRandom rnd nfft seed w := by
  unfold checkRandomPy checkRandom forN
  congr 1
  refine forFrom_congr_inv (fun s => 0 ≤ s.1 ∧ s.1 ≤ 2147483647) _ _ _ ⟨h0.le, by simp only; omega⟩ ?_ ?_
  · intro i s hs
    simp only [C66_random rnd hs.1 hs.2, Option.bind_some]
  · intro i s s' hs h
    rw [Option.map_eq_some_iff] at h
    obtain ⟨w', _, rfl⟩ := h
    exact randomPy_range (rnd := rnd) hs.1 hs.2

end DriverPy

/-- **C66 (data).**  With options that the C++ programs accept, `initialize` and `validate` do the same. -/
theorem C66_data {rnd : ℝ → ℝ} {o : Opt3} {P : Nat} (ho : o.Accepted P) {r : Nat} (hr : r < P) (b : Box3) (w : Mem ℝ) :
    initializePy3 rnd o r b w = o.initialize rnd r b w ∧ validatePy3 rnd o r b w = o.validate rnd r b w := by
  unfold initializePy3 Opt3.initialize validatePy3 Opt3.validate
  cases h : o.iflag with
  | zero => exact ⟨rfl, rfl⟩
  | step => exact ⟨rfl, rfl⟩
  | index => exact ⟨rfl, rfl⟩
  | random n =>
    have := ho.seed n h r hr
    exact ⟨fillRandomPy_eq this.1 this.2 w, checkRandomPy_eq this.1 this.2 w⟩

theorem C66_data_2d {rnd : ℝ → ℝ} {o : Opt2} {P : Nat} (ho : o.Accepted P) {r : Nat} (hr : r < P) (b : Box2) (w : Mem ℝ) :
    initializePy2 rnd o r b w = o.initialize rnd r b w ∧ validatePy2 rnd o r b w = o.validate rnd r b w := by
  unfold initializePy2 Opt2.initialize validatePy2 Opt2.validate
  cases h : o.iflag with
  | zero => exact ⟨rfl, rfl⟩
  | step => exact ⟨rfl, rfl⟩
  | index => exact ⟨rfl, rfl⟩
  | random n =>
    have := ho.seed n h r hr
    exact ⟨fillRandomPy_eq this.1 this.2 w, checkRandomPy_eq this.1 this.2 w⟩

/-! ## Main program -/

theorem DriverPy.grid3_ne {p : Nat × Nat × Nat} {P : Nat} (hP : 0 < P) (h : p.1 * p.2.1 * p.2.2 = P) :
    p.1 ≠ 0 ∧ p.2.1 ≠ 0 ∧ p.2.2 ≠ 0 := by
  refine ⟨?_, ?_, ?_⟩ <;> intro h0 <;> rw [h0] at h <;> simp at h <;> omega

theorem DriverPy.inGrid3_ok {rnd : ℝ → ℝ} (R : Rounding rnd) {o : Opt3} {P : Nat} (ho : o.Accepted P) :
    ∃ p, inGrid3 rnd o P = some p ∧ p.1 * p.2.1 * p.2.2 = P ∧ (o.pin ≠ (0, 0, 0) → p = o.pin) := by
  unfold inGrid3
  rcases ho.pin with h | h
  · rw [if_neg (by simp [h])]
    obtain ⟨p, h1, h2, _⟩ := proc3dPy_ok R ho.nx ho.ny ho.nz ho.procs
    exact ⟨p, h1, h2, fun hne => absurd h hne⟩
  · rw [if_pos (Or.inl (grid3_ne ho.procs h).1)]
    exact ⟨_, rfl, h, fun _ => rfl⟩

theorem DriverPy.outGrid3_ok {rnd : ℝ → ℝ} (R : Rounding rnd) {o : Opt3} {P : Nat} (ho : o.Accepted P) :
    ∃ p, outGrid3 rnd o P = some p ∧ p.1 * p.2.1 * p.2.2 = P ∧ (o.pout ≠ (0, 0, 0) → p = o.pout) := by
  unfold outGrid3
  rcases ho.pout with h | h
  · rw [if_neg (by simp [h])]
    by_cases h0 : o.mode = 0 ∨ o.mode = 2
    · rw [if_pos h0]
      obtain ⟨p, h1, h2, _⟩ := proc3dPy_ok R ho.nx ho.ny ho.nz ho.procs
      exact ⟨p, h1, h2, fun hne => absurd h hne⟩
    · have := ho.mode
      rw [if_neg h0, if_pos (by omega)]
      obtain ⟨p, h1, h2, _⟩ := proc2dPy_ok R ho.nx ho.ny ho.procs
      rw [h1]
      exact ⟨_, rfl, by simpa using h2, fun hne => absurd h hne⟩
  · rw [if_pos (Or.inl (grid3_ne ho.procs h).1)]
    exact ⟨_, rfl, h, fun _ => rfl⟩

/-- **C66 (arguments of `setup`).**  With options that the C++ program accepts, the arguments of `setup` are those of the C++
program with certain grids: those of the command line, if there are any.  In modes 0 and 2 both grids are the same if
none is given. -/
theorem C66_args {rnd : ℝ → ℝ} (R : Rounding rnd) {o : Opt3} {P : Nat} (ho : o.Accepted P) :
    ∃ p q : Nat × Nat × Nat, p.1 * p.2.1 * p.2.2 = P ∧ q.1 * q.2.1 * q.2.2 = P ∧
      argsPy3 rnd o P = ({ o with pin := p, pout := q } : Opt3).args rnd P ∧
      (o.pin ≠ (0, 0, 0) → p = o.pin) ∧ (o.pout ≠ (0, 0, 0) → q = o.pout) ∧
      (o.pin = o.pout → o.mode = 0 ∨ o.mode = 2 → p = q) := by
  obtain ⟨p, h1, h2, h3⟩ := DriverPy.inGrid3_ok R ho
  obtain ⟨q, h4, h5, h6⟩ := DriverPy.outGrid3_ok R ho
  refine ⟨p, q, h2, h5, ?_, h3, h6, ?_⟩
  · have np := grid3_ne ho.procs h2
    have nq := grid3_ne ho.procs h5
    have e1 : ({ o with pin := p, pout := q } : Opt3).inGrid rnd P = some p := if_pos (Or.inl np.1)
    have e2 : ({ o with pin := p, pout := q } : Opt3).outGrid rnd P = some q := if_pos (Or.inl nq.1)
    unfold argsPy3 Opt3.args
    rw [h1, h4, e1, e2]
    simp only [Option.bind_some, Option.map_some]
    rw [if_neg (by unfold ZeroDiv3; omega)]
  · intro he hm
    have : outGrid3 rnd o P = inGrid3 rnd o P := by
      unfold outGrid3 inGrid3
      rw [he, if_pos hm]
    rw [this, h1] at h4
    exact Option.some.inj h4

theorem DriverPy.grid2_ne {p : Nat × Nat} {P : Nat} (hP : 0 < P) (h : p.1 * p.2 = P) : p.1 ≠ 0 ∧ p.2 ≠ 0 := by
  refine ⟨?_, ?_⟩ <;> intro h0 <;> rw [h0] at h <;> simp at h <;> omega

theorem C66_args_2d {rnd : ℝ → ℝ} (R : Rounding rnd) {o : Opt2} {P : Nat} (ho : o.Accepted P) :
    ∃ p : Nat × Nat, p.1 * p.2 = P ∧ argsPy2 rnd o P = ({ o with pin := p } : Opt2).args rnd P ∧
      (o.pin ≠ (0, 0) → p = o.pin) := by
  have key : ∃ p, inGrid2 rnd o P = some p ∧ p.1 * p.2 = P ∧ (o.pin ≠ (0, 0) → p = o.pin) := by
    unfold inGrid2
    rcases ho.pin with h | h
    · rw [if_neg (by simp [h])]
      obtain ⟨p, h1, h2, _⟩ := proc2dPy_ok R ho.nx ho.ny ho.procs
      exact ⟨p, h1, h2, fun hne => absurd h hne⟩
    · rw [if_pos (Or.inl (grid2_ne ho.procs h).1)]
      exact ⟨_, rfl, h, fun _ => rfl⟩
  obtain ⟨p, h1, h2, h3⟩ := key
  obtain ⟨q, h4, h5⟩ := outGrid2_ok ho
  refine ⟨p, h2, ?_, h3⟩
  have np := grid2_ne ho.procs h2
  have nq := grid2_ne ho.procs h5
  have e1 : ({ o with pin := p } : Opt2).inGrid rnd P = some p := if_pos (Or.inl np.1)
  have e2 : ({ o with pin := p } : Opt2).outGrid P = some q := h4
  unfold argsPy2 Opt2.args
  rw [h1, h4, e1, e2]
  simp only [Option.bind_some, Option.map_some]
  rw [if_neg (by unfold ZeroDiv2; omega)]

theorem Driver.epsmax_congr {P : Nat} {e e' : Nat → Option ℝ} (h : ∀ r < P, e r = e' r) : epsmax P e = epsmax P e' := by
  induction P with
  | zero => rfl
  | succ P ih =>
    cases P with
    | zero => exact h 0 (by omega)
    | succ P =>
      unfold epsmax
      rw [ih fun r hr => h r (by omega), h (P + 1) (by omega)]

/-- What a rank executes is what it executes in the C++ program. -/
theorem DriverPy.run3Py_eq {rnd : ℝ → ℝ} {o : Opt3} {P : Nat} (ho : o.Accepted P) (hm : o.mode < 2) {r : Nat} (hr : r < P)
    (p q : Nat × Nat × Nat) (b : Box3) (f : Fft3 ℝ) (J J' : Nat → Nat → Junk) :
    run3Py rnd o r b f J J' = ({ o with pin := p, pout := q } : Opt3).run rnd r b f J J' := by
  unfold run3Py Opt3.run
  rw [if_pos hm]
  have e : initializePy3 rnd o r b = ({ o with pin := p, pout := q } : Opt3).initialize rnd r b :=
    funext fun w => (C66_data ho hr b w).1
  rw [e]

/-- **C66 (test3d.py in mode 0).**  `test3d.py -v` in mode 0 with the same processor grid for input and output (the
default), with options that test3d.cpp accepts: `setup` succeeds on all ranks, every execution with the memory that the
program allocates runs to the end, and the error printed is 0.  Missing: the other modes (`C66_forward_false`), different
grids (`C61_test3d_false` applies), and grids with a third number other than 1 (`C66_accepts_false`). -/
theorem C66_test3d_partial {rnd : ℝ → ℝ} (R : Rounding rnd) {o : Opt3} {P : Nat} (ho : o.Accepted P) (hs : o.Small P)
    (hx : Supported o.nx) (hy : Supported o.ny) (hz : Supported o.nz) (hm : o.mode = 0) (hp : o.pin = o.pout) :
    ∃ (a : Args3) (f : Nat → Fft3 ℝ), argsPy3 rnd o P = some a ∧ (∀ r < P, fft3Setup P r a o.settings = some (.ok (f r))) ∧
      ∀ (e : Bool) (J J' : Nat → Nat → Nat → Junk) (m : Nat → LMem ℝ),
        (∀ r < P, accessible ((m r).ub 0) 0 (2 * (f r).fftsize) ∧ accessible (m r).sb 0 (f r).sendsize ∧
          accessible (m r).rb 0 (f r).recvsize) →
        ∃ m', Terminates e P (fun r => run3Py rnd o r (a.ins r) (f r) (J r) (J' r)) m m' ∧
          epsmax P (fun r => validatePy3 rnd o r (a.ins r) ((m' r).ub 0)) = some 0 := by
  obtain ⟨p, q, h1, h2, h3, _, _, h6⟩ := C66_args R ho
  have hpq := h6 hp (Or.inl hm)
  subst hpq
  set o' : Opt3 := { o with pin := p, pout := p } with ho'
  have hacc : o'.Accepted P := { ho with pin := Or.inr h1, pout := Or.inr h1 }
  obtain ⟨a, f, k1, k2, k3⟩ := C61_test3d R hacc hs hx hy hz hm rfl
  refine ⟨a, f, by rw [h3]; exact k1, k2, ?_⟩
  intro e J J' m hmem
  obtain ⟨m', t, v⟩ := k3 e J J' m hmem
  refine ⟨m', t.congr fun r hr => run3Py_eq ho (by omega) hr p p _ _ _ _, ?_⟩
  rw [← v]
  exact epsmax_congr fun r hr => (C66_data ho hr _ _).2

/-- Random data on 7 ranks: the hypotheses of `C66_test3d_partial`. -/
example : let o : Opt3 := { default3 with iflag := .random 82783, nloop := 10, nx := 60 }
    Rounding rnd53 ∧ o.Accepted 7 ∧ o.Small 7 ∧ Supported o.nx ∧ Supported o.ny ∧ o.mode = 0 ∧ o.pin = o.pout :=
  ⟨rounding53, { default3_accepted (P := 7) (by decide) with
      nx := by decide
      seed := by
        intro n h r hr
        cases h
        omega }, by simp [Opt3.Small, default3], supported_of (k := 3) (by decide) (by decide),
    supported_of (k := 3) (by decide) (by decide), rfl, rfl⟩

/-- **C66 (test2d.py in mode 0).**  The same for test2d.py if both processor grids are given and are the same. -/
theorem C66_test2d_partial {rnd : ℝ → ℝ} (R : Rounding rnd) {o : Opt2} {P : Nat} (ho : o.Accepted P) (hs : o.Small P)
    {w : Int} (hw : o.pflag = 2 → w = 1) (hx : Supported o.nx) (hy : Supported o.ny) (hm : o.mode = 0)
    (hp : o.pin = o.pout) (hg : o.pin ≠ (0, 0)) :
    ∃ (a : Args2) (f : Nat → Fft2 ℝ), argsPy2 rnd o P = some a ∧ (∀ r < P, fft2Setup w P r a o.settings = some (.ok (f r))) ∧
      ∀ (e : Bool) (J J' : Nat → Nat → Nat → Junk) (m : Nat → LMem ℝ),
        (∀ r < P, accessible ((m r).ub 0) 0 (2 * (f r).fftsize) ∧ accessible (m r).sb 0 (f r).sendsize ∧
          accessible (m r).rb 0 (f r).recvsize) →
        ∃ m', Terminates e P (fun r => run2Py rnd o r (a.ins r) (f r) (J r) (J' r)) m m' ∧
          epsmax P (fun r => validatePy2 rnd o r (a.ins r) ((m' r).ub 0)) = some 0 := by
  obtain ⟨p, h1, h2, h3⟩ := C66_args_2d R ho
  have hp' := h3 hg
  subst hp'
  obtain ⟨a, f, k1, k2, k3⟩ := C61_test2d R ho hs hw hx hy hm hp hg
  refine ⟨a, f, by rw [h2]; exact k1, k2, ?_⟩
  intro e J J' m hmem
  obtain ⟨m', t, v⟩ := k3 e J J' m hmem
  refine ⟨m', t.congr fun r hr => ?_, ?_⟩
  · unfold run2Py Opt2.run
    have e : initializePy2 rnd o r (a.ins r) = o.initialize rnd r (a.ins r) := funext fun w => (C66_data_2d ho hr _ w).1
    rw [e]
  · rw [← v]
    exact epsmax_congr fun r hr => (C66_data_2d ho hr _ _).2

/-- **C66 (forward only).**  In modes 2 and 3 test3d.py never runs to the end: the loop raises an exception on every rank. -/
theorem C66_forward_false {rnd : ℝ → ℝ} {o : Opt3} {P : Nat} (hP : 0 < P) (hm : 2 ≤ o.mode) (hn : 0 < o.nloop)
    (b : Nat → Box3) (f : Nat → Fft3 ℝ) (e : Bool) (J J' : Nat → Nat → Nat → Junk) (m m' : Nat → LMem ℝ) :
    ¬ Terminates e P (fun r => run3Py rnd o r (b r) (f r) (J r) (J' r)) m m' := by
  intro T
  have hp : run3Py rnd o 0 (b 0) (f 0) (J 0) (J' 0) =
      .loc (onWork (initializePy3 rnd o 0 (b 0))) :: raise :: List.replicate (o.nloop - 1) raise := by
    unfold run3Py
    rw [if_neg (by omega)]
    obtain ⟨n, hn'⟩ : ∃ n, o.nloop = n + 1 := ⟨o.nloop - 1, by omega⟩
    rw [hn', Nat.add_sub_cancel]
    rfl
  cases hi : onWork (initializePy3 rnd o 0 (b 0)) (m 0) with
  | none => exact not_terminates_of_head hP hp hi T
  | some l =>
    set c0 := initCfg P (fun r => run3Py rnd o r (b r) (f r) (J r) (J' r)) m with hc0
    have h0 : c0.rank 0 = ⟨run3Py rnd o 0 (b 0) (f 0) (J 0) (J' 0), m 0, [], none⟩ := by
      rw [hc0]
      simp [initCfg, hP]
    have ha : act (c0.rank 0) 0 = some (.tau ⟨raise :: List.replicate (o.nloop - 1) raise, l, [], none⟩) := by
      rw [h0, hp]
      simp [act, hi]
    have hs : step e c0 0 0 = some ⟨Function.update c0.rank 0
        ⟨raise :: List.replicate (o.nloop - 1) raise, l, [], none⟩, c0.chan⟩ := by
      unfold step
      rw [ha]
    refine T.safe 1 _ (.step 0 0 hs (.refl _)) 0 ⟨by simp, Or.inl fun ch => ?_⟩
    simp [act, raise]

/-! ## Output -/

/-- **C66 (output, several ranks).**  With `-o` on two or more ranks no rank returns from `output`. -/
theorem C66_output_false {P me : Nat} (hP : 2 ≤ P) (flag : Nat) (b b' : Box3) (c c' : Box2) (w : Mem ℝ)
    {l l' : List ((Int × Int) × ℝ × ℝ)} {k k' : Bool} :
    (outputPy3 P me flag b b' w = some (l, k) → k = false) ∧ (outputPy2 P me flag c c' w = some (l', k') → k' = false) := by
  constructor <;> intro h
  · unfold outputPy3 at h
    by_cases h1 : 1 ≤ me
    · rw [if_pos h1] at h
      cases h
      rfl
    · rw [if_neg h1] at h
      obtain ⟨_, _, h⟩ := Option.map_eq_some_iff.mp h
      cases h
      exact decide_eq_false (by omega)
  · unfold outputPy2 at h
    by_cases h1 : 1 ≤ me
    · rw [if_pos h1] at h
      cases h
      rfl
    · rw [if_neg h1] at h
      obtain ⟨_, _, h⟩ := Option.map_eq_some_iff.mp h
      cases h
      exact decide_eq_false (by omega)

theorem DriverPy.pointPy_eq {b : Box2} {m : Int} (hm : 0 ≤ m) : pointPy b.ilo b.jlo b.isize m = point2 b m := by
  unfold pointPy point2
  rw [Int.tmod_eq_emod_of_nonneg hm, Int.tdiv_eq_ediv_of_nonneg hm]

theorem forFrom_congr_ge {σ : Type} {body body' : Int → σ → Option σ} (n : Nat) :
    ∀ (i : Int) (s : σ), (∀ j s, i ≤ j → body j s = body' j s) → forFrom i n body s = forFrom i n body' s := by
  induction n with
  | zero => intro i s _; rfl
  | succ n ih =>
    intro i s h
    simp only [forFrom]
    rw [← h i s le_rfl]
    cases body i s with
    | none => rfl
    | some s' => exact ih (i + 1) s' fun j t hj => h j t (by omega)

/-- **C66 (output, 2d).**  On one rank test2d.py prints what test2d.cpp prints, and returns. -/
theorem C66_output_2d (flag : Nat) (b b' : Box2) (w : Mem ℝ) :
    outputPy2 1 0 flag b b' w = (output2 flag b b' w).map fun l => (l, true) := by
  have e : printed (nfft2 b) (pointPy (if flag = 0 then b else b').ilo (if flag = 0 then b else b').jlo
      (if flag = 0 then b else b').isize) w = output2 flag b b' w := by
    unfold output2 printed forN
    refine forFrom_congr_ge _ 0 _ fun i l h0 => ?_
    rw [pointPy_eq h0]
  unfold outputPy2
  rw [if_neg (by decide)]
  simp only
  rw [e]
  rfl

/-- **C66 (output, 3d): false.**  test3d.py prints two indices for a point.  If the box has two or more planes, the second
index leaves the box: the lines do not name the points. -/
theorem C66_output_3d_false {P : Nat} {b b' : Box3} (hb : b.Proper) (hi : 0 < b.isize) (hj : 0 < b.jsize) (hk : 1 < b.ksize)
    {w : Mem ℝ} (hw : accessible w 0 (2 * b.count)) :
    ∃ l k, outputPy3 P 0 0 b b' w = some (l, k) ∧ ∃ i j x y, ((i, j), x, y) ∈ l ∧ b.jhi < j := by
  have hc := nfft3_eq hb
  have hm : b.isize * b.jsize < b.count := by
    unfold Box3.count
    rw [max_eq_left hi.le, max_eq_left hj.le, max_eq_left (by omega)]
    nlinarith [mul_pos hi hj]
  obtain ⟨n, hn⟩ := Int.eq_ofNat_of_zero_le (a := b.count) (count_nonneg _)
  obtain ⟨m, hmn⟩ := Int.eq_ofNat_of_zero_le (a := b.isize * b.jsize) (mul_pos hi hj).le
  have hp := printed_eq n (pt := pointPy b.ilo b.jlo b.isize) (w := w)
    (g := fun m => (b.ilo + m % b.isize, b.jlo + m / b.isize)) (fun m _ _ => by
      unfold pointPy
      rw [if_neg (by omega)]) (v := fun x => (w x).getD 0) fun x h0 h1 =>
    getD_of_accessible hw h0 (by rw [hn]; exact h1)
  refine ⟨(List.range n).map fun m : Nat => ((b.ilo + (m : Int) % b.isize, b.jlo + (m : Int) / b.isize),
      (w (2 * m)).getD 0, (w (2 * m + 1)).getD 0), decide (¬ 0 < P - 1), ?_, b.ilo, b.jlo + b.jsize,
    (w (2 * m)).getD 0, (w (2 * m + 1)).getD 0, List.mem_map.mpr ⟨m, List.mem_range.mpr (by omega), ?_⟩, ?_⟩
  · unfold outputPy3
    rw [if_neg (by decide)]
    simp only [if_pos]
    rw [hc, hn, hp]
    rfl
  · rw [← hmn, Int.mul_emod_right, Int.mul_ediv_cancel_left _ (by omega), add_zero]
  · simp only [Box3.jsize]
    omega

/-- Boxes of `C66_output_3d_false`: the default grid on one rank. -/
example : let b : Box3 := ⟨0, 7, 0, 7, 0, 7⟩
    b.Proper ∧ 0 < b.isize ∧ 0 < b.jsize ∧ 1 < b.ksize ∧ accessible (fun _ => some (0 : ℝ)) 0 (2 * b.count) := by
  exact ⟨by simp [Box3.Proper, Box3.isize, Box3.jsize, Box3.ksize], by decide, by decide, by decide, fun _ _ _ => rfl⟩

end FftMpi
