import Verif.PropsDriverPy

/-!
# C66: command lines that the Python test programs accept
-/

noncomputable section

namespace FftMpi

open Driver DriverF DriverPy

/-! ## Specification -/

/-- A word that `int` accepts and that is an `int` of C, also after adding the rank `me`. -/
def DriverPy.Number (me : Nat) (s : String) : Prop :=
  ∃ v, pyInt s = some v ∧ -2147483648 ≤ v ∧ v + me ≤ 2147483647

/-- The numbers are where they must be. -/
structure DriverPy.Readable (three : Bool) (flt : String → Option Bool) (neg : String → Bool) (me : Nat)
    (args : List String) : Prop where
  grid : ∀ i w s, args[i]? = some w → (w = "-g" ∨ w = "-pin" ∨ w = "-pout") →
    (args[i + 1]? = some s ∨ args[i + 2]? = some s ∨ (three = true ∧ args[i + 3]? = some s)) → Number me s
  one : ∀ i w s, args[i]? = some w → (w = "-n" ∨ w = "-m") → args[i + 1]? = some s → Number me s
  init : ∀ i s, args[i]? = some "-i" → args[i + 1]? = some s → s = "zero" ∨ s = "step" ∨ s = "index" ∨ Number me s
  tune : ∀ i s, args[i]? = some "-tune" → (args[i + 1]? = some s ∨ args[i + 3]? = some s) → Number me s
  tmax : ∀ i s, args[i]? = some "-tune" → args[i + 2]? = some s → flt s = some (neg s)

namespace DriverPy

variable {three : Bool} {flt : String → Option Bool} {neg : String → Bool} {P me : Nat} {args : List String}

theorem pyInt_atoi {s : String} (h : Number me s) : pyInt s = atoi s := by
  obtain ⟨v, hv, h1, h2⟩ := h
  rw [hv, C66_int hv]
  exact (ck_eq ⟨by omega, by omega⟩).symm

theorem numPy_eq {i : Nat} (h : ∀ s, args[i]? = some s → Number me s) : numPy args i = num args i := by
  unfold numPy num argv
  cases hs : args[i]? with
  | none => rfl
  | some s => exact pyInt_atoi (h s hs)

theorem gridPy_eq (h : Readable three flt neg me args) {iarg : Nat} {w : String} (hw : args[iarg]? = some w)
    (hw' : w = "-g" ∨ w = "-pin" ∨ w = "-pout") (set : Int → Int → Int → Cmd) :
    gridPy three args iarg set = grid three args iarg set := by
  have e1 : numPy args (iarg + 1) = num args (iarg + 1) :=
    numPy_eq fun s hs => h.grid iarg w s hw hw' (Or.inl hs)
  have e2 : numPy args (iarg + 2) = num args (iarg + 2) :=
    numPy_eq fun s hs => h.grid iarg w s hw hw' (Or.inr (Or.inl hs))
  unfold gridPy grid
  by_cases ht : three = true
  · have e3 : numPy args (iarg + 3) = num args (iarg + 3) :=
      numPy_eq fun s hs => h.grid iarg w s hw hw' (Or.inr (Or.inr ⟨ht, hs⟩))
    rw [if_pos ht, if_pos ht, e1, e2, e3]
  · rw [if_neg ht, if_neg ht, e1, e2]

theorem onePy_eq (h : Readable three flt neg me args) {iarg : Nat} {w : String} (hw : args[iarg]? = some w)
    (hw' : w = "-n" ∨ w = "-m") (set : Int → Cmd) : onePy args iarg set = one args iarg set := by
  unfold onePy one
  rw [numPy_eq fun s hs => h.one iarg w s hw hw' hs]

theorem initPy_eq (h : Readable three flt neg me args) {iarg : Nat} (hw : args[iarg]? = some "-i") (o : Cmd) :
    initArgPy me args iarg o = initArg me args iarg o := by
  unfold initArgPy initArg argv
  refine if_congr Iff.rfl rfl ?_
  cases hs : args[iarg + 1]? with
  | none => rfl
  | some s =>
    simp only [Option.bind_some]
    by_cases h1 : s = "zero"
    · rw [if_pos h1, if_pos h1]
    by_cases h2 : s = "step"
    · rw [if_neg h1, if_neg h1, if_pos h2, if_pos h2]
    by_cases h3 : s = "index"
    · rw [if_neg h1, if_neg h1, if_neg h2, if_neg h2, if_pos h3, if_pos h3]
    rw [if_neg h1, if_neg h1, if_neg h2, if_neg h2, if_neg h3, if_neg h3]
    have hn : Number me s := by
      rcases h.init iarg s hw hs with k | k | k | k
      · exact absurd k h1
      · exact absurd k h2
      · exact absurd k h3
      · exact k
    rw [← pyInt_atoi hn]
    obtain ⟨v, hv, k1, k2⟩ := hn
    have e : add32 v me = some (v + me) := ck_eq ⟨by omega, by omega⟩
    rw [hv]
    simp [e]

theorem tunePy_eq (h : Readable three flt neg me args) {iarg : Nat} (hw : args[iarg]? = some "-tune") (o : Cmd) :
    tuneArgPy flt args iarg o = tuneArg neg args iarg o := by
  unfold tuneArgPy tuneArg argv
  rw [numPy_eq fun s hs => h.tune iarg s hw (Or.inl hs), numPy_eq fun s hs => h.tune iarg s hw (Or.inr hs)]
  refine if_congr Iff.rfl rfl ?_
  cases hs : args[iarg + 2]? with
  | none => rfl
  | some s =>
    have := h.tmax iarg s hw hs
    simp [this]

theorem stepPy_eq (h : Readable three flt neg me args) (iarg : Nat) (o : Cmd) :
    argStepPy three flt me args iarg o = argStep three neg me args iarg o := by
  unfold argStepPy argStep
  cases hs : argv args iarg with
  | none => rfl
  | some s =>
    have hs' : args[iarg]? = some s := hs
    simp only [Option.bind_some]
    refine if_congr Iff.rfl rfl ?_
    by_cases k : s = "-g"
    · rw [if_pos k, if_pos k]
      exact gridPy_eq h hs' (by simp [k]) _
    rw [if_neg k, if_neg k]
    clear k
    by_cases k : s = "-pin"
    · rw [if_pos k, if_pos k]
      exact gridPy_eq h hs' (by simp [k]) _
    rw [if_neg k, if_neg k]
    clear k
    by_cases k : s = "-pout"
    · rw [if_pos k, if_pos k]
      exact gridPy_eq h hs' (by simp [k]) _
    rw [if_neg k, if_neg k]
    clear k
    by_cases k : s = "-n"
    · rw [if_pos k, if_pos k]
      exact onePy_eq h hs' (by simp [k]) _
    rw [if_neg k, if_neg k]
    clear k
    by_cases k : s = "-i"
    · rw [if_pos k, if_pos k]
      subst k
      exact initPy_eq h hs' _
    rw [if_neg k, if_neg k]
    clear k
    by_cases k : s = "-tune"
    · rw [if_pos k, if_pos k]
      subst k
      exact tunePy_eq h hs' _
    rw [if_neg k, if_neg k]
    clear k
    by_cases k : s = "-m"
    · rw [if_pos k, if_pos k]
      exact onePy_eq h hs' (by simp [k]) _
    rw [if_neg k, if_neg k]

theorem loopPy_eq (h : Readable three flt neg me args) (n : Nat) : ∀ (iarg : Nat) (o : Cmd),
    argLoopPy three flt me args n iarg o = argLoop three neg me args n iarg o := by
  induction n with
  | zero => intro iarg o; rfl
  | succ n ih =>
    intro iarg o
    unfold argLoopPy argLoop
    rw [stepPy_eq h iarg o]
    refine if_congr Iff.rfl ?_ rfl
    rcases argStep three neg me args iarg o with _ | (e | ⟨i, o1⟩)
    · rfl
    · rfl
    · exact ih i o1

/-- The grids that both languages accept. -/
theorem grids_ok {x y z : Int} (h : gridCheck three P x y z = some none) (h1 : three = true → x = 0 ∨ z = 1) :
    inCheck three P x y z = none ∧ outCheck three P x y z = none := by
  rcases gridCheck_ok h with k | ⟨hx, hy, hz, hxy⟩
  · constructor
    · unfold inCheck
      rw [if_pos k]
    · unfold outCheck
      rw [if_pos k]
  · have e : x * y = P := by
      cases ht : three with
      | false => rwa [ht, if_neg (by decide)] at hxy
      | true =>
        rw [ht, if_pos rfl] at hxy
        rcases h1 ht with k | k
        · omega
        · rwa [k, mul_one] at hxy
    constructor
    · unfold inCheck
      rw [if_neg (by omega), if_neg, if_neg (by rw [e]; simp)]
      rintro (k | k | ⟨ht, k⟩)
      · omega
      · omega
      · have := hz ht
        omega
    · unfold outCheck
      rw [if_neg (by omega), if_neg (by omega), if_neg (by rw [e]; simp)]

end DriverPy

/-- **C66 (what is accepted, partial).**  A command line that the C++ program accepts is accepted by the Python program, with
the same values, if its numbers are where they must be, `nloop` is not 0, and the third numbers of the processor
grids are 1 or the grids are not given.  Missing: what `C66_rejects_false` shows. -/
theorem C66_accepts_partial {three : Bool} {flt : String → Option Bool} {neg : String → Bool} {P me : Nat}
    {args : List String} {o : Cmd} (R : DriverPy.Readable three flt neg me args)
    (h : options three neg P me args = some (.ok o)) (hn : o.nloop ≠ 0)
    (h1 : three = true → (o.inpx = 0 ∨ o.inpz = 1) ∧ (o.outpx = 0 ∨ o.outpz = 1)) :
    optionsPy three flt P me args = some (.ok o) := by
  obtain ⟨hl, hc⟩ := options_ok h
  obtain ⟨hx, hy, hz, g1, g2, hk⟩ := argCheck_ok hc
  unfold optionsPy
  rw [loopPy_eq R, hl]
  have e : argCheckPy three P o = none := by
    unfold argCheckPy
    rw [if_neg, (grids_ok g1 fun ht => (h1 ht).1).1, (grids_ok g2 fun ht => (h1 ht).2).2]
    · exact runCheck_of ⟨hk.nloop, fun h0 => absurd h0 hn, hk.seed, hk.mode, hk.vflag, hk.tune⟩
    · rintro (k | k | ⟨ht, k⟩)
      · omega
      · omega
      · have := hz ht
        omega
  simp only [e]

/-- The hypotheses are met: a grid with one processor in two directions, a seed, a mode. -/
def DriverPy.cmdLinePy : List String := ["test3d.py", "-g", "6", "5", "4", "-pin", "1", "3", "1", "-i", "7", "-m", "1"]

theorem DriverPy.cmdLinePy_readable : Readable true (fun _ => some false) (fun _ => false) 2 cmdLinePy := by
  have num : ∀ s ∈ ["6", "5", "4", "1", "3", "7"], Number 2 s := by
    intro s hs
    simp only [List.mem_cons, List.not_mem_nil, or_false] at hs
    rcases hs with rfl | rfl | rfl | rfl | rfl | rfl
    · exact ⟨6, by decide +kernel, by decide⟩
    · exact ⟨5, by decide +kernel, by decide⟩
    · exact ⟨4, by decide +kernel, by decide⟩
    · exact ⟨1, by decide +kernel, by decide⟩
    · exact ⟨3, by decide +kernel, by decide⟩
    · exact ⟨7, by decide +kernel, by decide⟩
  have hi : ∀ {i : Nat} {w : String}, cmdLinePy[i]? = some w → i < 13 := by
    intro i w hw
    by_contra hi
    have : cmdLinePy[i]? = none := List.getElem?_eq_none (by show 13 ≤ i; omega)
    rw [this] at hw
    cases hw
  constructor
  · intro i w s hw hw' hs
    have key : ∀ i < 13, ∀ w ∈ cmdLinePy[i]?, (w = "-g" ∨ w = "-pin" ∨ w = "-pout") →
        (∀ s ∈ cmdLinePy[i + 1]?, s ∈ ["6", "5", "4", "1", "3", "7"]) ∧
        (∀ s ∈ cmdLinePy[i + 2]?, s ∈ ["6", "5", "4", "1", "3", "7"]) ∧
        ∀ s ∈ cmdLinePy[i + 3]?, s ∈ ["6", "5", "4", "1", "3", "7"] := by decide +kernel
    obtain ⟨k1, k2, k3⟩ := key i (hi hw) w hw hw'
    rcases hs with hs | hs | ⟨_, hs⟩
    · exact num s (k1 s hs)
    · exact num s (k2 s hs)
    · exact num s (k3 s hs)
  · intro i w s hw hw' hs
    have key : ∀ i < 13, ∀ w ∈ cmdLinePy[i]?, (w = "-n" ∨ w = "-m") →
        ∀ s ∈ cmdLinePy[i + 1]?, s ∈ ["6", "5", "4", "1", "3", "7"] := by decide +kernel
    exact num s (key i (hi hw) w hw hw' s hs)
  · intro i s hw hs
    have key : ∀ i < 13, cmdLinePy[i]? = some "-i" →
        ∀ s ∈ cmdLinePy[i + 1]?, s ∈ ["6", "5", "4", "1", "3", "7"] := by decide +kernel
    exact Or.inr (Or.inr (Or.inr (num s (key i (hi hw) hw s hs))))
  · intro i s hw hs
    have key : ∀ i < 13, cmdLinePy[i]? ≠ some "-tune" := by decide +kernel
    exact absurd hw (key i (hi hw))
  · intro i s hw hs
    rfl

example : options true (fun _ => false) 3 2 cmdLinePy = some (.ok { Cmd.default with
      nx := 6, ny := 5, nz := 4, inpx := 1, inpy := 3, inpz := 1, iflag := 3, seed := 9, mode := 1 }) ∧
    optionsPy true (fun _ => some false) 3 2 cmdLinePy = some (.ok { Cmd.default with
      nx := 6, ny := 5, nz := 4, inpx := 1, inpy := 3, inpz := 1, iflag := 3, seed := 9, mode := 1 }) := by
  have h : options true (fun _ => false) 3 2 cmdLinePy = some (.ok { Cmd.default with
      nx := 6, ny := 5, nz := 4, inpx := 1, inpy := 3, inpz := 1, iflag := 3, seed := 9, mode := 1 }) := by
    decide +kernel
  exact ⟨h, C66_accepts_partial cmdLinePy_readable h (by decide) (by decide)⟩

/-- **C66 (a grid with a zero, 2d).**  `grid_setup` of test2d.py with a grid in which only one number is 0 is an
exception, for the input and for the output grid. -/
theorem C66_division_2d {rnd : ℝ → ℝ} {o : Opt2} {P : Nat}
    (h : ((o.pin.1 ≠ 0 ∨ o.pin.2 ≠ 0) ∧ (o.pin.1 = 0 ∨ o.pin.2 = 0)) ∨
      ((o.pout.1 ≠ 0 ∨ o.pout.2 ≠ 0) ∧ (o.pout.1 = 0 ∨ o.pout.2 = 0))) : argsPy2 rnd o P = none := by
  unfold argsPy2
  rcases h with ⟨h, h0⟩ | ⟨h, h0⟩
  · unfold DriverPy.inGrid2
    rw [if_pos h, Option.bind_some]
    cases o.outGrid P with
    | none => rfl
    | some q =>
      rw [Option.bind_some, if_pos]
      exact Or.inl h0
  · cases DriverPy.inGrid2 rnd o P with
    | none => rfl
    | some q =>
      unfold Opt2.outGrid
      rw [Option.bind_some, if_pos h, Option.bind_some, if_pos]
      exact Or.inr h0

example : argsPy2 id
    { nx := 8, ny := 8, pin := (2, 0), pout := (0, 0), nloop := 1, iflag := .zero, mode := 0
      cflag := 2, eflag := 0, pflag := 2, rflag := false } 2 = none := C66_division_2d (by simp)

end FftMpi
