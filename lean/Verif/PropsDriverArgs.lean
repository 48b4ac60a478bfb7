import Verif.DriverArgsText
import Mathlib.Tactic.IntervalCases

/-!
# C62: the command line of the test programs

`options` never reads outside of `argv`, and its behaviour is defined, if all numbers are `int` and so are the
products of the processor grids and the numbers after `-i` plus the ranks.  All ranks then take the same decision,
unless the number after `-i` is in `(1 - P, 0]`.  What is accepted satisfies the assumptions of C60, C61 and C63, and
all such options can be given on the command line.
-/

namespace FftMpi

open Driver

/-! ## Specification -/

/-- Nothing on the command line makes the arithmetic of `options` overflow: each argument, read as a number, is an
`int`, so is a number after `-i` plus a rank, and so are the products of three (two) positive numbers after `-pin` and
`-pout`. -/
structure Driver.Fine (three : Bool) (P : Nat) (args : List String) : Prop where
  nums : ∀ s ∈ args, ∃ v, atoi s = some v
  seeds : ∀ i s v, args[i]? = some "-i" → args[i + 1]? = some s → s ≠ "zero" → s ≠ "step" → s ≠ "index" →
    atoi s = some v → v + P ≤ 2147483648
  grids : ∀ i s t u x y z, (args[i]? = some "-pin" ∨ args[i]? = some "-pout") → args[i + 1]? = some s →
    args[i + 2]? = some t → atoi s = some x → atoi t = some y →
    (three = true → args[i + 3]? = some u ∧ atoi u = some z) → 0 < x → 0 < y → (three = true → 0 < z) →
    x * y ≤ 2147483647 ∧ (three = true → x * y * z ≤ 2147483647)

/-- The options that the variables stand for, on rank `r` of test3d. -/
def Driver.Cmd.opt3 (c : Cmd) (r : Nat) : Opt3 where
  nx := c.nx.toNat
  ny := c.ny.toNat
  nz := c.nz.toNat
  pin := (c.inpx.toNat, c.inpy.toNat, c.inpz.toNat)
  pout := (c.outpx.toNat, c.outpy.toNat, c.outpz.toNat)
  nloop := c.nloop.toNat
  iflag := if c.iflag = 0 then .zero else if c.iflag = 1 then .step else if c.iflag = 2 then .index
    else .random (c.seed - r)
  mode := c.mode.toNat
  cflag := c.cflag
  eflag := c.eflag
  pflag := c.pflag
  rflag := c.rflag

/-- The options that the variables stand for, on rank `r` of test2d. -/
def Driver.Cmd.opt2 (c : Cmd) (r : Nat) : Opt2 where
  nx := c.nx.toNat
  ny := c.ny.toNat
  pin := (c.inpx.toNat, c.inpy.toNat)
  pout := (c.outpx.toNat, c.outpy.toNat)
  nloop := c.nloop.toNat
  iflag := if c.iflag = 0 then .zero else if c.iflag = 1 then .step else if c.iflag = 2 then .index
    else .random (c.seed - r)
  mode := c.mode.toNat
  cflag := c.cflag
  eflag := c.eflag
  pflag := c.pflag
  rflag := c.rflag

/-- The word after `-i`. -/
def Driver.Init.text : Init → String
  | .zero => "zero"
  | .step => "step"
  | .index => "index"
  | .random n => n.toNat.repr

/-- The words after `-c`, `-e` and `-p`. -/
def Driver.cText (x : Int) : String := if x = 0 then "point" else if x = 1 then "all" else "combo"
def Driver.eText (x : Int) : String := if x = 0 then "pencil" else "brick"
def Driver.pText (x : Int) : String := if x = 0 then "array" else if x = 1 then "ptr" else "memcpy"

/-- A command line of test3d for given options. -/
def Driver.Opt3.text (o : Opt3) : List String :=
  ["test3d", "-g", o.nx.repr, o.ny.repr, o.nz.repr, "-pin", o.pin.1.repr, o.pin.2.1.repr, o.pin.2.2.repr,
    "-pout", o.pout.1.repr, o.pout.2.1.repr, o.pout.2.2.repr, "-n", o.nloop.repr, "-i", o.iflag.text,
    "-m", o.mode.repr, "-c", cText o.cflag, "-e", eText o.eflag, "-p", pText o.pflag] ++ if o.rflag then ["-r"] else []

/-- A command line of test2d for given options. -/
def Driver.Opt2.text (o : Opt2) : List String :=
  ["test2d", "-g", o.nx.repr, o.ny.repr, "-pin", o.pin.1.repr, o.pin.2.repr,
    "-pout", o.pout.1.repr, o.pout.2.repr, "-n", o.nloop.repr, "-i", o.iflag.text,
    "-m", o.mode.repr, "-c", cText o.cflag, "-e", eText o.eflag, "-p", pText o.pflag] ++ if o.rflag then ["-r"] else []

/-! ## Defined behaviour -/

variable {three : Bool} {neg : String → Bool} {P : Nat} {args : List String}

theorem Driver.Fine.seedArg (h : Fine three P args) {r : Nat} (hr : r < P) {v : Int} (hv : SeedArg args v) :
    Fits (v + r) := by
  obtain ⟨i, s, h1, h2, h3, h4, h5, h6⟩ := hv
  have := h.seeds i s v h1 h2 h3 h4 h5 h6
  have := atoi_fits h6
  unfold Fits at *
  omega

theorem Driver.Fine.procArg (h : Fine three P args) {x y z : Int} (hv : ProcArg three args x y z) (hx : 0 < x)
    (hy : 0 < y) (hz : three = true → 0 < z) : Fits (x * y) ∧ (three = true → Fits (x * y * z)) := by
  obtain ⟨i, h1, h2, h3, h4⟩ := hv
  unfold num argv at h2 h3 h4
  rw [Option.bind_eq_some_iff] at h2 h3
  obtain ⟨s, hs, h2⟩ := h2
  obtain ⟨t, ht, h3⟩ := h3
  have hxy := mul_pos hx hy
  cases hthree : three with
  | false =>
    have := h.grids i s t s x y z h1 hs ht h2 h3 (by rw [hthree]; exact fun h => nomatch h) hx hy hz
    exact ⟨fits_of hxy.le this.1, fun h => nomatch h⟩
  | true =>
    have h4 := h4 hthree
    rw [Option.bind_eq_some_iff] at h4
    obtain ⟨u, hu, h4⟩ := h4
    have := h.grids i s t u x y z h1 hs ht h2 h3 (fun _ => ⟨hu, h4⟩) hx hy hz
    exact ⟨fits_of hxy.le this.1, fun _ => fits_of (mul_pos hxy (hz hthree)).le (this.2 hthree)⟩

theorem Driver.gridCheck_fine (h : Fine three P args) {x y z : Int}
    (g : (x = 0 ∧ y = 0 ∧ (three = true → z = 0)) ∨ ProcArg three args x y z) :
    ∃ e, gridCheck three P x y z = some e := by
  refine gridCheck_some fun hx hy hz => ?_
  rcases g with ⟨g, _⟩ | g
  · omega
  · exact h.procArg g hx hy hz

/-- White space of C. -/
def Driver.spaces : List Char := [' ', '\t', '\n', '\x0b', '\x0c', '\r']

theorem isSpace_iff (c : Char) : isSpace c = true ↔ c ∈ spaces := by
  simp [isSpace, spaces]

theorem digits_stop {rest : List Char} (hr : ∀ c, rest.head? = some c → c.isDigit = false) :
    ∀ (l : List Char), (∀ c ∈ l, c.isDigit) → ∀ v, digits v (l ++ rest) = digits v l := by
  intro l
  induction l with
  | nil =>
    intro _ v
    cases rest with
    | nil => rfl
    | cons c t =>
      have h := hr c rfl
      have hn : ¬('0' ≤ c ∧ c ≤ '9') := by
        intro hd
        have : c.isDigit = true := by simpa [Char.isDigit, Char.le_def] using hd
        rw [h] at this
        cases this
      rw [List.nil_append]
      simp only [digits, if_neg hn]
  | cons c l ih =>
    intro hl v
    have hc := hl c (by simp)
    have hd : '0' ≤ c ∧ c ≤ '9' := by simpa [Char.isDigit, Char.le_def] using hc
    rw [List.cons_append]
    simp only [digits, if_pos hd]
    exact ih (fun x hx => hl x (by simp [hx])) _

/-- **C62 (numbers).**  `atoi`: white space, at most one sign, the digits of `n`, and then anything but a digit; the
result is `n` with the sign, or undefined if that is not an `int`. -/
theorem C62_atoi {ws sg rest : List Char} (n : Nat) (hws : ∀ c ∈ ws, c ∈ spaces) (hsg : sg = [] ∨ sg = ['+'] ∨ sg = ['-'])
    (hr : ∀ c, rest.head? = some c → c.isDigit = false) {s : String} (hs : s.toList = ws ++ (sg ++ (n.repr.toList ++ rest))) :
    atoi s = let v : Int := if sg = ['-'] then -n else n
      if -2147483648 ≤ v ∧ v ≤ 2147483647 then some v else none := by
  have hd := repr_isDigit n
  have hv : digits 0 (n.repr.toList ++ rest) = n := by
    have := digits_eq _ hd 0
    rw [Nat.toList_repr, Nat.ofDigitChars_ten_toDigits] at this
    rw [digits_stop hr _ hd, Nat.toList_repr]
    exact_mod_cast this
  obtain ⟨c, l, hl⟩ : ∃ c l, n.repr.toList = c :: l := by
    rcases h : n.repr.toList with _ | ⟨c, l⟩
    · exact absurd h (by rw [Nat.toList_repr]; exact Nat.toDigits_ne_nil)
    · exact ⟨c, l, rfl⟩
  have hc : c.isDigit := hd c (by rw [hl]; simp)
  have drop : ∀ (x : Char) (t : List Char), x ∉ spaces → (ws ++ x :: t).dropWhile isSpace = x :: t := by
    intro x t hx
    have hx' : ¬(isSpace x = true) := fun h => hx ((isSpace_iff x).mp h)
    clear hs
    induction ws with
    | nil => exact List.dropWhile_cons_of_neg hx'
    | cons y ys ih =>
      rw [List.cons_append, List.dropWhile_cons_of_pos ((isSpace_iff y).mpr (hws y (by simp)))]
      exact ih fun z hz => hws z (by simp [hz])
  unfold atoi
  rw [hs]
  rcases hsg with rfl | rfl | rfl
  · have hx : c ∉ spaces := by
      intro h
      simp only [spaces, List.mem_cons, List.not_mem_nil, or_false] at h
      rcases h with rfl | rfl | rfl | rfl | rfl | rfl <;> revert hc <;> decide
    have hm : c ≠ '-' := by rintro rfl; revert hc; decide
    have hp : c ≠ '+' := by rintro rfl; revert hc; decide
    rw [List.nil_append, hl, List.cons_append, drop c _ hx]
    rw [hl, List.cons_append] at hv
    split
    · rename_i h; exact absurd (List.cons.inj h).1 hm
    · rename_i h; exact absurd (List.cons.inj h).1 hp
    · rw [hv]
      simp [ck, Fits]
  · rw [List.singleton_append, drop '+' _ (by decide)]
    simp only [hv]
    simp [ck, Fits]
  · rw [List.singleton_append, drop '-' _ (by decide)]
    simp only [hv]
    simp [ck, Fits]

/-- A text in which the sign matters and the rest is ignored. -/
example : atoi " -12x" = some (-12) := by
  have := C62_atoi (ws := [' ']) (sg := ['-']) (rest := ['x']) 12 (s := " -12x") (by decide) (by decide) (by decide)
    (by decide)
  rw [this]
  rfl

/-- **C62, part 1.**  If nothing overflows, the behaviour of `options` is defined: the loop ends, no argument after
the last is read, and the result is an error message or values of the variables.
Missing: command lines with numbers that overflow, `C62_defined_false`. -/
theorem C62_defined_partial (h : Fine three P args) (neg : String → Bool) {r : Nat} (hr : r < P) :
    ∃ x, options three neg P r args = some x := by
  obtain ⟨x, hx⟩ := argLoop_some (three := three) (neg := neg) h.nums (fun v hv => h.seedArg hr hv) (args.length + 1) 1
    good_default (by omega)
  unfold options
  rw [hx]
  rcases x with e | o
  · exact ⟨_, rfl⟩
  · have g := argLoop_ok _ _ good_default hx
    obtain ⟨e, he⟩ := argCheck_some (gridCheck_fine h g.pin) (gridCheck_fine h g.pout)
    dsimp only
    rw [he]
    exact ⟨_, rfl⟩

/-- The product of the processor grid overflows, test3d.cpp:378, before it is compared with the number of ranks; the
number of an argument overflows, as in `-g 8 8 99999999999`; and the seed overflows on the second rank. -/
theorem C62_defined_false :
    options true (fun _ => false) 2 0 ["test3d", "-pin", "65536", "65536", "1"] = none ∧
    options true (fun _ => false) 2 0 ["test3d", "-g", "8", "8", "99999999999"] = none ∧
    options true (fun _ => false) 2 1 ["test3d", "-i", "2147483647"] = none := by
  refine ⟨?_, ?_, ?_⟩ <;> decide +kernel

/-! ## All ranks take the same decision -/

/-- **C62, part 2.**  All ranks call `error_all` with the same message, or all go on with the same values, except
for `seed`, which is a common number plus the rank.
Missing: numbers after `-i` in `(1 - P, 0]`, `C62_agree_false`. -/
theorem C62_agree_partial (h : Fine three P args) (neg : String → Bool)
    (hs : ∀ i s v, args[i]? = some "-i" → args[i + 1]? = some s → s ≠ "zero" → s ≠ "step" → s ≠ "index" →
      atoi s = some v → 0 < v ∨ v + P ≤ 1) :
    (∃ e, ∀ r < P, options three neg P r args = some (.error e)) ∨
    ∃ c : Cmd, ∀ r < P, ∃ s, options three neg P r args = some (.ok { c with seed := s }) ∧
      (c.iflag = 3 → s = c.seed + r) := by
  by_cases hP : 0 < P
  swap
  · exact Or.inl ⟨"", fun r hr => by omega⟩
  obtain ⟨x0, hx0⟩ := argLoop_some (three := three) (neg := neg) h.nums (fun v hv => h.seedArg hP hv) (args.length + 1) 1
    good_default (by omega)
  have hrel : ∀ r < P, ∃ x, argLoop three neg r args (args.length + 1) 1 Cmd.default = some x ∧
      RelOut (RelCmd r) x0 x := by
    intro r hr
    obtain ⟨x, hx⟩ := argLoop_some (three := three) (neg := neg) h.nums (fun v hv => h.seedArg hr hv) (args.length + 1) 1
      good_default (by omega)
    refine ⟨x, hx, argLoop_rel (args.length + 1) 1 ⟨0, rfl, fun h => ?_⟩ x0 x hx0 hx⟩
    exact absurd h (show ¬ (0 : Int) = 3 by decide)
  rcases x0 with e | c
  · left
    refine ⟨e, fun r hr => ?_⟩
    obtain ⟨x, hx, hx'⟩ := hrel r hr
    unfold options
    rw [hx]
    rcases x with e' | o
    · cases hx'
      rfl
    · exact absurd hx' (fun h => h)
  · have g := argLoop_ok _ _ good_default hx0
    obtain ⟨e, he⟩ := argCheck_some (gridCheck_fine h g.pin) (gridCheck_fine h g.pout)
    have hall : ∀ r < P, ∃ s, options three neg P r args = some (match e with
        | some e => .error e
        | none => .ok { c with seed := s }) ∧ (c.iflag = 3 → s = c.seed + r) := by
      intro r hr
      obtain ⟨x, hx, hx'⟩ := hrel r hr
      rcases x with e' | o
      · exact absurd hx' (fun h => h)
      · obtain ⟨s, rfl, hc⟩ := hx'
        refine ⟨s, ?_, hc⟩
        have hsame : argCheck three P { c with seed := s } = some e := by
          rw [← he]
          refine argCheck_rel fun h3 => ?_
          rw [hc h3]
          have := g.iflag
          rcases this with h0 | h0 | h0 | ⟨_, v, ⟨i, t, k1, k2, k3, k4, k5, k6⟩, hv, _⟩
          · omega
          · omega
          · omega
          · have := hs i t v k1 k2 k3 k4 k5 k6
            omega
        unfold options
        rw [hx]
        dsimp only
        rw [hsame]
        rfl
    rcases e with _ | e
    · exact Or.inr ⟨c, hall⟩
    · left
      refine ⟨e, fun r hr => ?_⟩
      obtain ⟨s, h1, _⟩ := hall r hr
      exact h1

/-- With `-i 0` rank 0 calls `error_all`, which waits in `MPI_Barrier` and then calls `MPI_Finalize` and `exit`
(test3d.cpp:1029-1038); rank 1 accepts the seed 0 + 1 and goes on. -/
theorem C62_agree_false :
    options true (fun _ => false) 2 0 ["test3d", "-i", "0"] = some (.error "Invalid initialize setting") ∧
    options true (fun _ => false) 2 1 ["test3d", "-i", "0"] =
      some (.ok { Cmd.default with iflag := 3, seed := 1 }) := by
  constructor <;> decide +kernel

/-! ## What is accepted -/

theorem Driver.accepted_seed {c : Nat → Cmd} (h : ∀ r < P, options three neg P r args = some (.ok (c r))) (hP : 0 < P) :
    ∀ r < P, Good three r args (c r) ∧ argCheck three P (c r) = some none ∧ RelCmd r (c 0) (c r) := by
  intro r hr
  obtain ⟨h1, h2⟩ := options_ok (h r hr)
  obtain ⟨h3, _⟩ := options_ok (h 0 hP)
  refine ⟨argLoop_ok _ _ good_default h1, h2, argLoop_rel (args.length + 1) 1 ⟨0, rfl, fun h => ?_⟩ _ _ h3 h1⟩
  exact absurd h (show ¬ (0 : Int) = 3 by decide)

theorem Driver.init_random {c : Cmd} {r : Nat} (g : Good three r args c) {n : Int}
    (h : (if c.iflag = 0 then Init.zero else if c.iflag = 1 then .step else if c.iflag = 2 then .index
      else .random (c.seed - r)) = .random n) : c.iflag = 3 ∧ c.seed = n + r := by
  split_ifs at h with h1 h2 h3
  obtain h := Init.random.inj h
  have := g.iflag
  omega

/-- **C62, part 3** (test3d).  If all ranks accept the command line, they have common options, which satisfy what
C60, C61 and C63 assume; a validation is only accepted for the modes 0 and 1. -/
theorem C62_accepted {c : Nat → Cmd} (hP : 0 < P) (h : ∀ r < P, options true neg P r args = some (.ok (c r))) :
    ∃ o : Opt3, o.Accepted P ∧ (∀ r < P, (c r).opt3 r = o) ∧ (∀ r < P, (c r).vflag = (c 0).vflag) ∧
      ((c 0).vflag = true → o.mode < 2) ∧ (o.nloop = 0 → (c 0).tuneflag = true) ∧
      (o.cflag = 0 ∨ o.cflag = 1 ∨ o.cflag = 2) ∧ (o.eflag = 0 ∨ o.eflag = 1) := by
  have hh := accepted_seed h hP
  obtain ⟨g, hc, _⟩ := hh 0 hP
  obtain ⟨hx, hy, hz, hin, hout, hk⟩ := argCheck_ok hc
  have hrel : ∀ r < P, (c r).opt3 r = (c 0).opt3 0 ∧ (c r).vflag = (c 0).vflag := by
    intro r hr
    obtain ⟨g', _, s, hs, hs3⟩ := hh r hr
    have hi := g.iflag
    rw [hs]
    refine ⟨?_, rfl⟩
    by_cases h3 : (c 0).iflag = 3
    · simp [Cmd.opt3, hs3 h3]
    · simp only [Cmd.opt3, Opt3.mk.injEq, true_and, and_true]
      split_ifs <;> first | rfl | (exfalso; omega)
  refine ⟨(c 0).opt3 0, ?_, fun r hr => (hrel r hr).1, fun r hr => (hrel r hr).2, ?_, ?_, g.cflag, g.eflag⟩
  · have nx := g.nx
    have ny := g.ny
    have nz := g.nz
    have hz := hz rfl
    unfold Fits at nx ny nz
    have grid : ∀ x y z : Int, gridCheck true P x y z = some none → GridArg3 (x.toNat, y.toNat, z.toNat) P := by
      intro x y z h
      rcases gridCheck_ok h with ⟨rfl, rfl, h0⟩ | ⟨h1, h2, h3, h4⟩
      · rw [h0 rfl]
        exact Or.inl rfl
      · right
        have h3 := h3 rfl
        rw [if_pos rfl] at h4
        obtain ⟨a, rfl⟩ := Int.eq_ofNat_of_zero_le h1.le
        obtain ⟨b, rfl⟩ := Int.eq_ofNat_of_zero_le h2.le
        obtain ⟨d, rfl⟩ := Int.eq_ofNat_of_zero_le h3.le
        show a * b * d = P
        exact_mod_cast h4
    refine ⟨hP, ⟨?_, ?_⟩, ⟨?_, ?_⟩, ⟨?_, ?_⟩, grid _ _ _ hin, grid _ _ _ hout, ?_, ?_, g.pflag⟩
    · show 0 < (c 0).nx.toNat; omega
    · show (c 0).nx.toNat < _; omega
    · show 0 < (c 0).ny.toNat; omega
    · show (c 0).ny.toNat < _; omega
    · show 0 < (c 0).nz.toNat; omega
    · show (c 0).nz.toNat < _; omega
    · intro n hn r hr
      obtain ⟨g', hc', _⟩ := hh r hr
      rw [← (hrel r hr).1] at hn
      obtain ⟨h3, hseed⟩ := init_random g' hn
      have h0 := (argCheck_ok hc').2.2.2.2.2.seed h3
      rcases g'.iflag with k | k | k | ⟨_, v, _, _, hf⟩
      · omega
      · omega
      · omega
      · unfold Fits at hf
        omega
    · show (c 0).mode.toNat ≤ 3
      have := hk.mode
      omega
  · intro hv
    show (c 0).mode.toNat < 2
    have := hk.vflag hv
    omega
  · intro h0
    have h0 : (c 0).nloop.toNat = 0 := h0
    have := hk.nloop
    exact (hk.nloop0 (by omega)).2

/-- **C62, part 3** (test2d). -/
theorem C62_accepted_2d {c : Nat → Cmd} (hP : 0 < P) (h : ∀ r < P, options false neg P r args = some (.ok (c r))) :
    ∃ o : Opt2, o.Accepted P ∧ (∀ r < P, (c r).opt2 r = o) ∧ (∀ r < P, (c r).vflag = (c 0).vflag) ∧
      ((c 0).vflag = true → o.mode < 2) ∧ 0 < o.nloop ∧
      (o.cflag = 0 ∨ o.cflag = 1 ∨ o.cflag = 2) ∧ (o.eflag = 0 ∨ o.eflag = 1) := by
  have hh := accepted_seed h hP
  obtain ⟨g, hc, _⟩ := hh 0 hP
  obtain ⟨hx, hy, hz, hin, hout, hk⟩ := argCheck_ok hc
  have hrel : ∀ r < P, (c r).opt2 r = (c 0).opt2 0 ∧ (c r).vflag = (c 0).vflag := by
    intro r hr
    obtain ⟨g', _, s, hs, hs3⟩ := hh r hr
    have hi := g.iflag
    rw [hs]
    refine ⟨?_, rfl⟩
    by_cases h3 : (c 0).iflag = 3
    · simp [Cmd.opt2, hs3 h3]
    · simp only [Cmd.opt2, Opt2.mk.injEq, true_and, and_true]
      split_ifs <;> first | rfl | (exfalso; omega)
  refine ⟨(c 0).opt2 0, ?_, fun r hr => (hrel r hr).1, fun r hr => (hrel r hr).2, ?_, ?_, g.cflag, g.eflag⟩
  · have nx := g.nx
    have ny := g.ny
    unfold Fits at nx ny
    have grid : ∀ x y z : Int, gridCheck false P x y z = some none → GridArg2 (x.toNat, y.toNat) P := by
      intro x y z h
      rcases gridCheck_ok h with ⟨rfl, rfl, h0⟩ | ⟨h1, h2, _, h4⟩
      · exact Or.inl rfl
      · right
        rw [if_neg (by decide)] at h4
        obtain ⟨a, rfl⟩ := Int.eq_ofNat_of_zero_le h1.le
        obtain ⟨b, rfl⟩ := Int.eq_ofNat_of_zero_le h2.le
        show a * b = P
        exact_mod_cast h4
    refine ⟨hP, ⟨?_, ?_⟩, ⟨?_, ?_⟩, grid _ _ _ hin, grid _ _ _ hout, ?_, ?_, g.pflag⟩
    · show 0 < (c 0).nx.toNat; omega
    · show (c 0).nx.toNat < _; omega
    · show 0 < (c 0).ny.toNat; omega
    · show (c 0).ny.toNat < _; omega
    · intro n hn r hr
      obtain ⟨g', hc', _⟩ := hh r hr
      rw [← (hrel r hr).1] at hn
      obtain ⟨h3, hseed⟩ := init_random g' hn
      have h0 := (argCheck_ok hc').2.2.2.2.2.seed h3
      rcases g'.iflag with k | k | k | ⟨_, v, _, _, hf⟩
      · omega
      · omega
      · omega
      · unfold Fits at hf
        omega
    · show (c 0).mode.toNat ≤ 3
      have := hk.mode
      omega
  · intro hv
    show (c 0).mode.toNat < 2
    have := hk.vflag hv
    omega
  · show 0 < (c 0).nloop.toNat
    have h1 := hk.nloop
    by_contra h0
    exact absurd (hk.nloop0 (by omega)).1 (by decide)

/-! ## Every choice of options can be given -/

/-- What `-i` sets. -/
def Driver.Init.num : Init → Int
  | .zero => 0
  | .step => 1
  | .index => 2
  | .random _ => 3

theorem Driver.init_step {iarg r : Nat} {o : Cmd} {i : Init} (hi : iarg + 2 ≤ args.length)
    (ha : args[iarg + 1]? = some i.text) (hs : ∀ n, i = .random n → 0 < n ∧ n + r < 2 ^ 31) :
    ∃ s, initArg r args iarg o = some (.ok (iarg + 2, { o with iflag := i.num, seed := s })) ∧
      ∀ n, i = .random n → s = n + r := by
  unfold initArg argv
  rw [if_neg (by omega), ha]
  cases i with
  | zero => exact ⟨o.seed, rfl, fun n h => nomatch h⟩
  | step => exact ⟨o.seed, rfl, fun n h => nomatch h⟩
  | index => exact ⟨o.seed, rfl, fun n h => nomatch h⟩
  | random n =>
    obtain ⟨h0, h1⟩ := hs n rfl
    refine ⟨n + r, ?_, fun m h => by cases h; rfl⟩
    have e1 : (Init.random n).text = n.toNat.repr := rfl
    rw [e1, Option.bind_some, if_neg (repr_ne (c := 'z') (by decide) (by decide)),
      if_neg (repr_ne (c := 's') (by decide) (by decide)), if_neg (repr_ne (c := 'i') (by decide) (by decide)),
      atoi_repr (by omega), Option.bind_some, Int.toNat_of_nonneg h0.le, add32_eq (by unfold Fits; omega)]
    rfl

theorem Driver.cText_lookup {x : Int} (h : x = 0 ∨ x = 1 ∨ x = 2) (f : Int → Cmd) :
    [("point", f 0), ("all", f 1), ("combo", f 2)].lookup (cText x) = some (f x) := by
  rcases h with rfl | rfl | rfl <;> rfl

theorem Driver.eText_lookup {x : Int} (h : x = 0 ∨ x = 1) (f : Int → Cmd) :
    [("pencil", f 0), ("brick", f 1)].lookup (eText x) = some (f x) := by
  rcases h with rfl | rfl <;> rfl

theorem Driver.pText_lookup {x : Int} (h : x = 0 ∨ x = 1 ∨ x = 2) (f : Int → Cmd) :
    [("array", f 0), ("ptr", f 1), ("memcpy", f 2)].lookup (pText x) = some (f x) := by
  rcases h with rfl | rfl | rfl <;> rfl

theorem Driver.opt_init {i : Init} {s : Int} {r : Nat} (hs : ∀ n, i = .random n → s = n + r) :
    (if i.num = 0 then Init.zero else if i.num = 1 then .step else if i.num = 2 then .index
      else .random (s - r)) = i := by
  cases i with
  | zero => rfl
  | step => rfl
  | index => rfl
  | random n =>
    have : s - r = n := by
      have := hs n rfl
      omega
    rw [this]
    rfl

/-- **C62, part 4** (test3d).  All options that C60, C61 and C63 talk about can be given on the command line: with
the arguments `o.text`, all ranks accept, and the variables stand for `o`. -/
theorem C62_reachable {o : Opt3} (h : o.Accepted P) (hP : P < 2 ^ 31) (hn : 0 < o.nloop ∧ o.nloop < 2 ^ 31)
    (hc : o.cflag = 0 ∨ o.cflag = 1 ∨ o.cflag = 2) (he : o.eflag = 0 ∨ o.eflag = 1) {r : Nat} (hr : r < P) :
    ∃ c : Cmd, options true neg P r o.text = some (.ok c) ∧ c.opt3 r = o ∧ c.tuneflag = false ∧ c.tflag = false ∧
      c.oflag = false ∧ c.vflag = false := by
  have comp : ∀ p : Nat × Nat × Nat, GridArg3 p P → p.1 < 2 ^ 31 ∧ p.2.1 < 2 ^ 31 ∧ p.2.2 < 2 ^ 31 := by
    rintro ⟨x, y, z⟩ (hp | hp)
    · cases hp
      exact ⟨by decide, by decide, by decide⟩
    · dsimp only at hp ⊢
      have h0 := h.procs
      have h1 : x ∣ P := ⟨y * z, by rw [← hp]; ring⟩
      have h2 : y ∣ P := ⟨x * z, by rw [← hp]; ring⟩
      have h3 : z ∣ P := ⟨x * y, by rw [← hp]; ring⟩
      have := Nat.le_of_dvd h0 h1
      have := Nat.le_of_dvd h0 h2
      have := Nat.le_of_dvd h0 h3
      omega
  obtain ⟨i1, i2, i3⟩ := comp _ h.pin
  obtain ⟨j1, j2, j3⟩ := comp _ h.pout
  have hlen : o.text.length = 25 + (if o.rflag then 1 else 0) := by
    cases hb : o.rflag <;> simp [Opt3.text, hb]
  have hge : 25 ≤ o.text.length := by omega
  have seeds : ∀ n, o.iflag = .random n → 0 < n ∧ n + r < 2 ^ 31 := by
    intro n hn
    have h1 := h.seed n hn 0 h.procs
    have h2 := h.seed n hn r hr
    omega
  let c1 : Cmd := { Cmd.default with nx := o.nx, ny := o.ny, nz := o.nz }
  let c2 : Cmd := { c1 with inpx := o.pin.1, inpy := o.pin.2.1, inpz := o.pin.2.2 }
  let c3 : Cmd := { c2 with outpx := o.pout.1, outpy := o.pout.2.1, outpz := o.pout.2.2 }
  let c4 : Cmd := { c3 with nloop := o.nloop }
  obtain ⟨s, hs, hs'⟩ := init_step (args := o.text) (iarg := 15) (o := c4) (i := o.iflag) (by omega) rfl seeds
  let c5 : Cmd := { c4 with iflag := o.iflag.num, seed := s }
  let c6 : Cmd := { c5 with mode := o.mode }
  let c7 : Cmd := { c6 with cflag := o.cflag }
  let c8 : Cmd := { c7 with eflag := o.eflag }
  let c9 : Cmd := { c8 with pflag := o.pflag }
  have s1 : argStep true neg r o.text 1 Cmd.default = some (.ok (5, c1)) :=
    (word_g rfl).trans (grid3_step (by omega) rfl rfl rfl h.nx.2 h.ny.2 h.nz.2)
  have s2 : argStep true neg r o.text 5 c1 = some (.ok (9, c2)) :=
    (word_pin rfl).trans (grid3_step (by omega) rfl rfl rfl i1 i2 i3)
  have s3 : argStep true neg r o.text 9 c2 = some (.ok (13, c3)) :=
    (word_pout rfl).trans (grid3_step (by omega) rfl rfl rfl j1 j2 j3)
  have s4 : argStep true neg r o.text 13 c3 = some (.ok (15, c4)) :=
    (word_n rfl).trans (one_step (by omega) rfl hn.2)
  have s5 : argStep true neg r o.text 15 c4 = some (.ok (17, c5)) := (word_i rfl).trans hs
  have s6 : argStep true neg r o.text 17 c5 = some (.ok (19, c6)) :=
    (word_m rfl).trans (one_step (by omega) rfl (lt_of_le_of_lt h.mode (by decide)))
  have s7 : argStep true neg r o.text 19 c6 = some (.ok (21, c7)) :=
    (word_c rfl).trans (choice_step (by omega) rfl (cText_lookup hc fun x => { c6 with cflag := x }))
  have s8 : argStep true neg r o.text 21 c7 = some (.ok (23, c8)) :=
    (word_e rfl).trans (choice_step (by omega) rfl (eText_lookup he fun x => { c7 with eflag := x }))
  have s9 : argStep true neg r o.text 23 c8 = some (.ok (25, c9)) :=
    (word_p rfl).trans (choice_step (by omega) rfl (pText_lookup h.pflag fun x => { c8 with pflag := x }))
  have last : o.rflag = true → o.text[25]? = some "-r" := by
    intro hb
    unfold Opt3.text
    rw [hb]
    rfl
  have loop : argLoop true neg r o.text (o.text.length + 1) 1 Cmd.default = some (.ok { c9 with rflag := o.rflag }) := by
    obtain ⟨n, hn⟩ : ∃ n, o.text.length + 1 = n + 11 := ⟨o.text.length - 10, by omega⟩
    rw [hn, argLoop_step (by omega) s1, argLoop_step (by omega) s2, argLoop_step (by omega) s3,
      argLoop_step (by omega) s4, argLoop_step (by omega) s5, argLoop_step (by omega) s6, argLoop_step (by omega) s7,
      argLoop_step (by omega) s8, argLoop_step (by omega) s9]
    exact r_step hlen last rfl
  refine ⟨{ c9 with rflag := o.rflag }, options_of loop ?_, ?_, rfl, rfl, rfl, rfl⟩
  · refine argCheck_of (Int.natCast_pos.2 h.nx.1) (Int.natCast_pos.2 h.ny.1) (fun _ => Int.natCast_pos.2 h.nz.1)
      (gridCheck3_of h.pin h.procs hP) (gridCheck3_of h.pout h.procs hP) ?_
    refine ⟨Int.natCast_nonneg _, fun h0 => ?_, fun h3 => ?_, ⟨Int.natCast_nonneg _, ?_⟩,
      fun hv => absurd hv Bool.false_ne_true, fun ht => absurd ht Bool.false_ne_true⟩
    · have h0 : (o.nloop : Int) = 0 := h0
      omega
    · show 0 < s
      have h3 : o.iflag.num = 3 := h3
      cases hi : o.iflag with
      | random n =>
        have h1 := hs' n hi
        have h2 := h.seed n hi r hr
        omega
      | _ => rw [hi] at h3; exact absurd h3 (by decide)
    · show (o.mode : Int) ≤ 3
      have := h.mode
      omega
  · have hi : (if o.iflag.num = 0 then Init.zero else if o.iflag.num = 1 then .step else if o.iflag.num = 2 then .index
        else .random (s - r)) = o.iflag := opt_init hs'
    show Opt3.mk _ _ _ _ _ _ _ _ _ _ _ _ = o
    simp only [c9, c8, c7, c6, c5, c4, c3, c2, c1, Int.toNat_natCast, hi]

/-- **C62, part 4** (test2d).  All options that C60, C61 and C63 talk about can be given on the command line: with
the arguments `o.text`, all ranks accept, and the variables stand for `o`. -/
theorem C62_reachable_2d {o : Opt2} (h : o.Accepted P) (hP : P < 2 ^ 31) (hn : 0 < o.nloop ∧ o.nloop < 2 ^ 31)
    (hc : o.cflag = 0 ∨ o.cflag = 1 ∨ o.cflag = 2) (he : o.eflag = 0 ∨ o.eflag = 1) {r : Nat} (hr : r < P) :
    ∃ c : Cmd, options false neg P r o.text = some (.ok c) ∧ c.opt2 r = o ∧ c.tuneflag = false ∧ c.tflag = false ∧
      c.oflag = false ∧ c.vflag = false := by
  have comp : ∀ p : Nat × Nat, GridArg2 p P → p.1 < 2 ^ 31 ∧ p.2 < 2 ^ 31 := by
    rintro ⟨x, y⟩ (hp | hp)
    · cases hp
      exact ⟨by decide, by decide⟩
    · dsimp only at hp ⊢
      have h0 := h.procs
      have h1 : x ∣ P := ⟨y, by rw [← hp]⟩
      have h2 : y ∣ P := ⟨x, by rw [← hp]; ring⟩
      have := Nat.le_of_dvd h0 h1
      have := Nat.le_of_dvd h0 h2
      omega
  obtain ⟨i1, i2⟩ := comp _ h.pin
  obtain ⟨j1, j2⟩ := comp _ h.pout
  have hlen : o.text.length = 22 + (if o.rflag then 1 else 0) := by
    cases hb : o.rflag <;> simp [Opt2.text, hb]
  have hge : 22 ≤ o.text.length := by omega
  have seeds : ∀ n, o.iflag = .random n → 0 < n ∧ n + r < 2 ^ 31 := by
    intro n hn
    have h1 := h.seed n hn 0 h.procs
    have h2 := h.seed n hn r hr
    omega
  let c1 : Cmd := { Cmd.default with nx := o.nx, ny := o.ny, nz := 0 }
  let c2 : Cmd := { c1 with inpx := o.pin.1, inpy := o.pin.2, inpz := 0 }
  let c3 : Cmd := { c2 with outpx := o.pout.1, outpy := o.pout.2, outpz := 0 }
  let c4 : Cmd := { c3 with nloop := o.nloop }
  obtain ⟨s, hs, hs'⟩ := init_step (args := o.text) (iarg := 12) (o := c4) (i := o.iflag) (by omega) rfl seeds
  let c5 : Cmd := { c4 with iflag := o.iflag.num, seed := s }
  let c6 : Cmd := { c5 with mode := o.mode }
  let c7 : Cmd := { c6 with cflag := o.cflag }
  let c8 : Cmd := { c7 with eflag := o.eflag }
  let c9 : Cmd := { c8 with pflag := o.pflag }
  have s1 : argStep false neg r o.text 1 Cmd.default = some (.ok (4, c1)) :=
    (word_g rfl).trans (grid2_step (by omega) rfl rfl h.nx.2 h.ny.2)
  have s2 : argStep false neg r o.text 4 c1 = some (.ok (7, c2)) :=
    (word_pin rfl).trans (grid2_step (by omega) rfl rfl i1 i2)
  have s3 : argStep false neg r o.text 7 c2 = some (.ok (10, c3)) :=
    (word_pout rfl).trans (grid2_step (by omega) rfl rfl j1 j2)
  have s4 : argStep false neg r o.text 10 c3 = some (.ok (12, c4)) :=
    (word_n rfl).trans (one_step (by omega) rfl hn.2)
  have s5 : argStep false neg r o.text 12 c4 = some (.ok (14, c5)) := (word_i rfl).trans hs
  have s6 : argStep false neg r o.text 14 c5 = some (.ok (16, c6)) :=
    (word_m rfl).trans (one_step (by omega) rfl (lt_of_le_of_lt h.mode (by decide)))
  have s7 : argStep false neg r o.text 16 c6 = some (.ok (18, c7)) :=
    (word_c rfl).trans (choice_step (by omega) rfl (cText_lookup hc fun x => { c6 with cflag := x }))
  have s8 : argStep false neg r o.text 18 c7 = some (.ok (20, c8)) :=
    (word_e rfl).trans (choice_step (by omega) rfl (eText_lookup he fun x => { c7 with eflag := x }))
  have s9 : argStep false neg r o.text 20 c8 = some (.ok (22, c9)) :=
    (word_p rfl).trans (choice_step (by omega) rfl (pText_lookup h.pflag fun x => { c8 with pflag := x }))
  have last : o.rflag = true → o.text[22]? = some "-r" := by
    intro hb
    unfold Opt2.text
    rw [hb]
    rfl
  have loop : argLoop false neg r o.text (o.text.length + 1) 1 Cmd.default = some (.ok { c9 with rflag := o.rflag }) := by
    obtain ⟨n, hn⟩ : ∃ n, o.text.length + 1 = n + 11 := ⟨o.text.length - 10, by omega⟩
    rw [hn, argLoop_step (by omega) s1, argLoop_step (by omega) s2, argLoop_step (by omega) s3,
      argLoop_step (by omega) s4, argLoop_step (by omega) s5, argLoop_step (by omega) s6, argLoop_step (by omega) s7,
      argLoop_step (by omega) s8, argLoop_step (by omega) s9]
    exact r_step hlen last rfl
  refine ⟨{ c9 with rflag := o.rflag }, options_of loop ?_, ?_, rfl, rfl, rfl, rfl⟩
  · refine argCheck_of (Int.natCast_pos.2 h.nx.1) (Int.natCast_pos.2 h.ny.1) (fun h => absurd h Bool.false_ne_true)
      (gridCheck2_of h.pin h.procs hP) (gridCheck2_of h.pout h.procs hP) ?_
    refine ⟨Int.natCast_nonneg _, fun h0 => ?_, fun h3 => ?_, ⟨Int.natCast_nonneg _, ?_⟩,
      fun hv => absurd hv Bool.false_ne_true, fun ht => absurd ht Bool.false_ne_true⟩
    · have h0 : (o.nloop : Int) = 0 := h0
      omega
    · show 0 < s
      have h3 : o.iflag.num = 3 := h3
      cases hi : o.iflag with
      | random n =>
        have h1 := hs' n hi
        have h2 := h.seed n hi r hr
        omega
      | _ => rw [hi] at h3; exact absurd h3 (by decide)
    · show (o.mode : Int) ≤ 3
      have := h.mode
      omega
  · have hi : (if o.iflag.num = 0 then Init.zero else if o.iflag.num = 1 then .step else if o.iflag.num = 2 then .index
        else .random (s - r)) = o.iflag := opt_init hs'
    show Opt2.mk _ _ _ _ _ _ _ _ _ _ _ = o
    simp only [c9, c8, c7, c6, c5, c4, c3, c2, c1, Int.toNat_natCast, hi]


/-! ## Examples -/

/-- A command line with a number, a processor grid and a seed. -/
def Driver.cmdLine : List String := ["test3d", "-g", "16", "8", "8", "-pin", "2", "2", "1", "-i", "5", "-v"]

theorem Driver.cmdLine_fine : Fine true 4 cmdLine where
  nums := by
    intro s hs
    simp only [cmdLine, List.mem_cons, List.not_mem_nil, or_false] at hs
    rcases hs with rfl | rfl | rfl | rfl | rfl | rfl | rfl | rfl | rfl | rfl | rfl | rfl <;>
      exact Option.isSome_iff_exists.1 (by decide +kernel)
  seeds := by
    intro i s v h1 h2 _ _ _ h6
    have hi : i < 12 := (List.getElem?_eq_some_iff.1 h1).1
    interval_cases i <;> simp [cmdLine] at h1 h2
    subst h2
    have e : atoi "5" = some 5 := by decide +kernel
    rw [e] at h6
    cases h6
    decide
  grids := by
    intro i s t u x y z h1 h2 h3 h4 h5 h6 _ _ _
    have hi : i < 12 := by
      rcases h1 with h1 | h1 <;> exact (List.getElem?_eq_some_iff.1 h1).1
    have hx : x = 2 ∧ y = 2 ∧ z = 1 := by
      obtain ⟨h6, h7⟩ := h6 rfl
      interval_cases i <;> simp [cmdLine] at h1 h2 h3 h6
      subst h2 h3 h6
      have e : atoi "2" = some 2 := by decide +kernel
      have e' : atoi "1" = some 1 := by decide +kernel
      rw [e] at h4 h5
      rw [e'] at h7
      cases h4
      cases h5
      cases h7
      exact ⟨rfl, rfl, rfl⟩
    obtain ⟨rfl, rfl, rfl⟩ := hx
    exact ⟨by decide, fun _ => by decide⟩

/-- All four ranks accept it. -/
example (neg : String → Bool) : ∃ c : Cmd, ∀ r < 4, ∃ s, options true neg 4 r cmdLine = some (.ok { c with seed := s }) ∧
    (c.iflag = 3 → s = c.seed + r) := by
  rcases C62_agree_partial cmdLine_fine neg (by
    intro i s v h1 h2 _ _ _ h6
    have hi : i < 12 := (List.getElem?_eq_some_iff.1 h1).1
    interval_cases i <;> simp [cmdLine] at h1 h2
    subst h2
    have e : atoi "5" = some 5 := by decide +kernel
    rw [e] at h6
    cases h6
    exact Or.inl (by decide)) with ⟨e, he⟩ | h
  · have h1 := he 0 (by decide)
    have h2 : options true neg 4 0 cmdLine = some (.ok { Cmd.default with
      nx := 16, inpx := 2, inpy := 2, inpz := 1, iflag := 3, seed := 5, vflag := true }) := rfl
    rw [h1] at h2
    cases h2
  · exact h

/-- The default options can be given on the command line. -/
example (neg : String → Bool) : ∃ c : Cmd, options true neg 6 5 default3.text = some (.ok c) ∧ c.opt3 5 = default3 := by
  obtain ⟨c, h1, h2, _⟩ := C62_reachable (neg := neg) (default3_accepted (P := 6) (by decide)) (by decide)
    ⟨by decide, by decide⟩ (Or.inr (Or.inr rfl)) (Or.inl rfl) (r := 5) (by decide)
  exact ⟨c, h1, h2⟩

/-- Random values with the seeds 7 and 8 on two ranks of test2d. -/
example (neg : String → Bool) :
    ∃ c : Cmd, options false neg 2 1 { default2 with iflag := .random 7, pin := (2, 1) : Opt2 }.text = some (.ok c) ∧
      c.seed = 8 := by
  have h : Opt2.Accepted { default2 with iflag := .random 7, pin := (2, 1) } 2 :=
    { default2_accepted (by decide) with
      pin := Or.inr rfl
      seed := by
        intro n hn r hr
        cases hn
        omega }
  obtain ⟨c, h1, h2, _⟩ := C62_reachable_2d (neg := neg) h (by decide)
    ⟨by decide, by decide⟩ (Or.inr (Or.inr rfl)) (Or.inl rfl) (r := 1) (by decide)
  refine ⟨c, h1, ?_⟩
  have h3 := congrArg Opt2.iflag h2
  simp only [Cmd.opt2] at h3
  split_ifs at h3
  have := Init.random.inj h3
  push_cast at this
  omega

end FftMpi
