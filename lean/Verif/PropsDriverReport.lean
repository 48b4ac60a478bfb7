import Verif.DriverReport
import Verif.PropsDriver
import Verif.PropsFortran
import Verif.PropsTune

/-!
# C79: the report of the test programs describes the run
-/

noncomputable section

namespace FftMpi

namespace Driver

/-- The values in all lines of one kind. -/
def linesOf (rep : List (Line × List Cell)) (l : Line) : List (List Cell) := (rep.filter fun x => x.1 = l).map Prod.snd

/-- Three numbers. -/
def three (p : Nat × Nat × Nat) : List Cell := [.int p.1, .int p.2.1, .int p.2.2]

/-- Two numbers. -/
def two (p : Nat × Nat) : List Cell := [.int p.1, .int p.2]

/-- The line that tells the number of FFTs. -/
def countLine : Nat → Line
  | 0 => .both
  | 1 => .bothConv
  | 2 => .forward
  | _ => .forwardConv

theorem linesOf_append (x y : List (Line × List Cell)) (l : Line) : linesOf (x ++ y) l = linesOf x l ++ linesOf y l := by
  simp [linesOf]

theorem cons_append_one {α : Type} (a : α) (x : List α) : a :: x = [a] ++ x := rfl

theorem linesOf_rows (rows : List (List Cell)) (l : Line) :
    linesOf (rows.map fun r => (Line.trial, r)) l = if l = .trial then rows else [] := by
  unfold linesOf
  by_cases h : l = .trial
  · subst h
    rw [if_pos rfl, List.filter_eq_self.mpr]
    · simp [Function.comp_def]
    · intro x hx
      obtain ⟨r, -, rfl⟩ := List.mem_map.mp hx
      simp
  · rw [if_neg h, List.filter_eq_nil_iff.mpr]
    · rfl
    · intro x hx
      obtain ⟨r, -, rfl⟩ := List.mem_map.mp hx
      simp [Ne.symm h]

theorem linesOf_loops {mode : Nat} (hm : mode ≤ 3) (nloop P : Nat) (l : Line) :
    linesOf (loopsLine mode nloop P) l =
      if l = countLine mode then [if mode < 2 then [.int nloop, .int nloop, .int P] else [.int nloop, .int P]] else [] := by
  interval_cases mode <;> cases l <;> simp [linesOf, loopsLine, countLine]

/-- What the lines of the report contain. -/
theorem report3_lines {o : Opt3} (hm : o.mode ≤ 3) (P : Nat) (pin pout : Nat × Nat × Nat) (tuned : Bool) (nloop : Nat)
    (bytes : Int) {s : Seen} {x y z b : List Cell} (hg : s.grids = [x, y, z, b]) :
    let rep := report3 o P pin pout tuned nloop bytes s
    linesOf rep .library = [[s.lib, s.prec]] ∧ linesOf rep .size = [three (o.nx, o.ny, o.nz)] ∧
    linesOf rep .initial = [three pin] ∧ linesOf rep .xpencil = [x] ∧ linesOf rep .ypencil = [y] ∧
    linesOf rep .zpencil = [z] ∧ linesOf rep .brick = [b] ∧ linesOf rep .final = [three pout] ∧
    linesOf rep .trials = (if tuned then [[s.ntrial, s.npertrial]] else []) ∧
    linesOf rep .trial = (if tuned then s.rows else []) ∧
    linesOf rep (countLine o.mode) = [if o.mode < 2 then [.int nloop, .int nloop, .int P] else [.int nloop, .int P]] ∧
    linesOf rep .methods = [s.settings] ∧ linesOf rep .gridBytes = [[.int bytes]] ∧ linesOf rep .fftBytes = [[s.memusage]] := by
  intro rep
  have key : ∀ l, linesOf rep l =
      linesOf [(.library, [s.lib, s.prec]), (.size, [.int o.nx, .int o.ny, .int o.nz]),
        (.initial, [.int pin.1, .int pin.2.1, .int pin.2.2]), (.xpencil, x), (.ypencil, y), (.zpencil, z), (.brick, b),
        (.final, [.int pout.1, .int pout.2.1, .int pout.2.2])] l ++
      (if tuned then linesOf [(.trials, [s.ntrial, s.npertrial])] l ++ (if l = .trial then s.rows else []) else []) ++
      (if l = countLine o.mode then [if o.mode < 2 then [.int nloop, .int nloop, .int P] else [.int nloop, .int P]] else []) ++
      linesOf [(.methods, s.settings), (.gridBytes, [.int bytes]), (.fftBytes, [s.memusage])] l := by
    intro l
    change linesOf (report3 o P pin pout tuned nloop bytes s) l = _
    unfold report3
    rw [hg]
    simp only [linesOf_append, linesOf_loops hm]
    have hr := linesOf_rows s.rows l
    cases tuned
    · cases l <;> simp [linesOf]
    · rw [if_pos rfl, if_pos rfl, ← hr, cons_append_one, linesOf_append]
      cases l <;> simp [linesOf]
  have h0 : countLine o.mode ∈ [Line.both, .bothConv, .forward, .forwardConv] := by
    have := hm
    generalize o.mode = md at *
    interval_cases md <;> simp [countLine]
  simp only [key]
  simp only [List.mem_cons, List.not_mem_nil, or_false] at h0
  rcases h0 with h0 | h0 | h0 | h0 <;> rw [h0] <;> cases tuned <;> simp [linesOf, three]

/-- The same in 2d. -/
theorem report2_lines {o : Opt2} (hm : o.mode ≤ 3) (P : Nat) (pin pout : Nat × Nat) (tuned : Bool) (nloop : Nat)
    (bytes : Int) {s : Seen} {x y b : List Cell} (hg : s.grids = [x, y, b]) :
    let rep := report2 o P pin pout tuned nloop bytes s
    linesOf rep .library = [[s.lib, s.prec]] ∧ linesOf rep .size = [two (o.nx, o.ny)] ∧
    linesOf rep .initial = [two pin] ∧ linesOf rep .xpencil = [x] ∧ linesOf rep .ypencil = [y] ∧
    linesOf rep .zpencil = [] ∧ linesOf rep .brick = [b] ∧ linesOf rep .final = [two pout] ∧
    linesOf rep .trials = (if tuned then [[s.ntrial, s.npertrial]] else []) ∧
    linesOf rep .trial = (if tuned then s.rows else []) ∧
    linesOf rep (countLine o.mode) = [if o.mode < 2 then [.int nloop, .int nloop, .int P] else [.int nloop, .int P]] ∧
    linesOf rep .methods = [s.settings] ∧ linesOf rep .gridBytes = [[.int bytes]] ∧ linesOf rep .fftBytes = [[s.memusage]] := by
  intro rep
  have key : ∀ l, linesOf rep l =
      linesOf [(.library, [s.lib, s.prec]), (.size, [.int o.nx, .int o.ny]),
        (.initial, [.int pin.1, .int pin.2]), (.xpencil, x), (.ypencil, y), (.brick, b),
        (.final, [.int pout.1, .int pout.2])] l ++
      (if tuned then linesOf [(.trials, [s.ntrial, s.npertrial])] l ++ (if l = .trial then s.rows else []) else []) ++
      (if l = countLine o.mode then [if o.mode < 2 then [.int nloop, .int nloop, .int P] else [.int nloop, .int P]] else []) ++
      linesOf [(.methods, s.settings), (.gridBytes, [.int bytes]), (.fftBytes, [s.memusage])] l := by
    intro l
    change linesOf (report2 o P pin pout tuned nloop bytes s) l = _
    unfold report2
    rw [hg]
    simp only [linesOf_append, linesOf_loops hm]
    have hr := linesOf_rows s.rows l
    cases tuned
    · cases l <;> simp [linesOf]
    · rw [if_pos rfl, if_pos rfl, ← hr, cons_append_one, linesOf_append]
      cases l <;> simp [linesOf]
  have h0 : countLine o.mode ∈ [Line.both, .bothConv, .forward, .forwardConv] := by
    have := hm
    generalize o.mode = md at *
    interval_cases md <;> simp [countLine]
  simp only [key]
  simp only [List.mem_cons, List.not_mem_nil, or_false] at h0
  rcases h0 with h0 | h0 | h0 | h0 <;> rw [h0] <;> cases tuned <;> simp [linesOf, two]

/-! ## The four languages -/

theorem item_elem {α : Type} (v : Option (Nat → Option α)) (n : Option Int) {i : Nat} (hi : i < (n.getD 0).toNat) :
    item (v, n) i = v.bind (· i) := by
  unfold item
  rw [if_pos (by dsimp only; omega)]

theorem entry_elem {α : Type} (v : Option (Nat → Option α)) (n : Option Int) {i : Nat} (hi : i < (n.getD 0).toNat) :
    entry (v, n) (1 + i) = v.bind (· i) := by
  unfold entry
  rw [if_pos (by dsimp only; omega), Nat.add_sub_cancel_left]

theorem rowsOf_congr {n : Option Int} {f g : Nat → List Cell} (h : ∀ i < (n.getD 0).toNat, f i = g i) :
    rowsOf n f = rowsOf n g := by
  unfold rowsOf
  exact List.map_congr_left fun i hi => h i (List.mem_range.mp hi)

theorem rowsOfF_eq (n : Option Int) (f : Nat → List Cell) : rowsOfF n f = rowsOf n fun i => f (1 + i) := by
  unfold rowsOfF rowsOf
  rw [List.range'_eq_map_range, List.map_map]
  rfl

/-- **C79 (C).**  The C test program gives the object the same settings as the C++ program and reads the same values from
it. -/
theorem C79_c (o : Opt3) (f : Pub3) : o.assignC f = o.assign f ∧ seenC3 f = seen3 f := by
  constructor
  · simp [Opt3.assignC, Opt3.assign, Pub3.set]
  · simp [seenC3, seen3, Pub3.getInt, Pub3.getString, Pub3.getInt64, Pub3.getIntVector, Pub3.getDoubleVector, elem,
      Cell.ofText, Cell.ofInt]

theorem C79_c_2d (o : Opt2) (f : Pub2) : o.assignC f = o.assign f ∧ seenC2 f = seen2 f := by
  constructor
  · simp [Opt2.assignC, Opt2.assign, Pub2.set]
  · simp [seenC2, seen2, Pub2.getInt, Pub2.getString, Pub2.getInt64, Pub2.getIntVector, Pub2.getDoubleVector, elem,
      Cell.ofText, Cell.ofInt]

/-- **C79 (Python).**  The same, with the methods of fftmpi.py (C58). -/
theorem C79_py (f : Pub3) : seenPy3 f = seen3 f := by
  rw [← (C79_c default3 f).2]
  unfold seenPy3
  have h : f.getInt "ntrial" = f.ntrial := by simp [Pub3.getInt]
  have : (rowsOf (f.getInt "ntrial") fun i =>
      [Cell.ofInt (item (f.getIntVector "cflags") i), .ofInt (item (f.getIntVector "eflags") i),
       .ofInt (item (f.getIntVector "pflags") i), .ofReal (item (f.getDoubleVector "tfft") i),
       .ofReal (item (f.getDoubleVector "t1d") i), .ofReal (item (f.getDoubleVector "tremap") i),
       .ofReal (item (f.getDoubleVector "tremap1") i), .ofReal (item (f.getDoubleVector "tremap2") i),
       .ofReal (item (f.getDoubleVector "tremap3") i), .ofReal (item (f.getDoubleVector "tremap4") i)]) = (seenC3 f).rows := by
    unfold seenC3
    rw [h]
    refine rowsOf_congr fun i hi => ?_
    simp only [Pub3.getIntVector, Pub3.getDoubleVector, item_elem _ f.ntrial hi, elem]
  rw [this]

theorem C79_py_2d (f : Pub2) : seenPy2 f = seen2 f := by
  rw [← (C79_c_2d default2 f).2]
  unfold seenPy2
  have h : f.getInt "ntrial" = f.ntrial := by simp [Pub2.getInt]
  have : (rowsOf (f.getInt "ntrial") fun i =>
      [Cell.ofInt (item (f.getIntVector "cflags") i), .ofInt (item (f.getIntVector "eflags") i),
       .ofInt (item (f.getIntVector "pflags") i), .ofReal (item (f.getDoubleVector "tfft") i),
       .ofReal (item (f.getDoubleVector "t1d") i), .ofReal (item (f.getDoubleVector "tremap") i),
       .ofReal (item (f.getDoubleVector "tremap1") i), .ofReal (item (f.getDoubleVector "tremap2") i),
       .ofReal (item (f.getDoubleVector "tremap3") i)]) = (seenC2 f).rows := by
    unfold seenC2
    rw [h]
    refine rowsOf_congr fun i hi => ?_
    simp only [Pub2.getIntVector, Pub2.getDoubleVector, item_elem _ f.ntrial hi, elem]
  rw [this]

/-- The keywords of the report. -/
def keys : List String :=
  ["fft1d", "precision", "npfast1", "npfast2", "npfast3", "npmid1", "npmid2", "npmid3", "npslow1", "npslow2", "npslow3",
   "npbrick1", "npbrick2", "npbrick3", "ntrial", "npertrial", "cflags", "eflags", "pflags", "tfft", "t1d", "tremap", "tremap1",
   "tremap2", "tremap3", "tremap4", "collective", "exchange", "pack", "memusage"]

/-- **C79 (Fortran).**  The Fortran programs read the same values: every keyword of the report ends with a NUL.  (The
calls of `fft3d_set` do not: `C59_keyword_false`.) -/
theorem C79_f90 {m : Mem Char} {at_ : String → Int} (hk : ∀ k ∈ keys, Fortran.Str m (at_ k) k.toList) (f : Pub3) :
    seenF3 m at_ f = some (seen3 f) := by
  rw [← (C79_c default3 f).2]
  have g1 : ∀ k ∈ keys, Fortran.getInt3 m (at_ k) f = some (f.getInt k) := fun k h => (Fortran.C59_keyword3 (hk k h) f 0).2.1
  have g2 : ∀ k ∈ keys, Fortran.getInt643 m (at_ k) f = some (f.getInt64 k) :=
    fun k h => (Fortran.C59_keyword3 (hk k h) f 0).2.2.2.1
  have g3 : ∀ k ∈ keys, Fortran.getString3 m (at_ k) f = some (f.getString k) :=
    fun k h => (Fortran.C59_keyword3 (hk k h) f 0).2.2.2.2.1
  have g4 : ∀ k ∈ keys, Fortran.getIntVector3 m (at_ k) f = some (f.getIntVector k) :=
    fun k h => (Fortran.C59_keyword3 (hk k h) f 0).2.2.2.2.2.1
  have g5 : ∀ k ∈ keys, Fortran.getDoubleVector3 m (at_ k) f = some (f.getDoubleVector k) :=
    fun k h => (Fortran.C59_keyword3 (hk k h) f 0).2.2.2.2.2.2
  have h : f.getInt "ntrial" = f.ntrial := by simp [Pub3.getInt]
  unfold seenF3
  rw [g3 "fft1d" (by simp [keys]), g3 "precision" (by simp [keys]), g1 "npfast1" (by simp [keys]), g1 "npfast2" (by simp [keys]),
    g1 "npfast3" (by simp [keys]), g1 "npmid1" (by simp [keys]), g1 "npmid2" (by simp [keys]), g1 "npmid3" (by simp [keys]),
    g1 "npslow1" (by simp [keys]), g1 "npslow2" (by simp [keys]), g1 "npslow3" (by simp [keys]), g1 "npbrick1" (by simp [keys]),
    g1 "npbrick2" (by simp [keys]), g1 "npbrick3" (by simp [keys]), g1 "ntrial" (by simp [keys]), g1 "npertrial" (by simp [keys]),
    g4 "cflags" (by simp [keys]), g4 "eflags" (by simp [keys]), g4 "pflags" (by simp [keys]), g5 "tfft" (by simp [keys]),
    g5 "t1d" (by simp [keys]), g5 "tremap" (by simp [keys]), g5 "tremap1" (by simp [keys]), g5 "tremap2" (by simp [keys]),
    g5 "tremap3" (by simp [keys]), g5 "tremap4" (by simp [keys]), g1 "collective" (by simp [keys]),
    g1 "exchange" (by simp [keys]), g1 "pack" (by simp [keys]), g2 "memusage" (by simp [keys])]
  simp only [Option.bind_eq_bind, Option.bind_some]
  unfold seenC3
  rw [h, rowsOfF_eq]
  congr 2
  refine rowsOf_congr fun i hi => ?_
  simp only [Pub3.getIntVector, Pub3.getDoubleVector, entry_elem _ f.ntrial hi, elem]

theorem C79_f90_2d {m : Mem Char} {at_ : String → Int} (hk : ∀ k ∈ keys, Fortran.Str m (at_ k) k.toList) (f : Pub2) :
    seenF2 m at_ f = some (seen2 f) := by
  rw [← (C79_c_2d default2 f).2]
  have g1 : ∀ k ∈ keys, Fortran.getInt2 m (at_ k) f = some (f.getInt k) := fun k h => (Fortran.C59_keyword2 (hk k h) f 0).2.1
  have g2 : ∀ k ∈ keys, Fortran.getInt642 m (at_ k) f = some (f.getInt64 k) :=
    fun k h => (Fortran.C59_keyword2 (hk k h) f 0).2.2.2.1
  have g3 : ∀ k ∈ keys, Fortran.getString2 m (at_ k) f = some (f.getString k) :=
    fun k h => (Fortran.C59_keyword2 (hk k h) f 0).2.2.2.2.1
  have g4 : ∀ k ∈ keys, Fortran.getIntVector2 m (at_ k) f = some (f.getIntVector k) :=
    fun k h => (Fortran.C59_keyword2 (hk k h) f 0).2.2.2.2.2.1
  have g5 : ∀ k ∈ keys, Fortran.getDoubleVector2 m (at_ k) f = some (f.getDoubleVector k) :=
    fun k h => (Fortran.C59_keyword2 (hk k h) f 0).2.2.2.2.2.2
  have h : f.getInt "ntrial" = f.ntrial := by simp [Pub2.getInt]
  unfold seenF2
  rw [g3 "fft1d" (by simp [keys]), g3 "precision" (by simp [keys]), g1 "npfast1" (by simp [keys]), g1 "npfast2" (by simp [keys]),
    g1 "npslow1" (by simp [keys]), g1 "npslow2" (by simp [keys]), g1 "npbrick1" (by simp [keys]),
    g1 "npbrick2" (by simp [keys]), g1 "ntrial" (by simp [keys]), g1 "npertrial" (by simp [keys]),
    g4 "cflags" (by simp [keys]), g4 "eflags" (by simp [keys]), g4 "pflags" (by simp [keys]), g5 "tfft" (by simp [keys]),
    g5 "t1d" (by simp [keys]), g5 "tremap" (by simp [keys]), g5 "tremap1" (by simp [keys]), g5 "tremap2" (by simp [keys]),
    g5 "tremap3" (by simp [keys]), g1 "collective" (by simp [keys]),
    g1 "exchange" (by simp [keys]), g1 "pack" (by simp [keys]), g2 "memusage" (by simp [keys])]
  simp only [Option.bind_eq_bind, Option.bind_some]
  unfold seenC2
  rw [h, rowsOfF_eq]
  congr 2
  refine rowsOf_congr fun i hi => ?_
  simp only [Pub2.getIntVector, Pub2.getDoubleVector, entry_elem _ f.ntrial hi, elem]

/-! ## The report and the run -/

/-- The lines that do not depend on `tune`, in 3d: the input and output grids are those of the boxes passed to `setup`, the
pencil and brick grids use all ranks, pencils are not divided along their dimension. -/
structure Tells3 (rnd : ℝ → ℝ) (o : Opt3) (P : Nat) (a : Args3) (exchange : Int) (nloop : Nat) (lib prec : String) (bytes mem : Int)
    (rep : List (Line × List Cell)) : Prop where
  library : linesOf rep .library = [[.text lib, .text prec]]
  size : linesOf rep .size = [three (a.nfast.toNat, a.nmid.toNat, a.nslow.toNat)]
  initial : ∃ p : Nat × Nat × Nat, linesOf rep .initial = [three p] ∧ p.1 * p.2.1 * p.2.2 = P ∧
    ∀ r, a.ins r = box3 rnd p o.nx o.ny o.nz r
  final : ∃ p : Nat × Nat × Nat, linesOf rep .final = [three p] ∧ p.1 * p.2.1 * p.2.2 = P ∧
    ∀ r, a.outs r = box3 rnd p o.nx o.ny o.nz r
  xpencil : ∃ y z, linesOf rep .xpencil = [three (1, y, z)] ∧ y * z = P
  ypencil : ∃ x z, linesOf rep .ypencil = [three (x, 1, z)] ∧ x * z = P
  zpencil : ∃ x y, linesOf rep .zpencil = [three (x, y, 1)] ∧ x * y = P
  brick : ∃ x y z, linesOf rep .brick = [three (x, y, z)] ∧ x * y * z = if exchange = 0 then 0 else P
  count : linesOf rep (countLine o.mode) =
    [if o.mode < 2 then [.int nloop, .int nloop, .int P] else [.int nloop, .int P]]
  gridBytes : linesOf rep .gridBytes = [[.int bytes]]
  fftBytes : linesOf rep .fftBytes = [[.int mem]]

/-- The same in 2d. -/
structure Tells2 (rnd : ℝ → ℝ) (o : Opt2) (P : Nat) (a : Args2) (exchange : Int) (nloop : Nat) (lib prec : String) (bytes mem : Int)
    (rep : List (Line × List Cell)) : Prop where
  library : linesOf rep .library = [[.text lib, .text prec]]
  size : linesOf rep .size = [two (a.nfast.toNat, a.nslow.toNat)]
  initial : ∃ p : Nat × Nat, linesOf rep .initial = [two p] ∧ p.1 * p.2 = P ∧ ∀ r, a.ins r = box2 rnd p o.nx o.ny r
  final : ∃ p : Nat × Nat, linesOf rep .final = [two p] ∧ p.1 * p.2 = P ∧ ∀ r, a.outs r = box2 rnd p o.nx o.ny r
  xpencil : linesOf rep .xpencil = [two (1, P)]
  ypencil : linesOf rep .ypencil = [two (P, 1)]
  zpencil : linesOf rep .zpencil = []
  brick : ∃ x y, linesOf rep .brick = [two (x, y)] ∧ x * y = if exchange = 0 then 0 else P
  count : linesOf rep (countLine o.mode) =
    [if o.mode < 2 then [.int nloop, .int nloop, .int P] else [.int nloop, .int P]]
  gridBytes : linesOf rep .gridBytes = [[.int bytes]]
  fftBytes : linesOf rep .fftBytes = [[.int mem]]

theorem setupGrids_none {P : Nat} {a : Args3} {g : Grids} (h : setupGrids P a 0 = some g) : g.brick = (0, 0, 0) := by
  unfold setupGrids at h
  simp only [Option.bind_eq_bind, Option.bind_eq_some_iff, ne_eq, not_true_eq_false, if_false] at h
  obtain ⟨_, -, _, -, _, -, h⟩ := h
  simp at h
  rw [← h]

/-- The lines for any object that `setup` has set up. -/
theorem tells3 {rnd : ℝ → ℝ} {o : Opt3} {P : Nat} (ho : o.Accepted P) {a : Args3} {pin pout : Nat × Nat × Nat}
    (hi : o.inGrid rnd P = some pin) (ho' : o.outGrid rnd P = some pout) (ha : o.args rnd P = some a)
    (hp : pin.1 * pin.2.1 * pin.2.2 = P) (hq : pout.1 * pout.2.1 * pout.2.2 = P) {ex : Int} {g : Grids}
    (hg : setupGrids P a ex = some g) (G : g.OK P ex) (f : Pub3) (tuned : Bool) (nloop : Nat) (lib : String) (bytes mem : Int) :
    let rep := report3 o P pin pout tuned nloop bytes (seen3 (f.setup a.permute g mem lib))
    Tells3 rnd o P a ex nloop lib f.precision bytes mem rep ∧
    linesOf rep .trials = (if tuned then [[.ofInt f.ntrial, .ofInt f.npertrial]] else []) ∧
    linesOf rep .trial = (if tuned then (seen3 f).rows else []) ∧
    linesOf rep .methods = [[.int f.collective, .int f.exchange, .int f.packflag]] := by
  intro rep
  obtain ⟨l1, l2, l3, l4, l5, l6, l7, l8, l9, l10, l11, l12, l13, l14⟩ :=
    report3_lines (o := o) ho.mode P pin pout tuned nloop bytes (s := seen3 (f.setup a.permute g mem lib)) rfl
  have ea : a =
      { nfast := o.nx, nmid := o.ny, nslow := o.nz
        ins := box3 rnd pin o.nx o.ny o.nz
        outs := box3 rnd pout o.nx o.ny o.nz
        permute := if o.mode = 0 ∨ o.mode = 2 then 0 else 2
        fp := rnd } := by
    unfold Opt3.args at ha
    rw [hi, ho'] at ha
    exact (Option.some.inj ha).symm
  have p1 := G.fast
  have p2 := G.mid
  have p3 := G.slow
  refine ⟨?_, l9, l10, l12⟩
  exact {
    library := l1
    size := by rw [l2, ea]; rfl
    initial := ⟨pin, l3, hp, fun r => by rw [ea]⟩
    final := ⟨pout, l8, hq, fun r => by rw [ea]⟩
    xpencil := ⟨g.fast.2.1, g.fast.2.2, by rw [l4, ← G.fast1]; rfl, by rw [G.fast1, Nat.one_mul] at p1; exact p1⟩
    ypencil := ⟨g.mid.1, g.mid.2.2, by rw [l5, ← G.mid2]; rfl, by rw [G.mid2, Nat.mul_one] at p2; exact p2⟩
    zpencil := ⟨g.slow.1, g.slow.2.1, by rw [l6, ← G.slow3]; rfl, by rw [G.slow3, Nat.mul_one] at p3; exact p3⟩
    brick := by
      refine ⟨g.brick.1, g.brick.2.1, g.brick.2.2, l7, ?_⟩
      by_cases h : ex = 0
      · subst h
        simp [setupGrids_none hg]
      · rw [if_neg h, G.brick h]
    count := l11
    gridBytes := l13
    fftBytes := l14 }

theorem tells2 {rnd : ℝ → ℝ} {o : Opt2} {P : Nat} (ho : o.Accepted P) {a : Args2} {pin pout : Nat × Nat}
    (hi : o.inGrid rnd P = some pin) (ho' : o.outGrid P = some pout) (ha : o.args rnd P = some a)
    (hp : pin.1 * pin.2 = P) (hq : pout.1 * pout.2 = P) {ex : Int} {g : Nat × Nat}
    (hg : setupBrick2 P a ex = some g) (G : BrickOK P g ex) (f : Pub2) (tuned : Bool) (nloop : Nat) (lib : String) (bytes mem : Int) :
    let rep := report2 o P pin pout tuned nloop bytes (seen2 (f.setup P a.permute g mem lib))
    Tells2 rnd o P a ex nloop lib f.precision bytes mem rep ∧
    linesOf rep .trials = (if tuned then [[.ofInt f.ntrial, .ofInt f.npertrial]] else []) ∧
    linesOf rep .trial = (if tuned then (seen2 f).rows else []) ∧
    linesOf rep .methods = [[.int f.collective, .int f.exchange, .int f.packflag]] := by
  intro rep
  obtain ⟨l1, l2, l3, l4, l5, l6, l7, l8, l9, l10, l11, l12, l13, l14⟩ :=
    report2_lines (o := o) ho.mode P pin pout tuned nloop bytes (s := seen2 (f.setup P a.permute g mem lib)) rfl
  have ea : a =
      { nfast := o.nx, nslow := o.ny
        ins := box2 rnd pin o.nx o.ny
        outs := box2 rnd pout o.nx o.ny
        permute := if o.mode = 0 ∨ o.mode = 2 then 0 else 2
        fp := rnd } := by
    unfold Opt2.args at ha
    rw [hi, ho'] at ha
    exact (Option.some.inj ha).symm
  refine ⟨?_, l9, l10, l12⟩
  exact {
    library := l1
    size := by rw [l2, ea]; rfl
    initial := ⟨pin, l3, hp, fun r => by rw [ea]⟩
    final := ⟨pout, l8, hq, fun r => by rw [ea]⟩
    xpencil := l4
    ypencil := l5
    zpencil := l6
    brick := by
      refine ⟨g.1, g.2, l7, ?_⟩
      by_cases h : ex = 0
      · subst h
        unfold setupBrick2 at hg
        simp only [ne_eq, not_true_eq_false, if_false, Option.some.injEq] at hg
        simp [← hg]
      · rw [if_neg h, G h]
    count := l11
    gridBytes := l13
    fftBytes := l14 }

/-- **C79 (test3d).**  Without `-tune`, for accepted options and supported grids: `setup` chooses processor grids, and
the report tells them, the grids of the boxes that the program passed to `setup`, the number of FFTs, the settings of the
user, and no trials. -/
theorem C79_test3d {rnd : ℝ → ℝ} (R : Rounding rnd) {o : Opt3} {P : Nat} (ho : o.Accepted P) (hs : o.Small P)
    (hx : Supported o.nx) (hy : Supported o.ny) (hz : Supported o.nz) :
    ∃ a pin pout g, o.args rnd P = some a ∧ o.inGrid rnd P = some pin ∧ o.outGrid rnd P = some pout ∧
      setupGrids P a o.eflag = some g ∧
      ∀ (prec lib : String) (bytes mem : Int),
        let f := (o.assign (.made prec)).setup a.permute g mem lib
        let rep := report3 o P pin pout false o.nloop bytes (seen3 f)
        Tells3 rnd o P a o.eflag o.nloop lib prec bytes mem rep ∧
        linesOf rep .methods = [[.int o.cflag, .int o.eflag, .int o.pflag]] ∧
        linesOf rep .trials = [] ∧ linesOf rep .trial = [] := by
  obtain ⟨a, ha, hv, _⟩ := C60_args_valid R ho hs hx hy hz
  obtain ⟨pin, hi, hp⟩ := inGrid3_ok R ho
  obtain ⟨pout, ho', hq⟩ := outGrid3_ok R ho
  obtain ⟨g, hg, G⟩ := setupGrids_ok hv.round hv.procs hv.fast hv.mid hv.slow o.eflag
  refine ⟨a, pin, pout, g, ha, hi, ho', hg, fun prec lib bytes mem => ?_⟩
  obtain ⟨T, t1, t2, t3⟩ := tells3 ho hi ho' ha hp hq hg G (o.assign (.made prec)) false o.nloop lib bytes mem
  exact ⟨T, t3, t1, t2⟩

/-- **C79 (test2d), partial.**  Missing: modes 1 and 3, in which the arguments are not valid (`C60_test2d_false`). -/
theorem C79_test2d_partial {rnd : ℝ → ℝ} (R : Rounding rnd) {o : Opt2} {P : Nat} (ho : o.Accepted P) (hs : o.Small P)
    (hx : Supported o.nx) (hy : Supported o.ny) (hm : o.mode = 0 ∨ o.mode = 2) :
    ∃ a pin pout g, o.args rnd P = some a ∧ o.inGrid rnd P = some pin ∧ o.outGrid P = some pout ∧
      setupBrick2 P a o.eflag = some g ∧
      ∀ (prec lib : String) (bytes mem : Int),
        let f := (o.assign (.made prec)).setup P a.permute g mem lib
        let rep := report2 o P pin pout false o.nloop bytes (seen2 f)
        Tells2 rnd o P a o.eflag o.nloop lib prec bytes mem rep ∧
        linesOf rep .methods = [[.int o.cflag, .int o.eflag, .int o.pflag]] ∧
        linesOf rep .trials = [] ∧ linesOf rep .trial = [] := by
  obtain ⟨a, ha, hv, _⟩ := C60_args_valid_2d_partial R ho hs hx hy hm
  obtain ⟨pin, hi, hp⟩ := inGrid2_ok R ho
  obtain ⟨pout, ho', hq⟩ := outGrid2_ok ho
  obtain ⟨g, hg, G⟩ := setupBrick2_ok hv.round hv.procs hv.fast hv.slow o.eflag
  refine ⟨a, pin, pout, g, ha, hi, ho', hg, fun prec lib bytes mem => ?_⟩
  obtain ⟨T, t1, t2, t3⟩ := tells2 ho hi ho' ha hp hq hg G (o.assign (.made prec)) false o.nloop lib bytes mem
  exact ⟨T, t3, t1, t2⟩

/-- A row of the table of trials describes the trial `q`, whose measured times are `m`. -/
def RowTells (flag : Int) (fields : List (Times → ℚ)) (q : Trial) (m : Times) (row : List Cell) : Prop :=
  ∃ x : Times, row = [.int q.st.collective, .int q.st.exchange, .int q.st.packflag, .real x.tfft] ++
      fields.map (fun f => .real (f x)) ∧
    PerFft flag q.niter m.tfft x.tfft ∧
    ∀ f ∈ fields, if q.tflag = 0 then f x = 0 else PerFft flag q.niter (f m) (f x)

/-- **C79 (test3d -tune).**  The settings that the report tells are those `tune` chose; the table has one row for each of
the `ntrial` last trials, with the settings of that trial and its measured times per FFT.

Partial like C32: `tune` returned, times below `10^20`. -/
theorem C79_test3d_tune_partial {rnd : ℝ → ℝ} (R : Rounding rnd) {o : Opt3} {P : Nat} (ho : o.Accepted P) (hs : o.Small P)
    (hx : Supported o.nx) (hy : Supported o.ny) (hz : Supported o.nz) {fs : Settings → Int} {root own : Clock} {t : TuneArgs}
    {s r : TuneSt} (h : tune fs root own false t s = some (.ok r)) (T : TimeFp root.fp)
    (hbig : ∀ k, (own.run k).tfft < tuneBIG) :
    ∃ a pin pout g, o.args rnd P = some a ∧ o.inGrid rnd P = some pin ∧ o.outGrid rnd P = some pout ∧
      setupGrids P a r.st.exchange = some g ∧
      ∀ (prec lib : String) (bytes mem : Int) (secs : ℚ),
        let f := ((o.assign (.made prec)).tune r secs).setup a.permute g mem lib
        let nloop := loopsAfter o.nloop r.npertrial
        let rep := report3 o P pin pout true nloop bytes (seen3 f)
        Tells3 rnd o P a r.st.exchange nloop lib prec bytes mem rep ∧
        linesOf rep .methods = [[.int r.st.collective, .int r.st.exchange, .int r.st.packflag]] ∧
        linesOf rep .trials = [[.int r.ntrial, .int r.npertrial]] ∧ (linesOf rep .trial).length = r.ntrial ∧
        ∀ i < r.ntrial, ∃ q row, r.runs[r.runs.length - r.ntrial + i]? = some q ∧ (linesOf rep .trial)[i]? = some row ∧
          q.niter = r.npertrial ∧
          RowTells t.flag [Times.t1d, Times.tremap, Times.tremap1, Times.tremap2, Times.tremap3, Times.tremap4] q
            (own.run (r.runs.length - r.ntrial + i)) row := by
  obtain ⟨a, ha, hv, _⟩ := C60_args_valid R ho hs hx hy hz
  obtain ⟨pin, hi, hp⟩ := inGrid3_ok R ho
  obtain ⟨pout, ho', hq⟩ := outGrid3_ok R ho
  obtain ⟨g, hg, G⟩ := setupGrids_ok hv.round hv.procs hv.fast hv.mid hv.slow r.st.exchange
  refine ⟨a, pin, pout, g, ha, hi, ho', hg, fun prec lib bytes mem secs => ?_⟩
  obtain ⟨T3, t1, t2, t3⟩ := tells3 ho hi ho' ha hp hq hg G ((o.assign (.made prec)).tune r secs) true
    (loopsAfter o.nloop r.npertrial) lib bytes mem
  rw [if_pos rfl] at t1 t2
  refine ⟨T3, t3, t1, ?_, fun i hi' => ?_⟩
  · rw [t2]
    simp [seen3, rowsOf, Pub3.tune]
  · obtain ⟨q, q1, q2, q3, q4⟩ := C32_times h T hbig i hi'
    obtain ⟨q', q1', e⟩ := (C32_partial h hbig).2.2.2.2.1 i hi'
    rw [q1] at q1'
    obtain rfl := Option.some.inj q1'
    refine ⟨q, _, q1, ?_, q2, (r.slots i).t, rfl, q3, q4⟩
    rw [t2]
    simp [seen3, rowsOf, Pub3.tune, hi', Cell.ofInt, Cell.ofReal, e]

theorem C79_test2d_tune_partial {rnd : ℝ → ℝ} (R : Rounding rnd) {o : Opt2} {P : Nat} (ho : o.Accepted P) (hs : o.Small P)
    (hx : Supported o.nx) (hy : Supported o.ny) (hm : o.mode = 0 ∨ o.mode = 2) {fs : Settings → Int} {root own : Clock}
    {t : TuneArgs} {s r : TuneSt} (h : tune fs root own false t s = some (.ok r)) (T : TimeFp root.fp)
    (hbig : ∀ k, (own.run k).tfft < tuneBIG) :
    ∃ a pin pout g, o.args rnd P = some a ∧ o.inGrid rnd P = some pin ∧ o.outGrid P = some pout ∧
      setupBrick2 P a r.st.exchange = some g ∧
      ∀ (prec lib : String) (bytes mem : Int) (secs : ℚ),
        let f := ((o.assign (.made prec)).tune r secs).setup P a.permute g mem lib
        let nloop := loopsAfter o.nloop r.npertrial
        let rep := report2 o P pin pout true nloop bytes (seen2 f)
        Tells2 rnd o P a r.st.exchange nloop lib prec bytes mem rep ∧
        linesOf rep .methods = [[.int r.st.collective, .int r.st.exchange, .int r.st.packflag]] ∧
        linesOf rep .trials = [[.int r.ntrial, .int r.npertrial]] ∧ (linesOf rep .trial).length = r.ntrial ∧
        ∀ i < r.ntrial, ∃ q row, r.runs[r.runs.length - r.ntrial + i]? = some q ∧ (linesOf rep .trial)[i]? = some row ∧
          q.niter = r.npertrial ∧
          RowTells t.flag [Times.t1d, Times.tremap, Times.tremap1, Times.tremap2, Times.tremap3] q
            (own.run (r.runs.length - r.ntrial + i)) row := by
  obtain ⟨a, ha, hv, _⟩ := C60_args_valid_2d_partial R ho hs hx hy hm
  obtain ⟨pin, hi, hp⟩ := inGrid2_ok R ho
  obtain ⟨pout, ho', hq⟩ := outGrid2_ok ho
  obtain ⟨g, hg, G⟩ := setupBrick2_ok hv.round hv.procs hv.fast hv.slow r.st.exchange
  refine ⟨a, pin, pout, g, ha, hi, ho', hg, fun prec lib bytes mem secs => ?_⟩
  obtain ⟨T3, t1, t2, t3⟩ := tells2 ho hi ho' ha hp hq hg G ((o.assign (.made prec)).tune r secs) true
    (loopsAfter o.nloop r.npertrial) lib bytes mem
  rw [if_pos rfl] at t1 t2
  refine ⟨T3, t3, t1, ?_, fun i hi' => ?_⟩
  · rw [t2]
    simp [seen2, rowsOf, Pub2.tune]
  · obtain ⟨q, q1, q2, q3, q4⟩ := C32_times h T hbig i hi'
    obtain ⟨q', q1', e⟩ := (C32_partial h hbig).2.2.2.2.1 i hi'
    rw [q1] at q1'
    obtain rfl := Option.some.inj q1'
    refine ⟨q, _, q1, ?_, q2, (r.slots i).t, rfl, q3, fun f hf => q4 f ?_⟩
    · rw [t2]
      simp [seen2, rowsOf, Pub2.tune, hi', Cell.ofInt, Cell.ofReal, e]
    · simp only [List.mem_cons, List.not_mem_nil, or_false] at hf ⊢
      tauto

/-- The hypotheses of `C79_test3d_tune_partial`: 7 ranks, nine trials. -/
example : ∃ r, tune (fun _ => 8) (clock 1 []) (clock 1 [(4, 1 / 2)]) false freely newTuneSt = some (.ok r) ∧ 0 < r.ntrial ∧
    TimeFp (clock 1 []).fp ∧ (∀ k, ((clock 1 [(4, 1 / 2)]).run k).tfft < tuneBIG) ∧
    ({ default3 with nx := 60 } : Opt3).Accepted 7 ∧ ({ default3 with nx := 60 } : Opt3).Small 7 ∧ Supported 60 ∧ Supported 8 := by
  obtain ⟨r, e⟩ := C32_defined (fs := fun _ => 8) (root := clock 1 []) (own := clock 1 [(4, 1 / 2)]) (sf := false)
    (t := freely) newTuneSt timeFp_id (by decide) (by decide) (by norm_num [clock]) (by norm_num [clock, took, timeOf])
    (by norm_num [clock, took, timeOf, intMax]) (clock_big (by norm_num [tuneBIG]))
  refine ⟨r, e, ?_, timeFp_id, clock_big (by norm_num [tuneBIG]), { default3_accepted (P := 7) (by decide) with nx := by decide },
    by simp [Opt3.Small, default3], supported_of (k := 3) (by decide) (by decide), supported_of (k := 3) (by decide) (by decide)⟩
  obtain ⟨-, b, hb, R⟩ := tune_some_report e (clock_big (by norm_num [tuneBIG]))
  rw [R.ntrial]
  unfold tunePlan
  split_ifs <;> simp

/-- The hypotheses of `C79_test2d_partial`. -/
example : default2.Accepted 6 ∧ default2.Small 6 ∧ Supported default2.nx ∧ Supported default2.ny ∧
    (default2.mode = 0 ∨ default2.mode = 2) :=
  ⟨default2_accepted (by decide), by simp [Opt2.Small, default2], supported_of (k := 3) (by decide) (by decide),
    supported_of (k := 3) (by decide) (by decide), Or.inl rfl⟩

/-- Memory with the keywords, 32 characters for each. -/
def keyMem (i : Int) : Option Char := ((keys[(i / 32).toNat]?.map String.toList).getD [] ++ ['\x00'])[(i % 32).toNat]?

theorem str_at {m : Mem Char} {l : List Char} (h0 : ∀ c ∈ l, c ≠ '\x00') {a : Int}
    (h : ∀ i : Nat, i ≤ l.length → m (a + i) = (l ++ ['\x00'])[i]?) : Fortran.Str m a l := by
  induction l generalizing a with
  | nil => simpa [Fortran.Str] using h 0 (by simp)
  | cons c l ih =>
    refine ⟨by simpa using h 0 (by simp), h0 c (by simp), ih (fun d hd => h0 d (by simp [hd])) fun i hi => ?_⟩
    have := h (i + 1) (by simpa using hi)
    rw [show a + 1 + (i : Int) = a + ((i + 1 : Nat) : Int) by push_cast; ring, this]
    simp

/-- The hypothesis of `C79_f90`: keywords with a NUL in memory. -/
example : ∀ k ∈ keys, Fortran.Str keyMem (32 * (keys.idxOf k : Nat)) k.toList := by
  intro k hk
  have hl : k.toList.length < 31 ∧ ∀ c ∈ k.toList, c ≠ '\x00' := by
    simp only [keys, List.mem_cons, List.not_mem_nil, or_false] at hk
    rcases hk with h | h | h | h | h | h | h | h | h | h | h | h | h | h | h | h | h | h | h | h | h | h | h | h | h | h | h | h |
      h | h <;> subst h <;> simp
  have hi := List.idxOf_lt_length_of_mem hk
  refine str_at hl.2 fun i hi' => ?_
  unfold keyMem
  rw [show (32 * ((keys.idxOf k : Nat) : Int) + i) / 32 = (keys.idxOf k : Nat) by omega,
    show (32 * ((keys.idxOf k : Nat) : Int) + i) % 32 = i by omega]
  simp [List.getElem?_eq_getElem hi]

end Driver

end FftMpi
