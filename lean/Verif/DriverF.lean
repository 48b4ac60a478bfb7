import Verif.Driver
import Verif.DriverArgs
import Verif.Simple

/-!
# The Fortran test programs test3d_f90.f90 and test2d_f90.f90

They are translations of test3d.cpp and test2d.cpp (`Driver`, `DriverArgs`).  `proc3d`, `proc2d` and the loop over the
transforms have the same text as there and are not repeated.  The array `work` begins with index 1; `fget` and `fset` turn
an index into an offset, and an index outside of the array is undefined.  Run-time errors of the Fortran library, which
end the program, are `none` like undefined behaviour.
-/

noncomputable section

namespace FftMpi

namespace DriverF

open Driver

/-! ## Command line -/

/-- The value of a string of digits; `none` if there is another character. -/
def allDigits (v : Int) : List Char → Option Int
  | [] => some v
  | c :: s => if '0' ≤ c ∧ c ≤ '9' then allDigits (10 * v + (c.toNat - '0'.toNat : Nat)) s else none

/-- `read (arg,'(i10)') n`: the first ten characters, in which blanks are ignored; a field of blanks is zero. -/
def readI (s : String) : Option Int :=
  match (s.toList.take 10).filter (· ≠ ' ') with
  | '-' :: c :: t => (allDigits 0 (c :: t)).bind fun v => ck (-v)
  | '+' :: c :: t => (allDigits 0 (c :: t)).bind ck
  | t => (allDigits 0 t).bind ck

/-- `read (arg,'(f10.3)') x`: the same with a decimal point; without a point the last three digits are the fraction.
Exponents are left out (`none`). -/
def readF (s : String) : Option ℚ :=
  let t := (s.toList.take 10).filter (· ≠ ' ')
  let neg := t.head? = some '-'
  let u := if t.head? = some '-' ∨ t.head? = some '+' then t.tail else t
  let whole := u.takeWhile (· ≠ '.')
  let frac := (u.dropWhile (· ≠ '.')).tail
  (allDigits 0 (whole ++ frac)).map fun v =>
    let x : ℚ := if '.' ∈ u then v / 10 ^ frac.length else v / 10 ^ 3
    if neg then -x else x

/-- The comparison `arg == "..."` of the variable `character(len=32) :: arg` with a word: trailing blanks do not
matter. -/
def isWord (s w : String) : Bool := ((s.toList.take 32).reverse.dropWhile (· = ' ')).reverse = w.toList

/-- The variables that `options` sets, test3d_f90.f90:33-43, 206-229. -/
structure Cmd1 extends Cmd where
  seedinit : Int
  tunemax : ℚ

/-- The defaults, test3d_f90.f90:206-227; test2d_f90.f90:206-224.  `seedinit` and `tunemax` have no default in the program;
they are used only after `-i` and `-tune`. -/
def Cmd1.default : Cmd1 := { Cmd.default with seedinit := 0, tunemax := 0 }

section
variable (three : Bool) (me : Nat) (args : List String)

/-- `call get_command_argument(i,arg); read (arg,'(i10)') n` -/
def numF (i : Nat) : Option Int := (argv args i).bind readI

/-- Three numbers (two in test2d_f90), test3d_f90.f90:238-264; test2d_f90.f90:235-255. -/
def gridF (iarg : Nat) (set : Int → Int → Int → Cmd1) : Option (Out (Nat × Cmd1)) :=
  if three then
    if iarg + 4 > args.length then some (.error "syntax")
    else (numF args (iarg + 1)).bind fun x => (numF args (iarg + 2)).bind fun y => (numF args (iarg + 3)).map fun z =>
      .ok (iarg + 4, set x y z)
  else
    if iarg + 3 > args.length then some (.error "syntax")
    else (numF args (iarg + 1)).bind fun x => (numF args (iarg + 2)).map fun y => .ok (iarg + 3, set x y 0)

/-- A number after `arg`. -/
def oneF (iarg : Nat) (set : Int → Cmd1) : Option (Out (Nat × Cmd1)) :=
  if iarg + 2 > args.length then some (.error "syntax")
  else (numF args (iarg + 1)).map fun x => .ok (iarg + 2, set x)

/-- A word after `arg`, test3d_f90.f90:302-340; test2d_f90.f90:293-331. -/
def choiceF (iarg : Nat) (words : List (String × Cmd1)) : Option (Out (Nat × Cmd1)) :=
  if iarg + 2 > args.length then some (.error "syntax")
  else (argv args (iarg + 1)).map fun s => match words.find? fun w => isWord s w.1 with
    | some w => .ok (iarg + 2, w.2)
    | none => .error "syntax"

/-- `-i`, test3d_f90.f90:270-285; test2d_f90.f90:261-276.  The variable `arg`, here `s`, still is the word `-i` when it is
compared with `zero`, `step` and `index`: the next argument is fetched only after that. -/
def initArgF (iarg : Nat) (s : String) (o : Cmd1) : Option (Out (Nat × Cmd1)) :=
  if iarg + 2 > args.length then some (.error "syntax")
  else if isWord s "zero" then some (.ok (iarg + 2, { o with iflag := 0 }))
  else if isWord s "step" then some (.ok (iarg + 2, { o with iflag := 1 }))
  else if isWord s "index" then some (.ok (iarg + 2, { o with iflag := 2 }))
  else (numF args (iarg + 1)).bind fun n => (add32 n me).map fun v =>
    .ok (iarg + 2, { o with iflag := 3, seedinit := n, seed := v })

/-- `-tune`, test3d_f90.f90:286-295; test2d_f90.f90:277-286. -/
def tuneArgF (iarg : Nat) (o : Cmd1) : Option (Out (Nat × Cmd1)) :=
  if iarg + 4 > args.length then some (.error "syntax")
  else (numF args (iarg + 1)).bind fun x => ((argv args (iarg + 2)).bind readF).bind fun y =>
    (numF args (iarg + 3)).map fun z =>
    .ok (iarg + 4, { o with tuneflag := true, tuneper := x, tunemax := y, tmneg := decide (y < 0), tuneextra := z })

/-- One pass of the loop, test3d_f90.f90:235-352; test2d_f90.f90:232-343. -/
def argStepF (iarg : Nat) (o : Cmd1) : Option (Out (Nat × Cmd1)) :=
  (argv args iarg).bind fun s =>
  if isWord s "-h" then some (.error "syntax")
  else if isWord s "-g" then gridF three args iarg fun x y z => { o with nx := x, ny := y, nz := z }
  else if isWord s "-pin" then gridF three args iarg fun x y z => { o with inpx := x, inpy := y, inpz := z }
  else if isWord s "-pout" then gridF three args iarg fun x y z => { o with outpx := x, outpy := y, outpz := z }
  else if isWord s "-n" then oneF args iarg fun x => { o with nloop := x }
  else if isWord s "-i" then initArgF me args iarg s o
  else if isWord s "-tune" then tuneArgF args iarg o
  else if isWord s "-m" then oneF args iarg fun x => { o with mode := x }
  else if isWord s "-c" then choiceF args iarg [("point", { o with cflag := 0 }), ("all", { o with cflag := 1 }),
    ("combo", { o with cflag := 2 })]
  else if isWord s "-e" then choiceF args iarg [("pencil", { o with eflag := 0 }), ("brick", { o with eflag := 1 })]
  else if isWord s "-p" then choiceF args iarg [("array", { o with pflag := 0 }), ("ptr", { o with pflag := 1 }),
    ("memcpy", { o with pflag := 2 })]
  else if isWord s "-t" then some (.ok (iarg + 1, { o with tflag := true }))
  else if isWord s "-r" then some (.ok (iarg + 1, { o with rflag := true }))
  else if isWord s "-o" then some (.ok (iarg + 1, { o with oflag := true }))
  else if isWord s "-v" then some (.ok (iarg + 1, { o with vflag := true }))
  else some (.error "syntax")

/-- The loop `do while (iarg <= narg)`, test3d_f90.f90:231-353; test2d_f90.f90:228-344.  As in C, `args` begins with the
name of the program, which Fortran does not count. -/
def argLoopF : Nat → Nat → Cmd1 → Option (Out Cmd1)
  | 0, _, _ => none
  | n + 1, iarg, o =>
    if iarg < args.length then
      match argStepF three me args iarg o with
      | none => none
      | some (.error e) => some (.error e)
      | some (.ok (i, o)) => argLoopF n i o
    else some (.ok o)

end

/-- `options` on rank `me` of `P`, test3d_f90.f90:200-386; test2d_f90.f90:200-377.  The checks are those of test3d.cpp;
test2d_f90 has the weaker check of `nloop` of test3d.cpp. -/
def optionsF (three : Bool) (P me : Nat) (args : List String) : Option (Out Cmd1) :=
  match argLoopF three me args (args.length + 1) 1 Cmd1.default with
  | none => none
  | some (.error e) => some (.error e)
  | some (.ok o) =>
    if o.nx ≤ 0 ∨ o.ny ≤ 0 ∨ (three = true ∧ o.nz ≤ 0) then some (.error "Invalid grid size")
    else (gridCheck three P o.inpx o.inpy o.inpz).bind fun e => match e with
      | some e => some (.error e)
      | none => (gridCheck three P o.outpx o.outpy o.outpz).map fun e => match e with
        | some e => .error e
        | none => match runCheck true o.toCmd with
          | some e => .error e
          | none => .ok o

/-! ## Data -/

/-- `work(i)` and `work(i) = v`. -/
def fget (w : Mem ℝ) (i : Int) : Option ℝ := w (i - 1)
def fset (w : Mem ℝ) (i : Int) (v : ℝ) : Option (Mem ℝ) := w.set (i - 1) v

/-- `random`, test3d_f90.f90:1144-1157; test2d_f90.f90:1027-1040.  The seed is that of test3d.cpp.  The factor `am` is
computed in single precision (line 116 of both files), in which 2147483647 is rounded to `2^31`; products with it are
exact. -/
def randomF (seed : Int) : Option (Int × ℝ) := (random id seed).map fun p => (p.1, (p.1 : ℝ) / 2 ^ 31)

/-- `do m = 1,2*nfft_in; work(m) = 0.0`, test3d_f90.f90:644-646. -/
def zeroF (nfft : Int) (w : Mem ℝ) : Option (Mem ℝ) := forN (2 * nfft) (fun m w => fset w (m + 1) 0) w

/-- `do m = 1,2*nfft_in; work(m) = random()`, test3d_f90.f90:683-685; test2d_f90.f90:605-607. -/
def fillRandomF (nfft seed : Int) (w : Mem ℝ) : Option (Mem ℝ) :=
  (forN (2 * nfft) (fun m (s : Int × Mem ℝ) => (randomF s.1).bind fun p =>
    (fset s.2 (m + 1) p.2).map fun w => (p.1, w)) (seed, w)).map Prod.snd

/-- The loops of `step` and `index`, test3d_f90.f90:652-665, 671-680, with the indices `2*m` and `2*m+1`. -/
def fillAtF (nfft : Int) (pt : Int → Option (Int × Int × Int)) (val : Int × Int × Int → ℝ) (w : Mem ℝ) :
    Option (Mem ℝ) :=
  forN nfft (fun m w => (pt m).bind fun g => (fset w (2 * m) (val g)).bind fun w => fset w (2 * m + 1) 0) w

/-- The loop of `step` in test2d_f90.f90:579-590: the second assignment belongs to the `else`. -/
def fillStepF2 (o : Opt2) (nfft : Int) (pt : Int → Option (Int × Int)) (w : Mem ℝ) : Option (Mem ℝ) :=
  forN nfft (fun m w => (pt m).bind fun g =>
    if g.1 < (o.nx / 2 : Nat) ∧ g.2 < (o.ny / 2 : Nat) then fset w (2 * m + 1) 1
    else (fset w (2 * m + 1) 0).bind fun w => fset w (2 * m + 2) 0) w

/-- The loop of `index` in test2d_f90.f90:595-602. -/
def fillIndexF2 (nfft : Int) (pt : Int → Option (Int × Int)) (w : Mem ℝ) : Option (Mem ℝ) :=
  forN nfft (fun m w => (pt m).bind fun g =>
    (fset w (2 * m + 1) (indexAt2 g)).bind fun w => fset w (2 * m + 2) 0) w

/-- `initialize` on rank `me` with input box `b`, counted from one; the number after `-i` is `seedinit`.
test3d_f90.f90:635-688. -/
def initialize3 (o : Opt3) (me : Nat) (b : Box3) (w : Mem ℝ) : Option (Mem ℝ) :=
  match o.iflag with
  | .zero => zeroF (nfft3 b) w
  | .step => fillAtF (nfft3 b) (point3 b) (stepAt3 o) w
  | .index => fillAtF (nfft3 b) (point3 b) indexAt3 w
  | .random n => fillRandomF (nfft3 b) (n + me) w

/-- test2d_f90.f90:564-610. -/
def initialize2 (o : Opt2) (me : Nat) (b : Box2) (w : Mem ℝ) : Option (Mem ℝ) :=
  match o.iflag with
  | .zero => zeroF (nfft2 b) w
  | .step => fillStepF2 o (nfft2 b) (point2 b) w
  | .index => fillIndexF2 (nfft2 b) (point2 b) w
  | .random n => fillRandomF (nfft2 b) (n + me) w

/-- The loops of `validate`, test3d_f90.f90:762-765, 774-787, 794-805, 809-813; test2d_f90.f90:678-723. -/
def checkZeroF (nfft : Int) (w : Mem ℝ) : Option ℝ :=
  forN (2 * nfft) (fun m eps => (fget w (m + 1)).map fun x => worse |x| eps) 0
def checkAtF {γ : Type} (nfft : Int) (pt : Int → Option γ) (val : γ → ℝ) (w : Mem ℝ) : Option ℝ :=
  forN nfft (fun m eps => (pt m).bind fun g => (fget w (2 * m + 1)).bind fun x => (fget w (2 * m + 2)).map fun y =>
    worse |y| (worse |x - val g| eps)) 0
def checkRandomF (nfft seed : Int) (w : Mem ℝ) : Option ℝ :=
  (forN (2 * nfft) (fun m (s : Int × ℝ) => (randomF s.1).bind fun p =>
    (fget w (m + 1)).map fun x => (p.1, worse |x - p.2| s.2)) (seed, 0)).map Prod.snd

/-- `validate`, test3d_f90.f90:750-818.  The random numbers start again with `seedinit`, not with `seedinit + me`
(line 808). -/
def validate3 (o : Opt3) (b : Box3) (w : Mem ℝ) : Option ℝ :=
  match o.iflag with
  | .zero => checkZeroF (nfft3 b) w
  | .step => checkAtF (nfft3 b) (point3 b) (stepAt3 o) w
  | .index => checkAtF (nfft3 b) (point3 b) indexAt3 w
  | .random n => checkRandomF (nfft3 b) n w

/-- test2d_f90.f90:666-728. -/
def validate2 (o : Opt2) (b : Box2) (w : Mem ℝ) : Option ℝ :=
  match o.iflag with
  | .zero => checkZeroF (nfft2 b) w
  | .step => checkAtF (nfft2 b) (point2 b) (stepAt2 o) w
  | .index => checkAtF (nfft2 b) (point2 b) indexAt2 w
  | .random n => checkRandomF (nfft2 b) n w

/-- What is printed of the error, lines 178 and 1071 of test3d_f90.f90, 178 and 956 of test2d_f90.f90: `check` is what
`validate` finds.  `none`: the value of a variable that has none; `some none`: nothing is printed. -/
def report (vflag : Bool) (check : Option ℝ) : Option (Option ℝ) :=
  (if vflag = false then check.map some else some none).bind fun epsmax : Option ℝ =>
  if vflag = true then epsmax.map some else some none

/-- What a rank prints in `output`, test3d_f90.f90:711-739; test2d_f90.f90:633-655: the values are `work(2*m)` and
`work(2*m+1)`. -/
def printedF {γ : Type} (n : Int) (pt : Int → Option γ) (w : Mem ℝ) : Option (List (γ × ℝ × ℝ)) :=
  forN n (fun m l => (pt m).bind fun g => (fget w (2 * m)).bind fun x => (fget w (2 * m + 1)).map fun y =>
    l ++ [(g, x, y)]) []
def outputF3 (flag : Nat) (b b' : Box3) (w : Mem ℝ) : Option (List ((Int × Int × Int) × ℝ × ℝ)) :=
  printedF (nfft3 b) (point3 (if flag = 0 then b else b')) w
def outputF2 (flag : Nat) (b b' : Box2) (w : Mem ℝ) : Option (List ((Int × Int) × ℝ × ℝ)) :=
  printedF (nfft2 b) (point2 (if flag = 0 then b else b')) w

/-! ## The program -/

/-- The boxes of rank `me`, counted from one: test3d_f90.f90:519-532, 538-551 have the text of simple_f90.f90:97-106. -/
def box3F (rnd : ℝ → ℝ) (np : Nat × Nat × Nat) (nx ny nz me : Nat) : Box3 := Simple.boxF rnd np nx ny nz me

/-- The arguments that `FFT3d::setup` gets, test3d_f90.f90:575-579, 590-593; fft3d_setup_fortran in fft3d_wrap.cpp
subtracts one from the bounds.  `rnd` is the rounding of `double` in `proc3d` and `proc2d`, `rnd1` that of single precision
in `grid_setup`. -/
def fromOne (b : Box3) : Box3 := ⟨b.ilo - 1, b.ihi - 1, b.jlo - 1, b.jhi - 1, b.klo - 1, b.khi - 1⟩
def args3 (rnd rnd1 : ℝ → ℝ) (o : Opt3) (P : Nat) : Option Args3 :=
  (o.inGrid rnd P).bind fun pin => (o.outGrid rnd P).map fun pout =>
    { nfast := o.nx, nmid := o.ny, nslow := o.nz
      ins := fun r => fromOne (box3F rnd1 pin o.nx o.ny o.nz r)
      outs := fun r => fromOne (box3F rnd1 pout o.nx o.ny o.nz r)
      permute := if o.mode = 0 ∨ o.mode = 2 then 0 else 2
      fp := rnd }

/-- `initialize` and the loop on rank `me`, test3d_f90.f90:144, 157-167. -/
def run3F (o : Opt3) (me : Nat) (b : Box3) (f : Fft3 ℝ) (J J' : Nat → Nat → Junk) : List (Instr ℝ) :=
  .loc (onWork (initialize3 o me b)) :: loop3 f o.rflag o.mode J J' o.nloop

/-- test2d_f90.f90:144, 157-167. -/
def run2F (o : Opt2) (me : Nat) (b : Box2) (f : Fft2 ℝ) (J J' : Nat → Nat → Junk) : List (Instr ℝ) :=
  .loc (onWork (initialize2 o me b)) :: loop2 f o.rflag o.mode J J' o.nloop

end DriverF

end FftMpi
