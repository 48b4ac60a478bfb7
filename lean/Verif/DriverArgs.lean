import Verif.CInt

/-!
# The command line of the test programs

`options` of test3d.cpp:268-398 and test2d.cpp:267-394.  Both have the same text, except that test2d reads two
numbers instead of three after `-g`, `-pin` and `-pout`, has no third components in the checks, and rejects
`-n 0`.  The model has a parameter `three` for this.

An outcome is undefined (`none`), a call of `error_all` with a message, or the values of the variables.  The
function `neg` says for which strings `atof(s) < 0.0`.  The functions `argv` and `num` are undefined outside of the
array of arguments.
-/

namespace FftMpi

namespace Driver

/-- `isspace` in the C locale. -/
def isSpace (c : Char) : Bool := c = ' ' ∨ c = '\t' ∨ c = '\n' ∨ c = '\x0b' ∨ c = '\x0c' ∨ c = '\r'

/-- Value of the digits at the beginning of a string. -/
def digits (v : Int) : List Char → Int
  | [] => v
  | c :: s => if '0' ≤ c ∧ c ≤ '9' then digits (10 * v + (c.toNat - '0'.toNat : Nat)) s else v

/-- The library function `atoi`: white space, a sign, digits.  Undefined if the value is not an `int`. -/
def atoi (s : String) : Option Int :=
  match s.toList.dropWhile isSpace with
  | '-' :: t => ck (-digits 0 t)
  | '+' :: t => ck (digits 0 t)
  | t => ck (digits 0 t)

/-- The variables that `options` sets, test3d.cpp:272-285.  `iflag` is 0, 1, 2, 3 for `ZERO`, `STEP`, `INDEX`,
`RANDOM`; `tmneg` is `tunemax < 0.0`. -/
structure Cmd where
  nx : Int
  ny : Int
  nz : Int
  inpx : Int
  inpy : Int
  inpz : Int
  outpx : Int
  outpy : Int
  outpz : Int
  nloop : Int
  iflag : Int
  seed : Int
  tuneflag : Bool
  tuneper : Int
  tmneg : Bool
  tuneextra : Int
  mode : Int
  cflag : Int
  eflag : Int
  pflag : Int
  tflag : Bool
  rflag : Bool
  oflag : Bool
  vflag : Bool
deriving DecidableEq

/-- The defaults, test3d.cpp:272-285; global variables that are not set are 0.  In two dimensions the third
components are not used. -/
def Cmd.default : Cmd where
  nx := 8
  ny := 8
  nz := 8
  inpx := 0
  inpy := 0
  inpz := 0
  outpx := 0
  outpy := 0
  outpz := 0
  nloop := 1
  iflag := 0
  seed := 0
  tuneflag := false
  tuneper := 0
  tmneg := false
  tuneextra := 0
  mode := 0
  cflag := 2
  eflag := 0
  pflag := 2
  tflag := false
  rflag := false
  oflag := false
  vflag := false

/-- What a piece of `options` does. -/
inductive Out (γ : Type) where
  | error (msg : String)
  | ok (x : γ)
deriving DecidableEq

/-- `args[i]`; `args[narg]` is a null pointer. -/
def argv (args : List String) (i : Nat) : Option String := args[i]?

/-- `atoi(args[i])` -/
def num (args : List String) (i : Nat) : Option Int := (argv args i).bind atoi

section
variable (three : Bool) (neg : String → Bool) (me : Nat) (args : List String)

/-- Three numbers (two in test2d) after `args[iarg]`, test3d.cpp:294-311. -/
def grid (iarg : Nat) (set : Int → Int → Int → Cmd) : Option (Out (Nat × Cmd)) :=
  if three then
    if iarg + 4 > args.length then some (.error "syntax")
    else (num args (iarg + 1)).bind fun x => (num args (iarg + 2)).bind fun y => (num args (iarg + 3)).map fun z =>
      .ok (iarg + 4, set x y z)
  else
    if iarg + 3 > args.length then some (.error "syntax")
    else (num args (iarg + 1)).bind fun x => (num args (iarg + 2)).map fun y => .ok (iarg + 3, set x y 0)

/-- A number after `args[iarg]`. -/
def one (iarg : Nat) (set : Int → Cmd) : Option (Out (Nat × Cmd)) :=
  if iarg + 2 > args.length then some (.error "syntax")
  else (num args (iarg + 1)).map fun x => .ok (iarg + 2, set x)

/-- A word after `args[iarg]`, test3d.cpp:338-357: `words` are the allowed words and what they do. -/
def choice (iarg : Nat) (words : List (String × Cmd)) : Option (Out (Nat × Cmd)) :=
  if iarg + 2 > args.length then some (.error "syntax")
  else (argv args (iarg + 1)).map fun s => match words.lookup s with
    | some o => .ok (iarg + 2, o)
    | none => .error "syntax"

/-- `-i`, test3d.cpp:314-325. -/
def initArg (iarg : Nat) (o : Cmd) : Option (Out (Nat × Cmd)) :=
  if iarg + 2 > args.length then some (.error "syntax")
  else (argv args (iarg + 1)).bind fun s =>
    if s = "zero" then some (.ok (iarg + 2, { o with iflag := 0 }))
    else if s = "step" then some (.ok (iarg + 2, { o with iflag := 1 }))
    else if s = "index" then some (.ok (iarg + 2, { o with iflag := 2 }))
    else (atoi s).bind fun v => (add32 v me).map fun v => .ok (iarg + 2, { o with iflag := 3, seed := v })

/-- `-tune`, test3d.cpp:326-332. -/
def tuneArg (iarg : Nat) (o : Cmd) : Option (Out (Nat × Cmd)) :=
  if iarg + 4 > args.length then some (.error "syntax")
  else (num args (iarg + 1)).bind fun x => (argv args (iarg + 2)).bind fun y => (num args (iarg + 3)).map fun z =>
    .ok (iarg + 4, { o with tuneflag := true, tuneper := x, tmneg := neg y, tuneextra := z })

/-- One pass of the loop, test3d.cpp:291-369; test2d.cpp:290-365. -/
def argStep (iarg : Nat) (o : Cmd) : Option (Out (Nat × Cmd)) :=
  (argv args iarg).bind fun s =>
  if s = "-h" then some (.error "syntax")
  else if s = "-g" then grid three args iarg fun x y z => { o with nx := x, ny := y, nz := z }
  else if s = "-pin" then grid three args iarg fun x y z => { o with inpx := x, inpy := y, inpz := z }
  else if s = "-pout" then grid three args iarg fun x y z => { o with outpx := x, outpy := y, outpz := z }
  else if s = "-n" then one args iarg fun x => { o with nloop := x }
  else if s = "-i" then initArg me args iarg o
  else if s = "-tune" then tuneArg neg args iarg o
  else if s = "-m" then one args iarg fun x => { o with mode := x }
  else if s = "-c" then choice args iarg [("point", { o with cflag := 0 }), ("all", { o with cflag := 1 }),
    ("combo", { o with cflag := 2 })]
  else if s = "-e" then choice args iarg [("pencil", { o with eflag := 0 }), ("brick", { o with eflag := 1 })]
  else if s = "-p" then choice args iarg [("array", { o with pflag := 0 }), ("ptr", { o with pflag := 1 }),
    ("memcpy", { o with pflag := 2 })]
  else if s = "-t" then some (.ok (iarg + 1, { o with tflag := true }))
  else if s = "-r" then some (.ok (iarg + 1, { o with rflag := true }))
  else if s = "-o" then some (.ok (iarg + 1, { o with oflag := true }))
  else if s = "-v" then some (.ok (iarg + 1, { o with vflag := true }))
  else some (.error "syntax")

/-- The loop `while (iarg < narg)`, test3d.cpp:289-370.  The first argument bounds the number of passes; `none` if
there are more. -/
def argLoop : Nat → Nat → Cmd → Option (Out Cmd)
  | 0, _, _ => none
  | n + 1, iarg, o =>
    if iarg < args.length then
      match argStep three neg me args iarg o with
      | none => none
      | some (.error e) => some (.error e)
      | some (.ok (i, o)) => argLoop n i o
    else some (.ok o)

end

/-- The checks of a processor grid, test3d.cpp:376-385.  `none`: overflow. -/
def gridCheck (three : Bool) (P : Nat) (x y z : Int) : Option (Option String) :=
  if x = 0 ∧ y = 0 ∧ (three → z = 0) then some none
  else if x ≤ 0 ∨ y ≤ 0 ∨ (three ∧ z ≤ 0) then some (some "Invalid proc grid")
  else (mul32 x y).bind fun v => (if three then mul32 v z else (some v : Option Int)).map fun v =>
    if v ≠ (P : Int) then some "Specified proc grid does not match nprocs" else none

/-- The checks after those of the grids, test3d.cpp:387-397; test2d.cpp:383-393. -/
def runCheck (three : Bool) (o : Cmd) : Option String :=
  if o.nloop < 0 ∨ (three = false ∧ o.nloop ≤ 0) then some "Invalid Nloop"
  else if o.nloop = 0 ∧ o.tuneflag = false then some "Invalid Nloop"
  else if o.iflag = 3 ∧ o.seed ≤ 0 then some "Invalid initialize setting"
  else if o.mode < 0 ∨ o.mode > 3 then some "Invalid FFT mode"
  else if o.mode > 1 ∧ o.vflag = true then some "Cannot validate forward only FFT"
  else if o.tuneflag = true ∧ o.tuneper ≤ 0 then some "Invalid tune nper"
  else if o.tuneflag = true ∧ o.tmneg = true then some "Invalid tune tmax"
  else if o.tuneflag = true ∧ (o.tuneextra < 0 ∨ o.tuneextra > 1) then some "Invalid tune extra"
  else if o.tuneflag = true ∧ o.rflag = true then some "Cannot tune with remap only"
  else none

/-- The checks, test3d.cpp:372-397; test2d.cpp:368-393. -/
def argCheck (three : Bool) (P : Nat) (o : Cmd) : Option (Option String) :=
  if o.nx ≤ 0 ∨ o.ny ≤ 0 ∨ (three = true ∧ o.nz ≤ 0) then some (some "Invalid grid size")
  else (gridCheck three P o.inpx o.inpy o.inpz).bind fun e => match e with
    | some e => some (some e)
    | none => (gridCheck three P o.outpx o.outpy o.outpz).map fun e => match e with
      | some e => some e
      | none => runCheck three o

/-- `options` on rank `me` of `P`. -/
def options (three : Bool) (neg : String → Bool) (P me : Nat) (args : List String) : Option (Out Cmd) :=
  match argLoop three neg me args (args.length + 1) 1 Cmd.default with
  | none => none
  | some (.error e) => some (.error e)
  | some (.ok o) => (argCheck three P o).map fun e => match e with
    | some e => .error e
    | none => .ok o

end Driver

end FftMpi
