import Verif.DriverF

/-!
# The Python test programs

test/test3d.py and test/test2d.py (Python 2: `/` of two integers is division with rounding down).  Line numbers are
those of test3d.py unless said otherwise.  `none` is an exception (`ValueError`, `ZeroDivisionError`, `NameError`, ...).
Integers are unbounded.  What is the same in test3d.cpp and test2d.cpp is taken from `Driver` and `DriverArgs`; the
indices of the points (lines 393-398 and three more times) are `point3` and `point2`, because all numbers in them are
non-negative.
-/

noncomputable section

namespace FftMpi

namespace DriverPy

open Driver DriverF

/-! ## Command line -/

/-- `int(s)`: white space at both ends, a sign, and nothing else than digits. -/
def pyInt (s : String) : Option Int :=
  match ((s.toList.dropWhile isSpace).reverse.dropWhile isSpace).reverse with
  | [] => none
  | '-' :: c :: t => (allDigits 0 (c :: t)).map fun v => -v
  | '+' :: c :: t => allDigits 0 (c :: t)
  | t => allDigits 0 t

section
variable (three : Bool) (flt : String → Option Bool) (me : Nat) (args : List String)

/-- `int(args[i])` -/
def numPy (i : Nat) : Option Int := (argv args i).bind pyInt

/-- Three numbers (two in test2d.py) after `args[iarg]`, lines 91-108. -/
def gridPy (iarg : Nat) (set : Int → Int → Int → Cmd) : Option (Out (Nat × Cmd)) :=
  if three then
    if iarg + 4 > args.length then some (.error "syntax")
    else (numPy args (iarg + 1)).bind fun x => (numPy args (iarg + 2)).bind fun y => (numPy args (iarg + 3)).map fun z =>
      .ok (iarg + 4, set x y z)
  else
    if iarg + 3 > args.length then some (.error "syntax")
    else (numPy args (iarg + 1)).bind fun x => (numPy args (iarg + 2)).map fun y => .ok (iarg + 3, set x y 0)

/-- A number after `args[iarg]`, lines 109-112, 130-133. -/
def onePy (iarg : Nat) (set : Int → Cmd) : Option (Out (Nat × Cmd)) :=
  if iarg + 2 > args.length then some (.error "syntax")
  else (numPy args (iarg + 1)).map fun x => .ok (iarg + 2, set x)

/-- `-i`, lines 113-122.  `seed` and `seedinit` get the same value. -/
def initArgPy (iarg : Nat) (o : Cmd) : Option (Out (Nat × Cmd)) :=
  if iarg + 2 > args.length then some (.error "syntax")
  else (argv args (iarg + 1)).bind fun s =>
    if s = "zero" then some (.ok (iarg + 2, { o with iflag := 0 }))
    else if s = "step" then some (.ok (iarg + 2, { o with iflag := 1 }))
    else if s = "index" then some (.ok (iarg + 2, { o with iflag := 2 }))
    else (pyInt s).map fun v => .ok (iarg + 2, { o with iflag := 3, seed := v + me })

/-- `-tune`, lines 123-129.  `flt s` is `none` if `float(s)` raises an exception, otherwise whether it is negative. -/
def tuneArgPy (iarg : Nat) (o : Cmd) : Option (Out (Nat × Cmd)) :=
  if iarg + 4 > args.length then some (.error "syntax")
  else (numPy args (iarg + 1)).bind fun x => ((argv args (iarg + 2)).bind flt).bind fun y =>
    (numPy args (iarg + 3)).map fun z =>
    .ok (iarg + 4, { o with tuneflag := true, tuneper := x, tmneg := y, tuneextra := z })

/-- One pass of the loop, lines 90-166; test2d.py:89-162.  The words after `-c`, `-e`, `-p` are those of `choice`. -/
def argStepPy (iarg : Nat) (o : Cmd) : Option (Out (Nat × Cmd)) :=
  (argv args iarg).bind fun s =>
  if s = "-h" then some (.error "syntax")
  else if s = "-g" then gridPy three args iarg fun x y z => { o with nx := x, ny := y, nz := z }
  else if s = "-pin" then gridPy three args iarg fun x y z => { o with inpx := x, inpy := y, inpz := z }
  else if s = "-pout" then gridPy three args iarg fun x y z => { o with outpx := x, outpy := y, outpz := z }
  else if s = "-n" then onePy args iarg fun x => { o with nloop := x }
  else if s = "-i" then initArgPy me args iarg o
  else if s = "-tune" then tuneArgPy flt args iarg o
  else if s = "-m" then onePy args iarg fun x => { o with mode := x }
  else if s = "-c" then choice args iarg [("point", { o with cflag := 0 }), ("all", { o with cflag := 1 }),
    ("combo", { o with cflag := 2 })]
  else if s = "-e" then choice args iarg [("pencil", { o with eflag := 0 }), ("brick", { o with eflag := 1 })]
  else if s = "-p" then choice args iarg [("array", { o with pflag := 0 }), ("ptr", { o with pflag := 1 }),
    ("memcpy", { o with pflag := 2 })]
  else if s = "-t" then some (.ok (iarg + 1, { o with tflag := true }))
  else if s = "-r" then some (.ok (iarg + 1, { o with rflag := true }))
  else if s = "-o" then some (.ok (iarg + 1, { o with oflag := true }))
  else if s = "-v" then some (.ok (iarg + 1, { o with vflag := true }))
  else some (.error "syntax")

/-- The loop `while iarg < narg`, lines 88-166; test2d.py:87-162.  The first argument bounds the number of passes. -/
def argLoopPy : Nat → Nat → Cmd → Option (Out Cmd)
  | 0, _, _ => none
  | n + 1, iarg, o =>
    if iarg < args.length then
      match argStepPy three flt me args iarg o with
      | none => none
      | some (.error e) => some (.error e)
      | some (.ok (i, o)) => argLoopPy n i o
    else some (.ok o)

end

/-- The check of the input grid, lines 172-174; test2d.py:168-170.  The product leaves out the third number. -/
def inCheck (three : Bool) (P : Nat) (x y z : Int) : Option String :=
  if x = 0 ∧ y = 0 ∧ (three → z = 0) then none
  else if x ≤ 0 ∨ y ≤ 0 ∨ (three ∧ z ≤ 0) then some "Invalid proc grid"
  else if x * y ≠ P then some "Specified proc grid does not match nprocs" else none

/-- The check of the output grid, lines 176-179; test2d.py:172-175.  `outpy <= 0` is written twice and `outpz <= 0`
not at all. -/
def outCheck (three : Bool) (P : Nat) (x y z : Int) : Option String :=
  if x = 0 ∧ y = 0 ∧ (three → z = 0) then none
  else if x ≤ 0 ∨ y ≤ 0 ∨ (three ∧ y ≤ 0) then some "Invalid proc grid"
  else if x * y ≠ P then some "Specified proc grid does not match nprocs" else none

/-- The checks, lines 170-191; test2d.py:166-187.  The rest is the same as in test2d.cpp: `nloop <= 0` is an error in
both programs (line 181). -/
def argCheckPy (three : Bool) (P : Nat) (o : Cmd) : Option String :=
  if o.nx ≤ 0 ∨ o.ny ≤ 0 ∨ (three = true ∧ o.nz ≤ 0) then some "Invalid grid size"
  else match inCheck three P o.inpx o.inpy o.inpz with
    | some e => some e
    | none => match outCheck three P o.outpx o.outpy o.outpz with
      | some e => some e
      | none => runCheck false o

/-- `options()` on rank `me` of `P`, lines 61-191; test2d.py:60-187. -/
def optionsPy (three : Bool) (flt : String → Option Bool) (P me : Nat) (args : List String) : Option (Out Cmd) :=
  match argLoopPy three flt me args (args.length + 1) 1 Cmd.default with
  | none => none
  | some (.error e) => some (.error e)
  | some (.ok o) => some (match argCheckPy three P o with
    | some e => .error e
    | none => .ok o)

/-! ## Processor grids and boxes -/

/-- `surf`, lines 234-237: the quotients are rounded down. -/
def surfPy3 (nx ny nz : Nat) (c : Nat × Nat × Nat) : Nat :=
  nx / c.1 * (ny / c.2.1) + ny / c.2.1 * (nz / c.2.2) + nz / c.2.2 * (nx / c.1)

/-- `surf`, test3d.py:261-263; test2d.py:224-226. -/
def surfPy2 (nx ny : Nat) (c : Nat × Nat) : Nat := nx / c.1 + ny / c.2

/-- `proc3d()`, lines 217-247.  `bestsurf` begins as a floating-point number (`rnd` rounds); the comparisons of it with
integers are exact.  If no candidate is better, `px` has no value: `none`. -/
def proc3dPy (rnd : ℝ → ℝ) (nx ny nz P : Nat) : Option (Nat × Nat × Nat) :=
  let b := divLoop P (fun ipx b => divLoop (P / ipx) (fun ipy b =>
    keep (fun c => ((surfPy3 nx ny nz c : Nat) : ℝ)) (ipx, ipy, P / ipx / ipy) b) b)
    (rnd (2 * rnd ((nx * ny + ny * nz + nz * nx : Nat) : ℝ)), (0, 0, 0))
  if b.2.1 * b.2.2.1 * b.2.2.2 ≠ P then none else some b.2

/-- `proc2d()`, test3d.py:249-272; test2d.py:212-234. -/
def proc2dPy (rnd : ℝ → ℝ) (nx ny P : Nat) : Option (Nat × Nat) :=
  let b := divLoop P (fun ipx b => keep (fun c => ((surfPy2 nx ny c : Nat) : ℝ)) (ipx, P / ipx) b)
    (rnd (2 * rnd ((nx + ny : Nat) : ℝ)), (0, 0))
  if b.2.1 * b.2.2 ≠ P then none else some b.2

/-- `proc_setup(IN)`, lines 208-210. -/
def inGrid3 (rnd : ℝ → ℝ) (o : Opt3) (P : Nat) : Option (Nat × Nat × Nat) :=
  if o.pin.1 ≠ 0 ∨ o.pin.2.1 ≠ 0 ∨ o.pin.2.2 ≠ 0 then some o.pin else proc3dPy rnd o.nx o.ny o.nz P

/-- `proc_setup(OUT)`, lines 212-215. -/
def outGrid3 (rnd : ℝ → ℝ) (o : Opt3) (P : Nat) : Option (Nat × Nat × Nat) :=
  if o.pout.1 ≠ 0 ∨ o.pout.2.1 ≠ 0 ∨ o.pout.2.2 ≠ 0 then some o.pout
  else if o.mode = 0 ∨ o.mode = 2 then proc3dPy rnd o.nx o.ny o.nz P
  else if o.mode = 1 ∨ o.mode = 3 then (proc2dPy rnd o.nx o.ny P).map fun p => (p.1, p.2, 1)
  else some o.pout

/-- `proc_setup(IN)`, test2d.py:203-205. -/
def inGrid2 (rnd : ℝ → ℝ) (o : Opt2) (P : Nat) : Option (Nat × Nat) :=
  if o.pin.1 ≠ 0 ∨ o.pin.2 ≠ 0 then some o.pin else proc2dPy rnd o.nx o.ny P

/-- Does `grid_setup` divide by zero, lines 287-321?  Otherwise its boxes are those of test3d.cpp: the floating-point
expressions are the same. -/
def ZeroDiv3 (np : Nat × Nat × Nat) : Prop := np.1 = 0 ∨ np.2.1 = 0 ∨ np.2.2 = 0
instance (np : Nat × Nat × Nat) : Decidable (ZeroDiv3 np) := inferInstanceAs (Decidable (_ ∨ _ ∨ _))

/-- The same for test2d.py:248-274. -/
def ZeroDiv2 (np : Nat × Nat) : Prop := np.1 = 0 ∨ np.2 = 0
instance (np : Nat × Nat) : Decidable (ZeroDiv2 np) := inferInstanceAs (Decidable (_ ∨ _))

/-- The arguments of `setup`, lines 336-337, 350-351. -/
def argsPy3 (rnd : ℝ → ℝ) (o : Opt3) (P : Nat) : Option Args3 :=
  (inGrid3 rnd o P).bind fun pin => (outGrid3 rnd o P).bind fun pout =>
    if ZeroDiv3 pin ∨ ZeroDiv3 pout then none
    else some { nfast := o.nx, nmid := o.ny, nslow := o.nz
                ins := box3 rnd pin o.nx o.ny o.nz
                outs := box3 rnd pout o.nx o.ny o.nz
                permute := if o.mode = 0 ∨ o.mode = 2 then 0 else 2
                fp := rnd }

/-- The arguments of `setup`, test2d.py:290-291, 303-304; `proc_setup(OUT)` is test2d.py:207-210. -/
def argsPy2 (rnd : ℝ → ℝ) (o : Opt2) (P : Nat) : Option Args2 :=
  (inGrid2 rnd o P).bind fun pin => (o.outGrid P).bind fun pout =>
    if ZeroDiv2 pin ∨ ZeroDiv2 pout then none
    else some { nfast := o.nx, nslow := o.ny
                ins := box2 rnd pin o.nx o.ny
                outs := box2 rnd pout o.nx o.ny
                permute := if o.mode = 0 ∨ o.mode = 2 then 0 else 2
                fp := rnd }

/-! ## Data -/

/-- `random()`, lines 47-53: new seed and number. -/
def randomPy (rnd : ℝ → ℝ) (seed : Int) : Int × ℝ :=
  let k := seed / 127773
  let s := 16807 * (seed - k * 127773) - 2836 * k
  let s := if s < 0 then s + 2147483647 else s
  (s, rnd (rnd (1 / 2147483647) * s))

/-- `work[m] = random()` for all `m`, lines 417-419. -/
def fillRandomPy (rnd : ℝ → ℝ) (nfft seed : Int) (w : Mem ℝ) : Option (Mem ℝ) :=
  (forN (2 * nfft) (fun m (p : Int × Mem ℝ) =>
    (p.2.set m (randomPy rnd p.1).2).map fun w => ((randomPy rnd p.1).1, w)) (seed, w)).map Prod.snd

/-- The comparison with the same numbers, lines 505-510. -/
def checkRandomPy (rnd : ℝ → ℝ) (nfft seed : Int) (w : Mem ℝ) : Option ℝ :=
  (forN (2 * nfft) (fun m (p : Int × ℝ) => (w m).map fun x =>
    ((randomPy rnd p.1).1, worse |x - (randomPy rnd p.1).2| p.2)) (seed, 0)).map Prod.snd

/-- `initialize()`, lines 384-419. -/
def initializePy3 (rnd : ℝ → ℝ) (o : Opt3) (me : Nat) (b : Box3) (w : Mem ℝ) : Option (Mem ℝ) :=
  match o.iflag with
  | .zero => fillZero (nfft3 b) w
  | .step => fillAt (nfft3 b) (point3 b) (stepAt3 o) w
  | .index => fillAt (nfft3 b) (point3 b) indexAt3 w
  | .random n => fillRandomPy rnd (nfft3 b) (n + me) w

/-- `validate()`, lines 460-510. -/
def validatePy3 (rnd : ℝ → ℝ) (o : Opt3) (me : Nat) (b : Box3) (w : Mem ℝ) : Option ℝ :=
  match o.iflag with
  | .zero => checkZero (nfft3 b) w
  | .step => checkAt (nfft3 b) (point3 b) (stepAt3 o) w
  | .index => checkAt (nfft3 b) (point3 b) indexAt3 w
  | .random n => checkRandomPy rnd (nfft3 b) (n + me) w

/-- test2d.py:337-366. -/
def initializePy2 (rnd : ℝ → ℝ) (o : Opt2) (me : Nat) (b : Box2) (w : Mem ℝ) : Option (Mem ℝ) :=
  match o.iflag with
  | .zero => fillZero (nfft2 b) w
  | .step => fillAt (nfft2 b) (point2 b) (stepAt2 o) w
  | .index => fillAt (nfft2 b) (point2 b) indexAt2 w
  | .random n => fillRandomPy rnd (nfft2 b) (n + me) w

/-- test2d.py:407-451. -/
def validatePy2 (rnd : ℝ → ℝ) (o : Opt2) (me : Nat) (b : Box2) (w : Mem ℝ) : Option ℝ :=
  match o.iflag with
  | .zero => checkZero (nfft2 b) w
  | .step => checkAt (nfft2 b) (point2 b) (stepAt2 o) w
  | .index => checkAt (nfft2 b) (point2 b) indexAt2 w
  | .random n => checkRandomPy rnd (nfft2 b) (n + me) w

/-! ## Main program -/

/-- An exception on a rank. -/
def raise : Instr ℝ := .loc fun _ => none

/-- `initialize()` and the loop on rank `me`, lines 735, 748-755.  In modes 2 and 3 the loop calls `fft3d_compute`, which
is not defined. -/
def run3Py (rnd : ℝ → ℝ) (o : Opt3) (me : Nat) (b : Box3) (f : Fft3 ℝ) (J J' : Nat → Nat → Junk) : List (Instr ℝ) :=
  .loc (onWork (initializePy3 rnd o me b)) ::
    if o.mode < 2 then loop3 f o.rflag o.mode J J' o.nloop else List.replicate o.nloop raise

/-- test2d.py:659, 672-679. -/
def run2Py (rnd : ℝ → ℝ) (o : Opt2) (me : Nat) (b : Box2) (f : Fft2 ℝ) (J J' : Nat → Nat → Junk) : List (Instr ℝ) :=
  .loc (onWork (initializePy2 rnd o me b)) :: loop2 f o.rflag o.mode J J' o.nloop

/-- Indices in `output`, lines 438-441, 447-450; test2d.py:385-388, 394-397: two indices in both programs. -/
def pointPy (ilo jlo nxlocal : Int) (m : Int) : Option (Int × Int) :=
  if nxlocal = 0 then none else some (ilo + m % nxlocal, jlo + m / nxlocal)

/-- `output(flag,txt)` on rank `me` of `P` in test3d.py:427-454: the lines that the rank prints, and whether the function
returns.  `world.Recv` without a buffer is an exception on all ranks but the first; then the first rank has no `tmp` to
send. -/
def outputPy3 (P me : Nat) (flag : Nat) (b b' : Box3) (w : Mem ℝ) : Option (List ((Int × Int) × ℝ × ℝ) × Bool) :=
  if 1 ≤ me then some ([], false)
  else
    let c := if flag = 0 then b else b'
    (printed (nfft3 b) (pointPy c.ilo c.jlo c.isize) w).map fun l => (l, decide (¬ me < P - 1))

/-- test2d.py:374-401. -/
def outputPy2 (P me : Nat) (flag : Nat) (b b' : Box2) (w : Mem ℝ) : Option (List ((Int × Int) × ℝ × ℝ) × Bool) :=
  if 1 ≤ me then some ([], false)
  else
    let c := if flag = 0 then b else b'
    (printed (nfft2 b) (pointPy c.ilo c.jlo c.isize) w).map fun l => (l, decide (¬ me < P - 1))

end DriverPy

end FftMpi
