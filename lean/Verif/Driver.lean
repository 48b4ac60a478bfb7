import Verif.Fft3d
import Verif.Fft2d
import Verif.Factor
import Mathlib.Data.Real.Archimedean
import Verif.CInt
import Mathlib.Algebra.Order.Floor.Ring

/-!
# The test programs test3d.cpp and test2d.cpp

What the programs do between `MPI_Init` and `MPI_Finalize`, apart from the command line (`DriverArgs`), clocks
and printed text.

Simplifications: the values of the array `work` are real numbers, as in the model of the library (a build with
`FFT_SINGLE` rounds them when they are stored); `double` arithmetic on grid sizes and processor counts is exact
arithmetic followed by a function `rnd`; integers are unbounded, but for `random`.
-/

noncomputable section

namespace FftMpi

namespace Driver

/-! ## Partition -/

/-- What is assumed of `double`: rounding is monotone, integers of up to 53 bits are exact, and numbers of
moderate size have a relative error of at most `2^-53`.  (IEEE double precision in any rounding to nearest.) -/
structure Rounding (rnd : ℝ → ℝ) : Prop where
  mono : Monotone rnd
  int : ∀ n : Int, |n| ≤ 2 ^ 53 → rnd n = n
  rel : ∀ x : ℝ, 1 / 2 ^ 100 ≤ x → x ≤ 2 ^ 100 → |rnd x - x| ≤ x / 2 ^ 53

variable (rnd : ℝ → ℝ)

/-- `surf` in `proc3d`, test3d.cpp:447-450. -/
def surf3 (nx ny nz : Nat) (c : Nat × Nat × Nat) : ℝ :=
  let boxx := rnd (nx / c.1)
  let boxy := rnd (ny / c.2.1)
  let boxz := rnd (nz / c.2.2)
  rnd (rnd (rnd (boxx * boxy) + rnd (boxy * boxz)) + rnd (boxz * boxx))

/-- Compare with the best so far, test3d.cpp:451-456, 487-491; test2d.cpp:440-444. -/
def keep {γ : Type} (surf : γ → ℝ) (c : γ) (b : ℝ × γ) : ℝ × γ := if surf c < b.1 then (surf c, c) else b

/-- The loop `i = 1; while (i <= n) { if (n % i == 0) ...; i++; }`, test3d.cpp:439-462, 443-459, 480-494;
test2d.cpp:433-447. -/
def divLoop {σ : Type} (n : Nat) (body : Nat → σ → σ) (s : σ) : σ :=
  (List.range' 1 n).foldl (fun s i => if n % i = 0 then body i s else s) s

/-- `proc3d`, test3d.cpp:426-466; `p` is the processor grid before the call.  `none`: `error_all`. -/
def proc3d (nx ny nz P : Nat) (p : Nat × Nat × Nat) : Option (Nat × Nat × Nat) :=
  let bestsurf := rnd (2 * rnd (rnd (rnd (nx * ny) + rnd (ny * nz)) + rnd (nz * nx)))
  let b := divLoop P (fun ipx b => divLoop (P / ipx) (fun ipy b =>
    keep (surf3 rnd nx ny nz) (ipx, ipy, P / ipx / ipy) b) b) (bestsurf, p)
  if b.2.1 * b.2.2.1 * b.2.2.2 ≠ P then none else some b.2

/-- `surf` in `proc2d`, test3d.cpp:484-486, test2d.cpp:437-439. -/
def surf2 (nx ny : Nat) (c : Nat × Nat) : ℝ :=
  let boxx := rnd (nx / c.1)
  let boxy := rnd (ny / c.2)
  rnd (boxx + boxy)

/-- `proc2d`, test3d.cpp:468-499, without the component 1 for `pz`; test2d.cpp:421-451. -/
def proc2d (nx ny P : Nat) (p : Nat × Nat) : Option (Nat × Nat) :=
  let bestsurf := rnd (2 * rnd (nx + ny))
  let b := divLoop P (fun ipx b => keep (surf2 rnd nx ny) (ipx, P / ipx) b) (bestsurf, p)
  if b.2.1 * b.2.2 ≠ P then none else some b.2

/-- Bounds of block `ip` of `np`, test3d.cpp:517-524, 536-543; test2d.cpp:468-472, 483-487:
`static_cast<int> (1.0 * ip * n / np)` and `static_cast<int> (1.0 * (ip+1) * n / np) - 1`.
(No operand is negative, so the conversion rounds down.) -/
def lo (ip n np : Nat) : Int := ⌊rnd (rnd (rnd (1 * ip) * n) / np)⌋
def hi (ip n np : Nat) : Int := ⌊rnd (rnd (rnd (1 * (ip + 1)) * n) / np)⌋ - 1

/-- The box of rank `me`, test3d.cpp:511-524, 530-543. -/
def box3 (np : Nat × Nat × Nat) (nx ny nz me : Nat) : Box3 :=
  let ipx := me % np.1
  let ipy := (me / np.1) % np.2.1
  let ipz := me / (np.1 * np.2.1)
  ⟨lo rnd ipx nx np.1, hi rnd ipx nx np.1, lo rnd ipy ny np.2.1, hi rnd ipy ny np.2.1,
    lo rnd ipz nz np.2.2, hi rnd ipz nz np.2.2⟩

/-- The box of rank `me`, test2d.cpp:463-472, 478-487. -/
def box2 (np : Nat × Nat) (nx ny me : Nat) : Box2 :=
  let ipx := me % np.1
  let ipy := me / np.1
  ⟨lo rnd ipx nx np.1, hi rnd ipx nx np.1, lo rnd ipy ny np.2, hi rnd ipy ny np.2⟩

/-! ## Options -/

/-- `iflag`, test3d.cpp:177, with the number after `-i` for `RANDOM`. -/
inductive Init where
  | zero | step | index | random (n : Int)
deriving DecidableEq, Repr

/-- The variables that `options` sets in test3d.cpp, as far as they matter after `options` returned. -/
structure Opt3 where
  nx : Nat
  ny : Nat
  nz : Nat
  pin : Nat × Nat × Nat
  pout : Nat × Nat × Nat
  nloop : Nat
  iflag : Init
  mode : Nat
  cflag : Int
  eflag : Int
  pflag : Int
  rflag : Bool

/-- The same for test2d.cpp. -/
structure Opt2 where
  nx : Nat
  ny : Nat
  pin : Nat × Nat
  pout : Nat × Nat
  nloop : Nat
  iflag : Init
  mode : Nat
  cflag : Int
  eflag : Int
  pflag : Int
  rflag : Bool

/-- `proc_setup(IN)`, test3d.cpp:414-417. -/
def Opt3.inGrid (o : Opt3) (P : Nat) : Option (Nat × Nat × Nat) :=
  if o.pin.1 ≠ 0 ∨ o.pin.2.1 ≠ 0 ∨ o.pin.2.2 ≠ 0 then some o.pin else proc3d rnd o.nx o.ny o.nz P o.pin

/-- `proc_setup(OUT)`, test3d.cpp:419-423. -/
def Opt3.outGrid (o : Opt3) (P : Nat) : Option (Nat × Nat × Nat) :=
  if o.pout.1 ≠ 0 ∨ o.pout.2.1 ≠ 0 ∨ o.pout.2.2 ≠ 0 then some o.pout
  else if o.mode = 0 ∨ o.mode = 2 then proc3d rnd o.nx o.ny o.nz P o.pout
  else if o.mode = 1 ∨ o.mode = 3 then
    (proc2d rnd o.nx o.ny P (o.pout.1, o.pout.2.1)).map fun p => (p.1, p.2, 1)
  else some o.pout

/-- `proc_setup(IN)`, test2d.cpp:409-412. -/
def Opt2.inGrid (o : Opt2) (P : Nat) : Option (Nat × Nat) :=
  if o.pin.1 ≠ 0 ∨ o.pin.2 ≠ 0 then some o.pin else proc2d rnd o.nx o.ny P o.pin

/-- `proc_setup(OUT)`, test2d.cpp:414-418. -/
def Opt2.outGrid (o : Opt2) (P : Nat) : Option (Nat × Nat) :=
  if o.pout.1 ≠ 0 ∨ o.pout.2 ≠ 0 then some o.pout else some (P, 1)

/-- The arguments of `setup`, test3d.cpp:561-563, 576-579. -/
def Opt3.args (o : Opt3) (P : Nat) : Option Args3 :=
  (o.inGrid rnd P).bind fun pin => (o.outGrid rnd P).map fun pout =>
    { nfast := o.nx, nmid := o.ny, nslow := o.nz
      ins := box3 rnd pin o.nx o.ny o.nz
      outs := box3 rnd pout o.nx o.ny o.nz
      permute := if o.mode = 0 ∨ o.mode = 2 then 0 else 2
      fp := rnd }

/-- The arguments of `setup`, test2d.cpp:505-507, 520-522.  Note the value 2 for `permute`: the documentation of
`FFT2d` (api_setup.txt:192) allows only 0 and 1. -/
def Opt2.args (o : Opt2) (P : Nat) : Option Args2 :=
  (o.inGrid rnd P).bind fun pin => (o.outGrid P).map fun pout =>
    { nfast := o.nx, nslow := o.ny
      ins := box2 rnd pin o.nx o.ny
      outs := box2 rnd pout o.nx o.ny
      permute := if o.mode = 0 ∨ o.mode = 2 then 0 else 2
      fp := rnd }

/-- `fft->collective`, `exchange`, `packflag`, test3d.cpp:557-559; test2d.cpp:501-503. -/
def Opt3.settings (o : Opt3) : Settings := ⟨o.cflag, o.eflag, o.pflag⟩
def Opt2.settings (o : Opt2) : Settings := ⟨o.cflag, o.eflag, o.pflag⟩

/-! ## Random numbers -/

/-- `random`, test3d.cpp:1015-1022; test2d.cpp:914-921, with `int` operations that check for overflow.  The
new seed and the value. -/
def random (seed : Int) : Option (Int × ℝ) :=
  let k := seed.tdiv 127773
  (mul32 k 127773).bind fun a => (sub32 seed a).bind fun b => (mul32 16807 b).bind fun c =>
  (mul32 2836 k).bind fun d => (sub32 c d).bind fun s =>
  (if s < 0 then add32 s 2147483647 else some s).map fun s =>
  (s, rnd (rnd (1 / 2147483647) * s))

/-! ## Filling and checking the array -/

/-- Global indices of the `m`-th local point, test3d.cpp:629-634 and four more times.  Division by zero is
undefined. -/
def point3 (b : Box3) (m : Int) : Option (Int × Int × Int) :=
  if b.isize = 0 ∨ b.jsize = 0 then none
  else some (b.ilo + m.tmod b.isize, b.jlo + (m.tdiv b.isize).tmod b.jsize, b.klo + m.tdiv (b.isize * b.jsize))

/-- The same in test2d.cpp:570-573 and four more times. -/
def point2 (b : Box2) (m : Int) : Option (Int × Int) :=
  if b.isize = 0 then none else some (b.ilo + m.tmod b.isize, b.jlo + m.tdiv b.isize)

/-- Value of `STEP` and `INDEX` at a point, test3d.cpp:635-636, 652; the same text in `validate`. -/
def stepAt3 (o : Opt3) (g : Int × Int × Int) : ℝ :=
  if g.1 < (o.nx / 2 : Nat) ∧ g.2.1 < (o.ny / 2 : Nat) ∧ g.2.2 < (o.nz / 2 : Nat) then 1 else 0
def indexAt3 (g : Int × Int × Int) : ℝ := ((g.2.2 + g.2.1 + g.1 + 1 : Int) : ℝ)

/-- test2d.cpp:574-575, 588. -/
def stepAt2 (o : Opt2) (g : Int × Int) : ℝ :=
  if g.1 < (o.nx / 2 : Nat) ∧ g.2 < (o.ny / 2 : Nat) then 1 else 0
def indexAt2 (g : Int × Int) : ℝ := ((g.2 + g.1 + 1 : Int) : ℝ)

/-- `for (int m = 0; m < 2*nfft_in; m++) work[m] = 0.0;` -/
def fillZero (nfft : Int) (w : Mem ℝ) : Option (Mem ℝ) := forN (2 * nfft) (fun m w => w.set m 0) w

/-- The loops of `STEP` and `INDEX`. -/
def fillAt {γ : Type} (nfft : Int) (pt : Int → Option γ) (val : γ → ℝ) (w : Mem ℝ) : Option (Mem ℝ) :=
  forN nfft (fun m w => (pt m).bind fun g => (w.set (2 * m) (val g)).bind fun w => w.set (2 * m + 1) 0) w

/-- `for (int m = 0; m < 2*nfft_in; m++) work[m] = random(seed);` -/
def fillRandom (nfft seed : Int) (w : Mem ℝ) : Option (Mem ℝ) :=
  (forN (2 * nfft) (fun m (s : Int × Mem ℝ) => (random rnd s.1).bind fun p =>
    (s.2.set m p.2).map fun w => (p.1, w)) (seed, w)).map Prod.snd

/-- `if (delta > epsilon) epsilon = delta;` -/
def worse (delta epsilon : ℝ) : ℝ := if delta > epsilon then delta else epsilon

/-- The loop of `ZERO` in `validate`. -/
def checkZero (nfft : Int) (w : Mem ℝ) : Option ℝ :=
  forN (2 * nfft) (fun m eps => (w m).map fun x => worse |x| eps) 0

/-- The loops of `STEP` and `INDEX` in `validate`. -/
def checkAt {γ : Type} (nfft : Int) (pt : Int → Option γ) (val : γ → ℝ) (w : Mem ℝ) : Option ℝ :=
  forN nfft (fun m eps => (pt m).bind fun g => (w (2 * m)).bind fun x => (w (2 * m + 1)).map fun y =>
    worse |y| (worse |x - val g| eps)) 0

/-- The loop of `RANDOM` in `validate`. -/
def checkRandom (nfft seed : Int) (w : Mem ℝ) : Option ℝ :=
  (forN (2 * nfft) (fun m (s : Int × ℝ) => (random rnd s.1).bind fun p =>
    (w m).map fun x => (p.1, worse |x - p.2| s.2)) (seed, 0)).map Prod.snd

/-- `nfft_in`, test3d.cpp:526; test2d.cpp:474. -/
def nfft3 (b : Box3) : Int := b.isize * b.jsize * b.ksize
def nfft2 (b : Box2) : Int := b.isize * b.jsize

/-- `initialize`, test3d.cpp:618-660, on rank `me` with input box `b`; the seed is the number after `-i` plus
`me`, test3d.cpp:323. -/
def Opt3.initialize (o : Opt3) (me : Nat) (b : Box3) (w : Mem ℝ) : Option (Mem ℝ) :=
  match o.iflag with
  | .zero => fillZero (nfft3 b) w
  | .step => fillAt (nfft3 b) (point3 b) (stepAt3 o) w
  | .index => fillAt (nfft3 b) (point3 b) indexAt3 w
  | .random n => fillRandom rnd (nfft3 b) (n + me) w

/-- `validate`, test3d.cpp:720-783: the rank's `epsilon`. -/
def Opt3.validate (o : Opt3) (me : Nat) (b : Box3) (w : Mem ℝ) : Option ℝ :=
  match o.iflag with
  | .zero => checkZero (nfft3 b) w
  | .step => checkAt (nfft3 b) (point3 b) (stepAt3 o) w
  | .index => checkAt (nfft3 b) (point3 b) indexAt3 w
  | .random n => checkRandom rnd (nfft3 b) (n + me) w

/-- `initialize`, test2d.cpp:560-596. -/
def Opt2.initialize (o : Opt2) (me : Nat) (b : Box2) (w : Mem ℝ) : Option (Mem ℝ) :=
  match o.iflag with
  | .zero => fillZero (nfft2 b) w
  | .step => fillAt (nfft2 b) (point2 b) (stepAt2 o) w
  | .index => fillAt (nfft2 b) (point2 b) indexAt2 w
  | .random n => fillRandom rnd (nfft2 b) (n + me) w

/-- `validate`, test2d.cpp:648-705. -/
def Opt2.validate (o : Opt2) (me : Nat) (b : Box2) (w : Mem ℝ) : Option ℝ :=
  match o.iflag with
  | .zero => checkZero (nfft2 b) w
  | .step => checkAt (nfft2 b) (point2 b) (stepAt2 o) w
  | .index => checkAt (nfft2 b) (point2 b) indexAt2 w
  | .random n => checkRandom rnd (nfft2 b) (n + me) w

/-! ## The programs -/

/-- Local code that works on the array `work`, which is array 0. -/
def onWork (g : Mem ℝ → Option (Mem ℝ)) (l : LMem ℝ) : Option (LMem ℝ) :=
  (g (l.ub 0)).map fun u => { l with ub := Function.update l.ub 0 u }

/-- The timed loop, test3d.cpp:228-238: `n` passes; `scaled` has its initial value 1 (fft3d.cpp:130).  `J i` and
`J' i` are the contents of fresh memory in pass `i`. -/
def loop3 (f : Fft3 ℝ) (rflag : Bool) (mode : Nat) (J J' : Nat → Nat → Junk) : Nat → List (Instr ℝ)
  | 0 => []
  | n + 1 => loop3 f rflag mode J J' n ++ (f.compute (J n) true rflag 1 0 0 ++
      (if mode < 2 then f.compute (J' n) true rflag (-1) 0 0 else []))

/-- The same in test2d.cpp:227-237; `scaled`: fft2d.cpp:130. -/
def loop2 (f : Fft2 ℝ) (rflag : Bool) (mode : Nat) (J J' : Nat → Nat → Junk) : Nat → List (Instr ℝ)
  | 0 => []
  | n + 1 => loop2 f rflag mode J J' n ++ (f.compute (J n) true rflag 1 0 0 ++
      (if mode < 2 then f.compute (J' n) true rflag (-1) 0 0 else []))

/-- `initialize` and the loop on rank `me` with input box `b`. -/
def Opt3.run (o : Opt3) (me : Nat) (b : Box3) (f : Fft3 ℝ) (J J' : Nat → Nat → Junk) : List (Instr ℝ) :=
  .loc (onWork (o.initialize rnd me b)) :: loop3 f o.rflag o.mode J J' o.nloop

def Opt2.run (o : Opt2) (me : Nat) (b : Box2) (f : Fft2 ℝ) (J J' : Nat → Nat → Junk) : List (Instr ℝ) :=
  .loc (onWork (o.initialize rnd me b)) :: loop2 f o.rflag o.mode J J' o.nloop

/-- `MPI_Allreduce(&epsilon,&epsmax,1,MPI_DOUBLE,MPI_MAX,world)`, test3d.cpp:782; test2d.cpp:704. -/
def epsmax (P : Nat) (eps : Nat → Option ℝ) : Option ℝ :=
  match P with
  | 0 => none
  | 1 => eps 0
  | P + 2 => (epsmax (P + 1) eps).bind fun x => (eps (P + 1)).map fun y => max x y

/-- The lines that a rank prints in `output`, test3d.cpp:684-711: indices and values.  `n` is the number of
passes, `pt` computes the indices. -/
def printed {γ : Type} (n : Int) (pt : Int → Option γ) (w : Mem ℝ) : Option (List (γ × ℝ × ℝ)) :=
  forN n (fun m l => (pt m).bind fun g => (w (2 * m)).bind fun x => (w (2 * m + 1)).map fun y =>
    l ++ [(g, x, y)]) []

/-- `output(0,...)` and `output(1,...)` of a rank with input box `b` and output box `b'`, test3d.cpp:668-714;
test2d.cpp:604-640.  Both loops run to `nfft_in`. -/
def output3 (flag : Nat) (b b' : Box3) (w : Mem ℝ) : Option (List ((Int × Int × Int) × ℝ × ℝ)) :=
  printed (nfft3 b) (point3 (if flag = 0 then b else b')) w
def output2 (flag : Nat) (b b' : Box2) (w : Mem ℝ) : Option (List ((Int × Int) × ℝ × ℝ)) :=
  printed (nfft2 b) (point2 (if flag = 0 then b else b')) w

end Driver

end FftMpi
