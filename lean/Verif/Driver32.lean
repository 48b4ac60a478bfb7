import Verif.Driver
import Verif.FftInt
import Verif.Fft3d32
import Verif.Fft2d32

/-!
# The test programs with 32-bit integers

test3d.cpp and test2d.cpp again, with `int` operations that are undefined when the result does not fit 32 bits, and
with the library's `compute` on 32-bit integers.  `none`: undefined behaviour.

Simplifications: as in `Driver`; loop counters run over the values that they take, since the increment after the last
pass produces the bound, an `int` (this is not so for the loops of `proc3d` and `proc2d`, which compare with `<=`:
there the increment is in the model).
-/

noncomputable section

namespace FftMpi

namespace Driver

variable (rnd : ℝ → ℝ)

/-- `i = 1; while (i <= n) { if (n % i == 0) ...; i++; }`, test3d.cpp:439-462, 443-459, 480-494; test2d.cpp:433-447. -/
def divLoop32 {σ : Type} (n : Nat) (body : Nat → σ → Option σ) (s : σ) : Option σ :=
  (List.range' 1 n).foldlM (fun s i =>
    (if n % i = 0 then body i s else some s).bind fun s => (add32 i 1).map fun _ => s) s

/-- `proc3d`, test3d.cpp:426-466.  Inner `none`: `error_all`. -/
def proc3d32 (nx ny nz P : Nat) (p : Nat × Nat × Nat) : Option (Option (Nat × Nat × Nat)) :=
  let bestsurf := rnd (2 * rnd (rnd (rnd (nx * ny) + rnd (ny * nz)) + rnd (nz * nx)))
  (divLoop32 P (fun ipx b => divLoop32 (P / ipx) (fun ipy b =>
    some (keep (surf3 rnd nx ny nz) (ipx, ipy, P / ipx / ipy) b)) b) (bestsurf, p)).bind fun b =>
  (mul32 b.2.1 b.2.2.1).bind fun x => (mul32 x b.2.2.2).map fun (x : Int) => if x ≠ P then none else some b.2

/-- `proc2d`, test3d.cpp:468-499, without the component 1 for `pz` and the multiplication by it; test2d.cpp:421-451. -/
def proc2d32 (nx ny P : Nat) (p : Nat × Nat) : Option (Option (Nat × Nat)) :=
  let bestsurf := rnd (2 * rnd (nx + ny))
  (divLoop32 P (fun ipx b => some (keep (surf2 rnd nx ny) (ipx, P / ipx) b)) (bestsurf, p)).bind fun b =>
  (mul32 b.2.1 b.2.2).map fun (x : Int) => if x ≠ P then none else some b.2

/-- `proc_setup(IN)`, test3d.cpp:414-417. -/
def Opt3.inGrid32 (o : Opt3) (P : Nat) : Option (Option (Nat × Nat × Nat)) :=
  if o.pin.1 ≠ 0 ∨ o.pin.2.1 ≠ 0 ∨ o.pin.2.2 ≠ 0 then some (some o.pin) else proc3d32 rnd o.nx o.ny o.nz P o.pin

/-- `proc_setup(OUT)`, test3d.cpp:419-423. -/
def Opt3.outGrid32 (o : Opt3) (P : Nat) : Option (Option (Nat × Nat × Nat)) :=
  if o.pout.1 ≠ 0 ∨ o.pout.2.1 ≠ 0 ∨ o.pout.2.2 ≠ 0 then some (some o.pout)
  else if o.mode = 0 ∨ o.mode = 2 then proc3d32 rnd o.nx o.ny o.nz P o.pout
  else if o.mode = 1 ∨ o.mode = 3 then
    (proc2d32 rnd o.nx o.ny P (o.pout.1, o.pout.2.1)).map fun r => r.map fun p => (p.1, p.2, 1)
  else some (some o.pout)

/-- `proc_setup(IN)`, test2d.cpp:409-412. -/
def Opt2.inGrid32 (o : Opt2) (P : Nat) : Option (Option (Nat × Nat)) :=
  if o.pin.1 ≠ 0 ∨ o.pin.2 ≠ 0 then some (some o.pin) else proc2d32 rnd o.nx o.ny P o.pin

/-- `static_cast<int> (x)`: rounding toward zero, undefined if the result does not fit. -/
def toInt32 (x : ℝ) : Option Int := ck (if 0 ≤ x then ⌊x⌋ else ⌈x⌉)

/-- `static_cast<int> (1.0 * ip * n / np)` and `static_cast<int> (1.0 * (ip+1) * n / np) - 1`, test3d.cpp:517-524,
536-543; test2d.cpp:468-472, 483-487. -/
def lo32 (ip : Int) (n np : Nat) : Option Int := toInt32 (rnd (rnd (rnd (1 * ip) * n) / np))
def hi32 (ip : Int) (n np : Nat) : Option Int :=
  (add32 ip 1).bind fun i => (toInt32 (rnd (rnd (rnd (1 * i) * n) / np))).bind fun x => sub32 x 1

/-- The box of rank `me`, test3d.cpp:511-524, 530-543. -/
def box3_32 (np : Nat × Nat × Nat) (nx ny nz me : Nat) : Option Box3 :=
  (gridCoords32 np me).bind fun ip =>
  (lo32 rnd ip.1 nx np.1).bind fun xlo => (hi32 rnd ip.1 nx np.1).bind fun xhi =>
  (lo32 rnd ip.2.1 ny np.2.1).bind fun ylo => (hi32 rnd ip.2.1 ny np.2.1).bind fun yhi =>
  (lo32 rnd ip.2.2 nz np.2.2).bind fun zlo => (hi32 rnd ip.2.2 nz np.2.2).map fun zhi =>
  ⟨xlo, xhi, ylo, yhi, zlo, zhi⟩

/-- The box of rank `me`, test2d.cpp:463-472, 478-487. -/
def box2_32 (np : Nat × Nat) (nx ny me : Nat) : Option Box2 :=
  (gridCoords2_32 np me).bind fun ip =>
  (lo32 rnd ip.1 nx np.1).bind fun xlo => (hi32 rnd ip.1 nx np.1).bind fun xhi =>
  (lo32 rnd ip.2 ny np.2).bind fun ylo => (hi32 rnd ip.2 ny np.2).map fun yhi => ⟨xlo, xhi, ylo, yhi⟩

/-- `hi-lo+1` -/
def size32 (lo hi : Int) : Option Int := (sub32 hi lo).bind fun x => add32 x 1

/-- `nfft_in`, `nfft_out`, test3d.cpp:526, 545. -/
def nfft3_32 (b : Box3) : Option Int :=
  (size32 b.ilo b.ihi).bind fun x => (size32 b.jlo b.jhi).bind fun y => (mul32 x y).bind fun xy =>
  (size32 b.klo b.khi).bind fun z => mul32 xy z

/-- test2d.cpp:474, 489. -/
def nfft2_32 (b : Box2) : Option Int :=
  (size32 b.ilo b.ihi).bind fun x => (size32 b.jlo b.jhi).bind fun y => mul32 x y

/-- `grid_setup`, test3d.cpp:507-546: the boxes and `nfft_in`, `nfft_out`. -/
def gridSetup3_32 (pin pout : Nat × Nat × Nat) (nx ny nz me : Nat) : Option ((Box3 × Int) × (Box3 × Int)) :=
  (box3_32 rnd pin nx ny nz me).bind fun b => (nfft3_32 b).bind fun n =>
  (box3_32 rnd pout nx ny nz me).bind fun b' => (nfft3_32 b').map fun n' => ((b, n), (b', n'))

/-- `grid_setup`, test2d.cpp:459-490. -/
def gridSetup2_32 (pin pout : Nat × Nat) (nx ny me : Nat) : Option ((Box2 × Int) × (Box2 × Int)) :=
  (box2_32 rnd pin nx ny me).bind fun b => (nfft2_32 b).bind fun n =>
  (box2_32 rnd pout nx ny me).bind fun b' => (nfft2_32 b').map fun n' => ((b, n), (b', n'))

/-- `ilocal = m % nxlocal; jlocal = (m/nxlocal) % nylocal; klocal = m / (nxlocal*nylocal); iglobal = inxlo + ilocal;`
and so on, test3d.cpp:629-634 and four more times. -/
def point3_32 (b : Box3) (nxlocal nylocal m : Int) : Option (Int × Int × Int) :=
  (mod32 m nxlocal).bind fun i =>
  (div32 m nxlocal).bind fun t => (mod32 t nylocal).bind fun j =>
  (mul32 nxlocal nylocal).bind fun t => (div32 m t).bind fun k =>
  (add32 b.ilo i).bind fun i => (add32 b.jlo j).bind fun j => (add32 b.klo k).map fun k => (i, j, k)

/-- test2d.cpp:570-573 and four more times. -/
def point2_32 (b : Box2) (nxlocal m : Int) : Option (Int × Int) :=
  (mod32 m nxlocal).bind fun i => (div32 m nxlocal).bind fun j =>
  (add32 b.ilo i).bind fun i => (add32 b.jlo j).map fun j => (i, j)

/-- `iglobal < nx/2 && ...`, test3d.cpp:635, 744; test2d.cpp:574, 669. -/
def stepAt3_32 (o : Opt3) (g : Int × Int × Int) : Option ℝ := some (stepAt3 o g)
def stepAt2_32 (o : Opt2) (g : Int × Int) : Option ℝ := some (stepAt2 o g)

/-- `kglobal + jglobal + iglobal + 1`, converted to `double`, test3d.cpp:652, 765. -/
def indexAt3_32 (g : Int × Int × Int) : Option ℝ :=
  (add32 g.2.2 g.2.1).bind fun x => (add32 x g.1).bind fun x => (add32 x 1).map fun (x : Int) => (x : ℝ)

/-- `jglobal + iglobal + 1`, test2d.cpp:588, 687. -/
def indexAt2_32 (g : Int × Int) : Option ℝ :=
  (add32 g.2 g.1).bind fun x => (add32 x 1).map fun (x : Int) => (x : ℝ)

/-- `for (int m = 0; m < 2*nfft_in; m++) work[m] = 0.0;`, test3d.cpp:621, 797, 821, 845; test2d.cpp:563,
719, 743, 767. -/
def fillZero32 (nfft : Int) (w : Mem ℝ) : Option (Mem ℝ) :=
  (mul32 2 nfft).bind fun n => forN n (fun m w => w.set m 0) w

/-- The loops of `STEP` and `INDEX`, test3d.cpp:628-638, 645-654; test2d.cpp:569-577, 583-590. -/
def fillAt32 {γ : Type} (nfft : Int) (pt : Int → Option γ) (val : γ → Option ℝ) (w : Mem ℝ) : Option (Mem ℝ) :=
  forN nfft (fun m w => (pt m).bind fun g => (val g).bind fun v =>
    (mul32 2 m).bind fun a => (w.set a v).bind fun w =>
    (mul32 2 m).bind fun a => (add32 a 1).bind fun a => w.set a 0) w

/-- test3d.cpp:656-659; test2d.cpp:592-594. -/
def fillRandom32 (nfft seed : Int) (w : Mem ℝ) : Option (Mem ℝ) :=
  (mul32 2 nfft).bind fun n =>
  (forN n (fun m (s : Int × Mem ℝ) => (random rnd s.1).bind fun p =>
    (s.2.set m p.2).map fun w => (p.1, w)) (seed, w)).map Prod.snd

/-- The loops of `validate`, test3d.cpp:726-729, 737-750, 758-770, 774-779; test2d.cpp:654-657, 664-675, 682-692,
696-701. -/
def checkZero32 (nfft : Int) (w : Mem ℝ) : Option ℝ :=
  (mul32 2 nfft).bind fun n => forN n (fun m eps => (w m).map fun x => worse |x| eps) 0

def checkAt32 {γ : Type} (nfft : Int) (pt : Int → Option γ) (val : γ → Option ℝ) (w : Mem ℝ) : Option ℝ :=
  forN nfft (fun m eps => (pt m).bind fun g => (val g).bind fun v =>
    (mul32 2 m).bind fun a => (w a).bind fun x =>
    (mul32 2 m).bind fun a => (add32 a 1).bind fun a => (w a).map fun y => worse |y| (worse |x - v| eps)) 0

def checkRandom32 (nfft seed : Int) (w : Mem ℝ) : Option ℝ :=
  (mul32 2 nfft).bind fun n =>
  (forN n (fun m (s : Int × ℝ) => (random rnd s.1).bind fun p =>
    (w m).map fun x => (p.1, worse |x - p.2| s.2)) (seed, 0)).map Prod.snd

/-- `initialize`, test3d.cpp:618-660, with the seed of test3d.cpp:323; `nfft` is `nfft_in`. -/
def Opt3.initialize32 (o : Opt3) (me : Nat) (b : Box3) (nfft : Int) (w : Mem ℝ) : Option (Mem ℝ) :=
  match o.iflag with
  | .zero => fillZero32 nfft w
  | .step => (size32 b.ilo b.ihi).bind fun nxlocal => (size32 b.jlo b.jhi).bind fun nylocal =>
      fillAt32 nfft (point3_32 b nxlocal nylocal) (stepAt3_32 o) w
  | .index => (size32 b.ilo b.ihi).bind fun nxlocal => (size32 b.jlo b.jhi).bind fun nylocal =>
      fillAt32 nfft (point3_32 b nxlocal nylocal) indexAt3_32 w
  | .random n => (add32 n me).bind fun seed => fillRandom32 rnd nfft seed w

/-- `validate`, test3d.cpp:720-781. -/
def Opt3.validate32 (o : Opt3) (me : Nat) (b : Box3) (nfft : Int) (w : Mem ℝ) : Option ℝ :=
  match o.iflag with
  | .zero => checkZero32 nfft w
  | .step => (size32 b.ilo b.ihi).bind fun nxlocal => (size32 b.jlo b.jhi).bind fun nylocal =>
      checkAt32 nfft (point3_32 b nxlocal nylocal) (stepAt3_32 o) w
  | .index => (size32 b.ilo b.ihi).bind fun nxlocal => (size32 b.jlo b.jhi).bind fun nylocal =>
      checkAt32 nfft (point3_32 b nxlocal nylocal) indexAt3_32 w
  | .random n => (add32 n me).bind fun seed => checkRandom32 rnd nfft seed w

/-- `initialize`, test2d.cpp:560-596; the seed: test2d.cpp:319. -/
def Opt2.initialize32 (o : Opt2) (me : Nat) (b : Box2) (nfft : Int) (w : Mem ℝ) : Option (Mem ℝ) :=
  match o.iflag with
  | .zero => fillZero32 nfft w
  | .step => (size32 b.ilo b.ihi).bind fun nxlocal => fillAt32 nfft (point2_32 b nxlocal) (stepAt2_32 o) w
  | .index => (size32 b.ilo b.ihi).bind fun nxlocal => fillAt32 nfft (point2_32 b nxlocal) indexAt2_32 w
  | .random n => (add32 n me).bind fun seed => fillRandom32 rnd nfft seed w

/-- `validate`, test2d.cpp:648-703. -/
def Opt2.validate32 (o : Opt2) (me : Nat) (b : Box2) (nfft : Int) (w : Mem ℝ) : Option ℝ :=
  match o.iflag with
  | .zero => checkZero32 nfft w
  | .step => (size32 b.ilo b.ihi).bind fun nxlocal => checkAt32 nfft (point2_32 b nxlocal) (stepAt2_32 o) w
  | .index => (size32 b.ilo b.ihi).bind fun nxlocal => checkAt32 nfft (point2_32 b nxlocal) indexAt2_32 w
  | .random n => (add32 n me).bind fun seed => checkRandom32 rnd nfft seed w

/-- The lines that a rank prints in `output`, test3d.cpp:684-711. -/
def printed32 {γ : Type} (n : Int) (pt : Int → Option γ) (w : Mem ℝ) : Option (List (γ × ℝ × ℝ)) :=
  forN n (fun m l => (pt m).bind fun g => (mul32 2 m).bind fun a => (w a).bind fun x =>
    (mul32 2 m).bind fun a => (add32 a 1).bind fun a => (w a).map fun y => l ++ [(g, x, y)]) []

/-- `output`, test3d.cpp:668-714; test2d.cpp:604-640.  `n` is `nfft_in`. -/
def output3_32 (flag : Nat) (b b' : Box3) (n : Int) (w : Mem ℝ) : Option (List ((Int × Int × Int) × ℝ × ℝ)) :=
  let c := if flag = 0 then b else b'
  (size32 c.ilo c.ihi).bind fun nxlocal => (size32 c.jlo c.jhi).bind fun nylocal =>
  printed32 n (point3_32 c nxlocal nylocal) w
def output2_32 (flag : Nat) (b b' : Box2) (n : Int) (w : Mem ℝ) : Option (List ((Int × Int) × ℝ × ℝ)) :=
  let c := if flag = 0 then b else b'
  (size32 c.ilo c.ihi).bind fun nxlocal => printed32 n (point2_32 c nxlocal) w

/-- The timed loop, test3d.cpp:228-238; test2d.cpp:227-237. -/
def loop3_32 (f : Fft3 ℝ) (rflag : Bool) (mode : Nat) (J J' : Nat → Nat → Junk) : Nat → List (Instr ℝ)
  | 0 => []
  | n + 1 => loop3_32 f rflag mode J J' n ++ (f.compute32 (J n) true rflag 1 0 0 ++
      (if mode < 2 then f.compute32 (J' n) true rflag (-1) 0 0 else []))

def loop2_32 (f : Fft2 ℝ) (rflag : Bool) (mode : Nat) (J J' : Nat → Nat → Junk) : Nat → List (Instr ℝ)
  | 0 => []
  | n + 1 => loop2_32 f rflag mode J J' n ++ (f.compute32 (J n) true rflag 1 0 0 ++
      (if mode < 2 then f.compute32 (J' n) true rflag (-1) 0 0 else []))

/-- `initialize` and the loop on rank `me` with input box `b` of `nfft` points. -/
def Opt3.run32 (o : Opt3) (me : Nat) (b : Box3) (nfft : Int) (f : Fft3 ℝ) (J J' : Nat → Nat → Junk) : List (Instr ℝ) :=
  .loc (onWork (o.initialize32 rnd me b nfft)) :: loop3_32 f o.rflag o.mode J J' o.nloop

def Opt2.run32 (o : Opt2) (me : Nat) (b : Box2) (nfft : Int) (f : Fft2 ℝ) (J J' : Nat → Nat → Junk) : List (Instr ℝ) :=
  .loc (onWork (o.initialize32 rnd me b nfft)) :: loop2_32 f o.rflag o.mode J J' o.nloop

/-- `nfft = 2*nloop` or `nfft = nloop` in `timing`, test3d.cpp:914-916; test2d.cpp:821-823. -/
def count32 (mode : Nat) (nloop : Int) : Option Int := if mode < 2 then mul32 2 nloop else some nloop

/-- `((bigint) sizeof(FFT_SCALAR)) * 2*fftsize` in `allocate` and `timing`, test3d.cpp:609, 922; test2d.cpp:551,
829. -/
def gridBytes64 (sz fftsize : Int) : Option Int := (mul64 sz 2).bind fun x => mul64 x fftsize

/-- `user_fftsize*2*sizeof(FFT_SCALAR)` in `tune`, fft3d.cpp:776, 906, 949; fft2d.cpp:727, 855, 895: the first product
is one of `int`, the second one of `size_t`.  (For products that are not negative.) -/
def tuneBytes32 (sz fftsize : Int) : Option Int := (mul32 fftsize 2).map fun x => x * sz

end Driver

end FftMpi
