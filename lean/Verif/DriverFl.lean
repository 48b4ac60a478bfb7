import Verif.Driver
import Verif.FftFl

/-!
# The test programs test3d.cpp and test2d.cpp with rounding

`initialize`, the loop over `compute` and `validate` with the floating-point operations of an `Arith`: numbers are
converted to `FFT_SCALAR` when they are stored in `work` (nothing happens if that is `double`), the transforms
round as in `FftFl`, and the differences in `validate` are computed in `double`.  Numbers of `int` type, 0.0 and 1.0
are exact in `double`, `fabs` and comparisons are exact.
-/

noncomputable section

namespace FftMpi

namespace Driver

variable (ar : Arith) (rnd : ℝ → ℝ)

/-- The loop of `RANDOM` in `initialize`, test3d.cpp:657-658; test2d.cpp:593-594. -/
def fillRandomFl (nfft seed : Int) (w : Mem ℝ) : Option (Mem ℝ) :=
  (forN (2 * nfft) (fun m (s : Int × Mem ℝ) => (random rnd s.1).bind fun p =>
    (s.2.set m (ar.conv p.2)).map fun w => (p.1, w)) (seed, w)).map Prod.snd

/-- The loops of `STEP` and `INDEX` in `validate`, test3d.cpp:737-750, 758-770; test2d.cpp:664-675, 682-692. -/
def checkAtFl {γ : Type} (nfft : Int) (pt : Int → Option γ) (val : γ → ℝ) (w : Mem ℝ) : Option ℝ :=
  forN nfft (fun m eps => (pt m).bind fun g => (w (2 * m)).bind fun x => (w (2 * m + 1)).map fun y =>
    worse |y| (worse |ar.dsub x (val g)| eps)) 0

/-- The loop of `RANDOM` in `validate`, test3d.cpp:775-779; test2d.cpp:697-701. -/
def checkRandomFl (nfft seed : Int) (w : Mem ℝ) : Option ℝ :=
  (forN (2 * nfft) (fun m (s : Int × ℝ) => (random rnd s.1).bind fun p =>
    (w m).map fun x => (p.1, worse |ar.dsub x p.2| s.2)) (seed, 0)).map Prod.snd

/-- `initialize`, test3d.cpp:618-660. -/
def Opt3.initializeFl (o : Opt3) (me : Nat) (b : Box3) (w : Mem ℝ) : Option (Mem ℝ) :=
  match o.iflag with
  | .zero => fillZero (nfft3 b) w
  | .step => fillAt (nfft3 b) (point3 b) (fun g => ar.conv (stepAt3 o g)) w
  | .index => fillAt (nfft3 b) (point3 b) (fun g => ar.conv (indexAt3 g)) w
  | .random n => fillRandomFl ar rnd (nfft3 b) (n + me) w

/-- `validate`, test3d.cpp:720-783: the rank's `epsilon`. -/
def Opt3.validateFl (o : Opt3) (me : Nat) (b : Box3) (w : Mem ℝ) : Option ℝ :=
  match o.iflag with
  | .zero => checkZero (nfft3 b) w
  | .step => checkAtFl ar (nfft3 b) (point3 b) (stepAt3 o) w
  | .index => checkAtFl ar (nfft3 b) (point3 b) indexAt3 w
  | .random n => checkRandomFl ar rnd (nfft3 b) (n + me) w

/-- `initialize`, test2d.cpp:560-596. -/
def Opt2.initializeFl (o : Opt2) (me : Nat) (b : Box2) (w : Mem ℝ) : Option (Mem ℝ) :=
  match o.iflag with
  | .zero => fillZero (nfft2 b) w
  | .step => fillAt (nfft2 b) (point2 b) (fun g => ar.conv (stepAt2 o g)) w
  | .index => fillAt (nfft2 b) (point2 b) (fun g => ar.conv (indexAt2 g)) w
  | .random n => fillRandomFl ar rnd (nfft2 b) (n + me) w

/-- `validate`, test2d.cpp:648-705. -/
def Opt2.validateFl (o : Opt2) (me : Nat) (b : Box2) (w : Mem ℝ) : Option ℝ :=
  match o.iflag with
  | .zero => checkZero (nfft2 b) w
  | .step => checkAtFl ar (nfft2 b) (point2 b) (stepAt2 o) w
  | .index => checkAtFl ar (nfft2 b) (point2 b) indexAt2 w
  | .random n => checkRandomFl ar rnd (nfft2 b) (n + me) w

/-- The timed loop, test3d.cpp:228-238, with the `compute` of `FftFl`. -/
def loop3Fl (f : Fft3 ℝ) (rflag : Bool) (mode : Nat) (J J' : Nat → Nat → Junk) : Nat → List (Instr ℝ)
  | 0 => []
  | n + 1 => loop3Fl f rflag mode J J' n ++ (f.computeF ar (J n) true rflag 1 0 0 ++
      (if mode < 2 then f.computeF ar (J' n) true rflag (-1) 0 0 else []))

/-- The same in test2d.cpp:227-237. -/
def loop2Fl (f : Fft2 ℝ) (rflag : Bool) (mode : Nat) (J J' : Nat → Nat → Junk) : Nat → List (Instr ℝ)
  | 0 => []
  | n + 1 => loop2Fl f rflag mode J J' n ++ (f.computeF ar (J n) true rflag 1 0 0 ++
      (if mode < 2 then f.computeF ar (J' n) true rflag (-1) 0 0 else []))

/-- `initialize` and the loop on rank `me` with input box `b`. -/
def Opt3.runFl (o : Opt3) (me : Nat) (b : Box3) (f : Fft3 ℝ) (J J' : Nat → Nat → Junk) : List (Instr ℝ) :=
  .loc (onWork (o.initializeFl ar rnd me b)) :: loop3Fl ar f o.rflag o.mode J J' o.nloop

def Opt2.runFl (o : Opt2) (me : Nat) (b : Box2) (f : Fft2 ℝ) (J J' : Nat → Nat → Junk) : List (Instr ℝ) :=
  .loc (onWork (o.initializeFl ar rnd me b)) :: loop2Fl ar f o.rflag o.mode J J' o.nloop

end Driver

end FftMpi
