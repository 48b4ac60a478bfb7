import Verif.Driver
import Verif.Tune

/-!
# What the timing runs do

`tune_trial` of FFT3d and FFT2d, and `timing` of the test programs, as programs of a rank: `Tune.lean` and `Driver.lean` have
only the times that they report.

Simplifications: the barriers are left out (they only exclude some of the schedules); reading the clock has no effect.
-/

noncomputable section

namespace FftMpi

/-- `for (int i = 0; i < n; i++)`. -/
def passes {α : Type} (n : Int) (body : Nat → List (Instr α)) : List (Instr α) := (List.range n.toNat).flatMap body

/-- `if (flag) call(flag); else { call(1); call(-1); }`, for example fft3d.cpp:1036-1044. -/
def directions {α : Type} (flag : Int) (call : Int → List (Instr α)) : List (Instr α) :=
  if flag ≠ 0 then call flag else call 1 ++ call (-1)

/-- `FFT3d::tune_trial`, fft3d.cpp:1026-1101: array `n` is `data`.  `J phase i d` are the contents of fresh memory in pass `i`
in the direction `d`. -/
def Fft3.trial (f : Fft3 ℝ) (J : Nat → Nat → Int → Nat → Junk) (scaled remaponly : Bool) (nper flag tflag : Int) (n : Nat) :
    List (Instr ℝ) :=
  passes nper (fun i => directions flag fun d => f.compute (J 0 i d) scaled remaponly d n n) ++
    if tflag ≠ 0 then
      passes nper (fun i => directions flag fun d => f.only1d (J 1 i d) d n) ++
      passes nper (fun _ => directions flag fun d => f.onlyRemaps d n n) ++
      (loopVals 1 5).flatMap fun which => passes nper fun _ => directions flag fun d => f.onlyOneRemap d which n n
    else []

/-- `FFT2d::tune_trial`, fft2d.cpp:968-1039. -/
def Fft2.trial (f : Fft2 ℝ) (J : Nat → Nat → Int → Nat → Junk) (scaled remaponly : Bool) (nper flag tflag : Int) (n : Nat) :
    List (Instr ℝ) :=
  passes nper (fun i => directions flag fun d => f.compute (J 0 i d) scaled remaponly d n n) ++
    if tflag ≠ 0 then
      passes nper (fun i => directions flag fun d => f.only1d (J 1 i d) d n) ++
      passes nper (fun _ => directions flag fun d => f.onlyRemaps d n n) ++
      (loopVals 1 4).flatMap fun which => passes nper fun _ => directions flag fun d => f.onlyOneRemap d which n n
    else []

namespace Driver

/-- `call(1); call(-1);` or `call(1);`, for example test3d.cpp:803-812. -/
def byMode {α : Type} (mode : Nat) (call : Int → List (Instr α)) : List (Instr α) :=
  if mode < 2 then call 1 ++ call (-1) else call 1

/-- `timing` with `-t`, test3d.cpp:796-909; `work` is array 0. -/
def Opt3.timing (o : Opt3) (b : Box3) (f : Fft3 ℝ) (J : Nat → Int → Nat → Junk) : List (Instr ℝ) :=
  [.loc (onWork (fillZero (nfft3 b)))] ++ passes o.nloop (fun i => byMode o.mode fun d => f.only1d (J i d) d 0) ++
  [.loc (onWork (fillZero (nfft3 b)))] ++ passes o.nloop (fun _ => byMode o.mode fun d => f.onlyRemaps d 0 0) ++
  [.loc (onWork (fillZero (nfft3 b)))] ++ passes o.nloop (fun _ => byMode o.mode fun d => f.onlyOneRemap d 1 0 0) ++
  passes o.nloop (fun _ => byMode o.mode fun d => f.onlyOneRemap d 2 0 0) ++
  passes o.nloop (fun _ => byMode o.mode fun d => f.onlyOneRemap d 3 0 0) ++
  passes o.nloop (fun _ => byMode o.mode fun d => f.onlyOneRemap d 4 0 0)

/-- `timing` with `-t`, test2d.cpp:718-816. -/
def Opt2.timing (o : Opt2) (b : Box2) (f : Fft2 ℝ) (J : Nat → Int → Nat → Junk) : List (Instr ℝ) :=
  [.loc (onWork (fillZero (nfft2 b)))] ++ passes o.nloop (fun i => byMode o.mode fun d => f.only1d (J i d) d 0) ++
  [.loc (onWork (fillZero (nfft2 b)))] ++ passes o.nloop (fun _ => byMode o.mode fun d => f.onlyRemaps d 0 0) ++
  [.loc (onWork (fillZero (nfft2 b)))] ++ passes o.nloop (fun _ => byMode o.mode fun d => f.onlyOneRemap d 1 0 0) ++
  passes o.nloop (fun _ => byMode o.mode fun d => f.onlyOneRemap d 2 0 0) ++
  passes o.nloop (fun _ => byMode o.mode fun d => f.onlyOneRemap d 3 0 0)

/-- `flag` of the call of `tune`, test3d.cpp:581-582; test2d.cpp:524-525. -/
def tuneFlag (mode : Nat) : Int := if mode ≥ 2 then 1 else 0

/-- `nloop` after `plan` with `-tune`, test3d.cpp:588; test2d.cpp:530. -/
def loopsAfter (nloop : Nat) (npertrial : Int) : Nat := if nloop = 0 then npertrial.toNat else nloop

end Driver

end FftMpi
