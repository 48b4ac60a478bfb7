import Verif.Driver
import Verif.TimeRuns
import Verif.Fortran

/-!
# What the test programs print besides times

The first part of the report of `timing` (test3d.cpp:922-965, test2d.cpp:831-866): grid, processor grids, trials of `tune`, number
of FFTs, settings, memory; and the public members of the FFT object that it prints, which the C, Fortran and Python programs
read by name.

Simplifications: a line is its kind and its values, without the text around them; memory is in bytes, without the
division by `1024*1024`.  An element of the arrays of `tune` with index `ntrial` or more counts as not assigned.
-/

noncomputable section

namespace FftMpi

/-! ## The members of the object -/

/-- `FFT3d::FFT3d`, fft3d.cpp:112-178; `prec` is the name of the precision of the library. -/
def Pub3.made (prec : String) : Pub3 where
  collective := 2
  exchange := 0
  packflag := 2
  memoryflag := 1
  scaled := 1
  remaponly := 0
  permute := none
  collective_bp := none
  collective_pp := none
  memusage := 0
  npfast1 := none
  npfast2 := none
  npfast3 := none
  npmid1 := none
  npmid2 := none
  npmid3 := none
  npslow1 := none
  npslow2 := none
  npslow3 := none
  npbrick1 := none
  npbrick2 := none
  npbrick3 := none
  ntrial := some 0
  npertrial := some 0
  cbest := some (-1)
  ebest := some (-1)
  pbest := some (-1)
  besttime := some 0
  setuptime := none
  cflags := fun _ => none
  eflags := fun _ => none
  pflags := fun _ => none
  tfft := fun _ => none
  t1d := fun _ => none
  tremap := fun _ => none
  tremap1 := fun _ => none
  tremap2 := fun _ => none
  tremap3 := fun _ => none
  tremap4 := fun _ => none
  fft1d := ""
  precision := prec

/-- The members that `FFT3d::setup` assigns, fft3d.cpp:245, 277-284, 303-316, 484-493 and 1461, 1518, 1586, 1645: `g` are the
processor grids, `mem` the memory, `lib` the 1d FFT library. -/
def Pub3.setup (f : Pub3) (permute : Int) (g : Grids) (mem : Int) (lib : String) : Pub3 :=
  { f with
    permute := some permute
    collective_bp := some (if collectiveBp f.collective then 1 else 0)
    collective_pp := some (if collectivePp f.collective then 1 else 0)
    npfast1 := some g.fast.1
    npfast2 := some g.fast.2.1
    npfast3 := some g.fast.2.2
    npmid1 := some g.mid.1
    npmid2 := some g.mid.2.1
    npmid3 := some g.mid.2.2
    npslow1 := some g.slow.1
    npslow2 := some g.slow.2.1
    npslow3 := some g.slow.2.2
    npbrick1 := some g.brick.1
    npbrick2 := some g.brick.2.1
    npbrick3 := some g.brick.2.2
    memusage := mem
    fft1d := lib }

/-- The members that `FFT3d::tune` has assigned when it calls `setup` for the last time, fft3d.cpp:731-1007: `r` is the result of
`tune`, `secs` the time of that `setup`. -/
def Pub3.tune (f : Pub3) (r : TuneSt) (secs : ℚ) : Pub3 :=
  { f with
    collective := r.st.collective
    exchange := r.st.exchange
    packflag := r.st.packflag
    memoryflag := r.memoryflag
    ntrial := some r.ntrial
    npertrial := some r.npertrial
    cbest := r.cbest
    ebest := r.ebest
    pbest := r.pbest
    besttime := some r.besttime
    setuptime := some secs
    cflags := fun i => if i < r.ntrial then some (r.slots i).st.collective else none
    eflags := fun i => if i < r.ntrial then some (r.slots i).st.exchange else none
    pflags := fun i => if i < r.ntrial then some (r.slots i).st.packflag else none
    tfft := fun i => if i < r.ntrial then some (r.slots i).t.tfft else none
    t1d := fun i => if i < r.ntrial then some (r.slots i).t.t1d else none
    tremap := fun i => if i < r.ntrial then some (r.slots i).t.tremap else none
    tremap1 := fun i => if i < r.ntrial then some (r.slots i).t.tremap1 else none
    tremap2 := fun i => if i < r.ntrial then some (r.slots i).t.tremap2 else none
    tremap3 := fun i => if i < r.ntrial then some (r.slots i).t.tremap3 else none
    tremap4 := fun i => if i < r.ntrial then some (r.slots i).t.tremap4 else none }

/-- `FFT2d::FFT2d`, fft2d.cpp:113-172. -/
def Pub2.made (prec : String) : Pub2 where
  collective := 2
  exchange := 0
  packflag := 0
  memoryflag := 1
  scaled := 1
  remaponly := 0
  permute := none
  collective_bp := none
  collective_pp := none
  memusage := 0
  npfast1 := none
  npfast2 := none
  npslow1 := none
  npslow2 := none
  npbrick1 := none
  npbrick2 := none
  ntrial := none
  npertrial := none
  cbest := none
  ebest := none
  pbest := none
  besttime := none
  setuptime := none
  cflags := fun _ => none
  eflags := fun _ => none
  pflags := fun _ => none
  tfft := fun _ => none
  t1d := fun _ => none
  tremap := fun _ => none
  tremap1 := fun _ => none
  tremap2 := fun _ => none
  tremap3 := fun _ => none
  fft1d := ""
  precision := prec

/-- The members that `FFT2d::setup` assigns, fft2d.cpp:249, 281-286, 304-319, 453-462: `brick` is the grid of bricks. -/
def Pub2.setup (f : Pub2) (P : Nat) (permute : Int) (brick : Nat × Nat) (mem : Int) (lib : String) : Pub2 :=
  { f with
    permute := some permute
    collective_bp := some (if collectiveBp f.collective then 1 else 0)
    collective_pp := some (if collectivePp f.collective then 1 else 0)
    npfast1 := some 1
    npfast2 := some P
    npslow1 := some P
    npslow2 := some 1
    npbrick1 := some brick.1
    npbrick2 := some brick.2
    memusage := mem
    fft1d := lib }

/-- The members that `FFT2d::tune` has assigned when it calls `setup` for the last time, fft2d.cpp:684-949. -/
def Pub2.tune (f : Pub2) (r : TuneSt) (secs : ℚ) : Pub2 :=
  { f with
    collective := r.st.collective
    exchange := r.st.exchange
    packflag := r.st.packflag
    memoryflag := r.memoryflag
    ntrial := some r.ntrial
    npertrial := some r.npertrial
    cbest := r.cbest
    ebest := r.ebest
    pbest := r.pbest
    besttime := some r.besttime
    setuptime := some secs
    cflags := fun i => if i < r.ntrial then some (r.slots i).st.collective else none
    eflags := fun i => if i < r.ntrial then some (r.slots i).st.exchange else none
    pflags := fun i => if i < r.ntrial then some (r.slots i).st.packflag else none
    tfft := fun i => if i < r.ntrial then some (r.slots i).t.tfft else none
    t1d := fun i => if i < r.ntrial then some (r.slots i).t.t1d else none
    tremap := fun i => if i < r.ntrial then some (r.slots i).t.tremap else none
    tremap1 := fun i => if i < r.ntrial then some (r.slots i).t.tremap1 else none
    tremap2 := fun i => if i < r.ntrial then some (r.slots i).t.tremap2 else none
    tremap3 := fun i => if i < r.ntrial then some (r.slots i).t.tremap3 else none }

namespace Driver

/-- `plan` up to the call of `setup` or `tune`, test3d.cpp:554-559. -/
def Opt3.assign (o : Opt3) (f : Pub3) : Pub3 :=
  { f with remaponly := if o.rflag then 1 else 0, collective := o.cflag, exchange := o.eflag, packflag := o.pflag }

/-- The same through the C interface, test3d_c.cpp:502-507; test3d.py:331-335. -/
def Opt3.assignC (o : Opt3) (f : Pub3) : Pub3 :=
  (((f.set "remaponly" (if o.rflag then 1 else 0)).set "collective" o.cflag).set "exchange" o.eflag).set "pack" o.pflag

/-- test2d.cpp:498-503. -/
def Opt2.assign (o : Opt2) (f : Pub2) : Pub2 :=
  { f with remaponly := if o.rflag then 1 else 0, collective := o.cflag, exchange := o.eflag, packflag := o.pflag }

/-- test2d_c.cpp:446-451; test2d.py:284-288. -/
def Opt2.assignC (o : Opt2) (f : Pub2) : Pub2 :=
  (((f.set "remaponly" (if o.rflag then 1 else 0)).set "collective" o.cflag).set "exchange" o.eflag).set "pack" o.pflag

/-! ## The values that are read -/

/-- A printed value.  `junk`: a variable that was never assigned, an element outside of an array. -/
inductive Cell where
  | int (v : Int)
  | real (v : ℚ)
  | text (s : String)
  | junk

def Cell.ofInt : Option Int → Cell
  | some v => .int v
  | none => .junk

def Cell.ofReal : Option ℚ → Cell
  | some v => .real v
  | none => .junk

def Cell.ofText : Option (String × Nat) → Cell
  | some v => .text v.1
  | none => .junk

/-- The values that the report takes from the FFT object. -/
structure Seen where
  lib : Cell
  prec : Cell
  grids : List (List Cell)
  ntrial : Cell
  npertrial : Cell
  rows : List (List Cell)
  settings : List Cell
  memusage : Cell

/-- The rows of the table of trials, `for (int i = 0; i < ntrial; i++)`. -/
def rowsOf (ntrial : Option Int) (row : Nat → List Cell) : List (List Cell) := (List.range (ntrial.getD 0).toNat).map row

/-- test3d.cpp:925-926, 929-936, 940-947, 961, 965. -/
def seen3 (f : Pub3) : Seen where
  lib := .text f.fft1d
  prec := .text f.precision
  grids :=
    [[.ofInt f.npfast1, .ofInt f.npfast2, .ofInt f.npfast3], [.ofInt f.npmid1, .ofInt f.npmid2, .ofInt f.npmid3],
     [.ofInt f.npslow1, .ofInt f.npslow2, .ofInt f.npslow3], [.ofInt f.npbrick1, .ofInt f.npbrick2, .ofInt f.npbrick3]]
  ntrial := .ofInt f.ntrial
  npertrial := .ofInt f.npertrial
  rows := rowsOf f.ntrial fun i =>
    [.ofInt (f.cflags i), .ofInt (f.eflags i), .ofInt (f.pflags i), .ofReal (f.tfft i), .ofReal (f.t1d i), .ofReal (f.tremap i),
     .ofReal (f.tremap1 i), .ofReal (f.tremap2 i), .ofReal (f.tremap3 i), .ofReal (f.tremap4 i)]
  settings := [.int f.collective, .int f.exchange, .int f.packflag]
  memusage := .int f.memusage

/-- `vec[i]` of the pointer that the C function returned. -/
def elem {α : Type} (v : Option (Nat → Option α) × Option Int) (i : Nat) : Option α := v.1.bind (· i)

/-- test3d_c.cpp:873-936. -/
def seenC3 (f : Pub3) : Seen where
  lib := .ofText (f.getString "fft1d")
  prec := .ofText (f.getString "precision")
  grids :=
    [[.ofInt (f.getInt "npfast1"), .ofInt (f.getInt "npfast2"), .ofInt (f.getInt "npfast3")],
     [.ofInt (f.getInt "npmid1"), .ofInt (f.getInt "npmid2"), .ofInt (f.getInt "npmid3")],
     [.ofInt (f.getInt "npslow1"), .ofInt (f.getInt "npslow2"), .ofInt (f.getInt "npslow3")],
     [.ofInt (f.getInt "npbrick1"), .ofInt (f.getInt "npbrick2"), .ofInt (f.getInt "npbrick3")]]
  ntrial := .ofInt (f.getInt "ntrial")
  npertrial := .ofInt (f.getInt "npertrial")
  rows := rowsOf (f.getInt "ntrial") fun i =>
    [.ofInt (elem (f.getIntVector "cflags") i), .ofInt (elem (f.getIntVector "eflags") i),
     .ofInt (elem (f.getIntVector "pflags") i), .ofReal (elem (f.getDoubleVector "tfft") i),
     .ofReal (elem (f.getDoubleVector "t1d") i), .ofReal (elem (f.getDoubleVector "tremap") i),
     .ofReal (elem (f.getDoubleVector "tremap1") i), .ofReal (elem (f.getDoubleVector "tremap2") i),
     .ofReal (elem (f.getDoubleVector "tremap3") i), .ofReal (elem (f.getDoubleVector "tremap4") i)]
  settings := [.ofInt (f.getInt "collective"), .ofInt (f.getInt "exchange"), .ofInt (f.getInt "pack")]
  memusage := .int (f.getInt64 "memusage")

/-- `get_int_vector(key)[i]` in Python: fftmpi.py:178-190 cuts the array to `nlen` elements, so that other indices raise
`IndexError`. -/
def item {α : Type} (v : Option (Nat → Option α) × Option Int) (i : Nat) : Option α :=
  if (i : Int) < v.2.getD 0 then v.1.bind (· i) else none

/-- test3d.py:630-673. -/
def seenPy3 (f : Pub3) : Seen :=
  { seenC3 f with
    rows := rowsOf (f.getInt "ntrial") fun i =>
      [.ofInt (item (f.getIntVector "cflags") i), .ofInt (item (f.getIntVector "eflags") i),
       .ofInt (item (f.getIntVector "pflags") i), .ofReal (item (f.getDoubleVector "tfft") i),
       .ofReal (item (f.getDoubleVector "t1d") i), .ofReal (item (f.getDoubleVector "tremap") i),
       .ofReal (item (f.getDoubleVector "tremap1") i), .ofReal (item (f.getDoubleVector "tremap2") i),
       .ofReal (item (f.getDoubleVector "tremap3") i), .ofReal (item (f.getDoubleVector "tremap4") i)] }

/-- `vec(i)` in Fortran, with the bounds of `c_f_pointer(ptr,vec,[nlen])`: test3d_f90.f90:1025-1044. -/
def entry {α : Type} (v : Option (Nat → Option α) × Option Int) (i : Nat) : Option α :=
  if 1 ≤ i ∧ (i : Int) ≤ v.2.getD 0 then v.1.bind (· (i - 1)) else none

/-- The rows of the table of trials, `do i = 1,ntrial`. -/
def rowsOfF (ntrial : Option Int) (row : Nat → List Cell) : List (List Cell) :=
  (List.range' 1 (ntrial.getD 0).toNat).map row

/-- test3d_f90.f90:995-1069: the keyword `k` is at the address `at k` of the memory `m`.  `none`: access outside of the
memory. -/
def seenF3 (m : Mem Char) (at_ : String → Int) (f : Pub3) : Option Seen := do
  let lib ← Fortran.getString3 m (at_ "fft1d") f
  let prec ← Fortran.getString3 m (at_ "precision") f
  let f1 ← Fortran.getInt3 m (at_ "npfast1") f
  let f2 ← Fortran.getInt3 m (at_ "npfast2") f
  let f3 ← Fortran.getInt3 m (at_ "npfast3") f
  let m1 ← Fortran.getInt3 m (at_ "npmid1") f
  let m2 ← Fortran.getInt3 m (at_ "npmid2") f
  let m3 ← Fortran.getInt3 m (at_ "npmid3") f
  let s1 ← Fortran.getInt3 m (at_ "npslow1") f
  let s2 ← Fortran.getInt3 m (at_ "npslow2") f
  let s3 ← Fortran.getInt3 m (at_ "npslow3") f
  let b1 ← Fortran.getInt3 m (at_ "npbrick1") f
  let b2 ← Fortran.getInt3 m (at_ "npbrick2") f
  let b3 ← Fortran.getInt3 m (at_ "npbrick3") f
  let ntrial ← Fortran.getInt3 m (at_ "ntrial") f
  let npertrial ← Fortran.getInt3 m (at_ "npertrial") f
  let cflags ← Fortran.getIntVector3 m (at_ "cflags") f
  let eflags ← Fortran.getIntVector3 m (at_ "eflags") f
  let pflags ← Fortran.getIntVector3 m (at_ "pflags") f
  let tfft ← Fortran.getDoubleVector3 m (at_ "tfft") f
  let t1d ← Fortran.getDoubleVector3 m (at_ "t1d") f
  let tremap ← Fortran.getDoubleVector3 m (at_ "tremap") f
  let tremap1 ← Fortran.getDoubleVector3 m (at_ "tremap1") f
  let tremap2 ← Fortran.getDoubleVector3 m (at_ "tremap2") f
  let tremap3 ← Fortran.getDoubleVector3 m (at_ "tremap3") f
  let tremap4 ← Fortran.getDoubleVector3 m (at_ "tremap4") f
  let c ← Fortran.getInt3 m (at_ "collective") f
  let e ← Fortran.getInt3 m (at_ "exchange") f
  let p ← Fortran.getInt3 m (at_ "pack") f
  let mem ← Fortran.getInt643 m (at_ "memusage") f
  some
    { lib := .ofText lib
      prec := .ofText prec
      grids := [[.ofInt f1, .ofInt f2, .ofInt f3], [.ofInt m1, .ofInt m2, .ofInt m3], [.ofInt s1, .ofInt s2, .ofInt s3],
        [.ofInt b1, .ofInt b2, .ofInt b3]]
      ntrial := .ofInt ntrial
      npertrial := .ofInt npertrial
      rows := rowsOfF ntrial fun i =>
        [.ofInt (entry cflags i), .ofInt (entry eflags i), .ofInt (entry pflags i), .ofReal (entry tfft i),
         .ofReal (entry t1d i), .ofReal (entry tremap i), .ofReal (entry tremap1 i), .ofReal (entry tremap2 i),
         .ofReal (entry tremap3 i), .ofReal (entry tremap4 i)]
      settings := [.ofInt c, .ofInt e, .ofInt p]
      memusage := .int mem }

/-- test2d.cpp:832-833, 836-838, 842-848, 862, 866. -/
def seen2 (f : Pub2) : Seen where
  lib := .text f.fft1d
  prec := .text f.precision
  grids := [[.ofInt f.npfast1, .ofInt f.npfast2], [.ofInt f.npslow1, .ofInt f.npslow2], [.ofInt f.npbrick1, .ofInt f.npbrick2]]
  ntrial := .ofInt f.ntrial
  npertrial := .ofInt f.npertrial
  rows := rowsOf f.ntrial fun i =>
    [.ofInt (f.cflags i), .ofInt (f.eflags i), .ofInt (f.pflags i), .ofReal (f.tfft i), .ofReal (f.t1d i), .ofReal (f.tremap i),
     .ofReal (f.tremap1 i), .ofReal (f.tremap2 i), .ofReal (f.tremap3 i)]
  settings := [.int f.collective, .int f.exchange, .int f.packflag]
  memusage := .int f.memusage

/-- test2d_c.cpp:780-835. -/
def seenC2 (f : Pub2) : Seen where
  lib := .ofText (f.getString "fft1d")
  prec := .ofText (f.getString "precision")
  grids :=
    [[.ofInt (f.getInt "npfast1"), .ofInt (f.getInt "npfast2")], [.ofInt (f.getInt "npslow1"), .ofInt (f.getInt "npslow2")],
     [.ofInt (f.getInt "npbrick1"), .ofInt (f.getInt "npbrick2")]]
  ntrial := .ofInt (f.getInt "ntrial")
  npertrial := .ofInt (f.getInt "npertrial")
  rows := rowsOf (f.getInt "ntrial") fun i =>
    [.ofInt (elem (f.getIntVector "cflags") i), .ofInt (elem (f.getIntVector "eflags") i),
     .ofInt (elem (f.getIntVector "pflags") i), .ofReal (elem (f.getDoubleVector "tfft") i),
     .ofReal (elem (f.getDoubleVector "t1d") i), .ofReal (elem (f.getDoubleVector "tremap") i),
     .ofReal (elem (f.getDoubleVector "tremap1") i), .ofReal (elem (f.getDoubleVector "tremap2") i),
     .ofReal (elem (f.getDoubleVector "tremap3") i)]
  settings := [.ofInt (f.getInt "collective"), .ofInt (f.getInt "exchange"), .ofInt (f.getInt "pack")]
  memusage := .int (f.getInt64 "memusage")

/-- test2d.py:559-599. -/
def seenPy2 (f : Pub2) : Seen :=
  { seenC2 f with
    rows := rowsOf (f.getInt "ntrial") fun i =>
      [.ofInt (item (f.getIntVector "cflags") i), .ofInt (item (f.getIntVector "eflags") i),
       .ofInt (item (f.getIntVector "pflags") i), .ofReal (item (f.getDoubleVector "tfft") i),
       .ofReal (item (f.getDoubleVector "t1d") i), .ofReal (item (f.getDoubleVector "tremap") i),
       .ofReal (item (f.getDoubleVector "tremap1") i), .ofReal (item (f.getDoubleVector "tremap2") i),
       .ofReal (item (f.getDoubleVector "tremap3") i)] }

/-- test2d_f90.f90:889-954. -/
def seenF2 (m : Mem Char) (at_ : String → Int) (f : Pub2) : Option Seen := do
  let lib ← Fortran.getString2 m (at_ "fft1d") f
  let prec ← Fortran.getString2 m (at_ "precision") f
  let f1 ← Fortran.getInt2 m (at_ "npfast1") f
  let f2 ← Fortran.getInt2 m (at_ "npfast2") f
  let s1 ← Fortran.getInt2 m (at_ "npslow1") f
  let s2 ← Fortran.getInt2 m (at_ "npslow2") f
  let b1 ← Fortran.getInt2 m (at_ "npbrick1") f
  let b2 ← Fortran.getInt2 m (at_ "npbrick2") f
  let ntrial ← Fortran.getInt2 m (at_ "ntrial") f
  let npertrial ← Fortran.getInt2 m (at_ "npertrial") f
  let cflags ← Fortran.getIntVector2 m (at_ "cflags") f
  let eflags ← Fortran.getIntVector2 m (at_ "eflags") f
  let pflags ← Fortran.getIntVector2 m (at_ "pflags") f
  let tfft ← Fortran.getDoubleVector2 m (at_ "tfft") f
  let t1d ← Fortran.getDoubleVector2 m (at_ "t1d") f
  let tremap ← Fortran.getDoubleVector2 m (at_ "tremap") f
  let tremap1 ← Fortran.getDoubleVector2 m (at_ "tremap1") f
  let tremap2 ← Fortran.getDoubleVector2 m (at_ "tremap2") f
  let tremap3 ← Fortran.getDoubleVector2 m (at_ "tremap3") f
  let c ← Fortran.getInt2 m (at_ "collective") f
  let e ← Fortran.getInt2 m (at_ "exchange") f
  let p ← Fortran.getInt2 m (at_ "pack") f
  let mem ← Fortran.getInt642 m (at_ "memusage") f
  some
    { lib := .ofText lib
      prec := .ofText prec
      grids := [[.ofInt f1, .ofInt f2], [.ofInt s1, .ofInt s2], [.ofInt b1, .ofInt b2]]
      ntrial := .ofInt ntrial
      npertrial := .ofInt npertrial
      rows := rowsOfF ntrial fun i =>
        [.ofInt (entry cflags i), .ofInt (entry eflags i), .ofInt (entry pflags i), .ofReal (entry tfft i),
         .ofReal (entry t1d i), .ofReal (entry tremap i), .ofReal (entry tremap1 i), .ofReal (entry tremap2 i),
         .ofReal (entry tremap3 i)]
      settings := [.ofInt c, .ofInt e, .ofInt p]
      memusage := .int mem }

/-! ## The lines -/

/-- The lines of the report, by their text. -/
inductive Line where
  | library | size | initial | xpencil | ypencil | zpencil | brick | final | trials | trial
  | both | bothConv | forward | forwardConv | methods | gridBytes | fftBytes
deriving DecidableEq

/-- The line with the number of FFTs, test3d.cpp:950-958; test2d.cpp:851-859. -/
def loopsLine (mode nloop P : Nat) : List (Line × List Cell) :=
  if mode = 0 then [(.both, [.int nloop, .int nloop, .int P])]
  else if mode = 1 then [(.bothConv, [.int nloop, .int nloop, .int P])]
  else if mode = 2 then [(.forward, [.int nloop, .int P])]
  else if mode = 3 then [(.forwardConv, [.int nloop, .int P])]
  else []

/-- test3d.cpp:922-965; `bytes` is `gridbytes`. -/
def report3 (o : Opt3) (P : Nat) (pin pout : Nat × Nat × Nat) (tuned : Bool) (nloop : Nat) (bytes : Int) (s : Seen) :
    List (Line × List Cell) :=
  [(.library, [s.lib, s.prec]), (.size, [.int o.nx, .int o.ny, .int o.nz]),
   (.initial, [.int pin.1, .int pin.2.1, .int pin.2.2])] ++
  [Line.xpencil, .ypencil, .zpencil, .brick].zip s.grids ++
  [(.final, [.int pout.1, .int pout.2.1, .int pout.2.2])] ++
  (if tuned then (.trials, [s.ntrial, s.npertrial]) :: s.rows.map fun r => (.trial, r) else []) ++
  loopsLine o.mode nloop P ++
  [(.methods, s.settings), (.gridBytes, [.int bytes]), (.fftBytes, [s.memusage])]

/-- test2d.cpp:831-866. -/
def report2 (o : Opt2) (P : Nat) (pin pout : Nat × Nat) (tuned : Bool) (nloop : Nat) (bytes : Int) (s : Seen) :
    List (Line × List Cell) :=
  [(.library, [s.lib, s.prec]), (.size, [.int o.nx, .int o.ny]), (.initial, [.int pin.1, .int pin.2])] ++
  [Line.xpencil, .ypencil, .brick].zip s.grids ++
  [(.final, [.int pout.1, .int pout.2])] ++
  (if tuned then (.trials, [s.ntrial, s.npertrial]) :: s.rows.map fun r => (.trial, r) else []) ++
  loopsLine o.mode nloop P ++
  [(.methods, s.settings), (.gridBytes, [.int bytes]), (.fftBytes, [s.memusage])]

end Driver

end FftMpi
