import Verif.RemapLife
import Verif.Fft3d
import Verif.Tune

/-!
# Life cycle of `FFT3d` and `FFT2d`

Which objects, plans and buffers exist, and which of them the methods use: constructor, `setup`,
`setup_memory`, `compute` and the `only_*` methods, `tune`, destructor, and assignments to the public members
in between.  The two classes have nearly the same text; where they differ the model has a case for each
(`Cls`).  Line numbers are those of fft3d.cpp, those of fft2d.cpp are in brackets.

What `setup` computes from its arguments and from the settings (which remaps there are, their sizes, the
lengths of the 1d FFTs) is the parameter `plan`; for `FFT3d` it is `fft3Setup`, see `plan3`.

Undefined behaviour (`none`): release of something that does not exist or was made in another way, use of an
object, plan or buffer that does not exist or is too small, use of a member that was never assigned.
The contents of arrays are not modelled here, nor are the arrays `in` and `out` that the caller passes.  The
1d FFTs may be those of any of the four packages; a plan or descriptor counts as 1 byte, as does an object.
-/

namespace FftMpi

/-- The two classes. -/
inductive Cls where
  | d3
  | d2
deriving DecidableEq, Repr

/-- Number of entries in the lists of remaps: `remap_prefast`, `remap_fastmid`, `remap_midslow`,
`remap_postslow` and the inverse ones `remap_preslow`, ..., fft3d.h:102-104; `remap_prefast`,
`remap_fastslow`, `remap_postslow` and `remap_preslow`, `remap_slowfast`, `remap_postfast`, fft2d.h:99-100. -/
def Cls.npairs : Cls → Nat
  | .d3 => 4
  | .d2 => 3

/-- A `struct Remap`, fft3d.h:97-100: the numbers of `remap3d` and `remap3d_extra`, each with its member
`collective`. -/
structure PSkel where
  main : RSkel
  mainColl : Bool
  extra : Option (RSkel × Bool)

/-- What `setup` computes: the remaps of a forward and of an inverse FFT (`none`: not created), the lengths of
the 1d FFTs (`nmid` has no meaning for `FFT2d`), and the sizes that it returns. -/
structure FSkel where
  same : Bool
  fwd : List (Option PSkel)
  inv : List (Option PSkel)
  nfast : Int
  nmid : Int
  nslow : Int
  fftsize : Int
  sendsize : Int
  recvsize : Int

/-- The computation of `setup` for arguments of a type `A`: `none` no defined result, `.error` a call of
`error->all`. -/
abbrev PlanFn (A : Type) := A → Settings → Option (Except SetupErr FSkel)

/-- A `struct Remap` with its two remap objects. -/
structure PairLife where
  ptr : Ptr
  remap : RemapLife
  extra : Option RemapLife

/-- `struct FFT1d`, fft3d.h:119-148 [112-141].  MKL has one member `handle` instead of two plans, here both
`planF` and `planB`. -/
structure Fft1dLife where
  ptr : Ptr
  length : Int
  planF : Ptr
  planB : Ptr

/-- The members of `FFT3d` that matter for the life cycle.  `t` holds the public settings and the results of
`tune`, `skel` the numbers that `setup` stored, `ffts` the pointers `fft_fast`, `fft_mid`, `fft_slow`
(`none`: `NULL`). -/
structure FftLife where
  this : Ptr
  memory : Ptr
  error : Ptr
  primes : Ptr
  factors : Ptr
  setupflag : Bool
  setupMemoryFlag : Bool
  scaled : Int
  remaponly : Int
  t : TuneSt
  fwd : List (Option PairLife)
  inv : List (Option PairLife)
  ffts : Option (List Fft1dLife)
  sendbuf : Ptr
  recvbuf : Ptr
  memusage : Int
  skel : Option FSkel

/-- Public settings after the constructor, fft3d.cpp:119-138 [119-133].  `FFT2d` does not assign the members
that `tune` reports; the counters are 0 in the model, nothing depends on them before `tune` assigns them. -/
def newSettings (cls : Cls) : TuneSt where
  st := { collective := 2, exchange := 0, packflag := match cls with | .d3 => 2 | .d2 => 0 }
  memoryflag := 1
  ntrial := 0
  npertrial := 0
  cbest := match cls with | .d3 => some (-1) | .d2 => none
  ebest := match cls with | .d3 => some (-1) | .d2 => none
  pbest := match cls with | .d3 => some (-1) | .d2 => none
  besttime := 0
  slots := fun _ => ⟨⟨0, 0, 0⟩, ⟨0, 0, 0, 0, 0, 0, 0⟩⟩
  maxfftsize := 0
  runs := []

/-- `new FFT3d(world,precision)`, fft3d.cpp:113-178 [113-172], if the precision fits. -/
def FftLife.create (cls : Cls) (z : TypeSizes) (h : Heap) : FftLife × Heap :=
  let (this, h) := h.new .obj 1
  let (memory, h) := h.new .obj 1
  let (error, h) := h.new .obj 1
  let (primes, h) := h.new .arr (3 * z.int)
  let (factors, h) := h.new .arr (50 * z.int)
  ({ this, memory, error, primes, factors, setupflag := false, setupMemoryFlag := false
     scaled := 1, remaponly := 0, t := newSettings cls
     fwd := List.replicate cls.npairs none, inv := List.replicate cls.npairs none, ffts := none
     sendbuf := .null, recvbuf := .null, memusage := 0, skel := none }, h)

/-! ## Remaps -/

/-- `new Remap3d(world)`, `collective = ...`, `packflag = ...`, `setup(...,2,permute,0,ssize,rsize)`. -/
def newRemapOf (z : TypeSizes) (packflag : Int) (k : RSkel) (coll : Bool) (h : Heap) : Option (RemapLife × Heap) :=
  let (r, h) := RemapLife.create h
  RemapLife.setup z k 0 { r with collective := if coll then 1 else 0, packflag } h

/-- One of the blocks of `remap_forward_create` and `remap_inverse_create`, e.g. fft3d.cpp:1163-1195
[1102-1135]. -/
def PairLife.create (z : TypeSizes) (packflag : Int) (k : PSkel) (h : Heap) : Option (PairLife × Heap) := do
  let (ptr, h) := h.new .obj 1
  let (remap, h) ← newRemapOf z packflag k.main k.mainColl h
  match k.extra with
  | none => some ({ ptr, remap, extra := none }, h)
  | some (ke, ce) => do
    let (x, h) ← newRemapOf z packflag ke ce h
    some ({ ptr, remap, extra := some x }, h)

/-- `remap_forward_create` or `remap_inverse_create`: a remap that is not needed is not assigned. -/
def createPairs (z : TypeSizes) (packflag : Int) : List (Option PSkel) → List (Option PairLife) → Heap →
    Option (List (Option PairLife) × Heap)
  | none :: ks, o :: os, h => do
    let (ps, h) ← createPairs z packflag ks os h
    some (o :: ps, h)
  | some k :: ks, _ :: os, h => do
    let (p, h) ← PairLife.create z packflag k h
    let (ps, h) ← createPairs z packflag ks os h
    some (some p :: ps, h)
  | _, os, h => some (os, h)

/-- `deallocate_remap`, fft3d.cpp:1127-1133 [1066-1072].  `strict` is about the destructor of `Remap3d`. -/
def PairLife.destroy (strict : Bool) (p : PairLife) (h : Heap) : Option Heap := do
  let h ← p.remap.destroy strict h
  let h ← match p.extra with
    | none => some h
    | some x => x.destroy strict h
  h.free (.del p.ptr)

def destroyPairs (strict : Bool) : List (Option PairLife) → Heap → Option Heap
  | [], h => some h
  | none :: ps, h => destroyPairs strict ps h
  | some p :: ps, h => do
    let h ← p.destroy strict h
    destroyPairs strict ps h

/-- `FFT3d::remap`, fft3d.cpp:1116-1121 [1055-1060]. -/
def PairLife.use (z : TypeSizes) (sendbuf recvbuf : Ptr) (p : PairLife) (h : Heap) :
    Option (Except LifeErr PairLife) :=
  match p.remap.remap z sendbuf recvbuf h with
  | none => none
  | some (.error e) => some (.error e)
  | some (.ok r) =>
    match p.extra with
    | none => some (.ok { p with remap := r })
    | some x =>
      match x.remap z sendbuf recvbuf h with
      | none => none
      | some (.error e) => some (.error e)
      | some (.ok x) => some (.ok { p with remap := r, extra := some x })

/-- `if (remap_...) remap(...)` for each remap in the list. -/
def usePairs (z : TypeSizes) (sendbuf recvbuf : Ptr) : List (Option PairLife) → Heap →
    Option (Except LifeErr (List (Option PairLife)))
  | [], _ => some (.ok [])
  | none :: ps, h =>
    match usePairs z sendbuf recvbuf ps h with
    | none => none
    | some (.error e) => some (.error e)
    | some (.ok ps) => some (.ok (none :: ps))
  | some p :: ps, h =>
    match p.use z sendbuf recvbuf h with
    | none => none
    | some (.error e) => some (.error e)
    | some (.ok p) =>
      match usePairs z sendbuf recvbuf ps h with
      | none => none
      | some (.error e) => some (.error e)
      | some (.ok ps) => some (.ok (some p :: ps))

/-- `remap_memory`, fft3d.cpp:1398-1446 [1253-1290]. -/
def pairsMemory (ps : List (Option PairLife)) : Int :=
  (ps.map fun p => match p with
    | none => 0
    | some p => p.remap.memusage + match p.extra with
      | none => 0
      | some x => x.memusage).sum

/-! ## 1d FFTs -/

/-- What a 1d FFT package (`none`: KISS) makes for length `n` and a direction: `kiss_fft_alloc(n,..)`,
`fftw_create_plan(n,..)`, `fftw_plan_many_dft(1,&n,..)`; `DftiCreateDescriptor` makes one descriptor for both
directions. -/
def planKind (lib : Option Package) (n : Int) (back : Bool) : Kind :=
  match lib with
  | none => .plan n back
  | some .mkl => .libPlan .mkl n none
  | some b => .libPlan b n (some back)

/-- How it is released: `free`, `DftiFreeDescriptor`, `fftw_destroy_plan`. -/
def planFree (lib : Option Package) (p : Ptr) : Free :=
  match lib with
  | none => .cfree p
  | some b => .libFree b p

/-- `FFT3d::setup_ffts` with KISS, fft3d.cpp:1643-1668, and with FFTW2, 1516-1547, after the three `new FFT1d`:
equal lengths share their plans. -/
def sharedPlans3 (lib : Option Package) (fast mid slow : Ptr) (nfast nmid nslow : Int) (h : Heap) : List Fft1dLife × Heap :=
  let (fastF, h) := h.new (planKind lib nfast false) 1
  let (fastB, h) := h.new (planKind lib nfast true) 1
  let (midF, midB, h) :=
    if nmid = nfast then (fastF, fastB, h)
    else
      let (f, h) := h.new (planKind lib nmid false) 1
      let (b, h) := h.new (planKind lib nmid true) 1
      (f, b, h)
  let (slowF, slowB, h) :=
    if nslow = nfast then (fastF, fastB, h)
    else if nslow = nmid then (midF, midB, h)
    else
      let (f, h) := h.new (planKind lib nslow false) 1
      let (b, h) := h.new (planKind lib nslow true) 1
      (f, b, h)
  ([⟨fast, nfast, fastF, fastB⟩, ⟨mid, nmid, midF, midB⟩, ⟨slow, nslow, slowF, slowB⟩], h)

/-- `FFT3d::setup_ffts` with MKL, fft3d.cpp:1459-1489: a descriptor for each 1d FFT, the member `handle`. -/
def mklPlans3 (fast mid slow : Ptr) (nfast nmid nslow : Int) (h : Heap) : List Fft1dLife × Heap :=
  let (f, h) := h.new (planKind (some .mkl) nfast false) 1
  let (m, h) := h.new (planKind (some .mkl) nmid false) 1
  let (s, h) := h.new (planKind (some .mkl) nslow false) 1
  ([⟨fast, nfast, f, f⟩, ⟨mid, nmid, m, m⟩, ⟨slow, nslow, s, s⟩], h)

/-- `FFT3d::setup_ffts` with FFTW3, fft3d.cpp:1584-1609: two plans for each 1d FFT. -/
def fftw3Plans3 (fast mid slow : Ptr) (nfast nmid nslow : Int) (h : Heap) : List Fft1dLife × Heap :=
  let (fastF, h) := h.new (planKind (some .fftw3) nfast false) 1
  let (fastB, h) := h.new (planKind (some .fftw3) nfast true) 1
  let (midF, h) := h.new (planKind (some .fftw3) nmid false) 1
  let (midB, h) := h.new (planKind (some .fftw3) nmid true) 1
  let (slowF, h) := h.new (planKind (some .fftw3) nslow false) 1
  let (slowB, h) := h.new (planKind (some .fftw3) nslow true) 1
  ([⟨fast, nfast, fastF, fastB⟩, ⟨mid, nmid, midF, midB⟩, ⟨slow, nslow, slowF, slowB⟩], h)

/-- The three `new FFT1d`, fft3d.cpp:443-445, and `FFT3d::setup_ffts`. -/
def fftBlocks3 (lib : Option Package) (nfast nmid nslow : Int) (h : Heap) : List Fft1dLife × Heap :=
  let (fast, h) := h.new .obj 1
  let (mid, h) := h.new .obj 1
  let (slow, h) := h.new .obj 1
  match lib with
  | none => sharedPlans3 none fast mid slow nfast nmid nslow h
  | some .mkl => mklPlans3 fast mid slow nfast nmid nslow h
  | some .fftw2 => sharedPlans3 (some .fftw2) fast mid slow nfast nmid nslow h
  | some .fftw3 => fftw3Plans3 fast mid slow nfast nmid nslow h

/-- `FFT2d::setup_ffts` with KISS, fft2d.cpp:1452-1466, and with FFTW2, 1351-1369. -/
def sharedPlans2 (lib : Option Package) (fast slow : Ptr) (nfast nslow : Int) (h : Heap) : List Fft1dLife × Heap :=
  let (fastF, h) := h.new (planKind lib nfast false) 1
  let (fastB, h) := h.new (planKind lib nfast true) 1
  let (slowF, slowB, h) :=
    if nslow = nfast then (fastF, fastB, h)
    else
      let (f, h) := h.new (planKind lib nslow false) 1
      let (b, h) := h.new (planKind lib nslow true) 1
      (f, b, h)
  ([⟨fast, nfast, fastF, fastB⟩, ⟨slow, nslow, slowF, slowB⟩], h)

/-- `FFT2d::setup_ffts` with MKL, fft2d.cpp:1304-1325. -/
def mklPlans2 (fast slow : Ptr) (nfast nslow : Int) (h : Heap) : List Fft1dLife × Heap :=
  let (f, h) := h.new (planKind (some .mkl) nfast false) 1
  let (s, h) := h.new (planKind (some .mkl) nslow false) 1
  ([⟨fast, nfast, f, f⟩, ⟨slow, nslow, s, s⟩], h)

/-- `FFT2d::setup_ffts` with FFTW3, fft2d.cpp:1402-1420. -/
def fftw3Plans2 (fast slow : Ptr) (nfast nslow : Int) (h : Heap) : List Fft1dLife × Heap :=
  let (fastF, h) := h.new (planKind (some .fftw3) nfast false) 1
  let (fastB, h) := h.new (planKind (some .fftw3) nfast true) 1
  let (slowF, h) := h.new (planKind (some .fftw3) nslow false) 1
  let (slowB, h) := h.new (planKind (some .fftw3) nslow true) 1
  ([⟨fast, nfast, fastF, fastB⟩, ⟨slow, nslow, slowF, slowB⟩], h)

/-- The two `new FFT1d`, fft2d.cpp:416-417, and `FFT2d::setup_ffts`. -/
def fftBlocks2 (lib : Option Package) (nfast nslow : Int) (h : Heap) : List Fft1dLife × Heap :=
  let (fast, h) := h.new .obj 1
  let (slow, h) := h.new .obj 1
  match lib with
  | none => sharedPlans2 none fast slow nfast nslow h
  | some .mkl => mklPlans2 fast slow nfast nslow h
  | some .fftw2 => sharedPlans2 (some .fftw2) fast slow nfast nslow h
  | some .fftw3 => fftw3Plans2 fast slow nfast nslow h

def setupFftsOf (lib : Option Package) (cls : Cls) (k : FSkel) (h : Heap) : List Fft1dLife × Heap :=
  match cls with
  | .d3 => fftBlocks3 lib k.nfast k.nmid k.nslow h
  | .d2 => fftBlocks2 lib k.nfast k.nslow h

/-- `FFT3d::deallocate_ffts` with KISS, fft3d.cpp:1695-1707, and with FFTW2, 1564-1576; with MKL, 1503-1508; with
FFTW3, 1627-1635. -/
def freePlans3 (lib : Option Package) (nfast nmid nslow : Int) (fast mid slow : Fft1dLife) : List Free :=
  match lib with
  | some .mkl => [planFree (some .mkl) fast.planF, planFree (some .mkl) mid.planF, planFree (some .mkl) slow.planF]
  | some .fftw3 => [planFree (some .fftw3) fast.planF, planFree (some .fftw3) fast.planB,
      planFree (some .fftw3) mid.planF, planFree (some .fftw3) mid.planB,
      planFree (some .fftw3) slow.planF, planFree (some .fftw3) slow.planB]
  | lib =>
      (if nslow ≠ nfast ∧ nslow ≠ nmid then [planFree lib slow.planF, planFree lib slow.planB] else []) ++
      (if nmid ≠ nfast then [planFree lib mid.planF, planFree lib mid.planB] else []) ++
      [planFree lib fast.planF, planFree lib fast.planB]

/-- `FFT2d::deallocate_ffts` with KISS, fft2d.cpp:1493-1501, and with FFTW2, 1386-1394; with MKL, 1339-1343; with
FFTW3, 1438-1444. -/
def freePlans2 (lib : Option Package) (nfast nslow : Int) (fast slow : Fft1dLife) : List Free :=
  match lib with
  | some .mkl => [planFree (some .mkl) fast.planF, planFree (some .mkl) slow.planF]
  | some .fftw3 => [planFree (some .fftw3) fast.planF, planFree (some .fftw3) fast.planB,
      planFree (some .fftw3) slow.planF, planFree (some .fftw3) slow.planB]
  | lib =>
      (if nslow ≠ nfast then [planFree lib slow.planF, planFree lib slow.planB] else []) ++
      [planFree lib fast.planF, planFree lib fast.planB]

/-- `deallocate_ffts` and the `delete fft_...` that follow it, fft3d.cpp:515-518 [481-483].  `none`: a null pointer
is dereferenced. -/
def freeFfts (lib : Option Package) (cls : Cls) (nfast nmid nslow : Int) (ffts : Option (List Fft1dLife)) :
    Option (List Free) :=
  match cls, ffts with
  | .d3, some [fast, mid, slow] => some (
      freePlans3 lib nfast nmid nslow fast mid slow ++ [.del fast.ptr, .del mid.ptr, .del slow.ptr])
  | .d2, some [fast, slow] => some (freePlans2 lib nfast nslow fast slow ++ [.del fast.ptr, .del slow.ptr])
  | _, _ => none

/-- `perform_ffts`, fft3d.cpp:1670-1684 [1468-1482] with KISS, 1491-1495 [1327-1331] with MKL, 1549-1553
[1371-1375] with FFTW2, 1611-1615 [1422-1426] with FFTW3: the plan must exist and be one of the package for the
length of the transform and for the direction. -/
def Fft1dLife.use (lib : Option Package) (flag : Int) (f : Fft1dLife) (h : Heap) : Option Unit := do
  let o ← h.get f.ptr
  let p ← h.get (if flag = 1 then f.planF else f.planB)
  if o.kind = .obj ∧ p.kind = planKind lib f.length (decide (flag ≠ 1)) then some () else none

def useFfts (lib : Option Package) (flag : Int) : List Fft1dLife → Heap → Option Unit
  | [], _ => some ()
  | f :: fs, h => do
    f.use lib flag h
    useFfts lib flag fs h

/-! ## Methods -/

/-- Class, sizes of types, 1d FFT package (`none`: KISS), and whether a call through a deleted `memory` is undefined (`Heap.freeAll`). -/
structure Cfg (A : Type) where
  cls : Cls
  z : TypeSizes
  plan : PlanFn A
  strict : Bool
  lib : Option Package

variable {A : Type}

namespace FftLife

/-- `FFT3d::setup`, fft3d.cpp:219-494 [227-463].  Only `FFT3d` checks `setupflag`. -/
def setup (C : Cfg A) (a : A) (s : FftLife) (h : Heap) : Option (Except LifeErr (FftLife × Heap)) :=
  if C.cls = .d3 ∧ s.setupflag = true then some (.error .setupTwice)
  else
    match C.plan a s.t.st with
    | none => none
    | some (.error _) => some (.error .badSetup)
    | some (.ok k) => do
      let (fwd, h) ← createPairs C.z s.t.st.packflag k.fwd s.fwd h
      let (inv, h) ← createPairs C.z s.t.st.packflag k.inv s.inv h
      let (ffts, h) := setupFftsOf C.lib C.cls k h
      let (sendbuf, h) ← h.mallocIf (s.t.memoryflag ≠ 0 ∧ k.sendsize ≠ 0) s.sendbuf (k.sendsize * C.z.scalar)
      let (recvbuf, h) ← h.mallocIf (s.t.memoryflag ≠ 0 ∧ k.recvsize ≠ 0) s.recvbuf (k.recvsize * C.z.scalar)
      some (.ok
        ({ s with
            setupflag := true
            setupMemoryFlag := if s.t.memoryflag ≠ 0 then true else s.setupMemoryFlag
            fwd, inv, ffts := some ffts, sendbuf, recvbuf
            memusage := (if s.t.memoryflag ≠ 0 then k.sendsize * C.z.scalar + k.recvsize * C.z.scalar else 0) +
              (pairsMemory fwd + pairsMemory inv)
            skel := some k }, h))

/-- The part of `deallocate_setup` that releases memory, fft3d.cpp:504-518 [473-483]. -/
def freeSetup (C : Cfg A) (s : FftLife) (h : Heap) : Option Heap := do
  let h ← destroyPairs C.strict s.fwd h
  let h ← destroyPairs C.strict s.inv h
  -- before `setup` the lengths are not assigned either
  let fs ← match s.skel with
    | none => none
    | some k => freeFfts C.lib C.cls k.nfast k.nmid k.nslow s.ffts
  h.freeAll C.strict s.memory fs

/-- `deallocate_setup`, fft3d.cpp:500-523 [469-488]. -/
def deallocateSetup (C : Cfg A) (s : FftLife) (h : Heap) : Option (FftLife × Heap) := do
  let h ← s.freeSetup C h
  some ({ s with setupflag := false, fwd := List.replicate C.cls.npairs none
                 inv := List.replicate C.cls.npairs none, ffts := none }, h)

/-- `setup_memory`, fft3d.cpp:530-538 [496-504]. -/
def setupMemory (sendbuf recvbuf : Ptr) (s : FftLife) : Except LifeErr FftLife :=
  if s.setupflag = false then .error .memoryBeforeSetup
  else if s.t.memoryflag ≠ 0 then .error .memoryWithFlag
  else .ok { s with setupMemoryFlag := true, sendbuf, recvbuf }

/-- `deallocate_setup_memory`, fft3d.cpp:545-551 [511-517]. -/
def deallocateSetupMemory (C : Cfg A) (s : FftLife) (h : Heap) : Option (FftLife × Heap) := do
  let h ← h.freeAll C.strict s.memory [.sfree s.sendbuf, .sfree s.recvbuf]
  some ({ s with setupMemoryFlag := false, sendbuf := .null, recvbuf := .null }, h)

/-- All remaps of a forward (`fwd`) or an inverse FFT. -/
def remaps (z : TypeSizes) (fwd : Bool) (s : FftLife) (h : Heap) : Option (Except LifeErr FftLife) :=
  if fwd then
    match usePairs z s.sendbuf s.recvbuf s.fwd h with
    | none => none
    | some (.error e) => some (.error e)
    | some (.ok ps) => some (.ok { s with fwd := ps })
  else
    match usePairs z s.sendbuf s.recvbuf s.inv h with
    | none => none
    | some (.error e) => some (.error e)
    | some (.ok ps) => some (.ok { s with inv := ps })

/-- The entry of a list of remaps that `only_one_remap` selects: number `which` in the list of a forward FFT,
and counted from the end in the list of an inverse FFT. -/
def select (cls : Cls) (fwd : Bool) (which : Int) : Option Nat :=
  if 1 ≤ which ∧ which ≤ cls.npairs then some (if fwd then (which - 1).toNat else (cls.npairs - which).toNat)
  else none

/-- The methods that work on data. -/
inductive Use where
  | compute (flag : Int)
  | only1d (flag : Int)
  | onlyRemaps (flag : Int)
  | onlyOneRemap (flag which : Int)

/-- What `compute` (fft3d.cpp:560-605 [526-565]), `only_1d_ffts` (614-622 [574-581]), `only_remaps` (633-661
[592-618]) and `only_one_remap` (673-704 [630-656]) use, after their checks. -/
def useData (C : Cfg A) (u : Use) (k : FSkel) (s : FftLife) (h : Heap) : Option (Except LifeErr FftLife) :=
  match u with
  | .compute flag => do
    if s.remaponly = 0 then
      let fs ← s.ffts
      useFfts C.lib flag fs h
    s.remaps C.z (decide (flag = 1) || k.same) h
  | .only1d flag => do
    let fs ← s.ffts
    useFfts C.lib flag fs h
    some (.ok s)
  | .onlyRemaps flag => s.remaps C.z (decide (flag = 1) || k.same) h
  | .onlyOneRemap flag which =>
    let fwd := decide (flag = 1) || k.same
    match select C.cls fwd which with
    | none => some (.ok s)
    | some i =>
      match (if fwd then s.fwd else s.inv)[i]? with
      | some (some p) =>
        match p.use C.z s.sendbuf s.recvbuf h with
        | none => none
        | some (.error e) => some (.error e)
        | some (.ok p) =>
          some (.ok (if fwd then { s with fwd := s.fwd.set i (some p) } else { s with inv := s.inv.set i (some p) }))
      | _ => some (.ok s)

/-- The methods with their checks: fft3d.cpp:562-563, 616, 635-637, 676-678 [528-529, 576, 594-596, 632-634]. -/
def use (C : Cfg A) (u : Use) (s : FftLife) (h : Heap) : Option (Except LifeErr FftLife) :=
  if s.setupflag = false then some (.error .beforeSetup)
  else
    let needs := match u with
      | .only1d _ => false
      | _ => true
    if needs = true ∧ s.setupMemoryFlag = false then some (.error .beforeSetupMemory)
    else do
      let k ← s.skel
      s.useData C u k h

def uses (C : Cfg A) : List Use → FftLife → Heap → Option (Except LifeErr FftLife)
  | [], s, _ => some (.ok s)
  | u :: us, s, h =>
    match s.use C u h with
    | none => none
    | some (.error e) => some (.error e)
    | some (.ok s) => FftLife.uses C us s h

/-! ## tune -/

/-- `for (int i = 0; i < nper; i++)` with one call, or with two if `flag` is 0. -/
def repeatUse (nper flag : Int) (u : Int → Use) : List Use :=
  (List.replicate nper.toNat (if flag ≠ 0 then [u flag] else [u 1, u (-1)])).flatten

/-- The calls of `tune_trial`, fft3d.cpp:1026-1101 [968-1040]. -/
def trialUses (cls : Cls) (nper flag tflag : Int) : List Use :=
  repeatUse nper flag .compute ++
  if tflag ≠ 0 then
    repeatUse nper flag .only1d ++ repeatUse nper flag .onlyRemaps ++
      ((List.range cls.npairs).map fun i => repeatUse nper flag fun f => .onlyOneRemap f (i + 1)).flatten
  else []

/-- The array `data` of `tune` and `maxfftsize`: growth, fft3d.cpp:774-779, 904-909, 947-952, and that the new
elements can be written. -/
def growData (z : TypeSizes) (fftsize : Int) (data : Ptr) (maxfftsize : Int) (h : Heap) :
    Option (Ptr × Int × Heap) :=
  if fftsize > maxfftsize then do
    let (data, h) ← h.srealloc data (fftsize * 2 * z.scalar)
    if h.usable data (2 * fftsize * z.scalar) then some (data, fftsize, h) else none
  else some (data, maxfftsize, h)

/-- The trials of `tune` one after the other: assign the settings, `setup`, grow `data`, `tune_trial`,
`deallocate_setup`, `deallocate_setup_memory`; fft3d.cpp:758-790, 894-916, 937-959. -/
def trials (C : Cfg A) (a : A) (flag : Int) : List Trial → Ptr → Int → FftLife → Heap →
    Option (Except LifeErr (FftLife × Ptr × Heap))
  | [], data, _, s, h => some (.ok (s, data, h))
  | q :: qs, data, maxfftsize, s, h =>
    match FftLife.setup C a { s with t := { s.t with st := q.st, memoryflag := q.memoryflag } } h with
    | none => none
    | some (.error e) => some (.error e)
    | some (.ok (s, h)) => do
      let k ← s.skel
      let (data, maxfftsize, h) ← growData C.z k.fftsize data maxfftsize h
      if h.usable data (2 * k.fftsize * C.z.scalar) then
        match s.uses C (trialUses C.cls q.niter flag q.tflag) h with
        | none => none
        | some (.error e) => some (.error e)
        | some (.ok s) => do
          let (s, h) ← s.deallocateSetup C h
          let (s, h) ← if s.t.memoryflag ≠ 0 then s.deallocateSetupMemory C h else some (s, h)
          FftLife.trials C a flag qs data maxfftsize s h
      else none

/-- `fftsize` as `tune` sees it. -/
def planSize (plan : PlanFn A) (a : A) (st : Settings) : Int :=
  match plan a st with
  | some (.ok k) => k.fftsize
  | _ => 0

/-- `FFT3d::tune`, fft3d.cpp:731-1013 [684-955].  Which trials are made is decided by `FftMpi.tune`; after
them `data` is released and the object set up with the settings found. -/
def tune (C : Cfg A) (a : A) (t : TuneArgs) (root own : Clock) (s : FftLife) (h : Heap) :
    Option (Except LifeErr (FftLife × Heap)) :=
  match tuneCheck s.setupflag t with
  | some .already => some (.error .tuneTwice)
  | some _ => some (.error .badTune)
  | none =>
    match C.plan a s.t.st with
    | none => none
    | some (.error _) => some (.error .badSetup)
    | some (.ok _) =>
      match FftMpi.tune (planSize C.plan a) root own s.setupflag t s.t with
      | none => none
      | some (.error _) => some (.error .badTune)
      | some (.ok r) =>
        match s.trials C a t.flag r.runs .null 0 h with
        | none => none
        | some (.error e) => some (.error e)
        | some (.ok (s, data, h)) => do
          let h ← h.freeAll C.strict s.memory [.sfree data]
          FftLife.setup C a { s with t := r } h

/-! ## Destructor -/

/-- `delete fft`: `~FFT3d`, fft3d.cpp:184-194, `~FFT2d`, fft2d.cpp:177-204, then the object. -/
def destroy (C : Cfg A) (s : FftLife) (h : Heap) : Option Heap := do
  let h ← h.freeAll C.strict s.memory [.del s.memory, .del s.error, .delArr s.primes, .delArr s.factors]
  let (s, h) ← match C.cls with
    | .d3 => if s.setupflag then s.deallocateSetup C h else some (s, h)
    | .d2 => (s.freeSetup C h).map fun h => (s, h)
  let (s, h) ← if s.t.memoryflag ≠ 0 then s.deallocateSetupMemory C h else some (s, h)
  h.free (.del s.this)

/-! ## Histories -/

/-- The public members that the caller may assign, fft3d.h:33-38. -/
inductive Member where
  | collective
  | exchange
  | packflag
  | memoryflag
  | scaled
  | remaponly
deriving DecidableEq, Repr

def assign (m : Member) (v : Int) (s : FftLife) : FftLife :=
  match m with
  | .collective => { s with t := { s.t with st := { s.t.st with collective := v } } }
  | .exchange => { s with t := { s.t with st := { s.t.st with exchange := v } } }
  | .packflag => { s with t := { s.t with st := { s.t.st with packflag := v } } }
  | .memoryflag => { s with t := { s.t with memoryflag := v } }
  | .scaled => { s with scaled := v }
  | .remaponly => { s with remaponly := v }

/-- What a program can do with an object. -/
inductive Call (A : Type) where
  | assign (m : Member) (v : Int)
  | setup (a : A)
  | setupMemory (sendbuf recvbuf : Ptr)
  | use (u : Use)
  | tune (a : A) (t : TuneArgs) (root own : Clock)

def call (C : Cfg A) (c : Call A) (s : FftLife) (h : Heap) : Option (Except LifeErr (FftLife × Heap)) :=
  match c with
  | .assign m v => some (.ok (s.assign m v, h))
  | .setup a => s.setup C a h
  | .setupMemory sb rb =>
    match s.setupMemory sb rb with
    | .error e => some (.error e)
    | .ok s => some (.ok (s, h))
  | .use u =>
    match s.use C u h with
    | none => none
    | some (.error e) => some (.error e)
    | some (.ok s) => some (.ok (s, h))
  | .tune a t root own => s.tune C a t root own h

/-- A history of calls; `error->all` ends the program. -/
def calls (C : Cfg A) : List (Call A) → FftLife → Heap → Option (Except LifeErr (FftLife × Heap))
  | [], s, h => some (.ok (s, h))
  | c :: cs, s, h =>
    match s.call C c h with
    | none => none
    | some (.error e) => some (.error e)
    | some (.ok (s, h)) => FftLife.calls C cs s h

end FftLife

/-! ## The plan of `FFT3d` -/

def RemapPair.pskel (P : Nat) (p : RemapPair ℝ) : PSkel where
  main := p.remap3d.obj.skel P
  mainColl := p.remap3d.collective
  extra := p.extra.map fun x => (x.obj.skel P, x.collective)

/-- The numbers of a set up `FFT3d` on `P` ranks. -/
def Fft3.fskel (P : Nat) (a : Args3) (f : Fft3 ℝ) : FSkel where
  same := f.same
  fwd := [f.prefast, f.fastmid, f.midslow, f.postslow].map (Option.map (RemapPair.pskel P))
  inv := [f.preslow, f.slowmid, f.midfast, f.postfast].map (Option.map (RemapPair.pskel P))
  nfast := a.nfast
  nmid := a.nmid
  nslow := a.nslow
  fftsize := f.fftsize
  sendsize := f.sendsize
  recvsize := f.recvsize

/-- `setup` of `FFT3d` on rank `me` of `P`. -/
noncomputable def plan3 (P me : Nat) : PlanFn Args3 := fun a st =>
  (fft3Setup (α := ℝ) P me a st).map fun
    | .error e => .error e
    | .ok f => .ok (f.fskel P a)

end FftMpi
