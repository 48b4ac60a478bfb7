import Verif.Lifecycle

/-!
# Allocations that fail

The models of `RemapLife` and `Lifecycle` get every block that they ask for.  Here each request may be denied.
The requests of a rank are numbered in the order in which they are made, `Oracle` says which of them succeed.

What a denied request does:
* `posix_memalign` in `Memory::smalloc`, `realloc` in `Memory::srealloc` and `malloc` in kissfft.h give a null
  pointer.  Whether anybody looks at it is up to the caller;
* `new` throws `std::bad_alloc`, which nobody in the library catches: the program ends (`Stop.badAlloc`).

Three outcomes of a piece of code: undefined behaviour, the end of the program, or a result.  Use of an array is
modelled by `touch`, which is undefined if there is something to be read or written and the pointer is null (that
blocks are large enough is the business of `RemapLife` and of C03, C24, C25, C47).  Memory that the MPI library
takes for itself is left out.  1d FFTs are those of KISS, with temporary memory from `malloc`.  The line numbers
are those of remap3d.cpp and fft3d.cpp, those of remap2d.cpp and fft2d.cpp are in brackets.
-/

namespace FftMpi

/-- How the library ends the program. -/
inductive Stop where
  /-- `Error::one`, error.cpp:55-61: a message, then `MPI_Abort`, which ends all ranks -/
  | message (s : String)
  /-- an exception that nobody catches -/
  | badAlloc
deriving DecidableEq, Repr

inductive Out (α : Type) where
  | ub
  | stop (e : Stop)
  | ok (a : α)

/-- Number of a request, granted or not. -/
abbrev Oracle := Nat → Bool

/-- Heap, and number of requests made so far. -/
structure AHeap where
  heap : Heap
  asked : Nat

/-- After a request that was denied.  A denied request uses up a name of a block, so that names do not depend on
what was granted; names have no other meaning. -/
def AHeap.denied (s : AHeap) : AHeap := ⟨{ s.heap with next := s.heap.next + 1 }, s.asked + 1⟩

/-- Code that asks for memory. -/
def Al (α : Type) := Oracle → AHeap → Out (α × AHeap)

namespace Al

variable {α β : Type}

def pure (a : α) : Al α := fun _ s => .ok (a, s)

def bind (m : Al α) (f : α → Al β) : Al β := fun g s =>
  match m g s with
  | .ub => .ub
  | .stop e => .stop e
  | .ok (a, s) => f a g s

instance : Monad Al where
  pure := pure
  bind := bind

/-- `new` -/
def new (k : Kind) (bytes : Int) : Al Ptr := fun g s =>
  if g s.asked = true then .ok ((s.heap.new k bytes).1, ⟨(s.heap.new k bytes).2, s.asked + 1⟩)
  else .stop .badAlloc

/-- `malloc`, or another function that gives a null pointer if it fails. -/
def request (k : Kind) (bytes : Int) : Al Ptr := fun g s =>
  if g s.asked = true then .ok ((s.heap.new k bytes).1, ⟨(s.heap.new k bytes).2, s.asked + 1⟩)
  else .ok (.null, s.denied)

/-- `Memory::smalloc`, memory.cpp:43-62.  A negative number of bytes is converted to a huge `size_t`, which
`posix_memalign` never grants. -/
def smalloc (n : Int) : Al Ptr := fun g s =>
  if n = 0 then .ok (.null, s)
  else if n < 0 then .ok (.null, s.denied)
  else request .mem n g s

/-- `if (c) p = memory->smalloc(n)` -/
def mallocIf (c : Prop) [Decidable c] (p : Ptr) (n : Int) : Al Ptr := if c then smalloc n else pure p

/-- `Memory::sfree`, memory.cpp:95-107 -/
def sfree (p : Ptr) : Al Unit := fun _ s =>
  match s.heap.free (.sfree p) with
  | none => .ub
  | some h => .ok ((), { s with heap := h })

/-- `realloc(p,n)` with `n` not 0.  A denied request leaves the old block alone; the callers of `srealloc` then have
no pointer to it any more. -/
def realloc (p : Ptr) (n : Int) : Al Ptr := fun g s =>
  if 0 < n ∧ g s.asked = true then
    match s.heap.free (.sfree p) with
    | none => .ub
    | some h => .ok ((h.new .mem n).1, ⟨(h.new .mem n).2, s.asked + 1⟩)
  else .ok (.null, s.denied)

/-- `Memory::srealloc`, memory.cpp:68-91, without the aligned variants for the Intel compiler. -/
def srealloc (p : Ptr) (n : Int) : Al Ptr :=
  if n = 0 then do
    sfree p
    pure .null
  else realloc p n

/-- `if (!ok) error->one(msg)` -/
def demand (ok : Bool) (msg : String) : Al Unit := fun _ s => if ok then .ok ((), s) else .stop (.message msg)

/-- `n` bytes at `p` are read or written. -/
def touch (p : Ptr) (n : Int) : Al Unit := fun _ s => if 0 < n ∧ p = .null then .ub else .ok ((), s)

/-- Work on the heap that asks for no memory of the program. -/
def onHeap (f : Heap → α × Heap) : Al α := fun _ s => .ok ((f s.heap).1, { s with heap := (f s.heap).2 })

end Al

/-- Not a null pointer. -/
def Ptr.given (p : Ptr) : Bool := decide (p ≠ .null)

/-! ## Remaps -/

namespace RemapLife

/-- The lists of sends, remap3d.cpp:240-274 [227-258]: allocated, checked, filled. -/
def sendListsA (z : TypeSizes) (k : RSkel) (r : RemapLife) : Al RemapLife := do
  let send_offset ← Al.mallocIf (k.nsendAll ≠ 0) r.send_offset (k.nsendAll * z.int)
  let send_size ← Al.mallocIf (k.nsendAll ≠ 0) r.send_size (k.nsendAll * z.int)
  let send_proc ← Al.mallocIf (k.nsendAll ≠ 0) r.send_proc (k.nsendAll * z.int)
  let packplan ← Al.mallocIf (k.nsendAll ≠ 0) r.packplan (k.nsendAll * z.plan)
  Al.demand (k.nsendAll == 0 || (send_offset.given && send_size.given && send_proc.given && packplan.given))
    "Could not allocate remap send info"
  Al.touch send_proc (k.nsendAll * z.int)
  Al.touch send_offset (k.nsendAll * z.int)
  Al.touch packplan (k.nsendAll * z.plan)
  Al.touch send_size (k.nsendAll * z.int)
  return { r with send_offset, send_size, send_proc, packplan }

/-- The lists of receives, remap3d.cpp:299-396 [283-349]. -/
def recvListsA (z : TypeSizes) (k : RSkel) (r : RemapLife) : Al RemapLife := do
  let recv_offset ← Al.mallocIf (k.nrecvAll ≠ 0) r.recv_offset (k.nrecvAll * z.int)
  let recv_size ← Al.mallocIf (k.nrecvAll ≠ 0) r.recv_size (k.nrecvAll * z.int)
  let recv_proc ← Al.mallocIf (k.nrecvAll ≠ 0) r.recv_proc (k.nrecvAll * z.int)
  let recv_bufloc ← Al.mallocIf (k.nrecvAll ≠ 0) r.recv_bufloc (k.nrecvAll * z.int)
  let request ← Al.mallocIf (k.nrecvAll ≠ 0) r.request (k.nrecvAll * z.request)
  let unpackplan ← Al.mallocIf (k.nrecvAll ≠ 0) r.unpackplan (k.nrecvAll * z.plan)
  Al.demand (k.nrecvAll == 0 || (recv_offset.given && recv_size.given && recv_proc.given && recv_bufloc.given &&
    request.given && unpackplan.given)) "Could not allocate remap recv info"
  Al.touch recv_proc (k.nrecvAll * z.int)
  Al.touch recv_bufloc (k.nrecvAll * z.int)
  Al.touch recv_offset (k.nrecvAll * z.int)
  Al.touch unpackplan (k.nrecvAll * z.plan)
  Al.touch recv_size (k.nrecvAll * z.int)
  return { r with recv_offset, recv_size, recv_proc, recv_bufloc, request, unpackplan }

/-- The buffers, remap3d.cpp:419-426 and 518-525 [372-379, 471-478].  Nothing is stored in them yet. -/
def bufsA (z : TypeSizes) (k : RSkel) (memoryflag : Int) (r : RemapLife) : Al RemapLife := do
  let sendbuf ← Al.mallocIf (memoryflag ≠ 0 ∧ k.sendsize ≠ 0) r.sendbuf (k.sendsize * z.scalar)
  Al.demand (!decide (memoryflag ≠ 0 ∧ k.sendsize ≠ 0) || sendbuf.given) "Could not allocate sendbuf array"
  let recvbuf ← Al.mallocIf (memoryflag ≠ 0 ∧ k.recvsize ≠ 0) r.recvbuf (k.recvsize * z.scalar)
  Al.demand (!decide (memoryflag ≠ 0 ∧ k.recvsize ≠ 0) || recvbuf.given) "Could not allocate recvbuf array"
  return { r with sendbuf, recvbuf }

/-- `pflag`, `pgroup` and `newcomm`, remap3d.cpp:438-508 [391-461].  None of the three requests is checked.  All
ranks' entries of `pflag` are set; `pgroup` gets `ngroup` entries, and the same number again after `srealloc`. -/
def groupA (z : TypeSizes) (k : RSkel) (r : RemapLife) : Al RemapLife := do
  let pflag ← Al.smalloc (k.nprocs * z.int)
  Al.touch pflag (k.nprocs * z.int)
  let pgroup ← Al.smalloc (k.nprocs * z.int)
  Al.touch pgroup (k.ngroup * z.int)
  let pgroup ← Al.srealloc pgroup (k.ngroup * z.int)
  Al.touch pgroup (k.ngroup * z.int)
  Al.sfree pflag
  let newcomm ← Al.onHeap fun h => if k.inGroup then h.new .comm 0 else (.null, h)
  return { r with pgroup := some pgroup, newcomm := some newcomm }

/-- The arguments of `MPI_Alltoallv`, remap3d.cpp:527-575 [480-528]. -/
def argsA (z : TypeSizes) (k : RSkel) (r : RemapLife) : Al RemapLife := do
  let sendcnts ← Al.smalloc (z.int * k.ngroup)
  let senddispls ← Al.smalloc (z.int * k.ngroup)
  let sendmap ← Al.smalloc (z.int * k.ngroup)
  let recvcnts ← Al.smalloc (z.int * k.ngroup)
  let recvdispls ← Al.smalloc (z.int * k.ngroup)
  let recvmap ← Al.smalloc (z.int * k.ngroup)
  Al.demand ((sendcnts.given && senddispls.given && sendmap.given && recvcnts.given && recvdispls.given &&
    recvmap.given) || k.ngroup == 0) "Could not allocate all2all args"
  Al.touch sendcnts (z.int * k.ngroup)
  Al.touch senddispls (z.int * k.ngroup)
  Al.touch sendmap (z.int * k.ngroup)
  Al.touch recvcnts (z.int * k.ngroup)
  Al.touch recvdispls (z.int * k.ngroup)
  Al.touch recvmap (z.int * k.ngroup)
  return { r with sendcnts := some sendcnts, senddispls := some senddispls, sendmap := some sendmap
                  recvcnts := some recvcnts, recvdispls := some recvdispls, recvmap := some recvmap }

/-- `Remap3d::setup`, remap3d.cpp:173-613 [170-566], with the requests for memory and the uses of the arrays;
compare `RemapLife.setup`. -/
def setupA (z : TypeSizes) (k : RSkel) (memoryflag : Int) (r : RemapLife) : Al RemapLife := do
  let inarray ← Al.smalloc (k.nprocs * z.extent)
  Al.demand inarray.given "Could not allocate inarray"
  let outarray ← Al.smalloc (k.nprocs * z.extent)
  Al.demand outarray.given "Could not allocate outarray"
  Al.touch outarray (k.nprocs * z.extent)
  let r ← r.sendListsA z k
  Al.touch inarray (k.nprocs * z.extent)
  let r ← r.recvListsA z k
  let r ← (
    if r.collective = 0 then r.bufsA z k memoryflag
    else do
      let r ← r.groupA z k
      let r ← r.bufsA z k memoryflag
      r.argsA z k)
  Al.sfree inarray
  Al.sfree outarray
  return { r with setupflag := true, memoryflag := some memoryflag
                  memusage := remapMemusage z k memoryflag r.collective, skel := some k }

/-- `new Remap3d(world)`: the object and its constructor, remap3d.cpp:67-97. -/
def createA : Al RemapLife := do
  let this ← Al.new .obj 1
  let memory ← Al.new .obj 1
  let error ← Al.new .obj 1
  return { this, collective := 1, packflag := 0, setupflag := false, memoryflag := none, memory, error
           send_offset := .null, send_size := .null, send_proc := .null, packplan := .null
           recv_offset := .null, recv_size := .null, recv_proc := .null, recv_bufloc := .null
           request := .null, unpackplan := .null
           pgroup := none, newcomm := none
           sendcnts := none, senddispls := none, sendmap := none
           recvcnts := none, recvdispls := none, recvmap := none
           sendbuf := .null, recvbuf := .null, memusage := 0, skel := none }

end RemapLife

/-! ## FFTs -/

/-- As `newRemapOf`. -/
def newRemapOfA (z : TypeSizes) (packflag : Int) (k : RSkel) (coll : Bool) : Al RemapLife := do
  let r ← RemapLife.createA
  RemapLife.setupA z k 0 { r with collective := if coll then 1 else 0, packflag }

/-- As `PairLife.create`, e.g. fft3d.cpp:1163-1195 [1102-1135]. -/
def PairLife.createA (z : TypeSizes) (packflag : Int) (k : PSkel) : Al PairLife := do
  let ptr ← Al.new .obj 1
  let remap ← newRemapOfA z packflag k.main k.mainColl
  match k.extra with
  | none => return { ptr, remap, extra := none }
  | some (ke, ce) => do
    let x ← newRemapOfA z packflag ke ce
    return { ptr, remap, extra := some x }

/-- As `createPairs`: `remap_forward_create` or `remap_inverse_create`. -/
def createPairsA (z : TypeSizes) (packflag : Int) : List (Option PSkel) → List (Option PairLife) →
    Al (List (Option PairLife))
  | none :: ks, o :: os => do
    let ps ← createPairsA z packflag ks os
    return o :: ps
  | some k :: ks, _ :: os => do
    let p ← PairLife.createA z packflag k
    let ps ← createPairsA z packflag ks os
    return some p :: ps
  | _, os => return os

/-- `kiss_fft_alloc(n,inverse,NULL,NULL)`, kissfft.h:435-464: a null pointer if `malloc` fails. -/
def kissAllocA (n : Int) (inverse : Bool) : Al Ptr := Al.request (.plan n inverse) 1

/-- The three `new FFT1d`, fft3d.cpp:443-445, and `FFT3d::setup_ffts`, 1643-1668: the plans are not checked. -/
def fftBlocks3A (nfast nmid nslow : Int) : Al (List Fft1dLife) := do
  let fast ← Al.new .obj 1
  let mid ← Al.new .obj 1
  let slow ← Al.new .obj 1
  let fastF ← kissAllocA nfast false
  let fastB ← kissAllocA nfast true
  let (midF, midB) ← (
    if nmid = nfast then pure (fastF, fastB)
    else do
      let f ← kissAllocA nmid false
      let b ← kissAllocA nmid true
      pure (f, b))
  let (slowF, slowB) ← (
    if nslow = nfast then pure (fastF, fastB)
    else if nslow = nmid then pure (midF, midB)
    else do
      let f ← kissAllocA nslow false
      let b ← kissAllocA nslow true
      pure (f, b))
  return [⟨fast, nfast, fastF, fastB⟩, ⟨mid, nmid, midF, midB⟩, ⟨slow, nslow, slowF, slowB⟩]

/-- The two `new FFT1d`, fft2d.cpp:416-417, and `FFT2d::setup_ffts`, 1452-1466. -/
def fftBlocks2A (nfast nslow : Int) : Al (List Fft1dLife) := do
  let fast ← Al.new .obj 1
  let slow ← Al.new .obj 1
  let fastF ← kissAllocA nfast false
  let fastB ← kissAllocA nfast true
  let (slowF, slowB) ← (
    if nslow = nfast then pure (fastF, fastB)
    else do
      let f ← kissAllocA nslow false
      let b ← kissAllocA nslow true
      pure (f, b))
  return [⟨fast, nfast, fastF, fastB⟩, ⟨slow, nslow, slowF, slowB⟩]

def setupFftsA (cls : Cls) (k : FSkel) : Al (List Fft1dLife) :=
  match cls with
  | .d3 => fftBlocks3A k.nfast k.nmid k.nslow
  | .d2 => fftBlocks2A k.nfast k.nslow

namespace FftLife

variable {A : Type}

/-- The buffers, fft3d.cpp:466-476 [435-445]. -/
def bufsA (z : TypeSizes) (k : FSkel) (s : FftLife) : Al (Ptr × Ptr) := do
  let sendbuf ← Al.mallocIf (s.t.memoryflag ≠ 0 ∧ k.sendsize ≠ 0) s.sendbuf (k.sendsize * z.scalar)
  Al.demand (!decide (s.t.memoryflag ≠ 0 ∧ k.sendsize ≠ 0) || sendbuf.given) "Could not allocate sendbuf array"
  let recvbuf ← Al.mallocIf (s.t.memoryflag ≠ 0 ∧ k.recvsize ≠ 0) s.recvbuf (k.recvsize * z.scalar)
  Al.demand (!decide (s.t.memoryflag ≠ 0 ∧ k.recvsize ≠ 0) || recvbuf.given) "Could not allocate recvbuf array"
  return (sendbuf, recvbuf)

/-- `FFT3d::setup` after its checks, fft3d.cpp:410-494 [392-463]; `k` is what it computes. -/
def buildA (cls : Cls) (z : TypeSizes) (k : FSkel) (s : FftLife) : Al FftLife := do
  let fwd ← createPairsA z s.t.st.packflag k.fwd s.fwd
  let inv ← createPairsA z s.t.st.packflag k.inv s.inv
  let ffts ← setupFftsA cls k
  let (sendbuf, recvbuf) ← s.bufsA z k
  return { s with
    setupflag := true
    setupMemoryFlag := if s.t.memoryflag ≠ 0 then true else s.setupMemoryFlag
    fwd, inv, ffts := some ffts, sendbuf, recvbuf
    memusage := (if s.t.memoryflag ≠ 0 then k.sendsize * z.scalar + k.recvsize * z.scalar else 0) +
      (pairsMemory fwd + pairsMemory inv)
    skel := some k }

end FftLife

/-- A temporary array: asked for, not checked, filled, released. -/
def tempA (bytes : Int) (work : Al Unit) : Al Unit := do
  let p ← Al.request .mem bytes
  Al.touch p bytes
  work
  Al.sfree p

def timesA : Nat → Al Unit → Al Unit
  | 0, _ => return ()
  | n + 1, m => do
    m
    timesA n m

/-- `kf_work`, kissfft.h:362-397: of the butterflies only `kf_bfly_generic` asks for memory, `p` complex numbers of `c`
bytes each, kissfft.h:337-359. -/
def workA (c : Int) : List (Nat × Nat) → Al Unit
  | [] => fun _ _ => .ub
  | (p, m) :: rest =>
    (if m = 1 then pure () else timesA p (workA c rest)) >>= fun _ =>
      if p = 2 ∨ p = 3 ∨ p = 4 ∨ p = 5 then pure () else tempA (p * c) (pure ())

/-- `kiss_fft(plan,x,x)`, kissfft.h:464-480: the length `n` and the factors are read from the plan; input and output
are the same array, so the result goes to a temporary array of `n` complex numbers. -/
def kissInPlaceA (plan : Ptr) (c : Int) (n : Nat) (factors : List (Nat × Nat)) : Al Unit := do
  Al.touch plan 1
  tempA (n * c) (workA c factors)

/-- `perform_ffts` on some lines, fft3d.cpp:1670-1684 [1468-1482]; `plan` is that of the direction. -/
def performA (plan : Ptr) (c : Int) (n : Nat) (factors : List (Nat × Nat)) (lines : Nat) : Al Unit :=
  timesA lines (kissInPlaceA plan c n factors)

/-- The array `data` of `tune`, fft3d.cpp:774-779, 904-909, 947-952 [725-730, 853-858, 893-898]: grown, not checked,
and the new elements set. -/
def growDataA (z : TypeSizes) (fftsize : Int) (data : Ptr) (maxfftsize : Int) : Al (Ptr × Int) :=
  if fftsize > maxfftsize then do
    let data ← Al.srealloc data (fftsize * 2 * z.scalar)
    Al.touch data (2 * fftsize * z.scalar - 2 * maxfftsize * z.scalar)
    return (data, fftsize)
  else return (data, maxfftsize)

end FftMpi
