import Verif.Heap
import Verif.RemapCore

/-!
# Life cycle of `Remap3d` and `Remap2d`

Constructor, memory allocation of `setup`, the memory that `remap` uses, destructor.  The two classes have the
same text here up to the types of extents and plans, whose sizes are parameters; line numbers are those of
remap3d.cpp, those of remap2d.cpp are in brackets where they differ.

A member that the constructor leaves unassigned is an `Option`, `none` until it is assigned; reading it before
has no defined result.
-/

namespace FftMpi

/-- `sizeof` of the types of which arrays are allocated. -/
structure TypeSizes where
  int : Int
  extent : Int
  plan : Int
  /-- `MPI_Request` -/
  request : Int
  /-- `MPI_Request *` -/
  requestPtr : Int
  scalar : Int

/-- Sizes of types are positive. -/
structure TypeSizes.Pos (z : TypeSizes) : Prop where
  int : 0 < z.int
  extent : 0 < z.extent
  plan : 0 < z.plan
  request : 0 < z.request
  requestPtr : 0 < z.requestPtr
  scalar : 0 < z.scalar

/-- The numbers on which the allocations depend: `nprocs`; the number of sends and receives with self included;
`nsend` and `nrecv` as they are after setup; `ngroup`; `newcomm != MPI_COMM_NULL`; the buffer sizes. -/
structure RSkel where
  nprocs : Nat
  nsendAll : Nat
  nrecvAll : Nat
  nsend : Nat
  nrecv : Nat
  ngroup : Nat
  inGroup : Bool
  sendsize : Int
  recvsize : Int

/-- The numbers of a remap object. -/
def RemapObj.skel {α π : Type} (nprocs : Nat) (o : RemapObj α π) : RSkel where
  nprocs := nprocs
  nsendAll := o.sends.length
  nrecvAll := o.recvs.length
  nsend := o.nsend
  nrecv := o.nrecv
  ngroup := match o.coll with
    | none => 0
    | some c => c.pgroup.length
  inGroup := match o.coll with
    | none => false
    | some c => c.newcomm
  sendsize := o.sendsize
  recvsize := o.recvsize

/-- Members of `Remap3d` (remap3d.h:27-85) that point to memory, and the flags that decide about it.  `this` is
the object itself, `skel` the numbers that `setup` stored. -/
structure RemapLife where
  this : Ptr
  collective : Int
  packflag : Int
  setupflag : Bool
  memoryflag : Option Int
  memory : Ptr
  error : Ptr
  send_offset : Ptr
  send_size : Ptr
  send_proc : Ptr
  packplan : Ptr
  recv_offset : Ptr
  recv_size : Ptr
  recv_proc : Ptr
  recv_bufloc : Ptr
  request : Ptr
  unpackplan : Ptr
  pgroup : Option Ptr
  newcomm : Option Ptr
  sendcnts : Option Ptr
  senddispls : Option Ptr
  sendmap : Option Ptr
  recvcnts : Option Ptr
  recvdispls : Option Ptr
  recvmap : Option Ptr
  sendbuf : Ptr
  recvbuf : Ptr
  memusage : Int
  skel : Option RSkel

/-- `new Remap3d(world)`: the object and its constructor, remap3d.cpp:67-97. -/
def RemapLife.create (h : Heap) : RemapLife × Heap :=
  let (this, h) := h.new .obj 1
  let (memory, h) := h.new .obj 1
  let (error, h) := h.new .obj 1
  ({ this, collective := 1, packflag := 0, setupflag := false, memoryflag := none, memory, error
     send_offset := .null, send_size := .null, send_proc := .null, packplan := .null
     recv_offset := .null, recv_size := .null, recv_proc := .null, recv_bufloc := .null
     request := .null, unpackplan := .null
     pgroup := none, newcomm := none
     sendcnts := none, senddispls := none, sendmap := none
     recvcnts := none, recvdispls := none, recvmap := none
     sendbuf := .null, recvbuf := .null, memusage := 0, skel := none }, h)

/-- `if (c) p = memory->smalloc(n)`. -/
def Heap.mallocIf (h : Heap) (c : Prop) [Decidable c] (p : Ptr) (n : Int) : Option (Ptr × Heap) :=
  if c then h.smalloc n else some (p, h)

/-- `memusage`, remap3d.cpp:586-612 [539-565]. -/
def remapMemusage (z : TypeSizes) (k : RSkel) (memoryflag collective : Int) : Int :=
  let m : Int := 0
  let m := m + 3 * k.nsend * z.int
  let m := m + k.nsend * z.plan
  let m := m + 4 * k.nrecv * z.int
  let m := m + k.nrecv * z.requestPtr
  let m := m + k.nrecv * z.plan
  let m := if memoryflag ≠ 0 then m + k.sendsize * z.scalar + k.recvsize * z.scalar else m
  if collective ≠ 0 then m + 7 * k.ngroup * z.int else m

/-- The arrays for both kinds of communication, remap3d.cpp:240-252, 299-343 [227-239, 283-313]. -/
def RemapLife.setupLists (z : TypeSizes) (k : RSkel) (r : RemapLife) (h : Heap) : Option (RemapLife × Heap) := do
  let (send_offset, h) ← h.mallocIf (k.nsendAll ≠ 0) r.send_offset (k.nsendAll * z.int)
  let (send_size, h) ← h.mallocIf (k.nsendAll ≠ 0) r.send_size (k.nsendAll * z.int)
  let (send_proc, h) ← h.mallocIf (k.nsendAll ≠ 0) r.send_proc (k.nsendAll * z.int)
  let (packplan, h) ← h.mallocIf (k.nsendAll ≠ 0) r.packplan (k.nsendAll * z.plan)
  let (recv_offset, h) ← h.mallocIf (k.nrecvAll ≠ 0) r.recv_offset (k.nrecvAll * z.int)
  let (recv_size, h) ← h.mallocIf (k.nrecvAll ≠ 0) r.recv_size (k.nrecvAll * z.int)
  let (recv_proc, h) ← h.mallocIf (k.nrecvAll ≠ 0) r.recv_proc (k.nrecvAll * z.int)
  let (recv_bufloc, h) ← h.mallocIf (k.nrecvAll ≠ 0) r.recv_bufloc (k.nrecvAll * z.int)
  let (request, h) ← h.mallocIf (k.nrecvAll ≠ 0) r.request (k.nrecvAll * z.request)
  let (unpackplan, h) ← h.mallocIf (k.nrecvAll ≠ 0) r.unpackplan (k.nrecvAll * z.plan)
  some ({ r with send_offset, send_size, send_proc, packplan, recv_offset, recv_size, recv_proc, recv_bufloc,
                 request, unpackplan }, h)

/-- The buffers, remap3d.cpp:419-426 and 514-521 [372-379, 467-474]. -/
def RemapLife.setupBufs (z : TypeSizes) (k : RSkel) (memoryflag : Int) (r : RemapLife) (h : Heap) :
    Option (RemapLife × Heap) := do
  let (sendbuf, h) ← h.mallocIf (memoryflag ≠ 0 ∧ k.sendsize ≠ 0) r.sendbuf (k.sendsize * z.scalar)
  let (recvbuf, h) ← h.mallocIf (memoryflag ≠ 0 ∧ k.recvsize ≠ 0) r.recvbuf (k.recvsize * z.scalar)
  some ({ r with sendbuf, recvbuf }, h)

/-- `pgroup` and `newcomm`, remap3d.cpp:438-441, 493, 499-508 [391-394, 446, 452-461]: `pflag` is a temporary
array, `pgroup` is allocated for all ranks and then reallocated.  The two `MPI_Group`s are freed at once and
left out. -/
def RemapLife.setupGroup (z : TypeSizes) (k : RSkel) (r : RemapLife) (h : Heap) : Option (RemapLife × Heap) := do
  let (pflag, h) ← h.smalloc (k.nprocs * z.int)
  let (pgroup, h) ← h.smalloc (k.nprocs * z.int)
  let (pgroup, h) ← h.srealloc pgroup (k.ngroup * z.int)
  let h ← h.free (.sfree pflag)
  let (newcomm, h) := if k.inGroup then h.new .comm 0 else (.null, h)
  some ({ r with pgroup := some pgroup, newcomm := some newcomm }, h)

/-- The arguments of `MPI_Alltoallv`, remap3d.cpp:523-528 [476-481]. -/
def RemapLife.setupArgs (z : TypeSizes) (k : RSkel) (r : RemapLife) (h : Heap) : Option (RemapLife × Heap) := do
  let (sendcnts, h) ← h.smalloc (z.int * k.ngroup)
  let (senddispls, h) ← h.smalloc (z.int * k.ngroup)
  let (sendmap, h) ← h.smalloc (z.int * k.ngroup)
  let (recvcnts, h) ← h.smalloc (z.int * k.ngroup)
  let (recvdispls, h) ← h.smalloc (z.int * k.ngroup)
  let (recvmap, h) ← h.smalloc (z.int * k.ngroup)
  some ({ r with sendcnts := some sendcnts, senddispls := some senddispls, sendmap := some sendmap
                 recvcnts := some recvcnts, recvdispls := some recvdispls, recvmap := some recvmap }, h)

/-- The memory side of `Remap3d::setup`, remap3d.cpp:173-613 [170-566]; `k` are the numbers that it computes
(`RemapObj.skel` of `remapSetup`). -/
def RemapLife.setup (z : TypeSizes) (k : RSkel) (memoryflag : Int) (r : RemapLife) (h : Heap) :
    Option (RemapLife × Heap) := do
  let (inarray, h) ← h.smalloc (k.nprocs * z.extent)
  let (outarray, h) ← h.smalloc (k.nprocs * z.extent)
  let (r, h) ← r.setupLists z k h
  let (r, h) ←
    if r.collective = 0 then r.setupBufs z k memoryflag h
    else do
      let (r, h) ← r.setupGroup z k h
      let (r, h) ← r.setupBufs z k memoryflag h
      r.setupArgs z k h
  let h ← h.free (.sfree inarray)
  let h ← h.free (.sfree outarray)
  some ({ r with setupflag := true, memoryflag := some memoryflag
                 memusage := remapMemusage z k memoryflag r.collective, skel := some k }, h)

/-- `setup` with the arguments of all ranks; `remapSetup` reads the members `collective` and `packflag`. -/
def RemapLife.setupWith {α E π : Type} (D : Dim α E π) (nprocs me : Nat) (ins outs : Nat → E)
    (nqty permute memoryflag : Int) (z : TypeSizes) (r : RemapLife) (h : Heap) : Option (RemapLife × Heap) :=
  (remapSetup D nprocs me ins outs nqty permute r.packflag (decide (r.collective ≠ 0))).bind fun o =>
    r.setup z (o.skel nprocs) memoryflag h

/-- `p` points to an existing array of at least `n` bytes, or nothing is needed. -/
def Heap.usable (h : Heap) (p : Ptr) (n : Int) : Bool :=
  decide (n ≤ 0) ||
    match p with
    | .null => false
    | .user m => decide (n ≤ m)
    | .blk _ => match h.get p with
      | none => false
      | some b => decide (b.kind = .mem) && decide (n ≤ b.bytes)

/-- What `error->all` and `error->one` report. -/
inductive LifeErr where
  | remapBeforeSetup
  | setupTwice
  | tuneTwice
  | badSetup
  | badTune
  | memoryBeforeSetup
  | memoryWithFlag
  | beforeSetup
  | beforeSetupMemory
deriving DecidableEq, Repr

/-- The memory that the two branches of `Remap3d::remap` use, remap3d.cpp:641-710 [594-663].  The branch depends
on the member `collective` at the time of the call. -/
def RemapLife.uses (z : TypeSizes) (k : RSkel) (r : RemapLife) (h : Heap) : Option Unit :=
  let lists :=
    h.usable r.send_offset (k.nsend * z.int) && h.usable r.send_size (k.nsend * z.int) &&
    h.usable r.send_proc (k.nsend * z.int) && h.usable r.packplan (k.nsend * z.plan) &&
    h.usable r.recv_offset (k.nrecv * z.int) && h.usable r.recv_size (k.nrecv * z.int) &&
    h.usable r.recv_proc (k.nrecv * z.int) && h.usable r.recv_bufloc (k.nrecv * z.int) &&
    h.usable r.request (k.nrecv * z.request) && h.usable r.unpackplan (k.nrecv * z.plan)
  let bufs := h.usable r.sendbuf (k.sendsize * z.scalar) && h.usable r.recvbuf (k.recvsize * z.scalar)
  if r.collective = 0 then
    if lists && bufs then some () else none
  else do
    let newcomm ← r.newcomm
    let a1 ← r.sendcnts
    let a2 ← r.senddispls
    let a3 ← r.sendmap
    let a4 ← r.recvcnts
    let a5 ← r.recvdispls
    let a6 ← r.recvmap
    let args := [a1, a2, a3, a4, a5, a6].all fun p => h.usable p (z.int * k.ngroup)
    let comm := match newcomm with
      | .null => true
      | p => (h.get p).any fun b => b.kind = .comm
    if lists && bufs && args && comm then some () else none

/-- `Remap3d::remap` as far as memory is concerned, remap3d.cpp:629-711 [582-664].  Result `none`: something
that does not exist is used.  If the library does not provide the buffers it remembers those of the caller
(636-639 [589-592]). -/
def RemapLife.remap (z : TypeSizes) (user_sendbuf user_recvbuf : Ptr) (r : RemapLife) (h : Heap) :
    Option (Except LifeErr RemapLife) :=
  if r.setupflag = false then some (.error .remapBeforeSetup)
  else do
    let memoryflag ← r.memoryflag
    let k ← r.skel
    let r := if memoryflag = 0 then { r with sendbuf := user_sendbuf, recvbuf := user_recvbuf } else r
    r.uses z k h
    some (.ok r)

/-- Uses of an object after `setup`: assignment to the two public members (remap3d.h:29-30) and `remap`. -/
inductive RCall where
  | collective (v : Int)
  | packflag (v : Int)
  | remap (sendbuf recvbuf : Ptr)

def RemapLife.call (z : TypeSizes) (c : RCall) (r : RemapLife) (h : Heap) : Option (Except LifeErr RemapLife) :=
  match c with
  | .collective v => some (.ok { r with collective := v })
  | .packflag v => some (.ok { r with packflag := v })
  | .remap sb rb => r.remap z sb rb h

/-- Calls one after the other; an error ends the program. -/
def RemapLife.calls (z : TypeSizes) : List RCall → RemapLife → Heap → Option (Except LifeErr RemapLife)
  | [], r, _ => some (.ok r)
  | c :: cs, r, h =>
    match r.call z c h with
    | none => none
    | some (.error e) => some (.error e)
    | some (.ok r) => RemapLife.calls z cs r h

/-- What `~Remap3d` releases, in its order, remap3d.cpp:103-147. -/
def RemapLife.frees (r : RemapLife) : Option (List Free) := do
  let group ←
    if r.collective ≠ 0 then do
      let newcomm ← r.newcomm
      let pgroup ← r.pgroup
      some [.commFree newcomm, .sfree pgroup]
    else some []
  let lists : List Free :=
    [.sfree r.send_offset, .sfree r.send_size, .sfree r.send_proc, .sfree r.packplan,
     .sfree r.recv_offset, .sfree r.recv_size, .sfree r.recv_proc, .sfree r.recv_bufloc, .sfree r.request,
     .sfree r.unpackplan]
  let args ←
    if r.collective ≠ 0 then do
      let sendcnts ← r.sendcnts
      let recvcnts ← r.recvcnts
      let senddispls ← r.senddispls
      let recvdispls ← r.recvdispls
      let recvmap ← r.recvmap
      let sendmap ← r.sendmap
      some [.sfree sendcnts, .sfree recvcnts, .sfree senddispls, .sfree recvdispls, .sfree recvmap,
        .sfree sendmap]
    else some []
  let memoryflag ← r.memoryflag
  let bufs : List Free := if memoryflag ≠ 0 then [.sfree r.sendbuf, .sfree r.recvbuf] else []
  some ([.del r.memory, .del r.error] ++ group ++ lists ++ args ++ bufs)

/-- `delete remap`: the destructor, then the object. -/
def RemapLife.destroy (strict : Bool) (r : RemapLife) (h : Heap) : Option Heap := do
  let fs ← r.frees
  h.freeAll strict r.memory (fs ++ [.del r.this])

end FftMpi
