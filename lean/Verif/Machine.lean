import Verif.Pack3dLemmas

/-!
# A concurrent machine for MPI programs

Every rank runs a list of instructions.  The machine is the model of the MPI calls made by
`Remap3d::remap` / `Remap2d::remap` (remap3d.cpp:641-710, remap2d.cpp:594-663) plus arbitrary
local code in between.

* Point to point messages between two ranks are delivered in the order they were sent (MPI
  non-overtaking rule; one communicator and one tag are used).
* `MPI_Send` copies the send buffer into the channel and then blocks.  With `eager = true` the
  MPI library may let it return at any time (buffering), with `eager = false` it only returns
  once a matching receive has been posted (synchronous mode, the strictest behaviour MPI allows).
* `MPI_Irecv` hands the memory region of the receive to the MPI library: until the request
  completes the region is inaccessible to the program.
* `MPI_Waitany` may return any request whose message has been sent.
* `MPI_Alltoallv` is split into sending one (possibly empty) block to every member of the
  communicator and then waiting for one block of every member.  A member that does not take part
  therefore blocks the others for ever.
* Errors (access outside an allocation, reuse of an active request, message of the wrong length,
  waiting without an active request, negative counts) leave the rank without a step.

Simplification: a message is a list of values; the type `α` is the element type `FFT_SCALAR`.
-/

namespace FftMpi

variable {α : Type}

/-- Memory of one rank: user arrays, send buffer and receive buffer. -/
@[ext] structure LMem (α : Type) where
  ub : Nat → Mem α
  sb : Mem α
  rb : Mem α

/-- An active receive request. -/
structure Req where
  id : Nat
  src : Nat
  loc : Int
  size : Int
deriving DecidableEq, Repr

/-- Communicators: the one passed by the user, and the ones made by `MPI_Comm_create` for a
list of ranks (remap3d.cpp:504-509); `inst` numbers the calls. -/
inductive Comm where
  | world
  | sub (inst : Nat) (group : List Nat)
deriving DecidableEq, Repr

/-- Instructions of a rank. -/
inductive Instr (α : Type) where
  /-- `MPI_Irecv(&recvbuf[loc],size,...,src,0,world,&request[id])` -/
  | irecv (id src : Nat) (loc size : Int)
  /-- `MPI_Send(sendbuf,size,...,dst,0,world)` -/
  | send (dst : Nat) (size : Int)
  /-- local code -/
  | loc (f : LMem α → Option (LMem α))
  /-- `n` times: `MPI_Waitany(...,&irecv,...)` followed by the local code `unp irecv` -/
  | waitany (n : Nat) (unp : Nat → LMem α → Option (LMem α))
  /-- the part of `MPI_Alltoallv` that sends `sendbuf[off..off+cnt)` to `dst` -/
  | post (inst : Nat) (group : List Nat) (dst : Nat) (off cnt : Int)
  /-- the part of `MPI_Alltoallv` that receives `recvbuf[off..off+cnt)` from `src` -/
  | take (inst : Nat) (group : List Nat) (src : Nat) (off cnt : Int)

/-- State of one rank.  `blocked = some d`: inside an `MPI_Send` to rank `d`. -/
@[ext] structure RankSt (α : Type) where
  prog : List (Instr α)
  mem : LMem α
  reqs : List Req
  blocked : Option Nat

/-- A channel: communicator, sender, receiver. -/
abbrev Key := Comm × Nat × Nat

/-- State of the whole machine. -/
@[ext] structure Config (α : Type) where
  rank : Nat → RankSt α
  chan : Key → List (List α)

/-- All indices `off, ..., off+cnt-1` may be accessed. -/
def accessible (m : Mem α) (off cnt : Int) : Prop := ∀ a, off ≤ a → a < off + cnt → (m a).isSome

instance (m : Mem α) (off cnt : Int) : Decidable (accessible m off cnt) :=
  decidable_of_iff (∀ t ∈ irange cnt, (m (off + t)).isSome) (by
    unfold accessible
    constructor
    · intro h a h1 h2
      have := h (a - off) (mem_irange.mpr (by omega))
      simpa using this
    · intro h t ht
      rw [mem_irange] at ht
      exact h _ (by omega) (by omega))

/-- Read `m[off], ..., m[off+k-1]`. -/
def readN (m : Mem α) (off : Int) : Nat → Option (List α)
  | 0 => some []
  | k+1 => (m off).bind fun v => (readN m (off+1) k).map (v :: ·)

/-- Read a block; negative counts are an error. -/
def readBlk (m : Mem α) (off cnt : Int) : Option (List α) :=
  if cnt < 0 then none else readN m off cnt.toNat

/-- The memory after the MPI library has stored the message `v` at `off`. -/
def storeBlk (m : Mem α) (off : Int) (v : List α) : Mem α :=
  fun a => if off ≤ a ∧ a < off + v.length then v[(a - off).toNat]? else m a

/-- The memory while the region is owned by the MPI library. -/
def hideBlk (m : Mem α) (off cnt : Int) : Mem α :=
  fun a => if off ≤ a ∧ a < off + cnt then none else m a

/-- What a rank wants to do next. -/
inductive Action (α : Type) where
  | tau (st : RankSt α)
  | push (c : Comm) (dst : Nat) (v : List α) (st : RankSt α)
  | pop (c : Comm) (src : Nat) (k : List α → Option (RankSt α))
  | sync (dst : Nat) (st : RankSt α)

/-- Completion of a receive followed by the local code that consumes it. -/
def finish (unp : Nat → LMem α → Option (LMem α)) (q : Req) (v : List α) (m : LMem α) :
    Option (LMem α) :=
  if (v.length : Int) = q.size then unp q.id { m with rb := storeBlk m.rb q.loc v } else none

/-- The next action of a rank; `ch` is the request `MPI_Waitany` picks. -/
def act (st : RankSt α) (ch : Nat) : Option (Action α) :=
  match st.blocked with
  | some dst => some (.sync dst { st with blocked := none })
  | none =>
    match st.prog with
    | [] => none
    | .irecv id src loc size :: rest =>
      if 0 ≤ size ∧ accessible st.mem.rb loc size ∧ ∀ q ∈ st.reqs, q.id ≠ id ∧ q.src ≠ src then
        some (.tau { st with
          prog := rest
          mem := { st.mem with rb := hideBlk st.mem.rb loc size }
          reqs := st.reqs ++ [⟨id, src, loc, size⟩] })
      else none
    | .send dst size :: rest =>
      (readBlk st.mem.sb 0 size).map fun v =>
        .push .world dst v { st with prog := rest, blocked := some dst }
    | .loc f :: rest => (f st.mem).map fun m => .tau { st with prog := rest, mem := m }
    | .waitany 0 _ :: rest => some (.tau { st with prog := rest })
    | .waitany (n+1) unp :: rest =>
      (st.reqs.find? fun q => q.id = ch).map fun q =>
        .pop .world q.src fun v => (finish unp q v st.mem).map fun m =>
          { st with
            prog := .waitany n unp :: rest
            mem := m
            reqs := st.reqs.filter fun q => q.id ≠ ch }
    | .post inst group dst off cnt :: rest =>
      (readBlk st.mem.sb off cnt).map fun v =>
        .push (.sub inst group) dst v { st with prog := rest }
    | .take inst group src off cnt :: rest =>
      some (.pop (.sub inst group) src fun v =>
        if (v.length : Int) = cnt ∧ accessible st.mem.rb off cnt then
          some { st with prog := rest, mem := { st.mem with rb := storeBlk st.mem.rb off v } }
        else none)

/-- Number of active receives of `st` from rank `r`. -/
def posted (st : RankSt α) (r : Nat) : Nat := st.reqs.countP fun q => q.src = r

/-- One step of rank `r`; `none` when it cannot move. -/
def step (eager : Bool) (c : Config α) (r ch : Nat) : Option (Config α) :=
  match act (c.rank r) ch with
  | none => none
  | some (.tau st) => some { c with rank := Function.update c.rank r st }
  | some (.push cm dst v st) =>
    some { rank := Function.update c.rank r st,
           chan := Function.update c.chan (cm, r, dst) (c.chan (cm, r, dst) ++ [v]) }
  | some (.pop cm src k) =>
    match c.chan (cm, src, r) with
    | [] => none
    | v :: vs => (k v).map fun st =>
      { rank := Function.update c.rank r st,
        chan := Function.update c.chan (cm, src, r) vs }
  | some (.sync dst st) =>
    if eager = true ∨ (c.chan (.world, r, dst)).length ≤ posted (c.rank dst) r then
      some { c with rank := Function.update c.rank r st }
    else none

/-- Executions of exactly `n` steps, under any schedule. -/
inductive Run (eager : Bool) : Nat → Config α → Config α → Prop where
  | refl (c) : Run eager 0 c c
  | step {n c c' c''} (r ch : Nat) (h : step eager c r ch = some c') (t : Run eager n c' c'') :
      Run eager (n+1) c c''

/-- Every rank has returned from all its calls. -/
def Final (c : Config α) : Prop := ∀ r, (c.rank r).prog = [] ∧ (c.rank r).blocked = none

theorem Run.trans {eager : Bool} {n m : Nat} {a b c : Config α}
    (h1 : Run eager n a b) (h2 : Run eager m b c) : Run eager (n + m) a c := by
  induction h1 with
  | refl => simpa using h2
  | step r ch h _ ih =>
    have := Run.step r ch h (ih h2)
    rwa [show ∀ a b : Nat, a + 1 + b = a + b + 1 by omega]

/-- Two completions can be done in either order. -/
def FinishComm (unp : Nat → LMem α → Option (LMem α)) (q1 q2 : Req) : Prop :=
  ∀ v1 v2 m m1 m2, finish unp q1 v1 m = some m1 → finish unp q2 v2 m = some m2 →
    ∃ m3, finish unp q2 v2 m1 = some m3 ∧ finish unp q1 v1 m2 = some m3

/-- Whether the code for `q2` works does not depend on `q1` having been completed before. -/
def FinishBack (unp : Nat → LMem α → Option (LMem α)) (q1 q2 : Req) : Prop :=
  ∀ v1 v2 m m1, finish unp q1 v1 m = some m1 → (finish unp q2 v2 m1).isSome →
    (finish unp q2 v2 m).isSome

/-- Programs whose `waitany` loops wait for exactly the active requests and whose unpack
operations may be reordered.  `rs` are the requests active at the start. -/
def ProgOK : List Req → List (Instr α) → Prop
  | rs, [] => rs = []
  | rs, .irecv id src loc size :: p => ProgOK (rs ++ [⟨id, src, loc, size⟩]) p
  | rs, .waitany n unp :: p =>
    n = rs.length ∧ (∀ q1 ∈ rs, ∀ q2 ∈ rs, q1.id ≠ q2.id →
      FinishComm unp q1 q2 ∧ FinishBack unp q1 q2) ∧ ProgOK [] p
  | rs, .send _ _ :: p => ProgOK rs p
  | rs, .loc _ :: p => ProgOK rs p
  | rs, .post _ _ _ _ _ :: p => ProgOK rs p
  | rs, .take _ _ _ _ _ :: p => ProgOK rs p

/-- The invariant of reachable rank states. -/
structure RankOK (st : RankSt α) : Prop where
  prog : ProgOK st.reqs st.prog
  ids : (st.reqs.map Req.id).Nodup
  srcs : (st.reqs.map Req.src).Nodup

end FftMpi
