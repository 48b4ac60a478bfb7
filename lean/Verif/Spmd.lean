import Mathlib.Data.List.Nodup
import Mathlib.Logic.Function.Basic

/-!
# Collective calls on the communicator of the user

In `setup` of the four classes the ranks talk to each other only through collective calls on `world`:
`MPI_Allreduce`, `MPI_Allgather`, `MPI_Comm_create`, and `MPI_Barrier` in `Error::all` (error.cpp:39).  Here a rank is
a program of its own, which knows its own arguments and the answers to its calls.  `answer` is what MPI gives; it is
defined only if all ranks make the same call.  `stepC` is the concurrent execution: a call returns only when all ranks
have made theirs, the strictest behaviour that MPI allows.

Simplification: extents of boxes (`struct extent_3d`, sent as bytes) are values of a type `E`.
-/

namespace FftMpi

variable {E ρ σ τ : Type}

/-- A collective call with what the rank gives. -/
inductive CollOp (E : Type) where
  /-- `MPI_Allreduce(&x,...,1,MPI_INT,MPI_MAX,world)` -/
  | max (x : Int)
  /-- `MPI_Allreduce(&x,...,1,MPI_FFT_BIGINT,MPI_SUM,world)` -/
  | sum (x : Int)
  /-- `MPI_Allgather(&e,sizeof(e),MPI_BYTE,...,world)` -/
  | gather (e : E)
  /-- `MPI_Comm_create(world,group,&newcomm)` with the ranks of `group` -/
  | create (group : List Nat)
  /-- `MPI_Barrier(world)` -/
  | barrier

/-- What the call returns.  A new communicator is the list of its ranks, `MPI_COMM_NULL` is `none`. -/
def CollOp.Reply : CollOp E → Type
  | .max _ => Int
  | .sum _ => Int
  | .gather _ => Nat → E
  | .create _ => Option (List Nat)
  | .barrier => Unit

/-- A rank's program. `ub`: undefined behaviour of the local code. -/
inductive Spmd (E ρ : Type) where
  | ret (x : ρ)
  | ub
  | call (c : CollOp E) (k : c.Reply → Spmd E ρ)

namespace Spmd

protected def bind : Spmd E ρ → (ρ → Spmd E σ) → Spmd E σ
  | .ret x, f => f x
  | .ub, _ => .ub
  | .call c k, f => .call c fun a => Spmd.bind (k a) f

instance : Monad (Spmd E) where
  pure := .ret
  bind := Spmd.bind

/-- Local code, `none` if it is undefined. -/
def lift : Option ρ → Spmd E ρ
  | some x => .ret x
  | none => .ub

end Spmd

namespace CollOp

/-- The operation without the data. -/
inductive Kind where
  | max | sum | gather | create | barrier
deriving DecidableEq

def kind : CollOp E → Kind
  | .max _ => .max
  | .sum _ => .sum
  | .gather _ => .gather
  | .create _ => .create
  | .barrier => .barrier

/-- The number that a rank gives to a reduction. -/
def num : CollOp E → Int
  | .max x => x
  | .sum x => x
  | _ => 0

/-- The extent that a rank gives to `MPI_Allgather`; `d` for other calls. -/
def ext (d : E) : CollOp E → E
  | .gather e => e
  | _ => d

/-- The group that a rank gives to `MPI_Comm_create`. -/
def grp : CollOp E → List Nat
  | .create g => g
  | _ => []

/-- All `P` ranks make the same kind of call. -/
def Match (P : Nat) (c : Nat → CollOp E) (k : Kind) : Prop := ∀ q < P, (c q).kind = k

instance (P : Nat) (c : Nat → CollOp E) (k : Kind) : Decidable (Match P c k) := by unfold Match; infer_instance

/-- The groups are a legal argument of `MPI_Comm_create`: lists of different ranks, and all members of a group give the
same list (MPI standard, section on communicator constructors: otherwise the call is erroneous). -/
def Groups (P : Nat) (g : Nat → List Nat) : Prop := ∀ q < P, (g q).Nodup ∧ ∀ p ∈ g q, p < P ∧ g p = g q

instance (P : Nat) (g : Nat → List Nat) : Decidable (Groups P g) := by unfold Groups; infer_instance

/-- The largest of `f 0, ..., f (P-1)`; there is at least one rank. -/
def maxOf (f : Nat → Int) : Nat → Int
  | 0 => 0
  | 1 => f 0
  | P + 2 => Max.max (maxOf f (P + 1)) (f (P + 1))

/-- What rank `me`, whose call is `mine`, gets if rank `q` makes the call `c q`.  `none`: the calls do not fit
together. -/
def answer (P : Nat) (c : Nat → CollOp E) (me : Nat) : (mine : CollOp E) → Option mine.Reply
  | .max _ => if Match P c .max then some (maxOf (fun q => (c q).num) P) else none
  | .sum _ => if Match P c .sum then some ((List.range P).map fun q => (c q).num).sum else none
  | .gather e => if Match P c .gather then some (fun q => if q < P then (c q).ext e else e) else none
  | .create g => if Match P c .create ∧ Groups P (fun q => (c q).grp) then
      some (if me ∈ g then some g else none) else none
  | .barrier => if Match P c .barrier then some () else none

end CollOp

/-! ## Concurrent execution -/

/-- State of a rank: its program, the calls that it has made, and whether it waits for the last of them. -/
structure RankC (E ρ : Type) where
  prog : Spmd E ρ
  hist : List (CollOp E)
  waiting : Bool

/-- Rank `r` waits for its last call and all ranks have made that call. -/
def ReadyC (P : Nat) (s : Nat → RankC E ρ) (r : Nat) : Prop :=
  (s r).waiting = true ∧ ∀ q < P, (s r).hist.length ≤ (s q).hist.length

instance (P : Nat) (s : Nat → RankC E ρ) (r : Nat) : Decidable (ReadyC P s r) := by unfold ReadyC; infer_instance

/-- A step of rank `r`: it makes a call, or a call returns. -/
def stepC (P : Nat) (s : Nat → RankC E ρ) (r : Nat) : Option (Nat → RankC E ρ) :=
  match (s r).prog with
  | .ret _ => none
  | .ub => none
  | .call c k =>
    if (s r).waiting = false then
      some (Function.update s r { s r with hist := (s r).hist ++ [c], waiting := true })
    else if ReadyC P s r then
      (CollOp.answer P (fun q => (s q).hist.getD ((s r).hist.length - 1) c) r c).map fun a =>
        Function.update s r { s r with prog := k a, waiting := false }
    else none

/-- Executions of `n` steps of the `P` ranks. -/
inductive RunC (P : Nat) : Nat → (Nat → RankC E ρ) → (Nat → RankC E ρ) → Prop where
  | refl (s) : RunC P 0 s s
  | step {n s t u} (r : Nat) (hr : r < P) (h : stepC P s r = some t) (q : RunC P n t u) : RunC P (n + 1) s u

/-- All ranks at the start of their programs. -/
def startC (p : Nat → Spmd E ρ) : Nat → RankC E ρ := fun r => ⟨p r, [], false⟩

/-- Under every schedule the ranks return the values `x`: executions are bounded; as long as some rank has not returned,
some rank can make a step; calls that all ranks have made fit together; and at the end rank `r` has returned `x r`. -/
def Returns (P : Nat) (p : Nat → Spmd E ρ) (x : Nat → ρ) : Prop :=
  (∃ N, ∀ n t, RunC P n (startC p) t → n ≤ N) ∧
  ∀ n t, RunC P n (startC p) t →
    ((∀ r < P, (t r).prog = .ret (x r)) ∨ ∃ r < P, (stepC P t r).isSome) ∧
    ∀ r < P, (t r).prog ≠ .ub ∧ (∀ y, (t r).prog = .ret y → y = x r) ∧ (ReadyC P t r → (stepC P t r).isSome)

end FftMpi
