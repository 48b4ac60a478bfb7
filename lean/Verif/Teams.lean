import Verif.Stage

/-!
# Calls on communicators with some of the ranks

The communicator that the user passes to the constructor (fft3d.cpp:113-117, fft2d.cpp:113-117, remap3d.cpp:67-71,
remap2d.cpp:67-71) may have any of the ranks, in any order.  The library calls `MPI_Comm_rank` and `MPI_Comm_size` on it and
names ranks by their number in it.  The machine of `Machine` names ranks by their number among all ranks, so a program for the
ranks of a communicator has to be renamed.

Simplification: the messages on all communicators that the user passes go through the same channels.  In MPI communicators keep
messages apart, so in the model messages could be confused that cannot be confused in reality.
-/

namespace FftMpi

variable {α : Type}

/-- The number among all ranks of rank `r` of the communicator with the ranks `g`.  (Numbers from the size of the communicator
on are no ranks; they get numbers that are no ranks either, there are `P`.) -/
def place (P : Nat) (g : List Nat) (r : Nat) : Nat := if h : r < g.length then g[r] else r + P

/-- An instruction with other names of the ranks. -/
def Instr.rename (σ : Nat → Nat) : Instr α → Instr α
  | .irecv id src at_ size => .irecv id (σ src) at_ size
  | .send dst size => .send (σ dst) size
  | .loc f => .loc f
  | .waitany n unp => .waitany n unp
  | .post inst group dst off cnt => .post inst (group.map σ) (σ dst) off cnt
  | .take inst group src off cnt => .take inst (group.map σ) (σ src) off cnt

/-- What rank `x` of `P` does if the ranks `g` run the programs `prog`, numbered as in their communicator: the other ranks do
nothing. -/
def onTeam (P : Nat) (g : List Nat) (prog : Nat → List (Instr α)) (x : Nat) : List (Instr α) :=
  if x ∈ g then (prog (g.idxOf x)).map (Instr.rename (place P g)) else []

/-- The memories as numbered in the communicator. -/
def seenBy (P : Nat) (g : List Nat) (m : Nat → LMem α) (r : Nat) : LMem α := m (place P g r)

end FftMpi
