import Mathlib.Logic.Function.Basic
import Mathlib.Data.List.Basic

/-!
# Who prints when in the test programs

In `output` the ranks print one after the other: each waits for an empty message of the rank before it, and sends one to
the rank after it when it is done.  Here a rank is the list of its actions that matter for the order of the lines.

Simplifications: the line that a call of `printf` writes appears at that moment (the streams of the ranks are one file and
not buffered).  Messages inside of the FFT are left out; they are all received before `compute` returns (C04, C13).
`MPI_Allreduce` at the end of `validate` is a barrier.  All messages here have length 0 and go to the next rank, so that the
messages on the way from a rank to the next are a number.
-/

namespace FftMpi

variable {T : Type}

/-- An action of a rank. -/
inductive OutAct (T : Type) where
  /-- `printf` of a line -/
  | print (x : T)
  /-- `MPI_Send(&tmp,0,MPI_INT,me+1,0,world)` -/
  | send
  /-- `MPI_Recv(&tmp,0,MPI_INT,me-1,0,world,...)` -/
  | recv
  /-- `MPI_Barrier(world)` -/
  | barrier

/-- The programs that the ranks still have to run, the number of messages on the way from rank `r` to rank `r+1`, and the
lines printed so far. -/
structure OutSt (T : Type) where
  prog : Nat → List (OutAct T)
  chan : Nat → Nat
  log : List T

/-- A step.  `e = true`: `MPI_Send` may return before the message is received (MPI may choose for each call). -/
inductive OutStep (e : Bool) (P : Nat) : OutSt T → OutSt T → Prop where
  | print {s : OutSt T} {r : Nat} {x : T} {p : List (OutAct T)} (hr : r < P) (h : s.prog r = .print x :: p) :
      OutStep e P s ⟨Function.update s.prog r p, s.chan, s.log ++ [x]⟩
  | send {s : OutSt T} {r : Nat} {p : List (OutAct T)} (he : e = true) (hr : r + 1 < P) (h : s.prog r = .send :: p) :
      OutStep e P s ⟨Function.update s.prog r p, Function.update s.chan r (s.chan r + 1), s.log⟩
  | recv {s : OutSt T} {r n : Nat} {p : List (OutAct T)} (hr : r + 1 < P) (h : s.prog (r + 1) = .recv :: p)
      (hn : s.chan r = n + 1) :
      OutStep e P s ⟨Function.update s.prog (r + 1) p, Function.update s.chan r n, s.log⟩
  | sync {s : OutSt T} {r : Nat} {p q : List (OutAct T)} (hr : r + 1 < P) (h : s.prog r = .send :: p)
      (h' : s.prog (r + 1) = .recv :: q) (hn : s.chan r = 0) :
      OutStep e P s ⟨Function.update (Function.update s.prog r p) (r + 1) q, s.chan, s.log⟩
  | barrier {s : OutSt T} {p : Nat → List (OutAct T)} (hP : 0 < P) (h : ∀ r < P, s.prog r = .barrier :: p r) :
      OutStep e P s ⟨fun r => if r < P then p r else s.prog r, s.chan, s.log⟩

/-- An execution of `n` steps. -/
inductive OutRun (e : Bool) (P : Nat) : Nat → OutSt T → OutSt T → Prop where
  | done (s : OutSt T) : OutRun e P 0 s s
  | step {n : Nat} {s t u : OutSt T} (h : OutStep e P s t) (k : OutRun e P n t u) : OutRun e P (n + 1) s u

/-- All ranks have ended, and no message is left over. -/
def OutSt.Final (P : Nat) (s : OutSt T) : Prop := (∀ r < P, s.prog r = []) ∧ ∀ r, r + 1 < P → s.chan r = 0

def outStart (p : Nat → List (OutAct T)) : OutSt T := ⟨p, fun _ => 0, []⟩

/-- Under every schedule all ranks end, and what is printed has property `Q`. -/
def OutEnds (e : Bool) (P : Nat) (s : OutSt T) (Q : List T → Prop) : Prop :=
  (∃ N, ∀ n t, OutRun e P n s t → n ≤ N) ∧
  ∀ n t, OutRun e P n s t → (t.Final P ∧ Q t.log) ∨ ∃ u, OutStep e P t u

/-! ## The programs -/

/-- The part of `output` between the receive and the send, test3d.cpp:676-712; test2d.cpp:612-638; test3d_f90.f90:709-741;
test2d_f90.f90:631-657. -/
def outBody (P r : Nat) (lines : List T) : List (OutAct T) :=
  (if 1 ≤ r then [.recv] else []) ++ lines.map .print ++ if r + 1 < P then [.send] else []

/-- `output` of rank `r`, test3d.cpp:668-714; test2d.cpp:604-640: `lines` are those that the rank prints. -/
def outputC (P r : Nat) (title lines : List T) : List (OutAct T) :=
  (if r = 0 then title.map .print else []) ++ (List.range P).flatMap fun iproc => if r ≠ iproc then [] else outBody P r lines

/-- `output` of rank `r` in Fortran, test3d_f90.f90:705-742; test2d_f90.f90:627-658: `continue` does nothing. -/
def outputF (P r : Nat) (title lines : List T) : List (OutAct T) :=
  (if r = 0 then title.map .print else []) ++ (List.range P).flatMap fun _ => outBody P r lines

/-- The test programs with `-o`, test3d.cpp:217-254; test2d.cpp:216-253: `-v` if `v`, `-t` if `t`, with
`nb` barriers in `timing` (9 in test3d.cpp, 8 in test2d.cpp); `report` are the lines of `timing`. -/
def testOut (P nb : Nat) (v t : Bool) (title title' : List T) (lines lines' : Nat → List T) (report : List T) (r : Nat) :
    List (OutAct T) :=
  [.barrier] ++ outputC P r title (lines r) ++ [.barrier] ++ [.barrier] ++ (if v then [.barrier] else []) ++
    outputC P r title' (lines' r) ++ (if t then List.replicate nb .barrier else []) ++
    if r = 0 then report.map .print else []

end FftMpi
