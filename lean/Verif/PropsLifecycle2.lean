import Verif.PropsLifecycle
import Verif.LifecyclePlan2

/-!
# Properties C30 and C47 for `FFT2d` with its `setup`
-/

namespace FftMpi

open FftLife

/-- **C30 for `FFT2d`, part**: the first call that comes in the wrong order (or has wrong arguments) stops with its
error, and otherwise all calls return; the arguments of `setup` are valid or `setup` rejects them (`FineArgs2`, see
`argsOK2`).

Missing: a second `setup`, which is not detected (`C30_fft2d_setup_false`); deleted `memory`, see
`C30_fft_partial`; builds in single precision. -/
theorem C30_fft2d_partial {lib : Option Package} {P me : Nat} {z : TypeSizes} (hz : z.Pos) {h : Heap} (hw : h.WF)
    {cs : List (Call Args2)} (hg : GoodHistory (cfg2 lib P me z) (bad2 P) cs h) :
    match firstError (bad2 P) [] cs with
    | some e => runHistory (cfg2 lib P me z) cs h = some (.error e)
    | none => ∃ s h', runHistory (cfg2 lib P me z) cs h = some (.ok (s, h')) :=
  C30_fft_partial rfl hz hw hg

/-- **C47 for `FFT2d`, part**: once `setup` or `tune` has been called, the destructor releases everything that the
object has made, each block once, and exactly the blocks from before are left.

Missing: as in `C47_fft_partial`. -/
theorem C47_fft2d_partial {lib : Option Package} {P me : Nat} {z : TypeSizes} (hz : z.Pos) {h : Heap} (hw : h.WF)
    {cs : List (Call Args2)} (hg : GoodHistory (cfg2 lib P me z) (bad2 P) cs h) (he : firstError (bad2 P) [] cs = none)
    (h2 : planned cs = true) (hf : (sincePlan cs).any Call.flags = false) :
    ∃ s h1 h2, runHistory (cfg2 lib P me z) cs h = some (.ok (s, h1)) ∧ s.destroy (cfg2 lib P me z) h1 = some h2 ∧
      h2.live.Perm h.live :=
  C47_fft_partial rfl hz hw hg he (fun _ => h2) hf

/-- Example: bricks, uses in both directions. -/
def plane2Calls (p : Int) : List (Call Args2) :=
  [.assign .exchange 1, .setup (plane2 p), .use (.compute 1), .use (.compute (-1)), .use (.onlyOneRemap 1 2)]

theorem plane2_good {lib : Option Package} {me : Nat} (hme : me < 2) {p : Int} (hp : p = 0 ∨ p = 1) (h : Heap) :
    GoodHistory (cfg2 lib 2 me z64) (bad2 2) (plane2Calls p) h := by
  have ha := argsOK2 (lib := lib) hme z64 (Or.inr (plane2_valid p hp))
  refine ⟨⟨by decide, by decide⟩, fun s1 h1 e1 => ⟨⟨ha, fun _ => ?_⟩, fun _ _ _ => ⟨trivial, fun _ _ _ => ⟨trivial,
      fun _ _ _ => ⟨trivial, fun _ _ _ => trivial⟩⟩⟩⟩⟩
  simp only [FftLife.call, Option.some.injEq, Except.ok.injEq, Prod.mk.injEq] at e1
  rw [← e1.1]
  rfl

theorem plane2_firstError {p : Int} (hp : p = 0 ∨ p = 1) : firstError (bad2 2) [] (plane2Calls p) = none := by
  have hb : bad2 2 (plane2 p) = false := by
    simp [bad2, (plane2_valid p hp).check]
  simp [plane2Calls, firstError, expected, planned, buffered, flagAt, beforePlan, Call.plans, Call.passes, hb]

example {lib : Option Package} {me : Nat} (hme : me < 2) : ∃ s h', runHistory (cfg2 lib 2 me z64) (plane2Calls 1) Heap.empty =
    some (.ok (s, h')) := by
  have h := C30_fft2d_partial z64_pos Heap.empty_wf (plane2_good (lib := lib) hme (p := 1) (by decide) _)
  rw [plane2_firstError (by decide)] at h
  exact h

example {lib : Option Package} {me : Nat} (hme : me < 2) : ∃ s h1 h2, runHistory (cfg2 lib 2 me z64) (plane2Calls 1) Heap.empty =
    some (.ok (s, h1)) ∧ s.destroy (cfg2 lib 2 me z64) h1 = some h2 ∧ h2.live.Perm [] :=
  C47_fft2d_partial z64_pos Heap.empty_wf (plane2_good hme (by decide) _) (plane2_firstError (by decide))
    (by simp [plane2Calls, planned, Call.plans]) (by simp [plane2Calls, sincePlan, Call.plans, Call.flags])

end FftMpi
