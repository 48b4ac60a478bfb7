import Verif.PropsLifecycle2

/-!
# C53: plans of the other 1d FFT packages

What C31 says about the plans of KISS, for MKL, FFTW2 and FFTW3.
-/

namespace FftMpi

open FftLife

/-- What `setup_ffts` must have made for 1d FFTs of lengths `ls`, counted by kind: the objects; with MKL one
descriptor for each 1d FFT; with FFTW2 one plan of each direction for each length that occurs; with FFTW3 one plan
of each direction for each 1d FFT; nothing else. -/
def plansMade (b : Package) (ls : List Int) : Kind → Nat
  | .obj => ls.length
  | .libPlan .mkl n none => if b = .mkl then ls.count n else 0
  | .libPlan .fftw2 n (some _) => if b = .fftw2 ∧ n ∈ ls then 1 else 0
  | .libPlan .fftw3 n (some _) => if b = .fftw3 then ls.count n else 0
  | _ => 0

/-- Number of blocks of a kind. -/
def Heap.count (h : Heap) (kd : Kind) : Nat := h.live.countP fun b => b.kind = kd

theorem planItems3_made (b : Package) (k : FSkel) (f m s : Fft1dLife) (b' : Package) (n : Int) (i : Option Bool) :
    (planItems3 (some b) k f m s).countP (fun x => x.kind = .libPlan b' n i) =
      plansMade b [k.nfast, k.nmid, k.nslow] (.libPlan b' n i) := by
  cases b with
  | mkl =>
    cases b' <;> rcases i with _ | i <;> simp [planItems3, planKind, plansMade, List.countP_cons, List.count_cons]
  | fftw3 =>
    cases b' <;> rcases i with _ | _ | _ <;>
      simp [planItems3, planKind, plansMade, List.countP_cons, List.count_cons] <;> omega
  | fftw2 =>
    by_cases hb : b' = .fftw2
    · subst hb
      rcases i with _ | i
      · simp only [planItems3, planKind, plansMade]
        split_ifs <;> simp
      · simp only [planItems3, planKind, plansMade, true_and]
        by_cases h1 : k.nfast = n <;> by_cases h2 : k.nmid = n <;> by_cases h3 : k.nslow = n <;> cases i <;>
          split_ifs <;> simp_all [eq_comm]
    · have e : plansMade .fftw2 [k.nfast, k.nmid, k.nslow] (.libPlan b' n i) = 0 := by
        cases b' <;> rcases i with _ | i <;> simp_all [plansMade]
      rw [e]
      simp only [planItems3, planKind]
      split_ifs <;> simp [Ne.symm hb]

theorem planItems2_made (b : Package) (k : FSkel) (f s : Fft1dLife) (b' : Package) (n : Int) (i : Option Bool) :
    (planItems2 (some b) k f s).countP (fun x => x.kind = .libPlan b' n i) =
      plansMade b [k.nfast, k.nslow] (.libPlan b' n i) := by
  cases b with
  | mkl =>
    cases b' <;> rcases i with _ | i <;> simp [planItems2, planKind, plansMade, List.countP_cons, List.count_cons]
  | fftw3 =>
    cases b' <;> rcases i with _ | _ | _ <;>
      simp [planItems2, planKind, plansMade, List.countP_cons, List.count_cons]
  | fftw2 =>
    by_cases hb : b' = .fftw2
    · subst hb
      rcases i with _ | i
      · simp only [planItems2, planKind, plansMade]
        split_ifs <;> simp
      · simp only [planItems2, planKind, plansMade, true_and]
        by_cases h1 : k.nfast = n <;> by_cases h3 : k.nslow = n <;> cases i <;>
          split_ifs <;> simp_all [eq_comm]
    · have e : plansMade .fftw2 [k.nfast, k.nslow] (.libPlan b' n i) = 0 := by
        cases b' <;> rcases i with _ | i <;> simp_all [plansMade]
      rw [e]
      simp only [planItems2, planKind]
      split_ifs <;> simp [Ne.symm hb]

theorem planItems_other (b : Package) (k : FSkel) {kd : Kind} (hk : ∀ b' n i, kd ≠ .libPlan b' n i)
    (f m s : Fft1dLife) : (planItems3 (some b) k f m s).countP (fun x => x.kind = kd) = 0 ∧
      (planItems2 (some b) k f s).countP (fun x => x.kind = kd) = 0 := by
  have h : ∀ n c, ¬ planKind (some b) n c = kd := by
    intro n c e
    cases b <;> exact hk _ _ _ e.symm
  cases b <;> simp only [planItems3, planItems2] <;> constructor <;> (try split_ifs) <;> simp [h]

theorem fftItems_made {b : Package} {cls : Cls} {k : FSkel} {fs : List Fft1dLife}
    (hr : FftsReady (some b) cls k fs) (kd : Kind) :
    (fftItems (some b) cls k fs).countP (fun x => x.kind = kd) = plansMade b (fftLengths cls k) kd := by
  have hl := congrArg List.length hr.lengths
  cases cls with
  | d3 =>
    match fs, hl with
    | [f, m, s], _ =>
      unfold fftItems
      rw [List.countP_append]
      by_cases hk : ∀ b' n i, kd ≠ .libPlan b' n i
      · rw [(planItems_other b k hk f m s).1]
        rcases kd with _ | _ | _ | _ | ⟨n, i⟩ | ⟨b', n, i⟩ <;> simp [plansMade, fftLengths]
        exact absurd rfl (hk b' n i)
      · push Not at hk
        obtain ⟨b', n, i, rfl⟩ := hk
        rw [planItems3_made]
        simp [fftLengths]
  | d2 =>
    match fs, hl with
    | [f, s], _ =>
      unfold fftItems
      rw [List.countP_append]
      by_cases hk : ∀ b' n i, kd ≠ .libPlan b' n i
      · rw [(planItems_other b k hk f f s).2]
        rcases kd with _ | _ | _ | _ | ⟨n, i⟩ | ⟨b', n, i⟩ <;> simp [plansMade, fftLengths]
        exact absurd rfl (hk b' n i)
      · push Not at hk
        obtain ⟨b', n, i, rfl⟩ := hk
        rw [planItems2_made]
        simp [fftLengths]

/-- **C53.**  The 1d FFTs of `FFT3d` and `FFT2d` with MKL, FFTW2 and FFTW3, whatever the lengths (`fftLengths`):
`setup_ffts` makes the objects, descriptors and plans that `plansMade` says and nothing else; each 1d FFT finds
plans of its own length and of the right direction (a descriptor of MKL serves both); and `deallocate_ffts` with the
`delete` that follow it releases exactly what was made, each once, by the operation of the package. -/
theorem C53_plans (b : Package) (cls : Cls) (k : FSkel) {h : Heap} (hw : h.WF) :
    ((setupFftsOf (some b) cls k h).1.map Fft1dLife.length = fftLengths cls k) ∧
    (∀ kd, (setupFftsOf (some b) cls k h).2.count kd = h.count kd + plansMade b (fftLengths cls k) kd) ∧
    (∀ f ∈ (setupFftsOf (some b) cls k h).1,
      ((setupFftsOf (some b) cls k h).2.get f.planF).map Blk.kind =
        some (.libPlan b f.length (if b = .mkl then none else some false)) ∧
      ((setupFftsOf (some b) cls k h).2.get f.planB).map Blk.kind =
        some (.libPlan b f.length (if b = .mkl then none else some true))) ∧
    (∃ gs h', freeFfts (some b) cls k.nfast k.nmid k.nslow (some (setupFftsOf (some b) cls k h).1) = some gs ∧
      ∀ memory, (setupFftsOf (some b) cls k h).2.freeAll false memory gs = some h' ∧ h'.live.Perm h.live) := by
  obtain ⟨hr, o⟩ := setupFfts_owns (some b) cls k hw.owns
  refine ⟨hr.lengths, ?_, ?_, plans_released (some b) cls k hw⟩
  · intro kd
    rw [List.append_nil] at o
    unfold Heap.count
    rw [o.perm.countP_eq, List.countP_append, countP_blks hr.blk, fftItems_made hr, add_comm]
  · intro f hf
    have := plans_found (some b) cls k hw f hf
    cases b <;> simpa [planKind] using this

/-- Example: three equal lengths, 3 descriptors, 1 plan, 3 plans. -/
example : plansMade .mkl (fftLengths .d3 (toySkel .d3)) (.libPlan .mkl 2 none) = 3 ∧
    plansMade .fftw2 (fftLengths .d3 (toySkel .d3)) (.libPlan .fftw2 2 (some true)) = 1 ∧
    plansMade .fftw3 (fftLengths .d3 (toySkel .d3)) (.libPlan .fftw3 2 (some true)) = 3 := by
  decide

/-- Example: a history of calls and the destructor with each package; nothing is left. -/
example (b : Package) {me : Nat} (hme : me < 2) : ∃ s h1 h2,
    runHistory (cfg2 (some b) 2 me z64) (plane2Calls 1) Heap.empty = some (.ok (s, h1)) ∧
    s.destroy (cfg2 (some b) 2 me z64) h1 = some h2 ∧ h2.live.Perm [] :=
  C47_fft2d_partial z64_pos Heap.empty_wf (plane2_good hme (p := 1) (by decide) _) (plane2_firstError (by decide))
    (by simp [plane2Calls, planned, Call.plans]) (by simp [plane2Calls, sincePlan, Call.plans, Call.flags])

end FftMpi
