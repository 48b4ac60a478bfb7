import Verif.PropsFft2d
import Verif.PropsFft3d
import Verif.SpmdHang

/-!
# C70: the collective calls of `setup` fit together

Each rank runs its own program (`SpmdSetup.lean`) and sees only its own arguments.  `Returns P p x` (`Spmd.lean`) says
for every schedule: the ranks make finitely many steps, some rank can go on until all have returned, no rank makes a call
that does not fit to those of the others, and rank `r` returns `x r`.  `Hangs P p` (`SpmdHang.lean`)
says for every schedule: the ranks make finitely many steps, and one rank, the same under all schedules, never returns.
-/

noncomputable section

namespace FftMpi

variable {α : Type}

/-! ## Remaps -/

/-- **C70, Remap3d**: for any boxes, also such that do not fit together, `setup` returns on all ranks, with what
`remapSetup` computes from the boxes of all ranks. -/
theorem C70_remap3 (P : Nat) (ins outs : Nat → Box3) (nqty permute packflag : Int) (c : Bool) :
    ∃ x : Nat → RemapObj α PackPlan3, (∀ r < P, remapSetup dim3 P r ins outs nqty permute packflag c = some (x r)) ∧
      Returns P (fun r => remapS dim3 P r (ins r) (outs r) nqty permute packflag c) x := by
  obtain ⟨x, hx⟩ := remapSetup_total dim3 P ins outs nqty permute packflag c
  exact ⟨x, hx, (Does.remap dim3 collide3_symm P ins outs nqty permute packflag c x hx).returns⟩

/-- **C70, Remap2d.** -/
theorem C70_remap2 (w : Int) (P : Nat) (ins outs : Nat → Box2) (nqty permute packflag : Int) (c : Bool) :
    ∃ x : Nat → RemapObj α PackPlan2, (∀ r < P, remapSetup (dim2 w) P r ins outs nqty permute packflag c = some (x r)) ∧
      Returns P (fun r => remapS (dim2 w) P r (ins r) (outs r) nqty permute packflag c) x := by
  obtain ⟨x, hx⟩ := remapSetup_total (dim2 w) P ins outs nqty permute packflag c
  exact ⟨x, hx, (Does.remap (dim2 w) collide2_symm P ins outs nqty permute packflag c x hx).returns⟩

/-- **C70, Remap3d**: if the ranks do not agree about `collective`, they wait for each other for ever. -/
theorem C70_remap3_mixed (P : Nat) (ins outs : Nat → Box3) (nqty permute packflag : Int) (c : Nat → Bool)
    (h : ∃ i < P, ∃ j < P, c i ≠ c j) :
    Hangs P (fun r => remapS (α := α) dim3 P r (ins r) (outs r) nqty permute packflag (c r)) := by
  obtain ⟨i, hi, j, hj, h⟩ := h
  cases hci : c i <;> cases hcj : c j
  · exact absurd (hci.trans hcj.symm) h
  · exact (Clash.remap dim3 P ins outs nqty permute packflag c hj hi hcj hci).stuck hj hi |>.hangs
  · exact (Clash.remap dim3 P ins outs nqty permute packflag c hi hj hci hcj).stuck hi hj |>.hangs
  · exact absurd (hci.trans hcj.symm) h

/-- **C70, Remap2d.** -/
theorem C70_remap2_mixed (w : Int) (P : Nat) (ins outs : Nat → Box2) (nqty permute packflag : Int) (c : Nat → Bool)
    (h : ∃ i < P, ∃ j < P, c i ≠ c j) :
    Hangs P (fun r => remapS (α := α) (dim2 w) P r (ins r) (outs r) nqty permute packflag (c r)) := by
  obtain ⟨i, hi, j, hj, h⟩ := h
  cases hci : c i <;> cases hcj : c j
  · exact absurd (hci.trans hcj.symm) h
  · exact (Clash.remap (dim2 w) P ins outs nqty permute packflag c hj hi hcj hci).stuck hj hi |>.hangs
  · exact (Clash.remap (dim2 w) P ins outs nqty permute packflag c hi hj hci hcj).stuck hi hj |>.hangs
  · exact absurd (hci.trans hcj.symm) h

/-! ## FFT3d -/

/-- **C70, FFT3d**: if all ranks have the same settings, `setup` returns on all ranks, with what the model with the
arguments of all ranks says: a set-up object, or the same error message. -/
theorem C70_setup3 {P : Nat} {a : Args3} {st : Settings} {x : Nat → Except SetupErr (Fft3 α)}
    (h : ∀ r < P, fft3Setup P r a st = some (x r)) : Returns P (fun r => (a.here st P r).setup) x :=
  (Does.setup a st P x h).returns

/-- **C70, FFT3d, valid arguments.** -/
theorem C70_valid3 {P : Nat} {a : Args3} {st : Settings} (hv : a.Valid P) (hst : st.Valid) :
    ∃ f, SetUp3 P a st f ∧ Returns P (fun r => (a.here st P r).setup) (fun r => .ok (f r)) := by
  obtain ⟨f, S⟩ := setUp3_exists hv hst
  exact ⟨f, S, C70_setup3 S.result⟩

/-- **C70, FFT3d, arguments that are not accepted**: all ranks come to the same `error->all`. -/
theorem C70_error3 {P : Nat} {a : Args3} (st : Settings) {e : SetupErr} (h : setupCheck P a = some e) :
    Returns P (fun r => (a.here st P r).setup (α := α)) (fun _ => .error e) :=
  C70_setup3 fun r _ => by unfold fft3Setup; rw [h]

/-- **C70, FFT3d, different settings of `collective`**: `setup` returns if and only if in each of its remaps the ranks
agree about calling `MPI_Comm_create`. -/
theorem C70_mixed3 {P : Nat} {a : Args3} {st : Settings} {g : Grids} (hv : a.Valid P) (hst : st.Valid)
    (hg : setupGrids P a st.exchange = some g) (col : Nat → Int) :
    (a.Agree st P g col → ∃ f, SetUp3 P a { st with collective := col 0 } f ∧
      Returns P (fun r => (a.here { st with collective := col r } P r).setup) (fun r => .ok (f r))) ∧
    (¬a.Agree st P g col → Hangs P (fun r => (a.here { st with collective := col r } P r).setup (α := ℝ))) := by
  obtain ⟨f, S⟩ := setUp3_exists (st := { st with collective := col 0 }) hv hst
  obtain ⟨h1, h2⟩ := setup3_own hv.procs hv.check hg S.result
  exact ⟨fun h => ⟨f, S, (h1 h).returns⟩, fun h => (h2 h).hangs⟩

/-! ## FFT2d -/

/-- **C70, FFT2d.** -/
theorem C70_setup2 {w : Int} {P : Nat} {a : Args2} {st : Settings} {x : Nat → Except SetupErr (Fft2 α)}
    (h : ∀ r < P, fft2Setup w P r a st = some (x r)) : Returns P (fun r => (a.here w st P r).setup) x :=
  (Does.setup2 a w st P x h).returns

/-- **C70, FFT2d, valid arguments.** -/
theorem C70_valid2 {w : Int} {P : Nat} {a : Args2} {st : Settings} (hv : a.Valid P) (hst : st.Valid2 w) :
    ∃ f, SetUp2 w P a st f ∧ Returns P (fun r => (a.here w st P r).setup) (fun r => .ok (f r)) := by
  obtain ⟨f, S⟩ := setUp2_exists hv hst
  exact ⟨f, S, C70_setup2 S.result⟩

/-- **C70, FFT2d, arguments that are not accepted.** -/
theorem C70_error2 {w : Int} {P : Nat} {a : Args2} (st : Settings) {e : SetupErr} (h : setupCheck2 P a = some e) :
    Returns P (fun r => (a.here w st P r).setup (α := α)) (fun _ => .error e) :=
  C70_setup2 fun r _ => by unfold fft2Setup; rw [h]

/-- **C70, FFT2d, different settings of `collective`.** -/
theorem C70_mixed2 {w : Int} {P : Nat} {a : Args2} {st : Settings} {g : Nat × Nat} (hv : a.Valid P) (hst : st.Valid2 w)
    (hg : setupBrick2 P a st.exchange = some g) (col : Nat → Int) :
    (a.Agree st P col → ∃ f, SetUp2 w P a { st with collective := col 0 } f ∧
      Returns P (fun r => (a.here w { st with collective := col r } P r).setup) (fun r => .ok (f r))) ∧
    (¬a.Agree st P col → Hangs P (fun r => (a.here w { st with collective := col r } P r).setup (α := ℝ))) := by
  obtain ⟨f, S⟩ := setUp2_exists (st := { st with collective := col 0 }) hv hst
  obtain ⟨h1, h2⟩ := setup2_own hv.procs hv.check hg S.result
  exact ⟨fun h => ⟨f, S, (h1 h).returns⟩, fun h => (h2 h).hangs⟩

/-! ## Examples -/

example : ∃ f, SetUp3 2 (demo3 1) ⟨2, 1, 2⟩ f ∧
    Returns 2 (fun r => ((demo3 1).here ⟨2, 1, 2⟩ 2 r).setup) (fun r => .ok (f r)) :=
  C70_valid3 (demo3_valid 1 (by decide)) (by simp [Settings.Valid])

example : ∃ f, SetUp2 0 2 (plane2 1) ⟨1, 0, 0⟩ f ∧
    Returns 2 (fun r => ((plane2 1).here 0 ⟨1, 0, 0⟩ 2 r).setup) (fun r => .ok (f r)) :=
  C70_valid2 (plane2_valid 1 (by decide)) (by simp [Settings.Valid2, FlagOk2])

/-- Boxes that cover half of the grid: both ranks report the same error. -/
example (st : Settings) : Returns 2 (fun r => (({ demo3 1 with nslow := 8 } : Args3).here st 2 r).setup (α := ℝ))
    (fun _ => .error .tiling) := by
  refine C70_error3 st ?_
  decide +kernel

/-- Boxes that overlap and do not fit together. -/
example : ∃ x : Nat → RemapObj ℝ PackPlan3,
    (∀ r < 3, remapSetup dim3 3 r (fun r => ⟨0, r, 0, 5, 0, 0⟩) (fun r => ⟨r, 9, 2, 3, 0, 0⟩) 2 0 0 true = some (x r)) ∧
      Returns 3 (fun r => remapS dim3 3 r ⟨0, r, 0, 5, 0, 0⟩ ⟨r, 9, 2, 3, 0, 0⟩ 2 0 0 true) x :=
  C70_remap3 3 (fun r => ⟨0, r, 0, 5, 0, 0⟩) (fun r => ⟨r, 9, 2, 3, 0, 0⟩) 2 0 0 true

/-- Values 1 and 2 of `collective` mean the same for pencil to pencil remaps, and there are no others here. -/
example : ∃ f, SetUp3 2 (demo3 2) ⟨1, 0, 2⟩ f ∧
    Returns 2 (fun r => ((demo3 2).here ⟨if r = 0 then 1 else 2, 0, 2⟩ 2 r).setup) (fun r => .ok (f r)) := by
  obtain ⟨g, hg, -⟩ := setupGrids_ok (demo3_valid 2 (by decide)).round (demo3_valid 2 (by decide)).procs (demo3_valid 2 (by decide)).fast
    (demo3_valid 2 (by decide)).mid (demo3_valid 2 (by decide)).slow 0
  have hp : preflag 2 (demo3 2) = false := by decide +kernel
  have hq : postflag 2 (demo3 2) g = false := by
    have : slowflag 2 (demo3 2) = false := by decide +kernel
    have e : ∀ r, slowBox 2 (demo3 2) g r = (demo3 2).outs r := fun r => by
      unfold slowBox; rw [if_pos this]
    simp only [postflag, e]
    decide +kernel
  refine (C70_mixed3 (st := ⟨1, 0, 2⟩) (demo3_valid 2 (by decide)) (by simp [Settings.Valid]) hg
    (fun r => if r = 0 then 1 else 2)).1 ⟨fun _ r _ => ?_, fun h => ?_⟩
  · by_cases hr : r = 0 <;> simp [hr, collectivePp]
  · rw [hp, hq] at h
    simp at h

/-- With brick to pencil remaps they are different: the two ranks never return. -/
example : Hangs 2 (fun r => ((demo3 2).here ⟨if r = 0 then 1 else 2, 1, 2⟩ 2 r).setup (α := ℝ)) := by
  obtain ⟨g, hg, -⟩ := setupGrids_ok (demo3_valid 2 (by decide)).round (demo3_valid 2 (by decide)).procs (demo3_valid 2 (by decide)).fast
    (demo3_valid 2 (by decide)).mid (demo3_valid 2 (by decide)).slow 1
  refine (C70_mixed3 (st := ⟨1, 1, 2⟩) (demo3_valid 2 (by decide)) (by simp [Settings.Valid]) hg
    (fun r => if r = 0 then 1 else 2)).2 fun h => ?_
  have := h.2 (.inl (by decide)) 1 (by decide)
  revert this
  decide

example : Hangs 2 (fun r => ((plane2 0).here 0 ⟨if r = 0 then 0 else 2, 0, 0⟩ 2 r).setup (α := ℝ)) := by
  refine (C70_mixed2 (w := 0) (st := ⟨1, 0, 0⟩) (g := (0, 0)) (plane2_valid 0 (by decide))
    (by simp [Settings.Valid2, FlagOk2]) rfl (fun r => if r = 0 then 0 else 2)).2 fun h => ?_
  have := h.1 rfl 1 (by decide)
  revert this
  decide

end FftMpi
