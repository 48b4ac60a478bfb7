import Verif.LifecyclePlan3

/-!
# Properties C30, C31, C44, C47 for `FFT3d` and `FFT2d`

A program makes an object (`create`), makes calls on it and assigns its public members in any order (`calls`),
and deletes it (`destroy`).  `expected` and `firstError` (LifecycleHist.lean) say which call must be the first to
stop with an error, from the order of the calls alone.  `C : Cfg A` says which of the two classes is meant and
what `setup` computes; the theorems whose names end in `fft3d` are about `FFT3d` with its `setup`.
-/

namespace FftMpi

open FftLife

variable {A : Type}

/-- `new FFT3d(...)` or `new FFT2d(...)` and calls on it. -/
def runHistory (C : Cfg A) (cs : List (Call A)) (h : Heap) : Option (Except LifeErr (FftLife × Heap)) :=
  (FftLife.create C.cls C.z h).1.calls C cs (FftLife.create C.cls C.z h).2

/-- The caller respects what `GoodCall` says, in every state reached. -/
def GoodHistory (C : Cfg A) (bad : A → Bool) (cs : List (Call A)) (h : Heap) : Prop :=
  GoodCalls C bad cs (FftLife.create C.cls C.z h).1 (FftLife.create C.cls C.z h).2

theorem history_inv {C : Cfg A} (hC : C.strict = false) (hz : C.z.Pos) {bad : A → Bool} {h : Heap} (hw : h.WF)
    {cs : List (Call A)} (hg : GoodHistory C bad cs h) :
    match firstError bad [] cs with
    | some e => runHistory C cs h = some (.error e)
    | none => ∃ s h', runHistory C cs h = some (.ok (s, h')) ∧ LifeInv C h.live cs s h' :=
  LifeInv.calls hC hz cs [] (LifeInv.create C hw.owns) hg

/-! ## An example: the numbers of an FFT of 2 x 2 x 2 points on one rank with `collective = 2` -/

/-- The remap between two pencil layouts. -/
def toyRemap : RSkel := ⟨1, 1, 1, 1, 1, 1, true, 16, 16⟩

def toySkel (cls : Cls) : FSkel where
  same := true
  fwd := match cls with
    | .d3 => [none, some ⟨toyRemap, true, none⟩, some ⟨toyRemap, true, none⟩, some ⟨toyRemap, false, none⟩]
    | .d2 => [none, some ⟨toyRemap, true, none⟩, some ⟨toyRemap, false, none⟩]
  inv := List.replicate cls.npairs none
  nfast := 2
  nmid := 2
  nslow := 2
  fftsize := 8
  sendsize := 16
  recvsize := 16

/-- `setup(b)`: `true` for wrong arguments. -/
def toyCfg (cls : Cls) : Cfg Bool where
  cls := cls
  z := z64
  plan := fun b _ => some (if b then .error .tiling else .ok (toySkel cls))
  strict := false
  lib := none

theorem toySkel_ok (cls : Cls) : (toySkel cls).OK cls := by
  have h : PSkel.OK 16 16 ⟨toyRemap, true, none⟩ ∧ PSkel.OK 16 16 ⟨toyRemap, false, none⟩ := by
    refine ⟨⟨⟨⟨?_, ?_, ?_, ?_⟩, ?_, ?_⟩, ?_⟩, ⟨⟨⟨?_, ?_, ?_, ?_⟩, ?_, ?_⟩, ?_⟩⟩ <;> simp [toyRemap]
  cases cls with
  | d3 =>
    refine ⟨rfl, rfl, ?_, ?_, by decide, by decide, by decide⟩
    · intro k hk
      simp only [toySkel, List.mem_cons, Option.some.injEq, reduceCtorEq, false_or, List.not_mem_nil, or_false] at hk
      rcases hk with rfl | rfl | rfl
      · exact h.1
      · exact h.1
      · exact h.2
    · intro k hk
      simp [toySkel, Cls.npairs] at hk
  | d2 =>
    refine ⟨rfl, rfl, ?_, ?_, by decide, by decide, by decide⟩
    · intro k hk
      simp only [toySkel, List.mem_cons, Option.some.injEq, reduceCtorEq, false_or, List.not_mem_nil, or_false] at hk
      rcases hk with rfl | rfl
      · exact h.1
      · exact h.2
    · intro k hk
      simp [toySkel, Cls.npairs] at hk

theorem toy_args (cls : Cls) (b : Bool) : PlanArgs (toyCfg cls) id b := by
  cases b with
  | false => exact ⟨fun _ st _ => ⟨_, rfl, toySkel_ok cls⟩, by simp⟩
  | true => exact ⟨by simp, fun _ st _ => ⟨_, rfl⟩⟩

theorem setup_skel {C : Cfg A} {a : A} {s s' : FftLife} {h h' : Heap}
    (e : s.setup C a h = some (.ok (s', h'))) : ∃ k, C.plan a s.t.st = some (.ok k) ∧ s'.skel = some k := by
  unfold FftLife.setup at e
  by_cases h1 : C.cls = .d3 ∧ s.setupflag = true
  · rw [if_pos h1] at e
    simp at e
  · rw [if_neg h1] at e
    split at e
    · simp at e
    · simp at e
    · rename_i k hk
      refine ⟨k, hk, ?_⟩
      simp only [Option.bind_eq_bind, Option.bind_eq_some_iff] at e
      obtain ⟨⟨fwd, h1⟩, -, ⟨inv, h2⟩, -, ⟨sb, h3⟩, -, ⟨rb, h4⟩, -, e⟩ := e
      have := congrArg (fun x => x.1.skel) (Except.ok.inj (Option.some.inj e))
      exact this.symm

/-! ## C30 -/

/-- **C30, part.**  For every history of calls on an `FFT3d` or `FFT2d`: the first call that comes in the wrong
order (or has wrong arguments) stops with its error, and otherwise all calls return; no call uses a plan or buffer
that does not exist.

Missing: a second `setup` of an `FFT2d` is excluded (`GoodCall`), it is not detected (`C30_fft2d_setup_false`);
the buffers that the caller passes must be large enough, and `PlanArgs` asks that those of the library are, see
`C25_false`.  During `tune` remap objects are destroyed; the call of `sfree` through the deleted `memory` in
their destructor is taken to work (`strict = false`, see `C47_remap_strict_false`). -/
theorem C30_fft_partial {C : Cfg A} (hC : C.strict = false) (hz : C.z.Pos) {bad : A → Bool} {h : Heap} (hw : h.WF)
    {cs : List (Call A)} (hg : GoodHistory C bad cs h) :
    match firstError bad [] cs with
    | some e => runHistory C cs h = some (.error e)
    | none => ∃ s h', runHistory C cs h = some (.ok (s, h')) := by
  have := history_inv hC hz hw hg
  split
  · rename_i e he
    rw [he] at this
    exact this
  · rename_i he
    rw [he] at this
    obtain ⟨s, h', e, -⟩ := this
    exact ⟨s, h', e⟩

/-- **C30 for `FFT3d`, part**: the same with the `setup` of `FFT3d` on rank `me` of `P`.  The arguments of `setup`
are valid and the buffers suffice, or `setup` rejects them (`FineArgs3`). -/
theorem C30_fft3d_partial {lib : Option Package} {P me : Nat} {z : TypeSizes} (hz : z.Pos) {h : Heap} (hw : h.WF)
    {cs : List (Call Args3)} (hg : GoodHistory (cfg3 lib P me z) (bad3 P) cs h) :
    match firstError (bad3 P) [] cs with
    | some e => runHistory (cfg3 lib P me z) cs h = some (.error e)
    | none => ∃ s h', runHistory (cfg3 lib P me z) cs h = some (.ok (s, h')) :=
  C30_fft_partial rfl hz hw hg

/-- Example: `tune`, uses, an assignment, and a second `tune` that is rejected; the clocks of both ranks run
evenly. -/
def toyTuneHistory : List (Call Bool) :=
  [.assign .packflag 1, .tune false ⟨0, 3, 10, 1⟩ (clock 1 []) (clock 1 []), .use (.compute 1), .use (.only1d (-1)),
    .assign .collective 0, .use (.onlyOneRemap 1 2), .tune false ⟨0, 3, 10, 1⟩ (clock 1 []) (clock 1 []),
    .use (.compute 1)]

theorem toy_clock (cls : Cls) (s : FftLife) : GoodCall (toyCfg cls) id s
    (.tune false ⟨0, 3, 10, 1⟩ (clock 1 []) (clock 1 [])) :=
  ⟨toy_args cls false, by decide, timeFp_id, by norm_num [clock], by norm_num [clock, took, timeOf],
    by norm_num [clock, took, timeOf, intMax], clock_big (by simp)⟩

theorem toyTune_good (cls : Cls) (h : Heap) : GoodHistory (toyCfg cls) id toyTuneHistory h := by
  refine ⟨⟨by decide, by decide⟩, fun s1 h1 _ => ⟨toy_clock cls s1, fun s2 h2 _ => ⟨trivial, fun s3 h3 _ =>
    ⟨trivial, fun s4 h4 _ => ⟨⟨by decide, by decide⟩, fun s5 h5 _ => ⟨trivial, fun s6 h6 _ =>
      ⟨toy_clock cls s6, fun s7 h7 _ => ⟨trivial, fun _ _ _ => trivial⟩⟩⟩⟩⟩⟩⟩⟩

example (cls : Cls) : runHistory (toyCfg cls) toyTuneHistory Heap.empty = some (.error .tuneTwice) := by
  have h := C30_fft_partial (C := toyCfg cls) rfl z64_pos Heap.empty_wf (toyTune_good cls _)
  have e : firstError id [] toyTuneHistory = some .tuneTwice := by
    have h1 : ¬ ((10 : ℚ) < 0) := by norm_num
    simp [toyTuneHistory, firstError, expected, planned, buffered, flagAt, beforePlan, Call.plans, Call.passes, h1]
  rw [e] at h
  exact h

/-- Example: memory passed by the caller. -/
def toyUserHistory : List (Call Bool) :=
  [.assign .memoryflag 0, .setup false, .use (.only1d 1), .setupMemory (.user 128) (.user 200), .use (.compute 1)]

theorem toyUser_good (cls : Cls) (h : Heap) : GoodHistory (toyCfg cls) id toyUserHistory h := by
  refine ⟨trivial, fun s1 h1 e1 => ⟨⟨toy_args cls false, fun _ => ?_⟩, fun s2 h2 e2 => ⟨trivial, fun s3 h3 e3 =>
    ⟨?_, fun s4 h4 _ => ⟨trivial, fun _ _ _ => trivial⟩⟩⟩⟩⟩
  · simp only [FftLife.call, Option.some.injEq, Except.ok.injEq, Prod.mk.injEq] at e1
    rw [← e1.1]
    rfl
  · intro k hk
    have e : k = toySkel cls := by
      obtain ⟨k', h1, h2⟩ := setup_skel (C := toyCfg cls) (a := false) (s := s1) (s' := s2) (h := h1) (h' := h2) e2
      have h3 : k' = toySkel cls := by
        simpa [toyCfg] using h1.symm
      have h4 : s3.skel = s2.skel := by
        simp only [FftLife.call, FftLife.use] at e3
        split at e3
        · simp at e3
        · simp at e3
        · rename_i x hx
          simp only [Option.some.injEq, Except.ok.injEq, Prod.mk.injEq] at e3
          rw [← e3.1]
          split_ifs at hx with h5 h6
          · simp at hx
          · simp at h6
          · simp only [FftLife.useData, Option.bind_eq_bind, Option.bind_eq_some_iff, Option.some.injEq,
              Except.ok.injEq] at hx
            obtain ⟨_, _, _, _, _, _, hx⟩ := hx
            rw [hx]
      rw [h4, h2, h3] at hk
      exact (Option.some.inj hk).symm
    subst e
    exact ⟨128, 200, rfl, rfl, by cases cls <;> decide, by cases cls <;> decide⟩

example (cls : Cls) : ∃ s h', runHistory (toyCfg cls) toyUserHistory Heap.empty = some (.ok (s, h')) := by
  have h := C30_fft_partial (C := toyCfg cls) rfl z64_pos Heap.empty_wf (toyUser_good cls _)
  have e : firstError id [] toyUserHistory = none := by decide
  rw [e] at h
  exact h

/-- Example for `FFT3d` on 2 ranks: calls in the right order, then a second `setup`. -/
def sameArgs : Args3 := { demo3 0 with outs := (demo3 0).ins }

theorem sameArgs_valid : sameArgs.Valid 2 where
  procs := (demo3_valid 0 (by decide)).procs
  fast := (demo3_valid 0 (by decide)).fast
  mid := (demo3_valid 0 (by decide)).mid
  slow := (demo3_valid 0 (by decide)).slow
  factors := (demo3_valid 0 (by decide)).factors
  tilesIn := (demo3_valid 0 (by decide)).tilesIn
  tilesOut := (demo3_valid 0 (by decide)).tilesIn
  properIn := (demo3_valid 0 (by decide)).properIn
  properOut := fun r hr => ((demo3_valid 0 (by decide)).properIn r hr).1
  permute := (demo3_valid 0 (by decide)).permute

theorem sameArgs_fine {me : Nat} (hme : me < 2) : FineArgs3 2 me sameArgs :=
  Or.inr ⟨sameArgs_valid, fun _ _ hg h => lastFits_of_same hme sameArgs_valid (by decide) hg h⟩

example {lib : Option Package} {me : Nat} (hme : me < 2) : runHistory (cfg3 lib 2 me z64)
    [.assign .exchange 1, .setup sameArgs, .use (.compute 1), .use (.compute (-1)), .setup sameArgs] Heap.empty =
      some (.error .setupTwice) := by
  have ha := argsOK3 (lib := lib) hme z64 (sameArgs_fine hme)
  have hg : GoodHistory (cfg3 lib 2 me z64) (bad3 2)
      [.assign .exchange 1, .setup sameArgs, .use (.compute 1), .use (.compute (-1)), .setup sameArgs] Heap.empty :=
    ⟨⟨by decide, by decide⟩, fun _ _ _ => ⟨⟨ha, by simp [cfg3]⟩, fun _ _ _ => ⟨trivial, fun _ _ _ => ⟨trivial,
      fun _ _ _ => ⟨⟨ha, by simp [cfg3]⟩, fun _ _ _ => trivial⟩⟩⟩⟩⟩
  have h := C30_fft3d_partial z64_pos Heap.empty_wf hg
  have hb : bad3 2 sameArgs = false := by
    by_contra hb
    rw [Bool.not_eq_false] at hb
    obtain ⟨f, S⟩ := setUp3_exists sameArgs_valid (st := ⟨0, 0, 0⟩) (by simp [Settings.Valid])
    have e := S.result 0 (by decide)
    obtain ⟨x, hx⟩ := Option.isSome_iff_exists.1 hb
    simp [fft3Setup, hx] at e
  have e : firstError (bad3 2)
      [] [.assign .exchange 1, .setup sameArgs, .use (.compute 1), .use (.compute (-1)), .setup sameArgs] =
        some .setupTwice := by
    simp [firstError, expected, planned, buffered, flagAt, beforePlan, Call.plans, Call.passes, hb]
  rw [e] at h
  exact h

/-- **C30 is false** for `FFT2d`: a second `setup` never stops with an error about that, in no state of the
object... -/
theorem C30_fft2d_setup_false {C : Cfg A} (hC : C.cls = .d2) (s : FftLife) (a : A) (h : Heap) :
    s.setup C a h ≠ some (.error .setupTwice) := by
  unfold FftLife.setup
  rw [if_neg (show ¬ (C.cls = .d3 ∧ s.setupflag = true) by rw [hC]; simp)]
  split
  · simp
  · simp
  · simp only [Option.bind_eq_bind, ne_eq, Option.bind_eq_some_iff, Option.some.injEq, reduceCtorEq, and_false,
      exists_false, not_false_eq_true]

/-- ... and the blocks of the first `setup` are never freed. -/
theorem C30_fft2d_setup_leak_false : ∃ s h1 h2,
    runHistory (toyCfg .d2) [.setup false, .setup false] Heap.empty = some (.ok (s, h1)) ∧
      s.destroy (toyCfg .d2) h1 = some h2 ∧ h2.live ≠ [] := by
  have : ((runHistory (toyCfg .d2) [.setup false, .setup false] Heap.empty).bind fun x =>
      match x with
      | .error _ => none
      | .ok x => (x.1.destroy (toyCfg .d2) x.2).map fun h2 => h2.live.isEmpty) = some false := by
    decide +kernel
  obtain ⟨x, e1, h⟩ := Option.bind_eq_some_iff.1 this
  cases x with
  | error e => simp at h
  | ok x =>
    obtain ⟨h2, e2, h⟩ := Option.map_eq_some_iff.1 h
    exact ⟨x.1, x.2, h2, e1, e2, by intro hn; rw [hn] at h; simp at h⟩

/-! ## C31 -/

/-- Number of plans of a length and direction that exist. -/
def Heap.plans (h : Heap) (n : Int) (inverse : Bool) : Nat := h.live.countP fun b => b.kind = .plan n inverse

theorem countP_blks {xs : List Item} (hx : ∀ x ∈ xs, ∃ n, x.ptr = .blk n) (kd : Kind) :
    (xs.flatMap Item.blks).countP (fun b => b.kind = kd) = xs.countP fun x => x.kind = kd := by
  induction xs with
  | nil => rfl
  | cons x xs ih =>
    obtain ⟨n, hn⟩ := hx x (by simp)
    rw [List.flatMap_cons, List.countP_append, ih fun y hy => hx y (by simp [hy]), List.countP_cons]
    simp [Item.blks, hn, add_comm]

theorem fftItems_plans {cls : Cls} {k : FSkel} {fs : List Fft1dLife} (hr : FftsReady none cls k fs) (n : Int) (b : Bool) :
    (fftItems none cls k fs).countP (fun x => x.kind = .plan n b) = if n ∈ fftLengths cls k then 1 else 0 := by
  have hl := congrArg List.length hr.lengths
  cases cls with
  | d3 =>
    match fs, hl with
    | [f, m, s], _ =>
      simp only [fftItems, planItems3, planItems2, planKind, fftLengths]
      by_cases h1 : n = k.nfast <;> by_cases h2 : n = k.nmid <;> by_cases h3 : n = k.nslow <;> cases b <;>
        split_ifs <;> simp_all [eq_comm]
  | d2 =>
    match fs, hl with
    | [f, s], _ =>
      simp only [fftItems, planItems3, planItems2, planKind, fftLengths]
      by_cases h1 : n = k.nfast <;> by_cases h3 : n = k.nslow <;> cases b <;>
        split_ifs <;> simp_all [eq_comm]

theorem freeFfts_sfree {lib : Option Package} {cls : Cls} {nfast nmid nslow : Int} {fs : Option (List Fft1dLife)}
    {gs : List Free} (h : freeFfts lib cls nfast nmid nslow fs = some gs) (p : Ptr) : Free.sfree p ∉ gs := by
  have hl : ∀ q, Free.sfree p ≠ planFree lib q := by
    intro q
    unfold planFree
    split <;> simp
  intro hp
  unfold freeFfts at h
  split at h
  · obtain rfl := Option.some.inj h
    unfold freePlans3 at hp
    split at hp
    · simp [planFree] at hp
    · simp [planFree] at hp
    · simp only [List.mem_append] at hp
      rcases hp with ((hp | hp) | hp) | hp
      · split_ifs at hp <;> simp [hl] at hp
      · split_ifs at hp <;> simp [hl] at hp
      · simp [hl] at hp
      · simp at hp
  · obtain rfl := Option.some.inj h
    unfold freePlans2 at hp
    split at hp
    · simp [planFree] at hp
    · simp [planFree] at hp
    · simp only [List.mem_append] at hp
      rcases hp with (hp | hp) | hp
      · split_ifs at hp <;> simp [hl] at hp
      · simp [hl] at hp
      · simp at hp
  · simp at h

/-- Without `sfree` the member `memory` does not matter. -/
theorem freeAll_memory (memory memory' : Ptr) : ∀ (gs : List Free) (h : Heap), (∀ p, Free.sfree p ∉ gs) →
    h.freeAll false memory gs = h.freeAll false memory' gs := by
  intro gs
  induction gs with
  | nil => intros; rfl
  | cons g gs ih =>
    intro h hg
    have ih' := fun h => ih h fun p hp => hg p (List.mem_cons_of_mem _ hp)
    cases g with
    | sfree p => exact absurd (List.mem_cons_self) (hg p)
    | _ => simp only [Heap.freeAll]; cases h.free _ <;> simp [ih']

/-- Release of the 1d FFTs with any package. -/
theorem plans_released (lib : Option Package) (cls : Cls) (k : FSkel) {h : Heap} (hw : h.WF) :
    ∃ gs h', freeFfts lib cls k.nfast k.nmid k.nslow (some (setupFftsOf lib cls k h).1) = some gs ∧
      ∀ memory, (setupFftsOf lib cls k h).2.freeAll false memory gs = some h' ∧ h'.live.Perm h.live := by
  obtain ⟨hr, o⟩ := setupFfts_owns lib cls k hw.owns
  obtain ⟨gs, h', e1, e2, o'⟩ := freeFfts_owns hr .null o
  refine ⟨gs, h', e1, fun memory => ⟨?_, by simpa using o'.perm⟩⟩
  rw [← e2]
  exact freeAll_memory memory .null gs _ (freeFfts_sfree e1)

/-- Each 1d FFT has plans of its length. -/
theorem plans_found (lib : Option Package) (cls : Cls) (k : FSkel) {h : Heap} (hw : h.WF) :
    ∀ f ∈ (setupFftsOf lib cls k h).1,
      ((setupFftsOf lib cls k h).2.get f.planF).map Blk.kind = some (planKind lib f.length false) ∧
      ((setupFftsOf lib cls k h).2.get f.planB).map Blk.kind = some (planKind lib f.length true) := by
  obtain ⟨hr, o⟩ := setupFfts_owns lib cls k hw.owns
  intro f hf
  obtain ⟨h1, h2⟩ := hr.plan f hf
  obtain ⟨n1, e1⟩ := hr.blk _ h1
  obtain ⟨n2, e2⟩ := hr.blk _ h2
  have g1 := o.getMem (List.mem_append_left _ h1) e1
  have g2 := o.getMem (List.mem_append_left _ h2) e2
  exact ⟨by rw [g1]; rfl, by rw [g2]; rfl⟩

/-- **C31.**  The 1d FFTs of `FFT3d` and `FFT2d` with KISS, whatever the lengths (`fftLengths`): `setup_ffts` makes
one plan of each direction for each length that occurs; each 1d FFT finds plans of its own length; and
`deallocate_ffts` with the `delete` that follow it releases exactly what was made, each block once. -/
theorem C31_plans (cls : Cls) (k : FSkel) {h : Heap} (hw : h.WF) :
    ((setupFftsOf none cls k h).1.map Fft1dLife.length = fftLengths cls k) ∧
    (∀ n b, (setupFftsOf none cls k h).2.plans n b = h.plans n b + if n ∈ fftLengths cls k then 1 else 0) ∧
    (∀ f ∈ (setupFftsOf none cls k h).1,
      ((setupFftsOf none cls k h).2.get f.planF).map Blk.kind = some (.plan f.length false) ∧
      ((setupFftsOf none cls k h).2.get f.planB).map Blk.kind = some (.plan f.length true)) ∧
    (∃ gs h', freeFfts none cls k.nfast k.nmid k.nslow (some (setupFftsOf none cls k h).1) = some gs ∧
      ∀ memory, (setupFftsOf none cls k h).2.freeAll false memory gs = some h' ∧ h'.live.Perm h.live) := by
  obtain ⟨hr, o⟩ := setupFfts_owns none cls k hw.owns
  refine ⟨hr.lengths, ?_, plans_found none cls k hw, plans_released none cls k hw⟩
  intro n b
  rw [List.append_nil] at o
  unfold Heap.plans
  rw [o.perm.countP_eq, List.countP_append, countP_blks hr.blk, fftItems_plans hr, add_comm]

/-- Example: `nslow = nmid`, with another plan of that length in the heap. -/
example : (setupFftsOf none .d3 { toySkel .d3 with nmid := 6, nslow := 6 } ⟨7, [⟨3, .plan 6 false, 1⟩]⟩).2.plans 6 false = 2 := by
  have h := (C31_plans .d3 { toySkel .d3 with nmid := 6, nslow := 6 } (h := ⟨7, [⟨3, .plan 6 false, 1⟩]⟩)
    ⟨by simp, by simp⟩).2.1 6 false
  rw [h]
  decide

/-! ## C44 -/

/-- An object with other values of `collective`, `exchange`, `packflag`. -/
def FftLife.withSettings (st : Settings) (s : FftLife) : FftLife := { s with t := { s.t with st } }

/-- The result of a history but for the values of those three members. -/
def FftLife.visible (x : Option (Except LifeErr (FftLife × Heap))) : Option (Except LifeErr (FftLife × Heap)) :=
  x.map (Except.map fun r => (r.1.withSettings ⟨0, 0, 0⟩, r.2))

/-- The call is an assignment to `collective`, `exchange` or `packflag`. -/
def FftLife.Call.sets : Call A → Bool
  | .assign .collective _ => true
  | .assign .exchange _ => true
  | .assign .packflag _ => true
  | _ => false

theorem remaps_withSettings (st : Settings) (z : TypeSizes) (fw : Bool) (s : FftLife) (h : Heap) :
    (s.withSettings st).remaps z fw h = (s.remaps z fw h).map (Except.map (withSettings st)) := by
  unfold FftLife.remaps
  cases fw with
  | true =>
    simp only [if_true]
    rw [show (s.withSettings st).sendbuf = s.sendbuf from rfl, show (s.withSettings st).recvbuf = s.recvbuf from rfl,
      show (s.withSettings st).fwd = s.fwd from rfl]
    rcases usePairs z s.sendbuf s.recvbuf s.fwd h with _ | (_ | _) <;> rfl
  | false =>
    simp only [Bool.false_eq_true, if_false]
    rw [show (s.withSettings st).sendbuf = s.sendbuf from rfl, show (s.withSettings st).recvbuf = s.recvbuf from rfl,
      show (s.withSettings st).inv = s.inv from rfl]
    rcases usePairs z s.sendbuf s.recvbuf s.inv h with _ | (_ | _) <;> rfl

theorem useData_withSettings (C : Cfg A) (st : Settings) (u : Use) (k : FSkel) (s : FftLife) (h : Heap) :
    (s.withSettings st).useData C u k h = (s.useData C u k h).map (Except.map (withSettings st)) := by
  cases u with
  | compute flag =>
    unfold FftLife.useData
    simp only
    rw [remaps_withSettings]
    by_cases hr : s.remaponly = 0
    · rw [if_pos hr, if_pos (show (s.withSettings st).remaponly = 0 from hr)]
      rw [show (s.withSettings st).ffts = s.ffts from rfl]
      rcases s.ffts with _ | fs
      · rfl
      · simp only [Option.bind_eq_bind, Option.bind_some]
        rcases useFfts C.lib flag fs h with _ | _ <;> rfl
    · rw [if_neg hr, if_neg (show ¬ (s.withSettings st).remaponly = 0 from hr)]
  | only1d flag =>
    unfold FftLife.useData
    simp only
    rw [show (s.withSettings st).ffts = s.ffts from rfl]
    rcases s.ffts with _ | fs
    · rfl
    · simp only [Option.bind_eq_bind, Option.bind_some]
      rcases useFfts C.lib flag fs h with _ | _ <;> rfl
  | onlyRemaps flag => exact remaps_withSettings ..
  | onlyOneRemap flag which =>
    unfold FftLife.useData
    simp only
    rcases select C.cls (decide (flag = 1) || k.same) which with _ | i
    · rfl
    · simp only
      rw [show (s.withSettings st).sendbuf = s.sendbuf from rfl, show (s.withSettings st).recvbuf = s.recvbuf from rfl,
        show (s.withSettings st).fwd = s.fwd from rfl, show (s.withSettings st).inv = s.inv from rfl]
      rcases (if (decide (flag = 1) || k.same) = true then s.fwd else s.inv)[i]? with _ | (_ | p)
      · rfl
      · rfl
      · simp only
        rcases p.use C.z s.sendbuf s.recvbuf h with _ | (_ | _)
        · rfl
        · rfl
        · cases (decide (flag = 1) || k.same) <;> rfl

theorem use_withSettings (C : Cfg A) (st : Settings) (u : Use) (s : FftLife) (h : Heap) :
    (s.withSettings st).use C u h = (s.use C u h).map (Except.map (withSettings st)) := by
  unfold FftLife.use
  rw [show (s.withSettings st).setupflag = s.setupflag from rfl,
    show (s.withSettings st).setupMemoryFlag = s.setupMemoryFlag from rfl,
    show (s.withSettings st).skel = s.skel from rfl]
  split_ifs
  · rfl
  · simp only
    split_ifs
    · rfl
    · rcases s.skel with _ | k
      · rfl
      · exact useData_withSettings C st u k s h

theorem call_withSettings {C : Cfg A} {st : Settings} {s : FftLife} (hs : s.setupflag = true) {c : Call A}
    (hc : c.sets = false) (h2 : C.cls = .d2 → ∀ a, c ≠ .setup a) (h : Heap) :
    (s.withSettings st).call C c h = (s.call C c h).map (Except.map fun r => (r.1.withSettings st, r.2)) := by
  cases c with
  | assign m v => cases m <;> first | rfl | simp [Call.sets] at hc
  | setup a =>
    have h3 : C.cls = .d3 := by
      cases h : C.cls with
      | d3 => rfl
      | d2 => exact absurd rfl (h2 h a)
    simp only [FftLife.call, FftLife.setup]
    rw [if_pos ⟨h3, hs⟩, if_pos ⟨h3, show (s.withSettings st).setupflag = true from hs⟩]
    rfl
  | setupMemory sb rb =>
    simp only [FftLife.call, FftLife.setupMemory]
    rw [show (s.withSettings st).setupflag = s.setupflag from rfl, hs,
      show (s.withSettings st).t.memoryflag = s.t.memoryflag from rfl]
    by_cases hm : s.t.memoryflag = 0 <;> simp [hm] <;> rfl
  | use u =>
    simp only [FftLife.call]
    rw [use_withSettings]
    rcases s.use C u h with _ | (_ | _) <;> rfl
  | tune a t root own =>
    simp only [FftLife.call, FftLife.tune]
    rw [show (s.withSettings st).setupflag = s.setupflag from rfl, hs]
    rfl

theorem useData_setupflag {C : Cfg A} {u : Use} {k : FSkel} {s s' : FftLife} {h : Heap}
    (e : s.useData C u k h = some (.ok s')) : s'.setupflag = s.setupflag := by
  have hr : ∀ fw, s.remaps C.z fw h = some (.ok s') → s'.setupflag = s.setupflag := by
    intro fw e
    unfold FftLife.remaps at e
    split_ifs at e
    · split at e
      · simp at e
      · simp at e
      · simp only [Option.some.injEq, Except.ok.injEq] at e
        rw [← e]
    · split at e
      · simp at e
      · simp at e
      · simp only [Option.some.injEq, Except.ok.injEq] at e
        rw [← e]
  cases u with
  | compute flag =>
    simp only [FftLife.useData] at e
    by_cases h0 : s.remaponly = 0
    · simp only [h0, if_true, Option.bind_eq_bind, Option.bind_eq_some_iff] at e
      obtain ⟨_, _, _, _, e⟩ := e
      exact hr _ e
    · simp only [h0, if_false] at e
      exact hr _ e
  | only1d flag =>
    simp only [FftLife.useData, Option.bind_eq_bind, Option.bind_eq_some_iff, Option.some.injEq, Except.ok.injEq] at e
    obtain ⟨_, _, _, _, e⟩ := e
    rw [e]
  | onlyRemaps flag => exact hr _ e
  | onlyOneRemap flag which =>
    simp only [FftLife.useData] at e
    split at e
    · simp only [Option.some.injEq, Except.ok.injEq] at e
      rw [e]
    · split at e
      · split at e
        · simp at e
        · simp at e
        · simp only [Option.some.injEq, Except.ok.injEq] at e
          rw [← e]
          split_ifs <;> rfl
      · simp only [Option.some.injEq, Except.ok.injEq] at e
        rw [e]

theorem call_setupflag {C : Cfg A} {s s' : FftLife} (hs : s.setupflag = true) {c : Call A} {h h' : Heap}
    (h2 : C.cls = .d2 → ∀ a, c ≠ .setup a) (e : s.call C c h = some (.ok (s', h'))) : s'.setupflag = true := by
  cases c with
  | assign m v =>
    simp only [FftLife.call, Option.some.injEq, Except.ok.injEq, Prod.mk.injEq] at e
    rw [← e.1]
    cases m <;> exact hs
  | setup a =>
    have h3 : C.cls = .d3 := by
      cases h : C.cls with
      | d3 => rfl
      | d2 => exact absurd rfl (h2 h a)
    simp [FftLife.call, FftLife.setup, hs, h3] at e
  | setupMemory sb rb =>
    simp only [FftLife.call, FftLife.setupMemory] at e
    split_ifs at e
    · simp at e
    · simp at e
    · simp only [Option.some.injEq, Except.ok.injEq, Prod.mk.injEq] at e
      rw [← e.1]
      exact hs
  | use u =>
    simp only [FftLife.call] at e
    split at e
    · simp at e
    · simp at e
    · rename_i x hx
      simp only [Option.some.injEq, Except.ok.injEq, Prod.mk.injEq] at e
      rw [← e.1]
      unfold FftLife.use at hx
      split_ifs at hx
      · simp at hx
      · simp only at hx
        split_ifs at hx
        · simp at hx
        · simp only [Option.bind_eq_bind, Option.bind_eq_some_iff] at hx
          obtain ⟨k, -, hx⟩ := hx
          rw [useData_setupflag hx, hs]
  | tune a t root own =>
    simp [FftLife.call, FftLife.tune, hs, tuneCheck] at e

/-- **C44 for `FFT3d` and `FFT2d`, part.**  After `setup` (or `tune`), assignments to `collective`, `exchange` and
`packflag` change the outcome of no later call: any history has the same outcome with and without them (the three
members themselves aside).

Missing: assignments to `memoryflag` (`C44_fft_memoryflag_false`); a second `setup` of an `FFT2d`, which is not
rejected and uses the new settings. -/
theorem C44_fft_partial {C : Cfg A} : ∀ (cs : List (Call A)) {s : FftLife} {h : Heap}, s.setupflag = true →
    (C.cls = .d2 → ∀ a, .setup a ∉ cs) →
    visible (s.calls C cs h) = visible (s.calls C (cs.filter fun c => !c.sets) h) := by
  have key : ∀ (cs : List (Call A)) {s : FftLife} {h : Heap} (st : Settings), s.setupflag = true →
      (C.cls = .d2 → ∀ a, .setup a ∉ cs) →
      visible ((s.withSettings st).calls C cs h) = visible (s.calls C (cs.filter fun c => !c.sets) h) := by
    intro cs
    induction cs with
    | nil => intros; rfl
    | cons c cs ih =>
      intro s h st hs h2
      have h2' : C.cls = .d2 → ∀ a, .setup a ∉ cs := fun hc a ha => h2 hc a (List.mem_cons_of_mem _ ha)
      have h2c : C.cls = .d2 → ∀ a, c ≠ .setup a := fun hc a ha => h2 hc a (by simp [ha])
      cases hc : c.sets with
      | true =>
        rw [List.filter_cons_of_neg (by simp [hc])]
        obtain ⟨m, v, rfl⟩ : ∃ m v, c = .assign m v := by
          cases c with
          | assign m v => exact ⟨m, v, rfl⟩
          | _ => simp [Call.sets] at hc
        obtain ⟨st', e⟩ : ∃ st', (s.withSettings st).assign m v = s.withSettings st' := by
          cases m with
          | collective => exact ⟨{ st with collective := v }, rfl⟩
          | exchange => exact ⟨{ st with exchange := v }, rfl⟩
          | packflag => exact ⟨{ st with packflag := v }, rfl⟩
          | _ => simp [Call.sets] at hc
        simp only [FftLife.calls, FftLife.call, e]
        exact ih st' hs h2'
      | false =>
        rw [List.filter_cons_of_pos (by simp [hc])]
        simp only [FftLife.calls, call_withSettings hs hc h2c]
        cases hx : s.call C c h with
        | none => rfl
        | some x =>
          cases x with
          | error e => rfl
          | ok r => exact ih st (call_setupflag hs h2c hx) h2'
  intro cs s h hs h2
  exact key cs s.t.st hs h2

/-- Example: the hypotheses hold after `setup`. -/
example : ∃ s h, runHistory (toyCfg .d3) [.setup false] Heap.empty = some (.ok (s, h)) ∧
    visible (s.calls (toyCfg .d3) [.assign .exchange 1, .use (.compute 1), .assign .packflag 0, .use (.compute (-1))] h) =
      visible (s.calls (toyCfg .d3) [.use (.compute 1), .use (.compute (-1))] h) := by
  have : ((runHistory (toyCfg .d3) [.setup false] Heap.empty).bind fun x => x.toOption.map fun x => x.1.setupflag) =
      some true := by decide +kernel
  obtain ⟨x, e1, h⟩ := Option.bind_eq_some_iff.1 this
  cases x with
  | error e => simp [Except.toOption] at h
  | ok x =>
    simp only [Except.toOption, Option.map_some, Option.some.injEq] at h
    exact ⟨x.1, x.2, e1, C44_fft_partial (C := toyCfg .d3) _ h (by simp [toyCfg])⟩

/-- **C44 is false** for `memoryflag`: after `setup` with `memoryflag = 1`, a call of `setup_memory` stops with an
error; after an assignment `memoryflag = 0` it does not. -/
theorem C44_fft_memoryflag_false (cls : Cls) :
    runHistory (toyCfg cls) [.setup false, .setupMemory (.user 128) (.user 128)] Heap.empty =
      some (.error .memoryWithFlag) ∧
    ∃ s h, runHistory (toyCfg cls) [.setup false, .assign .memoryflag 0, .setupMemory (.user 128) (.user 128)]
      Heap.empty = some (.ok (s, h)) := by
  have e2 : ((runHistory (toyCfg cls) [.setup false, .assign .memoryflag 0, .setupMemory (.user 128) (.user 128)]
      Heap.empty).bind fun x => x.toOption.map fun _ => ()) = some () := by
    cases cls <;> decide +kernel
  have e1 : ((runHistory (toyCfg cls) [.setup false, .setupMemory (.user 128) (.user 128)] Heap.empty).bind fun x =>
      match x with | .error e => some e | .ok _ => none) = some .memoryWithFlag := by
    cases cls <;> decide +kernel
  constructor
  · obtain ⟨x, e, h⟩ := Option.bind_eq_some_iff.1 e1
    cases x with
    | error y => rw [e]; simpa using h
    | ok x => simp at h
  · obtain ⟨x, e, h⟩ := Option.bind_eq_some_iff.1 e2
    cases x with
    | error y => simp [Except.toOption] at h
    | ok x => exact ⟨x.1, x.2, e⟩

/-! ## C47 -/

/-- **C47 for `FFT3d` and `FFT2d`, part.**  After any history without an error the destructor releases everything
that the object has made, each block once, and exactly the blocks from before are left.

Missing: the destructor of an `FFT2d` before `setup` (`C47_fft2d_before_setup_false`); an assignment to
`memoryflag` after `setup` or `tune` (`C47_fft_leak_false`, `C47_fft_user_false`).  The call of `sfree` through
the deleted `memory` is taken to work (`strict = false`), see `C47_fft_strict_false`. -/
theorem C47_fft_partial {C : Cfg A} (hC : C.strict = false) (hz : C.z.Pos) {bad : A → Bool} {h : Heap} (hw : h.WF)
    {cs : List (Call A)} (hg : GoodHistory C bad cs h) (he : firstError bad [] cs = none)
    (h2 : C.cls = .d2 → planned cs = true) (hf : (sincePlan cs).any Call.flags = false) :
    ∃ s h1 h2, runHistory C cs h = some (.ok (s, h1)) ∧ s.destroy C h1 = some h2 ∧ h2.live.Perm h.live := by
  have := history_inv hC hz hw hg
  rw [he] at this
  obtain ⟨s, h1, e, I⟩ := this
  obtain ⟨h3, e3, o3⟩ := I.destroy hC h2 hf
  exact ⟨s, h1, h3, e, e3, by simpa using o3.perm⟩

/-- **C47 for `FFT3d`, part**: the same with the `setup` of `FFT3d`. -/
theorem C47_fft3d_partial {lib : Option Package} {P me : Nat} {z : TypeSizes} (hz : z.Pos) {h : Heap} (hw : h.WF)
    {cs : List (Call Args3)} (hg : GoodHistory (cfg3 lib P me z) (bad3 P) cs h) (he : firstError (bad3 P) [] cs = none)
    (hf : (sincePlan cs).any Call.flags = false) :
    ∃ s h1 h2, runHistory (cfg3 lib P me z) cs h = some (.ok (s, h1)) ∧ s.destroy (cfg3 lib P me z) h1 = some h2 ∧
      h2.live.Perm h.live :=
  C47_fft_partial rfl hz hw hg he (by simp [cfg3]) hf

example (cls : Cls) : ∃ s h1 h2, runHistory (toyCfg cls) toyUserHistory Heap.empty = some (.ok (s, h1)) ∧
    s.destroy (toyCfg cls) h1 = some h2 ∧ h2.live.Perm [] :=
  C47_fft_partial rfl z64_pos Heap.empty_wf (toyUser_good cls _) (by decide) (fun _ => by decide) (by decide)

/-- **C47 is false** for `FFT2d` before `setup`: the destructor dereferences `fft_fast`, which is `NULL`, whatever
has been assigned. -/
theorem C47_fft2d_before_setup_false (C : Cfg A) (hC : C.cls = .d2) (h : Heap) (m : Member) (v : Int) :
    ((FftLife.create C.cls C.z h).1.assign m v).destroy C (FftLife.create C.cls C.z h).2 = none := by
  have hs : ((FftLife.create C.cls C.z h).1.assign m v).skel = none := by cases m <;> rfl
  unfold FftLife.destroy
  rw [hC]
  simp only [Option.bind_eq_bind, Option.bind_eq_none_iff, Option.map_eq_some_iff, FftLife.freeSetup]
  rw [hC] at hs
  intro h1 _ r hr
  obtain ⟨h2, hr, -⟩ := hr
  simp only [Option.bind_eq_some_iff, hs] at hr
  obtain ⟨_, _, _, _, _, hn, _⟩ := hr
  simp at hn

/-- **C47 is false** if `memoryflag` is set to 0 after `setup`: the two buffers are never freed. -/
theorem C47_fft_leak_false (cls : Cls) : ∃ s h1 h2,
    runHistory (toyCfg cls) [.setup false, .use (.compute 1), .assign .memoryflag 0] Heap.empty = some (.ok (s, h1)) ∧
      s.destroy (toyCfg cls) h1 = some h2 ∧ h2.live.length = 2 ∧ h2.bytes = 256 := by
  have : ((runHistory (toyCfg cls) [.setup false, .use (.compute 1), .assign .memoryflag 0] Heap.empty).bind fun x =>
      x.toOption.bind fun x => (x.1.destroy (toyCfg cls) x.2).map fun h2 => (h2.live.length, h2.bytes)) =
        some (2, 256) := by
    cases cls <;> decide +kernel
  obtain ⟨x, e1, h⟩ := Option.bind_eq_some_iff.1 this
  cases x with
  | error e => simp [Except.toOption] at h
  | ok x =>
    obtain ⟨h2, e2, h⟩ := Option.map_eq_some_iff.1 h
    simp only [Prod.mk.injEq] at h
    exact ⟨x.1, x.2, h2, e1, e2, h⟩

/-- **C47 is false** if `memoryflag` is set to 1 after `setup_memory`: the destructor frees the caller's memory. -/
theorem C47_fft_user_false (cls : Cls) : ∃ s h1,
    runHistory (toyCfg cls) (toyUserHistory ++ [.assign .memoryflag 1]) Heap.empty = some (.ok (s, h1)) ∧
      s.destroy (toyCfg cls) h1 = none := by
  have : ((runHistory (toyCfg cls) (toyUserHistory ++ [.assign .memoryflag 1]) Heap.empty).bind fun x =>
      x.toOption.map fun x => (x.1.destroy (toyCfg cls) x.2).isNone) = some true := by
    cases cls <;> decide +kernel
  obtain ⟨x, e1, h⟩ := Option.bind_eq_some_iff.1 this
  cases x with
  | error e => simp [Except.toOption] at h
  | ok x =>
    simp only [Except.toOption, Option.map_some, Option.some.injEq, Option.isNone_iff_eq_none] at h
    exact ⟨x.1, x.2, e1, h⟩

/-- **C47 is false** by the rule that no member function of a deleted object may be called: once a remap exists,
every destruction breaks it. -/
theorem C47_fft_strict_false {C : Cfg A} (hC : C.strict = true) {s : FftLife} {p : PairLife} (hs : s.setupflag = true)
    (hp : some p ∈ s.fwd) (h : Heap) : s.destroy C h = none := by
  have key : ∀ (ps : List (Option PairLife)) (h : Heap), some p ∈ ps → destroyPairs true ps h = none := by
    intro ps
    induction ps with
    | nil => intro h hp; simp at hp
    | cons q ps ih =>
      intro h hp
      cases q with
      | none => exact ih h (by simpa using hp)
      | some q => simp only [destroyPairs, PairLife.destroy, RemapLife.destroy_strict, Option.bind_eq_bind, Option.bind_none]
  have hf : ∀ h, s.freeSetup C h = none := by
    intro h
    simp only [FftLife.freeSetup, hC, key s.fwd h hp, Option.bind_eq_bind, Option.bind_none]
  unfold FftLife.destroy
  simp only [Option.bind_eq_bind, Option.bind_eq_none_iff]
  intro h1 _
  cases hc : C.cls with
  | d3 => simp [hs, FftLife.deallocateSetup, hf]
  | d2 => simp [hf]

example (cls : Cls) : ∃ s h, runHistory { toyCfg cls with strict := true } [.setup false] Heap.empty =
    some (.ok (s, h)) ∧ s.destroy { toyCfg cls with strict := true } h = none := by
  have : ((runHistory { toyCfg cls with strict := true } [.setup false] Heap.empty).bind fun x =>
      x.toOption.map fun x => (x.1.setupflag, x.1.fwd.any fun p => p.isSome)) = some (true, true) := by
    cases cls <;> decide +kernel
  obtain ⟨x, e1, h⟩ := Option.bind_eq_some_iff.1 this
  cases x with
  | error e => simp [Except.toOption] at h
  | ok x =>
    simp only [Except.toOption, Option.map_some, Option.some.injEq, Prod.mk.injEq, List.any_eq_true] at h
    obtain ⟨h1, p, hp, hp'⟩ := h
    obtain ⟨q, rfl⟩ := Option.isSome_iff_exists.1 hp'
    exact ⟨x.1, x.2, e1, C47_fft_strict_false rfl h1 hp _⟩

end FftMpi
