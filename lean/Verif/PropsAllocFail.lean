import Verif.AllocFailPerf
import Verif.PropsLifecycle

/-!
# Property C69: requests for memory that are denied

`g : Oracle` says which requests are granted.  Outcomes: the program goes on (`ok`), it is ended with a message or an
exception (`stop`), or a null pointer is used (`ub`).
-/

namespace FftMpi

/-! ## Remaps -/

variable {α E π : Type}

theorem remapSetup_ranks {D : Dim α E π} {P me : Nat} {ins outs : Nat → E} {nqty permute pk : Int} {coll : Bool}
    {o : RemapObj α π} (_h : remapSetup D P me ins outs nqty permute pk coll = some o) (hP : 0 < P) :
    0 < (o.skel P).nprocs := hP

/-- **C69 for a remap, part.**  `setup` of a `Remap3d` or `Remap2d`, all modes: `setupReqs` lists the requests in
order; the first one that is denied decides.  If none is denied the result is that of `setup` with enough memory.

Missing: in collective mode the requests for `pflag` and `pgroup` are not checked (`C69_remap_false`). -/
theorem C69_remap_partial {D : Dim α E π} {P me : Nat} (hP : 0 < P) {ins outs : Nat → E} {nqty permute : Int}
    (hD : D.SizesOK nqty) (hout : 0 ≤ D.size nqty (outs me)) {z : TypeSizes} (hz : z.Pos) (mf collective packflag : Int)
    {o : RemapObj α π} (ho : remapSetup D P me ins outs nqty permute packflag (decide (collective ≠ 0)) = some o)
    {h : Heap} (hw : h.WF) (g : Oracle) (n : Nat) :
    let r := (newRemapLife collective packflag h).1
    let t : AHeap := ⟨(newRemapLife collective packflag h).2, n⟩
    match firstDenied g n (RemapLife.setupReqs (o.skel P) mf (decide (collective ≠ 0))) with
    | none => ∃ r1 h1 n1, r.setupWith D P me ins outs nqty permute mf z t.heap = some (r1, h1) ∧
        r.setupA z (o.skel P) mf g t = .ok (r1, ⟨h1, n1⟩)
    | some .fatal => r.setupA z (o.skel P) mf g t = .ub
    | some _ => ∃ e, r.setupA z (o.skel P) mf g t = .stop e := by
  intro r t
  have hk := (remapSetup_skel hD hout ho).1
  obtain ⟨r1, h1, e, -⟩ := setupWith_ok hD hout hz mf collective packflag ho hw.owns
  have hs : r.setup z (o.skel P) mf t.heap = some (r1, h1) := by
    unfold RemapLife.setupWith at e
    rw [show (newRemapLife collective packflag h).1.packflag = packflag from rfl,
      show (newRemapLife collective packflag h).1.collective = collective from rfl, ho] at e
    exact e
  have hn : t.heap.Named := (newRemapLife_owns collective packflag hw.owns).below
  have H := (RemapLife.setupA_sp hz hk (remapSetup_ranks ho hP) mf r g t r1 h1 hn hs).2
  rw [show decide (r.collective ≠ 0) = decide (collective ≠ 0) from rfl] at H
  cases hd : firstDenied g n (RemapLife.setupReqs (o.skel P) mf (decide (collective ≠ 0))) with
  | none =>
    rw [show t.asked = n from rfl, hd] at H
    exact ⟨r1, h1, _, e, H⟩
  | some c =>
    rw [show t.asked = n from rfl, hd] at H
    cases c <;> exact H

theorem firstDenied_all {g : Oracle} {L : List Care} {c : Care} (hc : c ≠ .unused) (h : ∀ d ∈ L, d = c) (k : Nat) :
    ((∀ i < L.length, g (k + i) = true) → firstDenied g k L = none) ∧
      ((∃ i < L.length, g (k + i) = false) → firstDenied g k L = some c) := by
  constructor
  · intro hg
    refine firstDenied_none.2 fun i d hi _ => hg i ?_
    exact (List.getElem?_eq_some_iff.1 hi).1
  · rintro ⟨i, hi, hg⟩
    cases hd : firstDenied g k L with
    | none =>
      have := firstDenied_none.1 hd i _ (List.getElem?_eq_getElem hi) (by rw [h _ (List.getElem_mem hi)]; exact hc)
      rw [hg] at this
      exact absurd this (by simp)
    | some d =>
      obtain ⟨-, j, hj, -⟩ := firstDenied_some.1 hd
      rw [h d (List.mem_of_getElem? hj)]

/-- Number of requests in point-to-point mode: the boxes of all ranks, four lists of sends, six of receives, two
buffers; nothing is asked for that has no entries. -/
def p2pRequests (k : RSkel) (memoryflag : Int) : Nat :=
  2 + (if k.nsendAll ≠ 0 then 4 else 0) + (if k.nrecvAll ≠ 0 then 6 else 0) +
    (if memoryflag ≠ 0 ∧ k.sendsize ≠ 0 then 1 else 0) + (if memoryflag ≠ 0 ∧ k.recvsize ≠ 0 then 1 else 0)

theorem p2p_reqs (k : RSkel) (mf : Int) : RemapLife.setupReqs k mf false = List.replicate (p2pRequests k mf) .reported := by
  unfold RemapLife.setupReqs RemapLife.bufReqs p2pRequests
  simp only [Bool.false_eq_true, if_false, List.append_nil, ← List.replicate_add]
  rw [← List.replicate_succ, ← List.replicate_succ]
  congr 1
  ring

/-- **C69 for a remap in point-to-point mode**: with `p2pRequests` requests granted `setup` succeeds, and if one of
them is denied the program is ended; a null pointer is never used. -/
theorem C69_remap_p2p {D : Dim α E π} {P me : Nat} (hP : 0 < P) {ins outs : Nat → E} {nqty permute : Int}
    (hD : D.SizesOK nqty) (hout : 0 ≤ D.size nqty (outs me)) {z : TypeSizes} (hz : z.Pos) (mf packflag : Int)
    {o : RemapObj α π} (ho : remapSetup D P me ins outs nqty permute packflag false = some o)
    {h : Heap} (hw : h.WF) (g : Oracle) (n : Nat) :
    let r := (newRemapLife 0 packflag h).1
    let t : AHeap := ⟨(newRemapLife 0 packflag h).2, n⟩
    ((∀ i < p2pRequests (o.skel P) mf, g (n + i) = true) →
      ∃ r1 h1 n1, r.setupWith D P me ins outs nqty permute mf z t.heap = some (r1, h1) ∧
        r.setupA z (o.skel P) mf g t = .ok (r1, ⟨h1, n1⟩)) ∧
    ((∃ i < p2pRequests (o.skel P) mf, g (n + i) = false) → ∃ e, r.setupA z (o.skel P) mf g t = .stop e) := by
  intro r t
  have H := C69_remap_partial hP hD hout hz mf 0 packflag (o := o) (by simpa using ho) hw g n
  rw [show decide ((0 : Int) ≠ 0) = false from rfl, p2p_reqs] at H
  have F := firstDenied_all (g := g) (L := List.replicate (p2pRequests (o.skel P) mf) .reported) (c := .reported)
    (by simp) (fun d hd => List.eq_of_mem_replicate hd) n
  rw [List.length_replicate] at F
  refine ⟨fun hg => ?_, fun hg => ?_⟩
  · rw [F.1 hg] at H
    exact H
  · rw [F.2 hg] at H
    exact H

/-- Example: the box of `lifeBox`; 13 requests. -/
example (g : Oracle) : ∃ o, remapSetup (dim3 (α := Int)) 1 0 lifeBox lifeBox 2 0 0 false = some o ∧
    ((∃ i < p2pRequests (o.skel 1) 1, g (3 + i) = false) →
      ∃ e, (newRemapLife 0 0 Heap.empty).1.setupA z64 (o.skel 1) 1 g ⟨(newRemapLife 0 0 Heap.empty).2, 3⟩ = .stop e) := by
  obtain ⟨o, ho⟩ : ∃ o, remapSetup (dim3 (α := Int)) 1 0 lifeBox lifeBox 2 0 0 false = some o :=
    Option.isSome_iff_exists.1 (by decide +kernel)
  exact ⟨o, ho, (C69_remap_p2p (by decide) (sizesOK3 (by decide)) (by decide) z64_pos 1 0 ho Heap.empty_wf g 3).2⟩

example : (remapSetup (dim3 (α := Int)) 1 0 lifeBox lifeBox 2 0 0 false).map (fun o => p2pRequests (o.skel 1) 1) = some 13 := by
  decide +kernel

/-- **C69 is false** for a remap in collective mode: the request for `pflag` is denied, all others are granted, and
`pflag[0]` is written (remap3d.cpp:438-440). -/
theorem C69_remap_false : ∃ o g, remapSetup (dim3 (α := Int)) 1 0 lifeBox lifeBox 2 0 0 true = some o ∧
    (∀ i, g i = true ∨ i = 12) ∧
    (newRemapLife 1 0 Heap.empty).1.setupA z64 (o.skel 1) 1 g ⟨(newRemapLife 1 0 Heap.empty).2, 0⟩ = .ub := by
  obtain ⟨o, ho⟩ : ∃ o, remapSetup (dim3 (α := Int)) 1 0 lifeBox lifeBox 2 0 0 true = some o :=
    Option.isSome_iff_exists.1 (by decide +kernel)
  refine ⟨o, fun i => decide (i ≠ 12), ho, fun i => ?_, ?_⟩
  · by_cases h : i = 12 <;> simp [h]
  · have H := C69_remap_partial (by decide) (sizesOK3 (by decide)) (by decide) z64_pos 1 1 0 (o := o) ho Heap.empty_wf
      (fun i => decide (i ≠ 12)) 0
    have hd : firstDenied (fun i => decide (i ≠ 12)) 0 (RemapLife.setupReqs (o.skel 1) 1 (decide ((1 : Int) ≠ 0))) =
        some .fatal := by
      have : (remapSetup (dim3 (α := Int)) 1 0 lifeBox lifeBox 2 0 0 true).map (fun o =>
        firstDenied (fun i => decide (i ≠ 12)) 0 (RemapLife.setupReqs (o.skel 1) 1 (decide ((1 : Int) ≠ 0)))) =
          some (some .fatal) := by decide +kernel
      rw [ho] at this
      exact Option.some.inj this
    rw [hd] at H
    exact H

/-! ## `FFT3d` and `FFT2d` -/

variable {A : Type}

/-- **C69 for `setup` of `FFT3d` and `FFT2d` (KISS), part.**  `s0` and `h0` are what `setup` with enough memory leads to.
`preReqs` are the requests before those for the plans; then come `planCount` requests for plans, which are not checked,
then the buffers.  A plan that is missing does not end `setup`: the object then has a null pointer for a plan, see
`C69_missing_plan`.

Missing: see `C69_remap_false`, `C69_plan_false`. -/
theorem C69_fft_partial {C : Cfg A} (hz : C.z.Pos) (hl : C.lib = none) {a : A} {k : FSkel} (hk : k.OK C.cls)
    (h1 : ∀ q, some q ∈ k.fwd ∨ some q ∈ k.inv → q.Ranks) {s s0 : FftLife} {h0 : Heap} (hi : s.Idle C.cls)
    (hp : C.plan a s.t.st = some (.ok k)) (g : Oracle) (t : AHeap) (hw : t.heap.WF)
    (hs : s.setup C a t.heap = some (.ok (s0, h0))) :
    match firstDenied g t.asked (FftLife.preReqs C.cls k) with
    | some .fatal => FftLife.buildA C.cls C.z k s g t = .ub
    | some _ => ∃ e, FftLife.buildA C.cls C.z k s g t = .stop e
    | none =>
      let n := t.asked + (FftLife.preReqs C.cls k).length
      match firstDenied g (n + planCount C.cls k) (FftLife.bufReqs k s.t.memoryflag) with
      | some _ => ∃ e, FftLife.buildA C.cls C.z k s g t = .stop e
      | none => ∃ s' t', FftLife.buildA C.cls C.z k s g t = .ok (s', t') ∧
          ((∀ i < planCount C.cls k, g (n + i) = true) → s' = s0 ∧ t'.heap = h0) ∧
          ((∃ i < planCount C.cls k, g (n + i) = false) → ∃ fs, s'.ffts = some fs ∧ NoPlan fs) := by
  have H := FftLife.buildA_out hz hl hk (fun q hq => h1 q (Or.inl hq)) (fun q hq => h1 q (Or.inr hq))
    (by rw [hi.fwd, List.length_replicate]) (by rw [hi.inv, List.length_replicate]) hp g t hw.below hs
  cases hd : firstDenied g t.asked (FftLife.preReqs C.cls k) with
  | some c =>
    rw [hd] at H
    cases c <;> exact H
  | none =>
    rw [hd] at H
    dsimp only at H ⊢
    cases hd2 : firstDenied g (t.asked + (FftLife.preReqs C.cls k).length + planCount C.cls k)
      (FftLife.bufReqs k s.t.memoryflag) with
    | some c =>
      rw [hd2] at H
      exact H
    | none =>
      rw [hd2] at H
      obtain ⟨s', h', -, e, x, y⟩ := H
      exact ⟨s', _, e, x, y⟩

theorem plan3_ranks {P me : Nat} (hP : 0 < P) {a : Args3} {st : Settings} {k : FSkel}
    (h : plan3 P me a st = some (.ok k)) : ∀ q, some q ∈ k.fwd ∨ some q ∈ k.inv → q.Ranks := by
  unfold plan3 at h
  obtain ⟨x, -, hx⟩ := Option.map_eq_some_iff.1 h
  have key : ∀ (l : List (Option (RemapPair ℝ))) (q : PSkel), some q ∈ l.map (Option.map (RemapPair.pskel P)) → q.Ranks := by
    intro l q hq
    obtain ⟨p, -, hp⟩ := List.mem_map.1 hq
    obtain ⟨p, -, rfl⟩ := Option.map_eq_some_iff.1 hp
    refine ⟨hP, fun x c hc => ?_⟩
    obtain ⟨y, -, hy⟩ := Option.map_eq_some_iff.1 hc
    obtain ⟨rfl, -⟩ := Prod.mk.inj hy
    exact hP
  cases x with
  | error e => exact absurd hx (by simp)
  | ok f =>
    obtain rfl := Except.ok.inj hx
    intro q hq
    rcases hq with hq | hq
    · exact key _ q hq
    · exact key _ q hq

/-- **C69 for `FFT3d`, part**: the same with the `setup` of `FFT3d` on rank `me` of `P`. -/
theorem C69_fft3d_partial {P me : Nat} (hme : me < P) {z : TypeSizes} (hz : z.Pos) {a : Args3} (ha : FineArgs3 P me a)
    {s s0 : FftLife} {h0 : Heap} (hi : s.Idle .d3) (hst : GoodSettings s.t.st) (g : Oracle) (t : AHeap) (hw : t.heap.WF)
    (hs : s.setup (cfg3 none P me z) a t.heap = some (.ok (s0, h0))) :
    ∃ k, plan3 P me a s.t.st = some (.ok k) ∧
    match firstDenied g t.asked (FftLife.preReqs .d3 k) with
    | some .fatal => FftLife.buildA .d3 z k s g t = .ub
    | some _ => ∃ e, FftLife.buildA .d3 z k s g t = .stop e
    | none =>
      let n := t.asked + (FftLife.preReqs .d3 k).length
      match firstDenied g (n + planCount .d3 k) (FftLife.bufReqs k s.t.memoryflag) with
      | some _ => ∃ e, FftLife.buildA .d3 z k s g t = .stop e
      | none => ∃ s' t', FftLife.buildA .d3 z k s g t = .ok (s', t') ∧
          ((∀ i < planCount .d3 k, g (n + i) = true) → s' = s0 ∧ t'.heap = h0) ∧
          ((∃ i < planCount .d3 k, g (n + i) = false) → ∃ fs, s'.ffts = some fs ∧ NoPlan fs) := by
  obtain ⟨k, hk, -⟩ := setup_skel hs
  have A := argsOK3 (lib := none) hme z ha
  have hb : bad3 P a = false := by
    cases hb : bad3 P a with
    | false => rfl
    | true =>
      obtain ⟨e, he⟩ := A.2 hb s.t.st hst
      rw [hk] at he
      exact absurd he (by simp)
  obtain ⟨k', hk', hok⟩ := A.1 hb s.t.st hst
  have e := hk.symm.trans hk'
  obtain rfl := Except.ok.inj (Option.some.inj e)
  exact ⟨k, hk, C69_fft_partial (C := cfg3 none P me z) hz rfl hok (plan3_ranks (by omega) hk) hi hk g t hw hs⟩

/-- Example: `setup` of `sameArgs` on 2 ranks meets the hypotheses; all granted. -/
example {me : Nat} (hme : me < 2) : ∃ k s0 t', FftLife.buildA .d3 z64 k (FftLife.create .d3 z64 Heap.empty).1
    (fun _ => true) ⟨(FftLife.create .d3 z64 Heap.empty).2, 0⟩ = .ok (s0, t') := by
  have ha := argsOK3 (lib := none) hme z64 (sameArgs_fine hme)
  have hb : bad3 2 sameArgs = false := by
    by_contra hb
    rw [Bool.not_eq_false] at hb
    obtain ⟨f, S⟩ := setUp3_exists sameArgs_valid (st := ⟨0, 0, 0⟩) (by simp [Settings.Valid])
    have e := S.result 0 (by decide)
    obtain ⟨x, hx⟩ := Option.isSome_iff_exists.1 hb
    simp [fft3Setup, hx] at e
  have H := C30_fft3d_partial (lib := none) (P := 2) (me := me) z64_pos Heap.empty_wf (cs := [.setup sameArgs])
    ⟨⟨ha, by simp [cfg3]⟩, fun _ _ _ => trivial⟩
  have e : firstError (bad3 2) [] [.setup sameArgs] = none := by
    simp [firstError, expected, planned, FftLife.Call.plans, hb]
  rw [e] at H
  obtain ⟨s0, h0, H⟩ := H
  have hs : (FftLife.create .d3 z64 Heap.empty).1.setup (cfg3 none 2 me z64) sameArgs (FftLife.create .d3 z64 Heap.empty).2 =
      some (.ok (s0, h0)) := by
    unfold runHistory FftLife.calls FftLife.call at H
    change (match (FftLife.create .d3 z64 Heap.empty).1.setup (cfg3 none 2 me z64) sameArgs
      (FftLife.create .d3 z64 Heap.empty).2 with
      | none => none
      | some (Except.error e) => some (Except.error e)
      | some (Except.ok (s, h)) => FftLife.calls (cfg3 none 2 me z64) [] s h) = _ at H
    split at H
    · exact absurd H (by simp)
    · exact absurd H (by simp)
    · rename_i s h heq
      rw [heq]
      exact H
  obtain ⟨k, -, K⟩ := C69_fft3d_partial hme z64_pos (sameArgs_fine hme)
    (by constructor <;> rfl) ⟨by decide, by decide, by decide⟩ (fun _ => true)
    ⟨(FftLife.create .d3 z64 Heap.empty).2, 0⟩ ⟨by decide, by decide⟩ hs
  have hn : ∀ (L : List Care) n, firstDenied (fun _ => true) n L = none := fun L n => firstDenied_none.2 fun _ _ _ _ => rfl
  rw [hn] at K
  dsimp only at K
  rw [hn] at K
  obtain ⟨s', t', K, -⟩ := K
  exact ⟨k, s', t', K⟩

/-- All remaps in point-to-point mode. -/
def PSkel.P2P (q : PSkel) : Prop := q.mainColl = false ∧ ∀ x c, q.extra = some (x, c) → c = false

theorem PSkel.P2P.reqs {q : PSkel} (h : q.P2P) : ∀ c ∈ q.reqs, c = .reported := by
  have key : ∀ k : RSkel, ∀ c ∈ remapReqs k false, c = .reported := by
    intro k c hc
    unfold remapReqs at hc
    rw [p2p_reqs] at hc
    rcases List.mem_append.1 hc with h | h
    · simpa using h
    · exact List.eq_of_mem_replicate h
  intro c hc
  unfold PSkel.reqs at hc
  rw [h.1] at hc
  rcases List.mem_cons.1 hc with h1 | h1
  · exact h1
  rcases List.mem_append.1 h1 with h1 | h1
  · exact key _ _ h1
  · cases hx : q.extra with
    | none =>
      rw [hx] at h1
      exact absurd h1 (by simp)
    | some x =>
      obtain ⟨x, b⟩ := x
      rw [hx] at h1
      have hb := h.2 x b hx
      subst hb
      exact key _ _ h1

/-- **C69 for `setup` of `FFT3d` and `FFT2d`, point-to-point mode**: whatever is denied, `setup` uses no null pointer; it
succeeds if all is granted. -/
theorem C69_fft_p2p {C : Cfg A} (hz : C.z.Pos) (hl : C.lib = none) {a : A} {k : FSkel} (hk : k.OK C.cls)
    (h1 : ∀ q, some q ∈ k.fwd ∨ some q ∈ k.inv → q.Ranks ∧ q.P2P) {s s0 : FftLife} {h0 : Heap} (hi : s.Idle C.cls)
    (hp : C.plan a s.t.st = some (.ok k)) (g : Oracle) (t : AHeap) (hw : t.heap.WF)
    (hs : s.setup C a t.heap = some (.ok (s0, h0))) :
    FftLife.buildA C.cls C.z k s g t ≠ .ub ∧
      ((∀ i, g i = true) → ∃ t', FftLife.buildA C.cls C.z k s g t = .ok (s0, t') ∧ t'.heap = h0) := by
  have H := C69_fft_partial hz hl hk (fun q hq => (h1 q hq).1) hi hp g t hw hs
  have hr : ∀ c ∈ FftLife.preReqs C.cls k, c = .reported := by
    intro c hc
    have hpairs : ∀ ks, (∀ q, some q ∈ ks → q.P2P) → c ∈ pairsReqs ks → c = .reported := by
      intro ks hks hc
      unfold pairsReqs at hc
      obtain ⟨q, hq, hc⟩ := List.mem_flatMap.1 hc
      cases q with
      | none => exact absurd hc (by simp)
      | some q => exact (hks q hq).reqs c hc
    unfold FftLife.preReqs at hc
    rcases List.mem_append.1 hc with h | h
    · exact hpairs _ (fun q hq => (h1 q (Or.inl hq)).2) h
    rcases List.mem_append.1 h with h | h
    · exact hpairs _ (fun q hq => (h1 q (Or.inr hq)).2) h
    · cases hcls : C.cls <;> rw [hcls] at h <;> simpa [fftObjReqs] using h
  constructor
  · cases hd : firstDenied g t.asked (FftLife.preReqs C.cls k) with
    | some c =>
      rw [hd] at H
      obtain ⟨-, i, hi, -⟩ := firstDenied_some.1 hd
      rw [hr c (List.mem_of_getElem? hi)] at H
      obtain ⟨e, he⟩ := H
      rw [he]
      simp
    | none =>
      rw [hd] at H
      dsimp only at H
      split at H
      · obtain ⟨e, he⟩ := H
        rw [he]
        simp
      · obtain ⟨s', t', he, -⟩ := H
        rw [he]
        simp
  · intro hg
    have hn : ∀ (L : List Care) n, firstDenied g n L = none := fun L n => firstDenied_none.2 fun i _ _ _ => hg _
    rw [hn] at H
    dsimp only at H
    rw [hn] at H
    obtain ⟨s', t', he, hx, -⟩ := H
    obtain ⟨rfl, h4⟩ := hx fun i _ => hg _
    exact ⟨t', he, h4⟩

/-- Example: a 2d FFT with one remap from point to point. -/
def p2pSkel : FSkel := { toySkel .d2 with fwd := [none, some ⟨toyRemap, false, some (toyRemap, false)⟩, none] }

def p2pCfg : Cfg Bool := { toyCfg .d2 with plan := fun _ _ => some (.ok p2pSkel) }

example (g : Oracle) : FftLife.buildA .d2 z64 p2pSkel (FftLife.create .d2 z64 Heap.empty).1 g
    ⟨(FftLife.create .d2 z64 Heap.empty).2, 0⟩ ≠ .ub := by
  have ok : PSkel.OK 16 16 ⟨toyRemap, false, some (toyRemap, false)⟩ := by
    refine ⟨⟨⟨?_, ?_, ?_, ?_⟩, ?_, ?_⟩, ?_⟩
    all_goals try simp [toyRemap]
    refine ⟨?_, ?_, ?_, ?_⟩ <;> simp
  have hk : p2pSkel.OK .d2 := by
    refine ⟨rfl, rfl, ?_, ?_, by decide, by decide, by decide⟩
    · intro k hk
      simp only [p2pSkel, List.mem_cons, Option.some.injEq, reduceCtorEq, false_or, List.not_mem_nil, or_false] at hk
      rw [hk]
      exact ok
    · intro k hk
      simp [p2pSkel, toySkel, Cls.npairs] at hk
  obtain ⟨s0, h0, hs⟩ : ∃ s0 h0, (FftLife.create .d2 z64 Heap.empty).1.setup p2pCfg false
      (FftLife.create .d2 z64 Heap.empty).2 = some (.ok (s0, h0)) := ⟨_, _, rfl⟩
  refine (C69_fft_p2p (C := p2pCfg) z64_pos rfl hk ?_ (by constructor <;> rfl) (a := false) rfl g
    ⟨(FftLife.create .d2 z64 Heap.empty).2, 0⟩ ⟨by decide, by decide⟩ hs).1
  intro q hq
  simp only [p2pSkel, toySkel, Cls.npairs, List.mem_cons, Option.some.injEq, reduceCtorEq, false_or, List.not_mem_nil,
    or_false, List.mem_replicate, and_false] at hq
  subst hq
  refine ⟨⟨by decide, fun x c h => ?_⟩, rfl, fun x c h => ?_⟩
  · obtain ⟨rfl, -⟩ := Prod.mk.inj (Option.some.inj h)
    decide
  · exact (Prod.mk.inj (Option.some.inj h)).2.symm

/-! ## 1d FFTs -/

/-- Temporary arrays for one line of `n` numbers with the factors `l`: one for the line, and one for each of the
`n / (p * m)` pieces of a stage whose radix `p` has no butterfly of its own. -/
def lineRequests (n : Nat) (l : List (Nat × Nat)) : Nat :=
  1 + (l.map fun e => if e.1 = 2 ∨ e.1 = 3 ∨ e.1 = 4 ∨ e.1 = 5 then 0 else n / (e.1 * e.2)).sum

/-- **C69 for `perform_ffts` with KISS, part**: with an existing plan, if all requests are granted then all temporary
memory is released again.

Missing: no request is checked; see `C69_perform_false` for every one that is denied. -/
theorem C69_perform_partial {n : Nat} (hn : 1 ≤ n) (hs : n < 2 ^ 31) {l : List (Nat × Nat)} (hl : kfFactor n = some l)
    {c : Int} (hc : 0 < c) {plan : Ptr} (hp : plan ≠ .null) (lines : Nat) (g : Oracle) (t : AHeap) (hw : t.heap.WF)
    (hg : ∀ i < lines * lineRequests n l, g (t.asked + i) = true) :
    ∃ t', performA plan c n l lines g t = .ok ((), t') ∧ t'.heap.live = t.heap.live := by
  obtain ⟨l', e, hch, -⟩ := kfFactor_chain hn (by omega : n < 2 ^ 32)
  rw [hl] at e
  obtain rfl := Option.some.inj e
  have H := (performA_sp hc hn hch hp lines g t () _ hw.below rfl).2
  have F := firstDenied_all (g := g) (L := List.replicate (lines * (workReqs l + 1)) .fatal) (c := .fatal) (by simp)
    (fun d hd => List.eq_of_mem_replicate hd) t.asked
  rw [List.length_replicate, workReqs_eq hch, Nat.add_comm] at F
  rw [workReqs_eq hch, Nat.add_comm] at H
  rw [F.1 hg] at H
  exact ⟨_, H, rfl⟩

/-- **C69 is false** in `perform_ffts` with KISS, for every length, every number of lines and every request: if one is
denied then a null pointer is used (kissfft.h:337-341, 469-470); so `compute` never reports missing memory. -/
theorem C69_perform_false {n : Nat} (hn : 1 ≤ n) (hs : n < 2 ^ 31) {l : List (Nat × Nat)} (hl : kfFactor n = some l)
    {c : Int} (hc : 0 < c) {plan : Ptr} (hp : plan ≠ .null) (lines : Nat) (g : Oracle) (t : AHeap) (hw : t.heap.WF)
    (hg : ∃ i < lines * lineRequests n l, g (t.asked + i) = false) :
    performA plan c n l lines g t = .ub := by
  obtain ⟨l', e, hch, -⟩ := kfFactor_chain hn (by omega : n < 2 ^ 32)
  rw [hl] at e
  obtain rfl := Option.some.inj e
  have H := (performA_sp hc hn hch hp lines g t () _ hw.below rfl).2
  have F := firstDenied_all (g := g) (L := List.replicate (lines * (workReqs l + 1)) .fatal) (c := .fatal) (by simp)
    (fun d hd => List.eq_of_mem_replicate hd) t.asked
  rw [List.length_replicate, workReqs_eq hch, Nat.add_comm] at F
  rw [workReqs_eq hch, Nat.add_comm] at H
  rw [F.2 hg] at H
  exact H

/-- Example: a line of 14 points, factors 2 and 7: one array for the line and two for the butterflies of radix 7. -/
example : (kfFactor 14).map (lineRequests 14) = some 3 := by decide +kernel

example (g : Oracle) (hg : g 2 = false) : performA (.blk 0) 16 14 [(2, 7), (7, 1)] 5 g ⟨Heap.empty, 0⟩ = .ub :=
  C69_perform_false (by decide) (by decide) (by decide +kernel) (by decide) (by simp) 5 g _ Heap.empty_wf
    ⟨2, by decide, hg⟩

/-- **C69 is false**: an object whose `setup` got no memory for a plan (`C69_fft_partial`) uses a null pointer as soon as
one line is transformed in that direction. -/
theorem C69_missing_plan_false {fs : List Fft1dLife} (h : NoPlan fs) : ∃ f ∈ fs, ∃ plan ∈ [f.planF, f.planB],
    ∀ (c : Int) (n : Nat) (l : List (Nat × Nat)) (lines : Nat) (g : Oracle) (t : AHeap), lines ≠ 0 →
      performA plan c n l lines g t = .ub := by
  obtain ⟨f, hf, hp⟩ := h
  refine ⟨f, hf, .null, ?_, fun c n l lines g t h0 => performA_null h0 g t⟩
  rcases hp with hp | hp <;> simp [hp]

theorem toy_ranks (cls : Cls) : ∀ q, some q ∈ (toySkel cls).fwd ∨ some q ∈ (toySkel cls).inv → q.Ranks := by
  intro q hq
  cases cls <;> simp [toySkel, Cls.npairs] at hq
  · rcases hq with rfl | rfl <;> exact ⟨by decide, by simp⟩
  · rcases hq with rfl | rfl <;> exact ⟨by decide, by simp⟩

theorem toy_setup (cls : Cls) : ∃ s0 h0, (FftLife.create cls z64 Heap.empty).1.setup (toyCfg cls) false
    (FftLife.create cls z64 Heap.empty).2 = some (.ok (s0, h0)) := by
  cases cls <;> exact ⟨_, _, rfl⟩

theorem create_wf (cls : Cls) : (FftLife.create cls z64 Heap.empty).2.WF := by
  cases cls <;> exact ⟨by decide, by decide⟩

theorem create_idle (cls : Cls) : (FftLife.create cls z64 Heap.empty).1.Idle cls := by
  cases cls <;> constructor <;> rfl

/-- **C69 is false** for `setup` of `FFT3d` and `FFT2d`: one request is denied, `setup` returns as if nothing had happened,
and a plan is missing. -/
theorem C69_plan_false (cls : Cls) : ∃ g s' t' fs, (∃! i, g i = false) ∧
    FftLife.buildA cls z64 (toySkel cls) (FftLife.create cls z64 Heap.empty).1 g ⟨(FftLife.create cls z64 Heap.empty).2, 0⟩ =
      .ok (s', t') ∧ s'.ffts = some fs ∧ NoPlan fs := by
  obtain ⟨s0, h0, hs⟩ := toy_setup cls
  set N := (FftLife.preReqs cls (toySkel cls)).length with hN
  have H := C69_fft_partial (C := toyCfg cls) z64_pos rfl (toySkel_ok cls) (toy_ranks cls) (create_idle cls) (a := false) rfl
    (fun i => decide (i ≠ N)) ⟨(FftLife.create cls z64 Heap.empty).2, 0⟩ (create_wf cls) hs
  have d1 : firstDenied (fun i => decide (i ≠ N)) 0 (FftLife.preReqs cls (toySkel cls)) = none := by
    refine firstDenied_none.2 fun i c hi _ => ?_
    have := (List.getElem?_eq_some_iff.1 hi).1
    simp only [decide_eq_true_eq]
    omega
  have hc : 0 < planCount cls (toySkel cls) := by cases cls <;> decide
  have d2 : firstDenied (fun i => decide (i ≠ N)) (0 + N + planCount cls (toySkel cls))
      (FftLife.bufReqs (toySkel cls) (FftLife.create cls z64 Heap.empty).1.t.memoryflag) = none := by
    refine firstDenied_none.2 fun i c hi _ => ?_
    simp only [decide_eq_true_eq]
    omega
  change (match firstDenied (fun i => decide (i ≠ N)) 0 (FftLife.preReqs cls (toySkel cls)) with
    | some .fatal => _
    | some _ => _
    | none => _) at H
  rw [d1] at H
  dsimp only at H
  change (match firstDenied (fun i => decide (i ≠ N)) (0 + N + planCount cls (toySkel cls))
      (FftLife.bufReqs (toySkel cls) (FftLife.create cls z64 Heap.empty).1.t.memoryflag) with
    | some _ => _
    | none => _) at H
  rw [d2] at H
  obtain ⟨s', t', e, -, hx⟩ := H
  obtain ⟨fs, h1, h2⟩ := hx ⟨0, hc, by simp [toyCfg, hN]⟩
  exact ⟨_, s', t', fs, ⟨N, by simp, fun i hi => by simpa using hi⟩, e, h1, h2⟩

/-! ## `tune` -/

/-- **C69 is false** for the array of `tune`: for every size and state, if it must grow and the request is denied then a null
pointer is written to (fft3d.cpp:774-779). -/
theorem C69_tune_false {z : TypeSizes} (hz : z.Pos) {fftsize maxfftsize : Int} (h0 : 0 ≤ maxfftsize)
    (hm : maxfftsize < fftsize) (data : Ptr) (g : Oracle) (t : AHeap) (hg : g t.asked = false) :
    growDataA z fftsize data maxfftsize g t = .ub := by
  have h1 : 0 < fftsize * 2 * z.scalar := mul_pos (by omega) hz.scalar
  have h2 : 0 < 2 * fftsize * z.scalar - 2 * maxfftsize * z.scalar := by
    rw [← sub_mul]
    exact mul_pos (by omega) hz.scalar
  unfold growDataA
  rw [if_pos hm]
  unfold Al.srealloc
  rw [if_neg (by omega), Al.bind_eq, bind_ok (show Al.realloc data (fftsize * 2 * z.scalar) g t = .ok (.null, t.denied) from by
    unfold Al.realloc
    rw [if_neg (by rw [hg]; simp)])]
  exact Al.touch_null h2 _ _ _

example (g : Oracle) (hg : g 0 = false) : growDataA z64 8 .null 0 g ⟨Heap.empty, 0⟩ = .ub :=
  C69_tune_false z64_pos (by decide) (by decide) _ g _ hg

/-- `tune`: if the request is granted then all is as with enough memory. -/
theorem C69_tune_partial {z : TypeSizes} (hz : z.Pos) {fftsize maxfftsize : Int} (h0 : 0 ≤ maxfftsize) {data data' : Ptr}
    {m : Int} {h' : Heap} (g : Oracle) (t : AHeap) (hg : maxfftsize < fftsize → g t.asked = true)
    (e : FftLife.growData z fftsize data maxfftsize t.heap = some (data', m, h')) :
    ∃ n, growDataA z fftsize data maxfftsize g t = .ok ((data', m), ⟨h', n⟩) := by
  unfold FftLife.growData at e
  unfold growDataA
  by_cases hm : maxfftsize < fftsize
  · have h1 : 0 < fftsize * 2 * z.scalar := mul_pos (by omega) hz.scalar
    rw [if_pos hm] at e ⊢
    simp only [Option.bind_eq_bind, Option.bind_eq_some_iff] at e
    obtain ⟨⟨p, h2⟩, e1, e2⟩ := e
    split_ifs at e2
    simp only [Option.some.injEq, Prod.mk.injEq] at e2
    obtain ⟨rfl, rfl, rfl⟩ := e2
    unfold Heap.srealloc at e1
    simp only [Option.bind_eq_bind, Option.bind_eq_some_iff] at e1
    obtain ⟨h3, e3, e4⟩ := e1
    unfold Heap.smalloc at e4
    rw [if_neg (by omega), if_neg (by omega)] at e4
    obtain ⟨rfl, rfl⟩ := Prod.mk.inj (Option.some.inj e4)
    unfold Al.srealloc
    rw [if_neg (by omega), Al.bind_eq, bind_ok (show Al.realloc data (fftsize * 2 * z.scalar) g t =
      .ok ((h3.new .mem (fftsize * 2 * z.scalar)).1, ⟨(h3.new .mem (fftsize * 2 * z.scalar)).2, t.asked + 1⟩) from by
        unfold Al.realloc
        rw [if_pos ⟨h1, hg hm⟩, e3])]
    rw [show (h3.new .mem (fftsize * 2 * z.scalar)).1 = .blk h3.next from rfl, Al.touch_blk]
    exact ⟨_, rfl⟩
  · rw [if_neg hm] at e ⊢
    simp only [Option.some.injEq, Prod.mk.injEq] at e
    obtain ⟨rfl, rfl, rfl⟩ := e
    exact ⟨_, rfl⟩

end FftMpi
