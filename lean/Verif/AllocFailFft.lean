import Verif.AllocFailRemap
import Verif.LifecycleInv

/-!
# Requests for memory of `FFT3d::setup` and `FFT2d::setup`
-/

namespace FftMpi

theorem createA_sp : Sp RemapLife.createA [.reported, .reported, .reported] (fun h => some (RemapLife.create h)) := by
  unfold RemapLife.createA
  exact ((Sp.new .obj 1).bind fun a => (Sp.new .obj 1).bind fun b => (Sp.new .obj 1).bind fun c => Sp.pure _).congr
    fun h => rfl

/-- Requests of `new Remap3d(world)` and `setup`. -/
def remapReqs (k : RSkel) (coll : Bool) : List Care :=
  [.reported, .reported, .reported] ++ RemapLife.setupReqs k 0 coll

theorem newRemapOfA_sp {z : TypeSizes} (hz : z.Pos) (pk : Int) {k : RSkel} (hk : k.OK) (hP : 0 < k.nprocs) (coll : Bool) :
    Sp (newRemapOfA z pk k coll) (remapReqs k coll) (newRemapOf z pk k coll) := by
  have e : ∀ r : RemapLife, RemapLife.setupReqs k 0 coll = RemapLife.setupReqs k 0
      (decide (({ r with collective := if coll then 1 else 0, packflag := pk } : RemapLife).collective ≠ 0)) := by
    intro r
    cases coll <;> rfl
  have h := createA_sp.bind fun r => (RemapLife.setupA_sp hz hk hP 0
    { r with collective := if coll then 1 else 0, packflag := pk }).cast (e r)
  exact h.congr fun h => rfl

/-- Requests for a `struct Remap`. -/
def PSkel.reqs (k : PSkel) : List Care :=
  .reported :: (remapReqs k.main k.mainColl ++ match k.extra with
    | none => []
    | some (x, c) => remapReqs x c)

/-- There are ranks. -/
structure PSkel.Ranks (k : PSkel) : Prop where
  main : 0 < k.main.nprocs
  extra : ∀ x c, k.extra = some (x, c) → 0 < x.nprocs

theorem PairLife.createA_sp {z : TypeSizes} (hz : z.Pos) (pk : Int) {ss rs : Int} {k : PSkel} (hk : k.OK ss rs)
    (hP : k.Ranks) : Sp (PairLife.createA z pk k) k.reqs (PairLife.create z pk k) := by
  unfold PairLife.createA PairLife.create PSkel.reqs
  cases hx : k.extra with
  | none =>
    have h := (Sp.new .obj 1).bind fun ptr => (newRemapOfA_sp hz pk hk.main.1 hP.main k.mainColl).bind fun r =>
      Sp.pure ({ ptr, remap := r, extra := none } : PairLife)
    exact h.congr fun h => rfl
  | some x =>
    obtain ⟨ke, ce⟩ := x
    have h := (Sp.new .obj 1).bind fun ptr => (newRemapOfA_sp hz pk hk.main.1 hP.main k.mainColl).bind fun r =>
      (newRemapOfA_sp hz pk (hk.extra _ hx).1 (hP.extra _ _ hx) ce).bind fun x =>
        Sp.pure ({ ptr, remap := r, extra := some x } : PairLife)
    rw [List.append_nil] at h
    exact h.congr fun h => rfl

/-- Requests of `remap_forward_create` or `remap_inverse_create`. -/
def pairsReqs (ks : List (Option PSkel)) : List Care := ks.flatMap fun k => match k with
  | none => []
  | some k => k.reqs

theorem createPairsA_sp {z : TypeSizes} (hz : z.Pos) (pk : Int) {ss rs : Int} : ∀ {ks : List (Option PSkel)},
    PairsFit ss rs ks → (∀ k, some k ∈ ks → k.Ranks) → ∀ {os : List (Option PairLife)}, os.length = ks.length →
    Sp (createPairsA z pk ks os) (pairsReqs ks) (createPairs z pk ks os)
  | [], _, _, os, _ => by
    have h := Sp.pure os
    refine Sp.congr (m := createPairsA z pk [] os) ?_ (fun h => ?_) (f := fun h => some (os, h))
    · unfold createPairsA
      exact h
    · unfold createPairs
      rfl
  | none :: ks, hk, hP, [], hl => absurd hl (by simp)
  | some _ :: ks, hk, hP, [], hl => absurd hl (by simp)
  | none :: ks, hk, hP, o :: os, hl => by
    have h := (createPairsA_sp hz pk hk.tail (fun k hm => hP k (List.mem_cons_of_mem _ hm))
      (os := os) (by simpa using hl)).bind fun ps => Sp.pure (o :: ps)
    rw [List.append_nil] at h
    unfold createPairsA
    exact h.congr fun h => by
      rw [createPairs]
      rfl
  | some k :: ks, hk, hP, o :: os, hl => by
    have h := (PairLife.createA_sp hz pk (hk k (by simp)) (hP k (by simp))).bind fun p =>
      (createPairsA_sp hz pk hk.tail (fun k hm => hP k (List.mem_cons_of_mem _ hm))
        (os := os) (by simpa using hl)).bind fun ps => Sp.pure (some p :: ps)
    rw [List.append_nil] at h
    unfold createPairsA
    exact h.congr fun h => by
      rw [createPairs]
      rfl

/-! ## The plans -/

/-- Number of requests for plans. -/
def planCount (cls : Cls) (k : FSkel) : Nat :=
  match cls with
  | .d3 => 2 + (if k.nmid = k.nfast then 0 else 2) + (if k.nslow = k.nfast ∨ k.nslow = k.nmid then 0 else 2)
  | .d2 => 2 + (if k.nslow = k.nfast then 0 else 2)

/-- Requests for the objects `FFT1d`. -/
def fftObjReqs : Cls → List Care
  | .d3 => [.reported, .reported, .reported]
  | .d2 => [.reported, .reported]

/-- A plan that was not given. -/
def NoPlan (fs : List Fft1dLife) : Prop := ∃ f ∈ fs, f.planF = .null ∨ f.planB = .null

theorem request_eq (k : Kind) (n : Int) (g : Oracle) (s : AHeap) : Al.request k n g s =
    .ok (if g s.asked = true then .blk s.heap.next else .null,
      ⟨⟨s.heap.next + 1, if g s.asked = true then { id := s.heap.next, kind := k, bytes := n } :: s.heap.live else s.heap.live⟩,
        s.asked + 1⟩) := by
  unfold Al.request AHeap.denied Heap.new
  split_ifs <;> rfl

/-- A pointer and a list of blocks after a request. -/
def gotPtr (g : Oracle) (i : Nat) (id : Nat) : Ptr := if g i = true then .blk id else .null

def gotBlk (g : Oracle) (i : Nat) (k : Kind) (h : Heap) : Heap :=
  ⟨h.next + 1, if g i = true then { id := h.next, kind := k, bytes := 1 } :: h.live else h.live⟩

theorem kissAllocA_eq (n : Int) (inv : Bool) (g : Oracle) (s : AHeap) : kissAllocA n inv g s =
    .ok (gotPtr g s.asked s.heap.next, ⟨gotBlk g s.asked (.plan n inv) s.heap, s.asked + 1⟩) :=
  request_eq _ _ _ _

theorem gotBlk_named {g : Oracle} {i : Nat} {k : Kind} {h : Heap} (hh : h.Named) : (gotBlk g i k h).Named := by
  unfold gotBlk
  intro b hb
  dsimp only at hb ⊢
  split_ifs at hb
  · rcases List.mem_cons.1 hb with rfl | hb
    · exact Nat.lt_succ_self _
    · exact Nat.lt_succ_of_lt (hh b hb)
  · exact Nat.lt_succ_of_lt (hh b hb)

theorem gotBlk_yes {g : Oracle} {i : Nat} (hg : g i = true) (k : Kind) (h : Heap) : gotBlk g i k h = (h.new k 1).2 := by
  unfold gotBlk Heap.new
  rw [if_pos hg]

theorem gotPtr_yes {g : Oracle} {i : Nat} (hg : g i = true) (k : Kind) (h : Heap) : gotPtr g i h.next = (h.new k 1).1 := by
  unfold gotPtr Heap.new
  rw [if_pos hg]

theorem gotPtr_no {g : Oracle} {i : Nat} (hg : g i = false) (id : Nat) : gotPtr g i id = .null := by
  unfold gotPtr
  rw [if_neg (by rw [hg]; simp)]

theorem gotBlk_next (g : Oracle) (i : Nat) (k : Kind) (h : Heap) : (gotBlk g i k h).next = h.next + 1 := rfl

/-- Two plans of one length. -/
theorem twoPlansA_eq (n : Int) (g : Oracle) (s : AHeap) :
    ((kissAllocA n false).bind fun f => (kissAllocA n true).bind fun b => (pure (f, b) : Al (Ptr × Ptr))) g s =
      .ok ((gotPtr g s.asked s.heap.next, gotPtr g (s.asked + 1) (s.heap.next + 1)),
        ⟨gotBlk g (s.asked + 1) (.plan n true) (gotBlk g s.asked (.plan n false) s.heap), s.asked + 2⟩) := by
  unfold Al.bind
  dsimp only
  rw [kissAllocA_eq]
  dsimp only
  rw [kissAllocA_eq]
  rfl

theorem bind_ok {α β : Type} {m : Al α} {f : α → Al β} {g : Oracle} {s t : AHeap} {a : α} (h : m g s = .ok (a, t)) :
    Al.bind m f g s = f a g t := by
  unfold Al.bind
  rw [h]

theorem Al.pure_then {α β : Type} (a : α) (f : α → Al β) (g : Oracle) (s : AHeap) :
    Al.bind (Pure.pure a : Al α) f g s = f a g s := rfl

theorem Al.new_yes {kd : Kind} {n : Int} {g : Oracle} {s : AHeap} (h : g s.asked = true) :
    Al.new kd n g s = .ok ((s.heap.new kd n).1, ⟨(s.heap.new kd n).2, s.asked + 1⟩) := by
  unfold Al.new
  rw [if_pos h]

/-- The three `new FFT1d` succeed. -/
theorem fftBlocks3A_ok (nfast nmid nslow : Int) (g : Oracle) (s : AHeap) (hw : s.heap.Named) (h0 : g s.asked = true)
    (h1 : g (s.asked + 1) = true) (h2 : g (s.asked + 2) = true) (k : FSkel) (e1 : k.nfast = nfast) (e2 : k.nmid = nmid)
    (e3 : k.nslow = nslow) :
    ∃ fs h', h'.Named ∧ fftBlocks3A nfast nmid nslow g s = .ok (fs, ⟨h', s.asked + 3 + planCount .d3 k⟩) ∧
      ((∀ i < planCount .d3 k, g (s.asked + 3 + i) = true) → (fs, h') = fftBlocks3 none nfast nmid nslow s.heap) ∧
      ((∃ i < planCount .d3 k, g (s.asked + 3 + i) = false) → NoPlan fs) := by
  unfold fftBlocks3A fftBlocks3 sharedPlans3 planCount
  subst e1 e2 e3
  simp only [Al.bind_eq]
  rw [bind_ok (Al.new_yes h0)]
  rw [bind_ok (Al.new_yes h1)]
  rw [bind_ok (Al.new_yes h2)]
  have hw3 : ((((s.heap.new .obj 1).2.new .obj 1).2).new .obj 1).2.Named := ((hw.new _ _).new _ _).new _ _
  rw [bind_ok (kissAllocA_eq _ _ _ _)]
  rw [bind_ok (kissAllocA_eq _ _ _ _)]
  by_cases c1 : k.nmid = k.nfast
  · by_cases c2 : k.nslow = k.nfast
    · rw [if_pos c1]
      rw [Al.pure_then]
      rw [if_pos c2]
      rw [Al.pure_then]
      rw [if_pos c1, if_pos (Or.inl c2)]
      refine ⟨_, _, ?_, rfl, ?_, ?_⟩
      · exact gotBlk_named (gotBlk_named (hw3))
      · intro h
        have g0 : g (s.asked + 1 + 1 + 1) = true := h 0 (by decide)
        have g1 : g (s.asked + 1 + 1 + 1 + 1) = true := h 1 (by decide)
        simp only [gotBlk, gotPtr, g0, g1, if_true, if_pos c1, if_pos c2]
        rfl
      · rintro ⟨i, hi, hg⟩
        rcases i with _ | i
        · exact ⟨_, List.mem_cons_self, Or.inl (gotPtr_no hg _)⟩
        rcases i with _ | i
        · exact ⟨_, List.mem_cons_self, Or.inr (gotPtr_no hg _)⟩
        · exact absurd hi (by omega)
    · have c3 : ¬k.nslow = k.nmid := by rw [c1]; exact c2
      rw [if_pos c1]
      rw [Al.pure_then]
      rw [if_neg c2]
      rw [if_neg c3]
      rw [bind_ok (twoPlansA_eq _ _ _)]
      rw [if_pos c1, if_neg (not_or.2 ⟨c2, c3⟩)]
      refine ⟨_, _, ?_, rfl, ?_, ?_⟩
      · exact gotBlk_named (gotBlk_named (gotBlk_named (gotBlk_named (hw3))))
      · intro h
        have g0 : g (s.asked + 1 + 1 + 1) = true := h 0 (by decide)
        have g1 : g (s.asked + 1 + 1 + 1 + 1) = true := h 1 (by decide)
        have g2 : g (s.asked + 1 + 1 + 1 + 1 + 1) = true := h 2 (by decide)
        have g3 : g (s.asked + 1 + 1 + 1 + 1 + 1 + 1) = true := h 3 (by decide)
        simp only [gotBlk, gotPtr, g0, g1, g2, g3, if_true, if_pos c1, if_neg c2, if_neg c3]
        rfl
      · rintro ⟨i, hi, hg⟩
        rcases i with _ | i
        · exact ⟨_, List.mem_cons_self, Or.inl (gotPtr_no hg _)⟩
        rcases i with _ | i
        · exact ⟨_, List.mem_cons_self, Or.inr (gotPtr_no hg _)⟩
        rcases i with _ | i
        · exact ⟨_, List.mem_cons_of_mem _ (List.mem_cons_of_mem _ List.mem_cons_self), Or.inl (gotPtr_no hg _)⟩
        rcases i with _ | i
        · exact ⟨_, List.mem_cons_of_mem _ (List.mem_cons_of_mem _ List.mem_cons_self), Or.inr (gotPtr_no hg _)⟩
        · exact absurd hi (by omega)
  · by_cases c2 : k.nslow = k.nfast
    · rw [if_neg c1]
      rw [bind_ok (twoPlansA_eq _ _ _)]
      rw [if_pos c2]
      rw [Al.pure_then]
      rw [if_neg c1, if_pos (Or.inl c2)]
      refine ⟨_, _, ?_, rfl, ?_, ?_⟩
      · exact gotBlk_named (gotBlk_named (gotBlk_named (gotBlk_named (hw3))))
      · intro h
        have g0 : g (s.asked + 1 + 1 + 1) = true := h 0 (by decide)
        have g1 : g (s.asked + 1 + 1 + 1 + 1) = true := h 1 (by decide)
        have g2 : g (s.asked + 1 + 1 + 1 + 1 + 1) = true := h 2 (by decide)
        have g3 : g (s.asked + 1 + 1 + 1 + 1 + 1 + 1) = true := h 3 (by decide)
        simp only [gotBlk, gotPtr, g0, g1, g2, g3, if_true, if_neg c1, if_pos c2]
        rfl
      · rintro ⟨i, hi, hg⟩
        rcases i with _ | i
        · exact ⟨_, List.mem_cons_self, Or.inl (gotPtr_no hg _)⟩
        rcases i with _ | i
        · exact ⟨_, List.mem_cons_self, Or.inr (gotPtr_no hg _)⟩
        rcases i with _ | i
        · exact ⟨_, List.mem_cons_of_mem _ List.mem_cons_self, Or.inl (gotPtr_no hg _)⟩
        rcases i with _ | i
        · exact ⟨_, List.mem_cons_of_mem _ List.mem_cons_self, Or.inr (gotPtr_no hg _)⟩
        · exact absurd hi (by omega)
    · by_cases c3 : k.nslow = k.nmid
      · rw [if_neg c1]
        rw [bind_ok (twoPlansA_eq _ _ _)]
        rw [if_neg c2]
        rw [if_pos c3]
        rw [Al.pure_then]
        rw [if_neg c1, if_pos (Or.inr c3)]
        refine ⟨_, _, ?_, rfl, ?_, ?_⟩
        · exact gotBlk_named (gotBlk_named (gotBlk_named (gotBlk_named (hw3))))
        · intro h
          have g0 : g (s.asked + 1 + 1 + 1) = true := h 0 (by decide)
          have g1 : g (s.asked + 1 + 1 + 1 + 1) = true := h 1 (by decide)
          have g2 : g (s.asked + 1 + 1 + 1 + 1 + 1) = true := h 2 (by decide)
          have g3 : g (s.asked + 1 + 1 + 1 + 1 + 1 + 1) = true := h 3 (by decide)
          simp only [gotBlk, gotPtr, g0, g1, g2, g3, if_true, if_neg c1, if_neg c2, if_pos c3]
          rfl
        · rintro ⟨i, hi, hg⟩
          rcases i with _ | i
          · exact ⟨_, List.mem_cons_self, Or.inl (gotPtr_no hg _)⟩
          rcases i with _ | i
          · exact ⟨_, List.mem_cons_self, Or.inr (gotPtr_no hg _)⟩
          rcases i with _ | i
          · exact ⟨_, List.mem_cons_of_mem _ List.mem_cons_self, Or.inl (gotPtr_no hg _)⟩
          rcases i with _ | i
          · exact ⟨_, List.mem_cons_of_mem _ List.mem_cons_self, Or.inr (gotPtr_no hg _)⟩
          · exact absurd hi (by omega)
      · rw [if_neg c1]
        rw [bind_ok (twoPlansA_eq _ _ _)]
        rw [if_neg c2]
        rw [if_neg c3]
        rw [bind_ok (twoPlansA_eq _ _ _)]
        rw [if_neg c1, if_neg (not_or.2 ⟨c2, c3⟩)]
        refine ⟨_, _, ?_, rfl, ?_, ?_⟩
        · exact gotBlk_named (gotBlk_named (gotBlk_named (gotBlk_named (gotBlk_named (gotBlk_named (hw3))))))
        · intro h
          have g0 : g (s.asked + 1 + 1 + 1) = true := h 0 (by decide)
          have g1 : g (s.asked + 1 + 1 + 1 + 1) = true := h 1 (by decide)
          have g2 : g (s.asked + 1 + 1 + 1 + 1 + 1) = true := h 2 (by decide)
          have g3 : g (s.asked + 1 + 1 + 1 + 1 + 1 + 1) = true := h 3 (by decide)
          have g4 : g (s.asked + 1 + 1 + 1 + 1 + 1 + 1 + 1) = true := h 4 (by decide)
          have g5 : g (s.asked + 1 + 1 + 1 + 1 + 1 + 1 + 1 + 1) = true := h 5 (by decide)
          simp only [gotBlk, gotPtr, g0, g1, g2, g3, g4, g5, if_true, if_neg c1, if_neg c2, if_neg c3]
          rfl
        · rintro ⟨i, hi, hg⟩
          rcases i with _ | i
          · exact ⟨_, List.mem_cons_self, Or.inl (gotPtr_no hg _)⟩
          rcases i with _ | i
          · exact ⟨_, List.mem_cons_self, Or.inr (gotPtr_no hg _)⟩
          rcases i with _ | i
          · exact ⟨_, List.mem_cons_of_mem _ List.mem_cons_self, Or.inl (gotPtr_no hg _)⟩
          rcases i with _ | i
          · exact ⟨_, List.mem_cons_of_mem _ List.mem_cons_self, Or.inr (gotPtr_no hg _)⟩
          rcases i with _ | i
          · exact ⟨_, List.mem_cons_of_mem _ (List.mem_cons_of_mem _ List.mem_cons_self), Or.inl (gotPtr_no hg _)⟩
          rcases i with _ | i
          · exact ⟨_, List.mem_cons_of_mem _ (List.mem_cons_of_mem _ List.mem_cons_self), Or.inr (gotPtr_no hg _)⟩
          · exact absurd hi (by omega)

/-- The two `new FFT1d` succeed. -/
theorem fftBlocks2A_ok (nfast nslow : Int) (g : Oracle) (s : AHeap) (hw : s.heap.Named) (h0 : g s.asked = true)
    (h1 : g (s.asked + 1) = true) (k : FSkel) (e1 : k.nfast = nfast) (e3 : k.nslow = nslow) :
    ∃ fs h', h'.Named ∧ fftBlocks2A nfast nslow g s = .ok (fs, ⟨h', s.asked + 2 + planCount .d2 k⟩) ∧
      ((∀ i < planCount .d2 k, g (s.asked + 2 + i) = true) → (fs, h') = fftBlocks2 none nfast nslow s.heap) ∧
      ((∃ i < planCount .d2 k, g (s.asked + 2 + i) = false) → NoPlan fs) := by
  unfold fftBlocks2A fftBlocks2 sharedPlans2 planCount
  subst e1 e3
  simp only [Al.bind_eq]
  rw [bind_ok (Al.new_yes h0)]
  rw [bind_ok (Al.new_yes h1)]
  have hw2 : ((s.heap.new .obj 1).2.new .obj 1).2.Named := (hw.new _ _).new _ _
  rw [bind_ok (kissAllocA_eq _ _ _ _)]
  rw [bind_ok (kissAllocA_eq _ _ _ _)]
  by_cases c2 : k.nslow = k.nfast
  · rw [if_pos c2]
    rw [Al.pure_then]
    rw [if_pos c2]
    refine ⟨_, _, ?_, rfl, ?_, ?_⟩
    · exact gotBlk_named (gotBlk_named hw2)
    · intro h
      have g0 : g (s.asked + 1 + 1) = true := h 0 (by decide)
      have g1 : g (s.asked + 1 + 1 + 1) = true := h 1 (by decide)
      simp only [gotBlk, gotPtr, g0, g1, if_true, if_pos c2]
      rfl
    · rintro ⟨i, hi, hg⟩
      rcases i with _ | i
      · exact ⟨_, List.mem_cons_self, Or.inl (gotPtr_no hg _)⟩
      rcases i with _ | i
      · exact ⟨_, List.mem_cons_self, Or.inr (gotPtr_no hg _)⟩
      · exact absurd hi (by omega)
  · rw [if_neg c2]
    rw [bind_ok (twoPlansA_eq _ _ _)]
    rw [if_neg c2]
    refine ⟨_, _, ?_, rfl, ?_, ?_⟩
    · exact gotBlk_named (gotBlk_named (gotBlk_named (gotBlk_named hw2)))
    · intro h
      have g0 : g (s.asked + 1 + 1) = true := h 0 (by decide)
      have g1 : g (s.asked + 1 + 1 + 1) = true := h 1 (by decide)
      have g2 : g (s.asked + 1 + 1 + 1 + 1) = true := h 2 (by decide)
      have g3 : g (s.asked + 1 + 1 + 1 + 1 + 1) = true := h 3 (by decide)
      simp only [gotBlk, gotPtr, g0, g1, g2, g3, if_true, if_neg c2]
      rfl
    · rintro ⟨i, hi, hg⟩
      rcases i with _ | i
      · exact ⟨_, List.mem_cons_self, Or.inl (gotPtr_no hg _)⟩
      rcases i with _ | i
      · exact ⟨_, List.mem_cons_self, Or.inr (gotPtr_no hg _)⟩
      rcases i with _ | i
      · exact ⟨_, List.mem_cons_of_mem _ List.mem_cons_self, Or.inl (gotPtr_no hg _)⟩
      rcases i with _ | i
      · exact ⟨_, List.mem_cons_of_mem _ List.mem_cons_self, Or.inr (gotPtr_no hg _)⟩
      · exact absurd hi (by omega)

theorem Al.new_no {kd : Kind} {n : Int} {g : Oracle} {s : AHeap} (h : g s.asked = false) :
    ∃ e, Al.new kd n g s = .stop e := by
  unfold Al.new
  rw [if_neg (by rw [h]; simp)]
  exact ⟨_, rfl⟩

theorem bind_stop {α β : Type} {m : Al α} {f : α → Al β} {g : Oracle} {s : AHeap} (h : ∃ e, m g s = .stop e) :
    ∃ e, Al.bind m f g s = .stop e := by
  obtain ⟨e, h⟩ := h
  unfold Al.bind
  rw [h]
  exact ⟨e, rfl⟩

/-- `setup_ffts` with its objects: after the objects nothing stops it; without all the plans one is missing. -/
theorem setupFftsA_out (cls : Cls) (k : FSkel) (g : Oracle) (s : AHeap) (hw : s.heap.Named) :
    match firstDenied g s.asked (fftObjReqs cls) with
    | none => ∃ fs h', h'.Named ∧
        setupFftsA cls k g s = .ok (fs, ⟨h', s.asked + (fftObjReqs cls).length + planCount cls k⟩) ∧
        ((∀ i < planCount cls k, g (s.asked + (fftObjReqs cls).length + i) = true) →
          (fs, h') = setupFftsOf none cls k s.heap) ∧
        ((∃ i < planCount cls k, g (s.asked + (fftObjReqs cls).length + i) = false) → NoPlan fs)
    | some _ => ∃ e, setupFftsA cls k g s = .stop e := by
  cases cls
  · simp only [fftObjReqs, firstDenied]
    cases h0 : g s.asked
    · simp only [Bool.false_eq_true, if_false]
      unfold setupFftsA fftBlocks3A
      exact bind_stop (Al.new_no h0)
    cases h1 : g (s.asked + 1)
    · simp only [Bool.false_eq_true, if_true, if_false]
      unfold setupFftsA fftBlocks3A
      simp only [Al.bind_eq]
      rw [bind_ok (Al.new_yes h0)]
      exact bind_stop (Al.new_no h1)
    cases h2 : g (s.asked + 1 + 1)
    · simp only [Bool.false_eq_true, if_true, if_false]
      unfold setupFftsA fftBlocks3A
      simp only [Al.bind_eq]
      rw [bind_ok (Al.new_yes h0), bind_ok (Al.new_yes h1)]
      exact bind_stop (Al.new_no h2)
    · simp only [if_true]
      exact fftBlocks3A_ok _ _ _ g s hw h0 h1 h2 k rfl rfl rfl
  · simp only [fftObjReqs, firstDenied]
    cases h0 : g s.asked
    · simp only [Bool.false_eq_true, if_false]
      unfold setupFftsA fftBlocks2A
      exact bind_stop (Al.new_no h0)
    cases h1 : g (s.asked + 1)
    · simp only [Bool.false_eq_true, if_true, if_false]
      unfold setupFftsA fftBlocks2A
      simp only [Al.bind_eq]
      rw [bind_ok (Al.new_yes h0)]
      exact bind_stop (Al.new_no h1)
    · simp only [if_true]
      exact fftBlocks2A_ok _ _ g s hw h0 h1 k rfl rfl

/-! ## The whole of `setup` -/

namespace FftLife

variable {A : Type}

/-- Requests for the buffers. -/
def bufReqs (k : FSkel) (memoryflag : Int) : List Care :=
  List.replicate (if memoryflag ≠ 0 ∧ k.sendsize ≠ 0 then 1 else 0) Care.reported ++
    (List.replicate (if memoryflag ≠ 0 ∧ k.recvsize ≠ 0 then 1 else 0) Care.reported ++ [])

/-- The buffers when nothing fails. -/
def bufsOf (z : TypeSizes) (k : FSkel) (s : FftLife) (h : Heap) : Option ((Ptr × Ptr) × Heap) :=
  (h.mallocIf (s.t.memoryflag ≠ 0 ∧ k.sendsize ≠ 0) s.sendbuf (k.sendsize * z.scalar)).bind fun x =>
    (x.2.mallocIf (s.t.memoryflag ≠ 0 ∧ k.recvsize ≠ 0) s.recvbuf (k.recvsize * z.scalar)).bind fun y =>
      some ((x.1, y.1), y.2)

theorem bufsA_sp {z : TypeSizes} (hz : z.Pos) {cls : Cls} {k : FSkel} (hk : k.OK cls) (s : FftLife) :
    Sp (s.bufsA z k) (bufReqs k s.t.memoryflag) (s.bufsOf z k) := by
  unfold bufsA bufsOf bufReqs
  have n1 : s.t.memoryflag ≠ 0 ∧ k.sendsize ≠ 0 → 0 < k.sendsize := by
    have := hk.sendsize
    omega
  have n2 : s.t.memoryflag ≠ 0 ∧ k.recvsize ≠ 0 → 0 < k.recvsize := by
    have := hk.recvsize
    omega
  refine Sp.buf (fun h => mul_pos (n1 h) hz.scalar) _ _ fun q => ?_
  dsimp only
  exact Sp.buf (F := fun y => some ((q, y.1), y.2)) (fun h => mul_pos (n2 h) hz.scalar) _ _ fun q' => Sp.pure (q, q')

theorem bufReqs_care (k : FSkel) (mf : Int) : ∀ c ∈ bufReqs k mf, c = .reported := by
  intro c hc
  simp only [bufReqs, List.append_nil, List.mem_append] at hc
  rcases hc with h | h <;> exact List.eq_of_mem_replicate h

theorem bufsOf_some {z : TypeSizes} (hz : z.Pos) {cls : Cls} {k : FSkel} (hk : k.OK cls) (s : FftLife) (h : Heap) :
    ∃ x, s.bufsOf z k h = some x := by
  have key : ∀ (c : Prop) [Decidable c] (p : Ptr) (n : Int) (h : Heap), 0 ≤ n → ∃ x, h.mallocIf c p n = some x := by
    intro c _ p n h hn
    by_cases hc : c
    · rw [Heap.mallocIf_pos hc]
      unfold Heap.smalloc
      rw [if_neg (by omega)]
      split_ifs <;> exact ⟨_, rfl⟩
    · rw [Heap.mallocIf_neg hc]
      exact ⟨_, rfl⟩
  unfold bufsOf
  obtain ⟨x, hx⟩ := key (s.t.memoryflag ≠ 0 ∧ k.sendsize ≠ 0) s.sendbuf (k.sendsize * z.scalar) h
    (mul_nonneg hk.sendsize hz.scalar.le)
  obtain ⟨y, hy⟩ := key (s.t.memoryflag ≠ 0 ∧ k.recvsize ≠ 0) s.recvbuf (k.recvsize * z.scalar) x.2
    (mul_nonneg hk.recvsize hz.scalar.le)
  rw [hx, Option.bind_some, hy]
  exact ⟨_, rfl⟩

/-- Requests before those for plans. -/
def preReqs (cls : Cls) (k : FSkel) : List Care := pairsReqs k.fwd ++ (pairsReqs k.inv ++ fftObjReqs cls)

/-- Outcome of `setup` after its checks. -/
theorem buildA_out {C : Cfg A} (hz : C.z.Pos) (hl : C.lib = none) {a : A} {k : FSkel} (hk : k.OK C.cls)
    (h1 : ∀ q, some q ∈ k.fwd → q.Ranks) (h2 : ∀ q, some q ∈ k.inv → q.Ranks) {s s0 : FftLife} {h0 : Heap}
    (l1 : s.fwd.length = C.cls.npairs) (l2 : s.inv.length = C.cls.npairs) (hp : C.plan a s.t.st = some (.ok k))
    (g : Oracle) (t : AHeap) (hw : t.heap.Named) (hs : s.setup C a t.heap = some (.ok (s0, h0))) :
    match firstDenied g t.asked (preReqs C.cls k) with
    | some .fatal => buildA C.cls C.z k s g t = .ub
    | some _ => ∃ e, buildA C.cls C.z k s g t = .stop e
    | none =>
      match firstDenied g (t.asked + (preReqs C.cls k).length + planCount C.cls k) (bufReqs k s.t.memoryflag) with
      | some _ => ∃ e, buildA C.cls C.z k s g t = .stop e
      | none => ∃ s' h', h'.Named ∧ buildA C.cls C.z k s g t = .ok (s', ⟨h', t.asked + (preReqs C.cls k).length +
            planCount C.cls k + (bufReqs k s.t.memoryflag).length⟩) ∧
          ((∀ i < planCount C.cls k, g (t.asked + (preReqs C.cls k).length + i) = true) → s' = s0 ∧ h' = h0) ∧
          ((∃ i < planCount C.cls k, g (t.asked + (preReqs C.cls k).length + i) = false) →
            ∃ fs, s'.ffts = some fs ∧ NoPlan fs) := by
  unfold FftLife.setup at hs
  by_cases hd : C.cls = .d3 ∧ s.setupflag = true
  · rw [if_pos hd] at hs
    exact absurd hs (by simp)
  rw [if_neg hd, hp] at hs
  simp only [Option.bind_eq_bind, Option.bind_eq_some_iff] at hs
  obtain ⟨⟨fwd, hf⟩, e1, ⟨inv, hi⟩, e2, ⟨sb, hsb⟩, e3, ⟨rb, hrb⟩, e4, e5⟩ := hs
  dsimp only at e2 e3 e4 e5
  rw [hl] at e3
  have hsp := ((createPairsA_sp hz s.t.st.packflag hk.fwd h1 (l1.trans hk.fwdLen.symm)).bind fun fwd =>
    (createPairsA_sp hz s.t.st.packflag hk.inv h2 (l2.trans hk.invLen.symm)).bind fun inv => Sp.pure (fwd, inv))
  have ef : ((createPairs C.z s.t.st.packflag k.fwd s.fwd t.heap).bind fun x =>
      (createPairs C.z s.t.st.packflag k.inv s.inv x.2).bind fun y => some ((x.1, y.1), y.2)) = some ((fwd, inv), hi) := by
    rw [e1, Option.bind_some, e2]
    rfl
  obtain ⟨hw2, H⟩ := hsp g t (fwd, inv) hi hw ef
  rw [List.append_nil] at H
  generalize hP : (createPairsA C.z s.t.st.packflag k.fwd s.fwd >>= fun fwd =>
    createPairsA C.z s.t.st.packflag k.inv s.inv >>= fun inv => (Pure.pure (fwd, inv) : Al _)) = P at H
  have hb : ∃ R : List (Option PairLife) × List (Option PairLife) → Al FftLife, buildA C.cls C.z k s = Al.bind P R ∧
      R (fwd, inv) = Al.bind (setupFftsA C.cls k) fun ffts => Al.bind (s.bufsA C.z k) fun x => Pure.pure { s with
        setupflag := true
        setupMemoryFlag := if s.t.memoryflag ≠ 0 then true else s.setupMemoryFlag
        fwd, inv, ffts := some ffts, sendbuf := x.1, recvbuf := x.2
        memusage := (if s.t.memoryflag ≠ 0 then k.sendsize * C.z.scalar + k.recvsize * C.z.scalar else 0) +
          (pairsMemory fwd + pairsMemory inv)
        skel := some k } := by
    refine ⟨fun y => Al.bind (setupFftsA C.cls k) fun ffts => Al.bind (s.bufsA C.z k) fun x => Pure.pure { s with
        setupflag := true
        setupMemoryFlag := if s.t.memoryflag ≠ 0 then true else s.setupMemoryFlag
        fwd := y.1, inv := y.2, ffts := some ffts, sendbuf := x.1, recvbuf := x.2
        memusage := (if s.t.memoryflag ≠ 0 then k.sendsize * C.z.scalar + k.recvsize * C.z.scalar else 0) +
          (pairsMemory y.1 + pairsMemory y.2)
        skel := some k }, ?_, rfl⟩
    rw [← hP, ← Al.bind_eq, Al.assoc]
    unfold buildA
    congr 1
    funext fwd
    rw [Al.assoc]
    rfl
  obtain ⟨R, hb, hR⟩ := hb
  rw [hb]
  clear hb hP
  rw [preReqs, ← List.append_assoc, firstDenied_append]
  generalize hpr : pairsReqs k.fwd ++ pairsReqs k.inv = pr at H ⊢
  cases hd1 : firstDenied g t.asked pr with
  | some c =>
    rw [hd1] at H
    cases c
    · exact bind_stop H
    · dsimp only at H ⊢
      unfold Al.bind
      rw [H]
    · exact bind_stop H
  | none =>
    rw [hd1] at H
    dsimp only at H ⊢
    have hbind : Al.bind P R g t = R (fwd, inv) g ⟨hi, t.asked + pr.length⟩ := bind_ok H
    rw [hbind, hR]
    have O := setupFftsA_out C.cls k g ⟨hi, t.asked + pr.length⟩ hw2
    dsimp only at O
    rw [List.length_append, ← Nat.add_assoc]
    cases hd2 : firstDenied g (t.asked + pr.length) (fftObjReqs C.cls) with
    | some c =>
      rw [hd2] at O
      dsimp only at O
      have hc : c = .reported := by
        obtain ⟨-, i, hi, -⟩ := firstDenied_some.1 hd2
        have := List.mem_of_getElem? hi
        cases hcls : C.cls <;> rw [hcls] at this <;> simpa [fftObjReqs] using this
      rw [hc]
      exact bind_stop O
    | none =>
      rw [hd2] at O
      dsimp only at O ⊢
      obtain ⟨fs, h', hw3, O1, O2, O3⟩ := O
      rw [bind_ok O1]
      obtain ⟨⟨bp, h4⟩, hx⟩ := bufsOf_some hz hk s h'
      obtain ⟨hw4, B⟩ := bufsA_sp hz hk s g ⟨h', t.asked + pr.length + (fftObjReqs C.cls).length + planCount C.cls k⟩ bp h4
        hw3 hx
      dsimp only at B
      cases hd3 : firstDenied g (t.asked + pr.length + (fftObjReqs C.cls).length + planCount C.cls k)
        (bufReqs k s.t.memoryflag) with
      | some c =>
        rw [hd3] at B
        have hc : c = .reported := by
          obtain ⟨-, i, hi, -⟩ := firstDenied_some.1 hd3
          exact bufReqs_care _ _ _ (List.mem_of_getElem? hi)
        rw [hc] at B
        exact bind_stop B
      | none =>
        rw [hd3] at B
        dsimp only at B ⊢
        rw [bind_ok B]
        refine ⟨_, _, hw4, rfl, ?_, ?_⟩
        · intro hall
          have hO := O2 hall
          have hO1 : fs = (setupFftsOf none C.cls k hi).1 := congrArg Prod.fst hO
          have hO2 : h' = (setupFftsOf none C.cls k hi).2 := congrArg Prod.snd hO
          unfold bufsOf at hx
          rw [hO2, e3, Option.bind_some, e4, Option.bind_some] at hx
          simp only [Option.some.injEq, Prod.mk.injEq] at hx
          obtain ⟨rfl, rfl⟩ := hx
          simp only [Option.some.injEq, Except.ok.injEq, Prod.mk.injEq] at e5
          obtain ⟨rfl, rfl⟩ := e5
          rw [hO1, hl]
          exact ⟨rfl, rfl⟩
        · intro hn
          exact ⟨fs, rfl, O3 hn⟩

end FftLife

end FftMpi
