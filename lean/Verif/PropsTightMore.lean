import Verif.PropsTight
import Verif.PropsApart

/-!
# C25: exactly when the remaps back stay within buffers of the returned sizes

`C25_room_iff` is on `compute`; here are `only_remaps` (fft3d.cpp:633-661) and each stage of `only_one_remap` (fft3d.cpp:673-704).
-/

noncomputable section

namespace FftMpi

/-- What a program that contains a remap needs of the buffers. -/
theorem needs_remap {e : Bool} {P : Nat} {prog : Nat → List (Instr ℝ)} {m m' : Nat → LMem ℝ} {r : Nat} (hr : r < P)
    (h : Terminates e P prog m m') (tame : ∀ i ∈ prog r, ITame i) {x : Remap3 ℝ} (hx : Tight x) {ai ao : Nat}
    (hi : ∀ i ∈ x.prog ai ao, i ∈ prog r) : accessible (m r).sb 0 x.obj.sendsize ∧ accessible (m r).rb 0 x.obj.recvsize := by
  have hn := h.needs hr tame
  obtain ⟨_, hS, hR⟩ := hx ai ao
  constructor
  · intro y h0 h1
    obtain ⟨i, hm, hy⟩ := hS y h0 (by omega)
    exact (hn i (hi i hm) y).1 hy
  · intro y h0 h1
    obtain ⟨i, hm, hy⟩ := hR y h0 (by omega)
    exact (hn i (hi i hm) y).2 hy

/-- A program of remaps back and copies that contains `remap_midfast` needs the room of `RoomBack`. -/
theorem SetUp3.needs_room {P : Nat} {a : Args3} {st : Settings} {f : Nat → Fft3 ℝ} (S : SetUp3 P a st f) {e : Bool}
    {prog : Nat → List (Instr ℝ)} {m m' : Nat → LMem ℝ} (h : Terminates e P prog m m')
    (hp : ∀ r < P, (f r).same = false →
      (∀ i ∈ prog r, (∃ x y z, (f r).uses (-1) x ∧ i ∈ x.prog y z) ∨ ∃ y z n, i = .loc (memcpyLoc y z n)) ∧
      ∃ y z, ∀ i ∈ remapIf (f r).midfast y z, i ∈ prog r) : RoomBack P a st m := by
  obtain ⟨c, rfl, rfl, rfl, hg, R⟩ := S.ready
  by_cases h0 : c.st.exchange = 0
  · exact .inl h0
  by_cases hs : inoutSame c.P c.a = true
  · exact .inr (.inl (R.same_layout hs))
  rw [Bool.not_eq_true] at hs
  refine .inr (.inr ⟨c.g, hg, fun r hr => ?_⟩)
  rw [R.extraRoom h0 hr]
  obtain ⟨h1, y, z, h2⟩ := hp r hr (by rw [R.same r hr, hs])
  have hu := R.uses_inv (flag := -1) (by decide) hs hr
  refine needs_remap hr h (fun i hi => ?_) (R.extra_tight h0 hr) (ai := y) (ao := z) fun i hi => h2 i ?_
  · rcases h1 i hi with ⟨x, y, z, hx, hi⟩ | ⟨y, z, n, rfl⟩
    · rcases (hu x).mp hx with h | ⟨_, rfl⟩
      · exact (R.inv_tight hr x h y z).1 i hi
      · exact (R.extra_tight h0 hr y z).1 i hi
    · exact memcpyLoc_tame _ _ _
  · refine remapIf_mem.mpr ⟨_, ?_, hi⟩
    rw [R.midfast r hr, hs, if_neg Bool.false_ne_true]
    unfold Create.midfastP
    rw [if_neg (show ¬ (c.on r).st.exchange = 0 from h0), inPair_double]
    exact .inr rfl

/-- **C25, exactly, for `only_remaps`.**  With buffers of the returned sizes `only_remaps` back ends without undefined behaviour if
and only if `RoomBack` holds, as for `compute`. -/
theorem C25_remaps_iff {P : Nat} {a : Args3} {st : Settings} {f : Nat → Fft3 ℝ} (S : SetUp3 P a st f) (e : Bool) {ai ao : Nat}
    {m : Nat → LMem ℝ} (hbi : Bufs P f ai m) (hbo : Bufs P f ao m) :
    (∃ m', Terminates e P (fun r => (f r).onlyRemaps (-1) ai ao) m m') ↔ RoomBack P a st m := by
  constructor
  · rintro ⟨m', h⟩
    refine S.needs_room h fun r hr hs => ?_
    have hf : ¬ ((-1 : Int) = 1 ∨ (f r).same = true) := by rw [hs]; decide
    unfold Fft3.onlyRemaps Fft3.uses
    simp only [if_neg hf, List.mem_append]
    refine ⟨?_, ao, ao, fun i hi => .inl (.inr hi)⟩
    rintro i (((hi | hi) | hi) | hi)
    · rcases remapOrCopy_mem.mp hi with ⟨x, hx, hi⟩ | ⟨_, _, hi⟩
      · exact .inl ⟨x, ai, ao, .inl hx, hi⟩
      · exact .inr ⟨_, _, _, hi⟩
    all_goals
      obtain ⟨x, hx, hi⟩ := remapIf_mem.mp hi
      exact .inl ⟨x, ao, ao, by tauto, hi⟩
  · intro hr
    obtain ⟨c, rfl, rfl, rfl, _, R⟩ := S.ready
    by_cases hs : inoutSame c.P c.a = true
    · obtain ⟨m', s⟩ := R.remaps_any e (-1) (fun _ h => by rw [hs] at h; cases h) hbi hbo
      exact ⟨m', s.ok.terminates⟩
    · rw [Bool.not_eq_true] at hs
      obtain ⟨s, t, hx, hB⟩ := R.roomFits hr hs
      obtain ⟨m', k⟩ := (R.atLeast s t).remaps_any e (-1) (fun _ _ => hx) (hB _ hbi) (hB _ hbo)
      have k' := k.ok.terminates
      exact ⟨m', k'⟩

/-- **C25, exactly, for `only_one_remap`.**  With buffers of the returned sizes every stage back but the second ends without undefined
behaviour; the second does if and only if `RoomBack` holds. -/
theorem C25_one_remap_iff {P : Nat} {a : Args3} {st : Settings} {f : Nat → Fft3 ℝ} (S : SetUp3 P a st f) (e : Bool) (which : Int)
    {ai ao : Nat} {m : Nat → LMem ℝ} (hbi : Bufs P f ai m) (hbo : Bufs P f ao m) :
    (∃ m', Terminates e P (fun r => (f r).onlyOneRemap (-1) which ai ao) m m') ↔ (which = 2 → RoomBack P a st m) := by
  constructor
  · rintro ⟨m', h⟩ rfl
    refine S.needs_room h fun r hr hs => ?_
    have hf : ¬ ((-1 : Int) = 1 ∨ (f r).same = true) := by rw [hs]; decide
    have e1 : (f r).onlyOneRemap (-1) 2 ai ao = remapIf (f r).midfast ai ao := by
      unfold Fft3.onlyOneRemap
      rw [if_neg hf, if_neg (by decide), if_neg (by decide), if_pos rfl]
    simp only [e1]
    refine ⟨fun i hi => ?_, ai, ao, fun i hi => hi⟩
    obtain ⟨x, hx, hi⟩ := remapIf_mem.mp hi
    unfold Fft3.uses
    simp only [if_neg hf]
    exact .inl ⟨x, ai, ao, .inr (.inr (.inl hx)), hi⟩
  · intro hr
    obtain ⟨c, rfl, rfl, rfl, _, R⟩ := S.ready
    by_cases hs : inoutSame c.P c.a = true
    · obtain ⟨m', s⟩ := R.one_any e (-1) which (fun _ h => by rw [hs] at h; cases h) hbi hbo
      exact ⟨m', s.ok.terminates⟩
    rw [Bool.not_eq_true] at hs
    by_cases h2 : which = 2
    · obtain ⟨s, t, hx, hB⟩ := R.roomFits (hr h2) hs
      obtain ⟨m', k⟩ := (R.atLeast s t).one_any e (-1) which (fun _ _ => hx) (hB _ hbi) (hB _ hbo)
      have k' := k.ok.terminates
      exact ⟨m', k'⟩
    have hf : ∀ r < c.P, ¬ ((-1 : Int) = 1 ∨ (f r).same = true) := fun r hr => by rw [R.same r hr, hs]; decide
    have main : ∀ (p : Nat → List (Instr ℝ)), (∃ m', Step e c.P (fsz f) ao p m m') →
        (∀ r < c.P, (f r).onlyOneRemap (-1) which ai ao = p r) →
        ∃ m', Terminates e c.P (fun r => (f r).onlyOneRemap (-1) which ai ao) m m' :=
      fun p ⟨m', h⟩ hp => ⟨m', (h.congr hp).ok.terminates⟩
    by_cases h4 : which = 4
    · exact main _ (R.preslow_any e hs hbi hbo) fun r hr => by
        unfold Fft3.onlyOneRemap; rw [if_neg (hf r hr), if_pos h4]
    by_cases h3 : which = 3
    · exact main _ (R.slowmid_any e hs hbi hbo) fun r hr => by
        unfold Fft3.onlyOneRemap; rw [if_neg (hf r hr), if_neg h4, if_pos h3]
    by_cases h1 : which = 1
    · exact main _ (R.postfast_any e hs hbi hbo) fun r hr => by
        unfold Fft3.onlyOneRemap; rw [if_neg (hf r hr), if_neg h4, if_neg h3, if_neg h2, if_pos h1]
    exact main _ ⟨m, Step.nil m⟩ fun r hr => by
        unfold Fft3.onlyOneRemap; rw [if_neg (hf r hr), if_neg h4, if_neg h3, if_neg h2, if_neg h1]

/-- Neither `only_remaps` nor the second stage of `only_one_remap` back is safe with buffers of the returned sizes. -/
theorem C25_remaps_false : ∃ (P : Nat) (a : Args3) (st : Settings) (f : Nat → Fft3 ℝ) (m : Nat → LMem ℝ),
    SetUp3 P a st f ∧ Bufs P f 0 m ∧ ∀ (e : Bool) (m' : Nat → LMem ℝ),
      ¬ Terminates e P (fun r => (f r).onlyRemaps (-1) 0 0) m m' ∧
      ¬ Terminates e P (fun r => (f r).onlyOneRemap (-1) 2 0 0) m m' := by
  obtain ⟨P, a, st, f, m, S, _, _, hb, h⟩ := C25_false
  have hno : ¬ RoomBack P a st m := fun hr => by
    obtain ⟨m', t⟩ := (C25_room_iff S true (fun _ _ => default) false false hb hb).mpr hr
    exact (h true _).1 m' t
  exact ⟨P, a, st, f, m, S, hb, fun e m' => ⟨fun t => hno ((C25_remaps_iff S e hb hb).mp ⟨m', t⟩),
    fun t => hno ((C25_one_remap_iff S e 2 hb hb).mp ⟨m', t⟩ rfl)⟩⟩

/-- The room is there in the arrays of `flatMem`, whatever the settings. -/
example (st : Settings) (hst : st.Valid) : ∃ f, SetUp3 2 bufArgs st f ∧ Bufs 2 f 0 (flatMem fun _ => 0) ∧
    RoomBack 2 bufArgs st (flatMem fun _ => 0) := by
  obtain ⟨f, S⟩ := setUp3_exists bufArgs_valid hst
  exact ⟨f, S, flatMem_bufs _ _ _ _, S.room fun _ _ => ⟨fun _ _ _ => rfl, fun _ _ _ => rfl⟩⟩

end FftMpi
