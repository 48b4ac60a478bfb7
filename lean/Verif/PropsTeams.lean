import Verif.TeamsLemmas
import Verif.PropsSeveral

/-!
# C82: objects on communicators with some of the ranks

Every call is made by the ranks of one communicator.  A rank makes the calls of the communicators it belongs to, in an order
that is the same for all.  Communicators may be disjoint, then their calls run at the same time, or overlap.
-/

noncomputable section

namespace FftMpi

/-- A call, made by `ranks`, in the order of their numbers in the communicator. -/
structure Job where
  ranks : List Nat
  use : Use

namespace Job

/-- What rank `x` does for the call: nothing if it is not one of `ranks`. -/
def prog (P : Nat) (j : Job) (x : Nat) : List (Instr ℝ) := onTeam P j.ranks j.use.prog x

/-- The ranks exist, none is named twice, and the call is right on the communicator. -/
def Valid (P : Nat) (j : Job) : Prop := j.ranks.Nodup ∧ (∀ x ∈ j.ranks, x < P) ∧ j.use.Valid j.ranks.length

/-- The memories of `ranks` have room for the call. -/
def Room (P : Nat) (j : Job) (m : Nat → LMem ℝ) : Prop := j.use.Room j.ranks.length (seenBy P j.ranks m)

/-- The call has its effect on the memories of `ranks`, and none on the other ranks. -/
def Effect (P : Nat) (j : Job) (m m' : Nat → LMem ℝ) : Prop :=
  j.use.Effect j.ranks.length (seenBy P j.ranks m) (seenBy P j.ranks m') ∧ ∀ x < P, x ∉ j.ranks → m' x = m x

/-- All that rank `x` does. -/
def seq (P : Nat) (l : List Job) (x : Nat) : List (Instr ℝ) := l.flatMap fun j => j.prog P x

/-- Each call in turn has its effect. -/
def Effects (P : Nat) : List Job → (Nat → LMem ℝ) → (Nat → LMem ℝ) → Prop
  | [], m, m' => ∀ x < P, m' x = m x
  | j :: l, m, m' => ∃ v, j.Effect P m v ∧ Effects P l v m'

end Job

theorem Call3.Post.congr {P : Nat} {c : Call3} {u u' w : Nat → Nat → Mem ℝ} (h : c.Post P u u') (hw : ∀ r < P, w r = u' r) :
    c.Post P u w where
  moved a ha b hb i j k q h1 h2 h3 := by rw [hw b hb]; exact h.moved a ha b hb i j k q h1 h2 h3
  frame b hb x hx := by rw [hw b hb]; exact h.frame b hb x hx
  hole b hb i j k q h1 h2 h3 := by rw [hw b hb]; exact h.hole b hb i j k q h1 h2 h3
  other b hb n hn := by rw [hw b hb]; exact h.other b hb n hn

theorem Call2.Post.congr {P : Nat} {c : Call2} {u u' w : Nat → Nat → Mem ℝ} (h : c.Post P u u') (hw : ∀ r < P, w r = u' r) :
    c.Post P u w where
  moved a ha b hb i j q h1 h2 h3 := by rw [hw b hb]; exact h.moved a ha b hb i j q h1 h2 h3
  frame b hb x hx := by rw [hw b hb]; exact h.frame b hb x hx
  hole b hb i j q h1 h2 h3 := by rw [hw b hb]; exact h.hole b hb i j q h1 h2 h3
  other b hb n hn := by rw [hw b hb]; exact h.other b hb n hn

/-- The effect of a call is about the ranks that make it. -/
theorem Use.Effect.congr {P : Nat} {u : Use} {m v w : Nat → LMem ℝ} (h : u.Effect P m v) (hw : ∀ r < P, w r = v r) :
    u.Effect P m w := by
  induction u generalizing m v w with
  | own s t u ih => exact ih h fun r hr => by rw [hw r hr]
  | fft3 a st f J scaled remaponly back k n =>
    obtain ⟨h1, h2, h3⟩ := h
    refine ⟨fun r hr => ?_, fun hb X hX => holds_of hw (h2 hb X hX), fun hb X hX => ?_⟩
    · rw [hw r hr]; exact h1 r hr
    · obtain ⟨k1, k2, k3⟩ := h3 hb X hX
      exact ⟨fun h => holds_of hw (k1 h), fun h h' => holds_of hw (k2 h h'), fun h h' => scaled_of hw (fun _ _ => rfl) (k3 h h')⟩
  | fft2 w' a st f J scaled remaponly back k n =>
    obtain ⟨h1, h2, h3⟩ := h
    refine ⟨fun r hr => ?_, fun hb X hX => holds2_of hw (h2 hb X hX), fun hb X hX => ?_⟩
    · rw [hw r hr]; exact h1 r hr
    · obtain ⟨k1, k2, k3⟩ := h3 hb X hX
      exact ⟨fun h => holds2_of hw (k1 h), fun h h' => holds2_of hw (k2 h h'),
        fun h h' => scaled2_of hw (fun _ _ => rfl) (k3 h h')⟩
  | remap3 c obj => exact Call3.Post.congr h fun r hr => by rw [hw r hr]
  | remap2 c obj => exact Call2.Post.congr h fun r hr => by rw [hw r hr]
  | code n g =>
    exact ⟨fun r hr n' hn => by rw [hw r hr]; exact h.1 r hr n' hn, fun r hr => by rw [hw r hr]; exact h.2 r hr⟩

theorem seenBy_backFrom {P : Nat} {g : List Nat} (hn : g.Nodup) (v m : Nat → LMem ℝ) :
    ∀ r < g.length, seenBy P g (backFrom g v m) r = v r := by
  intro r hr
  simp only [seenBy, backFrom, if_pos (place_mem hr), idxOf_place hn hr]

theorem sameDom_seenBy {P : Nat} {g : List Nat} (hP : ∀ x ∈ g, x < P) {m m' : Nat → LMem ℝ} (h : SameDom P m m') :
    SameDom g.length (seenBy P g m) (seenBy P g m') :=
  fun _ hr => h _ (hP _ (place_mem hr))

/-- One call. -/
theorem Job.once (e : Bool) {P : Nat} (j : Job) (m : Nat → LMem ℝ) (hv : j.Valid P) (hr : j.Room P m) :
    ∃ m', StageOK e P (j.prog P) m m' ∧ j.Effect P m m' ∧ SameDom P m m' := by
  obtain ⟨hn, hP, hu⟩ := hv
  obtain ⟨v, h1, h2, h3⟩ := Use.once e j.use (seenBy P j.ranks m) hu hr
  refine ⟨backFrom j.ranks v m, h1.onTeam hn hP, ⟨h2.congr (seenBy_backFrom hn v m), ?_⟩, ?_⟩
  · intro x _ hx
    exact if_neg hx
  · intro x _
    by_cases hx : x ∈ j.ranks
    · have := h3 _ (List.idxOf_lt_length_of_mem hx)
      simp only [seenBy, place_idxOf hx] at this
      simpa only [backFrom, if_pos hx] using this
    · simp only [backFrom, if_neg hx, implies_true, and_self]

theorem Job.all (e : Bool) {P : Nat} (l : List Job) (m : Nat → LMem ℝ) (hv : ∀ j ∈ l, j.Valid P) (hr : ∀ j ∈ l, j.Room P m) :
    ∃ m', StageOK e P (Job.seq P l) m m' ∧ Job.Effects P l m m' ∧ SameDom P m m' := by
  induction l generalizing m with
  | nil => exact ⟨m, StageOK.nil m, fun _ _ => rfl, SameDom.refl P m⟩
  | cons j l ih =>
    obtain ⟨m1, h1, h2, h3⟩ := Job.once e j m (hv j (by simp)) (hr j (by simp))
    obtain ⟨m2, h4, h5, h6⟩ := ih m1 (fun d hd => hv d (by simp [hd])) (fun d hd =>
      (hr d (by simp [hd])).congr (sameDom_seenBy (hv d (by simp [hd])).2.1 h3))
    exact ⟨m2, (h1.append h4).congr (fun r _ => by simp [Job.seq]), ⟨m1, h2, h5⟩, h3.trans h6⟩

/-- **C82.**  Calls of `compute` and `remap` on any objects, each made by the ranks of its own communicator; a rank makes the
calls of its communicators in the common order and otherwise does not wait.  Under every schedule, with buffered and with
synchronous sends, all ranks get to the end, no rank accesses anything out of bounds, every call has the effect on the ranks of
its communicator that it has alone, and no effect on other ranks.

Partial: separate arrays `in` and `out` of FFTs only where they work, as in C81. -/
theorem C82_communicators_partial (e : Bool) {P : Nat} (l : List Job) (m : Nat → LMem ℝ) (hv : ∀ j ∈ l, j.Valid P)
    (hr : ∀ j ∈ l, j.Room P m) : ∃ m', Terminates e P (Job.seq P l) m m' ∧ Job.Effects P l m m' := by
  obtain ⟨m', h1, h2, _⟩ := Job.all e l m hv hr
  exact ⟨m', h1.terminates, h2⟩

/-- Rank `i` of the communicator is rank `ranks[i]` of all: its memory is used, it runs the program, and in the program its
name stands for `i`. -/
theorem C82_names (P : Nat) (j : Job) (hn : j.ranks.Nodup) (i : Nat) (hi : i < j.ranks.length) :
    (∀ m : Nat → LMem ℝ, seenBy P j.ranks m i = m j.ranks[i]) ∧
    j.prog P j.ranks[i] = (j.use.prog i).map (Instr.rename (place P j.ranks)) ∧
    place P j.ranks i = j.ranks[i] ∧ (∀ x, x ∉ j.ranks → j.prog P x = []) := by
  have h : place P j.ranks i = j.ranks[i] := dif_pos hi
  refine ⟨fun m => congrArg m h, ?_, h, fun x hx => if_neg hx⟩
  have := idxOf_place (P := P) hn hi
  rw [h] at this
  unfold Job.prog onTeam
  rw [if_pos (List.getElem_mem hi), this]

/-- **The order of calls on disjoint communicators does not matter**: the program of every rank is the same. -/
theorem C82_order (P : Nat) (l l' : List Job) (j k : Job) (hd : ∀ x, ¬ (x ∈ j.ranks ∧ x ∈ k.ranks)) :
    Job.seq P (l ++ j :: k :: l') = Job.seq P (l ++ k :: j :: l') := by
  funext x
  simp only [Job.seq, List.flatMap_append, List.flatMap_cons]
  by_cases hj : x ∈ j.ranks
  · have hk : x ∉ k.ranks := fun h => hd x ⟨hj, h⟩
    simp [Job.prog, onTeam, hk]
  · simp [Job.prog, onTeam, hj]

/-- Four ranks: an FFT on ranks 0 and 2, one on ranks 3 and 1 (in this order), then a remap on ranks 2 and 3.  Both pairs start
with values of the example grid. -/
example : ∃ (f : Nat → Fft3 ℝ) (obj : Nat → RemapObj ℝ PackPlan3) (m : Nat → LMem ℝ),
    let J : Nat → Nat → Junk := fun _ _ _ => (0, 0)
    let l : List Job :=
      [⟨[0, 2], .fft3 (demo3 1) ⟨2, 1, 2⟩ f J true false false 0 0⟩, ⟨[3, 1], .fft3 (demo3 1) ⟨2, 1, 2⟩ f J true false false 0 0⟩,
        ⟨[2, 3], .remap3 (demo 1 2 false 2 3) obj⟩]
    (∀ j ∈ l, j.Valid 4) ∧ (∀ j ∈ l, j.Room 4 m) ∧
    Holds 2 0 (demo3 1).ins 0 (fun i j k => i + 2 * j + 5 * k) (seenBy 4 [0, 2] m) ∧
    Holds 2 0 (demo3 1).ins 0 (fun i j k => i + 2 * j + 5 * k) (seenBy 4 [3, 1] m) := by
  obtain ⟨f, S⟩ := setUp3_exists (demo3_valid 1 (by decide)) (st := ⟨2, 1, 2⟩) (by simp [Settings.Valid])
  obtain ⟨obj, hs⟩ := setup3_exists (α := ℝ) 2 (demo 1 2 false 2 3) (by decide) (Or.inr (Or.inl rfl)) (Or.inr (Or.inr rfl))
  refine ⟨f, obj, fun x => roomy (demo3 1).ins (fun i j k => i + 2 * j + 5 * k) (if x = 0 ∨ x = 3 then 0 else 1), ?_, ?_, ?_, ?_⟩
  · intro j hj
    simp only [List.mem_cons, List.not_mem_nil, or_false] at hj
    rcases hj with rfl | rfl | rfl
    · exact ⟨by simp, by simp, S, .inl rfl⟩
    · exact ⟨by simp, by simp, S, .inl rfl⟩
    · exact ⟨by simp, by simp, demo_valid _ _ _ _ _ (Or.inr (Or.inl rfl)) (Or.inr (Or.inr rfl)), hs⟩
  · intro j hj
    simp only [List.mem_cons, List.not_mem_nil, or_false] at hj
    rcases hj with rfl | rfl | rfl
    · exact ⟨⟨fun _ _ _ _ _ => roomy_ub _ _ _ _ _, fun _ _ _ _ _ => rfl, fun _ _ _ _ _ => rfl⟩, (fun h => by cases h),
        fun _ _ _ _ _ => roomy_ub _ _ _ _ _⟩
    · exact ⟨⟨fun _ _ _ _ _ => roomy_ub _ _ _ _ _, fun _ _ _ _ _ => rfl, fun _ _ _ _ _ => rfl⟩, (fun h => by cases h),
        fun _ _ _ _ _ => roomy_ub _ _ _ _ _⟩
    · exact ⟨fun _ _ _ _ _ => roomy_ub _ _ _ _ _, fun _ _ _ _ _ => roomy_ub _ _ _ _ _, fun _ _ _ _ _ => rfl,
        fun _ _ _ _ _ => rfl⟩
  all_goals
    intro r hr
    have := roomy_holds 2 (demo3 1).ins (fun i j k => i + 2 * j + 5 * k) r hr
    interval_cases r <;> exact this

end FftMpi
