import Verif.DriverTimes

/-!
# Lemmas on the times that the test programs report
-/

noncomputable section

namespace FftMpi

namespace Driver

variable {rnd tick : ℝ → ℝ}

/-- The variable that an action assigns. -/
def Act.target : Act → Option Var
  | .wtime v => some v
  | .diff v _ _ => some v
  | .copy v _ => some v
  | .zero v => some v
  | _ => none

/-- `v` keeps its value. -/
def Keeps (v : Var) (l : List Act) : Prop := ∀ a ∈ l, a.target ≠ some v

theorem TimeSt.exec_append (l m : List (Act × ℝ)) : ∀ s : TimeSt,
    TimeSt.exec rnd tick (l ++ m) s = TimeSt.exec rnd tick m (TimeSt.exec rnd tick l s) := by
  induction l with
  | nil => intro s; rfl
  | cons x l ih => intro s; exact ih _

theorem TimeSt.act_now (s : TimeSt) (a : Act) : (TimeSt.act rnd tick s a).now = s.now := by
  cases a <;> rfl

theorem TimeSt.exec_now (l : List (Act × ℝ)) : ∀ s : TimeSt,
    (TimeSt.exec rnd tick l s).now = s.now + (l.map Prod.snd).sum := by
  induction l with
  | nil => intro s; simp [TimeSt.exec]
  | cons x l ih =>
    intro s
    rw [TimeSt.exec, ih, TimeSt.act_now]
    simp only [List.map_cons, List.sum_cons]
    ring

theorem TimeSt.act_keeps {v : Var} (s : TimeSt) (a : Act) (h : a.target ≠ some v) :
    (TimeSt.act rnd tick s a).val v = s.val v := by
  cases a with
  | barrier => rfl
  | job j => rfl
  | _ =>
    simp only [Act.target, ne_eq, Option.some.injEq] at h
    exact Function.update_of_ne (fun e => h e.symm) _ _

theorem TimeSt.exec_keeps {v : Var} (l : List (Act × ℝ)) : ∀ s : TimeSt, Keeps v (l.map Prod.fst) →
    (TimeSt.exec rnd tick l s).val v = s.val v := by
  induction l with
  | nil => intro s _; rfl
  | cons x l ih =>
    intro s h
    rw [TimeSt.exec, ih _ fun a ha => h a (List.mem_cons_of_mem _ ha), TimeSt.act_keeps]
    exact h _ (by simp)

/-- After the actions `c` the value of `v` is the rounded difference of what `y` and `x` were before. -/
def Ends (c : List Act) (v x y : Var) : Prop :=
  ∀ (rnd tick : ℝ → ℝ) (l : List (Act × ℝ)) (s : TimeSt), l.map Prod.fst = c →
    (TimeSt.exec rnd tick l s).val v = rnd (s.val y - s.val x)

theorem ends_diff {d e : List Act} {v x y : Var} (hx : Keeps x d) (hy : Keeps y d) (hv : Keeps v e) :
    Ends (d ++ .diff v y x :: e) v x y := by
  intro rnd tick l s h
  obtain ⟨l₁, l₂, rfl, h₁, h₂⟩ := List.map_eq_append_iff.mp h
  obtain ⟨z, l₃, rfl, h₃, h₄⟩ := List.map_eq_cons_iff.mp h₂
  rw [TimeSt.exec_append, TimeSt.exec, TimeSt.exec_keeps _ _ (h₄ ▸ hv), h₃]
  simp only [TimeSt.act, Function.update_self]
  rw [TimeSt.exec_keeps _ _ (h₁ ▸ hy), TimeSt.exec_keeps _ _ (h₁ ▸ hx)]

theorem ends_copy {d e f : List Act} {v w x y : Var} (hx : Keeps x d) (hy : Keeps y d) (hw : Keeps w e) (hv : Keeps v f) :
    Ends (d ++ .diff w y x :: e ++ .copy v w :: f) v x y := by
  intro rnd tick l s h
  obtain ⟨l₁, l₂, rfl, h₁, h₂⟩ := List.map_eq_append_iff.mp h
  obtain ⟨z, l₃, rfl, h₃, h₄⟩ := List.map_eq_cons_iff.mp h₂
  rw [TimeSt.exec_append, TimeSt.exec, TimeSt.exec_keeps _ _ (h₄ ▸ hv), h₃]
  simp only [TimeSt.act, Function.update_self]
  exact ends_diff hx hy hw rnd tick l₁ s h₁

theorem take_map_fst {A : List Act} {l₁ l₂ : List (Act × ℝ)} (h : l₁.map Prod.fst = A) {n : Nat} (hn : n = A.length) :
    (l₁ ++ l₂).take n = l₁ := by
  have : l₁.length = n := by rw [hn, ← h, List.length_map]
  rw [List.take_append_of_le_length (by omega), List.take_of_length_le (by omega)]

theorem mem_loopActs {o : TimeOpt} {call : Int → Job} {a : Act} (h : a ∈ loopActs o call) :
    ∃ d, a = .job (call d) ∧ (d = 1 ∨ o.mode < 2 ∧ d = -1) := by
  unfold loopActs at h
  obtain ⟨m, hm, ha⟩ := List.mem_flatten.mp h
  have := List.eq_of_mem_replicate hm
  subst this
  unfold passActs at ha
  by_cases hm : o.mode < 2
  · rw [if_pos hm] at ha
    rcases List.mem_cons.mp ha with h | h
    · exact ⟨1, h, Or.inl rfl⟩
    · exact ⟨-1, List.mem_singleton.mp h, Or.inr ⟨hm, rfl⟩⟩
  · rw [if_neg hm] at ha
    exact ⟨1, List.mem_singleton.mp ha, Or.inl rfl⟩

theorem keeps_loop (o : TimeOpt) (call : Int → Job) (v : Var) : Keeps v (loopActs o call) := by
  intro a ha
  obtain ⟨d, rfl, -⟩ := mem_loopActs ha
  simp [Act.target]

theorem keeps_append {v : Var} {l m : List Act} : Keeps v (l ++ m) ↔ Keeps v l ∧ Keeps v m := List.forall_mem_append

theorem keeps_cons {v : Var} {a : Act} {m : List Act} : Keeps v (a :: m) ↔ a.target ≠ some v ∧ Keeps v m :=
  List.forall_mem_cons

theorem keeps_nil {v : Var} : Keeps v [] := fun _ h => absurd h List.not_mem_nil

/-- All jobs of a list satisfy `p`. -/
def Jobs (p : Job → Prop) (l : List Act) : Prop := ∀ j, Act.job j ∈ l → p j

theorem jobs_append {p : Job → Prop} {l m : List Act} : Jobs p (l ++ m) ↔ Jobs p l ∧ Jobs p m := by
  unfold Jobs
  simp only [List.mem_append]
  exact ⟨fun h => ⟨fun j hj => h j (Or.inl hj), fun j hj => h j (Or.inr hj)⟩,
    fun h j hj => hj.elim (h.1 j) (h.2 j)⟩

theorem jobs_cons {p : Job → Prop} {a : Act} {m : List Act} : Jobs p (a :: m) ↔ (∀ j, Act.job j = a → p j) ∧ Jobs p m := by
  unfold Jobs
  simp only [List.mem_cons]
  exact ⟨fun h => ⟨fun j hj => h j (Or.inl hj), fun j hj => h j (Or.inr hj)⟩,
    fun h j hj => hj.elim (h.1 j) (h.2 j)⟩

theorem jobs_nil {p : Job → Prop} : Jobs p [] := fun _ h => absurd h List.not_mem_nil

theorem jobs_loop {p : Job → Prop} {o : TimeOpt} {call : Int → Job} (h : ∀ d, p (call d)) : Jobs p (loopActs o call) := by
  intro j hj
  obtain ⟨d, e, -⟩ := mem_loopActs hj
  injection e with e
  exact e ▸ h d

end Driver

end FftMpi
