import Verif.OutputLemmas

/-!
# The ranks of `output` take turns
-/

namespace FftMpi

variable {T : Type}

/-- The message to the next rank. -/
def outTail (P r : Nat) : List (OutAct T) := if r + 1 < P then [.send] else []

theorem outBody_first (P : Nat) (l : List T) : outBody P 0 l = l.map .print ++ outTail P 0 := rfl

theorem outBody_later {P r : Nat} (hr : 0 < r) (l : List T) :
    outBody P r l = .recv :: (l.map .print ++ outTail P r) := by
  unfold outBody outTail
  rw [if_pos (show 1 ≤ r from hr)]
  rfl

theorem flatMap_once {β : Type} (b : List β) {r : Nat} : ∀ P : Nat, (List.range P).flatMap (fun i => if r ≠ i then [] else b) =
    if r < P then b else []
  | 0 => rfl
  | P + 1 => by
    rw [List.range_succ, List.flatMap_append, flatMap_once b P]
    by_cases h : r = P
    · subst h; simp
    · by_cases h' : r < P
      · simp [h, h', show r < P + 1 by omega]
      · simp [h, h', show ¬r < P + 1 by omega]

theorem outputC_first {P : Nat} (hP : 0 < P) (title l : List T) :
    outputC P 0 title l = (title ++ l).map .print ++ outTail P 0 := by
  unfold outputC
  rw [flatMap_once, if_pos hP, if_pos rfl, outBody_first, List.map_append, List.append_assoc]

theorem outputC_later {P r : Nat} (h0 : 0 < r) (hr : r < P) (title l : List T) :
    outputC P r title l = .recv :: (l.map .print ++ outTail P r) := by
  unfold outputC
  rw [flatMap_once, if_pos hr, if_neg (by omega), outBody_later h0, List.nil_append]

/-- Rank `k` prints, it has the lines `x` left. -/
structure OutTurn (P k : Nat) (L : Nat → List T) (x : List T) (s : OutSt T) : Prop where
  lt : k < P
  before : ∀ r < k, s.prog r = []
  now : s.prog k = x.map .print ++ outTail P k
  later : ∀ r, k < r → r < P → s.prog r = .recv :: ((L r).map .print ++ outTail P r)
  chan : ∀ r, r + 1 < P → s.chan r = 0

/-- A message is on its way from rank `k` to rank `k+1`. -/
structure OutFlight (P k : Nat) (L : Nat → List T) (s : OutSt T) : Prop where
  lt : k + 1 < P
  before : ∀ r ≤ k, s.prog r = []
  later : ∀ r, k < r → r < P → s.prog r = .recv :: ((L r).map .print ++ outTail P r)
  mine : s.chan k = 1
  chan : ∀ r, r + 1 < P → r ≠ k → s.chan r = 0

/-- What the ranks from `k` on print. -/
def outFrom (P k : Nat) (L : Nat → List T) : List T := ((List.range P).drop k).flatMap L

theorem outFrom_lt {P k : Nat} (h : k < P) (L : Nat → List T) : outFrom P k L = L k ++ outFrom P (k + 1) L := by
  unfold outFrom
  rw [List.drop_eq_getElem_cons (by simpa using h), List.getElem_range, List.flatMap_cons]

theorem outFrom_end (P : Nat) (L : Nat → List T) : outFrom P P L = [] := by
  unfold outFrom
  rw [List.drop_of_length_le (by simp)]
  rfl

theorem OutTurn.heads {P k : Nat} {L : Nat → List T} {x : List T} {s : OutSt T} (h : OutTurn P k L x s) {r : Nat} (hr : r < P)
    {a : OutAct T} {p : List (OutAct T)} (hp : s.prog r = a :: p) :
    (r = k ∧ ∃ y x', x = y :: x' ∧ a = .print y ∧ p = x'.map .print ++ outTail P k) ∨
    (r = k ∧ x = [] ∧ k + 1 < P ∧ a = .send ∧ p = []) ∨
    (k < r ∧ a = .recv ∧ p = (L r).map .print ++ outTail P r) := by
  rcases Nat.lt_trichotomy r k with h1 | h1 | h1
  · rw [h.before r h1] at hp; cases hp
  · subst h1
    rw [h.now] at hp
    cases x with
    | nil =>
      right; left
      unfold outTail at hp
      by_cases hk : r + 1 < P
      · rw [if_pos hk] at hp
        have hp : [OutAct.send] = a :: p := hp
        rw [List.cons.injEq] at hp
        exact ⟨rfl, rfl, hk, hp.1.symm, hp.2.symm⟩
      · rw [if_neg hk] at hp; cases hp
    | cons y x' =>
      left
      rw [List.map_cons, List.cons_append, List.cons.injEq] at hp
      exact ⟨rfl, y, x', rfl, hp.1.symm, hp.2.symm⟩
  · right; right
    rw [h.later r h1 hr, List.cons.injEq] at hp
    exact ⟨h1, hp.1.symm, hp.2.symm⟩

/-- **The ranks print one after the other.** -/
theorem OutTurn.ends (e : Bool) {P k : Nat} {L : Nat → List T} {x : List T} {s : OutSt T} (h : OutTurn P k L x s) :
    OutEnds e P s (· = s.log ++ x ++ outFrom P (k + 1) L) := by
  generalize hl : s.log ++ x ++ outFrom P (k + 1) L = l
  refine outEnds_of (fun s => (∃ k x, OutTurn P k L x s ∧ s.log ++ x ++ outFrom P (k + 1) L = l) ∨
    ∃ k, OutFlight P k L s ∧ s.log ++ outFrom P (k + 1) L = l) (.inl ⟨k, x, h, hl⟩) ?_ ?_
  · rintro s t (⟨k, x, h, hl⟩ | ⟨k, h, hl⟩) hs
    · cases hs with
      | @print r y p hr hp =>
        rcases h.heads hr hp with ⟨rfl, y', x', rfl, ha, rfl⟩ | ⟨_, _, _, ha, _⟩ | ⟨_, ha, _⟩
        · obtain rfl : y = y' := by cases ha; rfl
          refine .inl ⟨r, x', ⟨h.lt, fun i hi => ?_, ?_, fun i hi hi' => ?_, h.chan⟩, by rw [← hl]; simp⟩
          · dsimp only
            rw [Function.update_of_ne (by omega)]; exact h.before i hi
          · exact Function.update_self ..
          · dsimp only
            rw [Function.update_of_ne (by omega)]; exact h.later i hi hi'
        · cases ha
        · cases ha
      | @send r p he hr hp =>
        rcases h.heads (by omega) hp with ⟨_, _, _, _, ha, _⟩ | ⟨rfl, rfl, hk, _, rfl⟩ | ⟨_, ha, _⟩
        · cases ha
        · refine .inr ⟨r, ⟨hk, fun i hi => ?_, fun i hi hi' => ?_, ?_, fun i hi hi' => ?_⟩, by rw [← hl]; simp⟩
          · dsimp only
            by_cases hir : i = r
            · rw [hir, Function.update_self]
            · rw [Function.update_of_ne hir]; exact h.before i (by omega)
          · dsimp only
            rw [Function.update_of_ne (by omega)]; exact h.later i hi hi'
          · dsimp only
            rw [Function.update_self, h.chan r hk]
          · dsimp only
            rw [Function.update_of_ne hi']; exact h.chan i hi
        · cases ha
      | @recv r n p hr hp hn => rw [h.chan r hr] at hn; cases hn
      | @sync r p q hr hp hq hn =>
        rcases h.heads (by omega) hp with ⟨_, _, _, _, ha, _⟩ | ⟨rfl, rfl, hk, _, rfl⟩ | ⟨_, ha, _⟩
        · cases ha
        · rcases h.heads hr hq with ⟨h1, _⟩ | ⟨h1, _⟩ | ⟨_, _, rfl⟩
          · omega
          · omega
          refine .inl ⟨r + 1, L (r + 1), ⟨hr, fun i hi => ?_, ?_, fun i hi hi' => ?_, h.chan⟩, ?_⟩
          · dsimp only
            rw [Function.update_of_ne (by omega)]
            by_cases hir : i = r
            · rw [hir, Function.update_self]
            · rw [Function.update_of_ne hir]; exact h.before i (by omega)
          · exact Function.update_self ..
          · dsimp only
            rw [Function.update_of_ne (by omega), Function.update_of_ne (by omega)]; exact h.later i (by omega) hi'
          · rw [← hl, outFrom_lt hr]; simp
        · cases ha
      | @barrier p hP hp =>
        rcases h.heads h.lt (hp k h.lt) with ⟨_, _, _, _, ha, _⟩ | ⟨_, _, _, ha, _⟩ | ⟨h1, _⟩
        · cases ha
        · cases ha
        · omega
    · have heads : ∀ {r : Nat} {a : OutAct T} {p : List (OutAct T)}, r < P → s.prog r = a :: p →
          k < r ∧ a = .recv ∧ p = (L r).map .print ++ outTail P r := by
        intro r a p hr hp
        by_cases hk : k < r
        · rw [h.later r hk hr, List.cons.injEq] at hp
          exact ⟨hk, hp.1.symm, hp.2.symm⟩
        · rw [h.before r (by omega)] at hp; cases hp
      cases hs with
      | @print r y p hr hp => cases (heads hr hp).2.1
      | @send r p he hr hp => cases (heads (by omega) hp).2.1
      | @recv r n p hr hp hn =>
        by_cases hrk : r = k
        · subst hrk
          rw [h.mine, Nat.succ_inj] at hn
          subst hn
          obtain ⟨-, -, rfl⟩ := heads hr hp
          refine .inl ⟨r + 1, L (r + 1), ⟨hr, fun i hi => ?_, ?_, fun i hi hi' => ?_, fun i hi => ?_⟩, ?_⟩
          · dsimp only
            rw [Function.update_of_ne (by omega)]; exact h.before i (by omega)
          · exact Function.update_self ..
          · dsimp only
            rw [Function.update_of_ne (by omega)]; exact h.later i (by omega) hi'
          · dsimp only
            by_cases hir : i = r
            · rw [hir, Function.update_self]
            · rw [Function.update_of_ne hir]; exact h.chan i hi hir
          · rw [← hl, outFrom_lt hr]; simp
        · rw [h.chan r hr hrk] at hn; cases hn
      | @sync r p q hr hp hq hn => cases (heads (by omega) hp).2.1
      | @barrier p hP hp => cases (heads h.lt (hp _ h.lt)).2.1
  · rintro s (⟨k, x, h, hl⟩ | ⟨k, h, hl⟩)
    · cases x with
      | cons y x' => exact .inr ⟨_, .print h.lt h.now⟩
      | nil =>
        by_cases hk : k + 1 < P
        · have e1 := h.now
          unfold outTail at e1
          rw [if_pos hk] at e1
          exact .inr ⟨_, .sync hk e1 (h.later (k + 1) (by omega) hk) (h.chan k hk)⟩
        · left
          have e1 := h.now
          unfold outTail at e1
          rw [if_neg hk] at e1
          refine ⟨⟨fun r hr => ?_, h.chan⟩, ?_⟩
          · by_cases hrk : r = k
            · rw [hrk]; exact e1
            · have := h.lt
              exact h.before r (by omega)
          · rw [← hl, show k + 1 = P by have := h.lt; omega, outFrom_end]; simp
    · exact .inr ⟨_, .recv h.lt (h.later (k + 1) (by omega) h.lt) h.mine⟩

theorem outputC_turn {P : Nat} (hP : 0 < P) (title : List T) (L : Nat → List T) {s : OutSt T}
    (hs : ∀ r < P, s.prog r = outputC P r title (L r)) (hc : ∀ r, r + 1 < P → s.chan r = 0) :
    OutTurn P 0 L (title ++ L 0) s :=
  ⟨hP, fun r hr => absurd hr (by omega), by rw [hs 0 hP, outputC_first hP],
    fun r h0 hr => by rw [hs r hr, outputC_later h0 hr], hc⟩

theorem outFrom_zero (P : Nat) (L : Nat → List T) : outFrom P 0 L = (List.range P).flatMap L := rfl

theorem outputC_ends (e : Bool) {P : Nat} (hP : 0 < P) (title : List T) (L : Nat → List T) :
    OutEnds e P (outStart fun r => outputC P r title (L r)) (· = title ++ (List.range P).flatMap L) := by
  refine ((outputC_turn hP title L (s := outStart fun r => outputC P r title (L r)) (fun _ _ => rfl) fun _ _ => rfl).ends e).mono
    fun l hl => ?_
  rw [hl, ← outFrom_zero, outFrom_lt hP]
  simp [outStart]

/-! ## The whole programs -/

theorem outEnds_nil (e : Bool) (P : Nat) : OutEnds e P (outStart fun _ => ([] : List (OutAct T))) (· = []) := by
  refine outEnds_of (fun s => s = outStart fun _ => []) rfl ?_ ?_
  · rintro _ u rfl hu
    exfalso
    cases hu with
    | print hr hp => cases hp
    | send he hr hp => cases hp
    | recv hr hp hn => cases hp
    | sync hr hp hq hn => cases hp
    | barrier hP hp => cases hp 0 hP
  · rintro _ rfl
    exact .inl ⟨⟨fun _ _ => rfl, fun _ _ => rfl⟩, rfl⟩

theorem outEnds_report (e : Bool) {P : Nat} (hP : 0 < P) (l : List T) :
    OutEnds e P (outStart fun r => if r = 0 then l.map .print else []) (· = l) := by
  refine outEnds_of (fun s => ∃ x, s.prog 0 = x.map .print ∧ (∀ r, 0 < r → r < P → s.prog r = []) ∧
    (∀ r, r + 1 < P → s.chan r = 0) ∧ s.log ++ x = l) ⟨l, rfl, fun r h0 _ => if_neg (by omega), fun _ _ => rfl, rfl⟩ ?_ ?_
  · rintro s t ⟨x, h0, h1, h2, h3⟩ hs
    have heads : ∀ {r : Nat} {a : OutAct T} {p : List (OutAct T)}, r < P → s.prog r = a :: p →
        r = 0 ∧ ∃ y x', x = y :: x' ∧ a = .print y ∧ p = x'.map .print := by
      intro r a p hr hp
      by_cases hr0 : r = 0
      · subst hr0
        rw [h0] at hp
        cases x with
        | nil => cases hp
        | cons y x' =>
          rw [List.map_cons, List.cons.injEq] at hp
          exact ⟨rfl, y, x', rfl, hp.1.symm, hp.2.symm⟩
      · rw [h1 r (by omega) hr] at hp; cases hp
    cases hs with
    | @print r y p hr hp =>
      obtain ⟨rfl, y', x', rfl, ha, rfl⟩ := heads hr hp
      obtain rfl : y = y' := by cases ha; rfl
      refine ⟨x', by simp, fun i hi hi' => ?_, h2, by rw [← h3]; simp⟩
      dsimp only
      rw [Function.update_of_ne (by omega)]; exact h1 i hi hi'
    | @send r p he hr hp => obtain ⟨_, _, _, _, ha, _⟩ := heads (by omega) hp; cases ha
    | @recv r n p hr hp hn => obtain ⟨_, _, _, _, ha, _⟩ := heads hr hp; cases ha
    | @sync r p q hr hp hq hn => obtain ⟨_, _, _, _, ha, _⟩ := heads hr hq; cases ha
    | @barrier p _ hp => obtain ⟨_, _, _, _, ha, _⟩ := heads hP (hp 0 hP); cases ha
  · rintro s ⟨x, h0, h1, h2, h3⟩
    cases x with
    | cons y x' => exact .inr ⟨_, .print hP h0⟩
    | nil =>
      refine .inl ⟨⟨fun r hr => ?_, h2⟩, by rw [← h3]; simp⟩
      by_cases hr0 : r = 0
      · rw [hr0]; exact h0
      · exact h1 r (by omega) hr

/-- Barriers do not print. -/
theorem OutEnds.barriers {e : Bool} {P : Nat} (hP : 0 < P) {Q : List T → Prop} {b : Nat → List (OutAct T)}
    (h : OutEnds e P (outStart b) Q) : ∀ n : Nat, OutEnds e P (outStart fun r => List.replicate n .barrier ++ b r) Q
  | 0 => h
  | n + 1 => by
    have := (outEnds_nil e P).seq hP (h.barriers hP n) (Q'' := Q) fun l m hl hm => by rw [hl]; exact hm
    exact this

/-! ## Lines of one rank -/

/-- The lines that a program prints. -/
def outLines : List (OutAct T) → List T
  | [] => []
  | .print x :: p => x :: outLines p
  | _ :: p => outLines p

theorem outLines_append : ∀ p q : List (OutAct T), outLines (p ++ q) = outLines p ++ outLines q
  | [], _ => rfl
  | .print x :: p, q => by simp only [List.cons_append, outLines, outLines_append p q]
  | .send :: p, q => outLines_append p q
  | .recv :: p, q => outLines_append p q
  | .barrier :: p, q => outLines_append p q

theorem outLines_map : ∀ l : List T, outLines (l.map .print) = l
  | [] => rfl
  | x :: l => by simp only [List.map_cons, outLines, outLines_map l]

/-- Only rank `i` prints lines that `q` picks, and those it has printed and will print are `l`. -/
structure OutOwn (P i : Nat) (q : T → Bool) (l : List T) (s : OutSt T) : Prop where
  other : ∀ r < P, r ≠ i → (outLines (s.prog r)).filter q = []
  mine : s.log.filter q ++ (outLines (s.prog i)).filter q = l

theorem OutOwn.skip {P i : Nat} {q : T → Bool} {l : List T} {s : OutSt T} (h : OutOwn P i q l s) {f : Nat → List (OutAct T)}
    {c : Nat → Nat} (hf : ∀ r, outLines (f r) = outLines (s.prog r)) : OutOwn P i q l ⟨f, c, s.log⟩ :=
  ⟨fun r hr hi => by show (outLines (f r)).filter q = _; rw [hf]; exact h.other r hr hi, by
    show _ ++ (outLines (f i)).filter q = _; rw [hf]; exact h.mine⟩

theorem outLines_update {f : Nat → List (OutAct T)} {i : Nat} {a : OutAct T} {p : List (OutAct T)} (h : f i = a :: p)
    (ha : outLines (a :: p) = outLines p) (r : Nat) : outLines (Function.update f i p r) = outLines (f r) := by
  by_cases hr : r = i
  · subst hr; rw [Function.update_self, h, ha]
  · rw [Function.update_of_ne hr]

theorem OutOwn.step {e : Bool} {P i : Nat} (hi : i < P) {q : T → Bool} {l : List T} {s t : OutSt T} (h : OutOwn P i q l s)
    (k : OutStep e P s t) : OutOwn P i q l t := by
  cases k with
  | @print r x p hr hp =>
    by_cases hri : r = i
    · subst hri
      constructor
      · intro j hj hj'
        dsimp only
        rw [Function.update_of_ne hj']
        exact h.other j hj hj'
      · have := h.mine
        rw [hp] at this
        dsimp only
        rw [Function.update_self, List.filter_append, List.append_assoc, ← List.filter_append]
        exact this
    · have hx := h.other r hr hri
      rw [hp] at hx
      have hx : (x :: outLines p).filter q = [] := hx
      rw [List.filter_eq_nil_iff] at hx
      have hqx : [x].filter q = [] := List.filter_eq_nil_iff.mpr fun a ha => hx a (by simp_all)
      constructor
      · intro j hj hj'
        dsimp only
        by_cases hjr : j = r
        · subst hjr
          rw [Function.update_self]
          exact List.filter_eq_nil_iff.mpr fun a ha => hx a (by simp_all)
        · rw [Function.update_of_ne hjr]
          exact h.other j hj hj'
      · dsimp only
        rw [Function.update_of_ne (fun h => hri h.symm), List.filter_append, hqx, List.append_nil]
        exact h.mine
  | @send r p he hr hp => exact h.skip (outLines_update hp rfl)
  | @recv r n p hr hp hn => exact h.skip (outLines_update hp rfl)
  | @sync r p p' hr hp hp' hn =>
    refine h.skip fun j => ?_
    rw [outLines_update (f := Function.update s.prog r p) (a := .recv) (by rw [Function.update_of_ne (by omega)]; exact hp') rfl]
    exact outLines_update hp rfl j
  | @barrier p hP hp =>
    refine h.skip fun j => ?_
    split
    · rename_i hj; rw [hp j hj]; rfl
    · rfl

theorem OutEnds.own {e : Bool} {P i : Nat} (hi : i < P) {q : T → Bool} {l : List T} {Q : List T → Prop} {s : OutSt T}
    (h : OutEnds e P s Q) (k : OutOwn P i q l s) : OutEnds e P s fun m => Q m ∧ m.filter q = l := by
  refine ⟨h.1, fun n t ht => ?_⟩
  refine (h.2 n t ht).imp (fun x => ⟨x.1, x.2, ?_⟩) id
  have key : OutOwn P i q l t := by
    clear x
    induction ht with
    | done => exact k
    | step hs _ ih => exact ih (h.after (.one hs)) (k.step hi hs)
  have := key.mine
  rw [x.1.1 i hi] at this
  simpa [outLines] using this

/-! ## Messages from each rank to the next -/

def outSends : List (OutAct T) → Nat
  | [] => 0
  | .send :: p => outSends p + 1
  | _ :: p => outSends p

def outRecvs : List (OutAct T) → Nat
  | [] => 0
  | .recv :: p => outRecvs p + 1
  | _ :: p => outRecvs p

/-- Each rank receives as many messages as the rank before it sends; there are no barriers. -/
structure OutBalanced (P : Nat) (s : OutSt T) : Prop where
  even : ∀ r, r + 1 < P → s.chan r + outSends (s.prog r) = outRecvs (s.prog (r + 1))
  first : outRecvs (s.prog 0) = 0
  last : ∀ r, r + 1 = P → outSends (s.prog r) = 0
  free : ∀ r < P, .barrier ∉ s.prog r

theorem OutBalanced.step {e : Bool} {P : Nat} {s t : OutSt T} (h : OutBalanced P s) (k : OutStep e P s t) :
    OutBalanced P t := by
  have free : ∀ {f : Nat → List (OutAct T)} {i : Nat} {a : OutAct T} {p : List (OutAct T)}, f i = a :: p →
      (∀ r < P, .barrier ∉ f r) → ∀ r < P, .barrier ∉ Function.update f i p r := by
    intro f i a p hp hf r hr
    by_cases hri : r = i
    · subst hri
      rw [Function.update_self]
      intro hm
      exact hf r hr (by rw [hp]; exact List.mem_cons_of_mem _ hm)
    · rw [Function.update_of_ne hri]; exact hf r hr
  cases k with
  | @print r x p hr hp =>
    have hS : ∀ j, outSends (Function.update s.prog r p j) = outSends (s.prog j) := by
      intro j
      by_cases hj : j = r
      · subst hj; rw [Function.update_self, hp]; rfl
      · rw [Function.update_of_ne hj]
    have hR : ∀ j, outRecvs (Function.update s.prog r p j) = outRecvs (s.prog j) := by
      intro j
      by_cases hj : j = r
      · subst hj; rw [Function.update_self, hp]; rfl
      · rw [Function.update_of_ne hj]
    refine ⟨fun j hj => ?_, ?_, fun j hj => ?_, free hp h.free⟩
    · dsimp only
      rw [hS, hR]; exact h.even j hj
    · dsimp only
      rw [hR]; exact h.first
    · dsimp only
      rw [hS]; exact h.last j hj
  | @send r p he hr hp =>
    have hR : ∀ j, outRecvs (Function.update s.prog r p j) = outRecvs (s.prog j) := by
      intro j
      by_cases hj : j = r
      · subst hj; rw [Function.update_self, hp]; rfl
      · rw [Function.update_of_ne hj]
    refine ⟨fun j hj => ?_, ?_, fun j hj => ?_, free hp h.free⟩
    · dsimp only
      rw [hR]
      by_cases hjr : j = r
      · subst hjr
        have := h.even j hj
        rw [hp] at this
        have : s.chan j + (outSends p + 1) = _ := this
        rw [Function.update_self, Function.update_self]
        omega
      · rw [Function.update_of_ne hjr, Function.update_of_ne hjr]; exact h.even j hj
    · dsimp only
      rw [hR]; exact h.first
    · dsimp only
      rw [Function.update_of_ne (by omega)]; exact h.last j hj
  | @recv r n p hr hp hn =>
    have hS : ∀ j, outSends (Function.update s.prog (r + 1) p j) = outSends (s.prog j) := by
      intro j
      by_cases hj : j = r + 1
      · subst hj; rw [Function.update_self, hp]; rfl
      · rw [Function.update_of_ne hj]
    refine ⟨fun j hj => ?_, ?_, fun j hj => ?_, free hp h.free⟩
    · dsimp only
      rw [hS]
      by_cases hjr : j = r
      · subst hjr
        have := h.even j hj
        rw [hp, hn] at this
        have : n + 1 + outSends (s.prog j) = outRecvs p + 1 := this
        rw [Function.update_self, Function.update_self]
        omega
      · rw [Function.update_of_ne hjr, Function.update_of_ne (by omega)]; exact h.even j hj
    · dsimp only
      rw [Function.update_of_ne (by omega)]; exact h.first
    · dsimp only
      rw [hS]; exact h.last j hj
  | @sync r p q hr hp hq hn =>
    have hS : ∀ j, j ≠ r → outSends (Function.update (Function.update s.prog r p) (r + 1) q j) = outSends (s.prog j) := by
      intro j hjr
      by_cases hj : j = r + 1
      · subst hj; rw [Function.update_self, hq]; rfl
      · rw [Function.update_of_ne hj, Function.update_of_ne hjr]
    have hR : ∀ j, j ≠ r + 1 → outRecvs (Function.update (Function.update s.prog r p) (r + 1) q j) = outRecvs (s.prog j) := by
      intro j hjr
      rw [Function.update_of_ne hjr]
      by_cases hj : j = r
      · subst hj; rw [Function.update_self, hp]; rfl
      · rw [Function.update_of_ne hj]
    refine ⟨fun j hj => ?_, ?_, fun j hj => ?_, free (by rw [Function.update_of_ne (by omega)]; exact hq) (free hp h.free)⟩
    · dsimp only
      by_cases hjr : j = r
      · subst hjr
        have := h.even j hj
        rw [hp, hq] at this
        have : s.chan j + (outSends p + 1) = outRecvs q + 1 := this
        rw [Function.update_self, Function.update_of_ne (by omega), Function.update_self]
        omega
      · rw [hS j hjr, hR _ (by omega)]; exact h.even j hj
    · dsimp only
      rw [hR _ (by omega)]; exact h.first
    · dsimp only
      rw [hS j (by omega)]; exact h.last j hj
  | @barrier p hP hp => exact absurd (by rw [hp 0 hP]; exact List.mem_cons_self ..) (h.free 0 hP)

/-- **No deadlock** if the messages go from each rank to the next. -/
theorem OutBalanced.go (e : Bool) {P : Nat} {s : OutSt T} (h : OutBalanced P s) : s.Final P ∨ ∃ u, OutStep e P s u := by
  by_cases hall : ∀ r < P, s.prog r = []
  · left
    refine ⟨hall, fun r hr => ?_⟩
    have := h.even r hr
    rw [hall (r + 1) hr, hall r (by omega)] at this
    exact this
  · right
    by_contra hno
    have noprint : ∀ r < P, ∀ x p, s.prog r ≠ .print x :: p := fun r hr x p hp => hno ⟨_, .print hr hp⟩
    have nobar : ∀ r < P, ∀ p, s.prog r ≠ .barrier :: p := fun r hr p hp =>
      h.free r hr (by rw [hp]; exact List.mem_cons_self ..)
    -- a rank that sends: the next one sends, too
    have up : ∀ r p, r < P → s.prog r = .send :: p → r + 1 < P ∧ ∃ q, s.prog (r + 1) = .send :: q := by
      intro r p hr hp
      by_cases hlast : r + 1 = P
      · have := h.last r hlast
        rw [hp] at this
        cases this
      have hr1 : r + 1 < P := by omega
      refine ⟨hr1, ?_⟩
      have hev := h.even r hr1
      rw [hp] at hev
      have hev : s.chan r + (outSends p + 1) = outRecvs (s.prog (r + 1)) := hev
      cases hc : s.prog (r + 1) with
      | nil => rw [hc] at hev; exact absurd hev (by simp [outRecvs])
      | cons a q =>
        cases a with
        | print x => exact absurd hc (noprint _ hr1 x q)
        | barrier => exact absurd hc (nobar _ hr1 q)
        | send => exact ⟨q, rfl⟩
        | recv =>
          exfalso
          rcases hch : s.chan r with _ | n
          · exact hno ⟨_, .sync hr1 hp hc hch⟩
          · exact hno ⟨_, .recv hr1 hc hch⟩
    have never : ∀ d r p, r + d = P → r < P → s.prog r ≠ .send :: p := by
      intro d
      induction d with
      | zero => intro r p h1 h2; omega
      | succ d ih =>
        intro r p h1 h2 hp
        obtain ⟨h3, q, hq⟩ := up r p h2 hp
        exact ih (r + 1) q (by omega) h3 hq
    -- hence all ranks that are not done receive, and the first of them can
    have recvs : ∀ r < P, s.prog r = [] ∨ ∃ p, s.prog r = .recv :: p := by
      intro r hr
      cases hc : s.prog r with
      | nil => exact .inl rfl
      | cons a p =>
        cases a with
        | print x => exact absurd hc (noprint r hr x p)
        | barrier => exact absurd hc (nobar r hr p)
        | send => exact absurd hc (never (P - r) r p (by omega) hr)
        | recv => exact .inr ⟨p, rfl⟩
    have done : ∀ r < P, s.prog r = [] := by
      intro r
      induction r with
      | zero =>
        intro hr
        rcases recvs 0 hr with h0 | ⟨p, h0⟩
        · exact h0
        · have := h.first
          rw [h0] at this
          cases this
      | succ r ih =>
        intro hr
        rcases recvs (r + 1) hr with h0 | ⟨p, h0⟩
        · exact h0
        · exfalso
          have := h.even r hr
          rw [h0, ih (by omega)] at this
          have : s.chan r + 0 = outRecvs p + 1 := this
          exact hno ⟨_, .recv hr h0 (by simpa using this)⟩
    exact hall done

theorem OutBalanced.ends (e : Bool) {P : Nat} {s : OutSt T} (h : OutBalanced P s) : OutEnds e P s fun _ => True :=
  outEnds_of (OutBalanced P) h (fun _ _ h k => h.step k) fun _ h => (h.go e).imp (fun x => ⟨x, trivial⟩) id

end FftMpi
