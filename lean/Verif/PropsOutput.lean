import Verif.OutputRing
import Verif.PropsDriverOut

/-!
# C73: the order of the lines that the test programs print

With `-o` the test programs print all values of the grid before and after the transforms, one rank after the other.  `L r`
are the lines of rank `r` (C63 says which values they hold).  The theorems are about all executions of all ranks together:
any rank may be ahead of the others, and MPI may choose for each `MPI_Send` to return before or after the message is
received (`e = true`), or only after (`e = false`).
-/

namespace FftMpi

variable {T : Type}

/-- The values in the order that is meant: those of rank 0, of rank 1, and so on. -/
def inOrder (P : Nat) (L : Nat → List T) : List T := (List.range P).flatMap L

/-- **`output` prints the values in the order of the ranks**, whatever the schedule: all ranks return, no message is left
over, and the lines are the title and then those of rank 0, rank 1, and so on. -/
theorem C73_output (e : Bool) {P : Nat} (hP : 0 < P) (title : List T) (L : Nat → List T) :
    OutEnds e P (outStart fun r => outputC P r title (L r)) (· = title ++ inOrder P L) := outputC_ends e hP title L

open Driver in
/-- **`output(0,...)` prints the whole grid**: if the input boxes tile the grid, every execution ends, and the lines after
the title are one for each grid point, with the values that the rank with this point has.  `none` is the title. -/
theorem C73_grid (e : Bool) {P : Nat} (hP : 0 < P) {bs : Nat → Box3} {n1 n2 n3 : Int} (ht : Tiles3 P bs n1 n2 n3)
    (hb : ∀ r < P, (bs r).Proper) (b' : Nat → Box3) {w : Nat → Mem ℝ} (hw : ∀ r < P, accessible (w r) 0 (2 * (bs r).count)) :
    ∃ l : Nat → List ((Int × Int × Int) × ℝ × ℝ), (∀ r < P, output3 0 (bs r) (b' r) (w r) = some (l r)) ∧
      OutEnds e P (outStart fun r => outputC P r [none] ((l r).map some)) fun m => ∃ g : List ((Int × Int × Int) × ℝ × ℝ), m = none :: g.map some ∧
        (g.map Prod.fst).Nodup ∧ (∀ i j k, ((0 ≤ i ∧ i < n1) ∧ (0 ≤ j ∧ j < n2) ∧ (0 ≤ k ∧ k < n3)) ↔
          ∃ v, ((i, j, k), v) ∈ g) ∧ ∀ i j k x y, ((i, j, k), x, y) ∈ g → ∃ r < P, (bs r).Has i j k ∧
            w r (addr3 0 (bs r) 2 i j k 0) = some x ∧ w r (addr3 0 (bs r) 2 i j k 1) = some y := by
  have h : ∀ r, ∃ l, r < P → output3 0 (bs r) (b' r) (w r) = some l ∧ Lines3 0 (bs r) (w r) l := by
    intro r
    by_cases hr : r < P
    · obtain ⟨l, h1, h2⟩ := C63_output (b' r) (hb r hr) (hw r hr)
      exact ⟨l, fun _ => ⟨h1, h2⟩⟩
    · exact ⟨[], fun h => absurd h hr⟩
  choose l hl using h
  refine ⟨l, fun r hr => (hl r hr).1, (C73_output e hP [none] fun r => (l r).map some).mono fun m hm =>
    ⟨(List.range P).flatMap l, ?_, ?_, fun i j k => ?_, fun i j k x y h => ?_⟩⟩
  · rw [hm, inOrder, List.map_flatMap]; rfl
  · rw [List.map_flatMap, List.nodup_flatMap]
    refine ⟨fun r hr => (hl r (List.mem_range.mp hr)).2.1, ?_⟩
    refine List.Pairwise.imp_of_mem ?_ List.nodup_range
    intro r r' hr hr' hne
    show List.Disjoint ((l r).map Prod.fst) ((l r').map Prod.fst)
    rintro ⟨i, j, k⟩ h1 h2
    obtain ⟨⟨_, x, y⟩, h1, e1⟩ := List.mem_map.mp h1
    obtain ⟨⟨_, x', y'⟩, h2, e2⟩ := List.mem_map.mp h2
    dsimp only at e1 e2
    subst e1; subst e2
    exact hne (ht.disjoint r (List.mem_range.mp hr) r' (List.mem_range.mp hr') i j k
      (((hl r (List.mem_range.mp hr)).2.2 i j k x y).mp h1).1 (((hl r' (List.mem_range.mp hr')).2.2 i j k x' y').mp h2).1)
  · rw [C63_output_all ht (fun r hr => (hl r hr).2) hw i j k]
    constructor
    · rintro ⟨⟨r, v⟩, ⟨hr, hv⟩, -⟩
      exact ⟨v, List.mem_flatMap.mpr ⟨r, List.mem_range.mpr hr, hv⟩⟩
    · rintro ⟨v, hv⟩
      obtain ⟨r, hr, hv⟩ := List.mem_flatMap.mp hv
      have hr := List.mem_range.mp hr
      rw [← C63_output_all ht (fun r hr => (hl r hr).2) hw i j k]
      exact ht.inside r hr i j k (((hl r hr).2.2 i j k v.1 v.2).mp hv).1
  · obtain ⟨r, hr, hv⟩ := List.mem_flatMap.mp h
    exact ⟨r, List.mem_range.mp hr, ((hl r (List.mem_range.mp hr)).2.2 i j k x y).mp hv⟩

/-! ## The test programs -/

/-- The part of the test program after the last barrier before the second `output`. -/
def outRest (P nb : Nat) (t : Bool) (title' : List T) (L' : Nat → List T) (report : List T) (r : Nat) : List (OutAct T) :=
  outputC P r title' (L' r) ++ (if t then List.replicate nb .barrier else []) ++ if r = 0 then report.map .print else []

theorem testOut_eq (P nb : Nat) (v t : Bool) (title title' : List T) (L L' : Nat → List T) (report : List T) (r : Nat) :
    testOut P nb v t title title' L L' report r =
      [] ++ .barrier :: (outputC P r title (L r) ++ .barrier :: (List.replicate (if v then 2 else 1) .barrier ++
        outRest P nb t title' L' report r)) := by
  unfold testOut outRest
  cases v <;> simp [List.replicate]

theorem testOut_ends (e : Bool) {P : Nat} (hP : 0 < P) (nb : Nat) (v t : Bool) (title title' : List T) (L L' : Nat → List T)
    (report : List T) {Q : List T → Prop} (h : OutEnds e P (outStart (outRest P nb t title' L' report)) Q) :
    OutEnds e P (outStart (testOut P nb v t title title' L L' report))
      (fun l => ∃ m, Q m ∧ l = title ++ inOrder P L ++ m) := by
  rw [funext (testOut_eq P nb v t title title' L L' report)]
  exact (outEnds_nil e P).seq hP ((outputC_ends e hP title L).seq hP (h.barriers hP _) (Q'' := fun l => ∃ m, Q m ∧
    l = title ++ inOrder P L ++ m) fun l m hl hm => ⟨m, hm, by rw [hl]; rfl⟩) fun l m hl hm => by rw [hl]; exact hm

/-- **With `-t` the whole output is in order**: the values before and after, and then the report. -/
theorem C73_timed (e : Bool) {P : Nat} (hP : 0 < P) {nb : Nat} (hb : 0 < nb) (v : Bool) (title title' : List T)
    (L L' : Nat → List T) (report : List T) :
    OutEnds e P (outStart (testOut P nb v true title title' L L' report))
      (· = title ++ inOrder P L ++ (title' ++ inOrder P L') ++ report) := by
  refine (testOut_ends e hP nb v true title title' L L' report (Q := (· = title' ++ inOrder P L' ++ report)) ?_).mono ?_
  · obtain ⟨n, rfl⟩ : ∃ n, nb = n + 1 := ⟨nb - 1, by omega⟩
    have : outRest P (n + 1) true title' L' report = fun r => outputC P r title' (L' r) ++ .barrier ::
        (List.replicate n .barrier ++ if r = 0 then report.map .print else []) := by
      funext r
      simp [outRest, List.replicate_succ]
    rw [this]
    exact (outputC_ends e hP title' L').seq hP ((outEnds_report e hP report).barriers hP n) fun l m hl hm => by
      rw [hl, hm]; rfl
  · rintro l ⟨m, rfl, rfl⟩
    simp only [List.append_assoc]

theorem outputC_one (title l : List T) : outputC 1 0 title l = (title ++ l).map .print := by
  rw [outputC_first (by omega)]
  simp [outTail]

/-- **On one rank the whole output is in order**, too. -/
theorem C73_one (e : Bool) (nb : Nat) (v t : Bool) (title title' : List T) (L L' : Nat → List T) (report : List T) :
    OutEnds e 1 (outStart (testOut 1 nb v t title title' L L' report))
      (· = title ++ inOrder 1 L ++ (title' ++ inOrder 1 L') ++ report) := by
  cases t with
  | true =>
    by_cases hb : 0 < nb
    · exact C73_timed e (by omega) hb v title title' L L' report
    · obtain rfl : nb = 0 := by omega
      refine (testOut_ends e (by omega) 0 v true title title' L L' report (Q := (· = title' ++ inOrder 1 L' ++ report)) ?_).mono ?_
      · refine OutEnds.last (l := []) (t := outStart fun r => if r = 0 then (title' ++ inOrder 1 L' ++ report).map .print else [])
          (Q := (· = title' ++ inOrder 1 L' ++ report)) ⟨fun r hr => ?_, fun _ _ => rfl, rfl⟩
          (outEnds_report e (P := 1) (by omega) (title' ++ inOrder 1 L' ++ report)) fun m hm => by rw [hm]; rfl
        obtain rfl : r = 0 := by omega
        simp [outStart, outRest, outputC_one, inOrder]
      · rintro l ⟨m, rfl, rfl⟩
        simp only [List.append_assoc]
  | false =>
    refine (testOut_ends e (by omega) nb v false title title' L L' report (Q := (· = title' ++ inOrder 1 L' ++ report)) ?_).mono ?_
    · refine OutEnds.last (l := []) (t := outStart fun r => if r = 0 then (title' ++ inOrder 1 L' ++ report).map .print else [])
          (Q := (· = title' ++ inOrder 1 L' ++ report)) ⟨fun r hr => ?_, fun _ _ => rfl, rfl⟩
        (outEnds_report e (P := 1) (by omega) (title' ++ inOrder 1 L' ++ report)) fun m hm => by rw [hm]; rfl
      obtain rfl : r = 0 := by omega
      simp [outStart, outRest, outputC_one, inOrder]
    · rintro l ⟨m, rfl, rfl⟩
      simp only [List.append_assoc]

/-! ## Without `-t` -/

theorem keep_map (q : T → Bool) : ∀ l : List T, (l.map .print).filter (OutAct.keep q) = (l.filter q).map .print
  | [] => rfl
  | x :: l => by
    rw [List.map_cons]
    by_cases h : q x
    · rw [List.filter_cons_of_pos (show OutAct.keep q (.print x) = true from h), List.filter_cons_of_pos h, List.map_cons,
        keep_map q l]
    · rw [List.filter_cons_of_neg (show ¬ OutAct.keep q (.print x) = true from h), List.filter_cons_of_neg h, keep_map q l]

theorem keep_outBody (q : T → Bool) (P r : Nat) (l : List T) :
    (outBody P r l).filter (OutAct.keep q) = outBody P r (l.filter q) := by
  unfold outBody
  rw [List.filter_append, List.filter_append, keep_map]
  congr 1
  · congr 1
    split <;> rfl
  · split <;> rfl

theorem keep_outputC (q : T → Bool) (P r : Nat) (title l : List T) :
    (outputC P r title l).filter (OutAct.keep q) = outputC P r (title.filter q) (l.filter q) := by
  unfold outputC
  rw [List.filter_append, List.filter_flatMap]
  congr 1
  · split
    · exact keep_map q title
    · rfl
  · congr 1
    funext i
    split
    · rfl
    · exact keep_outBody q P r l

/-- **Without `-t`** all ranks end, the lines with the values are in order, and so are the lines of the report; `q` tells
them apart.  That the report comes after the values is missing; `C73_false` shows that it may not. -/
theorem C73_partial (e : Bool) {P : Nat} (hP : 0 < P) (nb : Nat) (v t : Bool) (title title' : List T)
    (L L' : Nat → List T) (report : List T) (q : T → Bool) (h1 : ∀ x ∈ title' ++ inOrder P L', q x = true)
    (h2 : ∀ x ∈ report, q x = false) :
    OutEnds e P (outStart (testOut P nb v t title title' L L' report)) fun l =>
      ∃ m, l = title ++ inOrder P L ++ m ∧ m.filter q = title' ++ inOrder P L' ∧ (m.filter fun x => !q x) = report := by
  have hq' : title'.filter q = title' := List.filter_eq_self.mpr fun x hx => h1 x (by simp [hx])
  have hqL : ∀ r < P, (L' r).filter q = L' r := fun r hr => List.filter_eq_self.mpr fun x hx => h1 x (by
    simp only [inOrder, List.mem_append, List.mem_flatMap, List.mem_range]; exact .inr ⟨r, hr, hx⟩)
  have hqr : report.filter q = [] := List.filter_eq_nil_iff.mpr fun x hx => by simp [h2 x hx]
  by_cases hend : t = true ∧ 0 < nb
  · obtain ⟨rfl, hb⟩ := hend
    refine (C73_timed e hP hb v title title' L L' report).mono fun l hl => ⟨title' ++ inOrder P L' ++ report, by
      rw [hl]; simp only [List.append_assoc], ?_, ?_⟩
    · rw [List.filter_append, hqr, List.append_nil]
      exact List.filter_eq_self.mpr h1
    · rw [List.filter_append, List.filter_eq_nil_iff.mpr fun x hx => by simp [h1 x hx], List.nil_append]
      exact List.filter_eq_self.mpr fun x hx => by simp [h2 x hx]
  have hrest : ∀ r, outRest P nb t title' L' report r =
      outputC P r title' (L' r) ++ if r = 0 then report.map .print else [] := by
    intro r
    have : (if t then List.replicate nb .barrier else []) = ([] : List (OutAct T)) := by
      cases t with
      | false => rfl
      | true =>
        obtain rfl : nb = 0 := by
          by_contra h
          exact hend ⟨rfl, by omega⟩
        rfl
    rw [outRest, this, List.append_nil]
  refine (testOut_ends e hP nb v t title title' L L' report (Q := fun m => m.filter q = title' ++ inOrder P L' ∧
    (m.filter fun x => !q x) = report) ?_).mono fun l ⟨m, hm, hl⟩ => ⟨m, hl, hm⟩
  refine OutEnds.own hP (OutEnds.only (Q := (· = title' ++ inOrder P L')) q ?_) ⟨fun r hr hr0 => ?_, ?_⟩
  · refine OutEnds.last (l := []) (t := outStart fun r => outputC P r title' (L' r)) (Q := (· = title' ++ inOrder P L')) ⟨fun r hr => ?_, fun _ _ => rfl, rfl⟩
      (outputC_ends e hP title' L') fun m hm => by rw [hm]; rfl
    show (outRest P nb t title' L' report r).filter _ = outputC P r title' (L' r)
    rw [hrest, List.filter_append, keep_outputC, hq', hqL r hr]
    split
    · rw [keep_map, hqr]; simp
    · simp
  · show (outLines (outRest P nb t title' L' report r)).filter _ = []
    rw [hrest, if_neg hr0, List.append_nil, outputC_later (by omega) hr]
    show (outLines (_ ++ _)).filter _ = _
    rw [outLines_append, outLines_map]
    have : outLines (outTail P r : List (OutAct T)) = [] := by unfold outTail; split <;> rfl
    rw [this, List.append_nil]
    exact List.filter_eq_nil_iff.mpr fun x hx => by
      rw [h1 x (by simp only [inOrder, List.mem_append, List.mem_flatMap, List.mem_range]; exact .inr ⟨r, hr, hx⟩)]
      simp
  · show [] ++ (outLines (outRest P nb t title' L' report 0)).filter _ = _
    rw [hrest, if_pos rfl, outputC_first hP, outLines_append, outLines_append, outLines_map, outLines_map, List.nil_append]
    have : outLines (outTail P 0 : List (OutAct T)) = [] := by unfold outTail; split <;> rfl
    rw [this, List.append_nil, List.filter_append, List.filter_eq_nil_iff.mpr fun x hx => ?_, List.nil_append]
    · exact List.filter_eq_self.mpr fun x hx => by simp [h2 x hx]
    · rw [h1 x ?_]
      · simp
      · rcases List.mem_append.mp hx with h | h
        · exact List.mem_append_left _ h
        · exact List.mem_append_right _ (List.mem_flatMap.mpr ⟨0, List.mem_range.mpr hP, h⟩)

/-- **Without `-t` on several ranks the report may come in the middle of the values**: an execution of the test program to
its end, in which rank 0 prints the report before rank 1 prints its values.  MPI need not buffer messages for that
(`e = false`). -/
theorem C73_false (e : Bool) {P : Nat} (hP : 2 ≤ P) (nb : Nat) (v : Bool) (title title' : List T) (L L' : Nat → List T)
    (report : List T) :
    ∃ n s, OutRun e P n (outStart (testOut P nb v false title title' L L' report)) s ∧ s.Final P ∧
      s.log = title ++ inOrder P L ++ (title' ++ L' 0 ++ report ++ ((List.range P).drop 1).flatMap L') := by
  -- up to the second `output`
  obtain ⟨n1, s1, l1, r1, hl1, hp1, hc1, hs1⟩ : ∃ n s l, OutRun e P n (outStart (testOut P nb v false title title' L L' report)) s ∧
      l = title ++ inOrder P L ∧ (∀ r < P, s.prog r = outRest P nb false title' L' report r) ∧
      (∀ r, r + 1 < P → s.chan r = 0) ∧ s.log = l := by
    have hb : OutEnds e P (outStart fun r => [] ++ .barrier :: (outputC P r title (L r) ++
        .barrier :: List.replicate (if v then 1 else 0) .barrier)) (· = title ++ inOrder P L) := by
      refine (outEnds_nil e P).seq (by omega) ((outputC_ends e (by omega) title L).seq (by omega)
        (Q' := (· = [])) ?_ (Q'' := (· = title ++ inOrder P L)) ?_) ?_
      · have := (outEnds_nil (T := T) e P).barriers (by omega) (if v then 1 else 0)
        simpa using this
      · rintro l m rfl rfl
        rw [List.append_nil]; rfl
      · rintro l m rfl rfl
        rfl
    have := hb.reach (by omega) (outRest P nb false title' L' report)
    have heq : (fun r => ([] ++ OutAct.barrier :: (outputC P r title (L r) ++
        .barrier :: List.replicate (if v then 1 else 0) .barrier)) ++ .barrier :: outRest P nb false title' L' report r) =
        testOut P nb v false title title' L L' report := by
      funext r
      rw [testOut_eq]
      cases v <;> simp [List.replicate]
    rw [heq] at this
    exact this
  have hp0 : s1.prog 0 = (title' ++ L' 0).map .print ++ (.send :: report.map .print) := by
    rw [hp1 0 (by omega), outRest, outputC_first (by omega), outTail, if_pos (by omega)]
    simp
  have r2 := OutRun.prints e (by omega : 0 < P) _ _ s1 hp0
  have hlater : ∀ r, 0 < r → r < P → s1.prog r = .recv :: ((L' r).map .print ++ outTail P r) := by
    intro r h0 hr
    rw [hp1 r hr, outRest, outputC_later h0 hr, if_neg (show ¬ r = 0 by omega)]
    simp
  have r3 := OutRun.one (OutStep.sync (e := e) (P := P) (r := 0) (s := ⟨Function.update s1.prog 0 (.send :: report.map .print), s1.chan,
    s1.log ++ (title' ++ L' 0)⟩) (p := report.map .print) (q := (L' 1).map .print ++ outTail P 1) (by omega)
    (by simp) (by simp [hlater 1 (by omega) (by omega)]) (hc1 0 (by omega)))
  have r4 := OutRun.prints e (by omega : 0 < P) [] report ⟨Function.update (Function.update (Function.update s1.prog 0
    (.send :: report.map .print)) 0 (report.map .print)) (0 + 1) ((L' 1).map .print ++ outTail P 1), s1.chan,
    s1.log ++ (title' ++ L' 0)⟩ (show (Function.update (Function.update (Function.update s1.prog 0
    (.send :: report.map .print)) 0 (report.map .print)) (0 + 1) ((L' 1).map .print ++ outTail P 1)) 0 = report.map .print ++ [] by
      rw [Function.update_of_ne (by omega), Function.update_self, List.append_nil])
  -- now rank 1 and so on
  have hturn : OutTurn P 1 L' (L' 1) ⟨Function.update (Function.update (Function.update (Function.update s1.prog 0
      (.send :: report.map .print)) 0 (report.map .print)) (0 + 1) ((L' 1).map .print ++ outTail P 1)) 0 [], s1.chan,
      s1.log ++ (title' ++ L' 0) ++ report⟩ := by
    refine ⟨by omega, fun r hr => ?_, ?_, fun r h1 hr => ?_, hc1⟩
    · obtain rfl : r = 0 := by omega
      simp
    · simp
    · show Function.update (Function.update (Function.update (Function.update s1.prog 0 _) 0 _) _ _) 0 _ r = _
      rw [Function.update_of_ne (by omega), Function.update_of_ne (by omega), Function.update_of_ne (by omega),
        Function.update_of_ne (by omega)]
      exact hlater r (by omega) hr
  obtain ⟨n5, s5, r5, hf, hl5⟩ := (hturn.ends e).run
  refine ⟨_, s5, r1.append (r2.append (r3.append (r4.append r5))), hf, ?_⟩
  rw [hl5]
  show s1.log ++ (title' ++ L' 0) ++ report ++ L' 1 ++ outFrom P (1 + 1) L' = _
  rw [List.append_assoc, ← outFrom_lt (by omega), hs1, hl1]
  simp only [List.append_assoc]
  rfl

/-! ## The Fortran programs -/

theorem flatMap_const {β : Type} (b : List β) (n : Nat) :
    (List.range n).flatMap (fun _ => b) = (List.replicate n b).flatten := by
  induction n with
  | zero => rfl
  | succ n ih => rw [List.range_succ, List.flatMap_append, ih, List.replicate_succ', List.flatten_append]; simp

theorem outputF_ends (e : Bool) {P : Nat} (title : List T) (L : Nat → List T) :
    OutEnds e P (outStart fun r => outputF P r title (L r)) fun _ => True := by
  apply OutBalanced.ends
  have hS : ∀ p q : List (OutAct T), outSends (p ++ q) = outSends p + outSends q := by
    intro p q
    induction p with
    | nil => simp [outSends]
    | cons a p ih => cases a <;> (simp [outSends, ih]; try omega)
  have hR : ∀ p q : List (OutAct T), outRecvs (p ++ q) = outRecvs p + outRecvs q := by
    intro p q
    induction p with
    | nil => simp [outRecvs]
    | cons a p ih => cases a <;> (simp [outRecvs, ih]; try omega)
  have hS0 : ∀ l : List T, outSends (l.map .print) = 0 := by intro l; induction l <;> simp_all [outSends]
  have hR0 : ∀ l : List T, outRecvs (l.map .print) = 0 := by intro l; induction l <;> simp_all [outRecvs]
  have hSb : ∀ r l, outSends (outBody P r l : List (OutAct T)) = if r + 1 < P then 1 else 0 := by
    intro r l
    unfold outBody
    rw [hS, hS, hS0]
    split <;> split <;> simp [outSends]
  have hRb : ∀ r l, outRecvs (outBody P r l : List (OutAct T)) = if 1 ≤ r then 1 else 0 := by
    intro r l
    unfold outBody
    rw [hR, hR, hR0]
    split <;> split <;> simp [outRecvs]
  have hSn : ∀ r l n, outSends (List.replicate n (outBody P r l : List (OutAct T))).flatten = n * if r + 1 < P then 1 else 0 := by
    intro r l n
    induction n with
    | zero => simp [outSends]
    | succ n ih => rw [List.replicate_succ, List.flatten_cons, hS, ih, hSb, Nat.succ_mul]; omega
  have hRn : ∀ r l n, outRecvs (List.replicate n (outBody P r l : List (OutAct T))).flatten = n * if 1 ≤ r then 1 else 0 := by
    intro r l n
    induction n with
    | zero => simp [outRecvs]
    | succ n ih => rw [List.replicate_succ, List.flatten_cons, hR, ih, hRb, Nat.succ_mul]; omega
  have hSF : ∀ r, outSends (outputF P r title (L r)) = P * if r + 1 < P then 1 else 0 := by
    intro r
    unfold outputF
    rw [hS, flatMap_const, hSn]
    split
    · rw [hS0]; simp
    · simp [outSends]
  have hRF : ∀ r, outRecvs (outputF P r title (L r)) = P * if 1 ≤ r then 1 else 0 := by
    intro r
    unfold outputF
    rw [hR, flatMap_const, hRn]
    split
    · rw [hR0]; simp
    · simp [outRecvs]
  refine ⟨fun r hr => ?_, ?_, fun r hr => ?_, fun r hr hm => ?_⟩
  · show 0 + outSends (outputF P r title (L r)) = outRecvs (outputF P (r + 1) title (L (r + 1)))
    rw [hSF, hRF, if_pos hr, if_pos (by omega)]; omega
  · show outRecvs (outputF P 0 title (L 0)) = 0
    rw [hRF]; simp
  · show outSends (outputF P r title (L r)) = 0
    rw [hSF, if_neg (by omega)]; simp
  · have hm : OutAct.barrier ∈ outputF P r title (L r) := hm
    unfold outputF outBody at hm
    simp only [List.mem_append, List.mem_flatMap] at hm
    rcases hm with hm | ⟨_, _, (hm | hm) | hm⟩
    · split at hm <;> simp at hm
    · split at hm <;> simp at hm
    · simp at hm
    · split at hm <;> simp at hm

/-- **`output` in Fortran ends, and each rank prints its lines `P` times**: `own x` is the rank whose line `x` is. -/
theorem C73_fortran (e : Bool) {P : Nat} (title : List T) (L : Nat → List T) (own : T → Option Nat)
    (ht : ∀ x ∈ title, own x = none) (hL : ∀ r < P, ∀ x ∈ L r, own x = some r) {i : Nat} (hi : i < P) :
    OutEnds e P (outStart fun r => outputF P r title (L r)) fun l =>
      (l.filter fun x => own x == some i) = (List.replicate P (L i)).flatten := by
  have hlines : ∀ (r : Nat) (l : List T) n, outLines (List.replicate n (outBody P r l)).flatten = (List.replicate n l).flatten := by
    intro r l n
    have hb : outLines (outBody P r l) = l := by
      unfold outBody
      rw [outLines_append, outLines_append, outLines_map]
      have h1 : outLines (if 1 ≤ r then [.recv] else [] : List (OutAct T)) = [] := by split <;> rfl
      have h2 : outLines (if r + 1 < P then [.send] else [] : List (OutAct T)) = [] := by split <;> rfl
      rw [h1, h2, List.append_nil, List.nil_append]
    induction n with
    | zero => rfl
    | succ n ih => rw [List.replicate_succ, List.replicate_succ, List.flatten_cons, List.flatten_cons, outLines_append, hb, ih]
  have hprog : ∀ r, outLines (outputF P r title (L r)) = (if r = 0 then title else []) ++ (List.replicate P (L r)).flatten := by
    intro r
    unfold outputF
    rw [outLines_append, flatMap_const, hlines]
    congr 1
    split
    · exact outLines_map title
    · rfl
  have htitle : (title.filter fun x => own x == some i) = [] :=
    List.filter_eq_nil_iff.mpr fun x hx => by rw [ht x hx]; simp
  have hif : ∀ r, ((if r = 0 then title else []).filter fun x => own x == some i) = [] := by
    intro r
    split
    · exact htitle
    · rfl
  refine ((outputF_ends e title L).own hi (q := fun x => own x == some i) (l := (List.replicate P (L i)).flatten)
    ⟨fun r hr hri => ?_, ?_⟩).mono fun l hl => hl.2
  · show (outLines (outputF P r title (L r))).filter _ = []
    rw [hprog, List.filter_append, hif, List.nil_append]
    refine List.filter_eq_nil_iff.mpr fun x hx => ?_
    obtain ⟨l, hl, hx⟩ := List.mem_flatten.mp hx
    rw [List.eq_of_mem_replicate hl] at hx
    rw [hL r hr x hx]
    simpa using hri
  · show [] ++ (outLines (outputF P i title (L i))).filter _ = _
    rw [hprog, List.filter_append, hif, List.nil_append, List.nil_append]
    refine List.filter_eq_self.mpr fun x hx => ?_
    obtain ⟨l, hl, hx⟩ := List.mem_flatten.mp hx
    rw [List.eq_of_mem_replicate hl] at hx
    rw [hL i hi x hx]
    simp

/-- **In the Fortran programs the values need not be in order**, on two or more ranks: there is an execution that starts
with the lines of rank 0 twice, before those of rank 1.  It needs that MPI buffers one message of length 0. -/
theorem C73_fortran_false {P : Nat} (hP : 2 ≤ P) (title : List T) (L : Nat → List T) :
    ∃ n s rest, OutRun true P n (outStart fun r => outputF P r title (L r)) s ∧ s.Final P ∧
      s.log = title ++ L 0 ++ L 0 ++ rest := by
  have h0 : outputF P 0 title (L 0) = (title ++ L 0).map .print ++ (.send :: ((L 0).map .print ++
      (.send :: ((List.range (P - 2)).flatMap fun _ => outBody P 0 (L 0))))) := by
    obtain ⟨k, rfl⟩ : ∃ k, P = k + 2 := ⟨P - 2, by omega⟩
    have : ∀ b : List (OutAct T), (List.range (k + 2)).flatMap (fun _ => b) = b ++ (b ++ (List.range k).flatMap fun _ => b) := by
      intro b
      rw [List.range_succ_eq_map, List.flatMap_cons, List.flatMap_map, List.range_succ_eq_map, List.flatMap_cons, List.flatMap_map]
    unfold outputF
    rw [this, outBody_first, outTail, if_pos (by omega)]
    simp
  have r1 := OutRun.prints true (by omega : 0 < P) _ _ (outStart fun r => outputF P r title (L r)) h0
  have r2 := OutRun.one (OutStep.send (e := true) (P := P) (r := 0) (s := ⟨Function.update (fun r => outputF P r title (L r)) 0
    (.send :: ((L 0).map .print ++ (.send :: ((List.range (P - 2)).flatMap fun _ => outBody P 0 (L 0))))), fun _ => 0,
    [] ++ (title ++ L 0)⟩) (p := (L 0).map .print ++ (.send :: ((List.range (P - 2)).flatMap fun _ => outBody P 0 (L 0)))) rfl
    (by omega) (by simp))
  have r3 := OutRun.prints true (by omega : 0 < P) _ _ _ (show ((⟨Function.update (Function.update (fun r => outputF P r title (L r)) 0
    (.send :: ((L 0).map .print ++ (.send :: ((List.range (P - 2)).flatMap fun _ => outBody P 0 (L 0)))))) 0 ((L 0).map .print ++
      (.send :: ((List.range (P - 2)).flatMap fun _ => outBody P 0 (L 0)))), Function.update (fun _ => 0) 0 (0 + 1),
      [] ++ (title ++ L 0)⟩ : OutSt T).prog 0) = (L 0).map .print ++
      (.send :: ((List.range (P - 2)).flatMap fun _ => outBody P 0 (L 0))) by simp)
  have r := r1.append (r2.append r3)
  obtain ⟨n, s, r4, hf, -⟩ := ((outputF_ends true title L).after r).run
  obtain ⟨rest, hl⟩ := r4.log
  exact ⟨_, s, rest, r.append r4, hf, by rw [hl]; simp⟩

/-! ## Examples -/

/-- Three ranks with two, no and one value: whatever the schedule, the values come in this order. -/
example (e : Bool) : OutEnds e 3 (outStart fun r => outputC 3 r ["Initial grid"] ((fun r => match r with
    | 0 => ["a", "b"] | 2 => ["c"] | _ => []) r)) (· = ["Initial grid", "a", "b", "c"]) := C73_output e (by omega) _ _

/-- A grid of 2 x 1 x 2 points on two ranks, all values 0: the hypotheses of `C73_grid` hold. -/
example (e : Bool) : ∃ l : Nat → List ((Int × Int × Int) × ℝ × ℝ), (∀ r : Nat, r < 2 → Driver.output3 0 ⟨0, 1, 0, 0, r, r⟩ ⟨0, 1, 0, 0, r, r⟩
    (fun _ => some 0) = some (l r)) ∧ OutEnds e 2 (outStart fun r => outputC 2 r [none] ((l r).map some)) fun m =>
      ∃ g : List ((Int × Int × Int) × ℝ × ℝ), m = none :: g.map some ∧ (g.map Prod.fst).Nodup ∧
        ∃ v, ((1, 0, 1), v) ∈ g := by
  obtain ⟨l, h1, h2⟩ := C73_grid e (P := 2) (by omega) (bs := fun r => ⟨0, 1, 0, 0, r, r⟩) (n1 := 2) (n2 := 1) (n3 := 2)
    ⟨fun a ha i j k h => by simp only [Box3.Has] at h; omega,
     fun i j k hi hj hk => ⟨k.toNat, by omega, by simp only [Box3.Has]; omega⟩,
     fun a ha b hb i j k h h' => by simp only [Box3.Has] at h h'; omega⟩
    (fun r hr => by simp only [Box3.Proper, Box3.isize, Box3.jsize, Box3.ksize]; omega) (fun r => ⟨0, 1, 0, 0, r, r⟩) (w := fun _ _ => some 0)
    (fun r hr x _ _ => rfl)
  exact ⟨l, h1, h2.mono fun m ⟨g, hm, hn, hg, _⟩ => ⟨g, hm, hn, (hg 1 0 1).mp (by omega)⟩⟩

/-- test2d with `-o` on two ranks: the report in the middle of the values. -/
example : ∃ n s, OutRun false 2 n (outStart (testOut 2 8 false false ["Initial grid"] ["Final grid"] (fun r => ["i" ++ toString r])
    (fun r => ["f" ++ toString r]) ["2d FFTs"])) s ∧ s.Final 2 ∧
    s.log = ["Initial grid", "i0", "i1", "Final grid", "f0", "2d FFTs", "f1"] := C73_false false (by omega) 8 false _ _ _ _ _

/-- The hypotheses of `C73_partial` hold there. -/
example (e : Bool) : OutEnds e 2 (outStart (testOut 2 8 false false ["Initial grid"] ["Final grid"] (fun r => ["i" ++ toString r])
    (fun r => ["f" ++ toString r]) ["2d FFTs"])) fun l => ∃ m, l = ["Initial grid", "i0", "i1"] ++ m ∧
      m.filter (· != "2d FFTs") = ["Final grid", "f0", "f1"] ∧ (m.filter fun x => !(x != "2d FFTs")) = ["2d FFTs"] :=
  C73_partial e (by omega) 8 false false _ _ (fun r => ["i" ++ toString r]) (fun r => ["f" ++ toString r]) _ (· != "2d FFTs")
    (by decide) (by decide)

/-- Fortran: line `(r, k)` is of rank `r`; on three ranks the two lines of rank 1 are printed three times each. -/
example (e : Bool) : OutEnds e 3 (outStart fun r => outputF 3 r [(0, 0)] ((fun r => [(r + 1, 1), (r + 1, 2)]) r)) fun l =>
    (l.filter fun x => (if x.1 = 0 then none else some (x.1 - 1)) == some 1) =
      [(2, 1), (2, 2), (2, 1), (2, 2), (2, 1), (2, 2)] :=
  C73_fortran e [(0, 0)] (fun r => [(r + 1, 1), (r + 1, 2)]) (fun x => if x.1 = 0 then none else some (x.1 - 1))
    (by simp) (by simp) (by omega)

end FftMpi
