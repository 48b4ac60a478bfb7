import Verif.PropsDriverRun

/-!
# C63: the grid output of the test programs
-/

noncomputable section

namespace FftMpi

open Driver

/-- The loop prints one line for each pass. -/
theorem printed_eq {γ : Type} {pt : Int → Option γ} {w : Mem ℝ} (n : Nat) {g : Int → γ} {v : Int → ℝ}
    (hg : ∀ m : Int, 0 ≤ m → m < n → pt m = some (g m)) (hv : ∀ x, 0 ≤ x → x < 2 * (n : Int) → w x = some (v x)) :
    printed n pt w = some ((List.range n).map fun m : Nat => (g m, v (2 * m), v (2 * m + 1))) := by
  unfold printed
  obtain ⟨l, h1, h2⟩ := forN_inv (fun k (l : List (γ × ℝ × ℝ)) =>
      l = (List.range k).map fun m : Nat => (g m, v (2 * m), v (2 * m + 1)))
    (fun m l => (pt m).bind fun g => (w (2 * m)).bind fun x => (w (2 * m + 1)).map fun y => l ++ [(g, x, y)])
    n [] rfl (by
      intro k l hk hl
      refine ⟨_, ?_, rfl⟩
      rw [hg k (by omega) (by omega), hv (2 * k) (by omega) (by omega), hv (2 * k + 1) (by omega) (by omega), hl,
        List.range_succ, List.map_append]
      rfl)
  rw [h1, h2]

/-- The printed lines are those of a box: every point of the box has one line, and the line has the value that
the array holds for the point. -/
def Lines3 (permute : Int) (b : Box3) (w : Mem ℝ) (l : List ((Int × Int × Int) × ℝ × ℝ)) : Prop :=
  (l.map Prod.fst).Nodup ∧ ∀ i j k x y, ((i, j, k), x, y) ∈ l ↔
    b.Has i j k ∧ w (addr3 permute b 2 i j k 0) = some x ∧ w (addr3 permute b 2 i j k 1) = some y

def Lines2 (permute : Int) (b : Box2) (w : Mem ℝ) (l : List ((Int × Int) × ℝ × ℝ)) : Prop :=
  (l.map Prod.fst).Nodup ∧ ∀ i j x y, ((i, j), x, y) ∈ l ↔
    b.Has i j ∧ w (addr2 permute b 2 i j 0) = some x ∧ w (addr2 permute b 2 i j 1) = some y

theorem getD_of_accessible {w : Mem ℝ} {n : Int} (hw : accessible w 0 n) {x : Int} (h0 : 0 ≤ x) (h1 : x < n) :
    w x = some ((w x).getD 0) := by
  obtain ⟨y, hy⟩ := Option.isSome_iff_exists.mp (hw x (by omega) (by omega))
  rw [hy]
  rfl

theorem boxLines3 {b : Box3} (hb : b.Proper) {w : Mem ℝ} (hw : accessible w 0 (2 * b.count)) :
    ∃ l, printed (nfft3 b) (point3 b) w = some l ∧ Lines3 0 b w l := by
  have hc := nfft3_eq hb
  obtain ⟨n, hn⟩ := Int.eq_ofNat_of_zero_le (count_nonneg b)
  have hpt : ∀ m, 0 ≤ m → m < (n : Int) → point3 b m = some ((point3 b m).getD (0, 0, 0)) := by
    intro m h0 h1
    obtain ⟨i, j, k, _, _, hp⟩ := point3_ok hb h0 (by rw [hc, hn]; exact h1)
    rw [hp]
    rfl
  rw [hc, hn]
  refine ⟨_, printed_eq n hpt (v := fun x => (w x).getD 0) fun x h0 h1 =>
    getD_of_accessible hw h0 (by rw [hn]; exact h1), ?_, ?_⟩
  · rw [List.map_map]
    refine List.Nodup.map_on ?_ List.nodup_range
    intro m1 h1 m2 h2 he
    rw [List.mem_range] at h1 h2
    obtain ⟨i, j, k, q1, q2, q3⟩ := point3_ok hb (m := (m1 : Int)) (by omega) (by rw [hc, hn]; omega)
    obtain ⟨i', j', k', p1, p2, p3⟩ := point3_ok hb (m := (m2 : Int)) (by omega) (by rw [hc, hn]; omega)
    simp only [Function.comp, q3, p3, Option.getD_some] at he
    cases he
    exact_mod_cast q2.symm.trans p2
  · intro i j k x y
    rw [List.mem_map]
    constructor
    · rintro ⟨m, hm, he⟩
      rw [List.mem_range] at hm
      obtain ⟨i', j', k', q1, q2, q3⟩ := point3_ok hb (m := (m : Int)) (by omega) (by rw [hc, hn]; omega)
      rw [q3] at he
      simp only [Option.getD_some, Prod.mk.injEq] at he
      obtain ⟨⟨rfl, rfl, rfl⟩, hx, hy⟩ := he
      refine ⟨q1, ?_, ?_⟩
      · rw [addr3_two, q2, add_zero, ← hx]
        exact getD_of_accessible hw (by omega) (by rw [hn]; omega)
      · rw [addr3_two, q2, ← hy]
        exact getD_of_accessible hw (by omega) (by rw [hn]; omega)
    · rintro ⟨hh, hx, hy⟩
      have h1 := addr3_range (permute := 0) (nqty := 1) (q := 0) hh (by decide)
      have h2 := Box3.count_of_has hh
      refine ⟨(addr3 0 b 1 i j k 0).toNat, List.mem_range.mpr (by omega), ?_⟩
      rw [Int.toNat_of_nonneg h1.1, point3_addr hh]
      rw [addr3_two, add_zero] at hx
      rw [addr3_two] at hy
      rw [hx, hy]
      rfl

theorem boxLines2 {b : Box2} (hb : b.Proper) {w : Mem ℝ} (hw : accessible w 0 (2 * b.count)) :
    ∃ l, printed (nfft2 b) (point2 b) w = some l ∧ Lines2 0 b w l := by
  have hc := nfft2_eq hb
  have h3 : ∀ i j q, addr2 0 b 2 i j q = 2 * addr2 0 b 1 i j 0 + q := by
    intro i j q
    rw [← addr2_lift (Or.inl rfl), ← addr2_lift (Or.inl rfl), addr3_two]
  obtain ⟨n, hn⟩ := Int.eq_ofNat_of_zero_le (a := b.count) (by rw [← Box2.lift_count]; exact count_nonneg _)
  have hpt : ∀ m, 0 ≤ m → m < (n : Int) → point2 b m = some ((point2 b m).getD (0, 0)) := by
    intro m h0 h1
    obtain ⟨i, j, _, _, hp⟩ := point2_ok hb h0 (by rw [hc, hn]; exact h1)
    rw [hp]
    rfl
  rw [hc, hn]
  refine ⟨_, printed_eq n hpt (v := fun x => (w x).getD 0) fun x h0 h1 =>
    getD_of_accessible hw h0 (by rw [hn]; exact h1), ?_, ?_⟩
  · rw [List.map_map]
    refine List.Nodup.map_on ?_ List.nodup_range
    intro m1 h1 m2 h2 he
    rw [List.mem_range] at h1 h2
    obtain ⟨i, j, q1, q2, q3⟩ := point2_ok hb (m := (m1 : Int)) (by omega) (by rw [hc, hn]; omega)
    obtain ⟨i', j', p1, p2, p3⟩ := point2_ok hb (m := (m2 : Int)) (by omega) (by rw [hc, hn]; omega)
    simp only [Function.comp, q3, p3, Option.getD_some] at he
    cases he
    exact_mod_cast q2.symm.trans p2
  · intro i j x y
    rw [List.mem_map]
    constructor
    · rintro ⟨m, hm, he⟩
      rw [List.mem_range] at hm
      obtain ⟨i', j', q1, q2, q3⟩ := point2_ok hb (m := (m : Int)) (by omega) (by rw [hc, hn]; omega)
      rw [q3] at he
      simp only [Option.getD_some, Prod.mk.injEq] at he
      obtain ⟨⟨rfl, rfl⟩, hx, hy⟩ := he
      refine ⟨q1, ?_, ?_⟩
      · rw [h3, q2, add_zero, ← hx]
        exact getD_of_accessible hw (by omega) (by rw [hn]; omega)
      · rw [h3, q2, ← hy]
        exact getD_of_accessible hw (by omega) (by rw [hn]; omega)
    · rintro ⟨hh, hx, hy⟩
      have h1 := addr2_range (permute := 0) (Or.inl rfl) (nqty := 1) (q := 0) hh (by decide)
      refine ⟨(addr2 0 b 1 i j 0).toNat, List.mem_range.mpr (by omega), ?_⟩
      rw [Int.toNat_of_nonneg h1.1, point2_addr hh]
      rw [h3, add_zero] at hx
      rw [h3] at hy
      rw [hx, hy]
      rfl

/-- **C63 (initial and final grid in modes 0 and 1, 3d).**  A rank prints one line for each point of its input box,
with the value stored for the point. -/
theorem C63_output {b : Box3} (b' : Box3) (hb : b.Proper) {w : Mem ℝ} (hw : accessible w 0 (2 * b.count)) :
    ∃ l, output3 0 b b' w = some l ∧ Lines3 0 b w l := boxLines3 hb hw

theorem C63_output_2d {b : Box2} (b' : Box2) (hb : b.Proper) {w : Mem ℝ} (hw : accessible w 0 (2 * b.count)) :
    ∃ l, output2 0 b b' w = some l ∧ Lines2 0 b w l := boxLines2 hb hw

/-- **C63 (all ranks).**  The lines of all ranks together are the grid: if the boxes tile the grid, every grid
point is printed by exactly one rank, in exactly one line. -/
theorem C63_output_all {P : Nat} {bs : Nat → Box3} {n1 n2 n3 : Int} (T : Tiles3 P bs n1 n2 n3) {w : Nat → Mem ℝ}
    {l : Nat → List ((Int × Int × Int) × ℝ × ℝ)} (hl : ∀ r < P, Lines3 0 (bs r) (w r) (l r))
    (hw : ∀ r < P, accessible (w r) 0 (2 * (bs r).count)) (i j k : Int) :
    ((0 ≤ i ∧ i < n1) ∧ (0 ≤ j ∧ j < n2) ∧ (0 ≤ k ∧ k < n3)) ↔
      ∃! p : Nat × ℝ × ℝ, p.1 < P ∧ ((i, j, k), p.2) ∈ l p.1 := by
  constructor
  · rintro ⟨h1, h2, h3⟩
    obtain ⟨r, hr, hh⟩ := T.owner i j k h1 h2 h3
    have q1 := addr3_range (permute := 0) (nqty := 1) (q := 0) hh (by decide)
    have q2 := Box3.count_of_has hh
    have e : ∀ q, (q = 0 ∨ q = 1) → w r (addr3 0 (bs r) 2 i j k q) = some ((w r (addr3 0 (bs r) 2 i j k q)).getD 0) := by
      intro q hq
      rw [addr3_two]
      exact getD_of_accessible (hw r hr) (by omega) (by omega)
    refine ⟨(r, (w r (addr3 0 (bs r) 2 i j k 0)).getD 0, (w r (addr3 0 (bs r) 2 i j k 1)).getD 0), ⟨hr, ?_⟩, ?_⟩
    · exact ((hl r hr).2 i j k _ _).mpr ⟨hh, e 0 (Or.inl rfl), e 1 (Or.inr rfl)⟩
    · rintro ⟨r', x, y⟩ ⟨hr', hm⟩
      dsimp only at hr' hm
      obtain ⟨hh', hx, hy⟩ := ((hl r' hr').2 i j k x y).mp hm
      have hrr : r' = r := T.disjoint r' hr' r hr i j k hh' hh
      subst hrr
      rw [hx, hy]
      rfl
  · rintro ⟨⟨r, x, y⟩, ⟨hr, hm⟩, _⟩
    exact T.inside r hr i j k (((hl r hr).2 i j k x y).mp hm).1

/-- **C63 (final grid in modes 2 and 3, 3d, partial).**  The final grid of the forward-only modes is printed
correctly if the rank has the same number of points on input and output and the result is not permuted (mode 2).
Missing: different numbers of points and mode 3, for which the claim is false, see `C63_division_false`,
`C63_count_false` and `C63_order_false`. -/
theorem C63_output_final_partial {b b' : Box3} (hb : b.Proper) (hb' : b'.Proper) (hc : b.count = b'.count)
    {w : Mem ℝ} (hw : accessible w 0 (2 * b'.count)) : ∃ l, output3 1 b b' w = some l ∧ Lines3 0 b' w l := by
  have := boxLines3 hb' hw
  rw [nfft3_eq hb', ← hc, ← nfft3_eq hb] at this
  exact this

theorem C63_output_final_2d_partial {b b' : Box2} (hb : b.Proper) (hb' : b'.Proper) (hc : b.count = b'.count)
    {w : Mem ℝ} (hw : accessible w 0 (2 * b'.count)) : ∃ l, output2 1 b b' w = some l ∧ Lines2 0 b' w l := by
  have := boxLines2 hb' hw
  rw [nfft2_eq hb', ← hc, ← nfft2_eq hb] at this
  exact this

theorem forN_first {σ : Type} {n : Int} (hn : 0 < n) {body : Int → σ → Option σ} {s : σ} (h : body 0 s = none) :
    forN n body s = none := by
  unfold forN
  obtain ⟨k, hk⟩ := Nat.exists_eq_succ_of_ne_zero (n := n.toNat) (by omega)
  rw [hk]
  show (body 0 s).bind _ = none
  rw [h]
  rfl

theorem forFrom_length {γ : Type} {pt : Int → Option γ} {w : Mem ℝ} (n : Nat) :
    ∀ (i : Int) (l l' : List (γ × ℝ × ℝ)), forFrom i n (fun m l => (pt m).bind fun g => (w (2 * m)).bind fun x =>
      (w (2 * m + 1)).map fun y => l ++ [(g, x, y)]) l = some l' → l'.length = l.length + n := by
  induction n with
  | zero =>
    intro i l l' h
    cases h
    rfl
  | succ n ih =>
    intro i l l' h
    simp only [forFrom, Option.bind_eq_some_iff, Option.map_eq_some_iff] at h
    obtain ⟨l1, ⟨g, _, x, _, y, _, rfl⟩, h⟩ := h
    rw [ih _ _ _ h, List.length_append]
    simp only [List.length_singleton]
    omega

/-- **C63 (division by zero).**  A rank whose output box is empty in x or y, but whose input box is not empty,
divides by zero when the final grid of the forward-only modes is printed. -/
theorem C63_division_false {b b' : Box3} (hb : b.Proper) (hn : 0 < b.count) (hb' : b'.isize = 0 ∨ b'.jsize = 0)
    (w : Mem ℝ) : output3 1 b b' w = none := by
  unfold output3 printed
  rw [nfft3_eq hb]
  refine forN_first hn ?_
  have : point3 (if (1 : Nat) = 0 then b else b') 0 = none := by
    rw [if_neg (by decide)]
    unfold point3
    rw [if_pos hb']
  rw [this]
  rfl

/-- `mpirun -np 3 test3d -g 2 4 4 -pin 1 1 3 -pout 3 1 1 -m 2 -o`: rank 0 has points on input and none on output. -/
example : (gridBox (1, 1, 3) 2 4 4 0).Proper ∧ 0 < (gridBox (1, 1, 3) 2 4 4 0).count ∧
    (gridBox (3, 1, 1) 2 4 4 0).isize = 0 :=
  ⟨gridBox_sizes _ _ _ _ _, by decide, by decide⟩

/-- **C63 (number of lines).**  The number of lines is that of the input points of the rank, also for the final
grid: points of the output box have no line if there are more of them. -/
theorem C63_count_false {b b' : Box3} (hb : b.Proper) (w : Mem ℝ) (hn : b.count < b'.count)
    {l : List ((Int × Int × Int) × ℝ × ℝ)} (hl : output3 1 b b' w = some l) :
    l.length < b'.count.toNat := by
  unfold output3 printed forN at hl
  rw [nfft3_eq hb] at hl
  have := forFrom_length _ _ _ _ hl
  have := count_nonneg b
  simp only [List.length_nil] at *
  omega

/-- `mpirun -np 3 test3d -g 2 4 4 -pin 1 1 3 -pout 3 1 1 -m 2 -o`: rank 1 has 8 points on input, 16 on output. -/
example : (gridBox (1, 1, 3) 2 4 4 1).count < (gridBox (3, 1, 1) 2 4 4 1).count := by decide

/-- **C63 (order of the values).**  In mode 3 the result is stored with the z index fastest, but printed as if the
x index were fastest.  One rank with a 2x2x2 grid: if the results at (1,0,0) and (0,0,1) differ, the printed grid
is not the result. -/
theorem C63_order_false {w : Mem ℝ} {b : Box3} (hb : b = ⟨0, 1, 0, 1, 0, 1⟩) (hw : accessible w 0 16)
    (h24 : w 2 ≠ w 4) : ∃ l, output3 1 b b w = some l ∧ ¬Lines3 2 b w l := by
  have hP : b.Proper := by subst hb; simp [Box3.Proper, Box3.isize, Box3.jsize, Box3.ksize]
  have hc : b.count = 8 := by subst hb; decide
  obtain ⟨l, h1, h2⟩ := C63_output_final_partial hP hP rfl (w := w) (by rw [hc]; exact hw)
  refine ⟨l, h1, fun h3 => h24 ?_⟩
  have a0 : addr3 0 b 2 1 0 0 0 = 2 := by subst hb; decide
  have a1 : addr3 2 b 2 1 0 0 0 = 4 := by subst hb; decide
  have hh : b.Has 1 0 0 := by subst hb; simp [Box3.Has]
  have q1 := addr3_range (permute := 0) (nqty := 2) (q := 1) hh (by decide)
  have q2 := Box3.count_of_has hh
  have e0 := getD_of_accessible hw (x := 2) (by decide) (by decide)
  have e1 := getD_of_accessible hw (x := addr3 0 b 2 1 0 0 1) (by omega) (by omega)
  have hm := (h2.2 1 0 0 _ _).mpr ⟨hh, by rw [a0]; exact e0, e1⟩
  have := ((h3.2 1 0 0 _ _).mp hm).2.1
  rw [a1] at this
  exact e0.trans this.symm

end FftMpi
