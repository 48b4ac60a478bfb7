import Verif.SimpleFlLemmas
import Verif.PropsSimple
import Verif.PropsDriverFl

/-!
# C78: the difference that the sample programs print, with rounding

In exact arithmetic the programs print the difference 0 (C64).  With rounding they print a small number.  The theorems
here say how small: the bound is proportional to the square root of the number of grid points and to the number of
scalars of the largest brick.
-/

noncomputable section

namespace FftMpi

open Driver

variable {ar : Arith} {fp : ℝ → ℝ} {u v cc tiny big d : ℝ}

/-! ## The loops -/

/-- **C78 (the data).**  The loop stores the number of each scalar of the brick, rounded once to the type of the array,
and nothing else. -/
theorem C78_fill (R : RoundOK ar u tiny big) {first : Int} (hf : first = 0 ∨ first = 1) {b : Box3} (hb : b.Proper)
    (hs : 2 * b.count + 1 ≤ 2147483647) (hbig : 2 ^ 31 ≤ big) {w : Mem ℝ} (hw : accessible w 0 (2 * b.count)) :
    ∃ w', Simple.fillFl ar first b w = some w' ∧ (∀ x, (x < 0 ∨ 2 * b.count ≤ x) → w' x = w x) ∧
      ∀ x, 0 ≤ x → x < 2 * b.count →
        ∃ y, w' x = some y ∧ |y - ((x + first : Int) : ℝ)| ≤ u * (|((x + first : Int) : ℝ)| + tiny) := by
  refine ⟨_, Simple.fillFl_fills hf hb hs w hw, fun x h => if_neg (by omega), fun x h0 h1 => ⟨_, if_pos ⟨h0, h1⟩, ?_⟩⟩
  refine R.conv _ ?_
  have k0 : (0 : ℝ) ≤ ((x + first : Int) : ℝ) := by exact_mod_cast (by omega : 0 ≤ x + first)
  have k1 : ((x + first : Int) : ℝ) ≤ ((2147483647 : Int) : ℝ) := by exact_mod_cast (by omega : x + first ≤ 2147483647)
  unfold Simple.number
  rw [abs_of_nonneg k0]
  refine k1.trans (le_trans ?_ hbig)
  norm_num

/-- **C78 (the difference).**  The second loop returns the largest difference between the array and the numbers that
the first loop stored, up to the rounding of one subtraction.  So the number printed cannot hide an error, and the
conversion of the numbers to the type of the array does not count as one. -/
theorem C78_diff (R : RoundOK ar u tiny big) (hu : u ≤ 1) {first : Int} (hf : first = 0 ∨ first = 1) {b : Box3}
    (hb : b.Proper) (hs : 2 * b.count + 1 ≤ 2147483647) {w0 w1 w : Mem ℝ} (h0 : accessible w0 0 (2 * b.count))
    (h1 : Simple.fillFl ar first b w0 = some w1) (hw : accessible w 0 (2 * b.count)) {L : ℝ}
    (hL : Largest (2 * b.count) w w1 L) (hbig : L ≤ big) :
    ∃ eps, Simple.diffFl ar first b w = some eps ∧ (1 - u) * L ≤ eps ∧ eps ≤ (1 + u) * L := by
  have u0 := R.u0
  rw [Simple.fillFl_fills hf hb hs w0 h0] at h1
  cases h1
  obtain ⟨L0, L1, L2⟩ := hL
  have e2 : ∀ x, 0 ≤ x → x < 2 * b.count → w x = some ((w x).getD 0) := by
    intro x ha hb
    obtain ⟨y, hy⟩ := Option.isSome_iff_exists.mp (hw x (by omega) (by omega))
    rw [hy]
    rfl
  obtain ⟨dd, eps, q1, q2, q3, q4, q5⟩ := Simple.diffFl_checks (ar := ar) hf hb hs w _ e2
  have near : ∀ x, 0 ≤ x → x < 2 * b.count → ∃ t, |(w x).getD 0 - Simple.numberFl ar first x| = t ∧ t ≤ L ∧
      (1 - u) * t ≤ dd x ∧ dd x ≤ (1 + u) * t := by
    intro x ha hb
    refine ⟨_, rfl, ?_, ?_⟩
    · obtain ⟨y, y0, k1, k2, k3⟩ := L1 x ha hb
      dsimp only at k2
      rw [if_pos ⟨ha, hb⟩] at k2
      cases k2
      rw [k1]
      exact k3
    · have kL : |(w x).getD 0 - Simple.numberFl ar first x| ≤ L := by
        obtain ⟨y, y0, k1, k2, k3⟩ := L1 x ha hb
        dsimp only at k2
        rw [if_pos ⟨ha, hb⟩] at k2
        cases k2
        rw [k1]
        exact k3
      have a0 := abs_nonneg ((w x).getD 0 - Simple.numberFl ar first x)
      rcases q1 x with h | h
      · rw [h]
        constructor <;> nlinarith
      · have k := (Simple.working_ok R).dsub ((w x).getD 0) (Simple.numberFl ar first x) (kL.trans hbig)
        have k1 := abs_sub_abs_le_abs_sub ((Simple.working ar).dsub ((w x).getD 0) (Simple.numberFl ar first x))
          ((w x).getD 0 - Simple.numberFl ar first x)
        have k2 := abs_sub_abs_le_abs_sub ((w x).getD 0 - Simple.numberFl ar first x)
          ((Simple.working ar).dsub ((w x).getD 0) (Simple.numberFl ar first x))
        rw [abs_sub_comm ((w x).getD 0 - Simple.numberFl ar first x)
          ((Simple.working ar).dsub ((w x).getD 0) (Simple.numberFl ar first x))] at k2
        rw [h]
        constructor <;> nlinarith
  refine ⟨eps, q2, ?_, ?_⟩
  · rcases L2 with h | ⟨x, y, y0, ha, hb, k1, k2, h⟩
    · rw [h, mul_zero]
      exact q3
    · obtain ⟨t, t1, _, t3, _⟩ := near x ha hb
      dsimp only at k2
      rw [if_pos ⟨ha, hb⟩] at k2
      cases k2
      rw [k1] at t1
      have : t = L := by rw [h, ← t1, Option.getD_some]
      rw [this] at t3
      exact t3.trans (q4 x ha hb)
  · rcases q5 with h | ⟨x, ha, hb, h⟩
    · rw [h]
      positivity
    · obtain ⟨t, t1, t2, _, t4⟩ := near x ha hb
      rw [h]
      exact t4.trans (by gcongr)

/-! ## The run -/

/-- **C78.**  Under every schedule simple.cpp (`first = 0`) and simple_f90.f90 (`first = 1`) terminate on any number of
ranks and print a difference of at most `(1+u)*(cycle2-1)*B`: `cycle2` is the growth of the error in one round trip
(C67), `B` a bound for the Euclidean norm of the data, and `V` a bound for the number of scalars of a brick.  Numbers must not
overflow. -/
theorem C78_run (R : RoundOK ar u tiny big) (T : TrigOK ar v cc tiny big) (hu : u ≤ 1 / 100) (hv : v ≤ 1 / 100)
    (ht : tiny ≤ 1 / 100) (hd : 0 ≤ d) {P n1 n2 n3 : Nat} {box : Nat → Box3}
    (hs : ∀ r < P, 2 * (box r).count + 1 ≤ 2147483647) {first : Int} (hf : first = 0 ∨ first = 1) {f : Nat → Fft3 ℝ}
    {a : Args3} (ha : a = Simple.args fp n1 n2 n3 box)
    (S : SetUp3F ar P a Simple.settings f)
    (htw : a.TwiddlesNear ar d) (e : Bool) (J J' : Nat → Nat → Junk) {m : Nat → LMem ℝ}
    (hb : Bufs P f 0 m) {V B : ℝ} (hV : ∀ r < P, ((2 * (box r).count : Int) : ℝ) ≤ V)
    (hB : B = Real.sqrt a.N * (3 / 2 * (V + u * (V + tiny)) + 2 * tiny)) (hNb : a.N ≤ big) (hVb : V ≤ big)
    (hbig : 2 * (1 + a.fftErr2 u d) ^ 2 * (a.N * B) ≤ big)
    (hend : (a.cycle2 u v d - 1) * grown a.N tiny B 1 ≤ big) :
    ∃ m' eps, Terminates e P (fun r => Simple.runFl ar first (box r) (f r) (J r) (J' r)) m m' ∧
      Simple.reportFl ar P first box (fun r => (m' r).ub 0) = some eps ∧ 0 ≤ eps ∧
      eps ≤ (1 + u) * ((a.cycle2 u v d - 1) * grown a.N tiny B 1) := by
  have u0 := R.u0
  have t0 := R.t0
  have hbox : a.ins = box := by rw [ha]; rfl
  have houts : a.outs = a.ins := by rw [ha]; rfl
  have hperm : a.permute = 0 := by rw [ha]; rfl
  clear ha
  subst hbox
  obtain ⟨m1, X, s1, h1, hX⟩ := Simple.startFl_ok R S e hf hs hb
  have en := S.args.en_of_le t0 hX h1 fun r hr x h0 h2 => (Simple.numberFl_le R hf h0 h2 (hV r hr) hVb).1
  rw [← hB] at en
  have hroom : RoomBack P a Simple.settings m1 := Or.inr (Or.inl ⟨hperm, fun r _ => by rw [houts]⟩)
  obtain ⟨m2, X', s2, h2, en'⟩ := loop3Fl_ok R T hu hv ht hd S htw (fun r _ => by rw [houts]) e (fun r _ => J r)
    (fun r _ => J' r) (mode := 0) (by omega) hX (hb.congr s1.dom) hroom en hNb 1 (by
      intro k hk
      obtain rfl : k = 0 := by omega
      rw [pow_zero, one_mul]
      exact hbig)
  rw [pow_one] at en'
  obtain ⟨y, h3, h4⟩ := S.args.vals_near hX h2 h1 en'
  have hC : 1 ≤ a.cycle2 u v d := Args3.one_le_cycle2 R.u0 T.v0 (by linarith) hd
  have hG := grown_nonneg (N := a.N) (tiny := tiny) S.args.N_pos.le t0 en.nonneg 1
  obtain ⟨eps, k1, k2, k3⟩ := epsFl_all (Simple.working_ok R) S.args.procs h3
    (fun r hr => Simple.diffFl_checks (ar := ar) hf (S.args.properIn r hr).1 (hs r hr))
    (D := (a.cycle2 u v d - 1) * grown a.N tiny B 1) (mul_nonneg (by linarith) hG) h4 hend
  refine ⟨m2, eps, ((s1.append s2).congr fun r _ => ?_).ok.terminates, k1, k2, k3⟩
  rw [Simple.loop3Fl_one]
  rfl

/-- The bound for given precision. -/
theorem Simple.numbers {g τ : ℝ} (R : RoundOK ar u tiny big) (T : TrigOK ar v cc tiny big) (hu : u ≤ 1 / 100)
    (hv : v ≤ 1 / 100) (ht : tiny ≤ 1 / 100) (hd : 0 ≤ d) {P n1 n2 n3 : Nat} {box : Nat → Box3}
    (hs : ∀ r < P, 2 * (box r).count + 1 ≤ 2147483647) {first : Int} (hf : first = 0 ∨ first = 1) {f : Nat → Fft3 ℝ}
    {a : Args3} (ha : a = Simple.args fp n1 n2 n3 box)
    (S : SetUp3F ar P a Simple.settings f)
    (htw : a.TwiddlesNear ar d) (e : Bool) (J J' : Nat → Nat → Junk) {m : Nat → LMem ℝ}
    (hb : Bufs P f 0 m) {V : ℝ} (hV : ∀ r < P, ((2 * (box r).count : Int) : ℝ) ≤ V) (hV0 : 0 ≤ V) (hNb : a.N ≤ big)
    (hE : a.fftErr2 u d ≤ 1 / 100) (hC : a.cycle2 u v d ≤ 1 + g) (hg : g ≤ 1 / 32)
    (h1 : a.N * tiny ≤ 1 / 32) (h2 : 12 * tiny ≤ τ) (hbig : 4 * (a.N * (Real.sqrt a.N * (V + τ))) ≤ big) :
    ∃ m' eps, Terminates e P (fun r => Simple.runFl ar first (box r) (f r) (J r) (J' r)) m m' ∧
      Simple.reportFl ar P first box (fun r => (m' r).ub 0) = some eps ∧ 0 ≤ eps ∧
      eps ≤ 2 * g * (Real.sqrt a.N * (V + τ)) := by
  have u0 := R.u0
  have t0 := R.t0
  have hN := S.args.one_le_N
  have hs1 : 1 ≤ Real.sqrt a.N := by rw [Real.one_le_sqrt]; exact hN
  have hC0 := Args3.one_le_cycle2 (a := a) u0 T.v0 (by linarith) hd
  have hE0 := a.fftErr2_nonneg u0 hd
  have τ0 : 0 ≤ τ := le_trans (by positivity) h2
  have g0 : 0 ≤ g := by linarith
  have hX : 0 ≤ Real.sqrt a.N * (V + τ) := by positivity
  have hX1 : V + τ ≤ Real.sqrt a.N * (V + τ) := by nlinarith
  have hX2 : Real.sqrt a.N * (V + τ) ≤ a.N * (Real.sqrt a.N * (V + τ)) := by nlinarith
  set B := Real.sqrt a.N * (3 / 2 * (V + u * (V + tiny)) + 2 * tiny) with hB
  have q : ∀ k ≤ 1, grown a.N tiny B k ≤ 8 / 5 * (Real.sqrt a.N * (V + τ)) := fun k hk =>
    grown_small hN t0 u0 hu hV0 (n := 1) (by rw [Nat.cast_one, one_mul]; exact h1) (by push_cast; linarith) hk
  have q0 : ∀ k, 0 ≤ grown a.N tiny B k := fun k => grown_nonneg (by linarith) t0 (by positivity) k
  have p1 : (a.cycle2 u v d - 1) * grown a.N tiny B 1 ≤ g * (8 / 5 * (Real.sqrt a.N * (V + τ))) :=
    mul_le_mul (by linarith) (q 1 le_rfl) (q0 1) g0
  have p2 : g * (Real.sqrt a.N * (V + τ)) ≤ 1 / 32 * (Real.sqrt a.N * (V + τ)) := by gcongr
  have p3 : 0 ≤ g * (Real.sqrt a.N * (V + τ)) := by positivity
  have p4 := pass_small (N := a.N) (n := 1) (k := 0) (by linarith) hC0 hC (by rw [Nat.cast_one, one_mul]; exact hg) (Nat.zero_le 1)
    hE0 hE (q0 0) (q 0 (Nat.zero_le 1)) hX
  rw [pow_zero, one_mul] at p4
  obtain ⟨m', eps, k1, k2, k3, k4⟩ := C78_run R T hu hv ht hd hs hf ha S htw e J J' hb hV hB hNb (by linarith)
    (p4.trans hbig) (by linarith)
  refine ⟨m', eps, k1, k2, k3, k4.trans ?_⟩
  calc (1 + u) * ((a.cycle2 u v d - 1) * grown a.N tiny B 1) ≤ (1 + 1 / 100) * (g * (8 / 5 * (Real.sqrt a.N * (V + τ)))) := by
        gcongr
        exact mul_nonneg (by linarith) (q0 1)
    _ ≤ _ := by nlinarith

/-- **C78 in numbers, double precision (`u = v = 2^-53`, `cos` and `sin` accurate to `2^-52`)**: for every grid that
`setup` accepts and every number of ranks the difference printed is at most `sqrt(N)*V/2^35`; `N` is the number of grid
points and `V` the number of scalars of the largest brick (plus a tiny number). -/
theorem C78_double (R : RoundOK ar (1 / 2 ^ 53) tiny big) (T : TrigOK ar (1 / 2 ^ 53) (1 / 2 ^ 52) tiny big)
    (ht : tiny ≤ 1 / 2 ^ 200) (hbig : 2 ^ 180 ≤ big) {P n1 n2 n3 : Nat} {box : Nat → Box3}
    (hs : ∀ r < P, 2 * (box r).count + 1 ≤ 2147483647) {first : Int} (hf : first = 0 ∨ first = 1) {f : Nat → Fft3 ℝ}
    (S : SetUp3F ar P (Simple.args fp n1 n2 n3 box) Simple.settings f) (e : Bool) (J J' : Nat → Nat → Junk)
    {m : Nat → LMem ℝ} (hb : Bufs P f 0 m) {V : Int} (hV : ∀ r < P, 2 * (box r).count ≤ V) (hV' : V ≤ 2147483647) :
    ∃ m' eps, Terminates e P (fun r => Simple.runFl ar first (box r) (f r) (J r) (J' r)) m m' ∧
      Simple.reportFl ar P first box (fun r => (m' r).ub 0) = some eps ∧ 0 ≤ eps ∧
      eps ≤ Real.sqrt ((n1 : ℝ) * n2 * n3) * (V + 1 / 2 ^ 100) / 2 ^ 35 := by
  generalize ha : Simple.args fp n1 n2 n3 box = a at S
  have htw := (double_setup S.args R T (ht.trans (by norm_num)) (le_trans (by norm_num) hbig)).1
  obtain ⟨h2, h3⟩ := double_norm S.args
  have hN := S.args.N_le
  have hN0 := S.args.N_pos
  have t0 := R.t0
  have eN : a.N = (n1 : ℝ) * n2 * n3 := by
    rw [← ha]
    unfold Args3.N Simple.args
    push_cast
    rfl
  have hP := S.args.procs
  have V0 : 0 ≤ V := le_trans (by have := count_nonneg (box 0); omega) (hV 0 hP)
  have V0' : (0 : ℝ) ≤ V := by exact_mod_cast V0
  have V1 : (V : ℝ) ≤ 2 ^ 31 := by
    have : (V : ℝ) ≤ ((2147483647 : Int) : ℝ) := by exact_mod_cast hV'
    exact this.trans (by norm_num)
  have l2 : Real.sqrt a.N ≤ 2 ^ 47 := by
    rw [Real.sqrt_le_left (by positivity)]
    exact hN.trans (by norm_num)
  have q1 : a.N * tiny ≤ 2 ^ 93 * (1 / 2 ^ 200) := by gcongr
  obtain ⟨m', eps, k1, k2, k3, k4⟩ := Simple.numbers (g := 1 / 2 ^ 36) (τ := 1 / 2 ^ 100) (V := V) R T (by norm_num)
    (by norm_num) (ht.trans (by norm_num)) (by positivity) hs hf ha.symm S htw e J J' hb
    (fun r hr => by exact_mod_cast hV r hr) V0' (hN.trans (le_trans (by norm_num) hbig))
    (by norm_num at h2 ⊢; linarith) h3 (by norm_num) (q1.trans (by norm_num)) (by norm_num at ht ⊢; linarith) (by
      calc _ ≤ 4 * ((2:ℝ) ^ 93 * (2 ^ 47 * (2 ^ 31 + 1 / 2 ^ 100))) := by gcongr
        _ ≤ _ := le_trans (by norm_num) hbig)
  rw [eN] at k4
  refine ⟨m', eps, k1, k2, k3, k4.trans (le_of_eq ?_)⟩
  ring

/-- **C78 in numbers, single precision (`u = 2^-24`)**: at most `sqrt(N)*V/2^9`; the numbers must not overflow. -/
theorem C78_float (R : RoundOK ar (1 / 2 ^ 24) tiny big) (T : TrigOK ar (1 / 2 ^ 53) (1 / 2 ^ 52) tiny big)
    (ht : tiny ≤ 1 / 2 ^ 120) (hbig : 2 ^ 93 ≤ big) {P n1 n2 n3 : Nat} {box : Nat → Box3}
    (hs : ∀ r < P, 2 * (box r).count + 1 ≤ 2147483647) {first : Int} (hf : first = 0 ∨ first = 1) {f : Nat → Fft3 ℝ}
    (S : SetUp3F ar P (Simple.args fp n1 n2 n3 box) Simple.settings f) (e : Bool) (J J' : Nat → Nat → Junk)
    {m : Nat → LMem ℝ} (hb : Bufs P f 0 m) {V : Int} (hV : ∀ r < P, 2 * (box r).count ≤ V)
    (hV' : 4 * (((n1 : ℝ) * n2 * n3) * (Real.sqrt ((n1 : ℝ) * n2 * n3) * (V + 1 / 2 ^ 100))) ≤ big) :
    ∃ m' eps, Terminates e P (fun r => Simple.runFl ar first (box r) (f r) (J r) (J' r)) m m' ∧
      Simple.reportFl ar P first box (fun r => (m' r).ub 0) = some eps ∧ 0 ≤ eps ∧
      eps ≤ Real.sqrt ((n1 : ℝ) * n2 * n3) * (V + 1 / 2 ^ 100) / 2 ^ 9 := by
  generalize ha : Simple.args fp n1 n2 n3 box = a at S
  have htw := (float_setup S.args R T (ht.trans (by norm_num)) (le_trans (by norm_num) hbig)).1
  obtain ⟨h2, h3⟩ := float_norm S.args
  have hN := S.args.N_le
  have hN0 := S.args.N_pos
  have t0 := R.t0
  have eN : a.N = (n1 : ℝ) * n2 * n3 := by
    rw [← ha]
    unfold Args3.N Simple.args
    push_cast
    rfl
  have V0 : 0 ≤ V := le_trans (by have := count_nonneg (box 0); omega) (hV 0 S.args.procs)
  have V0' : (0 : ℝ) ≤ V := by exact_mod_cast V0
  have q1 : a.N * tiny ≤ 2 ^ 93 * (1 / 2 ^ 120) := by gcongr
  obtain ⟨m', eps, k1, k2, k3, k4⟩ := Simple.numbers (g := 1 / 2 ^ 10) (τ := 1 / 2 ^ 100) (V := V) R T (by norm_num)
    (by norm_num) (ht.trans (by norm_num)) (by positivity) hs hf ha.symm S htw e J J' hb
    (fun r hr => by exact_mod_cast hV r hr) V0' (hN.trans (le_trans (by norm_num) hbig))
    (by norm_num at h2 ⊢; linarith) h3 (by norm_num) (q1.trans (by norm_num)) (by norm_num at ht ⊢; linarith)
    (by rw [eN]; exact hV')
  rw [eN] at k4
  refine ⟨m', eps, k1, k2, k3, k4.trans (le_of_eq ?_)⟩
  ring

/-! ## The programs -/

/-- **C78 (simple.cpp from the number of ranks to the printed number, double precision).**  The bricks are those of the
program, and no condition on the buffers is needed beyond the sizes that `setup` returns. -/
theorem C78_simple (R : RoundOK ar (1 / 2 ^ 53) tiny big) (T : TrigOK ar (1 / 2 ^ 53) (1 / 2 ^ 52) tiny big)
    (ht : tiny ≤ 1 / 2 ^ 200) (hbig : 2 ^ 180 ≤ big) {cbrt sqrt : Nat → Nat} {P n1 n2 n3 : Nat} (Rf : FpOK P fp)
    (hP : 0 < P) (hc : 1 ≤ cbrt P ∧ cbrt P ≤ P) (hs : ∀ n, 1 ≤ n → n ≤ P → 1 ≤ sqrt n ∧ sqrt n ≤ n)
    (h1 : Simple.Size P n1) (h2 : Simple.Size P n2) (h3 : Simple.Size P n3) (hN : 2 * (n1 * n2 * n3) < 2147483647) :
    ∃ (p : Nat × Nat × Nat) (box : Nat → Box3) (f : Nat → Fft3 ℝ), Simple.procs cbrt sqrt P = some p ∧
      (∀ r < P, Simple.box p n1 n2 n3 r = some (box r)) ∧
      (∀ r < P, fft3SetupF ar P r (Simple.args fp n1 n2 n3 box) Simple.settings = some (.ok (f r))) ∧
      ∀ (e : Bool) (J J' : Nat → Nat → Junk) (m : Nat → LMem ℝ),
        (∀ r < P, accessible ((m r).ub 0) 0 (2 * (f r).fftsize) ∧ accessible (m r).sb 0 (f r).sendsize ∧
          accessible (m r).rb 0 (f r).recvsize) →
        ∀ V : Int, V ≤ 2147483647 → (∀ r < P, 2 * (box r).count ≤ V) →
        ∃ m' eps, Terminates e P (fun r => Simple.runFl ar 0 (box r) (f r) (J r) (J' r)) m m' ∧
          Simple.reportFl ar P 0 box (fun r => (m' r).ub 0) = some eps ∧ 0 ≤ eps ∧
          eps ≤ Real.sqrt ((n1 : ℝ) * n2 * n3) * (V + 1 / 2 ^ 100) / 2 ^ 35 := by
  obtain ⟨p, e1, hp, _, _⟩ := C64_factors hP hc hs
  obtain ⟨box, e2, hv⟩ := C64_bricks Rf hP h1 h2 h3 hp
  obtain ⟨f, S⟩ := setUp3F_exists ar (st := Simple.settings) hv (by simp [Settings.Valid, Simple.settings])
  refine ⟨p, box, f, e1, e2, S.result, fun e J J' m hm V hV hV' => ?_⟩
  refine C78_double R T ht hbig ?_ (Or.inl rfl) S e J J'
    ⟨fun r hr => (hm r hr).1, fun r hr => (hm r hr).2.1, fun r hr => (hm r hr).2.2⟩ hV' hV
  intro r hr
  have k : (box r).count ≤ n1 * n2 * n3 := Simple.count_le (hv.properIn r hr).1 (hv.properIn r hr).2
  have : ((n1 * n2 * n3 : Nat) : Int) = (n1 : Int) * n2 * n3 := by push_cast; ring
  omega

/-- **C78 (simple_f90.f90, double precision, partial).**  The same with the bricks of the Fortran program, which it computes
in single precision, and with numbers from one.  Missing: sizes for which the number of ranks times the size exceeds
`2^22`, see `C64_single_false`. -/
theorem C78_f90_partial (R : RoundOK ar (1 / 2 ^ 53) tiny big) (T : TrigOK ar (1 / 2 ^ 53) (1 / 2 ^ 52) tiny big)
    (ht : tiny ≤ 1 / 2 ^ 200) (hbig : 2 ^ 180 ≤ big) {rnd : ℝ → ℝ} (Rs : Simple.Single rnd) {cbrt sqrt : Nat → Nat}
    {P n1 n2 n3 : Nat} (Rf : FpOK P fp) (hP : 0 < P) (hc : 1 ≤ cbrt P ∧ cbrt P ≤ P)
    (hs : ∀ n, 1 ≤ n → n ≤ P → 1 ≤ sqrt n ∧ sqrt n ≤ n) (h1 : Supported n1 ∧ P * n1 ≤ 2 ^ 22)
    (h2 : Supported n2 ∧ P * n2 ≤ 2 ^ 22) (h3 : Supported n3 ∧ P * n3 ≤ 2 ^ 22) (hN : 2 * (n1 * n2 * n3) < 2147483647) :
    ∃ (p : Nat × Nat × Nat) (box : Nat → Box3) (f : Nat → Fft3 ℝ), Simple.procs cbrt sqrt P = some p ∧
      (∀ r, box r = Simple.fromOne (Simple.boxF rnd p n1 n2 n3 r)) ∧
      (∀ r < P, fft3SetupF ar P r (Simple.args fp n1 n2 n3 box) Simple.settings = some (.ok (f r))) ∧
      ∀ (e : Bool) (J J' : Nat → Nat → Junk) (m : Nat → LMem ℝ),
        (∀ r < P, accessible ((m r).ub 0) 0 (2 * (f r).fftsize) ∧ accessible (m r).sb 0 (f r).sendsize ∧
          accessible (m r).rb 0 (f r).recvsize) →
        ∀ V : Int, V ≤ 2147483647 → (∀ r < P, 2 * (box r).count ≤ V) →
        ∃ m' eps, Terminates e P (fun r => Simple.runFl ar 1 (box r) (f r) (J r) (J' r)) m m' ∧
          Simple.reportFl ar P 1 box (fun r => (m' r).ub 0) = some eps ∧ 0 ≤ eps ∧
          eps ≤ Real.sqrt ((n1 : ℝ) * n2 * n3) * (V + 1 / 2 ^ 100) / 2 ^ 35 := by
  obtain ⟨p, e1, hp, _, _⟩ := C64_factors hP hc hs
  have hv := C64_bricks_f90_partial Rs Rf hP h1 h2 h3 hp
  obtain ⟨f, S⟩ := setUp3F_exists ar (st := Simple.settings) hv (by simp [Settings.Valid, Simple.settings])
  refine ⟨p, _, f, e1, fun _ => rfl, S.result, fun e J J' m hm V hV hV' => ?_⟩
  refine C78_double R T ht hbig ?_ (Or.inr rfl) S e J J'
    ⟨fun r hr => (hm r hr).1, fun r hr => (hm r hr).2.1, fun r hr => (hm r hr).2.2⟩ hV' hV
  intro r hr
  have k : (Simple.fromOne (Simple.boxF rnd p n1 n2 n3 r)).count ≤ n1 * n2 * n3 :=
    Simple.count_le (hv.properIn r hr).1 (hv.properIn r hr).2
  have : ((n1 * n2 * n3 : Nat) : Int) = (n1 : Int) * n2 * n3 := by push_cast; ring
  omega

/-- **C78 (simple.cpp as it stands, double precision).**  On the grid of 128 x 128 x 128 points with up to 16777215 ranks the
program prints at most `1/25`; the numbers compared are up to 4194303. -/
theorem C78_as_it_stands (R : RoundOK ar (1 / 2 ^ 53) tiny big) (T : TrigOK ar (1 / 2 ^ 53) (1 / 2 ^ 52) tiny big)
    (ht : tiny ≤ 1 / 2 ^ 200) (hbig : 2 ^ 180 ≤ big) {cbrt sqrt : Nat → Nat} {P : Nat} (Rf : FpOK P fp)
    (hP : 0 < P) (hP' : P ≤ 16777215) (hc : 1 ≤ cbrt P ∧ cbrt P ≤ P)
    (hs : ∀ n, 1 ≤ n → n ≤ P → 1 ≤ sqrt n ∧ sqrt n ≤ n) :
    ∃ (p : Nat × Nat × Nat) (box : Nat → Box3) (f : Nat → Fft3 ℝ), Simple.procs cbrt sqrt P = some p ∧
      (∀ r < P, Simple.box p 128 128 128 r = some (box r)) ∧
      (∀ r < P, fft3SetupF ar P r (Simple.args fp 128 128 128 box) Simple.settings = some (.ok (f r))) ∧
      ∀ (e : Bool) (J J' : Nat → Nat → Junk) (m : Nat → LMem ℝ),
        (∀ r < P, accessible ((m r).ub 0) 0 (2 * (f r).fftsize) ∧ accessible (m r).sb 0 (f r).sendsize ∧
          accessible (m r).rb 0 (f r).recvsize) →
        ∃ m' eps, Terminates e P (fun r => Simple.runFl ar 0 (box r) (f r) (J r) (J' r)) m m' ∧
          Simple.reportFl ar P 0 box (fun r => (m' r).ub 0) = some eps ∧ 0 ≤ eps ∧ eps ≤ 1 / 25 := by
  have hsz : Simple.Size P 128 := ⟨Simple.supported_128, by omega⟩
  obtain ⟨p, e1, hp, _, _⟩ := C64_factors hP hc hs
  obtain ⟨box, e2, hv⟩ := C64_bricks Rf hP hsz hsz hsz hp
  obtain ⟨f, S⟩ := setUp3F_exists ar (st := Simple.settings) hv (by simp [Settings.Valid, Simple.settings])
  refine ⟨p, box, f, e1, e2, S.result, fun e J J' m hm => ?_⟩
  have hcnt : ∀ r < P, (box r).count ≤ 2097152 := fun r hr => by
    have := Simple.count_le (hv.properIn r hr).1 (hv.properIn r hr).2
    simpa [Simple.args] using this
  generalize ha : Simple.args fp 128 128 128 box = a at S
  have htw := (double_setup S.args R T (ht.trans (by norm_num)) (le_trans (by norm_num) hbig)).1
  have eN : a.N = 2097152 := by
    rw [← ha]
    unfold Args3.N Simple.args
    norm_num
  have t0 := R.t0
  have eL : a.fftErr2 (1 / 2 ^ 53) (1 / 2 ^ 47) = (1 + 9 / 4 * radixErr (1 / 2 ^ 53) (1 / 2 ^ 47)) ^ 21 - 1 := by
    rw [← ha]
    unfold Args3.fftErr2 Simple.args
    have : Nat.log 2 (128 : Int).toNat = 7 := by
      rw [show (128 : Int).toNat = 2 ^ 7 from rfl, Nat.log_pow (by norm_num)]
    simp only [Nat.cast_ofNat, this]
  have e3 : radixErr (1 / 2 ^ 53) (1 / 2 ^ 47) ≤ 1 / 2 ^ 45 + 1 / 2 ^ 48 := by unfold radixErr; norm_num
  have e4 : 0 ≤ radixErr (1 / 2 ^ 53) (1 / 2 ^ 47) := by unfold radixErr; positivity
  have e5 : 1 + a.fftErr2 (1 / 2 ^ 53) (1 / 2 ^ 47) ≤ (1 + 9 / 4 * (1 / 2 ^ 45 + 1 / 2 ^ 48)) ^ 21 := by
    rw [eL, add_sub_cancel]
    gcongr
  have e6 := a.fftErr2_nonneg (u := 1 / 2 ^ 53) (d := 1 / 2 ^ 47) (by positivity) (by positivity)
  have e7 : a.cycle2 (1 / 2 ^ 53) (1 / 2 ^ 53) (1 / 2 ^ 47) ≤ 1 + 107 / 2 ^ 45 := by
    unfold Args3.cycle2
    have h7 : (1 + a.fftErr2 (1 / 2 ^ 53) (1 / 2 ^ 47)) ^ 2 ≤ ((1 + 9 / 4 * (1 / 2 ^ 45 + 1 / 2 ^ 48)) ^ 21) ^ 2 := by gcongr
    have h8 : normGrow (1 / 2 ^ 53) (1 / 2 ^ 53) ≤ 1 + 4 * (1 / 2 ^ 53) := by unfold normGrow; norm_num
    have h8' : 0 ≤ normGrow (1 / 2 ^ 53) (1 / 2 ^ 53) := by unfold normGrow; norm_num
    have h9 : (1 + a.fftErr2 (1 / 2 ^ 53) (1 / 2 ^ 47)) ^ 2 * normGrow (1 / 2 ^ 53) (1 / 2 ^ 53) * (1 + 1 / 2 ^ 53) ≤
        ((1 + 9 / 4 * (1 / 2 ^ 45 + 1 / 2 ^ 48)) ^ 21) ^ 2 * (1 + 4 * (1 / 2 ^ 53)) * (1 + 1 / 2 ^ 53) := by gcongr
    exact h9.trans (by norm_num)
  have e8 : Real.sqrt a.N ≤ 1449 := by
    rw [eN, Real.sqrt_le_left (by norm_num)]
    norm_num
  have e9 := Real.sqrt_nonneg a.N
  obtain ⟨m', eps, k1, k2, k3, k4⟩ := Simple.numbers (g := 107 / 2 ^ 45) (τ := 1 / 2 ^ 100) (V := 4194304) R T
    (by norm_num) (by norm_num) (ht.trans (by norm_num)) (by positivity) (fun r hr => by have := hcnt r hr; omega)
    (Or.inl rfl) ha.symm S htw e J J'
    ⟨fun r hr => (hm r hr).1, fun r hr => (hm r hr).2.1, fun r hr => (hm r hr).2.2⟩
    (fun r hr => by
      have h := hcnt r hr
      have : ((2 * (box r).count : Int) : ℝ) ≤ ((4194304 : Int) : ℝ) := by exact_mod_cast (by omega : 2 * (box r).count ≤ 4194304)
      exact this.trans (by norm_num)) (by norm_num) (by rw [eN]; exact le_trans (by norm_num) hbig)
    (by
      have : ((1 : ℝ) + 9 / 4 * (1 / 2 ^ 45 + 1 / 2 ^ 48)) ^ 21 ≤ 1 + 1 / 100 := by norm_num
      linarith) e7 (by norm_num)
    (by
      rw [eN]
      have : (2097152 : ℝ) * tiny ≤ 2097152 * (1 / 2 ^ 200) := by gcongr
      exact this.trans (by norm_num)) (by norm_num at ht ⊢; linarith) (by
      calc _ ≤ 4 * ((2097152 : ℝ) * (1449 * (4194304 + 1 / 2 ^ 100))) := by rw [eN] at e8 e9 ⊢; gcongr
        _ ≤ _ := le_trans (by norm_num) hbig)
  refine ⟨m', eps, k1, k2, k3, k4.trans ?_⟩
  calc _ ≤ 2 * (107 / 2 ^ 45) * (1449 * (4194304 + (1 : ℝ) / 2 ^ 100)) := by gcongr
    _ ≤ _ := by norm_num

/-- simple.cpp on 12 ranks, with the rounding of 53 binary digits. -/
example : ∃ (p : Nat × Nat × Nat) (box : Nat → Box3) (f : Nat → Fft3 ℝ),
    Simple.procs (fun _ => 2) (fun _ => 2) 12 = some p ∧ (∀ r < 12, Simple.box p 128 128 128 r = some (box r)) ∧
      (∀ r < 12, fft3SetupF arith53 12 r (Simple.args rnd53 128 128 128 box) Simple.settings = some (.ok (f r))) ∧
      ∀ (e : Bool) (J J' : Nat → Nat → Junk) (m : Nat → LMem ℝ),
        (∀ r < 12, accessible ((m r).ub 0) 0 (2 * (f r).fftsize) ∧ accessible (m r).sb 0 (f r).sendsize ∧
          accessible (m r).rb 0 (f r).recvsize) →
        ∃ m' eps, Terminates e 12 (fun r => Simple.runFl arith53 0 (box r) (f r) (J r) (J' r)) m m' ∧
          Simple.reportFl arith53 12 0 box (fun r => (m' r).ub 0) = some eps ∧ 0 ≤ eps ∧ eps ≤ 1 / 25 := by
  have key := C78_as_it_stands (fp := rnd53) (cbrt := fun _ => 2) (sqrt := fun n => min 2 n) (P := 12)
    (arith53_round (2 ^ 180)) (arith53_trig (2 ^ 180)) (by positivity) le_rfl ⟨by norm_num, rounding53.rel⟩ (by norm_num)
    (by norm_num) (by norm_num) (by intro n h1 h2; omega)
  obtain ⟨p, box, f, h1, h2, h3⟩ := key
  refine ⟨p, box, f, ?_, h2, h3⟩
  have e1 : Simple.divisorFrom 12 2 = some 2 := by rw [Simple.divisorFrom]; norm_num
  rw [← h1]
  simp [Simple.procs, e1]

end FftMpi
