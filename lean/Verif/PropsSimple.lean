import Verif.Lifecycle
import Verif.SimpleRound
import Verif.PropsDriverRun
import Verif.PropsFftInt

/-!
# C64: the sample programs
-/

noncomputable section

namespace FftMpi

open Driver

variable {fp : ℝ → ℝ}

/-! ## The processor grid -/

/-- **C64 (factors).**  Whatever the rounding of `pow` and `sqrt`, as long as the integers they are cut to lie between
1 and their argument: the three factors multiply to the number of ranks; the first is the least divisor that is not
below `(int) pow(nprocs,1.0/3.0)`, the second the least divisor of the rest not below `(int) sqrt(rest)`. -/
theorem C64_factors {cbrt sqrt : Nat → Nat} {P : Nat} (hP : 0 < P) (hc : 1 ≤ cbrt P ∧ cbrt P ≤ P)
    (hs : ∀ n, 1 ≤ n → n ≤ P → 1 ≤ sqrt n ∧ sqrt n ≤ n) :
    ∃ p, Simple.procs cbrt sqrt P = some p ∧ p.1 * p.2.1 * p.2.2 = P ∧
      IsLeast {d | cbrt P ≤ d ∧ d ∣ P} p.1 ∧ IsLeast {d | sqrt (P / p.1) ≤ d ∧ d ∣ P / p.1} p.2.1 := by
  obtain ⟨f, e1, l1, d1, m1⟩ := Simple.divisorFrom_ok hc.1 hc.2
  have f0 : 0 < f := by omega
  have q0 : 1 ≤ P / f := Nat.div_pos (Nat.le_of_dvd hP d1) f0
  obtain ⟨s1, s2⟩ := hs (P / f) q0 (Nat.div_le_self P f)
  obtain ⟨g, e2, l2, d2, m2⟩ := Simple.divisorFrom_ok s1 s2
  refine ⟨(f, g, P / f / g), ?_, ?_, ⟨⟨l1, d1⟩, fun d hd => m1 d hd.1 hd.2⟩, ⟨⟨l2, d2⟩, fun d hd => m2 d hd.1 hd.2⟩⟩
  · unfold Simple.procs
    rw [e1, Option.bind_some, if_neg (by omega), e2, Option.bind_some, if_neg (by omega)]
  · show f * g * (P / f / g) = P
    rw [mul_assoc, Nat.mul_div_cancel' d2, Nat.mul_div_cancel' d1]

/-- If `pow(64,1.0/3.0)` comes out below 4, as it does in double precision, 64 ranks are still arranged as 4x4x4. -/
example : Simple.procs (fun _ => 3) (fun _ => 4) 64 = some (4, 4, 4) := by
  have e1 : Simple.divisorFrom 64 3 = some 4 := by
    rw [Simple.divisorFrom, Simple.divisorFrom]; norm_num
  have e2 : Simple.divisorFrom 16 4 = some 4 := by
    rw [Simple.divisorFrom]; norm_num
  simp [Simple.procs, e1, e2]

/-- Five ranks end up in a row. -/
example : Simple.procs (fun _ => 1) (fun _ => 2) 5 = some (1, 5, 1) := by
  have e1 : Simple.divisorFrom 5 1 = some 1 := by
    rw [Simple.divisorFrom]; norm_num
  have e2 : Simple.divisorFrom 5 2 = some 5 := by
    rw [Simple.divisorFrom, Simple.divisorFrom, Simple.divisorFrom, Simple.divisorFrom]; norm_num
  simp [Simple.procs, e1, e2]

/-! ## The bricks -/

/-- Sizes for which simple.cpp works: supported by the library, and such that the products in the expressions for the
bricks fit an `int`. -/
def Simple.Size (P n : Nat) : Prop := Supported n ∧ P * n ≤ 2147483647

theorem Simple.Size.lt {P n : Nat} (hP : 0 < P) (h : Simple.Size P n) : 0 < n ∧ n < 2 ^ 31 := by
  have h1 := h.1.1
  have h2 := h.2
  have : n ≤ P * n := Nat.le_mul_of_pos_left n hP
  omega

theorem Simple.args_valid {P n1 n2 n3 : Nat} (R : FpOK P fp) (hP : 0 < P) (h1 : Supported n1 ∧ n1 < 2 ^ 31)
    (h2 : Supported n2 ∧ n2 < 2 ^ 31) (h3 : Supported n3 ∧ n3 < 2 ^ 31) {p : Nat × Nat × Nat}
    (hp : p.1 * p.2.1 * p.2.2 = P) {box : Nat → Box3} (hb : ∀ r < P, box r = gridBox p n1 n2 n3 r) :
    (Simple.args fp n1 n2 n3 box).Valid P := by
  have T := gridBox_tiles hp hP n1 n2 n3
  have T' : Tiles3 P box n1 n2 n3 := by
    refine ⟨?_, ?_, ?_⟩
    · intro a ha i j k hh
      rw [hb a ha] at hh
      exact T.inside a ha i j k hh
    · intro i j k hi hj hk
      obtain ⟨a, ha, hh⟩ := T.owner i j k hi hj hk
      exact ⟨a, ha, by rw [hb a ha]; exact hh⟩
    · intro a ha b hb' i j k k1 k2
      rw [hb a ha] at k1
      rw [hb b hb'] at k2
      exact T.disjoint a ha b hb' i j k k1 k2
  exact {
    procs := hP
    fast := int_dim h1.1.1 h1.2
    mid := int_dim h2.1.1 h2.2
    slow := int_dim h3.1.1 h3.2
    factors := by
      rintro n (rfl | rfl | rfl) q hq hd
      · exact h1.1.2 q hq (Int.natCast_dvd_natCast.mp hd)
      · exact h2.1.2 q hq (Int.natCast_dvd_natCast.mp hd)
      · exact h3.1.2 q hq (Int.natCast_dvd_natCast.mp hd)
    tilesIn := T'
    tilesOut := T'
    properIn := fun r hr => by
      show (box r).Proper ∧ (box r).Within _ _ _
      rw [hb r hr]
      exact ⟨gridBox_sizes _ _ _ _ _, gridBox_within hp hP _ _ _ hr⟩
    properOut := fun r hr => by
      show (box r).Proper
      rw [hb r hr]
      exact gridBox_sizes _ _ _ _ _
    permute := Or.inl rfl
    round := R }

/-- **C64 (bricks of simple.cpp).**  No overflow, and `setup` gets valid arguments: the bricks tile the grid. -/
theorem C64_bricks {P n1 n2 n3 : Nat} (R : FpOK P fp) (hP : 0 < P) (h1 : Simple.Size P n1) (h2 : Simple.Size P n2)
    (h3 : Simple.Size P n3) {p : Nat × Nat × Nat} (hp : p.1 * p.2.1 * p.2.2 = P) :
    ∃ box : Nat → Box3, (∀ r < P, Simple.box p n1 n2 n3 r = some (box r)) ∧
      (Simple.args fp n1 n2 n3 box).Valid P := by
  refine ⟨gridBox p n1 n2 n3, fun r hr => Simple.box_eq hp hP ⟨(h1.lt hP).1, h1.2⟩ ⟨(h2.lt hP).1, h2.2⟩
    ⟨(h3.lt hP).1, h3.2⟩ hr, ?_⟩
  exact Simple.args_valid R hP ⟨h1.1, (h1.lt hP).2⟩ ⟨h2.1, (h2.lt hP).2⟩ ⟨h3.1, (h3.lt hP).2⟩ hp fun _ _ => rfl

/-- **C64 (bricks, limit).**  The limit on the size is needed: if all ranks are in one row and the number of ranks times
the size does not fit an `int`, some rank computes its brick with an overflow. -/
theorem C64_bricks_limit {P n1 n2 n3 : Nat} (hP : 0 < P) (hP' : P < 2147483648) (hn : 0 < n1)
    (h : 2147483647 < P * n1) : ∃ r < P, Simple.box (P, 1, 1) n1 n2 n3 r = none := by
  by_contra hc
  have hc' : ∀ r < P, Simple.box (P, 1, 1) n1 n2 n3 r ≠ none := fun r hr he => hc ⟨r, hr, he⟩
  refine absurd ((C49_bounds_iff hn hP hP').mp fun ip hip => ?_) (by omega)
  have h1 := hc' ip hip
  have g := gridCoords32_eq (np := (P, 1, 1)) (P := P) (by simp) hP (by omega) hip
  have g1 : (gridCoords (P, 1, 1) ip).1 = ip := by simp [gridCoords, Nat.mod_eq_of_lt hip]
  unfold Simple.box at h1
  rw [g] at h1
  simp only [Option.bind_eq_bind, Option.bind_some, g1] at h1
  rcases e1 : blockLo32 (ip : Int) (n1 : Int) (P : Int) with _ | lo
  · rw [e1] at h1; exact absurd rfl h1
  rcases e2 : blockHi32 (ip : Int) (n1 : Int) (P : Int) with _ | hi
  · rw [e1, e2] at h1; exact absurd rfl h1
  exact ⟨lo, hi, rfl, rfl⟩

/-- **C64 (bricks of simple.py).**  Double precision gives the same bricks. -/
theorem C64_bricks_py {rnd : ℝ → ℝ} (R : Rounding rnd) {P n1 n2 n3 : Nat} (hP : 0 < P)
    (h1 : Supported n1 ∧ n1 < 2 ^ 31 ∧ P * n1 < 2 ^ 53) (h2 : Supported n2 ∧ n2 < 2 ^ 31 ∧ P * n2 < 2 ^ 53)
    (h3 : Supported n3 ∧ n3 < 2 ^ 31 ∧ P * n3 < 2 ^ 53) {p : Nat × Nat × Nat} (hp : p.1 * p.2.1 * p.2.2 = P) :
    (Simple.args rnd n1 n2 n3 (Simple.boxPy rnd p n1 n2 n3)).Valid P := by
  have k1 := h1.1.1; have k2 := h2.1.1; have k3 := h3.1.1
  exact Simple.args_valid ⟨(Nat.le_mul_of_pos_right _ (by omega : 0 < n1)).trans (h1.2.2.le.trans (by norm_num)), R.rel⟩ hP
    ⟨h1.1, h1.2.1⟩ ⟨h2.1, h2.2.1⟩ ⟨h3.1, h3.2.1⟩ hp fun r hr =>
    box3_eq R hp hP ⟨by omega, h1.2.2⟩ ⟨by omega, h2.2.2⟩ ⟨by omega, h3.2.2⟩ hr

/-- A box counted from one, as the Fortran interface gets it, for the library: fft3d_wrap.cpp subtracts one. -/
def Simple.fromOne (b : Box3) : Box3 := ⟨b.ilo - 1, b.ihi - 1, b.jlo - 1, b.jhi - 1, b.klo - 1, b.khi - 1⟩

/-- **C64 (bricks of simple_f90.f90, partial).**  Single precision gives the same bricks, counted from one.  Missing:
sizes for which the number of ranks times the size exceeds `2^22`, see `C64_single_false`. -/
theorem C64_bricks_f90_partial {rnd : ℝ → ℝ} (R : Simple.Single rnd) {P n1 n2 n3 : Nat} (R' : FpOK P fp)
    (hP : 0 < P)
    (h1 : Supported n1 ∧ P * n1 ≤ 2 ^ 22) (h2 : Supported n2 ∧ P * n2 ≤ 2 ^ 22) (h3 : Supported n3 ∧ P * n3 ≤ 2 ^ 22)
    {p : Nat × Nat × Nat} (hp : p.1 * p.2.1 * p.2.2 = P) :
    (Simple.args fp n1 n2 n3 fun r => Simple.fromOne (Simple.boxF rnd p n1 n2 n3 r)).Valid P := by
  have k1 := h1.1.1; have k2 := h2.1.1; have k3 := h3.1.1
  have l : ∀ {n : Nat}, P * n ≤ 2 ^ 22 → n < 2 ^ 31 := fun {n} h => by
    have : n ≤ P * n := Nat.le_mul_of_pos_left n hP
    omega
  refine Simple.args_valid R' hP ⟨h1.1, l h1.2⟩ ⟨h2.1, l h2.2⟩ ⟨h3.1, l h3.2⟩ hp fun r hr => ?_
  rw [Simple.boxF_eq R hp hP ⟨k1, by omega⟩ ⟨k2, by omega⟩ ⟨k3, by omega⟩ hr]
  simp [Simple.fromOne]

/-- simple_f90.f90 as it stands, 128 points in each direction, on 12 ranks, with rounding to 24 binary digits. -/
example : Simple.Single Simple.rnd24 ∧ 12 * 128 ≤ 2 ^ 22 := ⟨Simple.single24, by norm_num⟩

/-- **C64 fails in single precision for large sizes.**  With 16 ranks in a row and 1118481 points the last rank but one
ends with point 1048575 and the last begins with point 1048577: nobody has point 1048576.  (The size is chosen for a
short proof; the library rejects it, because 7 divides it.) -/
theorem C64_single_false : Simple.hiF Simple.rnd24 14 1118481 16 = 1048575 ∧
    Simple.loF Simple.rnd24 15 1118481 16 = 1048577 := by
  have e1 : Simple.rnd24 (((14 + 1 : Nat)) : ℝ) = 15 := by
    rw [Simple.single24.nat (by norm_num)]; norm_num
  have e2 : Simple.rnd24 ((1118481 : Nat) : ℝ) = 1118481 := by
    rw [Simple.single24.nat (by norm_num)]; norm_num
  have e3 : Simple.rnd24 ((16 : Nat) : ℝ) = 16 := by
    rw [Simple.single24.nat (by norm_num)]; norm_num
  have e4 : Simple.rnd24 (15 * 1118481) = 16777215 := by
    have := Simple.single24.nat (n := 16777215) (by norm_num)
    norm_num at this ⊢
    exact this
  have e5 : Simple.rnd24 (16777215 / 16) = 16777215 / 16 := by
    rw [Simple.rnd24_eq (e := 19) (z := 16777215)] <;> norm_num [abs_of_pos]
  have e6 : Simple.rnd24 (16777215 / 16 + 1) = 1048577 := by
    rw [Simple.rnd24_eq (e := 20) (z := 8388616)] <;> norm_num [abs_of_pos]
  unfold Simple.hiF Simple.loF
  rw [e1, e2, e3, e4, e5]
  rw [e6]
  constructor
  · rw [Int.floor_eq_iff]; norm_num
  · rw [Int.floor_eq_iff]; norm_num

/-! ## The run -/

/-- **C64 (settings).**  The transforms of the theorems below have the settings of a new `FFT3d` object: the programs
assign none of them. -/
theorem C64_settings (z : TypeSizes) (h : Heap) : (FftLife.create .d3 z h).1.t.st = Simple.settings := rfl

/-- **C64.**  In exact arithmetic simple.cpp (`first = 0`) and simple_f90.f90 (`first = 1`) terminate on any number
of ranks and under every schedule, and print the difference zero.  No condition on the buffers or the layouts is
needed beyond what `setup` asks for, since input and output layout are the same.  (`2*count+1` fits an `int`: the
counter of the loop.) -/
theorem C64_run {P n1 n2 n3 : Nat} {box : Nat → Box3} (hv : (Simple.args fp n1 n2 n3 box).Valid P)
    (hs : ∀ r < P, 2 * (box r).count + 1 ≤ 2147483647) {first : Int} (hf : first = 0 ∨ first = 1) {f : Nat → Fft3 ℝ}
    (S : SetUp3 P (Simple.args fp n1 n2 n3 box) Simple.settings f) (e : Bool) (J J' : Nat → Nat → Junk)
    {m : Nat → LMem ℝ} (hb : Bufs P f 0 m) :
    ∃ m', Terminates e P (fun r => Simple.run first (box r) (f r) (J r) (J' r)) m m' ∧
      Simple.report P first box (fun r => (m' r).ub 0) = some 0 := by
  have hb3 : ∀ r < P, (box r).Proper := fun r hr => (hv.properIn r hr).1
  have hsz : ∀ r < P, 0 ≤ (box r).count ∧ (box r).count ≤ fsz f r := by
    generalize ha : Simple.args fp n1 n2 n3 box = a at S
    have hbox : box = a.ins := by rw [← ha]; rfl
    subst hbox
    generalize Simple.settings = st at S
    obtain ⟨c, rfl, rfl, rfl, _, R⟩ := S.ready
    exact fun r hr => ⟨count_nonneg _, R.size_ins hr⟩
  obtain ⟨m1, s1, v1⟩ := fillStep e (size := fsz f) (m := m) hsz hb.data
    fun r hr => Simple.fill_fills hf (hb3 r hr) (hs r hr)
  obtain ⟨m2, s2, v2⟩ := pass3 S e J J' false v1 (hb.congr s1.dom) (Or.inl rfl)
  obtain ⟨eps, r1, _, _, r4⟩ := eps_all hv.procs v2 fun r hr => Simple.diff_checks hf (hb3 r hr) (hs r hr)
  refine ⟨m2, ((s1.append s2).congr fun r _ => rfl).ok.terminates, ?_⟩
  have e0 : eps = 0 := by
    rcases r4 with h | ⟨r, hr, x, hx0, hx1, h⟩
    · exact h
    · have k := passFactor_one (N := (Simple.args fp n1 n2 n3 box).N) (rflag := false)
        (out := (box r).count) (cnt := (box r).count) (n := 1) (Or.inr (Or.inr le_rfl)) hx1
      rw [pow_one] at k
      rw [h]
      show |passFactor _ _ (box r).count x * _ - _| = 0
      rw [k, one_mul, sub_self, abs_zero]
  rw [e0] at r1
  exact r1

/-- **C64 (everything together for simple.cpp).**  From the number of ranks to the printed number. -/
theorem C64_simple {cbrt sqrt : Nat → Nat} {P n1 n2 n3 : Nat} (R : FpOK P fp) (hP : 0 < P) (hc : 1 ≤ cbrt P ∧ cbrt P ≤ P)
    (hs : ∀ n, 1 ≤ n → n ≤ P → 1 ≤ sqrt n ∧ sqrt n ≤ n) (h1 : Simple.Size P n1) (h2 : Simple.Size P n2)
    (h3 : Simple.Size P n3) (hN : 2 * (n1 * n2 * n3) < 2147483647) :
    ∃ (p : Nat × Nat × Nat) (box : Nat → Box3) (f : Nat → Fft3 ℝ), Simple.procs cbrt sqrt P = some p ∧
      (∀ r < P, Simple.box p n1 n2 n3 r = some (box r)) ∧
      (∀ r < P, fft3Setup P r (Simple.args fp n1 n2 n3 box) Simple.settings = some (.ok (f r))) ∧
      ∀ (e : Bool) (J J' : Nat → Nat → Junk) (m : Nat → LMem ℝ), Bufs P f 0 m →
        ∃ m', Terminates e P (fun r => Simple.run 0 (box r) (f r) (J r) (J' r)) m m' ∧
          Simple.report P 0 box (fun r => (m' r).ub 0) = some 0 := by
  obtain ⟨p, e1, hp, _, _⟩ := C64_factors hP hc hs
  obtain ⟨box, e2, hv⟩ := C64_bricks R hP h1 h2 h3 hp
  obtain ⟨f, S⟩ := setUp3_exists (st := Simple.settings) hv (by simp [Settings.Valid, Simple.settings])
  refine ⟨p, box, f, e1, e2, S.result, fun e J J' m hb => C64_run hv ?_ (Or.inl rfl) S e J J' hb⟩
  intro r hr
  have k : (box r).count ≤ n1 * n2 * n3 := Simple.count_le (hv.properIn r hr).1 (hv.properIn r hr).2
  have : ((n1 * n2 * n3 : Nat) : Int) = (n1 : Int) * n2 * n3 := by push_cast; ring
  omega

theorem Simple.supported_128 : Supported 128 :=
  ⟨by norm_num, fun p hp hd => Or.inl (by
    have : p ∣ 2 ^ 7 := by simpa using hd
    exact (Nat.prime_dvd_prime_iff_eq hp Nat.prime_two).mp (hp.dvd_of_dvd_pow this))⟩

/-- **C64 (simple.cpp as it stands, with `int` arithmetic).**  On a grid of 128 x 128 x 128 points, with up to 16777215
ranks, no `int` operation of the program or the library overflows, `setup` succeeds on all ranks, the program
terminates under every schedule and prints zero (in exact arithmetic).  `sz` is the size of a scalar, 4 or 8. -/
theorem C64_as_it_stands {cbrt sqrt : Nat → Nat} {P : Nat} (R : FpOK P fp) (hP : 0 < P) (hP' : P ≤ 16777215)
    (hc : 1 ≤ cbrt P ∧ cbrt P ≤ P) (hs : ∀ n, 1 ≤ n → n ≤ P → 1 ≤ sqrt n ∧ sqrt n ≤ n) {sz : Int} (hz : sz = 4 ∨ sz = 8) :
    ∃ (p : Nat × Nat × Nat) (box : Nat → Box3) (f : Nat → Fft3 ℝ), Simple.procs cbrt sqrt P = some p ∧
      (∀ r < P, Simple.box p 128 128 128 r = some (box r)) ∧
      (∀ r < P, fft3Setup32 sz P r (Simple.args fp 128 128 128 box) Simple.settings = some (.ok (f r))) ∧
      ∀ (e : Bool) (J J' : Nat → Nat → Junk) (m : Nat → LMem ℝ), Bufs P f 0 m →
        ∃ m', Terminates e P (fun r => Simple.run32 0 (box r) (f r) (J r) (J' r)) m m' ∧
          Simple.report P 0 box (fun r => (m' r).ub 0) = some 0 := by
  have hsz : Simple.Size P 128 := ⟨Simple.supported_128, by omega⟩
  obtain ⟨p, e1, hp, _, _⟩ := C64_factors hP hc hs
  obtain ⟨box, e2, hv⟩ := C64_bricks R hP hsz hsz hsz hp
  have hst : Simple.settings.Valid := by simp [Settings.Valid, Simple.settings]
  have d : ∀ n, (n = (Simple.args fp 128 128 128 box).nfast ∨ n = (Simple.args fp 128 128 128 box).nmid ∨
      n = (Simple.args fp 128 128 128 box).nslow) → n = 128 := by
    rintro n (rfl | rfl | rfl) <;> rfl
  have hsm : (Simple.args fp 128 128 128 box).Small sz P Simple.settings.exchange := by
    refine ⟨Args3.SmallBoxes.of_grid (by omega) hv (by unfold int32Max; omega)
      (by norm_num [int32Max, Simple.args]) ?_ (fun r hr => (hv.properIn r hr).2) _, ?_⟩
    · intro n hn
      rw [d n hn]
      unfold int32Max
      omega
    · intro n hn
      rw [d n hn]
      unfold int32Max
      omega
  have key : ∀ r, ∃ g : Fft3 ℝ × Fft3 ℝ, r < P →
      fft3Setup P r (Simple.args fp 128 128 128 box) Simple.settings = some (.ok g.1) ∧
      fft3Setup32 sz P r (Simple.args fp 128 128 128 box) Simple.settings = some (.ok g.2) ∧
      (g.2.fftsize = g.1.fftsize ∧ g.2.sendsize = g.1.sendsize ∧ g.2.recvsize = g.1.recvsize) ∧
      ∀ J scaled remaponly flag ai ao,
        g.2.compute32 J scaled remaponly flag ai ao = g.1.compute J scaled remaponly flag ai ao := by
    intro r
    by_cases hr : r < P
    · obtain ⟨f, f', h1, h2, ⟨_, _, h3⟩, h4, _⟩ := C49_partial hsm hv hst r hr
      exact ⟨(f, f'), fun _ => ⟨h1, h2, h3, h4⟩⟩
    · obtain ⟨f, f', _⟩ := C49_partial hsm hv hst 0 hP
      exact ⟨(f, f'), fun h => absurd h hr⟩
  choose g hg using key
  have S : SetUp3 P (Simple.args fp 128 128 128 box) Simple.settings fun r => (g r).1 :=
    ⟨hv, hst, fun r hr => (hg r hr).1⟩
  refine ⟨p, box, fun r => (g r).2, e1, e2, fun r hr => (hg r hr).2.1, fun e J J' m hb => ?_⟩
  obtain ⟨m', t, h⟩ := C64_run hv (fun r hr => by
    have k : (box r).count ≤ (128 : Nat) * (128 : Nat) * (128 : Nat) :=
      Simple.count_le (hv.properIn r hr).1 (hv.properIn r hr).2
    norm_num at k
    omega) (Or.inl rfl) S e J J' (m := m) (hb.like fun r hr => ((hg r hr).2.2.1))
  refine ⟨m', t.congr fun r hr => ?_, h⟩
  unfold Simple.run32 Simple.run
  rw [(hg r hr).2.2.2, (hg r hr).2.2.2]

/-- simple.cpp as it stands: 128 points in each direction, on 12 ranks. -/
example : Simple.Size 12 128 ∧ 2 * (128 * 128 * 128) < 2147483647 :=
  ⟨⟨Simple.supported_128, by norm_num⟩, by norm_num⟩

/-! ## simple.py -/

/-- **C64 (simple.py).**  The Python program prints the difference of rank 0. -/
theorem C64_py_rank0 {P : Nat} (hP : 0 < P) {box : Nat → Box3} {w : Nat → Mem ℝ}
    (hb : ∀ r < P, (box r).Proper ∧ 2 * (box r).count + 1 ≤ 2147483647)
    (hw : ∀ r < P, accessible (w r) 0 (2 * (box r).count)) :
    ∃ x y, Simple.reportPy P box w = some x ∧ Simple.report P 0 box w = some y ∧
      Simple.diff 0 (box 0) (w 0) = some x ∧ x ≤ y := by
  have h : ∀ r, ∃ y, r < P → Simple.diff 0 (box r) (w r) = some y := by
    intro r
    by_cases hr : r < P
    · obtain ⟨y, hy, _⟩ := Simple.diff_checks (Or.inl rfl) (hb r hr).1 (hb r hr).2 (w r) (fun x => (w r x).getD 0) (by
        intro x h0 h1
        obtain ⟨v, hv⟩ := Option.isSome_iff_exists.mp (hw r hr x (by omega) (by omega))
        rw [hv]
        rfl)
      exact ⟨y, fun _ => hy⟩
    · exact ⟨0, fun h => absurd h hr⟩
  choose y hy using h
  obtain ⟨z, e1, e2, _⟩ := epsmax_ok hP (eps := fun r => Simple.diff 0 (box r) (w r)) (v := y) hy
  refine ⟨y 0, z, ?_, e1, hy 0 hP, e2 0 hP⟩
  unfold Simple.reportPy
  rw [show Simple.report P 0 box w = some z from e1, Option.bind_some, hy 0 hP]

/-- **C64 fails for simple.py**: with two ranks, one point each and a wrong value on rank 1, the maximum over the ranks
is 5, but the program prints 0. -/
theorem C64_py_false : ∃ (box : Nat → Box3) (w : Nat → Mem ℝ), Tiles3 2 box 2 1 1 ∧
    Simple.report 2 0 box w = some 5 ∧ Simple.reportPy 2 box w = some 0 := by
  let box : Nat → Box3 := fun r => ⟨r, r, 0, 0, 0, 0⟩
  let w : Nat → Mem ℝ := fun r x => if x = 0 then some (5 * r) else if x = 1 then some 1 else none
  have hp : ∀ r, (box r).Proper := fun r => by
    simp only [box, Box3.Proper, Box3.isize, Box3.jsize, Box3.ksize]; omega
  have hc : ∀ r, (box r).count = 1 := fun r => by
    simp [box, Box3.count, Box3.isize, Box3.jsize, Box3.ksize]
  have hd : ∀ r, Simple.diff 0 (box r) (w r) = some (5 * (r : ℝ)) := by
    intro r
    have e1 : add32 0 1 = some 1 := rfl
    have e2 : add32 1 1 = some 2 := rfl
    unfold Simple.diff
    rw [Simple.nest_times (hp r), hc]
    simp only [Int.toNat_one, Simple.times, Option.bind_some, Simple.diff1, sub_self, sub_zero, e1, e2, w, if_true,
      Option.map_some, one_ne_zero, if_false, Int.cast_zero, Int.cast_one, abs_zero, worse_eq]
    have h5 : (0 : ℝ) ≤ 5 * r := by positivity
    rw [abs_of_nonneg h5, max_eq_left h5, max_eq_right h5]
  refine ⟨box, w, ⟨?_, ?_, ?_⟩, ?_, ?_⟩
  · rintro a ha i j k ⟨h1, h2, h3⟩
    simp only [box] at h1 h2 h3
    omega
  · intro i j k hi hj hk
    refine ⟨i.toNat, by omega, ?_⟩
    simp only [box, Box3.Has]
    omega
  · rintro a ha b hb i j k ⟨h1, _⟩ ⟨h2, _⟩
    simp only [box] at h1 h2
    omega
  · unfold Simple.report
    simp [epsmax, hd]
  · unfold Simple.reportPy Simple.report
    simp [epsmax, hd]

end FftMpi
