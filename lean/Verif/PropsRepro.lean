import Verif.PropsFftErr
import Verif.PropsFftErr2
import Verif.PropsFft3dBad

/-!
# Property C57: the rounded results do not depend on how the work is distributed

No assumption on the arithmetic is made but that every operation is a function of its operands.
-/

noncomputable section

namespace FftMpi

open Complex

/-- The arguments describe a grid of these dimensions. -/
def Args3.Dims (a : Args3) (n1 n2 n3 : Int) : Prop := a.nfast = n1 ∧ a.nmid = n2 ∧ a.nslow = n3

/-- The arguments describe a plane of these dimensions. -/
def Args2.Dims (a : Args2) (n1 n2 : Int) : Prop := a.nfast = n1 ∧ a.nslow = n2

/-- **C57, forward.**  For every arithmetic, all dimensions and all data there is one grid of numbers `Y` such that
`compute(data,data,1)` leaves exactly the numbers `Y` in the arrays: on any number of ranks, for all input and output
layouts and permutations, all settings, all contents of the temporaries, all schedules. -/
theorem C57_reproducible (ar : Arith) (n1 n2 n3 : Int) (X : Grid3) : ∃ Y : Grid3,
    ∀ (P : Nat) (a : Args3) (st : Settings) (f : Nat → Fft3 ℝ) (e : Bool) (J : Nat → Nat → Junk) (scaled : Bool)
      (n : Nat) (m : Nat → LMem ℝ), a.Dims n1 n2 n3 → SetUp3F ar P a st f → Holds P 0 a.ins n X m → Bufs P f n m →
      ∃ m', Terminates e P (fun r => (f r).computeF ar (J r) scaled false 1 n n) m m' ∧
        Holds P a.permute a.outs n Y m' := by
  refine ⟨lines3 (kissLine ar n1.toNat false) (kissLine ar n2.toNat false) (kissLine ar n3.toNat false) X, ?_⟩
  rintro P a st f e J scaled n m ⟨rfl, rfl, rfl⟩ S hX hb
  obtain ⟨g, Sg, hg⟩ := S.exact
  obtain ⟨c, rfl, rfl, rfl, _, Rd⟩ := Sg.ready
  obtain ⟨m', s, h⟩ := Rd.computeF_fwd e hg J scaled hX
    (hb.like fun r hr => ⟨(hg r hr).fftsize, (hg r hr).sendsize, (hg r hr).recvsize⟩)
  exact ⟨m', s.ok.terminates, h⟩

/-- The backward transform takes the path of the forward transform: input and output layout are the same on all
ranks, and `permute` is 0. -/
def Args3.Same (a : Args3) (P : Nat) : Prop := a.permute = 0 ∧ ∀ r < P, a.ins r = a.outs r

/-- The two grids of the theorem below. -/
theorem back_grids (ar : Arith) (n1 n2 n3 : Int) (scaled : Bool) (X : Grid3)
    (P : Nat) (a : Args3) (st : Settings) (f : Nat → Fft3 ℝ) (e : Bool) (J : Nat → Nat → Junk)
    (n : Nat) (m : Nat → LMem ℝ) (hd : a.Dims n1 n2 n3) (S : SetUp3F ar P a st f)
    (hX : Holds P a.permute a.outs n X m) (hb : Bufs P f n m) (hr : RoomBack P a st m)
    (hc : scaled = true → ∀ r < P, (a.ins r).count ≤ (a.outs r).count) :
    ∃ m', Terminates e P (fun r => (f r).computeF ar (J r) scaled false (-1) n n) m m' ∧
      (a.Same P → Holds P 0 a.ins n (Ready.scaleF ar scaled (n1 * n2 * n3)
        (lines3 (kissLine ar n1.toNat true) (kissLine ar n2.toNat true) (kissLine ar n3.toNat true) X)) m') ∧
      (¬ a.Same P → Holds P 0 a.ins n (Ready.scaleF ar scaled (n1 * n2 * n3)
        (lines3Inv (kissLine ar n1.toNat true) (kissLine ar n2.toNat true) (kissLine ar n3.toNat true) X)) m') := by
  obtain ⟨rfl, rfl, rfl⟩ := hd
  obtain ⟨g, Sg, hg⟩ := S.exact
  obtain ⟨c, rfl, rfl, rfl, _, Rd⟩ := Sg.ready
  obtain ⟨m', s, h⟩ := Rd.backF e hg J scaled hX
    (hb.like fun r hr => ⟨(hg r hr).fftsize, (hg r hr).sendsize, (hg r hr).recvsize⟩)
    hr hc
  refine ⟨m', s.ok.terminates, fun hs => ?_, fun hs => ?_⟩
  · rw [Ready.gridBack, if_pos (inoutSame_of hs.1 hs.2)] at h
    exact h
  · rw [Ready.gridBack, if_neg fun h0 => hs (Rd.same_layout h0)] at h
    exact h

/-- **C57, backward.**  There are two grids, `Y` for objects with the same layout for input and output and `Y'`
for the others; nothing else matters.  Missing with respect to the property: the grids may differ (see
`C57_false`), and `RoomBack`; with scaling also the condition on the numbers of points. -/
theorem C57_reproducible_back_partial (ar : Arith) (n1 n2 n3 : Int) (scaled : Bool) (X : Grid3) : ∃ Y Y' : Grid3,
    ∀ (P : Nat) (a : Args3) (st : Settings) (f : Nat → Fft3 ℝ) (e : Bool) (J : Nat → Nat → Junk)
      (n : Nat) (m : Nat → LMem ℝ), a.Dims n1 n2 n3 → SetUp3F ar P a st f → Holds P a.permute a.outs n X m →
      Bufs P f n m → RoomBack P a st m →
      (scaled = true → ∀ r < P, (a.ins r).count ≤ (a.outs r).count) →
      ∃ m', Terminates e P (fun r => (f r).computeF ar (J r) scaled false (-1) n n) m m' ∧
        (a.Same P → Holds P 0 a.ins n Y m') ∧ (¬ a.Same P → Holds P 0 a.ins n Y' m') :=
  ⟨_, _, back_grids ar n1 n2 n3 scaled X⟩

/-- Example: the 2 x 2 x 4 grid on 2 ranks with two choices of `permute` and any settings: the same numbers. -/
example (st st' : Settings) (hst : st.Valid) (hst' : st'.Valid) (J : Nat → Nat → Junk) (X : Grid3) :
    ∃ f f', SetUp3F arith53 2 (demo3 1) st f ∧ SetUp3F arith53 2 (demo3 2) st' f' ∧
    ∃ m1 m2 m1' m2' Y, Holds 2 0 (demo3 1).ins 0 X m1 ∧ Holds 2 0 (demo3 2).ins 0 X m2 ∧
      Terminates true 2 (fun r => (f r).computeF arith53 (J r) true false 1 0 0) m1 m1' ∧
      Terminates true 2 (fun r => (f' r).computeF arith53 (J r) true false 1 0 0) m2 m2' ∧
      Holds 2 1 (demo3 1).outs 0 Y m1' ∧ Holds 2 2 (demo3 2).outs 0 Y m2' := by
  obtain ⟨f, S⟩ := setUp3F_exists arith53 (demo3_valid 1 (by decide)) hst
  obtain ⟨f', S'⟩ := setUp3F_exists arith53 (demo3_valid 2 (by decide)) hst'
  obtain ⟨g, Sg, hg⟩ := S.exact
  obtain ⟨g', Sg', hg'⟩ := S'.exact
  obtain ⟨m1, h1⟩ := Sg.mem_in X
  obtain ⟨m2, h2⟩ := Sg'.mem_in X
  obtain ⟨Y, hY⟩ := C57_reproducible arith53 2 2 4 X
  obtain ⟨m1', k1, k2⟩ := hY 2 (demo3 1) st f true J true 0 m1 ⟨rfl, rfl, rfl⟩ S (h1 0).1 ((h1 0).2.like fun r hr =>
    ⟨(hg r hr).fftsize.symm, (hg r hr).sendsize.symm, (hg r hr).recvsize.symm⟩)
  obtain ⟨m2', k3, k4⟩ := hY 2 (demo3 2) st' f' true J true 0 m2 ⟨rfl, rfl, rfl⟩ S' (h2 0).1 ((h2 0).2.like fun r hr =>
    ⟨(hg' r hr).fftsize.symm, (hg' r hr).sendsize.symm, (hg' r hr).recvsize.symm⟩)
  exact ⟨f, f', S, S', m1, m2, m1', m2', Y, (h1 0).1, (h2 0).1, k1, k3, k2, k4⟩

/-! ## 2d -/

/-- **C57, 2d forward.** -/
theorem C57_reproducible2 (ar : Arith) (n1 n2 : Int) (X : Grid2) : ∃ Y : Grid2,
    ∀ (w : Int) (P : Nat) (a : Args2) (st : Settings) (f : Nat → Fft2 ℝ) (e : Bool) (J : Nat → Nat → Junk)
      (scaled : Bool) (n : Nat) (m : Nat → LMem ℝ), a.Dims n1 n2 → SetUp2F ar w P a st f → Holds2 P 0 a.ins n X m →
      Bufs2 P f n m →
      ∃ m', Terminates e P (fun r => (f r).computeF ar (J r) scaled false 1 n n) m m' ∧
        Holds2 P a.permute a.outs n Y m' := by
  refine ⟨lineAlong2 1 (kissLine ar n2.toNat false) (lineAlong2 0 (kissLine ar n1.toNat false) X), ?_⟩
  rintro w P a st f e J scaled n m ⟨rfl, rfl⟩ S hX hb
  obtain ⟨g, Sg, hg⟩ := S.exact
  obtain ⟨c, rfl, rfl, rfl, rfl, _, Rd⟩ := Sg.ready
  obtain ⟨m', s, h⟩ := Rd.computeF_fwd e hg J scaled hX
    (hb.like fun r hr => ⟨(hg r hr).fftsize, (hg r hr).sendsize, (hg r hr).recvsize⟩)
  exact ⟨m', s.ok.terminates, h⟩

/-- Input and output layout are the same. -/
def Args2.Same (a : Args2) (P : Nat) : Prop := a.permute = 0 ∧ ∀ r < P, a.ins r = a.outs r

theorem inoutSame2_of' {P : Nat} {a : Args2} (h : a.Same P) : inoutSame2 P a = true := by
  unfold inoutSame2
  rw [Bool.not_eq_true', allMax_false]
  intro r hr
  simp [h.2 r hr, h.1]

/-- **C57, 2d backward.**  Missing with respect to the property: as for `C57_reproducible_back_partial`, except that
there is no condition on the buffers. -/
theorem C57_reproducible_back2_partial (ar : Arith) (n1 n2 : Int) (scaled : Bool) (X : Grid2) : ∃ Y Y' : Grid2,
    ∀ (w : Int) (P : Nat) (a : Args2) (st : Settings) (f : Nat → Fft2 ℝ) (e : Bool) (J : Nat → Nat → Junk)
      (n : Nat) (m : Nat → LMem ℝ), a.Dims n1 n2 → SetUp2F ar w P a st f → Holds2 P a.permute a.outs n X m →
      Bufs2 P f n m → (scaled = true → ∀ r < P, (a.ins r).count ≤ (a.outs r).count) →
      ∃ m', Terminates e P (fun r => (f r).computeF ar (J r) scaled false (-1) n n) m m' ∧
        (a.Same P → Holds2 P 0 a.ins n Y m') ∧ (¬ a.Same P → Holds2 P 0 a.ins n Y' m') := by
  refine ⟨Ready2.scaleF ar scaled (n1 * n2)
      (lineAlong2 1 (kissLine ar n2.toNat true) (lineAlong2 0 (kissLine ar n1.toNat true) X)),
    Ready2.scaleF ar scaled (n1 * n2)
      (lineAlong2 0 (kissLine ar n1.toNat true) (lineAlong2 1 (kissLine ar n2.toNat true) X)), ?_⟩
  rintro w P a st f e J n m ⟨rfl, rfl⟩ S hX hb hc
  obtain ⟨g, Sg, hg⟩ := S.exact
  obtain ⟨c, rfl, rfl, rfl, rfl, _, Rd⟩ := Sg.ready
  obtain ⟨m', s, h⟩ := Rd.computeF_back e hg J scaled hX
    (hb.like fun r hr => ⟨(hg r hr).fftsize, (hg r hr).sendsize, (hg r hr).recvsize⟩) hc
  refine ⟨m', s.ok.terminates, fun hs => ?_, fun hs => ?_⟩
  · rw [Ready2.gridBack, if_pos (inoutSame2_of' hs)] at h
    exact h
  · rw [Ready2.gridBack, if_neg fun h0 => hs (Rd.same_layout h0)] at h
    exact h

/-- Example: the 2 x 4 plane on 2 ranks, output stored by rows or by columns, with different settings. -/
example (J : Nat → Nat → Junk) (X : Grid2) :
    ∃ f f', SetUp2F arith53 1 2 (plane2 0) ⟨2, 0, 2⟩ f ∧ SetUp2F arith53 1 2 (plane2 1) ⟨0, 0, 0⟩ f' ∧
    ∃ m1 m2 m1' m2' Y, Holds2 2 0 (plane2 0).ins 0 X m1 ∧ Holds2 2 0 (plane2 1).ins 0 X m2 ∧
      Terminates true 2 (fun r => (f r).computeF arith53 (J r) true false 1 0 0) m1 m1' ∧
      Terminates true 2 (fun r => (f' r).computeF arith53 (J r) true false 1 0 0) m2 m2' ∧
      Holds2 2 0 (plane2 0).outs 0 Y m1' ∧ Holds2 2 1 (plane2 1).outs 0 Y m2' := by
  obtain ⟨f, S⟩ := setUp2F_exists arith53 (w := 1) (plane2_valid 0 (by decide)) (st := ⟨2, 0, 2⟩)
    (by simp [Settings.Valid2, FlagOk2])
  obtain ⟨f', S'⟩ := setUp2F_exists arith53 (w := 1) (plane2_valid 1 (by decide)) (st := ⟨0, 0, 0⟩)
    (by simp [Settings.Valid2, FlagOk2])
  obtain ⟨g, Sg, hg⟩ := S.exact
  obtain ⟨g', Sg', hg'⟩ := S'.exact
  obtain ⟨m1, h1⟩ := Sg.mem_in X
  obtain ⟨m2, h2⟩ := Sg'.mem_in X
  obtain ⟨Y, hY⟩ := C57_reproducible2 arith53 2 4 X
  obtain ⟨m1', k1, k2⟩ := hY 1 2 (plane2 0) _ f true J true 0 m1 ⟨rfl, rfl⟩ S (h1 0).1 ((h1 0).2.like fun r hr =>
    ⟨(hg r hr).fftsize.symm, (hg r hr).sendsize.symm, (hg r hr).recvsize.symm⟩)
  obtain ⟨m2', k3, k4⟩ := hY 1 2 (plane2 1) _ f' true J true 0 m2 ⟨rfl, rfl⟩ S' (h2 0).1 ((h2 0).2.like fun r hr =>
    ⟨(hg' r hr).fftsize.symm, (hg' r hr).sendsize.symm, (hg' r hr).recvsize.symm⟩)
  exact ⟨f, f', S, S', m1, m2, m1', m2', Y, (h1 0).1, (h2 0).1, k1, k3, k2, k4⟩

/-! ## The backward transform and its two paths -/

/-- Rounding to a known number. -/
theorem rnd53_eq {x : ℝ} {e z : Int} (h0 : (2 : ℝ) ^ e ≤ |x|) (h1 : |x| < (2 : ℝ) ^ (e + 1))
    (h2 : (z : ℝ) ≤ x / (2 : ℝ) ^ (e - 52) + 1 / 2) (h3 : x / (2 : ℝ) ^ (e - 52) + 1 / 2 < z + 1) :
    rnd53 x = z * (2 : ℝ) ^ (e - 52) := by
  have hp : 0 < |x| := lt_of_lt_of_le (by positivity) h0
  have hl : Int.log 2 |x| = e := by
    apply le_antisymm
    · have := (Int.lt_zpow_iff_log_lt (R := ℝ) (b := 2) (by decide) (x := e + 1) hp).mp (by exact_mod_cast h1)
      omega
    · exact (Int.zpow_le_iff_le_log (R := ℝ) (b := 2) (by decide) (x := e) hp).mp (by exact_mod_cast h0)
  unfold rnd53
  rw [hl]
  have hr : round (x / (2 : ℝ) ^ (e - 52)) = z := by
    rw [round_eq, Int.floor_eq_iff]
    exact ⟨h2, h3⟩
  rw [hr]

theorem rnd53_zero : rnd53 0 = 0 := by simp [rnd53]

theorem rnd53_one : rnd53 1 = 1 := by
  rw [rnd53_eq (e := 0) (z := 2 ^ 52)] <;> norm_num

theorem rnd53_neg_one : rnd53 (-1) = -1 := by
  rw [rnd53_eq (e := 0) (z := -2 ^ 52)] <;> norm_num

/-- The numbers used below. -/
theorem rnd53_small : rnd53 (1 / 2 ^ 55) = 1 / 2 ^ 55 ∧ rnd53 (1 / 2 ^ 54) = 1 / 2 ^ 54 ∧
    rnd53 (1 + 1 / 2 ^ 55) = 1 ∧ rnd53 (-1 + 1 / 2 ^ 55) = -1 := by
  refine ⟨?_, ?_, ?_, ?_⟩
  · rw [rnd53_eq (e := -55) (z := 2 ^ 52)] <;> norm_num
  · rw [rnd53_eq (e := -54) (z := 2 ^ 52)] <;> norm_num
  · rw [rnd53_eq (e := 0) (z := 2 ^ 52)] <;> norm_num [abs_of_pos]
  · rw [rnd53_eq (e := -1) (z := -2 ^ 53)] <;> norm_num [abs_of_neg]

/-- The first output of a transform of length 2. -/
theorem kissLine_two (back : Bool) (x : Nat → ℂ) {p q : ℝ} (h0 : x 0 = p) (h1 : x 1 = q) :
    kissLine arith53 2 back x 0 = (rnd53 (p + rnd53 (rnd53 q)) : ℝ) := by
  have hf : kfFactor 2 = some [(2, 1)] := by decide +kernel
  have ht : arith53.twiddle 2 back 0 = 1 := by
    simp only [Arith.twiddle, arith53, Int.cast_zero, mul_zero, rnd53_zero, zero_div, Real.cos_zero, Real.sin_zero,
      rnd53_one, id]
    rfl
  simp only [kissLine, kissAllocF, hf, Option.map_some, Arith.work, Arith.bfly, if_true, Arith.bf2, KissState.twf,
    Nat.zero_mod, Nat.mul_zero, Nat.zero_mul, Nat.zero_div]
  have hm : (Mem.ofFn 2 (arith53.twiddle 2 back) ((0 : Nat) : Int)).getD 0 = 1 := by
    simp [Mem.ofFn, ht]
  refine (congrArg (fun w => arith53.cadd (x 0) (arith53.cmul (x 1) w)) hm).trans ?_
  rw [h0, h1]
  apply Complex.ext <;>
    simp [Arith.cadd, Arith.cmul, arith53, rnd53_zero]

/-- Data for which the order of the summations matters. -/
def orderX : Grid3 := fun i j k =>
  if k = 0 then (if j = 0 then (if i = 0 then ((1 : ℝ) : ℂ) else ((-1 : ℝ) : ℂ)) else ((1 / 2 ^ 55 : ℝ) : ℂ))
  else ((0 : ℝ) : ℂ)

/-- One rank, the output permuted. -/
def onePerm : Args3 := { oneArgs with permute := 1 }

theorem onePerm_valid : onePerm.Valid 1 := { oneArgs_valid with permute := Or.inr (Or.inl rfl) }

theorem lines3_origin (T : (Nat → ℂ) → Nat → ℂ) (X : Grid3) :
    lines3 T T T X 0 0 0 = T (fun t => T (fun t' => T (fun t'' => X t'' t' t) 0) 0) 0 := rfl

theorem lines3Inv_origin (T : (Nat → ℂ) → Nat → ℂ) (X : Grid3) :
    lines3Inv T T T X 0 0 0 = T (fun t => T (fun t' => T (fun t'' => X t t' t'') 0) 0) 0 := rfl

theorem orderX_fwd : (lines3 (kissLine arith53 2 true) (kissLine arith53 2 true) (kissLine arith53 2 true) orderX)
    0 0 0 = ((1 / 2 ^ 54 : ℝ) : ℂ) := by
  obtain ⟨s1, s2, s3, s4⟩ := rnd53_small
  have h00 : kissLine arith53 2 true (fun t => orderX t 0 0) 0 = ((0 : ℝ) : ℂ) := by
    rw [kissLine_two true _ (p := 1) (q := -1) (by simp [orderX]) (by simp [orderX]), rnd53_neg_one, rnd53_neg_one,
      show (1 : ℝ) + -1 = 0 by norm_num, rnd53_zero]
  have h10 : kissLine arith53 2 true (fun t => orderX t 1 0) 0 = ((1 / 2 ^ 54 : ℝ) : ℂ) := by
    rw [kissLine_two true _ (p := 1 / 2 ^ 55) (q := 1 / 2 ^ 55) (by simp [orderX]) (by simp [orderX]), s1, s1,
      show (1 : ℝ) / 2 ^ 55 + 1 / 2 ^ 55 = 1 / 2 ^ 54 by norm_num, s2]
  have h1 : ∀ j, kissLine arith53 2 true (fun t => orderX t j 1) 0 = ((0 : ℝ) : ℂ) := by
    intro j
    rw [kissLine_two true _ (p := 0) (q := 0) (by simp [orderX]) (by simp [orderX]), rnd53_zero, rnd53_zero,
      add_zero, rnd53_zero]
  have k0 : kissLine arith53 2 true
      (fun t => kissLine arith53 2 true (fun t' => orderX t' t 0) 0) 0 = ((1 / 2 ^ 54 : ℝ) : ℂ) := by
    rw [kissLine_two true _ (p := 0) (q := 1 / 2 ^ 54) (by exact_mod_cast h00) (by exact_mod_cast h10), s2, s2,
      zero_add, s2]
  have k1 : kissLine arith53 2 true
      (fun t => kissLine arith53 2 true (fun t' => orderX t' t 1) 0) 0 = ((0 : ℝ) : ℂ) := by
    rw [kissLine_two true _ (p := 0) (q := 0) (by exact_mod_cast h1 0) (by exact_mod_cast h1 1), rnd53_zero, rnd53_zero, add_zero, rnd53_zero]
  rw [lines3_origin, kissLine_two true _ (p := 1 / 2 ^ 54) (q := 0) (by exact_mod_cast k0) (by exact_mod_cast k1), rnd53_zero,
    rnd53_zero, add_zero, s2]

theorem orderX_inv : (lines3Inv (kissLine arith53 2 true) (kissLine arith53 2 true) (kissLine arith53 2 true) orderX)
    0 0 0 = ((0 : ℝ) : ℂ) := by
  obtain ⟨s1, s2, s3, s4⟩ := rnd53_small
  have h (i j : Int) (p : ℝ) (hp : orderX i j 0 = p) (hr : rnd53 p = p) :
      kissLine arith53 2 true (fun t => orderX i j t) 0 = (p : ℂ) := by
    rw [kissLine_two true _ (p := p) (q := 0) (by exact_mod_cast hp) (by simp [orderX]), rnd53_zero, rnd53_zero,
      add_zero, hr]
  have k0 : kissLine arith53 2 true
      (fun t => kissLine arith53 2 true (fun t' => orderX 0 t t') 0) 0 = ((1 : ℝ) : ℂ) := by
    rw [kissLine_two true _ (p := 1) (q := 1 / 2 ^ 55)
      (by exact_mod_cast h 0 0 1 (by simp [orderX]) rnd53_one)
      (by exact_mod_cast h 0 1 (1 / 2 ^ 55) (by simp [orderX]) s1), s1, s1, s3]
  have k1 : kissLine arith53 2 true
      (fun t => kissLine arith53 2 true (fun t' => orderX 1 t t') 0) 0 = ((-1 : ℝ) : ℂ) := by
    rw [kissLine_two true _ (p := -1) (q := 1 / 2 ^ 55)
      (by exact_mod_cast h 1 0 (-1) (by simp [orderX]) rnd53_neg_one)
      (by exact_mod_cast h 1 1 (1 / 2 ^ 55) (by simp [orderX]) s1), s1, s1, s4]
  rw [lines3Inv_origin, kissLine_two true _ (p := 1) (q := -1) (by exact_mod_cast k0) (by exact_mod_cast k1), rnd53_neg_one,
    rnd53_neg_one, show (1 : ℝ) + -1 = 0 by norm_num, rnd53_zero]

theorem scaleF_false (ar : Arith) (N : Int) (Y : Grid3) : Ready.scaleF ar false N Y = Y := rfl

/-- **C57 is false for the backward transform.**  Two objects for the same 2 x 2 x 2 grid on one rank, both with the
whole grid as input and output, one with `permute` 0 and one with `permute` 1.  Both are given the same grid
(each in its own order of storage).  In double precision `compute(data,data,-1)` leaves different numbers: the
first object sums the fast dimension first, the second one the slow dimension (fft3d.cpp:560-605). -/
theorem C57_false : ∃ (X : Grid3) (f f' : Nat → Fft3 ℝ) (m1 m2 m1' m2' : Nat → LMem ℝ),
    SetUp3F arith53 1 oneArgs ⟨0, 0, 0⟩ f ∧ SetUp3F arith53 1 onePerm ⟨0, 0, 0⟩ f' ∧
    Holds 1 0 oneArgs.outs 0 X m1 ∧ Bufs 1 f 0 m1 ∧ Holds 1 1 onePerm.outs 0 X m2 ∧ Bufs 1 f' 0 m2 ∧
    Terminates true 1 (fun r => (f r).computeF arith53 default false false (-1) 0 0) m1 m1' ∧
    Terminates true 1 (fun r => (f' r).computeF arith53 default false false (-1) 0 0) m2 m2' ∧
    (∃ Y, Holds 1 0 oneArgs.ins 0 Y m1') ∧ (∃ Y, Holds 1 0 onePerm.ins 0 Y m2') ∧
    ¬ ∃ Y, Holds 1 0 oneArgs.ins 0 Y m1' ∧ Holds 1 0 onePerm.ins 0 Y m2' := by
  have hst : (⟨0, 0, 0⟩ : Settings).Valid := by simp [Settings.Valid]
  obtain ⟨f, S⟩ := setUp3F_exists arith53 oneArgs_valid hst
  obtain ⟨f', S'⟩ := setUp3F_exists arith53 onePerm_valid hst
  obtain ⟨g, Sg, hg⟩ := S.exact
  obtain ⟨g', Sg', hg'⟩ := S'.exact
  obtain ⟨m1, h1⟩ := Sg.mem_out orderX
  obtain ⟨m2, h2⟩ := Sg'.mem_out orderX
  have b1 : Bufs 1 f 0 m1 := (h1 0).2.like fun r hr =>
    ⟨(hg r hr).fftsize.symm, (hg r hr).sendsize.symm, (hg r hr).recvsize.symm⟩
  have b2 : Bufs 1 f' 0 m2 := (h2 0).2.like fun r hr =>
    ⟨(hg' r hr).fftsize.symm, (hg' r hr).sendsize.symm, (hg' r hr).recvsize.symm⟩
  obtain ⟨m1', t1, k1, -⟩ := back_grids arith53 2 2 2 false orderX 1 oneArgs _ f true (fun _ => default) 0 m1
    ⟨rfl, rfl, rfl⟩ S (h1 0).1 b1 (Or.inl rfl) (fun h => (nomatch h))
  obtain ⟨m2', t2, -, k2⟩ := back_grids arith53 2 2 2 false orderX 1 onePerm _ f' true (fun _ => default) 0 m2
    ⟨rfl, rfl, rfl⟩ S' (h2 0).1 b2 (Or.inl rfl) (fun h => (nomatch h))
  have k1 := k1 ⟨rfl, fun _ _ => rfl⟩
  have k2 := k2 fun h => by simp [Args3.Same, onePerm] at h
  rw [show (2 : Int).toNat = 2 from rfl, scaleF_false] at k1 k2
  refine ⟨orderX, f, f', m1, m2, m1', m2', S, S', (h1 0).1, b1, (h2 0).1, b2, t1, t2, ⟨_, k1⟩, ⟨_, k2⟩, ?_⟩
  rintro ⟨Y, y1, y2⟩
  have hb : (oneArgs.ins 0).Has 0 0 0 := by simp [oneArgs, Box3.Has]
  have e1 := (k1 0 (by decide) 0 0 0 hb).1.symm.trans (y1 0 (by decide) 0 0 0 hb).1
  have e2 := (k2 0 (by decide) 0 0 0 hb).1.symm.trans (y2 0 (by decide) 0 0 0 hb).1
  have e := Option.some.inj (e1.trans e2.symm)
  rw [orderX_fwd, orderX_inv] at e
  norm_num at e

end FftMpi
