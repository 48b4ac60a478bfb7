import Verif.DriverFlRun

/-!
# C68: the error that the test programs print, with rounding

In exact arithmetic `-v` prints the error 0 (C61).  With rounding it prints a small number.  The theorems here say how
small: the bound is proportional to the number of passes, to the square root of the number of grid points and to the
largest number of the data, and does not depend on the number of ranks or on the settings.
-/

noncomputable section

namespace FftMpi

open Driver Finset

variable {ar : Arith} {rnd : ℝ → ℝ} {u v cc tiny big d : ℝ}

/-! ## Specification -/

/-- The largest number of the data (in absolute value). -/
def Driver.Opt3.largest (o : Opt3) : ℝ :=
  match o.iflag with
  | .zero => 0
  | .step => 1
  | .index => (o.nx : ℝ) + o.ny + o.nz - 2
  | .random _ => 1

def Driver.Opt2.largest (o : Opt2) : ℝ :=
  match o.iflag with
  | .zero => 0
  | .step => 1
  | .index => (o.nx : ℝ) + o.ny - 1
  | .random _ => 1

/-- The data of `initialize` are small. -/
theorem start3_le (Rr : Rounding rnd) {o : Opt3} {P : Nat} (ho : o.Accepted P) {a : Args3} (hv : a.Valid P)
    (hn : a.nfast = o.nx ∧ a.nmid = o.ny ∧ a.nslow = o.nz) {r : Nat} (hr : r < P) {x : Int} (h0 : 0 ≤ x)
    (h1 : x < 2 * (a.ins r).count) : |o.start rnd r (a.ins r) x| ≤ o.largest := by
  unfold Opt3.start Opt3.largest
  rcases hi : o.iflag with _ | _ | _ | n
  · simp
  · refine pair_le zero_le_one fun g _ => ?_
    unfold stepAt3
    split_ifs <;> simp
  · have hx := ho.nx; have hy := ho.ny; have hz := ho.nz
    have q1 : (1 : ℝ) ≤ o.nx := by exact_mod_cast hx.1
    have q2 : (1 : ℝ) ≤ o.ny := by exact_mod_cast hy.1
    have q3 : (1 : ℝ) ≤ o.nz := by exact_mod_cast hz.1
    dsimp only
    refine pair_le (by linarith) fun g hg => ?_
    obtain ⟨i, j, k, hh, _, hp⟩ := point3_ok (hv.properIn r hr).1 (m := x / 2) (by omega)
      (by rw [nfft3_eq (hv.properIn r hr).1]; omega)
    rw [hp] at hg
    cases hg
    obtain ⟨⟨a1, a2⟩, ⟨b1, b2⟩, c1, c2⟩ := hv.tilesIn.inside r hr i j k hh
    rw [hn.1] at a2; rw [hn.2.1] at b2; rw [hn.2.2] at c2
    have e1 : (0 : ℝ) ≤ i := by exact_mod_cast a1
    have e2 : (0 : ℝ) ≤ j := by exact_mod_cast b1
    have e3 : (0 : ℝ) ≤ k := by exact_mod_cast c1
    have e4 : (i : ℝ) + 1 ≤ o.nx := by exact_mod_cast a2
    have e5 : (j : ℝ) + 1 ≤ o.ny := by exact_mod_cast b2
    have e6 : (k : ℝ) + 1 ≤ o.nz := by exact_mod_cast c2
    unfold indexAt3
    push_cast
    rw [abs_of_nonneg (by linarith)]
    linarith
  · obtain ⟨k0, k1⟩ := randTgt_range Rr (n + r) x
    rw [abs_of_nonneg k0]
    exact k1

theorem start2_le (Rr : Rounding rnd) {o : Opt2} {P : Nat} (ho : o.Accepted P) {a : Args2} (hv : a.Valid P)
    (hn : a.nfast = o.nx ∧ a.nslow = o.ny) {r : Nat} (hr : r < P) {x : Int} (h0 : 0 ≤ x)
    (h1 : x < 2 * (a.ins r).count) : |o.start rnd r (a.ins r) x| ≤ o.largest := by
  unfold Opt2.start Opt2.largest
  rcases hi : o.iflag with _ | _ | _ | n
  · simp
  · refine pair_le zero_le_one fun g _ => ?_
    unfold stepAt2
    split_ifs <;> simp
  · have hx := ho.nx; have hy := ho.ny
    have q1 : (1 : ℝ) ≤ o.nx := by exact_mod_cast hx.1
    have q2 : (1 : ℝ) ≤ o.ny := by exact_mod_cast hy.1
    dsimp only
    refine pair_le (by linarith) fun g hg => ?_
    obtain ⟨i, j, hh, _, hp⟩ := point2_ok (hv.properIn r hr).1 (m := x / 2) (by omega)
      (by rw [nfft2_eq (hv.properIn r hr).1]; omega)
    rw [hp] at hg
    cases hg
    obtain ⟨⟨a1, a2⟩, b1, b2⟩ := hv.tilesIn.inside r hr i j hh
    rw [hn.1] at a2; rw [hn.2] at b2
    have e1 : (0 : ℝ) ≤ i := by exact_mod_cast a1
    have e2 : (0 : ℝ) ≤ j := by exact_mod_cast b1
    have e4 : (i : ℝ) + 1 ≤ o.nx := by exact_mod_cast a2
    have e5 : (j : ℝ) + 1 ≤ o.ny := by exact_mod_cast b2
    unfold indexAt2
    push_cast
    rw [abs_of_nonneg (by linarith)]
    linarith
  · obtain ⟨k0, k1⟩ := randTgt_range Rr (n + r) x
    rw [abs_of_nonneg k0]
    exact k1

theorem Driver.Opt3.largest_nonneg {o : Opt3} {P : Nat} (ho : o.Accepted P) : 0 ≤ o.largest := by
  unfold Opt3.largest
  rcases o.iflag with _ | _ | _ | n
  · exact le_rfl
  · exact zero_le_one
  · have hx := ho.nx; have hy := ho.ny; have hz := ho.nz
    have q1 : (1 : ℝ) ≤ o.nx := by exact_mod_cast hx.1
    have q2 : (1 : ℝ) ≤ o.ny := by exact_mod_cast hy.1
    have q3 : (1 : ℝ) ≤ o.nz := by exact_mod_cast hz.1
    dsimp only
    linarith
  · exact zero_le_one

theorem Driver.Opt2.largest_nonneg {o : Opt2} {P : Nat} (ho : o.Accepted P) : 0 ≤ o.largest := by
  unfold Opt2.largest
  rcases o.iflag with _ | _ | _ | n
  · exact le_rfl
  · exact zero_le_one
  · have hx := ho.nx; have hy := ho.ny
    have q1 : (1 : ℝ) ≤ o.nx := by exact_mod_cast hx.1
    have q2 : (1 : ℝ) ≤ o.ny := by exact_mod_cast hy.1
    dsimp only
    linarith
  · exact zero_le_one

/-- **C68 (initialize, 3d).**  The numbers that `initialize` stores are those of exact arithmetic (C61), up to the
rounding of one conversion to the type of the array. -/
theorem C68_initialize (R : RoundOK ar u tiny big) {o : Opt3} {P : Nat} (ho : o.Accepted P) {r : Nat} (hr : r < P)
    {b : Box3} (hb : b.Proper) {w w1 : Mem ℝ} (hw : accessible w 0 (2 * b.count)) (h1 : o.initialize rnd r b w = some w1)
    (hbig : ∀ x y, 0 ≤ x → x < 2 * b.count → w1 x = some y → |y| ≤ big) :
    ∃ w', o.initializeFl ar rnd r b w = some w' ∧ (∀ x, (x < 0 ∨ 2 * b.count ≤ x) → w' x = w x) ∧
      ∀ x, 0 ≤ x → x < 2 * b.count → ∃ y y', w1 x = some y ∧ w' x = some y' ∧ |y' - y| ≤ u * (|y| + tiny) := by
  have hf := Opt3.initialize_fills rnd hb (seedOk3 ho hr)
  have hF := Opt3.initializeFl_fills (ar := ar) (rnd := rnd) hb (seedOk3 ho hr)
  rw [nfft3_eq hb] at hf hF
  exact hF.near R hf hw h1 hbig

theorem C68_initialize_2d (R : RoundOK ar u tiny big) {o : Opt2} {P : Nat} (ho : o.Accepted P) {r : Nat} (hr : r < P)
    {b : Box2} (hb : b.Proper) {w w1 : Mem ℝ} (hw : accessible w 0 (2 * b.count)) (h1 : o.initialize rnd r b w = some w1)
    (hbig : ∀ x y, 0 ≤ x → x < 2 * b.count → w1 x = some y → |y| ≤ big) :
    ∃ w', o.initializeFl ar rnd r b w = some w' ∧ (∀ x, (x < 0 ∨ 2 * b.count ≤ x) → w' x = w x) ∧
      ∀ x, 0 ≤ x → x < 2 * b.count → ∃ y y', w1 x = some y ∧ w' x = some y' ∧ |y' - y| ≤ u * (|y| + tiny) := by
  have hf := Opt2.initialize_fills rnd hb (seedOk2 ho hr)
  have hF := Opt2.initializeFl_fills (ar := ar) (rnd := rnd) hb (seedOk2 ho hr)
  rw [nfft2_eq hb] at hf hF
  exact hF.near R hf hw h1 hbig

/-- **C68 (validate, 3d).**  `validate` returns the largest difference between the array and the data of exact
arithmetic, up to the rounding of one subtraction: the number printed cannot hide an error. -/
theorem C68_validate (R : RoundOK ar u tiny big) (hu : u ≤ 1) {o : Opt3} {P : Nat} (ho : o.Accepted P) {r : Nat}
    (hr : r < P) {b : Box3} (hb : b.Proper) {w0 w1 w : Mem ℝ} (h0 : accessible w0 0 (2 * b.count))
    (h1 : o.initialize rnd r b w0 = some w1) (hw : accessible w 0 (2 * b.count)) {L : ℝ}
    (hL : Largest (2 * b.count) w w1 L) (hbig : L ≤ big) :
    ∃ eps, o.validateFl ar rnd r b w = some eps ∧ (1 - u) * L ≤ eps ∧ eps ≤ (1 + u) * L := by
  obtain ⟨L', k1, k2⟩ := C61_validate ho hr hb h0 h1 hw
  have e : L' = L := k2.unique hL
  subst e
  have hf := Opt3.validate_checks rnd hb (seedOk3 ho hr)
  have hF := Opt3.validateFl_checks (ar := ar) (rnd := rnd) hb (seedOk3 ho hr)
  rw [nfft3_eq hb] at hf hF
  exact hF.near R hu hf hw k1 hbig

theorem C68_validate_2d (R : RoundOK ar u tiny big) (hu : u ≤ 1) {o : Opt2} {P : Nat} (ho : o.Accepted P) {r : Nat}
    (hr : r < P) {b : Box2} (hb : b.Proper) {w0 w1 w : Mem ℝ} (h0 : accessible w0 0 (2 * b.count))
    (h1 : o.initialize rnd r b w0 = some w1) (hw : accessible w 0 (2 * b.count)) {L : ℝ}
    (hL : Largest (2 * b.count) w w1 L) (hbig : L ≤ big) :
    ∃ eps, o.validateFl ar rnd r b w = some eps ∧ (1 - u) * L ≤ eps ∧ eps ≤ (1 + u) * L := by
  obtain ⟨L', k1, k2⟩ := C61_validate_2d ho hr hb h0 h1 hw
  have e : L' = L := k2.unique hL
  subst e
  have hf := Opt2.validate_checks rnd hb (seedOk2 ho hr)
  have hF := Opt2.validateFl_checks (ar := ar) (rnd := rnd) hb (seedOk2 ho hr)
  rw [nfft2_eq hb] at hf hF
  exact hF.near R hu hf hw k1 hbig

/-! ## Validation -/

theorem Driver.Opt3.args_dims {o : Opt3} {P : Nat} {a : Args3} (ha : o.args rnd P = some a) :
    a.nfast = o.nx ∧ a.nmid = o.ny ∧ a.nslow = o.nz := by
  unfold Opt3.args at ha
  simp only [Option.bind_eq_some_iff, Option.map_eq_some_iff] at ha
  obtain ⟨p, _, q, _, rfl⟩ := ha
  exact ⟨rfl, rfl, rfl⟩

/-- The array after `initialize`. -/
theorem Driver.start3Fl_ok (R : RoundOK ar u tiny big) (Rr : Rounding rnd) {o : Opt3} {P : Nat} (ho : o.Accepted P)
    {a : Args3} (hn : a.nfast = o.nx ∧ a.nmid = o.ny ∧ a.nslow = o.nz) {f : Nat → Fft3 ℝ} {st : Settings} (S : SetUp3F ar P a st f) (e : Bool)
    {m : Nat → LMem ℝ} (hb : Bufs P f 0 m) (hV : o.largest ≤ big) :
    ∃ m1 s X, Step e P (fsz f) 0 (fun r => [.loc (onWork (o.initializeFl ar rnd r (a.ins r)))]) m m1 ∧
      Vals P (fun r => (a.ins r).count) s m1 ∧ Holds P 0 a.ins 0 X m1 ∧
      ∀ r < P, ∀ x, 0 ≤ x → x < 2 * (a.ins r).count →
        |s r x - o.start rnd r (a.ins r) x| ≤ u * (o.largest + tiny) ∧ |s r x| ≤ o.largest + u * (o.largest + tiny) := by
  have hf : ∀ r, ∃ s, r < P → (∀ x, s x = o.start rnd r (a.ins r) x ∨ s x = ar.conv (o.start rnd r (a.ins r) x)) ∧
      Fills (a.ins r).count (o.initializeFl ar rnd r (a.ins r)) s := by
    intro r
    by_cases hr : r < P
    · have := Opt3.initializeFl_fills (ar := ar) (rnd := rnd) (S.args.properIn r hr).1 (seedOk3 ho hr)
      rw [nfft3_eq (S.args.properIn r hr).1] at this
      obtain ⟨s, h⟩ := this
      exact ⟨s, fun _ => h⟩
    · exact ⟨fun _ => 0, fun h => absurd h hr⟩
  choose s hs using hf
  obtain ⟨g, Sg, hg⟩ := S.exact
  have hva := S.args
  obtain ⟨c, rfl, rfl, rfl, _, Rd⟩ := Sg.ready
  have hb' := hb.like (g := g) fun r hr => ⟨(hg r hr).fftsize, (hg r hr).sendsize, (hg r hr).recvsize⟩
  have es : ∀ r < c.P, fsz g r = fsz f r := fun r hr => (hg r hr).fftsize.symm
  obtain ⟨m1, s1, h1⟩ := fillStep e (size := fsz g) (m := m) (cnt := fun r => (c.a.ins r).count)
    (fun r hr => ⟨count_nonneg _, Rd.size_ins hr⟩) hb'.data fun r hr => (hs r hr).2
  obtain ⟨X, hX⟩ := Ready.some_holds Rd.ins_tiles 0 (fun r hr => Rd.size_ins hr) (hb'.congr s1.dom).data
  refine ⟨m1, s, X, s1.resize es, h1, hX, fun r hr x h0 h2 => ?_⟩
  have k1 := start3_le Rr ho hva hn hr h0 h2
  have k2 := conv_near R ((hs r hr).1 x) k1 hV
  refine ⟨k2, ?_⟩
  have k3 := abs_sub_abs_le_abs_sub (s r x) (o.start rnd r (c.a.ins r) x)
  linarith

/-- **C68 (validation with rounding, 3d, partial).**  After any number of passes the program prints an error of at most
`(1+u)*((cycle2^nloop-1)*B+u*(V+tiny))`: `V` is the largest number of the data, `cycle2` the growth of the error in one
round trip (C67), and `B` a bound for the Euclidean norm of the data.  Missing: no rank may have more points on input
than on output (as in C61), and `RoomBack` (as in C25); numbers must not overflow. -/
theorem C68_validation_partial (R : RoundOK ar u tiny big) (T : TrigOK ar v cc tiny big) (hu : u ≤ 1 / 100)
    (hv : v ≤ 1 / 100) (ht : tiny ≤ 1 / 100) (hd : 0 ≤ d) (Rr : Rounding rnd) {o : Opt3} {P : Nat} (ho : o.Accepted P)
    (hm : o.mode < 2) (hf : o.rflag = false) {a : Args3} (ha : o.args rnd P = some a) {f : Nat → Fft3 ℝ}
    (S : SetUp3F ar P a o.settings f) (htw : a.TwiddlesNear ar d)
    (hio : ∀ r < P, (a.ins r).count ≤ (a.outs r).count) (e : Bool) (J J' : Nat → Nat → Nat → Junk)
    {m : Nat → LMem ℝ} (hb : Bufs P f 0 m) (hr : RoomBack P a o.settings m) {B : ℝ}
    (hB : B = Real.sqrt a.N * (3 / 2 * (o.largest + u * (o.largest + tiny)) + 2 * tiny)) (hNb : a.N ≤ big)
    (hV : o.largest ≤ big)
    (hbig : ∀ k < o.nloop, 2 * (a.cycle2 u v d ^ k * (1 + a.fftErr2 u d) ^ 2) * (a.N * grown a.N tiny B k) ≤ big)
    (hend : (a.cycle2 u v d ^ o.nloop - 1) * grown a.N tiny B o.nloop + u * (o.largest + tiny) ≤ big) :
    ∃ m' eps, Terminates e P (fun r => o.runFl ar rnd r (a.ins r) (f r) (J r) (J' r)) m m' ∧
      epsmax P (fun r => o.validateFl ar rnd r (a.ins r) ((m' r).ub 0)) = some eps ∧ 0 ≤ eps ∧
      eps ≤ (1 + u) * ((a.cycle2 u v d ^ o.nloop - 1) * grown a.N tiny B o.nloop + u * (o.largest + tiny)) := by
  have u0 := R.u0
  have t0 := R.t0
  have hL := o.largest_nonneg ho
  obtain ⟨m1, s, X, s1, h1, hX, hs⟩ := start3Fl_ok R Rr ho (o.args_dims ha) S e hb hV
  have en := S.args.en_of_le t0 hX h1 fun r hr x h0 h2 => (hs r hr x h0 h2).2
  rw [← hB] at en
  obtain ⟨m2, X', s2, h2, en'⟩ := loop3Fl_ok R T hu hv ht hd S htw hio e J J' hm hX (hb.congr s1.dom) (hr.congr s1.dom) en hNb
    o.nloop hbig
  obtain ⟨y, h3, h4⟩ := S.args.vals_near hX h2 h1 en'
  have hc : ∀ r < P, ChecksFl ar (a.ins r).count (o.validateFl ar rnd r (a.ins r)) (o.start rnd r (a.ins r)) := by
    intro r hr
    rw [← nfft3_eq (S.args.properIn r hr).1]
    exact Opt3.validateFl_checks (S.args.properIn r hr).1 (seedOk3 ho hr)
  have hB0 := en.nonneg
  have hC : 1 ≤ a.cycle2 u v d ^ o.nloop := one_le_pow₀ (Args3.one_le_cycle2 R.u0 T.v0 (by linarith) hd)
  have hG := grown_nonneg (N := a.N) (tiny := tiny) S.args.N_pos.le t0 hB0 o.nloop
  obtain ⟨eps, k1, k2, k3⟩ := epsFl_all R ho.procs h3 hc
    (D := (a.cycle2 u v d ^ o.nloop - 1) * grown a.N tiny B o.nloop + u * (o.largest + tiny))
    (add_nonneg (mul_nonneg (by linarith) hG) (by positivity)) (fun r hr x h0 h5 => by
      have q1 := h4 r hr x h0 h5
      have q2 := (hs r hr x h0 h5).1
      have q3 := abs_sub_le (y r x) (s r x) (o.start rnd r (a.ins r) x)
      linarith) hend
  refine ⟨m2, eps, ((s1.append s2).congr fun r _ => ?_).ok.terminates, k1, k2, k3⟩
  unfold Opt3.runFl
  rw [hf]
  rfl

/-- **C68 (`-r`, 3d, partial).**  If data are only moved, the error printed is that of one conversion to the type of the
array and one subtraction.  Missing: `RoomBack`. -/
theorem C68_remap_only_partial (R : RoundOK ar u tiny big) (Rr : Rounding rnd) {o : Opt3} {P : Nat} (ho : o.Accepted P)
    (hm : o.mode < 2) (hf : o.rflag = true) {a : Args3} (ha : o.args rnd P = some a) {f : Nat → Fft3 ℝ}
    (S : SetUp3F ar P a o.settings f) (e : Bool) (J J' : Nat → Nat → Nat → Junk)
    {m : Nat → LMem ℝ} (hb : Bufs P f 0 m) (hr : RoomBack P a o.settings m) (hV : o.largest ≤ big)
    (hend : u * (o.largest + tiny) ≤ big) :
    ∃ m' eps, Terminates e P (fun r => o.runFl ar rnd r (a.ins r) (f r) (J r) (J' r)) m m' ∧
      epsmax P (fun r => o.validateFl ar rnd r (a.ins r) ((m' r).ub 0)) = some eps ∧ 0 ≤ eps ∧
      eps ≤ (1 + u) * (u * (o.largest + tiny)) := by
  have u0 := R.u0
  have t0 := R.t0
  have hL := o.largest_nonneg ho
  obtain ⟨m1, s, X, s1, h1, hX, hs⟩ := start3Fl_ok R Rr ho (o.args_dims ha) S e hb hV
  obtain ⟨g, Sg, hg⟩ := S.exact
  have hb' := (hb.congr s1.dom).like (g := g) fun r hr => ⟨(hg r hr).fftsize, (hg r hr).sendsize, (hg r hr).recvsize⟩
  have hr' := hr.congr s1.dom
  have es : ∀ r < P, fsz g r = fsz f r := fun r hr => (hg r hr).fftsize.symm
  obtain ⟨m2, s2, h2⟩ := loop3_ok Sg e J J' true hm h1 hb' hr' o.nloop
  have h3 : Vals P (fun r => (a.ins r).count) s m2 := h2.congr fun r _ x _ _ => by simp [passFactor]
  have hc : ∀ r < P, ChecksFl ar (a.ins r).count (o.validateFl ar rnd r (a.ins r)) (o.start rnd r (a.ins r)) := by
    intro r hr
    rw [← nfft3_eq (S.args.properIn r hr).1]
    exact Opt3.validateFl_checks (S.args.properIn r hr).1 (seedOk3 ho hr)
  obtain ⟨eps, k1, k2, k3⟩ := epsFl_all R ho.procs h3 hc (D := u * (o.largest + tiny)) (by positivity)
    (fun r hr x h0 h5 => (hs r hr x h0 h5).1) hend
  refine ⟨m2, eps, ((s1.append (s2.resize es)).congr fun r hr => ?_).ok.terminates, k1, k2, k3⟩
  unfold Opt3.runFl
  rw [hf, loop3Fl_remap (hg r hr)]
  rfl

theorem Driver.Opt2.args_dims {o : Opt2} {P : Nat} {a : Args2} (ha : o.args rnd P = some a) :
    a.nfast = o.nx ∧ a.nslow = o.ny := by
  unfold Opt2.args at ha
  simp only [Option.bind_eq_some_iff, Option.map_eq_some_iff] at ha
  obtain ⟨p, _, q, _, rfl⟩ := ha
  exact ⟨rfl, rfl⟩

/-- The array after `initialize`. -/
theorem Driver.start2Fl_ok (R : RoundOK ar u tiny big) (Rr : Rounding rnd) {o : Opt2} {P : Nat} (ho : o.Accepted P)
    {w : Int} {a : Args2} (hn : a.nfast = o.nx ∧ a.nslow = o.ny) {f : Nat → Fft2 ℝ} {st : Settings} (S : SetUp2F ar w P a st f) (e : Bool)
    {m : Nat → LMem ℝ} (hb : Bufs2 P f 0 m) (hV : o.largest ≤ big) :
    ∃ m1 s X, Step e P (fsz2 f) 0 (fun r => [.loc (onWork (o.initializeFl ar rnd r (a.ins r)))]) m m1 ∧
      Vals P (fun r => (a.ins r).count) s m1 ∧ Holds2 P 0 a.ins 0 X m1 ∧
      ∀ r < P, ∀ x, 0 ≤ x → x < 2 * (a.ins r).count →
        |s r x - o.start rnd r (a.ins r) x| ≤ u * (o.largest + tiny) ∧ |s r x| ≤ o.largest + u * (o.largest + tiny) := by
  have hf : ∀ r, ∃ s, r < P → (∀ x, s x = o.start rnd r (a.ins r) x ∨ s x = ar.conv (o.start rnd r (a.ins r) x)) ∧
      Fills (a.ins r).count (o.initializeFl ar rnd r (a.ins r)) s := by
    intro r
    by_cases hr : r < P
    · have := Opt2.initializeFl_fills (ar := ar) (rnd := rnd) (S.args.properIn r hr).1 (seedOk2 ho hr)
      rw [nfft2_eq (S.args.properIn r hr).1] at this
      obtain ⟨s, h⟩ := this
      exact ⟨s, fun _ => h⟩
    · exact ⟨fun _ => 0, fun h => absurd h hr⟩
  choose s hs using hf
  obtain ⟨g, Sg, hg⟩ := S.exact
  have hva := S.args
  obtain ⟨c, rfl, rfl, rfl, rfl, _, Rd⟩ := Sg.ready
  have hb' := hb.like (g := g) fun r hr => ⟨(hg r hr).fftsize, (hg r hr).sendsize, (hg r hr).recvsize⟩
  have es : ∀ r < c.P, fsz2 g r = fsz2 f r := fun r hr => (hg r hr).fftsize.symm
  obtain ⟨m1, s1, h1⟩ := fillStep e (size := fsz2 g) (m := m) (cnt := fun r => (c.a.ins r).count)
    (fun r hr => ⟨by rw [← Box2.lift_count]; exact count_nonneg _, Rd.size_ins hr⟩) hb'.data fun r hr => (hs r hr).2
  obtain ⟨X, hX⟩ := Ready2.some_holds Rd.ins_tiles (Or.inl rfl) (fun r hr => Rd.size_ins hr) (hb'.congr s1.dom).data
  refine ⟨m1, s, X, s1.resize es, h1, hX, fun r hr x h0 h2 => ?_⟩
  have k1 := start2_le Rr ho hva hn hr h0 h2
  have k2 := conv_near R ((hs r hr).1 x) k1 hV
  refine ⟨k2, ?_⟩
  have k3 := abs_sub_abs_le_abs_sub (s r x) (o.start rnd r (c.a.ins r) x)
  linarith

/-- **C68 (validation with rounding, 2d, partial).**  After any number of passes the program prints an error of at most
`(1+u)*((cycle2^nloop-1)*B+u*(V+tiny))`: `V` is the largest number of the data, `cycle2` the growth of the error in one
round trip (C67), and `B` a bound for the Euclidean norm of the data.  Missing: no rank may have more points on input
than on output (as in C61); numbers must not overflow. -/
theorem C68_validation_2d_partial (R : RoundOK ar u tiny big) (T : TrigOK ar v cc tiny big) (hu : u ≤ 1 / 100)
    (hv : v ≤ 1 / 100) (ht : tiny ≤ 1 / 100) (hd : 0 ≤ d) (Rr : Rounding rnd) {o : Opt2} {P : Nat} (ho : o.Accepted P)
    (hm : o.mode < 2) (hf : o.rflag = false) {w : Int} {a : Args2} (ha : o.args rnd P = some a) {f : Nat → Fft2 ℝ}
    (S : SetUp2F ar w P a o.settings f) (htw : a.TwiddlesNear ar d)
    (hio : ∀ r < P, (a.ins r).count ≤ (a.outs r).count) (e : Bool) (J J' : Nat → Nat → Nat → Junk)
    {m : Nat → LMem ℝ} (hb : Bufs2 P f 0 m) {B : ℝ}
    (hB : B = Real.sqrt a.N * (3 / 2 * (o.largest + u * (o.largest + tiny)) + 2 * tiny)) (hNb : a.N ≤ big)
    (hV : o.largest ≤ big)
    (hbig : ∀ k < o.nloop, 2 * (a.cycle2 u v d ^ k * (1 + a.fftErr2 u d) ^ 2) * (a.N * grown a.N tiny B k) ≤ big)
    (hend : (a.cycle2 u v d ^ o.nloop - 1) * grown a.N tiny B o.nloop + u * (o.largest + tiny) ≤ big) :
    ∃ m' eps, Terminates e P (fun r => o.runFl ar rnd r (a.ins r) (f r) (J r) (J' r)) m m' ∧
      epsmax P (fun r => o.validateFl ar rnd r (a.ins r) ((m' r).ub 0)) = some eps ∧ 0 ≤ eps ∧
      eps ≤ (1 + u) * ((a.cycle2 u v d ^ o.nloop - 1) * grown a.N tiny B o.nloop + u * (o.largest + tiny)) := by
  have u0 := R.u0
  have t0 := R.t0
  have hL := o.largest_nonneg ho
  obtain ⟨m1, s, X, s1, h1, hX, hs⟩ := start2Fl_ok R Rr ho (o.args_dims ha) S e hb hV
  have en := S.args.en_of_le t0 hX h1 fun r hr x h0 h2 => (hs r hr x h0 h2).2
  rw [← hB] at en
  obtain ⟨m2, X', s2, h2, en'⟩ := loop2Fl_ok R T hu hv ht hd S htw hio e J J' hm hX (hb.congr s1.dom) en hNb
    o.nloop hbig
  obtain ⟨y, h3, h4⟩ := S.args.vals_near hX h2 h1 en'
  have hc : ∀ r < P, ChecksFl ar (a.ins r).count (o.validateFl ar rnd r (a.ins r)) (o.start rnd r (a.ins r)) := by
    intro r hr
    rw [← nfft2_eq (S.args.properIn r hr).1]
    exact Opt2.validateFl_checks (S.args.properIn r hr).1 (seedOk2 ho hr)
  have hB0 := en.nonneg
  have hC : 1 ≤ a.cycle2 u v d ^ o.nloop := one_le_pow₀ (Args2.one_le_cycle2 R.u0 T.v0 (by linarith) hd)
  have hG := grown_nonneg (N := a.N) (tiny := tiny) S.args.N_pos.le t0 hB0 o.nloop
  obtain ⟨eps, k1, k2, k3⟩ := epsFl_all R ho.procs h3 hc
    (D := (a.cycle2 u v d ^ o.nloop - 1) * grown a.N tiny B o.nloop + u * (o.largest + tiny))
    (add_nonneg (mul_nonneg (by linarith) hG) (by positivity)) (fun r hr x h0 h5 => by
      have q1 := h4 r hr x h0 h5
      have q2 := (hs r hr x h0 h5).1
      have q3 := abs_sub_le (y r x) (s r x) (o.start rnd r (a.ins r) x)
      linarith) hend
  refine ⟨m2, eps, ((s1.append s2).congr fun r _ => ?_).ok.terminates, k1, k2, k3⟩
  unfold Opt2.runFl
  rw [hf]
  rfl

/-- **C68 (`-r`, 2d).**  If data are only moved, the error printed is that of one conversion to the type of the
array and one subtraction. -/
theorem C68_remap_only_2d (R : RoundOK ar u tiny big) (Rr : Rounding rnd) {o : Opt2} {P : Nat} (ho : o.Accepted P)
    (hm : o.mode < 2) (hf : o.rflag = true) {w : Int} {a : Args2} (ha : o.args rnd P = some a) {f : Nat → Fft2 ℝ}
    (S : SetUp2F ar w P a o.settings f) (e : Bool) (J J' : Nat → Nat → Nat → Junk)
    {m : Nat → LMem ℝ} (hb : Bufs2 P f 0 m) (hV : o.largest ≤ big)
    (hend : u * (o.largest + tiny) ≤ big) :
    ∃ m' eps, Terminates e P (fun r => o.runFl ar rnd r (a.ins r) (f r) (J r) (J' r)) m m' ∧
      epsmax P (fun r => o.validateFl ar rnd r (a.ins r) ((m' r).ub 0)) = some eps ∧ 0 ≤ eps ∧
      eps ≤ (1 + u) * (u * (o.largest + tiny)) := by
  have u0 := R.u0
  have t0 := R.t0
  have hL := o.largest_nonneg ho
  obtain ⟨m1, s, X, s1, h1, hX, hs⟩ := start2Fl_ok R Rr ho (o.args_dims ha) S e hb hV
  obtain ⟨g, Sg, hg⟩ := S.exact
  have hb' := (hb.congr s1.dom).like (g := g) fun r hr => ⟨(hg r hr).fftsize, (hg r hr).sendsize, (hg r hr).recvsize⟩
  have es : ∀ r < P, fsz2 g r = fsz2 f r := fun r hr => (hg r hr).fftsize.symm
  obtain ⟨m2, s2, h2⟩ := loop2_ok Sg e J J' true hm h1 hb' o.nloop
  have h3 : Vals P (fun r => (a.ins r).count) s m2 := h2.congr fun r _ x _ _ => by simp [passFactor]
  have hc : ∀ r < P, ChecksFl ar (a.ins r).count (o.validateFl ar rnd r (a.ins r)) (o.start rnd r (a.ins r)) := by
    intro r hr
    rw [← nfft2_eq (S.args.properIn r hr).1]
    exact Opt2.validateFl_checks (S.args.properIn r hr).1 (seedOk2 ho hr)
  obtain ⟨eps, k1, k2, k3⟩ := epsFl_all R ho.procs h3 hc (D := u * (o.largest + tiny)) (by positivity)
    (fun r hr x h0 h5 => (hs r hr x h0 h5).1) hend
  refine ⟨m2, eps, ((s1.append (s2.resize es)).congr fun r hr => ?_).ok.terminates, k1, k2, k3⟩
  unfold Opt2.runFl
  rw [hf, loop2Fl_remap (hg r hr)]
  rfl

/-! ## In numbers -/

/-- The bound for given precision. -/
theorem Driver.numbers3 {g τ : ℝ} (R : RoundOK ar u tiny big) (T : TrigOK ar v cc tiny big) (hu : u ≤ 1 / 100)
    (hv : v ≤ 1 / 100) (ht : tiny ≤ 1 / 100) (hd : 0 ≤ d) (Rr : Rounding rnd) {o : Opt3} {P : Nat} (ho : o.Accepted P)
    (hm : o.mode < 2) (hf : o.rflag = false) {a : Args3} (ha : o.args rnd P = some a) {f : Nat → Fft3 ℝ}
    (S : SetUp3F ar P a o.settings f) (htw : a.TwiddlesNear ar d)
    (hio : ∀ r < P, (a.ins r).count ≤ (a.outs r).count) (e : Bool) (J J' : Nat → Nat → Nat → Junk)
    {m : Nat → LMem ℝ} (hb : Bufs P f 0 m) (hr : RoomBack P a o.settings m) (hNb : a.N ≤ big)
    (hE : a.fftErr2 u d ≤ 1 / 100) (hC : a.cycle2 u v d ≤ 1 + g) (hg : o.nloop * g ≤ 1 / 32)
    (h1 : o.nloop * (a.N * tiny) ≤ 1 / 32) (h2 : (o.nloop + 2) * tiny * 4 ≤ τ)
    (hs : 4 * (a.N * (Real.sqrt a.N * (o.largest + τ))) ≤ big) :
    ∃ m' eps, Terminates e P (fun r => o.runFl ar rnd r (a.ins r) (f r) (J r) (J' r)) m m' ∧
      epsmax P (fun r => o.validateFl ar rnd r (a.ins r) ((m' r).ub 0)) = some eps ∧ 0 ≤ eps ∧
      eps ≤ 2 * (o.nloop * g) * (Real.sqrt a.N * (o.largest + τ)) + 2 * u * (o.largest + τ) := by
  have u0 := R.u0
  have t0 := R.t0
  have hL := o.largest_nonneg ho
  have hN := S.args.one_le_N
  have hs1 : 1 ≤ Real.sqrt a.N := by rw [Real.one_le_sqrt]; exact hN
  have hC0 := Args3.one_le_cycle2 (a := a) u0 T.v0 (by linarith) hd
  have hE0 := a.fftErr2_nonneg u0 hd
  have τ0 : 0 ≤ τ := le_trans (by positivity) h2
  have hτ : tiny ≤ τ := by nlinarith [mul_nonneg (Nat.cast_nonneg (α := ℝ) o.nloop) t0]
  have hX : 0 ≤ Real.sqrt a.N * (o.largest + τ) := by positivity
  have hX1 : o.largest + τ ≤ Real.sqrt a.N * (o.largest + τ) := by nlinarith
  have hX2 : Real.sqrt a.N * (o.largest + τ) ≤ a.N * (Real.sqrt a.N * (o.largest + τ)) := by nlinarith
  have hB : ∀ k ≤ o.nloop, grown a.N tiny (Real.sqrt a.N * (3 / 2 * (o.largest + u * (o.largest + tiny)) + 2 * tiny)) k ≤
      8 / 5 * (Real.sqrt a.N * (o.largest + τ)) := fun k hk => grown_small hN t0 u0 hu hL h1 h2 hk
  have hB0 : ∀ k, 0 ≤ grown a.N tiny (Real.sqrt a.N * (3 / 2 * (o.largest + u * (o.largest + tiny)) + 2 * tiny)) k :=
    fun k => grown_nonneg (by linarith) t0 (by positivity) k
  obtain ⟨q1, q2⟩ := eps_small hC0 hC hg (hB0 o.nloop) (hB _ le_rfl) hX u0 hu hL t0 hτ
  have p1 : u * (o.largest + τ) ≤ 1 / 100 * (o.largest + τ) := by gcongr
  have p2 : (o.nloop * g) * (Real.sqrt a.N * (o.largest + τ)) ≤ 1 / 32 * (Real.sqrt a.N * (o.largest + τ)) := by gcongr
  obtain ⟨m', eps, k1, k2, k3, k4⟩ := C68_validation_partial R T hu hv ht hd Rr ho hm hf ha S htw hio e J J' hb hr
    rfl hNb (by linarith) (fun k hk => (pass_small (by linarith) hC0 hC hg hk.le hE0 hE (hB0 k) (hB k hk.le) hX).trans hs)
    (by linarith)
  exact ⟨m', eps, k1, k2, k3, k4.trans q2⟩

/-- **C68 in numbers, 3d, double precision (`u = v = 2^-53`, `cos` and `sin` accurate to `2^-52`)**: for every grid the library accepts and
less than `2^31` passes the error printed is at most `nloop*sqrt(N)*V/2^35`, plus `V/2^52` for the conversion of
the data; `N` is the number of grid points and `V` the largest number of the data (plus a tiny number). -/
theorem C68_double_partial (R : RoundOK ar (1 / 2 ^ 53) tiny big) (T : TrigOK ar (1 / 2 ^ 53) (1 / 2 ^ 52) tiny big)
    (ht : tiny ≤ 1 / 2 ^ 200) (hbig : 2 ^ 93 ≤ big) (Rr : Rounding rnd) {o : Opt3} {P : Nat} (ho : o.Accepted P)
    (hm : o.mode < 2) (hf : o.rflag = false) (hloop : o.nloop ≤ 2 ^ 31) {a : Args3} (ha : o.args rnd P = some a)
    {f : Nat → Fft3 ℝ} (S : SetUp3F ar P a o.settings f) (hio : ∀ r < P, (a.ins r).count ≤ (a.outs r).count)
    (e : Bool) (J J' : Nat → Nat → Nat → Junk) {m : Nat → LMem ℝ} (hb : Bufs P f 0 m) (hr : RoomBack P a o.settings m)
    (hs : 4 * (a.N * (Real.sqrt a.N * (o.largest + 1 / 2 ^ 100))) ≤ big) :
    ∃ m' eps, Terminates e P (fun r => o.runFl ar rnd r (a.ins r) (f r) (J r) (J' r)) m m' ∧
      epsmax P (fun r => o.validateFl ar rnd r (a.ins r) ((m' r).ub 0)) = some eps ∧ 0 ≤ eps ∧
      eps ≤ o.nloop / 2 ^ 35 * (Real.sqrt a.N * (o.largest + 1 / 2 ^ 100)) + (o.largest + 1 / 2 ^ 100) / 2 ^ 52 := by
  have htw := (double_setup S.args R T (ht.trans (by norm_num)) (le_trans (by norm_num) hbig)).1
  obtain ⟨h2, h3⟩ := double_norm S.args
  have hN := S.args.N_le
  have hN0 := S.args.N_pos
  have t0 := R.t0
  have hl : (o.nloop : ℝ) ≤ 2 ^ 31 := by exact_mod_cast hloop
  have q1 : a.N * tiny ≤ 2 ^ 93 * (1 / 2 ^ 200) := by gcongr
  have q2 : (o.nloop : ℝ) * (a.N * tiny) ≤ 2 ^ 31 * (2 ^ 93 * (1 / 2 ^ 200)) := by gcongr
  have q3 : ((o.nloop : ℝ) + 2) * tiny ≤ (2 ^ 31 + 2) * (1 / 2 ^ 200) := by gcongr
  obtain ⟨m', eps, k1, k2, k3, k4⟩ := numbers3 (g := 1 / 2 ^ 36) (τ := 1 / 2 ^ 100) R T (by norm_num) (by norm_num)
    (ht.trans (by norm_num)) (by positivity) Rr ho hm hf ha S htw hio e J J' hb hr (hN.trans (le_trans (by norm_num) hbig))
    (by norm_num at h2 ⊢; linarith) h3 (le_trans (mul_le_mul_of_nonneg_right hl (by positivity)) (by norm_num)) (q2.trans (by norm_num))
    (by norm_num at q3 ⊢; linarith) hs
  refine ⟨m', eps, k1, k2, k3, k4.trans (le_of_eq ?_)⟩
  ring

/-- **C68 in numbers, 3d, single precision (`u = 2^-24`)**: for every grid the library accepts and
at most 32 passes the error printed is at most `nloop*sqrt(N)*V/2^9`, plus `V/2^23` for the conversion of
the data; `N` is the number of grid points and `V` the largest number of the data (plus a tiny number). -/
theorem C68_float_partial (R : RoundOK ar (1 / 2 ^ 24) tiny big) (T : TrigOK ar (1 / 2 ^ 53) (1 / 2 ^ 52) tiny big)
    (ht : tiny ≤ 1 / 2 ^ 120) (hbig : 2 ^ 93 ≤ big) (Rr : Rounding rnd) {o : Opt3} {P : Nat} (ho : o.Accepted P)
    (hm : o.mode < 2) (hf : o.rflag = false) (hloop : o.nloop ≤ 32) {a : Args3} (ha : o.args rnd P = some a)
    {f : Nat → Fft3 ℝ} (S : SetUp3F ar P a o.settings f) (hio : ∀ r < P, (a.ins r).count ≤ (a.outs r).count)
    (e : Bool) (J J' : Nat → Nat → Nat → Junk) {m : Nat → LMem ℝ} (hb : Bufs P f 0 m) (hr : RoomBack P a o.settings m)
    (hs : 4 * (a.N * (Real.sqrt a.N * (o.largest + 1 / 2 ^ 100))) ≤ big) :
    ∃ m' eps, Terminates e P (fun r => o.runFl ar rnd r (a.ins r) (f r) (J r) (J' r)) m m' ∧
      epsmax P (fun r => o.validateFl ar rnd r (a.ins r) ((m' r).ub 0)) = some eps ∧ 0 ≤ eps ∧
      eps ≤ o.nloop / 2 ^ 9 * (Real.sqrt a.N * (o.largest + 1 / 2 ^ 100)) + (o.largest + 1 / 2 ^ 100) / 2 ^ 23 := by
  have htw := (float_setup S.args R T (ht.trans (by norm_num)) (le_trans (by norm_num) hbig)).1
  obtain ⟨h2, h3⟩ := float_norm S.args
  have hN := S.args.N_le
  have hN0 := S.args.N_pos
  have t0 := R.t0
  have hl : (o.nloop : ℝ) ≤ 32 := by exact_mod_cast hloop
  have q1 : a.N * tiny ≤ 2 ^ 93 * (1 / 2 ^ 120) := by gcongr
  have q2 : (o.nloop : ℝ) * (a.N * tiny) ≤ 32 * (2 ^ 93 * (1 / 2 ^ 120)) := by gcongr
  have q3 : ((o.nloop : ℝ) + 2) * tiny ≤ (32 + 2) * (1 / 2 ^ 120) := by gcongr
  obtain ⟨m', eps, k1, k2, k3, k4⟩ := numbers3 (g := 1 / 2 ^ 10) (τ := 1 / 2 ^ 100) R T (by norm_num) (by norm_num)
    (ht.trans (by norm_num)) (by positivity) Rr ho hm hf ha S htw hio e J J' hb hr (hN.trans (le_trans (by norm_num) hbig))
    (by norm_num at h2 ⊢; linarith) h3 (le_trans (mul_le_mul_of_nonneg_right hl (by positivity)) (by norm_num)) (q2.trans (by norm_num))
    (by norm_num at q3 ⊢; linarith) hs
  refine ⟨m', eps, k1, k2, k3, k4.trans (le_of_eq ?_)⟩
  ring

/-- The bound for given precision. -/
theorem Driver.numbers2 {g τ : ℝ} (R : RoundOK ar u tiny big) (T : TrigOK ar v cc tiny big) (hu : u ≤ 1 / 100)
    (hv : v ≤ 1 / 100) (ht : tiny ≤ 1 / 100) (hd : 0 ≤ d) (Rr : Rounding rnd) {o : Opt2} {P : Nat} (ho : o.Accepted P)
    (hm : o.mode < 2) (hf : o.rflag = false) {w : Int} {a : Args2} (ha : o.args rnd P = some a) {f : Nat → Fft2 ℝ}
    (S : SetUp2F ar w P a o.settings f) (htw : a.TwiddlesNear ar d)
    (hio : ∀ r < P, (a.ins r).count ≤ (a.outs r).count) (e : Bool) (J J' : Nat → Nat → Nat → Junk)
    {m : Nat → LMem ℝ} (hb : Bufs2 P f 0 m) (hNb : a.N ≤ big)
    (hE : a.fftErr2 u d ≤ 1 / 100) (hC : a.cycle2 u v d ≤ 1 + g) (hg : o.nloop * g ≤ 1 / 32)
    (h1 : o.nloop * (a.N * tiny) ≤ 1 / 32) (h2 : (o.nloop + 2) * tiny * 4 ≤ τ)
    (hs : 4 * (a.N * (Real.sqrt a.N * (o.largest + τ))) ≤ big) :
    ∃ m' eps, Terminates e P (fun r => o.runFl ar rnd r (a.ins r) (f r) (J r) (J' r)) m m' ∧
      epsmax P (fun r => o.validateFl ar rnd r (a.ins r) ((m' r).ub 0)) = some eps ∧ 0 ≤ eps ∧
      eps ≤ 2 * (o.nloop * g) * (Real.sqrt a.N * (o.largest + τ)) + 2 * u * (o.largest + τ) := by
  have u0 := R.u0
  have t0 := R.t0
  have hL := o.largest_nonneg ho
  have hN := S.args.one_le_N
  have hs1 : 1 ≤ Real.sqrt a.N := by rw [Real.one_le_sqrt]; exact hN
  have hC0 := Args2.one_le_cycle2 (a := a) u0 T.v0 (by linarith) hd
  have hE0 := a.fftErr2_nonneg u0 hd
  have τ0 : 0 ≤ τ := le_trans (by positivity) h2
  have hτ : tiny ≤ τ := by nlinarith [mul_nonneg (Nat.cast_nonneg (α := ℝ) o.nloop) t0]
  have hX : 0 ≤ Real.sqrt a.N * (o.largest + τ) := by positivity
  have hX1 : o.largest + τ ≤ Real.sqrt a.N * (o.largest + τ) := by nlinarith
  have hX2 : Real.sqrt a.N * (o.largest + τ) ≤ a.N * (Real.sqrt a.N * (o.largest + τ)) := by nlinarith
  have hB : ∀ k ≤ o.nloop, grown a.N tiny (Real.sqrt a.N * (3 / 2 * (o.largest + u * (o.largest + tiny)) + 2 * tiny)) k ≤
      8 / 5 * (Real.sqrt a.N * (o.largest + τ)) := fun k hk => grown_small hN t0 u0 hu hL h1 h2 hk
  have hB0 : ∀ k, 0 ≤ grown a.N tiny (Real.sqrt a.N * (3 / 2 * (o.largest + u * (o.largest + tiny)) + 2 * tiny)) k :=
    fun k => grown_nonneg (by linarith) t0 (by positivity) k
  obtain ⟨q1, q2⟩ := eps_small hC0 hC hg (hB0 o.nloop) (hB _ le_rfl) hX u0 hu hL t0 hτ
  have p1 : u * (o.largest + τ) ≤ 1 / 100 * (o.largest + τ) := by gcongr
  have p2 : (o.nloop * g) * (Real.sqrt a.N * (o.largest + τ)) ≤ 1 / 32 * (Real.sqrt a.N * (o.largest + τ)) := by gcongr
  obtain ⟨m', eps, k1, k2, k3, k4⟩ := C68_validation_2d_partial R T hu hv ht hd Rr ho hm hf ha S htw hio e J J' hb
    rfl hNb (by linarith) (fun k hk => (pass_small (by linarith) hC0 hC hg hk.le hE0 hE (hB0 k) (hB k hk.le) hX).trans hs)
    (by linarith)
  exact ⟨m', eps, k1, k2, k3, k4.trans q2⟩

/-- **C68 in numbers, 2d, double precision (`u = v = 2^-53`, `cos` and `sin` accurate to `2^-52`)**: for every grid the library accepts and
less than `2^31` passes the error printed is at most `nloop*sqrt(N)*V/2^35`, plus `V/2^52` for the conversion of
the data; `N` is the number of grid points and `V` the largest number of the data (plus a tiny number). -/
theorem C68_double_2d_partial (R : RoundOK ar (1 / 2 ^ 53) tiny big) (T : TrigOK ar (1 / 2 ^ 53) (1 / 2 ^ 52) tiny big)
    (ht : tiny ≤ 1 / 2 ^ 200) (hbig : 2 ^ 93 ≤ big) (Rr : Rounding rnd) {o : Opt2} {P : Nat} (ho : o.Accepted P)
    (hm : o.mode < 2) (hf : o.rflag = false) (hloop : o.nloop ≤ 2 ^ 31) {w : Int} {a : Args2} (ha : o.args rnd P = some a)
    {f : Nat → Fft2 ℝ} (S : SetUp2F ar w P a o.settings f) (hio : ∀ r < P, (a.ins r).count ≤ (a.outs r).count)
    (e : Bool) (J J' : Nat → Nat → Nat → Junk) {m : Nat → LMem ℝ} (hb : Bufs2 P f 0 m)
    (hs : 4 * (a.N * (Real.sqrt a.N * (o.largest + 1 / 2 ^ 100))) ≤ big) :
    ∃ m' eps, Terminates e P (fun r => o.runFl ar rnd r (a.ins r) (f r) (J r) (J' r)) m m' ∧
      epsmax P (fun r => o.validateFl ar rnd r (a.ins r) ((m' r).ub 0)) = some eps ∧ 0 ≤ eps ∧
      eps ≤ o.nloop / 2 ^ 35 * (Real.sqrt a.N * (o.largest + 1 / 2 ^ 100)) + (o.largest + 1 / 2 ^ 100) / 2 ^ 52 := by
  have htw := (double_setup2 S.args R T (ht.trans (by norm_num)) (le_trans (by norm_num) hbig)).1
  obtain ⟨h2, h3⟩ := double_norm2 S.args
  have hN := S.args.N_le
  have hN0 := S.args.N_pos
  have t0 := R.t0
  have hl : (o.nloop : ℝ) ≤ 2 ^ 31 := by exact_mod_cast hloop
  have q1 : a.N * tiny ≤ 2 ^ 93 * (1 / 2 ^ 200) := by gcongr; exact hN.trans (by norm_num)
  have q2 : (o.nloop : ℝ) * (a.N * tiny) ≤ 2 ^ 31 * (2 ^ 93 * (1 / 2 ^ 200)) := by gcongr
  have q3 : ((o.nloop : ℝ) + 2) * tiny ≤ (2 ^ 31 + 2) * (1 / 2 ^ 200) := by gcongr
  obtain ⟨m', eps, k1, k2, k3, k4⟩ := numbers2 (g := 1 / 2 ^ 36) (τ := 1 / 2 ^ 100) R T (by norm_num) (by norm_num)
    (ht.trans (by norm_num)) (by positivity) Rr ho hm hf ha S htw hio e J J' hb (hN.trans (le_trans (by norm_num) hbig))
    (by norm_num at h2 ⊢; linarith) h3 (le_trans (mul_le_mul_of_nonneg_right hl (by positivity)) (by norm_num)) (q2.trans (by norm_num))
    (by norm_num at q3 ⊢; linarith) hs
  refine ⟨m', eps, k1, k2, k3, k4.trans (le_of_eq ?_)⟩
  ring

/-- **C68 in numbers, 2d, single precision (`u = 2^-24`)**: for every grid the library accepts and
at most 32 passes the error printed is at most `nloop*sqrt(N)*V/2^9`, plus `V/2^23` for the conversion of
the data; `N` is the number of grid points and `V` the largest number of the data (plus a tiny number). -/
theorem C68_float_2d_partial (R : RoundOK ar (1 / 2 ^ 24) tiny big) (T : TrigOK ar (1 / 2 ^ 53) (1 / 2 ^ 52) tiny big)
    (ht : tiny ≤ 1 / 2 ^ 120) (hbig : 2 ^ 93 ≤ big) (Rr : Rounding rnd) {o : Opt2} {P : Nat} (ho : o.Accepted P)
    (hm : o.mode < 2) (hf : o.rflag = false) (hloop : o.nloop ≤ 32) {w : Int} {a : Args2} (ha : o.args rnd P = some a)
    {f : Nat → Fft2 ℝ} (S : SetUp2F ar w P a o.settings f) (hio : ∀ r < P, (a.ins r).count ≤ (a.outs r).count)
    (e : Bool) (J J' : Nat → Nat → Nat → Junk) {m : Nat → LMem ℝ} (hb : Bufs2 P f 0 m)
    (hs : 4 * (a.N * (Real.sqrt a.N * (o.largest + 1 / 2 ^ 100))) ≤ big) :
    ∃ m' eps, Terminates e P (fun r => o.runFl ar rnd r (a.ins r) (f r) (J r) (J' r)) m m' ∧
      epsmax P (fun r => o.validateFl ar rnd r (a.ins r) ((m' r).ub 0)) = some eps ∧ 0 ≤ eps ∧
      eps ≤ o.nloop / 2 ^ 9 * (Real.sqrt a.N * (o.largest + 1 / 2 ^ 100)) + (o.largest + 1 / 2 ^ 100) / 2 ^ 23 := by
  have htw := (float_setup2 S.args R T (ht.trans (by norm_num)) (le_trans (by norm_num) hbig)).1
  obtain ⟨h2, h3⟩ := float_norm2 S.args
  have hN := S.args.N_le
  have hN0 := S.args.N_pos
  have t0 := R.t0
  have hl : (o.nloop : ℝ) ≤ 32 := by exact_mod_cast hloop
  have q1 : a.N * tiny ≤ 2 ^ 93 * (1 / 2 ^ 120) := by gcongr; exact hN.trans (by norm_num)
  have q2 : (o.nloop : ℝ) * (a.N * tiny) ≤ 32 * (2 ^ 93 * (1 / 2 ^ 120)) := by gcongr
  have q3 : ((o.nloop : ℝ) + 2) * tiny ≤ (32 + 2) * (1 / 2 ^ 120) := by gcongr
  obtain ⟨m', eps, k1, k2, k3, k4⟩ := numbers2 (g := 1 / 2 ^ 10) (τ := 1 / 2 ^ 100) R T (by norm_num) (by norm_num)
    (ht.trans (by norm_num)) (by positivity) Rr ho hm hf ha S htw hio e J J' hb (hN.trans (le_trans (by norm_num) hbig))
    (by norm_num at h2 ⊢; linarith) h3 (le_trans (mul_le_mul_of_nonneg_right hl (by positivity)) (by norm_num)) (q2.trans (by norm_num))
    (by norm_num at q3 ⊢; linarith) hs
  refine ⟨m', eps, k1, k2, k3, k4.trans (le_of_eq ?_)⟩
  ring

/-! ## Whole programs -/

theorem Driver.Opt3.largest_le {o : Opt3} {P : Nat} (ho : o.Accepted P) : o.largest ≤ 2 ^ 33 := by
  unfold Opt3.largest
  have hx : (o.nx : ℝ) < 2 ^ 31 := by exact_mod_cast ho.nx.2
  have hy : (o.ny : ℝ) < 2 ^ 31 := by exact_mod_cast ho.ny.2
  have hz : (o.nz : ℝ) < 2 ^ 31 := by exact_mod_cast ho.nz.2
  rcases o.iflag with _ | _ | _ | n
  · positivity
  · norm_num
  · dsimp only
    linarith
  · norm_num

/-- **C68 (test3d in mode 0, double precision).**  `test3d -v` in mode 0 with the same processor grid for input and output (the default):
for every supported grid, every number of ranks, all data, less than `2^31` passes and all settings, `setup` succeeds on
all ranks, every execution with the memory that the program allocates runs to the end, and the error printed is at
most `nloop*sqrt(N)*V/2^35+V/2^52`; `N` is the number of grid points and `V` the largest number of the data (plus a
tiny number). -/
theorem C68_test3d (R : RoundOK ar (1 / 2 ^ 53) tiny big) (T : TrigOK ar (1 / 2 ^ 53) (1 / 2 ^ 52) tiny big)
    (ht : tiny ≤ 1 / 2 ^ 200) (hbig : 2 ^ 180 ≤ big) (Rr : Rounding rnd) {o : Opt3} {P : Nat} (ho : o.Accepted P)
    (hsm : o.Small P) (hloop : o.nloop ≤ 2 ^ 31) (hx : Supported o.nx) (hy : Supported o.ny) (hz : Supported o.nz) (hm : o.mode = 0) (hp : o.pin = o.pout) :
    ∃ (a : Args3) (f : Nat → Fft3 ℝ), o.args rnd P = some a ∧
      (∀ r < P, fft3SetupF ar P r a o.settings = some (.ok (f r))) ∧
      ∀ (e : Bool) (J J' : Nat → Nat → Nat → Junk) (m : Nat → LMem ℝ),
        (∀ r < P, accessible ((m r).ub 0) 0 (2 * (f r).fftsize) ∧ accessible (m r).sb 0 (f r).sendsize ∧
          accessible (m r).rb 0 (f r).recvsize) →
        ∃ m' eps, Terminates e P (fun r => o.runFl ar rnd r (a.ins r) (f r) (J r) (J' r)) m m' ∧
          epsmax P (fun r => o.validateFl ar rnd r (a.ins r) ((m' r).ub 0)) = some eps ∧ 0 ≤ eps ∧
          eps ≤ o.nloop / 2 ^ 35 * (Real.sqrt ((o.nx : ℝ) * o.ny * o.nz) * (o.largest + 1 / 2 ^ 100)) + (o.largest + 1 / 2 ^ 100) / 2 ^ 52 := by
  obtain ⟨a, ha, hv, hn⟩ := C60_args_valid Rr ho hsm hx hy hz
  have hst : o.settings.Valid := by
    unfold Settings.Valid Opt3.settings
    exact ho.pflag
  obtain ⟨f, S⟩ := setUp3F_exists ar hv hst
  have hgrid : o.inGrid rnd P = o.outGrid rnd P := by
    unfold Opt3.inGrid Opt3.outGrid
    rw [hp, if_pos (Or.inl hm)]
  have hsame : a.permute = 0 ∧ a.ins = a.outs := by
    have ha' := ha
    unfold Opt3.args at ha'
    rw [hgrid] at ha'
    simp only [Option.bind_eq_some_iff, Option.map_eq_some_iff] at ha'
    obtain ⟨p, h1, q, h2, rfl⟩ := ha'
    rw [h1] at h2
    cases h2
    simp [hm]
  have eN : a.N = (o.nx : ℝ) * o.ny * o.nz := by
    unfold Args3.N
    rw [hn.1, hn.2.1, hn.2.2]
    push_cast
    rfl
  have hL := o.largest_nonneg ho
  have hL2 := o.largest_le ho
  have t0 := R.t0
  refine ⟨a, f, ha, S.result, ?_⟩
  intro e J J' m hmem
  have hb : Bufs P f 0 m :=
    ⟨fun r hr => (hmem r hr).1, fun r hr => (hmem r hr).2.1, fun r hr => (hmem r hr).2.2⟩
  have hroom : RoomBack P a o.settings m := Or.inr (Or.inl ⟨hsame.1, fun r _ => by rw [hsame.2]⟩)
  cases hf : o.rflag with
  | false =>
    obtain ⟨m', eps, k1, k2, k3, k4⟩ := C68_double_partial R T ht (le_trans (by norm_num) hbig) Rr ho (by omega) hf hloop ha S
      (fun r _ => by rw [hsame.2]) e J J' hb hroom (by
        have l0 := hv.one_le_N
        have l5 : a.N ≤ 2 ^ 93 := hv.N_le
        have l2 : Real.sqrt a.N ≤ 2 ^ 47 := by
          rw [Real.sqrt_le_left (by positivity)]
          exact l5.trans (by norm_num)
        have l3 := o.largest_le ho
        have l4 := o.largest_nonneg ho
        calc _ ≤ 4 * ((2:ℝ) ^ 93 * (2 ^ 47 * (2 ^ 33 + 1 / 2 ^ 100))) := by gcongr
          _ ≤ _ := le_trans (by norm_num) hbig)
    rw [eN] at k4
    exact ⟨m', eps, k1, k2, k3, k4⟩
  | true =>
    have q : (1 + 1 / 2 ^ 53) * (1 / 2 ^ 53 * (o.largest + tiny)) ≤ (o.largest + 1 / 2 ^ 100) / 2 ^ 52 := by
      have : tiny ≤ 1 / 2 ^ 100 := ht.trans (by norm_num)
      calc (1 + 1 / 2 ^ 53) * (1 / 2 ^ 53 * (o.largest + tiny)) ≤ (1 + 1 / 2 ^ 53) * (1 / 2 ^ 53 * (o.largest + 1 / 2 ^ 100)) := by gcongr
        _ ≤ _ := by
          have : 0 ≤ o.largest + 1 / 2 ^ 100 := by positivity
          norm_num at this ⊢
          linarith
    obtain ⟨m', eps, k1, k2, k3, k4⟩ := C68_remap_only_partial R Rr ho (by omega) hf ha S e J J' hb hroom
      (hL2.trans (le_trans (by norm_num) hbig)) (by
        have : 1 / 2 ^ 53 * (o.largest + tiny) ≤ 1 / 2 ^ 53 * (2 ^ 33 + 1 / 2 ^ 200) := by gcongr
        exact this.trans (le_trans (by norm_num) hbig))
    refine ⟨m', eps, k1, k2, k3, (k4.trans q).trans ?_⟩
    have : 0 ≤ o.nloop / 2 ^ 35 * (Real.sqrt ((o.nx : ℝ) * o.ny * o.nz) * (o.largest + 1 / 2 ^ 100)) := by positivity
    linarith

/-- **C68 (test3d in mode 0, single precision).**  At most 32 passes; the numbers must not overflow. -/
theorem C68_test3d_float (R : RoundOK ar (1 / 2 ^ 24) tiny big) (T : TrigOK ar (1 / 2 ^ 53) (1 / 2 ^ 52) tiny big)
    (ht : tiny ≤ 1 / 2 ^ 120) (hbig : 2 ^ 93 ≤ big) (Rr : Rounding rnd) {o : Opt3} {P : Nat} (ho : o.Accepted P)
    (hsm : o.Small P) (hloop : o.nloop ≤ 32) (hx : Supported o.nx) (hy : Supported o.ny) (hz : Supported o.nz) (hm : o.mode = 0) (hp : o.pin = o.pout)
    (hs : 4 * (((o.nx : ℝ) * o.ny * o.nz) * (Real.sqrt ((o.nx : ℝ) * o.ny * o.nz) * (o.largest + 1 / 2 ^ 100))) ≤ big) :
    ∃ (a : Args3) (f : Nat → Fft3 ℝ), o.args rnd P = some a ∧
      (∀ r < P, fft3SetupF ar P r a o.settings = some (.ok (f r))) ∧
      ∀ (e : Bool) (J J' : Nat → Nat → Nat → Junk) (m : Nat → LMem ℝ),
        (∀ r < P, accessible ((m r).ub 0) 0 (2 * (f r).fftsize) ∧ accessible (m r).sb 0 (f r).sendsize ∧
          accessible (m r).rb 0 (f r).recvsize) →
        ∃ m' eps, Terminates e P (fun r => o.runFl ar rnd r (a.ins r) (f r) (J r) (J' r)) m m' ∧
          epsmax P (fun r => o.validateFl ar rnd r (a.ins r) ((m' r).ub 0)) = some eps ∧ 0 ≤ eps ∧
          eps ≤ o.nloop / 2 ^ 9 * (Real.sqrt ((o.nx : ℝ) * o.ny * o.nz) * (o.largest + 1 / 2 ^ 100)) + (o.largest + 1 / 2 ^ 100) / 2 ^ 23 := by
  obtain ⟨a, ha, hv, hn⟩ := C60_args_valid Rr ho hsm hx hy hz
  have hst : o.settings.Valid := by
    unfold Settings.Valid Opt3.settings
    exact ho.pflag
  obtain ⟨f, S⟩ := setUp3F_exists ar hv hst
  have hgrid : o.inGrid rnd P = o.outGrid rnd P := by
    unfold Opt3.inGrid Opt3.outGrid
    rw [hp, if_pos (Or.inl hm)]
  have hsame : a.permute = 0 ∧ a.ins = a.outs := by
    have ha' := ha
    unfold Opt3.args at ha'
    rw [hgrid] at ha'
    simp only [Option.bind_eq_some_iff, Option.map_eq_some_iff] at ha'
    obtain ⟨p, h1, q, h2, rfl⟩ := ha'
    rw [h1] at h2
    cases h2
    simp [hm]
  have eN : a.N = (o.nx : ℝ) * o.ny * o.nz := by
    unfold Args3.N
    rw [hn.1, hn.2.1, hn.2.2]
    push_cast
    rfl
  have hL := o.largest_nonneg ho
  have hL2 := o.largest_le ho
  have t0 := R.t0
  refine ⟨a, f, ha, S.result, ?_⟩
  intro e J J' m hmem
  have hb : Bufs P f 0 m :=
    ⟨fun r hr => (hmem r hr).1, fun r hr => (hmem r hr).2.1, fun r hr => (hmem r hr).2.2⟩
  have hroom : RoomBack P a o.settings m := Or.inr (Or.inl ⟨hsame.1, fun r _ => by rw [hsame.2]⟩)
  cases hf : o.rflag with
  | false =>
    obtain ⟨m', eps, k1, k2, k3, k4⟩ := C68_float_partial R T ht (le_trans (by norm_num) hbig) Rr ho (by omega) hf hloop ha S
      (fun r _ => by rw [hsame.2]) e J J' hb hroom (by rw [eN]; exact hs)
    rw [eN] at k4
    exact ⟨m', eps, k1, k2, k3, k4⟩
  | true =>
    have q : (1 + 1 / 2 ^ 24) * (1 / 2 ^ 24 * (o.largest + tiny)) ≤ (o.largest + 1 / 2 ^ 100) / 2 ^ 23 := by
      have : tiny ≤ 1 / 2 ^ 100 := ht.trans (by norm_num)
      calc (1 + 1 / 2 ^ 24) * (1 / 2 ^ 24 * (o.largest + tiny)) ≤ (1 + 1 / 2 ^ 24) * (1 / 2 ^ 24 * (o.largest + 1 / 2 ^ 100)) := by gcongr
        _ ≤ _ := by
          have : 0 ≤ o.largest + 1 / 2 ^ 100 := by positivity
          norm_num at this ⊢
          linarith
    obtain ⟨m', eps, k1, k2, k3, k4⟩ := C68_remap_only_partial R Rr ho (by omega) hf ha S e J J' hb hroom
      (hL2.trans (le_trans (by norm_num) hbig)) (by
        have : 1 / 2 ^ 24 * (o.largest + tiny) ≤ 1 / 2 ^ 24 * (2 ^ 33 + 1 / 2 ^ 120) := by gcongr
        exact this.trans (le_trans (by norm_num) hbig))
    refine ⟨m', eps, k1, k2, k3, (k4.trans q).trans ?_⟩
    have : 0 ≤ o.nloop / 2 ^ 9 * (Real.sqrt ((o.nx : ℝ) * o.ny * o.nz) * (o.largest + 1 / 2 ^ 100)) := by positivity
    linarith

theorem Driver.Opt2.largest_le {o : Opt2} {P : Nat} (ho : o.Accepted P) : o.largest ≤ 2 ^ 33 := by
  unfold Opt2.largest
  have hx : (o.nx : ℝ) < 2 ^ 31 := by exact_mod_cast ho.nx.2
  have hy : (o.ny : ℝ) < 2 ^ 31 := by exact_mod_cast ho.ny.2
  rcases o.iflag with _ | _ | _ | n
  · positivity
  · norm_num
  · dsimp only
    linarith
  · norm_num

/-- **C68 (test2d in mode 0, double precision).**  `test2d -v` in mode 0 with the same processor grid for input and output:
for every supported grid, every number of ranks, all data, less than `2^31` passes and all settings, `setup` succeeds on
all ranks, every execution with the memory that the program allocates runs to the end, and the error printed is at
most `nloop*sqrt(N)*V/2^35+V/2^52`; `N` is the number of grid points and `V` the largest number of the data (plus a
tiny number). -/
theorem C68_test2d (R : RoundOK ar (1 / 2 ^ 53) tiny big) (T : TrigOK ar (1 / 2 ^ 53) (1 / 2 ^ 52) tiny big)
    (ht : tiny ≤ 1 / 2 ^ 200) (hbig : 2 ^ 180 ≤ big) (Rr : Rounding rnd) {o : Opt2} {P : Nat} (ho : o.Accepted P)
    (hsm : o.Small P) (hloop : o.nloop ≤ 2 ^ 31) (hx : Supported o.nx) (hy : Supported o.ny) (hm : o.mode = 0) (hp : o.pin = o.pout)
    (hg : o.pin ≠ (0, 0)) {w : Int} (hw : o.pflag = 2 → w = 1) :
    ∃ (a : Args2) (f : Nat → Fft2 ℝ), o.args rnd P = some a ∧
      (∀ r < P, fft2SetupF ar w P r a o.settings = some (.ok (f r))) ∧
      ∀ (e : Bool) (J J' : Nat → Nat → Nat → Junk) (m : Nat → LMem ℝ),
        (∀ r < P, accessible ((m r).ub 0) 0 (2 * (f r).fftsize) ∧ accessible (m r).sb 0 (f r).sendsize ∧
          accessible (m r).rb 0 (f r).recvsize) →
        ∃ m' eps, Terminates e P (fun r => o.runFl ar rnd r (a.ins r) (f r) (J r) (J' r)) m m' ∧
          epsmax P (fun r => o.validateFl ar rnd r (a.ins r) ((m' r).ub 0)) = some eps ∧ 0 ≤ eps ∧
          eps ≤ o.nloop / 2 ^ 35 * (Real.sqrt ((o.nx : ℝ) * o.ny) * (o.largest + 1 / 2 ^ 100)) + (o.largest + 1 / 2 ^ 100) / 2 ^ 52 := by
  obtain ⟨a, ha, hv, hn⟩ := C60_args_valid_2d_partial Rr ho hsm hx hy (Or.inl hm)
  have hst : o.settings.Valid2 w := by
    unfold Settings.Valid2 FlagOk2 Opt2.settings
    have := ho.pflag
    tauto
  obtain ⟨f, S⟩ := setUp2F_exists ar hv hst
  have hne : o.pin.1 ≠ 0 ∨ o.pin.2 ≠ 0 := by
    by_contra h
    push Not at h
    exact hg (Prod.ext h.1 h.2)
  have hgrid : o.inGrid rnd P = o.outGrid P := by
    unfold Opt2.inGrid Opt2.outGrid
    rw [← hp, if_pos hne, if_pos hne]
  have hsame : a.ins = a.outs := by
    have ha' := ha
    unfold Opt2.args at ha'
    rw [hgrid] at ha'
    simp only [Option.bind_eq_some_iff, Option.map_eq_some_iff] at ha'
    obtain ⟨p, h1, q, h2, rfl⟩ := ha'
    rw [h1] at h2
    cases h2
    rfl
  have eN : a.N = (o.nx : ℝ) * o.ny := by
    unfold Args2.N
    rw [hn.1, hn.2]
    push_cast
    rfl
  have hL := o.largest_nonneg ho
  have hL2 := o.largest_le ho
  have t0 := R.t0
  refine ⟨a, f, ha, S.result, ?_⟩
  intro e J J' m hmem
  have hb : Bufs2 P f 0 m :=
    ⟨fun r hr => (hmem r hr).1, fun r hr => (hmem r hr).2.1, fun r hr => (hmem r hr).2.2⟩
  cases hf : o.rflag with
  | false =>
    obtain ⟨m', eps, k1, k2, k3, k4⟩ := C68_double_2d_partial R T ht (le_trans (by norm_num) hbig) Rr ho (by omega) hf hloop ha S
      (fun r _ => by rw [hsame]) e J J' hb (by
        have l0 := hv.one_le_N
        have l5 : a.N ≤ 2 ^ 62 := hv.N_le
        have l2 : Real.sqrt a.N ≤ 2 ^ 47 := by
          rw [Real.sqrt_le_left (by positivity)]
          exact l5.trans (by norm_num)
        have l3 := o.largest_le ho
        have l4 := o.largest_nonneg ho
        calc _ ≤ 4 * ((2:ℝ) ^ 62 * (2 ^ 47 * (2 ^ 33 + 1 / 2 ^ 100))) := by gcongr
          _ ≤ _ := le_trans (by norm_num) hbig)
    rw [eN] at k4
    exact ⟨m', eps, k1, k2, k3, k4⟩
  | true =>
    have q : (1 + 1 / 2 ^ 53) * (1 / 2 ^ 53 * (o.largest + tiny)) ≤ (o.largest + 1 / 2 ^ 100) / 2 ^ 52 := by
      have : tiny ≤ 1 / 2 ^ 100 := ht.trans (by norm_num)
      calc (1 + 1 / 2 ^ 53) * (1 / 2 ^ 53 * (o.largest + tiny)) ≤ (1 + 1 / 2 ^ 53) * (1 / 2 ^ 53 * (o.largest + 1 / 2 ^ 100)) := by gcongr
        _ ≤ _ := by
          have : 0 ≤ o.largest + 1 / 2 ^ 100 := by positivity
          norm_num at this ⊢
          linarith
    obtain ⟨m', eps, k1, k2, k3, k4⟩ := C68_remap_only_2d R Rr ho (by omega) hf ha S e J J' hb
      (hL2.trans (le_trans (by norm_num) hbig)) (by
        have : 1 / 2 ^ 53 * (o.largest + tiny) ≤ 1 / 2 ^ 53 * (2 ^ 33 + 1 / 2 ^ 200) := by gcongr
        exact this.trans (le_trans (by norm_num) hbig))
    refine ⟨m', eps, k1, k2, k3, (k4.trans q).trans ?_⟩
    have : 0 ≤ o.nloop / 2 ^ 35 * (Real.sqrt ((o.nx : ℝ) * o.ny) * (o.largest + 1 / 2 ^ 100)) := by positivity
    linarith

/-- **C68 (test2d in mode 0, single precision).**  At most 32 passes; the numbers must not overflow. -/
theorem C68_test2d_float (R : RoundOK ar (1 / 2 ^ 24) tiny big) (T : TrigOK ar (1 / 2 ^ 53) (1 / 2 ^ 52) tiny big)
    (ht : tiny ≤ 1 / 2 ^ 120) (hbig : 2 ^ 93 ≤ big) (Rr : Rounding rnd) {o : Opt2} {P : Nat} (ho : o.Accepted P)
    (hsm : o.Small P) (hloop : o.nloop ≤ 32) (hx : Supported o.nx) (hy : Supported o.ny) (hm : o.mode = 0) (hp : o.pin = o.pout)
    (hg : o.pin ≠ (0, 0)) {w : Int} (hw : o.pflag = 2 → w = 1)
    (hs : 4 * (((o.nx : ℝ) * o.ny) * (Real.sqrt ((o.nx : ℝ) * o.ny) * (o.largest + 1 / 2 ^ 100))) ≤ big) :
    ∃ (a : Args2) (f : Nat → Fft2 ℝ), o.args rnd P = some a ∧
      (∀ r < P, fft2SetupF ar w P r a o.settings = some (.ok (f r))) ∧
      ∀ (e : Bool) (J J' : Nat → Nat → Nat → Junk) (m : Nat → LMem ℝ),
        (∀ r < P, accessible ((m r).ub 0) 0 (2 * (f r).fftsize) ∧ accessible (m r).sb 0 (f r).sendsize ∧
          accessible (m r).rb 0 (f r).recvsize) →
        ∃ m' eps, Terminates e P (fun r => o.runFl ar rnd r (a.ins r) (f r) (J r) (J' r)) m m' ∧
          epsmax P (fun r => o.validateFl ar rnd r (a.ins r) ((m' r).ub 0)) = some eps ∧ 0 ≤ eps ∧
          eps ≤ o.nloop / 2 ^ 9 * (Real.sqrt ((o.nx : ℝ) * o.ny) * (o.largest + 1 / 2 ^ 100)) + (o.largest + 1 / 2 ^ 100) / 2 ^ 23 := by
  obtain ⟨a, ha, hv, hn⟩ := C60_args_valid_2d_partial Rr ho hsm hx hy (Or.inl hm)
  have hst : o.settings.Valid2 w := by
    unfold Settings.Valid2 FlagOk2 Opt2.settings
    have := ho.pflag
    tauto
  obtain ⟨f, S⟩ := setUp2F_exists ar hv hst
  have hne : o.pin.1 ≠ 0 ∨ o.pin.2 ≠ 0 := by
    by_contra h
    push Not at h
    exact hg (Prod.ext h.1 h.2)
  have hgrid : o.inGrid rnd P = o.outGrid P := by
    unfold Opt2.inGrid Opt2.outGrid
    rw [← hp, if_pos hne, if_pos hne]
  have hsame : a.ins = a.outs := by
    have ha' := ha
    unfold Opt2.args at ha'
    rw [hgrid] at ha'
    simp only [Option.bind_eq_some_iff, Option.map_eq_some_iff] at ha'
    obtain ⟨p, h1, q, h2, rfl⟩ := ha'
    rw [h1] at h2
    cases h2
    rfl
  have eN : a.N = (o.nx : ℝ) * o.ny := by
    unfold Args2.N
    rw [hn.1, hn.2]
    push_cast
    rfl
  have hL := o.largest_nonneg ho
  have hL2 := o.largest_le ho
  have t0 := R.t0
  refine ⟨a, f, ha, S.result, ?_⟩
  intro e J J' m hmem
  have hb : Bufs2 P f 0 m :=
    ⟨fun r hr => (hmem r hr).1, fun r hr => (hmem r hr).2.1, fun r hr => (hmem r hr).2.2⟩
  cases hf : o.rflag with
  | false =>
    obtain ⟨m', eps, k1, k2, k3, k4⟩ := C68_float_2d_partial R T ht (le_trans (by norm_num) hbig) Rr ho (by omega) hf hloop ha S
      (fun r _ => by rw [hsame]) e J J' hb (by rw [eN]; exact hs)
    rw [eN] at k4
    exact ⟨m', eps, k1, k2, k3, k4⟩
  | true =>
    have q : (1 + 1 / 2 ^ 24) * (1 / 2 ^ 24 * (o.largest + tiny)) ≤ (o.largest + 1 / 2 ^ 100) / 2 ^ 23 := by
      have : tiny ≤ 1 / 2 ^ 100 := ht.trans (by norm_num)
      calc (1 + 1 / 2 ^ 24) * (1 / 2 ^ 24 * (o.largest + tiny)) ≤ (1 + 1 / 2 ^ 24) * (1 / 2 ^ 24 * (o.largest + 1 / 2 ^ 100)) := by gcongr
        _ ≤ _ := by
          have : 0 ≤ o.largest + 1 / 2 ^ 100 := by positivity
          norm_num at this ⊢
          linarith
    obtain ⟨m', eps, k1, k2, k3, k4⟩ := C68_remap_only_2d R Rr ho (by omega) hf ha S e J J' hb
      (hL2.trans (le_trans (by norm_num) hbig)) (by
        have : 1 / 2 ^ 24 * (o.largest + tiny) ≤ 1 / 2 ^ 24 * (2 ^ 33 + 1 / 2 ^ 120) := by gcongr
        exact this.trans (le_trans (by norm_num) hbig))
    refine ⟨m', eps, k1, k2, k3, (k4.trans q).trans ?_⟩
    have : 0 ≤ o.nloop / 2 ^ 9 * (Real.sqrt ((o.nx : ℝ) * o.ny) * (o.largest + 1 / 2 ^ 100)) := by positivity
    linarith

/-- Example: `mpirun -np 7 test3d -g 60 8 8 -i random 1 -n 10 -v` in an arithmetic with 53 binary digits prints an error of at
most `2^-25`. -/
example : let o : Opt3 := { default3 with iflag := .random 1, nloop := 10, nx := 60 }
    ∃ (a : Args3) (f : Nat → Fft3 ℝ), o.args rnd53 7 = some a ∧
      (∀ r < 7, fft3SetupF arith53 7 r a o.settings = some (.ok (f r))) ∧
      ∀ (e : Bool) (J J' : Nat → Nat → Nat → Junk) (m : Nat → LMem ℝ),
        (∀ r < 7, accessible ((m r).ub 0) 0 (2 * (f r).fftsize) ∧ accessible (m r).sb 0 (f r).sendsize ∧
          accessible (m r).rb 0 (f r).recvsize) →
        ∃ m' eps, Terminates e 7 (fun r => o.runFl arith53 rnd53 r (a.ins r) (f r) (J r) (J' r)) m m' ∧
          epsmax 7 (fun r => o.validateFl arith53 rnd53 r (a.ins r) ((m' r).ub 0)) = some eps ∧ 0 ≤ eps ∧
          eps ≤ 1 / 2 ^ 25 := by
  intro o
  have ho : o.Accepted 7 :=
    { default3_accepted (P := 7) (by decide) with
      nx := by decide
      seed := by
        intro n hn r hr
        cases hn
        omega }
  obtain ⟨a, f, h1, h2, h3⟩ := C68_test3d (arith53_round (2 ^ 180)) (arith53_trig (2 ^ 180)) (by positivity) le_rfl rounding53
    ho (by simp [o, Opt3.Small, default3]) (by decide) (supported_of (k := 3) (by decide) (by decide))
    (supported_of (k := 3) (by decide) (by decide)) (supported_of (k := 3) (by decide) (by decide)) rfl rfl
  refine ⟨a, f, h1, h2, fun e J J' m hm => ?_⟩
  obtain ⟨m', eps, k1, k2, k3, k4⟩ := h3 e J J' m hm
  refine ⟨m', eps, k1, k2, k3, k4.trans ?_⟩
  have e1 : o.largest = 1 := rfl
  have e2 : (o.nx : ℝ) * o.ny * o.nz = 3840 := by
    show ((60 : Nat) : ℝ) * ((8 : Nat) : ℝ) * ((8 : Nat) : ℝ) = 3840
    norm_num
  have e3 : Real.sqrt 3840 ≤ 62 := by
    rw [Real.sqrt_le_left (by norm_num)]
    norm_num
  have e4 : ((o.nloop : Nat) : ℝ) = 10 := by
    show ((10 : Nat) : ℝ) = 10
    norm_num
  rw [e1, e2, e4]
  calc _ ≤ (10 : ℝ) / 2 ^ 35 * (62 * (1 + 1 / 2 ^ 100)) + (1 + 1 / 2 ^ 100) / 2 ^ 52 := by gcongr
    _ ≤ _ := by norm_num

/-- Example: 6 ranks in a grid of 2 by 3, 8 by 8 points, index data. -/
example : let o : Opt2 := { default2 with iflag := .index, pin := (2, 3), pout := (2, 3) }
    ∃ (a : Args2) (f : Nat → Fft2 ℝ), o.args rnd53 6 = some a ∧
      (∀ r < 6, fft2SetupF arith53 1 6 r a o.settings = some (.ok (f r))) ∧
      ∀ (e : Bool) (J J' : Nat → Nat → Nat → Junk) (m : Nat → LMem ℝ),
        (∀ r < 6, accessible ((m r).ub 0) 0 (2 * (f r).fftsize) ∧ accessible (m r).sb 0 (f r).sendsize ∧
          accessible (m r).rb 0 (f r).recvsize) →
        ∃ m' eps, Terminates e 6 (fun r => o.runFl arith53 rnd53 r (a.ins r) (f r) (J r) (J' r)) m m' ∧
          epsmax 6 (fun r => o.validateFl arith53 rnd53 r (a.ins r) ((m' r).ub 0)) = some eps ∧ 0 ≤ eps ∧
          eps ≤ 1 / 2 ^ 27 := by
  intro o
  have ho : o.Accepted 6 :=
    { default2_accepted (P := 6) (by decide) with
      pin := Or.inr rfl
      pout := Or.inr rfl
      seed := fun n h => (nomatch h) }
  obtain ⟨a, f, h1, h2, h3⟩ := C68_test2d (arith53_round (2 ^ 180)) (arith53_trig (2 ^ 180)) (by positivity) le_rfl rounding53
    ho (by simp [o, Opt2.Small, default2]) (by decide) (supported_of (k := 3) (by decide) (by decide))
    (supported_of (k := 3) (by decide) (by decide)) rfl rfl (by decide) (w := 1) (fun _ => rfl)
  refine ⟨a, f, h1, h2, fun e J J' m hm => ?_⟩
  obtain ⟨m', eps, k1, k2, k3, k4⟩ := h3 e J J' m hm
  refine ⟨m', eps, k1, k2, k3, k4.trans ?_⟩
  have e1 : o.largest = 15 := by
    show ((8 : Nat) : ℝ) + ((8 : Nat) : ℝ) - 1 = 15
    norm_num
  have e2 : (o.nx : ℝ) * o.ny = 64 := by
    show ((8 : Nat) : ℝ) * ((8 : Nat) : ℝ) = 64
    norm_num
  have e3 : Real.sqrt 64 ≤ 8 := by
    rw [Real.sqrt_le_left (by norm_num)]
    norm_num
  have e4 : ((o.nloop : Nat) : ℝ) = 1 := by
    show ((1 : Nat) : ℝ) = 1
    norm_num
  rw [e1, e2, e4]
  calc _ ≤ (1 : ℝ) / 2 ^ 35 * (8 * (15 + 1 / 2 ^ 100)) + (15 + 1 / 2 ^ 100) / 2 ^ 52 := by gcongr
    _ ≤ _ := by norm_num

end FftMpi
