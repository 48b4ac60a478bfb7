import Verif.FftErr2

/-!
# Property C56: rounding errors of `FFT2d::compute`

The arithmetic is that of `RoundOK` (KissErr.lean) and `TrigOK` (PropsKissErr.lean).
-/

noncomputable section

namespace FftMpi

open Complex Finset

/-! ## 2d -/

/-- `f r` is what `setup` with the arithmetic `ar` has made on rank `r`. -/
structure SetUp2F (ar : Arith) (w : Int) (P : Nat) (a : Args2) (st : Settings) (f : Nat → Fft2 ℝ) : Prop where
  args : a.Valid P
  settings : st.Valid2 w
  result : ∀ r < P, fft2SetupF ar w P r a st = some (.ok (f r))

/-- On every rank the array `n` holds the values of `X` on the rank's box with errors of at most `err`. -/
def HoldsNear2 (P : Nat) (permute : Int) (bs : Nat → Box2) (n : Nat) (X : Grid2) (err : ℝ) (m : Nat → LMem ℝ) : Prop :=
  ∃ Y, Holds2 P permute bs n Y m ∧ ∀ r < P, ∀ i j, (bs r).Has i j → ‖Y i j - X i j‖ ≤ err

/-- Sum of the absolute values (and two tiny numbers each) over the grid. -/
def Args2.total (a : Args2) (tiny : ℝ) (X : Grid2) : ℝ :=
  ∑ i ∈ range a.nfast.toNat, ∑ j ∈ range a.nslow.toNat,
    (‖X (i : Nat) (j : Nat)‖ + 2 * tiny)

/-- Relative error of a 2d transform. -/
def Args2.fftErr (a : Args2) (u d : ℝ) : ℝ :=
  (1 + radixErr u d) ^ (Nat.log 2 a.nfast.toNat + Nat.log 2 a.nslow.toNat) - 1

/-- The twiddles of all plans have errors of at most `d`. -/
def Args2.TwiddlesNear (a : Args2) (ar : Arith) (d : ℝ) : Prop :=
  ∀ n, (n = a.nfast ∨ n = a.nslow) → FftMpi.TwiddlesNear ar n.toNat d

theorem SetUp2F.exact {ar : Arith} {w : Int} {P : Nat} {a : Args2} {st : Settings} {f : Nat → Fft2 ℝ}
    (S : SetUp2F ar w P a st f) :
    ∃ g, SetUp2 w P a st g ∧ ∀ r < P, (f r).Rounded ar (g r) (a.nfast * a.nslow) := by
  obtain ⟨g, hg⟩ := setUp2_exists S.args S.settings
  refine ⟨g, hg, fun r hr => ?_⟩
  obtain ⟨x, h1, h2⟩ := fft2SetupF_like ar S.args (hg.result r hr)
  rw [S.result r hr] at h1
  cases h1
  exact h2

theorem setUp2F_exists (ar : Arith) {w : Int} {P : Nat} {a : Args2} {st : Settings} (hv : a.Valid P) (hst : st.Valid2 w) :
    ∃ f, SetUp2F ar w P a st f := by
  obtain ⟨g, hg⟩ := setUp2_exists hv hst
  refine ⟨fun r => if h : r < P then (fft2SetupF_like ar hv (hg.result r h)).choose else g r, hv, hst, fun r hr => ?_⟩
  rw [dif_pos hr]
  exact (fft2SetupF_like ar hv (hg.result r hr)).choose_spec.1

/-- Objects with the same sizes. -/
theorem Bufs2.like {P : Nat} {f g : Nat → Fft2 ℝ} {n : Nat} {m : Nat → LMem ℝ} (hb : Bufs2 P f n m)
    (h : ∀ r < P, (f r).fftsize = (g r).fftsize ∧ (f r).sendsize = (g r).sendsize ∧ (f r).recvsize = (g r).recvsize) :
    Bufs2 P g n m where
  data r hr := by rw [← (h r hr).1]; exact hb.data r hr
  sb r hr := by rw [← (h r hr).2.1]; exact hb.sb r hr
  rb r hr := by rw [← (h r hr).2.2]; exact hb.rb r hr

theorem Kept2.like {P : Nat} {f g : Nat → Fft2 ℝ} {n : Nat} {m m' : Nat → LMem ℝ} (h : Kept2 P f n m m')
    (he : ∀ r < P, (f r).fftsize = (g r).fftsize) : Kept2 P g n m m' := fun r hr =>
  ⟨(h r hr).1, fun x hx => (h r hr).2 x (by rw [he r hr]; exact hx)⟩

theorem Args2.fftErr_nonneg {a : Args2} {u d : ℝ} (hu : 0 ≤ u) (hd : 0 ≤ d) : 0 ≤ a.fftErr u d := by
  have h0 := radixErr_nonneg hu hd
  have : 1 ≤ (1 + radixErr u d) ^ (Nat.log 2 a.nfast.toNat + Nat.log 2 a.nslow.toNat) :=
    one_le_pow₀ (by linarith)
  unfold Args2.fftErr
  linarith

theorem Args2.total_nonneg {a : Args2} {tiny : ℝ} (ht : 0 ≤ tiny) (X : Grid2) : 0 ≤ a.total tiny X :=
  sum_nonneg fun _ _ => sum_nonneg fun _ _ => by positivity

theorem Args2.Valid.smooth {P : Nat} {a : Args2} (hv : a.Valid P) {n : Int} (hn : n = a.nfast ∨ n = a.nslow) :
    2 ≤ n.toNat ∧ n.toNat < 2 ^ 31 ∧ ∀ q : Nat, q.Prime → q ∣ n.toNat → q = 2 ∨ q = 3 ∨ q = 5 := by
  have h1 := hv.fast; have h3 := hv.slow
  have h : 2 ≤ n ∧ n < 2 ^ 31 := by rcases hn with rfl | rfl <;> assumption
  refine ⟨by omega, by omega, fun q hq hd => hv.factors n hn q hq ?_⟩
  have := Int.natCast_dvd_natCast.mpr hd
  rwa [Int.toNat_of_nonneg (by omega)] at this

section
variable {ar : Arith} {u tiny big d : ℝ} {c : Create2}

/-- The 1d FFTs of the forward and of the inverse path. -/
theorem gridF2_near (R : RoundOK ar u tiny big) (hd : 0 ≤ d) (hv : c.a.Valid c.P) (htw : c.a.TwiddlesNear ar d)
    (back : Bool) {G : ℝ} (hG : 1 ≤ G) {A : Nat → Nat → ℝ} {Y X : Grid2}
    (h : Near2 c.a.nfast.toNat c.a.nslow.toNat tiny G A Y X)
    (hb : 2 * (G * (1 + c.a.fftErr u d)) * sum2 c.a.nfast.toNat c.a.nslow.toNat A ≤ big) {Z : Grid2}
    (hZ : Z = Ready2.gridF ar c back X ∨ Z = Ready2.gridFInv ar c back X) :
    Near2 c.a.nfast.toNat c.a.nslow.toNat tiny (G * (1 + c.a.fftErr u d))
      (fun _ _ => sum2 c.a.nfast.toNat c.a.nslow.toNat A) (c.a.dft back Y) Z := by
  have e : 1 + c.a.fftErr u d = (1 + kissErrSmooth u d c.a.nfast.toNat) * (1 + kissErrSmooth u d c.a.nslow.toNat) := by
    unfold Args2.fftErr kissErrSmooth
    rw [pow_add]
    ring
  rw [e] at hb ⊢
  have L : ∀ n, (n = c.a.nfast ∨ n = c.a.nslow) →
      LineErr (kissLine ar n.toNat back) n.toNat back (kissErrSmooth u d n.toNat) tiny big := by
    intro n hn
    obtain ⟨h1, h2, h3⟩ := hv.smooth hn
    exact kissLine_err R hd h1 h2 h3 (htw n hn) back
  have p := fun n => kissErrSmooth_nonneg R.u0 hd n
  exact h.lines R.t0 hG (p _) (p _) (L _ (Or.inl rfl)) (L _ (Or.inr rfl)) hb hZ

end

/-- Exact inputs. -/
theorem near2_refl (n1 n2 : Nat) (tiny : ℝ) (X : Grid2) :
    Near2 n1 n2 tiny 1 (fun i j => ‖X (i : Nat) (j : Nat)‖ + 2 * tiny) X X :=
  fun _ _ _ _ => Near.refl _

theorem Near2.holdsNear {P : Nat} {p : Int} {bs : Nat → Box2} {n1 n2 : Nat} {tiny G S : ℝ} {Y X : Grid2} {n : Nat}
    {m : Nat → LMem ℝ} (hT : Tiles2 P bs n1 n2) (h : Near2 n1 n2 tiny G (fun _ _ => S) Y X)
    (hX : Holds2 P p bs n X m) : HoldsNear2 P p bs n Y ((G - 1) * S) m := by
  refine ⟨X, hX, fun r hr i j hh => ?_⟩
  obtain ⟨hi, hj⟩ := hT.inside r hr i j hh
  have := (h i.toNat (by omega) j.toNat (by omega)).err
  rwa [Int.toNat_of_nonneg hi.1, Int.toNat_of_nonneg hj.1] at this

section
variable {ar : Arith} {u v cc tiny big d : ℝ} {w : Int} {P : Nat} {a : Args2} {st : Settings} {f : Nat → Fft2 ℝ}

theorem tiles2_nat {P : Nat} {bs : Nat → Box2} {n1 n2 : Int} (h1 : 0 ≤ n1) (h2 : 0 ≤ n2)
    (hT : Tiles2 P bs n1 n2) : Tiles2 P bs (n1.toNat : Nat) (n2.toNat : Nat) := by
  rw [Int.toNat_of_nonneg h1, Int.toNat_of_nonneg h2]
  exact hT

/-- **C56, 2d forward.**  `compute(data,data,1)` with rounding terminates under every schedule, and every number of the
result differs from the exact 2d DFT by at most `fftErr` times the sum of the absolute values of the input.  The
error grows with the logarithms of the dimensions; it does not depend on the number of ranks, the layouts or the
settings. -/
theorem C56_forward2 (R : RoundOK ar u tiny big) (hd : 0 ≤ d) (S : SetUp2F ar w P a st f) (htw : a.TwiddlesNear ar d)
    (e : Bool) (J : Nat → Nat → Junk) (scaled : Bool) {n : Nat} {X : Grid2} {m : Nat → LMem ℝ}
    (hX : Holds2 P 0 a.ins n X m) (hb : Bufs2 P f n m) (hbig : 2 * (1 + a.fftErr u d) * a.total tiny X ≤ big) :
    ∃ m', Terminates e P (fun r => (f r).computeF ar (J r) scaled false 1 n n) m m' ∧
      HoldsNear2 P a.permute a.outs n (a.dft false X) (a.fftErr u d * a.total tiny X) m' ∧ Kept2 P f n m m' := by
  obtain ⟨g, Sg, hg⟩ := S.exact
  have hv := S.args
  obtain ⟨c, rfl, rfl, rfl, rfl, _, Rd⟩ := Sg.ready
  obtain ⟨m', s, h⟩ := Rd.computeF_fwd e hg J scaled hX
    (hb.like fun r hr => ⟨(hg r hr).fftsize, (hg r hr).sendsize, (hg r hr).recvsize⟩)
  refine ⟨m', s.ok.terminates, ?_, s.kept2.like fun r hr => (hg r hr).fftsize.symm⟩
  have k := (gridF2_near R hd hv htw false le_rfl (near2_refl _ _ tiny X) (by rw [one_mul]; exact hbig)
    (Or.inl rfl)).holdsNear (tiles2_nat (by have := hv.fast; omega)
      (by have := hv.slow; omega) hv.tilesOut) h
  rw [one_mul, add_sub_cancel_left] at k
  exact k

/-- **C56, 2d backward without scaling.** -/
theorem C56_backward2_unscaled (R : RoundOK ar u tiny big) (hd : 0 ≤ d) (S : SetUp2F ar w P a st f)
    (htw : a.TwiddlesNear ar d) (e : Bool) (J : Nat → Nat → Junk) {n : Nat} {X : Grid2} {m : Nat → LMem ℝ}
    (hX : Holds2 P a.permute a.outs n X m) (hb : Bufs2 P f n m)
    (hbig : 2 * (1 + a.fftErr u d) * a.total tiny X ≤ big) :
    ∃ m', Terminates e P (fun r => (f r).computeF ar (J r) false false (-1) n n) m m' ∧
      HoldsNear2 P 0 a.ins n (a.dft true X) (a.fftErr u d * a.total tiny X) m' ∧ Kept2 P f n m m' := by
  obtain ⟨g, Sg, hg⟩ := S.exact
  have hv := S.args
  obtain ⟨c, rfl, rfl, rfl, rfl, _, Rd⟩ := Sg.ready
  obtain ⟨m', s, h⟩ := Rd.computeF_back e hg J false hX
    (hb.like fun r hr => ⟨(hg r hr).fftsize, (hg r hr).sendsize, (hg r hr).recvsize⟩)
    (fun h => absurd h (by decide))
  refine ⟨m', s.ok.terminates, ?_, s.kept2.like fun r hr => (hg r hr).fftsize.symm⟩
  have k := (gridF2_near R hd hv htw true le_rfl (near2_refl _ _ tiny X) (by rw [one_mul]; exact hbig)
    (Ready2.gridBack_or ar c X)).holdsNear (tiles2_nat (by have := hv.fast; omega)
      (by have := hv.slow; omega) hv.tilesIn) (m := m') (n := n) (p := 0) (by
        have e0 : Ready2.scaleF ar false (c.a.nfast * c.a.nslow) (Ready2.gridBack ar c X) = Ready2.gridBack ar c X := rfl
        rwa [e0] at h)
  rw [one_mul, add_sub_cancel_left] at k
  exact k

/-- The scaling of a grid with errors. -/
theorem Near2.scaleF {n1 n2 : Nat} {G S : ℝ} {Y X : Grid2} (R : RoundOK ar u tiny big) (T : TrigOK ar v cc tiny big)
    (hu : u ≤ 1 / 100) (hv : v ≤ 1 / 100) (ht : tiny ≤ 1 / 100) {N : Int} (hN : 1 ≤ N) (hNb : (N : ℝ) ≤ big)
    (hbig : 2 ≤ big) (hG : 0 ≤ G) (hS : 0 ≤ S) (hb : 2 * G * S ≤ big) (h : Near2 n1 n2 tiny G (fun _ _ => S) Y X) :
    Near2 n1 n2 tiny (G * normGrow u v * (1 + u)) (fun _ _ => S * (1 / (N : ℝ) + tiny) + 2 * tiny)
      (fun i j => Y i j * ((1 / (N : ℝ) : ℝ) : ℂ)) (Ready2.scaleF ar true N X) := by
  have v0 := T.v0
  have u0 := R.u0
  have t0 := R.t0
  have hNr : (1 : ℝ) ≤ N := by exact_mod_cast hN
  have hN0 : (0 : ℝ) < N := by linarith
  have hW := one_le_normGrow (u := u) (v := v) u0 v0 (by linarith)
  have hW2 : normGrow u v ≤ 1.05 := by
    unfold normGrow
    rw [div_le_iff₀ (by linarith)]
    have : (1 + v) * (1 + u) ≤ 1.01 * 1.01 := by gcongr <;> (norm_num at hu hv ⊢; linarith)
    norm_num at hv this ⊢
    linarith
  have hc1 : 1 / (N : ℝ) + tiny ≤ 1.01 := by
    have : 1 / (N : ℝ) ≤ 1 := by rw [div_le_one hN0]; exact hNr
    norm_num at this ht ⊢; linarith
  intro i hi j hj
  have := (h i hi j hj).scaled R hW (c := 1 / (N : ℝ)) (by positivity)
    (norm_err R T hu hv ht hN hNb hbig) (by
      refine le_trans ?_ hb
      have h1 : normGrow u v * (1 / (N : ℝ) + tiny) ≤ 2 := by
        have : normGrow u v * (1 / (N : ℝ) + tiny) ≤ 1.05 * 1.01 := by gcongr
        norm_num at this ⊢; linarith
      have : G * S * (normGrow u v * (1 / (N : ℝ) + tiny)) ≤ G * S * 2 :=
        mul_le_mul_of_nonneg_left h1 (mul_nonneg hG hS)
      linarith)
  simpa [Ready2.scaleF] using this

theorem Args2.N_int (a : Args2) : ((a.nfast * a.nslow : Int) : ℝ) = a.N := by
  unfold Args2.N
  push_cast
  rfl

theorem Args2.Valid.N_one {P : Nat} {a : Args2} (h : a.Valid P) : 1 ≤ a.nfast * a.nslow := by
  have h1 := h.fast.1; have h3 := h.slow.1
  have : 0 < a.nfast * a.nslow := by positivity
  omega

/-- **C56, 2d backward with scaling.**  Missing with respect to the property: no rank may have more points on input
than on output (see `C22_false`). -/
theorem C56_backward2_partial (R : RoundOK ar u tiny big) (T : TrigOK ar v cc tiny big) (hu : u ≤ 1 / 100)
    (hv : v ≤ 1 / 100) (ht : tiny ≤ 1 / 100) (hd : 0 ≤ d) (S : SetUp2F ar w P a st f)
    (htw : a.TwiddlesNear ar d) (hio : ∀ r < P, (a.ins r).count ≤ (a.outs r).count) (e : Bool) (J : Nat → Nat → Junk)
    {n : Nat} {X : Grid2} {m : Nat → LMem ℝ}
    (hX : Holds2 P a.permute a.outs n X m) (hb : Bufs2 P f n m)
    (hbig : 2 * (1 + a.fftErr u d) * a.total tiny X ≤ big) (hNb : a.N ≤ big) :
    ∃ m', Terminates e P (fun r => (f r).computeF ar (J r) true false (-1) n n) m m' ∧
      HoldsNear2 P 0 a.ins n (fun i j => a.dft true X i j * ((1 / a.N : ℝ) : ℂ))
        (((1 + a.fftErr u d) * normGrow u v * (1 + u) - 1) * (a.total tiny X * (1 / a.N + tiny) + 2 * tiny)) m' ∧
      Kept2 P f n m m' := by
  obtain ⟨g, Sg, hg⟩ := S.exact
  have hva := S.args
  have hE := a.fftErr_nonneg R.u0 hd
  have hS := a.total_nonneg R.t0 X
  obtain ⟨c, rfl, rfl, rfl, rfl, _, Rd⟩ := Sg.ready
  obtain ⟨m', s, h⟩ := Rd.computeF_back e hg J true hX
    (hb.like fun r hr => ⟨(hg r hr).fftsize, (hg r hr).sendsize, (hg r hr).recvsize⟩)
    (fun _ => hio)
  refine ⟨m', s.ok.terminates, ?_, s.kept2.like fun r hr => (hg r hr).fftsize.symm⟩
  have h8 : 2 ≤ c.a.N := by
    have h1 := hva.fast.1; have h3 := hva.slow.1
    rw [← Args2.N_int]
    have : 2 * 1 ≤ c.a.nfast * c.a.nslow := by gcongr <;> omega
    exact_mod_cast this
  have k0 := gridF2_near R hd hva htw true le_rfl (near2_refl _ _ tiny X) (by rw [one_mul]; exact hbig) (Ready2.gridBack_or ar c X)
  rw [one_mul] at k0
  have k := (k0.scaleF R T hu hv ht hva.N_one (by rw [Args2.N_int]; exact hNb) (by linarith) (by linarith)
    hS hbig).holdsNear (tiles2_nat (by have := hva.fast; omega)
      (by have := hva.slow; omega) hva.tilesIn) h
  rw [Args2.N_int] at k
  exact k

/-- Sum of a constant. -/
theorem sum2_const (hv : a.Valid P) (S : ℝ) :
    sum2 a.nfast.toNat a.nslow.toNat (fun _ _ => S) = a.N * S := by
  have h1 := hv.fast.1; have h3 := hv.slow.1
  have e1 : ((a.nfast.toNat : Nat) : ℝ) = a.nfast := by
    exact_mod_cast congrArg (Int.cast (R := ℝ)) (show ((a.nfast.toNat : Nat) : Int) = a.nfast by omega)
  have e3 : ((a.nslow.toNat : Nat) : ℝ) = a.nslow := by
    exact_mod_cast congrArg (Int.cast (R := ℝ)) (show ((a.nslow.toNat : Nat) : Int) = a.nslow by omega)
  unfold sum2 Args2.N
  simp only [sum_const, card_range, nsmul_eq_mul, e1, e3]
  ring

/-- **C56, 2d round trip.**  Forward, then backward `compute` with scaling gives back the input with the error stated.
Missing with respect to the property: the condition on the numbers of points. -/
theorem C56_round_trip2_partial (R : RoundOK ar u tiny big) (T : TrigOK ar v cc tiny big) (hu : u ≤ 1 / 100)
    (hv : v ≤ 1 / 100) (ht : tiny ≤ 1 / 100) (hd : 0 ≤ d) (S : SetUp2F ar w P a st f)
    (htw : a.TwiddlesNear ar d) (hio : ∀ r < P, (a.ins r).count ≤ (a.outs r).count) (e : Bool)
    (J J' : Nat → Nat → Junk) {n : Nat} {X : Grid2} {m : Nat → LMem ℝ}
    (hX : Holds2 P 0 a.ins n X m) (hb : Bufs2 P f n m)
    (hbig : 2 * (1 + a.fftErr u d) ^ 2 * (a.N * a.total tiny X) ≤ big) (hNb : a.N ≤ big) :
    ∃ m', Terminates e P (fun r => (f r).computeF ar (J r) true false 1 n n ++
        (f r).computeF ar (J' r) true false (-1) n n) m m' ∧
      HoldsNear2 P 0 a.ins n X
        (((1 + a.fftErr u d) ^ 2 * normGrow u v * (1 + u) - 1) *
          (a.total tiny X * (1 + a.N * tiny) + 2 * tiny)) m' ∧ Kept2 P f n m m' := by
  obtain ⟨g, Sg, hg⟩ := S.exact
  have hva := S.args
  have hE := a.fftErr_nonneg R.u0 hd
  have hS := a.total_nonneg R.t0 X
  have hN0 := hva.N_pos
  obtain ⟨c, rfl, rfl, rfl, rfl, _, Rd⟩ := Sg.ready
  have hb' := hb.like (g := g) fun r hr => ⟨(hg r hr).fftsize, (hg r hr).sendsize, (hg r hr).recvsize⟩
  obtain ⟨m1, s1, h1⟩ := Rd.computeF_fwd e hg J true hX hb'
  obtain ⟨m2, s2, h2⟩ := Rd.computeF_back e hg J' true h1 (hb'.congr s1.dom) (fun _ => hio)
  refine ⟨m2, (s1.append s2).ok.terminates, ?_, (s1.append s2).kept2.like fun r hr => (hg r hr).fftsize.symm⟩
  have h8 : 2 ≤ c.a.N := by
    have h1 := hva.fast.1; have h3 := hva.slow.1
    rw [← Args2.N_int]
    have : 2 * 1 ≤ c.a.nfast * c.a.nslow := by gcongr <;> omega
    exact_mod_cast this
  have hbig1 : 2 * (1 + c.a.fftErr u d) * c.a.total tiny X ≤ big := by
    refine le_trans ?_ hbig
    have q1 : 1 + c.a.fftErr u d ≤ (1 + c.a.fftErr u d) ^ 2 := by nlinarith
    have q2 : c.a.total tiny X ≤ c.a.N * c.a.total tiny X := by nlinarith
    gcongr
  have k0 := gridF2_near R hd hva htw false le_rfl (near2_refl _ _ tiny X) (by rw [one_mul]; exact hbig1) (Or.inl rfl)
  rw [one_mul] at k0
  have tot : sum2 c.a.nfast.toNat c.a.nslow.toNat
      (fun i j => ‖X (i : Nat) (j : Nat)‖ + 2 * tiny) = c.a.total tiny X := rfl
  rw [tot] at k0
  have k1 := gridF2_near R hd hva htw true (by linarith) k0 (by
    rw [sum2_const hva]
    rwa [← sq]) (Ready2.gridBack_or ar c _)
  rw [sum2_const hva, ← sq] at k1
  obtain ⟨Z, hZ, hZe⟩ := (k1.scaleF R T hu hv ht hva.N_one (by rw [Args2.N_int]; exact hNb) (by linarith) (by positivity)
    (by positivity) hbig).holdsNear (tiles2_nat (by have := hva.fast; omega)
      (by have := hva.slow; omega) hva.tilesIn) h2
  rw [Args2.N_int] at hZe
  refine ⟨Z, hZ, fun r hr i j hh => ?_⟩
  have q := hZe r hr i j hh
  obtain ⟨hi, hj⟩ := Rd.ins_tiles.inside r hr i j hh
  have inv := Rd.dft_inv X i j hi hj
  have inv' : c.a.dft true (c.a.dft false X) i j = (c.a.N : ℂ) * X i j := by
    simpa [Ready2.effect] using inv
  dsimp only at q
  rw [inv'] at q
  have hN : (c.a.N : ℂ) ≠ 0 := by exact_mod_cast hN0.ne'
  have e1 : (c.a.N : ℂ) * X i j * ((1 / c.a.N : ℝ) : ℂ) = X i j := by
    push_cast
    field_simp
  have e2 : c.a.N * c.a.total tiny X * (1 / c.a.N + tiny) = c.a.total tiny X * (1 + c.a.N * tiny) := by
    field_simp
  rw [e1, e2] at q
  exact q

end

/-! ## In numbers -/

theorem Args2.fftErr_le {P : Nat} {a : Args2} (hv : a.Valid P) {u d r : ℝ} (hu : 0 ≤ u) (hd : 0 ≤ d)
    (hr : radixErr u d ≤ r) : 1 + a.fftErr u d ≤ (1 + r) ^ 60 := by
  have h0 := radixErr_nonneg hu hd
  have l : ∀ n, (n = a.nfast ∨ n = a.nslow) → Nat.log 2 n.toNat ≤ 30 := by
    intro n hn
    obtain ⟨h1, h2, _⟩ := hv.smooth hn
    have := Nat.log_lt_of_lt_pow (b := 2) (x := 31) (y := n.toNat) (by omega) h2
    omega
  have l1 := l _ (Or.inl rfl)
  have l2 := l _ (Or.inr rfl)
  unfold Args2.fftErr
  rw [add_sub_cancel]
  calc _ ≤ (1 + radixErr u d) ^ 60 := pow_le_pow_right₀ (by linarith) (by omega)
    _ ≤ _ := by gcongr

theorem Args2.twiddles_near {P : Nat} {a : Args2} (hv : a.Valid P) {ar : Arith} {u v c tiny big D : ℝ}
    (R : RoundOK ar u tiny big) (T : TrigOK ar v c tiny big) (h1 : v ≤ 1 / 100) (h2 : tiny ≤ 1 / 100) (h3 : c ≤ 1)
    (hbig : 2 ^ 34 ≤ big) (hD : twErr u v c tiny ≤ D) : a.TwiddlesNear ar D := by
  intro n hn back i hi
  obtain ⟨k1, k2, _⟩ := hv.smooth hn
  refine (C55_twiddle R T h1 h2 h3 (n := n.toNat) (by omega) ?_ back i hi).trans hD
  have : ((n.toNat : Nat) : ℝ) ≤ 2 ^ 31 := by exact_mod_cast k2.le
  linarith

theorem Args2.Valid.N_le {P : Nat} {a : Args2} (hv : a.Valid P) : a.N ≤ 2 ^ 62 := by
  have h1 := hv.fast; have h3 := hv.slow
  have e1 : (a.nfast : ℝ) ≤ 2 ^ 31 := by exact_mod_cast h1.2.le
  have e3 : (a.nslow : ℝ) ≤ 2 ^ 31 := by exact_mod_cast h3.2.le
  have p3 : (0 : ℝ) ≤ a.nslow := by exact_mod_cast (by omega : 0 ≤ a.nslow)
  unfold Args2.N
  calc (a.nfast : ℝ) * a.nslow ≤ 2 ^ 31 * 2 ^ 31 := by gcongr
    _ = _ := by norm_num

theorem HoldsNear2.mono {P : Nat} {p : Int} {bs : Nat → Box2} {n : Nat} {X : Grid2} {e e' : ℝ} {m : Nat → LMem ℝ}
    (h : HoldsNear2 P p bs n X e m) (he : e ≤ e') : HoldsNear2 P p bs n X e' m := by
  obtain ⟨Y, h1, h2⟩ := h
  exact ⟨Y, h1, fun r hr i j hh => (h2 r hr i j hh).trans he⟩

theorem double_setup2 {ar : Arith} {tiny big : ℝ} {P : Nat} {a : Args2} (hv : a.Valid P)
    (R : RoundOK ar (1 / 2 ^ 53) tiny big) (T : TrigOK ar (1 / 2 ^ 53) (1 / 2 ^ 52) tiny big) (ht : tiny ≤ 1 / 2 ^ 53)
    (hbig : 2 ^ 34 ≤ big) :
    a.TwiddlesNear ar (1 / 2 ^ 47) ∧ 1 + a.fftErr (1 / 2 ^ 53) (1 / 2 ^ 47) ≤ (1 + (1 / 2 ^ 45 + 1 / 2 ^ 48)) ^ 60 :=
  ⟨Args2.twiddles_near hv R T (by norm_num) (ht.trans (by norm_num)) (by norm_num) hbig
    ((twErr_le (by positivity) (by positivity) T.t0 ht).trans (by norm_num)),
   Args2.fftErr_le hv (by positivity) (by positivity) (by unfold radixErr; norm_num)⟩

/-- **C56 in numbers, 2d forward, double precision (`u = v = 2^-53`, `cos` and `sin` accurate to `2^-52`)**: the error is at most
`1 / 2 ^ 38` of the sum of the absolute values of the input. -/
theorem C56_double2 {ar : Arith} {tiny big : ℝ} {w : Int} {P : Nat} {a : Args2} {st : Settings} {f : Nat → Fft2 ℝ}
    (R : RoundOK ar (1 / 2 ^ 53) tiny big) (T : TrigOK ar (1 / 2 ^ 53) (1 / 2 ^ 52) tiny big) (ht : tiny ≤ 1 / 2 ^ 53)
    (hbig : 2 ^ 34 ≤ big) (S : SetUp2F ar w P a st f) (e : Bool) (J : Nat → Nat → Junk) (scaled : Bool)
    {n : Nat} {X : Grid2} {m : Nat → LMem ℝ} (hX : Holds2 P 0 a.ins n X m) (hb : Bufs2 P f n m)
    (hs : 3 * a.total tiny X ≤ big) :
    ∃ m', Terminates e P (fun r => (f r).computeF ar (J r) scaled false 1 n n) m m' ∧
      HoldsNear2 P a.permute a.outs n (a.dft false X) (1 / 2 ^ 38 * a.total tiny X) m' ∧ Kept2 P f n m m' := by
  obtain ⟨h1, h2⟩ := double_setup2 S.args R T ht hbig
  have h3 : ((1 : ℝ) + (1 / 2 ^ 45 + 1 / 2 ^ 48)) ^ 60 ≤ 1 + 1 / 2 ^ 38 := by norm_num
  have hS := a.total_nonneg R.t0 X
  have h4 : a.fftErr (1 / 2 ^ 53) (1 / 2 ^ 47) ≤ 1 / 2 ^ 38 := by linarith
  obtain ⟨m', k1, k2, k3⟩ := C56_forward2 R (by positivity) S h1 e J scaled hX hb (by
    refine le_trans (mul_le_mul_of_nonneg_right ?_ hS) hs
    norm_num at h4 ⊢
    linarith)
  exact ⟨m', k1, k2.mono (mul_le_mul_of_nonneg_right h4 hS), k3⟩

/-- **C56 in numbers, 2d round trip, double precision (`u = v = 2^-53`, `cos` and `sin` accurate to `2^-52`).** -/
theorem C56_double_round_trip2_partial {ar : Arith} {tiny big : ℝ} {w : Int} {P : Nat} {a : Args2} {st : Settings}
    {f : Nat → Fft2 ℝ} (R : RoundOK ar (1 / 2 ^ 53) tiny big) (T : TrigOK ar (1 / 2 ^ 53) (1 / 2 ^ 52) tiny big)
    (ht : tiny ≤ 1 / 2 ^ 53) (hbig : 2 ^ 62 ≤ big) (S : SetUp2F ar w P a st f)
    (hio : ∀ r < P, (a.ins r).count ≤ (a.outs r).count) (e : Bool) (J J' : Nat → Nat → Junk)
    {n : Nat} {X : Grid2} {m : Nat → LMem ℝ} (hX : Holds2 P 0 a.ins n X m) (hb : Bufs2 P f n m)
    (hs : 3 * (a.N * a.total tiny X) ≤ big) :
    ∃ m', Terminates e P (fun r => (f r).computeF ar (J r) true false 1 n n ++
        (f r).computeF ar (J' r) true false (-1) n n) m m' ∧
      HoldsNear2 P 0 a.ins n X (1 / 2 ^ 37 * (a.total tiny X * (1 + a.N * tiny) + 2 * tiny)) m' ∧ Kept2 P f n m m' := by
  obtain ⟨h1, h2⟩ := double_setup2 S.args R T ht (le_trans (by norm_num) hbig)
  have hE := a.fftErr_nonneg (u := 1 / 2 ^ 53) (d := 1 / 2 ^ 47) (by positivity) (by positivity)
  have hS := a.total_nonneg R.t0 X
  have hN0 := S.args.N_pos
  have t0 := R.t0
  have h3 : ((1 : ℝ) + (1 / 2 ^ 45 + 1 / 2 ^ 48)) ^ 60 ≤ 1 + 1 / 2 ^ 38 := by norm_num
  have h5 : (1 + a.fftErr (1 / 2 ^ 53) (1 / 2 ^ 47)) ^ 2 ≤ (1 + 1 / 2 ^ 38) ^ 2 := by gcongr; linarith
  have h6 : (1 + a.fftErr (1 / 2 ^ 53) (1 / 2 ^ 47)) ^ 2 * normGrow (1 / 2 ^ 53) (1 / 2 ^ 53) * (1 + 1 / 2 ^ 53) - 1 ≤ 1 / 2 ^ 37 := by
    have h7 : (1 + a.fftErr (1 / 2 ^ 53) (1 / 2 ^ 47)) ^ 2 ≤ ((1 + (1 / 2 ^ 45 + 1 / 2 ^ 48)) ^ 60) ^ 2 := by gcongr
    have h8 : normGrow (1 / 2 ^ 53) (1 / 2 ^ 53) ≤ 1 + 4 * (1 / 2 ^ 53) := by unfold normGrow; norm_num
    have h8' : 0 ≤ normGrow (1 / 2 ^ 53) (1 / 2 ^ 53) := by unfold normGrow; norm_num
    have h9 : (1 + a.fftErr (1 / 2 ^ 53) (1 / 2 ^ 47)) ^ 2 * normGrow (1 / 2 ^ 53) (1 / 2 ^ 53) * (1 + 1 / 2 ^ 53) ≤
        ((1 + (1 / 2 ^ 45 + 1 / 2 ^ 48)) ^ 60) ^ 2 * (1 + 4 * (1 / 2 ^ 53)) * (1 + 1 / 2 ^ 53) := by gcongr
    have h10 : (((1 : ℝ) + (1 / 2 ^ 45 + 1 / 2 ^ 48)) ^ 60) ^ 2 * (1 + 4 * (1 / 2 ^ 53)) * (1 + 1 / 2 ^ 53) ≤ 1 + 1 / 2 ^ 37 := by norm_num
    linarith
  obtain ⟨m', k1, k2, k3⟩ := C56_round_trip2_partial R T (by norm_num) (by norm_num) (ht.trans (by norm_num))
    (by positivity) S h1 hio e J J' hX hb (by
      refine le_trans (mul_le_mul_of_nonneg_right ?_ (by positivity)) hs
      norm_num at h5 ⊢
      linarith) (S.args.N_le.trans hbig)
  exact ⟨m', k1, k2.mono (mul_le_mul_of_nonneg_right h6 (by positivity)), k3⟩

theorem float_setup2 {ar : Arith} {tiny big : ℝ} {P : Nat} {a : Args2} (hv : a.Valid P)
    (R : RoundOK ar (1 / 2 ^ 24) tiny big) (T : TrigOK ar (1 / 2 ^ 53) (1 / 2 ^ 52) tiny big) (ht : tiny ≤ 1 / 2 ^ 24)
    (hbig : 2 ^ 34 ≤ big) :
    a.TwiddlesNear ar (1 / 2 ^ 23) ∧ 1 + a.fftErr (1 / 2 ^ 24) (1 / 2 ^ 23) ≤ (1 + (25 / 2 ^ 24)) ^ 60 :=
  ⟨Args2.twiddles_near hv R T (by norm_num) (ht.trans (by norm_num)) (by norm_num) hbig
    ((twErr_le (by positivity) (by positivity) T.t0 ht).trans (by norm_num)),
   Args2.fftErr_le hv (by positivity) (by positivity) (by unfold radixErr; norm_num)⟩

/-- **C56 in numbers, 2d forward, single precision (`u = 2^-24`)**: the error is at most
`1 / 2 ^ 12` of the sum of the absolute values of the input. -/
theorem C56_float2 {ar : Arith} {tiny big : ℝ} {w : Int} {P : Nat} {a : Args2} {st : Settings} {f : Nat → Fft2 ℝ}
    (R : RoundOK ar (1 / 2 ^ 24) tiny big) (T : TrigOK ar (1 / 2 ^ 53) (1 / 2 ^ 52) tiny big) (ht : tiny ≤ 1 / 2 ^ 24)
    (hbig : 2 ^ 34 ≤ big) (S : SetUp2F ar w P a st f) (e : Bool) (J : Nat → Nat → Junk) (scaled : Bool)
    {n : Nat} {X : Grid2} {m : Nat → LMem ℝ} (hX : Holds2 P 0 a.ins n X m) (hb : Bufs2 P f n m)
    (hs : 3 * a.total tiny X ≤ big) :
    ∃ m', Terminates e P (fun r => (f r).computeF ar (J r) scaled false 1 n n) m m' ∧
      HoldsNear2 P a.permute a.outs n (a.dft false X) (1 / 2 ^ 12 * a.total tiny X) m' ∧ Kept2 P f n m m' := by
  obtain ⟨h1, h2⟩ := float_setup2 S.args R T ht hbig
  have h3 : ((1 : ℝ) + (25 / 2 ^ 24)) ^ 60 ≤ 1 + 1 / 2 ^ 12 := by norm_num
  have hS := a.total_nonneg R.t0 X
  have h4 : a.fftErr (1 / 2 ^ 24) (1 / 2 ^ 23) ≤ 1 / 2 ^ 12 := by linarith
  obtain ⟨m', k1, k2, k3⟩ := C56_forward2 R (by positivity) S h1 e J scaled hX hb (by
    refine le_trans (mul_le_mul_of_nonneg_right ?_ hS) hs
    norm_num at h4 ⊢
    linarith)
  exact ⟨m', k1, k2.mono (mul_le_mul_of_nonneg_right h4 hS), k3⟩

/-- **C56 in numbers, 2d round trip, single precision (`u = 2^-24`).** -/
theorem C56_float_round_trip2_partial {ar : Arith} {tiny big : ℝ} {w : Int} {P : Nat} {a : Args2} {st : Settings}
    {f : Nat → Fft2 ℝ} (R : RoundOK ar (1 / 2 ^ 24) tiny big) (T : TrigOK ar (1 / 2 ^ 53) (1 / 2 ^ 52) tiny big)
    (ht : tiny ≤ 1 / 2 ^ 24) (hbig : 2 ^ 62 ≤ big) (S : SetUp2F ar w P a st f)
    (hio : ∀ r < P, (a.ins r).count ≤ (a.outs r).count) (e : Bool) (J J' : Nat → Nat → Junk)
    {n : Nat} {X : Grid2} {m : Nat → LMem ℝ} (hX : Holds2 P 0 a.ins n X m) (hb : Bufs2 P f n m)
    (hs : 3 * (a.N * a.total tiny X) ≤ big) :
    ∃ m', Terminates e P (fun r => (f r).computeF ar (J r) true false 1 n n ++
        (f r).computeF ar (J' r) true false (-1) n n) m m' ∧
      HoldsNear2 P 0 a.ins n X (1 / 2 ^ 11 * (a.total tiny X * (1 + a.N * tiny) + 2 * tiny)) m' ∧ Kept2 P f n m m' := by
  obtain ⟨h1, h2⟩ := float_setup2 S.args R T ht (le_trans (by norm_num) hbig)
  have hE := a.fftErr_nonneg (u := 1 / 2 ^ 24) (d := 1 / 2 ^ 23) (by positivity) (by positivity)
  have hS := a.total_nonneg R.t0 X
  have hN0 := S.args.N_pos
  have t0 := R.t0
  have h3 : ((1 : ℝ) + (25 / 2 ^ 24)) ^ 60 ≤ 1 + 1 / 2 ^ 12 := by norm_num
  have h5 : (1 + a.fftErr (1 / 2 ^ 24) (1 / 2 ^ 23)) ^ 2 ≤ (1 + 1 / 2 ^ 12) ^ 2 := by gcongr; linarith
  have h6 : (1 + a.fftErr (1 / 2 ^ 24) (1 / 2 ^ 23)) ^ 2 * normGrow (1 / 2 ^ 24) (1 / 2 ^ 53) * (1 + 1 / 2 ^ 24) - 1 ≤ 1 / 2 ^ 11 := by
    have h7 : (1 + a.fftErr (1 / 2 ^ 24) (1 / 2 ^ 23)) ^ 2 ≤ ((1 + (25 / 2 ^ 24)) ^ 60) ^ 2 := by gcongr
    have h8 : normGrow (1 / 2 ^ 24) (1 / 2 ^ 53) ≤ 1 + 4 * (1 / 2 ^ 24) := by unfold normGrow; norm_num
    have h8' : 0 ≤ normGrow (1 / 2 ^ 24) (1 / 2 ^ 53) := by unfold normGrow; norm_num
    have h9 : (1 + a.fftErr (1 / 2 ^ 24) (1 / 2 ^ 23)) ^ 2 * normGrow (1 / 2 ^ 24) (1 / 2 ^ 53) * (1 + 1 / 2 ^ 24) ≤
        ((1 + (25 / 2 ^ 24)) ^ 60) ^ 2 * (1 + 4 * (1 / 2 ^ 24)) * (1 + 1 / 2 ^ 24) := by gcongr
    have h10 : (((1 : ℝ) + (25 / 2 ^ 24)) ^ 60) ^ 2 * (1 + 4 * (1 / 2 ^ 24)) * (1 + 1 / 2 ^ 24) ≤ 1 + 1 / 2 ^ 11 := by norm_num
    linarith
  obtain ⟨m', k1, k2, k3⟩ := C56_round_trip2_partial R T (by norm_num) (by norm_num) (ht.trans (by norm_num))
    (by positivity) S h1 hio e J J' hX hb (by
      refine le_trans (mul_le_mul_of_nonneg_right ?_ (by positivity)) hs
      norm_num at h5 ⊢
      linarith) (S.args.N_le.trans hbig)
  exact ⟨m', k1, k2.mono (mul_le_mul_of_nonneg_right h6 (by positivity)), k3⟩

/-- Example: 2 ranks, an arithmetic with 53 binary digits, the constant 1 on a plane: all hypotheses are met. -/
example (J J' : Nat → Nat → Junk) :
    ∃ f, SetUp2F arith53 1 2 (plane2 1) ⟨2, 0, 2⟩ f ∧ ∃ m, Holds2 2 0 (plane2 1).ins 0 (fun _ _ => 1) m ∧
      Bufs2 2 f 0 m ∧
      (∃ m', Terminates true 2 (fun r => (f r).computeF arith53 (J r) true false 1 0 0) m m' ∧
        HoldsNear2 2 1 (plane2 1).outs 0 ((plane2 1).dft false fun _ _ => 1)
          (1 / 2 ^ 38 * (plane2 1).total 0 fun _ _ => 1) m') ∧
      ∃ m', Terminates true 2 (fun r => (f r).computeF arith53 (J r) true false 1 0 0 ++
          (f r).computeF arith53 (J' r) true false (-1) 0 0) m m' ∧
        HoldsNear2 2 0 (plane2 1).ins 0 (fun _ _ => 1) (1 / 2 ^ 37 * (plane2 1).total 0 fun _ _ => 1) m' := by
  have hv := plane2_valid 1 (by decide)
  obtain ⟨f, S⟩ := setUp2F_exists arith53 (w := 1) hv (st := ⟨2, 0, 2⟩) (by simp [Settings.Valid2, FlagOk2])
  obtain ⟨g, Sg, hg⟩ := S.exact
  obtain ⟨m, hm⟩ := Sg.mem_in fun _ _ => 1
  have hb : Bufs2 2 f 0 m := (hm 0).2.like fun r hr =>
    ⟨(hg r hr).fftsize.symm, (hg r hr).sendsize.symm, (hg r hr).recvsize.symm⟩
  have hb0 : 0 ≤ (plane2 1).total 0 (fun _ _ => 1) := Args2.total_nonneg le_rfl _
  have hN : 0 ≤ (plane2 1).N := hv.N_pos.le
  set B : ℝ := 2 ^ 62 + 3 * ((plane2 1).total 0 fun _ _ => 1) + 3 * ((plane2 1).N * (plane2 1).total 0 fun _ _ => 1)
  have q : 0 ≤ 3 * ((plane2 1).N * (plane2 1).total 0 fun _ _ => 1) := by positivity
  refine ⟨f, S, m, (hm 0).1, hb, ?_, ?_⟩
  · obtain ⟨m', k1, k2, _⟩ := C56_double2 (arith53_round B) (arith53_trig B) (by positivity)
      (by norm_num [B]; linarith) S true J true (hm 0).1 hb (by norm_num [B]; linarith)
    exact ⟨m', k1, k2⟩
  · obtain ⟨m', k1, k2, _⟩ := C56_double_round_trip2_partial (arith53_round B) (arith53_trig B)
      (by positivity) (by norm_num [B]; linarith) S (by
        intro r _
        simp only [plane2, Box2.count, Box2.isize, Box2.jsize]
        simp) true J J' (hm 0).1 hb (by norm_num [B]; linarith)
    exact ⟨m', k1, k2.mono (by rw [mul_zero, mul_zero, add_zero, add_zero, mul_one])⟩

end FftMpi
