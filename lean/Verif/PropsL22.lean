import Verif.PropsL2

/-!
# Property C67: rounding errors of `FFT2d::compute` in the Euclidean norm
-/

noncomputable section

namespace FftMpi

open Complex Finset

/-! ## 2d -/

/-- The Euclidean norm of a grid function. -/
def Args2.enorm (a : Args2) (X : Grid2) : ℝ :=
  Real.sqrt (∑ i ∈ range a.nfast.toNat, ∑ j ∈ range a.nslow.toNat, ‖X (i : Nat) (j : Nat)‖ ^ 2)

/-- The Euclidean norm, and two tiny numbers for each grid point (for underflows). -/
def Args2.size2 (a : Args2) (tiny : ℝ) (X : Grid2) : ℝ := a.enorm X + Real.sqrt a.N * (2 * tiny)

/-- Relative error of a 2d transform in the Euclidean norm. -/
def Args2.fftErr2 (a : Args2) (u d : ℝ) : ℝ :=
  (1 + 9 / 4 * radixErr u d) ^ (Nat.log 2 a.nfast.toNat + Nat.log 2 a.nslow.toNat) - 1

/-- On every rank the array `n` holds the rank's part of numbers whose error has at most the norm `err`. -/
def Args2.HoldsNorm (a : Args2) (P : Nat) (permute : Int) (bs : Nat → Box2) (n : Nat) (X : Grid2) (err : ℝ)
    (m : Nat → LMem ℝ) : Prop :=
  ∃ Y, Holds2 P permute bs n Y m ∧ a.enorm (fun i j => Y i j - X i j) ≤ err

theorem Args2.fftErr2_nonneg {a : Args2} {u d : ℝ} (hu : 0 ≤ u) (hd : 0 ≤ d) : 0 ≤ a.fftErr2 u d := by
  have h0 := radixErr_nonneg hu hd
  have : 1 ≤ (1 + 9 / 4 * radixErr u d) ^
      (Nat.log 2 a.nfast.toNat + Nat.log 2 a.nslow.toNat) := one_le_pow₀ (by linarith)
  unfold Args2.fftErr2
  linarith

/-- The points of the grid. -/
abbrev Args2.pts (a : Args2) : Finset (Nat × Nat) := pts2 a.nfast.toNat a.nslow.toNat

theorem Args2.enorm_eq (a : Args2) (X : Grid2) : a.enorm X = l2 a.pts fun p => ‖at2 X p‖ := by
  rw [l2_pts2]
  rfl

theorem Args2.size2_nonneg {a : Args2} {tiny : ℝ} (ht : 0 ≤ tiny) (X : Grid2) : 0 ≤ a.size2 tiny X :=
  add_nonneg (Real.sqrt_nonneg _) (mul_nonneg (Real.sqrt_nonneg _) (by linarith))

section
variable {P : Nat} {a : Args2}

theorem Args2.Valid.casts (hv : a.Valid P) : ((a.nfast.toNat : Nat) : ℝ) = a.nfast ∧ ((a.nslow.toNat : Nat) : ℝ) = a.nslow := by
  have h1 := hv.fast.1; have h3 := hv.slow.1
  have k : ∀ n : Int, 2 ≤ n → ((n.toNat : Nat) : ℝ) = n := by
    intro n hn
    exact_mod_cast congrArg (Int.cast (R := ℝ)) (show ((n.toNat : Nat) : Int) = n by omega)
  exact ⟨k _ h1, k _ h3⟩

theorem Args2.Valid.sqrt_N (hv : a.Valid P) : Real.sqrt a.nfast.toNat * Real.sqrt a.nslow.toNat = Real.sqrt a.N := by
  obtain ⟨e1, e3⟩ := hv.casts
  rw [← Real.sqrt_mul (Nat.cast_nonneg _), e1, e3]
  rfl

theorem Args2.Valid.card_pts (hv : a.Valid P) : (a.pts.card : ℝ) = a.N := by
  obtain ⟨e1, e3⟩ := hv.casts
  unfold Args2.pts pts2 Args2.N
  rw [card_product, card_range, card_range]
  push_cast
  rw [e1, e3]

theorem Args2.Valid.one_le_N (hv : a.Valid P) : 1 ≤ a.N := by
  rw [← Args2.N_int]
  exact_mod_cast hv.N_one

theorem Args2.Valid.pts_pos (hv : a.Valid P) : 0 < a.nfast.toNat ∧ 0 < a.nslow.toNat := by
  have h1 := hv.fast.1; have h3 := hv.slow.1
  omega

/-- Exact numbers. -/
theorem Args2.Valid.en (hv : a.Valid P) {tiny : ℝ} (ht : 0 ≤ tiny) (X : Grid2) :
    EN a.pts tiny 1 (a.size2 tiny X) (at2 X) (at2 X) := by
  refine ⟨?_, ?_⟩
  · unfold Args2.size2
    rw [a.enorm_eq]
    refine (l2_add _ _ _).trans (le_of_eq ?_)
    rw [l2_const _ (by linarith), hv.card_pts]
  · have := (EN.refl a.pts tiny (at2 X)).err
    rw [sub_self, zero_mul] at this ⊢
    exact this

theorem l2_dft2 (n1 n2 : Nat) (back : Bool) (X : Grid2) :
    l2 (pts2 n1 n2) (fun p => ‖at2 (dft2 n1 n2 back X) p‖) =
      Real.sqrt n1 * Real.sqrt n2 * l2 (pts2 n1 n2) fun p => ‖at2 X p‖ := by
  have h : at2 (dft2 n1 n2 back X) = at2 (fftAlong2 1 n2 back (fftAlong2 0 n1 back X)) := by
    funext p
    unfold at2
    rw [fftAlong2_fwd _ _ _ _ (by omega) (by omega)]
  have h0 : ∀ X : Grid2, l2 (pts2 n1 n2) (fun p => ‖at2 (fftAlong2 0 n1 back X) p‖) =
      Real.sqrt n1 * l2 (pts2 n1 n2) fun p => ‖at2 X p‖ := fun X =>
    l2_lines_dft (back := back) (lines := range n2) (e := fun a t => (t, a)) (fun f => by rw [l2_l2, l2_pts2, sum_comm])
      (fun b k => by simp [at2, fftAlong2])
  have h1 : ∀ X : Grid2, l2 (pts2 n1 n2) (fun p => ‖at2 (fftAlong2 1 n2 back X) p‖) =
      Real.sqrt n2 * l2 (pts2 n1 n2) fun p => ‖at2 X p‖ := fun X =>
    l2_lines_dft (back := back) (lines := range n1) (e := fun a t => (a, t)) (fun f => by rw [l2_l2, l2_pts2])
      (fun b k => by simp [at2, fftAlong2])
  rw [h, h1, h0]
  ring

theorem at2_apply (X : Grid2) (p : Nat × Nat) : at2 X p = X (p.1 : Nat) (p.2 : Nat) := rfl

/-- **Parseval's identity in two dimensions**: a transform multiplies the norm by the square root of the number of
grid points, so that the bounds below are relative to the norm of the result. -/
theorem C67_parseval2 (hv : a.Valid P) (back : Bool) (X : Grid2) :
    a.enorm (a.dft back X) = Real.sqrt a.N * a.enorm X := by
  rw [a.enorm_eq, a.enorm_eq, ← hv.sqrt_N]
  exact l2_dft2 _ _ back X

end

section
variable {ar : Arith} {u v cc tiny big d : ℝ} {c : Create2}

/-- The 1d FFTs of the forward and of the inverse path. -/
theorem gridF2_en (R : RoundOK ar u tiny big) (hd : 0 ≤ d) (hv : c.a.Valid c.P) (htw : c.a.TwiddlesNear ar d)
    (back : Bool) {G B : ℝ} (hG : 1 ≤ G) {Y X : Grid2} (h : EN c.a.pts tiny G B (at2 Y) (at2 X))
    (hb : 2 * (G * (1 + c.a.fftErr2 u d)) * (Real.sqrt c.a.N * B) ≤ big) {Z : Grid2}
    (hZ : Z = Ready2.gridF ar c back X ∨ Z = Ready2.gridFInv ar c back X) :
    EN c.a.pts tiny (G * (1 + c.a.fftErr2 u d)) (Real.sqrt c.a.N * B) (at2 (c.a.dft back Y)) (at2 Z) := by
  have e : 1 + c.a.fftErr2 u d = (1 + kissErr2 u d c.a.nfast.toNat) * (1 + kissErr2 u d c.a.nslow.toNat) := by
    unfold Args2.fftErr2 kissErr2
    rw [pow_add]
    ring
  rw [e, ← hv.sqrt_N] at hb ⊢
  have L : ∀ n, (n = c.a.nfast ∨ n = c.a.nslow) →
      LineErr2 (kissLine ar n.toNat back) n.toNat back (kissErr2 u d n.toNat) tiny big := by
    intro n hn
    obtain ⟨h1, h2, h3⟩ := hv.smooth hn
    exact kissLine_l2 R hd h1 h2 h3 (htw n hn) back
  have p := fun n => kissErr2_nonneg R.u0 hd n
  obtain ⟨k1, k2⟩ := hv.pts_pos
  exact h.lines2 R.t0 hG (p _) (p _) k1 k2 (L _ (Or.inl rfl)) (L _ (Or.inr rfl)) hb hZ

/-- Growth of the error in one round trip. -/
def Args2.cycle2 (a : Args2) (u v d : ℝ) : ℝ := (1 + a.fftErr2 u d) ^ 2 * normGrow u v * (1 + u)

/-- Size of the numbers after one round trip. -/
def Args2.grow2 (a : Args2) (tiny B : ℝ) : ℝ := B * (1 + a.N * tiny) + Real.sqrt a.N * (2 * tiny)

/-- One round trip of numbers with errors. -/
theorem cycle2_en (R : RoundOK ar u tiny big) (T : TrigOK ar v cc tiny big) (hu : u ≤ 1 / 100)
    (hvv : v ≤ 1 / 100) (ht : tiny ≤ 1 / 100) (hd : 0 ≤ d) (hv : c.a.Valid c.P) (htw : c.a.TwiddlesNear ar d)
    (hNb : c.a.N ≤ big) {G B : ℝ} (hG : 1 ≤ G) {Y X : Grid2} (h : EN c.a.pts tiny G B (at2 Y) (at2 X))
    (hb : 2 * (G * (1 + c.a.fftErr2 u d) ^ 2) * (c.a.N * B) ≤ big) :
    EN c.a.pts tiny (G * c.a.cycle2 u v d) (c.a.grow2 tiny B) (at2 Y)
      (at2 (Ready2.scaleF ar true (c.a.nfast * c.a.nslow)
        (Ready2.gridBack ar c (Ready2.gridF ar c false X)))) := by
  have hE := c.a.fftErr2_nonneg R.u0 hd
  have hB := h.nonneg
  have hN1 := hv.one_le_N
  have hN0 := hv.N_pos
  have hsN : Real.sqrt c.a.N * Real.sqrt c.a.N = c.a.N := Real.mul_self_sqrt hN0.le
  have hs1 : 1 ≤ Real.sqrt c.a.N := by rw [Real.one_le_sqrt]; exact hN1
  have k0 := gridF2_en R hd hv htw false hG h (by
    refine le_trans ?_ hb
    have q1 : 1 + c.a.fftErr2 u d ≤ (1 + c.a.fftErr2 u d) ^ 2 := by nlinarith
    have q2 : Real.sqrt c.a.N ≤ c.a.N := by nlinarith
    gcongr) (Or.inl rfl)
  have hG1 : 1 ≤ G * (1 + c.a.fftErr2 u d) := by nlinarith
  have hb2 : 2 * (G * (1 + c.a.fftErr2 u d) * (1 + c.a.fftErr2 u d)) * (Real.sqrt c.a.N * (Real.sqrt c.a.N * B)) ≤
      big := by
    refine le_trans (le_of_eq ?_) hb
    rw [← mul_assoc (Real.sqrt c.a.N), hsN]
    ring
  have k1 := gridF2_en R hd hv htw true hG1 k0 hb2 (Ready2.gridBack_or ar c _)
  have h2 : 2 ≤ c.a.N := by
    have h1 := hv.fast.1; have h3 := hv.slow.1
    rw [← Args2.N_int]
    have : 2 * 1 ≤ c.a.nfast * c.a.nslow := by gcongr <;> omega
    exact_mod_cast this
  have k2 := k1.scaled R T hu hvv ht hv.N_one (by rw [Args2.N_int]; exact hNb) (by linarith) (by nlinarith) hb2
  rw [Args2.N_int, hv.card_pts] at k2
  have eB : Real.sqrt c.a.N * (Real.sqrt c.a.N * B) * (1 / c.a.N + tiny) + Real.sqrt c.a.N * (2 * tiny) =
      c.a.grow2 tiny B := by
    unfold Args2.grow2
    rw [← mul_assoc (Real.sqrt c.a.N), hsN]
    field_simp
  have eG : G * (1 + c.a.fftErr2 u d) * (1 + c.a.fftErr2 u d) * normGrow u v * (1 + u) = G * c.a.cycle2 u v d := by
    unfold Args2.cycle2
    ring
  rw [eB, eG] at k2
  refine k2.congr (fun p hp => ?_) (fun p _ => by simp [at2, Ready2.scaleF])
  obtain ⟨p1, p3⟩ := p
  simp only [Args2.pts, pts2, mem_product, mem_range] at hp
  have inv := dft2_inv (n1 := c.a.nfast.toNat) (n2 := c.a.nslow.toNat) Y
    (i := (p1 : Nat)) (j := (p3 : Nat)) ⟨by omega, by omega⟩ ⟨by omega, by omega⟩
  obtain ⟨e1, e3⟩ := hv.casts
  have eN : ((c.a.nfast.toNat : ℂ) * c.a.nslow.toNat) = ((c.a.N : ℝ) : ℂ) := by
    unfold Args2.N
    push_cast [← e1, ← e3]
    rfl
  rw [eN] at inv
  have hN : ((c.a.N : ℝ) : ℂ) ≠ 0 := by exact_mod_cast hN0.ne'
  rw [at2_apply, at2_apply]
  unfold Args2.dft
  dsimp only
  rw [inv]
  push_cast
  field_simp

end

section
variable {ar : Arith} {u v cc tiny big d : ℝ} {w : Int} {P : Nat} {a : Args2} {st : Settings} {f : Nat → Fft2 ℝ}

theorem EN.holdsNorm2 {p : Int} {bs : Nat → Box2} {G B : ℝ} {Y X : Grid2} {n : Nat} {m : Nat → LMem ℝ}
    (h : EN a.pts tiny G B (at2 Y) (at2 X)) (hX : Holds2 P p bs n X m) :
    a.HoldsNorm P p bs n Y ((G - 1) * B) m := by
  refine ⟨X, hX, ?_⟩
  rw [a.enorm_eq]
  exact h.err

/-- **C67, 2d forward.**  `compute(data,data,1)` with rounding terminates under every schedule, and the Euclidean norm of
the error of the result is at most `fftErr2` times the norm of the exact 2d DFT (and two tiny numbers for each grid
point, times the square root of their number).  The bound grows with the logarithms of the dimensions; it does not
depend on the number of ranks, the layouts or the settings. -/
theorem C67_forward2 (R : RoundOK ar u tiny big) (hd : 0 ≤ d) (S : SetUp2F ar w P a st f) (htw : a.TwiddlesNear ar d)
    (e : Bool) (J : Nat → Nat → Junk) (scaled : Bool) {n : Nat} {X : Grid2} {m : Nat → LMem ℝ}
    (hX : Holds2 P 0 a.ins n X m) (hb : Bufs2 P f n m)
    (hbig : 2 * (1 + a.fftErr2 u d) * (a.enorm (a.dft false X) + a.N * (2 * tiny)) ≤ big) :
    ∃ m', Terminates e P (fun r => (f r).computeF ar (J r) scaled false 1 n n) m m' ∧
      a.HoldsNorm P a.permute a.outs n (a.dft false X)
        (a.fftErr2 u d * (a.enorm (a.dft false X) + a.N * (2 * tiny))) m' ∧ Kept2 P f n m m' := by
  obtain ⟨g, Sg, hg⟩ := S.exact
  have hv := S.args
  obtain ⟨c, rfl, rfl, rfl, rfl, _, Rd⟩ := Sg.ready
  have hN0 := hv.N_pos
  have es : c.a.enorm (c.a.dft false X) + c.a.N * (2 * tiny) = Real.sqrt c.a.N * c.a.size2 tiny X := by
    rw [C67_parseval2 hv]
    unfold Args2.size2
    rw [mul_add, ← mul_assoc (Real.sqrt c.a.N), Real.mul_self_sqrt hN0.le]
  rw [es] at hbig ⊢
  obtain ⟨m', s, h⟩ := Rd.computeF_fwd e hg J scaled hX
    (hb.like fun r hr => ⟨(hg r hr).fftsize, (hg r hr).sendsize, (hg r hr).recvsize⟩)
  refine ⟨m', s.ok.terminates, ?_, s.kept2.like fun r hr => (hg r hr).fftsize.symm⟩
  have k := (gridF2_en R hd hv htw false le_rfl (hv.en R.t0 X) (by rw [one_mul]; exact hbig) (Or.inl rfl)).holdsNorm2 h
  rw [one_mul, add_sub_cancel_left] at k
  exact k

/-- **C67, 2d backward without scaling.** -/
theorem C67_backward2_unscaled (R : RoundOK ar u tiny big) (hd : 0 ≤ d) (S : SetUp2F ar w P a st f)
    (htw : a.TwiddlesNear ar d) (e : Bool) (J : Nat → Nat → Junk) {n : Nat} {X : Grid2} {m : Nat → LMem ℝ}
    (hX : Holds2 P a.permute a.outs n X m) (hb : Bufs2 P f n m)
    (hbig : 2 * (1 + a.fftErr2 u d) * (a.enorm (a.dft true X) + a.N * (2 * tiny)) ≤ big) :
    ∃ m', Terminates e P (fun r => (f r).computeF ar (J r) false false (-1) n n) m m' ∧
      a.HoldsNorm P 0 a.ins n (a.dft true X)
        (a.fftErr2 u d * (a.enorm (a.dft true X) + a.N * (2 * tiny))) m' ∧ Kept2 P f n m m' := by
  obtain ⟨g, Sg, hg⟩ := S.exact
  have hv := S.args
  obtain ⟨c, rfl, rfl, rfl, rfl, _, Rd⟩ := Sg.ready
  have hN0 := hv.N_pos
  have es : c.a.enorm (c.a.dft true X) + c.a.N * (2 * tiny) = Real.sqrt c.a.N * c.a.size2 tiny X := by
    rw [C67_parseval2 hv]
    unfold Args2.size2
    rw [mul_add, ← mul_assoc (Real.sqrt c.a.N), Real.mul_self_sqrt hN0.le]
  rw [es] at hbig ⊢
  obtain ⟨m', s, h⟩ := Rd.computeF_back e hg J false hX
    (hb.like fun r hr => ⟨(hg r hr).fftsize, (hg r hr).sendsize, (hg r hr).recvsize⟩) (fun h => absurd h (by decide))
  refine ⟨m', s.ok.terminates, ?_, s.kept2.like fun r hr => (hg r hr).fftsize.symm⟩
  have k := (gridF2_en R hd hv htw true le_rfl (hv.en R.t0 X) (by rw [one_mul]; exact hbig)
    (Ready2.gridBack_or ar c X)).holdsNorm2 (m := m') (n := n) (p := 0) (bs := c.a.ins) (P := c.P) (by
        have e0 : Ready2.scaleF ar false (c.a.nfast * c.a.nslow) (Ready2.gridBack ar c X) = Ready2.gridBack ar c X := rfl
        rwa [e0] at h)
  rw [one_mul, add_sub_cancel_left] at k
  exact k

/-- **C67, 2d round trip.**  Forward, then backward `compute` with scaling gives back the input; the Euclidean norm of the
error is at most a small multiple of the norm of the input.  Missing with respect to the property: the
condition on the numbers of points (the scaling covers the number of points of the output, see C22). -/
theorem C67_round_trip2_partial (R : RoundOK ar u tiny big) (T : TrigOK ar v cc tiny big) (hu : u ≤ 1 / 100)
    (hv : v ≤ 1 / 100) (ht : tiny ≤ 1 / 100) (hd : 0 ≤ d) (S : SetUp2F ar w P a st f)
    (htw : a.TwiddlesNear ar d) (hio : ∀ r < P, (a.ins r).count ≤ (a.outs r).count) (e : Bool)
    (J J' : Nat → Nat → Junk) {n : Nat} {X : Grid2} {m : Nat → LMem ℝ}
    (hX : Holds2 P 0 a.ins n X m) (hb : Bufs2 P f n m)
    (hbig : 2 * (1 + a.fftErr2 u d) ^ 2 * (a.N * a.size2 tiny X) ≤ big) (hNb : a.N ≤ big) :
    ∃ m', Terminates e P (fun r => (f r).computeF ar (J r) true false 1 n n ++
        (f r).computeF ar (J' r) true false (-1) n n) m m' ∧
      a.HoldsNorm P 0 a.ins n X
        (((1 + a.fftErr2 u d) ^ 2 * normGrow u v * (1 + u) - 1) *
          (a.size2 tiny X * (1 + a.N * tiny) + Real.sqrt a.N * (2 * tiny))) m' ∧ Kept2 P f n m m' := by
  obtain ⟨g, Sg, hg⟩ := S.exact
  have hva := S.args
  obtain ⟨c, rfl, rfl, rfl, rfl, _, Rd⟩ := Sg.ready
  have hb' := hb.like (g := g) fun r hr => ⟨(hg r hr).fftsize, (hg r hr).sendsize, (hg r hr).recvsize⟩
  obtain ⟨m1, s1, h1⟩ := Rd.computeF_fwd e hg J true hX hb'
  obtain ⟨m2, s2, h2⟩ := Rd.computeF_back e hg J' true h1 (hb'.congr s1.dom) (fun _ => hio)
  refine ⟨m2, (s1.append s2).ok.terminates, ?_, (s1.append s2).kept2.like fun r hr => (hg r hr).fftsize.symm⟩
  have k := (cycle2_en R T hu hv ht hd hva htw hNb le_rfl (hva.en R.t0 X) (by rw [one_mul]; exact hbig)).holdsNorm2 h2
  rw [one_mul] at k
  exact k

end

/-! ## In numbers -/

theorem Args2.fftErr2_le {P : Nat} {a : Args2} (hv : a.Valid P) {u d r : ℝ} (hu : 0 ≤ u) (hd : 0 ≤ d)
    (hr : radixErr u d ≤ r) : 1 + a.fftErr2 u d ≤ (1 + 9 / 4 * r) ^ 60 := by
  have h0 := radixErr_nonneg hu hd
  have l : ∀ n, (n = a.nfast ∨ n = a.nslow) → Nat.log 2 n.toNat ≤ 30 := by
    intro n hn
    obtain ⟨h1, h2, _⟩ := hv.smooth hn
    have := Nat.log_lt_of_lt_pow (b := 2) (x := 31) (y := n.toNat) (by omega) h2
    omega
  have l1 := l _ (Or.inl rfl)
  have l3 := l _ (Or.inr rfl)
  unfold Args2.fftErr2
  rw [add_sub_cancel]
  calc _ ≤ (1 + 9 / 4 * radixErr u d) ^ 60 := pow_le_pow_right₀ (by linarith) (by omega)
    _ ≤ _ := by gcongr

theorem Args2.HoldsNorm.mono {P : Nat} {a : Args2} {p : Int} {bs : Nat → Box2} {n : Nat} {X : Grid2} {e e' : ℝ}
    {m : Nat → LMem ℝ} (h : a.HoldsNorm P p bs n X e m) (he : e ≤ e') : a.HoldsNorm P p bs n X e' m := by
  obtain ⟨Y, h1, h2⟩ := h
  exact ⟨Y, h1, h2.trans he⟩

/-- The constants for double precision. -/
theorem double_norm2 {P : Nat} {a : Args2} (hv : a.Valid P) :
    1 + a.fftErr2 (1 / 2 ^ 53) (1 / 2 ^ 47) ≤ 1 + 1 / 2 ^ 37 ∧
    a.cycle2 (1 / 2 ^ 53) (1 / 2 ^ 53) (1 / 2 ^ 47) ≤ 1 + 1 / 2 ^ 36 := by
  have h1 := Args2.fftErr2_le hv (u := 1 / 2 ^ 53) (d := 1 / 2 ^ 47) (r := 1 / 2 ^ 45 + 1 / 2 ^ 48) (by positivity)
    (by positivity) (by unfold radixErr; norm_num)
  have hE := a.fftErr2_nonneg (u := 1 / 2 ^ 53) (d := 1 / 2 ^ 47) (by positivity) (by positivity)
  have h3 : ((1 : ℝ) + 9 / 4 * (1 / 2 ^ 45 + 1 / 2 ^ 48)) ^ 60 ≤ 1 + 1 / 2 ^ 37 := by norm_num
  refine ⟨h1.trans h3, ?_⟩
  unfold Args2.cycle2
  have h7 : (1 + a.fftErr2 (1 / 2 ^ 53) (1 / 2 ^ 47)) ^ 2 ≤ ((1 + 9 / 4 * (1 / 2 ^ 45 + 1 / 2 ^ 48)) ^ 60) ^ 2 := by gcongr
  have h8 : normGrow (1 / 2 ^ 53) (1 / 2 ^ 53) ≤ 1 + 4 * (1 / 2 ^ 53) := by unfold normGrow; norm_num
  have h8' : 0 ≤ normGrow (1 / 2 ^ 53) (1 / 2 ^ 53) := by unfold normGrow; norm_num
  have h9 : (1 + a.fftErr2 (1 / 2 ^ 53) (1 / 2 ^ 47)) ^ 2 * normGrow (1 / 2 ^ 53) (1 / 2 ^ 53) * (1 + 1 / 2 ^ 53) ≤
      ((1 + 9 / 4 * (1 / 2 ^ 45 + 1 / 2 ^ 48)) ^ 60) ^ 2 * (1 + 4 * (1 / 2 ^ 53)) * (1 + 1 / 2 ^ 53) := by gcongr
  have h10 : (((1 : ℝ) + 9 / 4 * (1 / 2 ^ 45 + 1 / 2 ^ 48)) ^ 60) ^ 2 * (1 + 4 * (1 / 2 ^ 53)) * (1 + 1 / 2 ^ 53) ≤
      1 + 1 / 2 ^ 36 := by norm_num
  exact h9.trans h10

/-- The constants for single precision. -/
theorem float_norm2 {P : Nat} {a : Args2} (hv : a.Valid P) :
    1 + a.fftErr2 (1 / 2 ^ 24) (1 / 2 ^ 23) ≤ 1 + 1 / 2 ^ 11 ∧
    a.cycle2 (1 / 2 ^ 24) (1 / 2 ^ 53) (1 / 2 ^ 23) ≤ 1 + 1 / 2 ^ 10 := by
  have h1 := Args2.fftErr2_le hv (u := 1 / 2 ^ 24) (d := 1 / 2 ^ 23) (r := 25 / 2 ^ 24) (by positivity)
    (by positivity) (by unfold radixErr; norm_num)
  have hE := a.fftErr2_nonneg (u := 1 / 2 ^ 24) (d := 1 / 2 ^ 23) (by positivity) (by positivity)
  have h3 : ((1 : ℝ) + 9 / 4 * (25 / 2 ^ 24)) ^ 60 ≤ 1 + 1 / 2 ^ 11 := by norm_num
  refine ⟨h1.trans h3, ?_⟩
  unfold Args2.cycle2
  have h7 : (1 + a.fftErr2 (1 / 2 ^ 24) (1 / 2 ^ 23)) ^ 2 ≤ ((1 + 9 / 4 * (25 / 2 ^ 24)) ^ 60) ^ 2 := by gcongr
  have h8 : normGrow (1 / 2 ^ 24) (1 / 2 ^ 53) ≤ 1 + 4 * (1 / 2 ^ 24) := by unfold normGrow; norm_num
  have h8' : 0 ≤ normGrow (1 / 2 ^ 24) (1 / 2 ^ 53) := by unfold normGrow; norm_num
  have h9 : (1 + a.fftErr2 (1 / 2 ^ 24) (1 / 2 ^ 23)) ^ 2 * normGrow (1 / 2 ^ 24) (1 / 2 ^ 53) * (1 + 1 / 2 ^ 24) ≤
      ((1 + 9 / 4 * (25 / 2 ^ 24)) ^ 60) ^ 2 * (1 + 4 * (1 / 2 ^ 24)) * (1 + 1 / 2 ^ 24) := by gcongr
  have h10 : (((1 : ℝ) + 9 / 4 * (25 / 2 ^ 24)) ^ 60) ^ 2 * (1 + 4 * (1 / 2 ^ 24)) * (1 + 1 / 2 ^ 24) ≤
      1 + 1 / 2 ^ 10 := by norm_num
  exact h9.trans h10

theorem Args2.enorm_nonneg (a : Args2) (X : Grid2) : 0 ≤ a.enorm X := Real.sqrt_nonneg _

/-- **C67 in numbers, 2d forward, double precision (`u = v = 2^-53`, `cos` and `sin` accurate to `2^-52`)**: for every
grid the library accepts, the norm of the error is at most `2^-37` of the norm of the result. -/
theorem C67_double2 {ar : Arith} {tiny big : ℝ} {w : Int} {P : Nat} {a : Args2} {st : Settings} {f : Nat → Fft2 ℝ}
    (R : RoundOK ar (1 / 2 ^ 53) tiny big) (T : TrigOK ar (1 / 2 ^ 53) (1 / 2 ^ 52) tiny big) (ht : tiny ≤ 1 / 2 ^ 53)
    (hbig : 2 ^ 34 ≤ big) (S : SetUp2F ar w P a st f) (e : Bool) (J : Nat → Nat → Junk) (scaled : Bool)
    {n : Nat} {X : Grid2} {m : Nat → LMem ℝ} (hX : Holds2 P 0 a.ins n X m) (hb : Bufs2 P f n m)
    (hs : 3 * (a.enorm (a.dft false X) + a.N * (2 * tiny)) ≤ big) :
    ∃ m', Terminates e P (fun r => (f r).computeF ar (J r) scaled false 1 n n) m m' ∧
      a.HoldsNorm P a.permute a.outs n (a.dft false X)
        (1 / 2 ^ 37 * (a.enorm (a.dft false X) + a.N * (2 * tiny))) m' ∧ Kept2 P f n m m' := by
  have h1 := (double_setup2 S.args R T ht hbig).1
  obtain ⟨h2, _⟩ := double_norm2 S.args
  have hN0 := S.args.N_pos
  have t0 := R.t0
  have hS : 0 ≤ a.enorm (a.dft false X) + a.N * (2 * tiny) := add_nonneg (a.enorm_nonneg _) (by positivity)
  obtain ⟨m', k1, k2, k3⟩ := C67_forward2 R (by positivity) S h1 e J scaled hX hb (by
    refine le_trans (mul_le_mul_of_nonneg_right ?_ hS) hs
    norm_num at h2 ⊢
    linarith)
  exact ⟨m', k1, k2.mono (mul_le_mul_of_nonneg_right (by linarith) hS), k3⟩

/-- **C67 in numbers, 2d round trip, double precision.** -/
theorem C67_double_round_trip2_partial {ar : Arith} {tiny big : ℝ} {w : Int} {P : Nat} {a : Args2} {st : Settings}
    {f : Nat → Fft2 ℝ} (R : RoundOK ar (1 / 2 ^ 53) tiny big) (T : TrigOK ar (1 / 2 ^ 53) (1 / 2 ^ 52) tiny big)
    (ht : tiny ≤ 1 / 2 ^ 53) (hbig : 2 ^ 62 ≤ big) (S : SetUp2F ar w P a st f)
    (hio : ∀ r < P, (a.ins r).count ≤ (a.outs r).count) (e : Bool) (J J' : Nat → Nat → Junk)
    {n : Nat} {X : Grid2} {m : Nat → LMem ℝ} (hX : Holds2 P 0 a.ins n X m) (hb : Bufs2 P f n m)
    (hs : 3 * (a.N * a.size2 tiny X) ≤ big) :
    ∃ m', Terminates e P (fun r => (f r).computeF ar (J r) true false 1 n n ++
        (f r).computeF ar (J' r) true false (-1) n n) m m' ∧
      a.HoldsNorm P 0 a.ins n X
        (1 / 2 ^ 36 * (a.size2 tiny X * (1 + a.N * tiny) + Real.sqrt a.N * (2 * tiny))) m' ∧ Kept2 P f n m m' := by
  have h1 := (double_setup2 S.args R T ht (le_trans (by norm_num) hbig)).1
  obtain ⟨h2, h3⟩ := double_norm2 S.args
  have hE := a.fftErr2_nonneg (u := 1 / 2 ^ 53) (d := 1 / 2 ^ 47) (by positivity) (by positivity)
  have hS := a.size2_nonneg R.t0 X
  have hN0 := S.args.N_pos
  have t0 := R.t0
  have h5 : (1 + a.fftErr2 (1 / 2 ^ 53) (1 / 2 ^ 47)) ^ 2 ≤ (1 + 1 / 2 ^ 37) ^ 2 := by gcongr
  obtain ⟨m', k1, k2, k3⟩ := C67_round_trip2_partial R T (by norm_num) (by norm_num) (ht.trans (by norm_num))
    (by positivity) S h1 hio e J J' hX hb (by
      refine le_trans (mul_le_mul_of_nonneg_right ?_ (by positivity)) hs
      norm_num at h5 ⊢
      linarith) (S.args.N_le.trans hbig)
  refine ⟨m', k1, k2.mono (mul_le_mul_of_nonneg_right ?_ (by positivity)), k3⟩
  unfold Args2.cycle2 at h3
  linarith

/-- **C67 in numbers, 2d forward, single precision (`u = 2^-24`)**: the norm of the error is at most `2^-11` of the
norm of the result. -/
theorem C67_float2 {ar : Arith} {tiny big : ℝ} {w : Int} {P : Nat} {a : Args2} {st : Settings} {f : Nat → Fft2 ℝ}
    (R : RoundOK ar (1 / 2 ^ 24) tiny big) (T : TrigOK ar (1 / 2 ^ 53) (1 / 2 ^ 52) tiny big) (ht : tiny ≤ 1 / 2 ^ 24)
    (hbig : 2 ^ 34 ≤ big) (S : SetUp2F ar w P a st f) (e : Bool) (J : Nat → Nat → Junk) (scaled : Bool)
    {n : Nat} {X : Grid2} {m : Nat → LMem ℝ} (hX : Holds2 P 0 a.ins n X m) (hb : Bufs2 P f n m)
    (hs : 3 * (a.enorm (a.dft false X) + a.N * (2 * tiny)) ≤ big) :
    ∃ m', Terminates e P (fun r => (f r).computeF ar (J r) scaled false 1 n n) m m' ∧
      a.HoldsNorm P a.permute a.outs n (a.dft false X)
        (1 / 2 ^ 11 * (a.enorm (a.dft false X) + a.N * (2 * tiny))) m' ∧ Kept2 P f n m m' := by
  have h1 := (float_setup2 S.args R T ht hbig).1
  obtain ⟨h2, _⟩ := float_norm2 S.args
  have hN0 := S.args.N_pos
  have t0 := R.t0
  have hS : 0 ≤ a.enorm (a.dft false X) + a.N * (2 * tiny) := add_nonneg (a.enorm_nonneg _) (by positivity)
  obtain ⟨m', k1, k2, k3⟩ := C67_forward2 R (by positivity) S h1 e J scaled hX hb (by
    refine le_trans (mul_le_mul_of_nonneg_right ?_ hS) hs
    norm_num at h2 ⊢
    linarith)
  exact ⟨m', k1, k2.mono (mul_le_mul_of_nonneg_right (by linarith) hS), k3⟩

/-- **C67 in numbers, 2d round trip, single precision.** -/
theorem C67_float_round_trip2_partial {ar : Arith} {tiny big : ℝ} {w : Int} {P : Nat} {a : Args2} {st : Settings}
    {f : Nat → Fft2 ℝ} (R : RoundOK ar (1 / 2 ^ 24) tiny big) (T : TrigOK ar (1 / 2 ^ 53) (1 / 2 ^ 52) tiny big)
    (ht : tiny ≤ 1 / 2 ^ 24) (hbig : 2 ^ 62 ≤ big) (S : SetUp2F ar w P a st f)
    (hio : ∀ r < P, (a.ins r).count ≤ (a.outs r).count) (e : Bool) (J J' : Nat → Nat → Junk)
    {n : Nat} {X : Grid2} {m : Nat → LMem ℝ} (hX : Holds2 P 0 a.ins n X m) (hb : Bufs2 P f n m)
    (hs : 3 * (a.N * a.size2 tiny X) ≤ big) :
    ∃ m', Terminates e P (fun r => (f r).computeF ar (J r) true false 1 n n ++
        (f r).computeF ar (J' r) true false (-1) n n) m m' ∧
      a.HoldsNorm P 0 a.ins n X
        (1 / 2 ^ 10 * (a.size2 tiny X * (1 + a.N * tiny) + Real.sqrt a.N * (2 * tiny))) m' ∧ Kept2 P f n m m' := by
  have h1 := (float_setup2 S.args R T ht (le_trans (by norm_num) hbig)).1
  obtain ⟨h2, h3⟩ := float_norm2 S.args
  have hE := a.fftErr2_nonneg (u := 1 / 2 ^ 24) (d := 1 / 2 ^ 23) (by positivity) (by positivity)
  have hS := a.size2_nonneg R.t0 X
  have hN0 := S.args.N_pos
  have t0 := R.t0
  have h5 : (1 + a.fftErr2 (1 / 2 ^ 24) (1 / 2 ^ 23)) ^ 2 ≤ (1 + 1 / 2 ^ 11) ^ 2 := by gcongr
  obtain ⟨m', k1, k2, k3⟩ := C67_round_trip2_partial R T (by norm_num) (by norm_num) (ht.trans (by norm_num))
    (by positivity) S h1 hio e J J' hX hb (by
      refine le_trans (mul_le_mul_of_nonneg_right ?_ (by positivity)) hs
      norm_num at h5 ⊢
      linarith) (S.args.N_le.trans hbig)
  refine ⟨m', k1, k2.mono (mul_le_mul_of_nonneg_right ?_ (by positivity)), k3⟩
  unfold Args2.cycle2 at h3
  linarith

/-- Example: 2 ranks, an arithmetic with 53 binary digits, the constant 1 on the plane of `plane2`: all hypotheses are
met. -/
example (J J' : Nat → Nat → Junk) :
    ∃ f, SetUp2F arith53 1 2 (plane2 1) ⟨2, 0, 2⟩ f ∧ ∃ m, Holds2 2 0 (plane2 1).ins 0 (fun _ _ => 1) m ∧
      Bufs2 2 f 0 m ∧
      (∃ m', Terminates true 2 (fun r => (f r).computeF arith53 (J r) true false 1 0 0) m m' ∧
        (plane2 1).HoldsNorm 2 1 (plane2 1).outs 0 ((plane2 1).dft false fun _ _ => 1)
          (1 / 2 ^ 37 * (plane2 1).enorm ((plane2 1).dft false fun _ _ => 1)) m') ∧
      ∃ m', Terminates true 2 (fun r => (f r).computeF arith53 (J r) true false 1 0 0 ++
          (f r).computeF arith53 (J' r) true false (-1) 0 0) m m' ∧
        (plane2 1).HoldsNorm 2 0 (plane2 1).ins 0 (fun _ _ => 1) (1 / 2 ^ 36 * (plane2 1).enorm fun _ _ => 1) m' := by
  have hv := plane2_valid 1 (by decide)
  obtain ⟨f, S⟩ := setUp2F_exists arith53 (w := 1) hv (st := ⟨2, 0, 2⟩) (by simp [Settings.Valid2, FlagOk2])
  obtain ⟨g, Sg, hg⟩ := S.exact
  obtain ⟨m, hm⟩ := Sg.mem_in fun _ _ => 1
  have hb : Bufs2 2 f 0 m := (hm 0).2.like fun r hr =>
    ⟨(hg r hr).fftsize.symm, (hg r hr).sendsize.symm, (hg r hr).recvsize.symm⟩
  have hN : 0 ≤ (plane2 1).N := hv.N_pos.le
  have b1 := (plane2 1).enorm_nonneg ((plane2 1).dft false fun _ _ => 1)
  have b2 := (plane2 1).enorm_nonneg fun _ _ => 1
  have es : (plane2 1).size2 0 (fun _ _ => 1) = (plane2 1).enorm fun _ _ => 1 := by
    unfold Args2.size2
    rw [mul_zero, mul_zero, add_zero]
  set B : ℝ := 2 ^ 62 + 3 * ((plane2 1).enorm ((plane2 1).dft false fun _ _ => 1)) +
    3 * ((plane2 1).N * (plane2 1).enorm fun _ _ => 1)
  have q : 0 ≤ 3 * ((plane2 1).N * (plane2 1).enorm fun _ _ => 1) := by positivity
  refine ⟨f, S, m, (hm 0).1, hb, ?_, ?_⟩
  · obtain ⟨m', k1, k2, _⟩ := C67_double2 (arith53_round B) (arith53_trig B) (by positivity)
      (by norm_num [B]; linarith) S true J true (hm 0).1 hb (by norm_num [B]; linarith)
    exact ⟨m', k1, k2.mono (by rw [mul_zero, mul_zero, add_zero])⟩
  · obtain ⟨m', k1, k2, _⟩ := C67_double_round_trip2_partial (arith53_round B) (arith53_trig B)
      (by positivity) (by norm_num [B]; linarith) S (by
        intro r _
        simp only [plane2, Box2.count, Box2.isize, Box2.jsize]
        simp) true J J' (hm 0).1 hb (by rw [es]; norm_num [B]; linarith)
    exact ⟨m', k1, k2.mono (by rw [es, mul_zero, mul_zero, mul_zero, add_zero, add_zero, mul_one])⟩

end FftMpi
