import Verif.FftL2
import Verif.PropsFftErr
import Verif.PropsFftErr2

/-!
# Property C67: rounding errors of `compute` in the Euclidean norm

The bounds of C56 are relative to the sum of the absolute values of the input, which may be larger than the numbers of
the result by a factor of the number of grid points.  The bounds here are relative to the Euclidean norm of the result
itself: the norm of the error is at most a small multiple of the norm of the exact result, and the multiple grows with
the logarithm of the number of grid points only.
-/

noncomputable section

namespace FftMpi

open Complex Finset

/-! ## 3d -/

/-- The Euclidean norm of a grid function. -/
def Args3.enorm (a : Args3) (X : Grid3) : ℝ :=
  Real.sqrt (∑ i ∈ range a.nfast.toNat, ∑ j ∈ range a.nmid.toNat, ∑ k ∈ range a.nslow.toNat,
    ‖X (i : Nat) (j : Nat) (k : Nat)‖ ^ 2)

/-- The Euclidean norm, and two tiny numbers for each grid point (for underflows). -/
def Args3.size2 (a : Args3) (tiny : ℝ) (X : Grid3) : ℝ := a.enorm X + Real.sqrt a.N * (2 * tiny)

/-- Relative error of a 3d transform in the Euclidean norm. -/
def Args3.fftErr2 (a : Args3) (u d : ℝ) : ℝ :=
  (1 + 9 / 4 * radixErr u d) ^ (Nat.log 2 a.nfast.toNat + Nat.log 2 a.nmid.toNat + Nat.log 2 a.nslow.toNat) - 1

/-- On every rank the array `n` holds the rank's part of numbers whose error has at most the norm `err`. -/
def Args3.HoldsNorm (a : Args3) (P : Nat) (permute : Int) (bs : Nat → Box3) (n : Nat) (X : Grid3) (err : ℝ)
    (m : Nat → LMem ℝ) : Prop :=
  ∃ Y, Holds P permute bs n Y m ∧ a.enorm (fun i j k => Y i j k - X i j k) ≤ err

theorem Args3.fftErr2_nonneg {a : Args3} {u d : ℝ} (hu : 0 ≤ u) (hd : 0 ≤ d) : 0 ≤ a.fftErr2 u d := by
  have h0 := radixErr_nonneg hu hd
  have : 1 ≤ (1 + 9 / 4 * radixErr u d) ^
      (Nat.log 2 a.nfast.toNat + Nat.log 2 a.nmid.toNat + Nat.log 2 a.nslow.toNat) := one_le_pow₀ (by linarith)
  unfold Args3.fftErr2
  linarith

/-- The points of the grid. -/
abbrev Args3.pts (a : Args3) : Finset (Nat × Nat × Nat) := pts3 a.nfast.toNat a.nmid.toNat a.nslow.toNat

theorem Args3.enorm_eq (a : Args3) (X : Grid3) : a.enorm X = l2 a.pts fun p => ‖at3 X p‖ := by
  rw [l2_pts3]
  rfl

theorem Args3.size2_nonneg {a : Args3} {tiny : ℝ} (ht : 0 ≤ tiny) (X : Grid3) : 0 ≤ a.size2 tiny X :=
  add_nonneg (Real.sqrt_nonneg _) (mul_nonneg (Real.sqrt_nonneg _) (by linarith))

section
variable {P : Nat} {a : Args3}

theorem Args3.Valid.casts (hv : a.Valid P) : ((a.nfast.toNat : Nat) : ℝ) = a.nfast ∧
    ((a.nmid.toNat : Nat) : ℝ) = a.nmid ∧ ((a.nslow.toNat : Nat) : ℝ) = a.nslow := by
  have h1 := hv.fast.1; have h2 := hv.mid.1; have h3 := hv.slow.1
  have k : ∀ n : Int, 2 ≤ n → ((n.toNat : Nat) : ℝ) = n := by
    intro n hn
    exact_mod_cast congrArg (Int.cast (R := ℝ)) (show ((n.toNat : Nat) : Int) = n by omega)
  exact ⟨k _ h1, k _ h2, k _ h3⟩

theorem Args3.Valid.sqrt_N (hv : a.Valid P) : Real.sqrt a.nfast.toNat * Real.sqrt a.nmid.toNat *
    Real.sqrt a.nslow.toNat = Real.sqrt a.N := by
  obtain ⟨e1, e2, e3⟩ := hv.casts
  rw [← Real.sqrt_mul (Nat.cast_nonneg _), ← Real.sqrt_mul (by positivity), e1, e2, e3]
  rfl

theorem Args3.Valid.card_pts (hv : a.Valid P) : (a.pts.card : ℝ) = a.N := by
  obtain ⟨e1, e2, e3⟩ := hv.casts
  unfold Args3.pts pts3 Args3.N
  rw [card_product, card_product, card_range, card_range, card_range]
  push_cast
  rw [e1, e2, e3]
  ring

theorem Args3.Valid.one_le_N (hv : a.Valid P) : 1 ≤ a.N := by
  rw [← Args3.N_int]
  exact_mod_cast hv.N_one

theorem Args3.Valid.pts_pos (hv : a.Valid P) : 0 < a.nfast.toNat ∧ 0 < a.nmid.toNat ∧ 0 < a.nslow.toNat := by
  have h1 := hv.fast.1; have h2 := hv.mid.1; have h3 := hv.slow.1
  omega

/-- Exact numbers. -/
theorem Args3.Valid.en (hv : a.Valid P) {tiny : ℝ} (ht : 0 ≤ tiny) (X : Grid3) :
    EN a.pts tiny 1 (a.size2 tiny X) (at3 X) (at3 X) := by
  refine ⟨?_, ?_⟩
  · unfold Args3.size2
    rw [a.enorm_eq]
    refine (l2_add _ _ _).trans (le_of_eq ?_)
    rw [l2_const _ (by linarith), hv.card_pts]
  · have := (EN.refl a.pts tiny (at3 X)).err
    rw [sub_self, zero_mul] at this ⊢
    exact this

theorem l2_lines_dft {ι σ : Type} {s : Finset ι} {lines : Finset σ} {e : σ → Nat → ι} {n : Nat} {back : Bool}
    {Y Y' : ι → ℂ} (hs : ∀ f : ι → ℝ, l2 s f = l2 lines fun a => l2 (range n) fun t => f (e a t))
    (hY : ∀ a k, Y' (e a k) = dft1 n back (fun t => Y (e a t)) k) :
    l2 s (fun p => ‖Y' p‖) = Real.sqrt n * l2 s fun p => ‖Y p‖ := by
  rw [hs, hs, ← l2_smul _ (Real.sqrt_nonneg _)]
  refine l2_congr fun b _ => ?_
  rw [← l2_dft1 n back]
  exact l2_congr fun t _ => by rw [hY b t]

theorem l2_along0 (n1 n2 n3 : Nat) (back : Bool) (X : Grid3) :
    l2 (pts3 n1 n2 n3) (fun p => ‖at3 (fftAlong 0 n1 back X) p‖) = Real.sqrt n1 * l2 (pts3 n1 n2 n3) fun p => ‖at3 X p‖ :=
  l2_lines_dft (back := back) (l2_lines0 n1 n2 n3) (fun b k => by simp [at3, fftAlong])

theorem l2_along1 (n1 n2 n3 : Nat) (back : Bool) (X : Grid3) :
    l2 (pts3 n1 n2 n3) (fun p => ‖at3 (fftAlong 1 n2 back X) p‖) = Real.sqrt n2 * l2 (pts3 n1 n2 n3) fun p => ‖at3 X p‖ :=
  l2_lines_dft (back := back) (l2_lines1 n1 n2 n3) (fun b k => by simp [at3, fftAlong])

theorem l2_along2 (n1 n2 n3 : Nat) (back : Bool) (X : Grid3) :
    l2 (pts3 n1 n2 n3) (fun p => ‖at3 (fftAlong 2 n3 back X) p‖) = Real.sqrt n3 * l2 (pts3 n1 n2 n3) fun p => ‖at3 X p‖ :=
  l2_lines_dft (back := back) (l2_lines2 n1 n2 n3) (fun b k => by simp [at3, fftAlong])

theorem l2_dft3 (n1 n2 n3 : Nat) (back : Bool) (X : Grid3) :
    l2 (pts3 n1 n2 n3) (fun p => ‖at3 (dft3 n1 n2 n3 back X) p‖) =
      Real.sqrt n1 * Real.sqrt n2 * Real.sqrt n3 * l2 (pts3 n1 n2 n3) fun p => ‖at3 X p‖ := by
  generalize hZ : at3 (dft3 n1 n2 n3 back X) = Z
  rw [at3_fwd] at hZ
  subst hZ
  rw [l2_along2, l2_along1, l2_along0]
  ring

/-- **Parseval's identity in three dimensions**: a transform multiplies the norm by the square root of the number of
grid points, so that the bounds below are relative to the norm of the result. -/
theorem C67_parseval (hv : a.Valid P) (back : Bool) (X : Grid3) :
    a.enorm (a.dft back X) = Real.sqrt a.N * a.enorm X := by
  rw [a.enorm_eq, a.enorm_eq, ← hv.sqrt_N]
  exact l2_dft3 _ _ _ back X

end

section
variable {ar : Arith} {u v cc tiny big d : ℝ} {c : Create}

/-- The 1d FFTs of the forward and of the inverse path. -/
theorem gridF_en (R : RoundOK ar u tiny big) (hd : 0 ≤ d) (hv : c.a.Valid c.P) (htw : c.a.TwiddlesNear ar d)
    (back : Bool) {G B : ℝ} (hG : 1 ≤ G) {Y X : Grid3} (h : EN c.a.pts tiny G B (at3 Y) (at3 X))
    (hb : 2 * (G * (1 + c.a.fftErr2 u d)) * (Real.sqrt c.a.N * B) ≤ big) {Z : Grid3}
    (hZ : Z = Ready.gridF ar c back X ∨ Z = Ready.gridFInv ar c back X) :
    EN c.a.pts tiny (G * (1 + c.a.fftErr2 u d)) (Real.sqrt c.a.N * B) (at3 (c.a.dft back Y)) (at3 Z) := by
  have e : 1 + c.a.fftErr2 u d = (1 + kissErr2 u d c.a.nfast.toNat) * (1 + kissErr2 u d c.a.nmid.toNat) *
      (1 + kissErr2 u d c.a.nslow.toNat) := by
    unfold Args3.fftErr2 kissErr2
    rw [pow_add, pow_add]
    ring
  rw [e, ← hv.sqrt_N] at hb ⊢
  have L : ∀ n, (n = c.a.nfast ∨ n = c.a.nmid ∨ n = c.a.nslow) →
      LineErr2 (kissLine ar n.toNat back) n.toNat back (kissErr2 u d n.toNat) tiny big := by
    intro n hn
    obtain ⟨h1, h2, h3⟩ := hv.smooth hn
    exact kissLine_l2 R hd h1 h2 h3 (htw n hn) back
  have p := fun n => kissErr2_nonneg R.u0 hd n
  obtain ⟨k1, k2, k3⟩ := hv.pts_pos
  exact h.lines3 R.t0 hG (p _) (p _) (p _) k1 k2 k3 (L _ (Or.inl rfl)) (L _ (Or.inr (Or.inl rfl)))
      (L _ (Or.inr (Or.inr rfl))) hb hZ

/-- Growth of the error in one round trip. -/
def Args3.cycle2 (a : Args3) (u v d : ℝ) : ℝ := (1 + a.fftErr2 u d) ^ 2 * normGrow u v * (1 + u)

/-- Size of the numbers after one round trip. -/
def Args3.grow2 (a : Args3) (tiny B : ℝ) : ℝ := B * (1 + a.N * tiny) + Real.sqrt a.N * (2 * tiny)

/-- One round trip of numbers with errors. -/
theorem cycle_en (R : RoundOK ar u tiny big) (T : TrigOK ar v cc tiny big) (hu : u ≤ 1 / 100)
    (hvv : v ≤ 1 / 100) (ht : tiny ≤ 1 / 100) (hd : 0 ≤ d) (hv : c.a.Valid c.P) (htw : c.a.TwiddlesNear ar d)
    (hNb : c.a.N ≤ big) {G B : ℝ} (hG : 1 ≤ G) {Y X : Grid3} (h : EN c.a.pts tiny G B (at3 Y) (at3 X))
    (hb : 2 * (G * (1 + c.a.fftErr2 u d) ^ 2) * (c.a.N * B) ≤ big) :
    EN c.a.pts tiny (G * c.a.cycle2 u v d) (c.a.grow2 tiny B) (at3 Y)
      (at3 (Ready.scaleF ar true (c.a.nfast * c.a.nmid * c.a.nslow)
        (Ready.gridBack ar c (Ready.gridF ar c false X)))) := by
  have hE := c.a.fftErr2_nonneg R.u0 hd
  have hB := h.nonneg
  have hN1 := hv.one_le_N
  have hN0 := hv.N_pos
  have hsN : Real.sqrt c.a.N * Real.sqrt c.a.N = c.a.N := Real.mul_self_sqrt hN0.le
  have hs1 : 1 ≤ Real.sqrt c.a.N := by rw [Real.one_le_sqrt]; exact hN1
  have k0 := gridF_en R hd hv htw false hG h (by
    refine le_trans ?_ hb
    have q1 : 1 + c.a.fftErr2 u d ≤ (1 + c.a.fftErr2 u d) ^ 2 := by nlinarith
    have q2 : Real.sqrt c.a.N ≤ c.a.N := by nlinarith
    gcongr) (Or.inl rfl)
  have hG1 : 1 ≤ G * (1 + c.a.fftErr2 u d) := by nlinarith
  have hb2 : 2 * (G * (1 + c.a.fftErr2 u d) * (1 + c.a.fftErr2 u d)) * (Real.sqrt c.a.N * (Real.sqrt c.a.N * B)) ≤
      big := by
    refine le_trans (le_of_eq ?_) hb
    rw [← mul_assoc (Real.sqrt c.a.N), hsN]
    ring
  have k1 := gridF_en R hd hv htw true hG1 k0 hb2 (Ready.gridBack_or ar c _)
  have h2 : 2 ≤ c.a.N := by
    have h1 := hv.fast.1; have h2 := hv.mid.1; have h3 := hv.slow.1
    rw [← Args3.N_int]
    have : 2 * 1 * 1 ≤ c.a.nfast * c.a.nmid * c.a.nslow := by gcongr <;> omega
    exact_mod_cast this
  have k2 := k1.scaled R T hu hvv ht hv.N_one (by rw [Args3.N_int]; exact hNb) (by linarith) (by nlinarith) hb2
  rw [Args3.N_int, hv.card_pts] at k2
  have eB : Real.sqrt c.a.N * (Real.sqrt c.a.N * B) * (1 / c.a.N + tiny) + Real.sqrt c.a.N * (2 * tiny) =
      c.a.grow2 tiny B := by
    unfold Args3.grow2
    rw [← mul_assoc (Real.sqrt c.a.N), hsN]
    field_simp
  have eG : G * (1 + c.a.fftErr2 u d) * (1 + c.a.fftErr2 u d) * normGrow u v * (1 + u) = G * c.a.cycle2 u v d := by
    unfold Args3.cycle2
    ring
  rw [eB, eG] at k2
  refine k2.congr (fun p hp => ?_) (fun p _ => by simp [at3, Ready.scaleF])
  obtain ⟨p1, p2, p3⟩ := p
  simp only [Args3.pts, pts3, mem_product, mem_range] at hp
  have inv := dft3_inv (n1 := c.a.nfast.toNat) (n2 := c.a.nmid.toNat) (n3 := c.a.nslow.toNat) Y
    (i := (p1 : Nat)) (j := (p2 : Nat)) (k := (p3 : Nat)) ⟨by omega, by omega⟩ ⟨by omega, by omega⟩ ⟨by omega, by omega⟩
  obtain ⟨e1, e2, e3⟩ := hv.casts
  have eN : ((c.a.nfast.toNat : ℂ) * c.a.nmid.toNat * c.a.nslow.toNat) = ((c.a.N : ℝ) : ℂ) := by
    unfold Args3.N
    push_cast [← e1, ← e2, ← e3]
    rfl
  rw [eN] at inv
  have hN : ((c.a.N : ℝ) : ℂ) ≠ 0 := by exact_mod_cast hN0.ne'
  rw [at3_apply, at3_apply]
  unfold Args3.dft
  dsimp only
  rw [inv]
  push_cast
  field_simp

end

section
variable {ar : Arith} {u v cc tiny big d : ℝ} {P : Nat} {a : Args3} {st : Settings} {f : Nat → Fft3 ℝ}

theorem EN.holdsNorm {p : Int} {bs : Nat → Box3} {G B : ℝ} {Y X : Grid3} {n : Nat} {m : Nat → LMem ℝ}
    (h : EN a.pts tiny G B (at3 Y) (at3 X)) (hX : Holds P p bs n X m) :
    a.HoldsNorm P p bs n Y ((G - 1) * B) m := by
  refine ⟨X, hX, ?_⟩
  rw [a.enorm_eq]
  exact h.err

/-- **C67, forward.**  `compute(data,data,1)` with rounding terminates under every schedule, and the Euclidean norm of
the error of the result is at most `fftErr2` times the norm of the exact 3d DFT (and two tiny numbers for each grid
point, times the square root of their number).  The bound grows with the logarithms of the dimensions; it does not
depend on the number of ranks, the layouts or the settings. -/
theorem C67_forward (R : RoundOK ar u tiny big) (hd : 0 ≤ d) (S : SetUp3F ar P a st f) (htw : a.TwiddlesNear ar d)
    (e : Bool) (J : Nat → Nat → Junk) (scaled : Bool) {n : Nat} {X : Grid3} {m : Nat → LMem ℝ}
    (hX : Holds P 0 a.ins n X m) (hb : Bufs P f n m)
    (hbig : 2 * (1 + a.fftErr2 u d) * (a.enorm (a.dft false X) + a.N * (2 * tiny)) ≤ big) :
    ∃ m', Terminates e P (fun r => (f r).computeF ar (J r) scaled false 1 n n) m m' ∧
      a.HoldsNorm P a.permute a.outs n (a.dft false X)
        (a.fftErr2 u d * (a.enorm (a.dft false X) + a.N * (2 * tiny))) m' ∧ Kept P f n m m' := by
  obtain ⟨g, Sg, hg⟩ := S.exact
  have hv := S.args
  obtain ⟨c, rfl, rfl, rfl, _, Rd⟩ := Sg.ready
  have hN0 := hv.N_pos
  have es : c.a.enorm (c.a.dft false X) + c.a.N * (2 * tiny) = Real.sqrt c.a.N * c.a.size2 tiny X := by
    rw [C67_parseval hv]
    unfold Args3.size2
    rw [mul_add, ← mul_assoc (Real.sqrt c.a.N), Real.mul_self_sqrt hN0.le]
  rw [es] at hbig ⊢
  obtain ⟨m', s, h⟩ := Rd.computeF_fwd e hg J scaled hX
    (hb.like fun r hr => ⟨(hg r hr).fftsize, (hg r hr).sendsize, (hg r hr).recvsize⟩)
  refine ⟨m', s.ok.terminates, ?_, s.kept.like fun r hr => (hg r hr).fftsize.symm⟩
  have k := (gridF_en R hd hv htw false le_rfl (hv.en R.t0 X) (by rw [one_mul]; exact hbig) (Or.inl rfl)).holdsNorm h
  rw [one_mul, add_sub_cancel_left] at k
  exact k

/-- **C67, backward without scaling.**  Missing with respect to the property: the condition `RoomBack` on the
buffers (see C25). -/
theorem C67_backward_unscaled_partial (R : RoundOK ar u tiny big) (hd : 0 ≤ d) (S : SetUp3F ar P a st f)
    (htw : a.TwiddlesNear ar d) (e : Bool) (J : Nat → Nat → Junk) {n : Nat} {X : Grid3} {m : Nat → LMem ℝ}
    (hX : Holds P a.permute a.outs n X m) (hb : Bufs P f n m) (hr : RoomBack P a st m)
    (hbig : 2 * (1 + a.fftErr2 u d) * (a.enorm (a.dft true X) + a.N * (2 * tiny)) ≤ big) :
    ∃ m', Terminates e P (fun r => (f r).computeF ar (J r) false false (-1) n n) m m' ∧
      a.HoldsNorm P 0 a.ins n (a.dft true X)
        (a.fftErr2 u d * (a.enorm (a.dft true X) + a.N * (2 * tiny))) m' ∧ Kept P f n m m' := by
  obtain ⟨g, Sg, hg⟩ := S.exact
  have hv := S.args
  obtain ⟨c, rfl, rfl, rfl, _, Rd⟩ := Sg.ready
  have hN0 := hv.N_pos
  have es : c.a.enorm (c.a.dft true X) + c.a.N * (2 * tiny) = Real.sqrt c.a.N * c.a.size2 tiny X := by
    rw [C67_parseval hv]
    unfold Args3.size2
    rw [mul_add, ← mul_assoc (Real.sqrt c.a.N), Real.mul_self_sqrt hN0.le]
  rw [es] at hbig ⊢
  obtain ⟨m', s, h⟩ := Rd.backF e hg J false hX
    (hb.like fun r hr => ⟨(hg r hr).fftsize, (hg r hr).sendsize, (hg r hr).recvsize⟩)
    hr (fun h => absurd h (by decide))
  refine ⟨m', s.ok.terminates, ?_, s.kept.like fun r hr => (hg r hr).fftsize.symm⟩
  have k := (gridF_en R hd hv htw true le_rfl (hv.en R.t0 X) (by rw [one_mul]; exact hbig)
    (Ready.gridBack_or ar c X)).holdsNorm (m := m') (n := n) (p := 0) (bs := c.a.ins) (P := c.P) (by
        have e0 : Ready.scaleF ar false (c.a.nfast * c.a.nmid * c.a.nslow) (Ready.gridBack ar c X) = Ready.gridBack ar c X := rfl
        rwa [e0] at h)
  rw [one_mul, add_sub_cancel_left] at k
  exact k

/-- **C67, round trip.**  Forward, then backward `compute` with scaling gives back the input; the Euclidean norm of the
error is at most a small multiple of the norm of the input.  Missing with respect to the property: `RoomBack` and the
condition on the numbers of points, as for C22. -/
theorem C67_round_trip_partial (R : RoundOK ar u tiny big) (T : TrigOK ar v cc tiny big) (hu : u ≤ 1 / 100)
    (hv : v ≤ 1 / 100) (ht : tiny ≤ 1 / 100) (hd : 0 ≤ d) (S : SetUp3F ar P a st f)
    (htw : a.TwiddlesNear ar d) (hio : ∀ r < P, (a.ins r).count ≤ (a.outs r).count) (e : Bool)
    (J J' : Nat → Nat → Junk) {n : Nat} {X : Grid3} {m : Nat → LMem ℝ}
    (hX : Holds P 0 a.ins n X m) (hb : Bufs P f n m) (hr : RoomBack P a st m)
    (hbig : 2 * (1 + a.fftErr2 u d) ^ 2 * (a.N * a.size2 tiny X) ≤ big) (hNb : a.N ≤ big) :
    ∃ m', Terminates e P (fun r => (f r).computeF ar (J r) true false 1 n n ++
        (f r).computeF ar (J' r) true false (-1) n n) m m' ∧
      a.HoldsNorm P 0 a.ins n X
        (((1 + a.fftErr2 u d) ^ 2 * normGrow u v * (1 + u) - 1) *
          (a.size2 tiny X * (1 + a.N * tiny) + Real.sqrt a.N * (2 * tiny))) m' ∧ Kept P f n m m' := by
  obtain ⟨g, Sg, hg⟩ := S.exact
  have hva := S.args
  obtain ⟨c, rfl, rfl, rfl, _, Rd⟩ := Sg.ready
  have hb' := hb.like (g := g) fun r hr => ⟨(hg r hr).fftsize, (hg r hr).sendsize, (hg r hr).recvsize⟩
  have hr' := hr
  obtain ⟨m1, s1, h1⟩ := Rd.computeF_fwd e hg J true hX hb'
  obtain ⟨m2, s2, h2⟩ := Rd.backF e hg J' true h1 (hb'.congr s1.dom) (hr'.congr s1.dom) (fun _ => hio)
  refine ⟨m2, (s1.append s2).ok.terminates, ?_, (s1.append s2).kept.like fun r hr => (hg r hr).fftsize.symm⟩
  have k := (cycle_en R T hu hv ht hd hva htw hNb le_rfl (hva.en R.t0 X) (by rw [one_mul]; exact hbig)).holdsNorm h2
  rw [one_mul] at k
  exact k

end

/-! ## In numbers -/

theorem Args3.fftErr2_le {P : Nat} {a : Args3} (hv : a.Valid P) {u d r : ℝ} (hu : 0 ≤ u) (hd : 0 ≤ d)
    (hr : radixErr u d ≤ r) : 1 + a.fftErr2 u d ≤ (1 + 9 / 4 * r) ^ 90 := by
  have h0 := radixErr_nonneg hu hd
  have l : ∀ n, (n = a.nfast ∨ n = a.nmid ∨ n = a.nslow) → Nat.log 2 n.toNat ≤ 30 := by
    intro n hn
    obtain ⟨h1, h2, _⟩ := hv.smooth hn
    have := Nat.log_lt_of_lt_pow (b := 2) (x := 31) (y := n.toNat) (by omega) h2
    omega
  have l1 := l _ (Or.inl rfl)
  have l2 := l _ (Or.inr (Or.inl rfl))
  have l3 := l _ (Or.inr (Or.inr rfl))
  unfold Args3.fftErr2
  rw [add_sub_cancel]
  calc _ ≤ (1 + 9 / 4 * radixErr u d) ^ 90 := pow_le_pow_right₀ (by linarith) (by omega)
    _ ≤ _ := by gcongr

theorem Args3.HoldsNorm.mono {P : Nat} {a : Args3} {p : Int} {bs : Nat → Box3} {n : Nat} {X : Grid3} {e e' : ℝ}
    {m : Nat → LMem ℝ} (h : a.HoldsNorm P p bs n X e m) (he : e ≤ e') : a.HoldsNorm P p bs n X e' m := by
  obtain ⟨Y, h1, h2⟩ := h
  exact ⟨Y, h1, h2.trans he⟩

/-- The constants for double precision. -/
theorem double_norm {P : Nat} {a : Args3} (hv : a.Valid P) :
    1 + a.fftErr2 (1 / 2 ^ 53) (1 / 2 ^ 47) ≤ 1 + 1 / 2 ^ 37 ∧
    a.cycle2 (1 / 2 ^ 53) (1 / 2 ^ 53) (1 / 2 ^ 47) ≤ 1 + 1 / 2 ^ 36 := by
  have h1 := Args3.fftErr2_le hv (u := 1 / 2 ^ 53) (d := 1 / 2 ^ 47) (r := 1 / 2 ^ 45 + 1 / 2 ^ 48) (by positivity)
    (by positivity) (by unfold radixErr; norm_num)
  have hE := a.fftErr2_nonneg (u := 1 / 2 ^ 53) (d := 1 / 2 ^ 47) (by positivity) (by positivity)
  have h3 : ((1 : ℝ) + 9 / 4 * (1 / 2 ^ 45 + 1 / 2 ^ 48)) ^ 90 ≤ 1 + 1 / 2 ^ 37 := by norm_num
  refine ⟨h1.trans h3, ?_⟩
  unfold Args3.cycle2
  have h7 : (1 + a.fftErr2 (1 / 2 ^ 53) (1 / 2 ^ 47)) ^ 2 ≤ ((1 + 9 / 4 * (1 / 2 ^ 45 + 1 / 2 ^ 48)) ^ 90) ^ 2 := by gcongr
  have h8 : normGrow (1 / 2 ^ 53) (1 / 2 ^ 53) ≤ 1 + 4 * (1 / 2 ^ 53) := by unfold normGrow; norm_num
  have h8' : 0 ≤ normGrow (1 / 2 ^ 53) (1 / 2 ^ 53) := by unfold normGrow; norm_num
  have h9 : (1 + a.fftErr2 (1 / 2 ^ 53) (1 / 2 ^ 47)) ^ 2 * normGrow (1 / 2 ^ 53) (1 / 2 ^ 53) * (1 + 1 / 2 ^ 53) ≤
      ((1 + 9 / 4 * (1 / 2 ^ 45 + 1 / 2 ^ 48)) ^ 90) ^ 2 * (1 + 4 * (1 / 2 ^ 53)) * (1 + 1 / 2 ^ 53) := by gcongr
  have h10 : (((1 : ℝ) + 9 / 4 * (1 / 2 ^ 45 + 1 / 2 ^ 48)) ^ 90) ^ 2 * (1 + 4 * (1 / 2 ^ 53)) * (1 + 1 / 2 ^ 53) ≤
      1 + 1 / 2 ^ 36 := by norm_num
  exact h9.trans h10

/-- The constants for single precision. -/
theorem float_norm {P : Nat} {a : Args3} (hv : a.Valid P) :
    1 + a.fftErr2 (1 / 2 ^ 24) (1 / 2 ^ 23) ≤ 1 + 1 / 2 ^ 11 ∧
    a.cycle2 (1 / 2 ^ 24) (1 / 2 ^ 53) (1 / 2 ^ 23) ≤ 1 + 1 / 2 ^ 10 := by
  have h1 := Args3.fftErr2_le hv (u := 1 / 2 ^ 24) (d := 1 / 2 ^ 23) (r := 25 / 2 ^ 24) (by positivity)
    (by positivity) (by unfold radixErr; norm_num)
  have hE := a.fftErr2_nonneg (u := 1 / 2 ^ 24) (d := 1 / 2 ^ 23) (by positivity) (by positivity)
  have h3 : ((1 : ℝ) + 9 / 4 * (25 / 2 ^ 24)) ^ 90 ≤ 1 + 1 / 2 ^ 11 := by norm_num
  refine ⟨h1.trans h3, ?_⟩
  unfold Args3.cycle2
  have h7 : (1 + a.fftErr2 (1 / 2 ^ 24) (1 / 2 ^ 23)) ^ 2 ≤ ((1 + 9 / 4 * (25 / 2 ^ 24)) ^ 90) ^ 2 := by gcongr
  have h8 : normGrow (1 / 2 ^ 24) (1 / 2 ^ 53) ≤ 1 + 4 * (1 / 2 ^ 24) := by unfold normGrow; norm_num
  have h8' : 0 ≤ normGrow (1 / 2 ^ 24) (1 / 2 ^ 53) := by unfold normGrow; norm_num
  have h9 : (1 + a.fftErr2 (1 / 2 ^ 24) (1 / 2 ^ 23)) ^ 2 * normGrow (1 / 2 ^ 24) (1 / 2 ^ 53) * (1 + 1 / 2 ^ 24) ≤
      ((1 + 9 / 4 * (25 / 2 ^ 24)) ^ 90) ^ 2 * (1 + 4 * (1 / 2 ^ 24)) * (1 + 1 / 2 ^ 24) := by gcongr
  have h10 : (((1 : ℝ) + 9 / 4 * (25 / 2 ^ 24)) ^ 90) ^ 2 * (1 + 4 * (1 / 2 ^ 24)) * (1 + 1 / 2 ^ 24) ≤
      1 + 1 / 2 ^ 10 := by norm_num
  exact h9.trans h10

theorem Args3.enorm_nonneg (a : Args3) (X : Grid3) : 0 ≤ a.enorm X := Real.sqrt_nonneg _

/-- **C67 in numbers, 3d forward, double precision (`u = v = 2^-53`, `cos` and `sin` accurate to `2^-52`)**: for every
grid the library accepts, the norm of the error is at most `2^-37` of the norm of the result. -/
theorem C67_double {ar : Arith} {tiny big : ℝ} {P : Nat} {a : Args3} {st : Settings} {f : Nat → Fft3 ℝ}
    (R : RoundOK ar (1 / 2 ^ 53) tiny big) (T : TrigOK ar (1 / 2 ^ 53) (1 / 2 ^ 52) tiny big) (ht : tiny ≤ 1 / 2 ^ 53)
    (hbig : 2 ^ 34 ≤ big) (S : SetUp3F ar P a st f) (e : Bool) (J : Nat → Nat → Junk) (scaled : Bool)
    {n : Nat} {X : Grid3} {m : Nat → LMem ℝ} (hX : Holds P 0 a.ins n X m) (hb : Bufs P f n m)
    (hs : 3 * (a.enorm (a.dft false X) + a.N * (2 * tiny)) ≤ big) :
    ∃ m', Terminates e P (fun r => (f r).computeF ar (J r) scaled false 1 n n) m m' ∧
      a.HoldsNorm P a.permute a.outs n (a.dft false X)
        (1 / 2 ^ 37 * (a.enorm (a.dft false X) + a.N * (2 * tiny))) m' ∧ Kept P f n m m' := by
  have h1 := (double_setup S.args R T ht hbig).1
  obtain ⟨h2, _⟩ := double_norm S.args
  have hN0 := S.args.N_pos
  have t0 := R.t0
  have hS : 0 ≤ a.enorm (a.dft false X) + a.N * (2 * tiny) := add_nonneg (a.enorm_nonneg _) (by positivity)
  obtain ⟨m', k1, k2, k3⟩ := C67_forward R (by positivity) S h1 e J scaled hX hb (by
    refine le_trans (mul_le_mul_of_nonneg_right ?_ hS) hs
    norm_num at h2 ⊢
    linarith)
  exact ⟨m', k1, k2.mono (mul_le_mul_of_nonneg_right (by linarith) hS), k3⟩

/-- **C67 in numbers, 3d round trip, double precision.** -/
theorem C67_double_round_trip_partial {ar : Arith} {tiny big : ℝ} {P : Nat} {a : Args3} {st : Settings}
    {f : Nat → Fft3 ℝ} (R : RoundOK ar (1 / 2 ^ 53) tiny big) (T : TrigOK ar (1 / 2 ^ 53) (1 / 2 ^ 52) tiny big)
    (ht : tiny ≤ 1 / 2 ^ 53) (hbig : 2 ^ 93 ≤ big) (S : SetUp3F ar P a st f)
    (hio : ∀ r < P, (a.ins r).count ≤ (a.outs r).count) (e : Bool) (J J' : Nat → Nat → Junk)
    {n : Nat} {X : Grid3} {m : Nat → LMem ℝ} (hX : Holds P 0 a.ins n X m) (hb : Bufs P f n m) (hr : RoomBack P a st m)
    (hs : 3 * (a.N * a.size2 tiny X) ≤ big) :
    ∃ m', Terminates e P (fun r => (f r).computeF ar (J r) true false 1 n n ++
        (f r).computeF ar (J' r) true false (-1) n n) m m' ∧
      a.HoldsNorm P 0 a.ins n X
        (1 / 2 ^ 36 * (a.size2 tiny X * (1 + a.N * tiny) + Real.sqrt a.N * (2 * tiny))) m' ∧ Kept P f n m m' := by
  have h1 := (double_setup S.args R T ht (le_trans (by norm_num) hbig)).1
  obtain ⟨h2, h3⟩ := double_norm S.args
  have hE := a.fftErr2_nonneg (u := 1 / 2 ^ 53) (d := 1 / 2 ^ 47) (by positivity) (by positivity)
  have hS := a.size2_nonneg R.t0 X
  have hN0 := S.args.N_pos
  have t0 := R.t0
  have h5 : (1 + a.fftErr2 (1 / 2 ^ 53) (1 / 2 ^ 47)) ^ 2 ≤ (1 + 1 / 2 ^ 37) ^ 2 := by gcongr
  obtain ⟨m', k1, k2, k3⟩ := C67_round_trip_partial R T (by norm_num) (by norm_num) (ht.trans (by norm_num))
    (by positivity) S h1 hio e J J' hX hb hr (by
      refine le_trans (mul_le_mul_of_nonneg_right ?_ (by positivity)) hs
      norm_num at h5 ⊢
      linarith) (S.args.N_le.trans hbig)
  refine ⟨m', k1, k2.mono (mul_le_mul_of_nonneg_right ?_ (by positivity)), k3⟩
  unfold Args3.cycle2 at h3
  linarith

/-- **C67 in numbers, 3d forward, single precision (`u = 2^-24`)**: the norm of the error is at most `2^-11` of the
norm of the result. -/
theorem C67_float {ar : Arith} {tiny big : ℝ} {P : Nat} {a : Args3} {st : Settings} {f : Nat → Fft3 ℝ}
    (R : RoundOK ar (1 / 2 ^ 24) tiny big) (T : TrigOK ar (1 / 2 ^ 53) (1 / 2 ^ 52) tiny big) (ht : tiny ≤ 1 / 2 ^ 24)
    (hbig : 2 ^ 34 ≤ big) (S : SetUp3F ar P a st f) (e : Bool) (J : Nat → Nat → Junk) (scaled : Bool)
    {n : Nat} {X : Grid3} {m : Nat → LMem ℝ} (hX : Holds P 0 a.ins n X m) (hb : Bufs P f n m)
    (hs : 3 * (a.enorm (a.dft false X) + a.N * (2 * tiny)) ≤ big) :
    ∃ m', Terminates e P (fun r => (f r).computeF ar (J r) scaled false 1 n n) m m' ∧
      a.HoldsNorm P a.permute a.outs n (a.dft false X)
        (1 / 2 ^ 11 * (a.enorm (a.dft false X) + a.N * (2 * tiny))) m' ∧ Kept P f n m m' := by
  have h1 := (float_setup S.args R T ht hbig).1
  obtain ⟨h2, _⟩ := float_norm S.args
  have hN0 := S.args.N_pos
  have t0 := R.t0
  have hS : 0 ≤ a.enorm (a.dft false X) + a.N * (2 * tiny) := add_nonneg (a.enorm_nonneg _) (by positivity)
  obtain ⟨m', k1, k2, k3⟩ := C67_forward R (by positivity) S h1 e J scaled hX hb (by
    refine le_trans (mul_le_mul_of_nonneg_right ?_ hS) hs
    norm_num at h2 ⊢
    linarith)
  exact ⟨m', k1, k2.mono (mul_le_mul_of_nonneg_right (by linarith) hS), k3⟩

/-- **C67 in numbers, 3d round trip, single precision.** -/
theorem C67_float_round_trip_partial {ar : Arith} {tiny big : ℝ} {P : Nat} {a : Args3} {st : Settings}
    {f : Nat → Fft3 ℝ} (R : RoundOK ar (1 / 2 ^ 24) tiny big) (T : TrigOK ar (1 / 2 ^ 53) (1 / 2 ^ 52) tiny big)
    (ht : tiny ≤ 1 / 2 ^ 24) (hbig : 2 ^ 93 ≤ big) (S : SetUp3F ar P a st f)
    (hio : ∀ r < P, (a.ins r).count ≤ (a.outs r).count) (e : Bool) (J J' : Nat → Nat → Junk)
    {n : Nat} {X : Grid3} {m : Nat → LMem ℝ} (hX : Holds P 0 a.ins n X m) (hb : Bufs P f n m) (hr : RoomBack P a st m)
    (hs : 3 * (a.N * a.size2 tiny X) ≤ big) :
    ∃ m', Terminates e P (fun r => (f r).computeF ar (J r) true false 1 n n ++
        (f r).computeF ar (J' r) true false (-1) n n) m m' ∧
      a.HoldsNorm P 0 a.ins n X
        (1 / 2 ^ 10 * (a.size2 tiny X * (1 + a.N * tiny) + Real.sqrt a.N * (2 * tiny))) m' ∧ Kept P f n m m' := by
  have h1 := (float_setup S.args R T ht (le_trans (by norm_num) hbig)).1
  obtain ⟨h2, h3⟩ := float_norm S.args
  have hE := a.fftErr2_nonneg (u := 1 / 2 ^ 24) (d := 1 / 2 ^ 23) (by positivity) (by positivity)
  have hS := a.size2_nonneg R.t0 X
  have hN0 := S.args.N_pos
  have t0 := R.t0
  have h5 : (1 + a.fftErr2 (1 / 2 ^ 24) (1 / 2 ^ 23)) ^ 2 ≤ (1 + 1 / 2 ^ 11) ^ 2 := by gcongr
  obtain ⟨m', k1, k2, k3⟩ := C67_round_trip_partial R T (by norm_num) (by norm_num) (ht.trans (by norm_num))
    (by positivity) S h1 hio e J J' hX hb hr (by
      refine le_trans (mul_le_mul_of_nonneg_right ?_ (by positivity)) hs
      norm_num at h5 ⊢
      linarith) (S.args.N_le.trans hbig)
  refine ⟨m', k1, k2.mono (mul_le_mul_of_nonneg_right ?_ (by positivity)), k3⟩
  unfold Args3.cycle2 at h3
  linarith

/-- Example: 2 ranks, an arithmetic with 53 binary digits, the constant 1 on the grid of 16 points: all hypotheses
are met; the norm of the exact result is 16, and the errors of the transform and of the round trip have at most the
norms `2^-33` and `2^-34`. -/
example (st : Settings) (hst : st.Valid) (h0 : st.exchange = 0) (J J' : Nat → Nat → Junk) :
    (demo3 1).enorm ((demo3 1).dft false fun _ _ _ => 1) = 16 ∧
    ∃ f, SetUp3F arith53 2 (demo3 1) st f ∧ ∃ m, Holds 2 0 (demo3 1).ins 0 (fun _ _ _ => 1) m ∧ Bufs 2 f 0 m ∧
      (∃ m', Terminates true 2 (fun r => (f r).computeF arith53 (J r) true false 1 0 0) m m' ∧
        (demo3 1).HoldsNorm 2 1 (demo3 1).outs 0 ((demo3 1).dft false fun _ _ _ => 1) (1 / 2 ^ 33) m') ∧
      ∃ m', Terminates true 2 (fun r => (f r).computeF arith53 (J r) true false 1 0 0 ++
          (f r).computeF arith53 (J' r) true false (-1) 0 0) m m' ∧
        (demo3 1).HoldsNorm 2 0 (demo3 1).ins 0 (fun _ _ _ => 1) (1 / 2 ^ 34) m' := by
  have hv := demo3_valid 1 (by decide)
  obtain ⟨f, S⟩ := setUp3F_exists arith53 hv hst
  obtain ⟨g, Sg, hg⟩ := S.exact
  obtain ⟨m, hm⟩ := Sg.mem_in fun _ _ _ => 1
  have hb : Bufs 2 f 0 m := (hm 0).2.like fun r hr =>
    ⟨(hg r hr).fftsize.symm, (hg r hr).sendsize.symm, (hg r hr).recvsize.symm⟩
  have h4 : Real.sqrt 16 = 4 := by
    rw [show (16 : ℝ) = 4 ^ 2 by norm_num]
    exact Real.sqrt_sq (by norm_num)
  have hN : (demo3 1).N = 16 := by
    simp only [Args3.N, demo3]
    norm_num
  have hn : (demo3 1).enorm (fun _ _ _ => 1) = 4 := by
    rw [← h4]
    unfold Args3.enorm
    congr 1
    simp [demo3]
    norm_num
  have hF : (demo3 1).enorm ((demo3 1).dft false fun _ _ _ => 1) = 16 := by
    rw [C67_parseval hv, hN, hn, h4]
    norm_num
  have hs : (demo3 1).size2 0 (fun _ _ _ => 1) = 4 := by
    unfold Args3.size2
    rw [hn]
    norm_num
  refine ⟨hF, f, S, m, (hm 0).1, hb, ?_, ?_⟩
  · obtain ⟨m', k1, k2, _⟩ := C67_double (arith53_round (2 ^ 93)) (arith53_trig (2 ^ 93)) (by positivity)
      (by norm_num) S true J true (hm 0).1 hb (by rw [hF, hN]; norm_num)
    exact ⟨m', k1, k2.mono (by rw [hF, hN]; norm_num)⟩
  · obtain ⟨m', k1, k2, _⟩ := C67_double_round_trip_partial (arith53_round (2 ^ 93)) (arith53_trig (2 ^ 93))
      (by positivity) le_rfl S (by
        intro r _
        simp only [demo3, Box3.count, Box3.isize, Box3.jsize, Box3.ksize]
        simp) true J J' (hm 0).1 hb (Or.inl h0) (by rw [hs, hN]; norm_num)
    exact ⟨m', k1, k2.mono (by rw [hs, hN, h4]; norm_num)⟩

end FftMpi
