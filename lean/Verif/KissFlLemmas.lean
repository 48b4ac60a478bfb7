import Verif.KissFl
import Verif.KissWork

/-!
# Lemmas: the values computed by kissfft.h with given floating-point operations
-/

noncomputable section

namespace FftMpi

open Complex

/-! ## Exact operations -/

theorem cmul_exact (x w : ℂ) : exactArith.cmul x w = x * w := by
  apply Complex.ext <;> simp [Arith.cmul, exactArith]

theorem cadd_exact (x w : ℂ) : exactArith.cadd x w = x + w := by
  apply Complex.ext <;> simp [Arith.cadd, exactArith]

theorem csub_exact (x w : ℂ) : exactArith.csub x w = x - w := by
  apply Complex.ext <;> simp [Arith.csub, exactArith]

theorem kfBfly2F_exact : kfBfly2F exactArith = kfBfly2 := by
  funext st F o fstride m
  simp only [kfBfly2F, kfBfly2, cmul_exact, cadd_exact, csub_exact]

theorem kfBfly4F_exact : kfBfly4F exactArith = kfBfly4 := by
  funext st F o fstride m
  simp only [kfBfly4F, kfBfly4, cmul_exact, cadd_exact, csub_exact]
  rfl

theorem kfBfly3F_exact : kfBfly3F exactArith = kfBfly3 := by
  funext st F o fstride m
  simp only [kfBfly3F, kfBfly3, cmul_exact, cadd_exact, csub_exact, Arith.cscale, Arith.subHalf]
  rfl

theorem kfBfly5F_exact : kfBfly5F exactArith = kfBfly5 := by
  funext st F o fstride m
  simp only [kfBfly5F, kfBfly5, cmul_exact, cadd_exact, csub_exact]
  rfl

theorem kfBflyGenericF_exact : kfBflyGenericF exactArith = kfBflyGeneric := by
  funext st junk F o fstride m p
  simp only [kfBflyGenericF, kfBflyGeneric, kfGenericOutF, kfGenericOut, cmul_exact, cadd_exact]

theorem kfBflyF_exact : kfBflyF exactArith = kfBfly := by
  funext st junk F o fstride m p
  simp only [kfBflyF, kfBfly, kfBfly2F_exact, kfBfly3F_exact, kfBfly4F_exact, kfBfly5F_exact,
    kfBflyGenericF_exact]

theorem kfWorkF_exact (st : KissState) (junk : Int → ℂ) (f : Mem ℂ) (inStride : Nat)
    (factors : List (Nat × Nat)) : kfWorkF exactArith st junk f inStride factors =
      kfWork st junk f inStride factors := by
  induction factors with
  | nil => rfl
  | cons pm rest ih =>
    obtain ⟨p, m⟩ := pm
    funext F o fo fstride
    simp only [kfWorkF, kfWork, ih, kfBflyF_exact]

theorem kissAllocF_exact : kissAllocF exactArith = kissAlloc := by
  funext nfft inverse
  simp only [kissAllocF, kissAlloc]
  rfl

theorem kissInF_exact : kissInF exactArith = kissIn := by
  funext st junk junk' data o inStride
  simp only [kissInF, kissIn, kfWorkF_exact]

theorem kissOutF_exact : kissOutF exactArith = kissOut := by
  funext st junk fin fi fout o inStride
  simp only [kissOutF, kissOut, kfWorkF_exact]

/-! ## Values computed by the butterflies -/

/-- Twiddle `i` of a plan. -/
def KissState.twf (st : KissState) (i : Nat) : ℂ := (st.tw i).getD 0

/-- The twiddles can be read. -/
structure TwIn (st : KissState) : Prop where
  pos : 0 < st.nfft
  tw : ∀ i : Nat, i < st.nfft → st.tw i = some (st.twf i)

namespace Arith

variable (a : Arith)

/-- Outputs of one pass of `kf_bfly2` on the inputs `y`; `w r` is the twiddle of input `r`. -/
def bf2 (w y : Nat → ℂ) (q : Nat) : ℂ :=
  let t := a.cmul (y 1) (w 1)
  if q = 0 then a.cadd (y 0) t else a.csub (y 0) t

/-- The same for `kf_bfly3`. -/
def bf3 (epi3 : ℂ) (w y : Nat → ℂ) (q : Nat) : ℂ :=
  let s1 := a.cmul (y 1) (w 1)
  let s2 := a.cmul (y 2) (w 2)
  let s3 := a.cadd s1 s2
  let s0 := a.csub s1 s2
  let g : ℂ := ⟨a.subHalf (y 0).re s3.re, a.subHalf (y 0).im s3.im⟩
  let s0 := a.cscale s0 epi3.im
  if q = 0 then a.cadd (y 0) s3
  else if q = 1 then ⟨a.sub g.re s0.im, a.add g.im s0.re⟩
  else ⟨a.add g.re s0.im, a.sub g.im s0.re⟩

/-- The same for `kf_bfly4`. -/
def bf4 (inverse : Bool) (w y : Nat → ℂ) (q : Nat) : ℂ :=
  let s0 := a.cmul (y 1) (w 1)
  let s1 := a.cmul (y 2) (w 2)
  let s2 := a.cmul (y 3) (w 3)
  let s5 := a.csub (y 0) s1
  let f := a.cadd (y 0) s1
  let s3 := a.cadd s0 s2
  let s4 := a.csub s0 s2
  if q = 0 then a.cadd f s3
  else if q = 2 then a.csub f s3
  else if (q = 1) = (inverse = true) then ⟨a.sub s5.re s4.im, a.add s5.im s4.re⟩
  else ⟨a.add s5.re s4.im, a.sub s5.im s4.re⟩

/-- The same for `kf_bfly5`. -/
def bf5 (ya yb : ℂ) (w y : Nat → ℂ) (q : Nat) : ℂ :=
  let s0 := y 0
  let s1 := a.cmul (y 1) (w 1)
  let s2 := a.cmul (y 2) (w 2)
  let s3 := a.cmul (y 3) (w 3)
  let s4 := a.cmul (y 4) (w 4)
  let s7 := a.cadd s1 s4
  let s10 := a.csub s1 s4
  let s8 := a.cadd s2 s3
  let s9 := a.csub s2 s3
  let s5 : ℂ := ⟨a.add (a.add s0.re (a.mul s7.re ya.re)) (a.mul s8.re yb.re),
    a.add (a.add s0.im (a.mul s7.im ya.re)) (a.mul s8.im yb.re)⟩
  let s6 : ℂ := ⟨a.add (a.mul s10.im ya.im) (a.mul s9.im yb.im),
    a.sub (-(a.mul s10.re ya.im)) (a.mul s9.re yb.im)⟩
  let s11 : ℂ := ⟨a.add (a.add s0.re (a.mul s7.re yb.re)) (a.mul s8.re ya.re),
    a.add (a.add s0.im (a.mul s7.im yb.re)) (a.mul s8.im ya.re)⟩
  let s12 : ℂ := ⟨a.add (-(a.mul s10.im yb.im)) (a.mul s9.im ya.im),
    a.sub (a.mul s10.re yb.im) (a.mul s9.re ya.im)⟩
  if q = 0 then ⟨a.add s0.re (a.add s7.re s8.re), a.add s0.im (a.add s7.im s8.im)⟩
  else if q = 1 then a.csub s5 s6
  else if q = 2 then a.cadd s11 s12
  else if q = 3 then a.csub s11 s12
  else a.cadd s5 s6

/-- The sum of `kf_bfly_generic` after `j` terms; `w r` is the factor of input `r`. -/
def bfg (w y : Nat → ℂ) : Nat → ℂ
  | 0 => y 0
  | j + 1 => a.cadd (bfg w y j) (a.cmul (y (j + 1)) (w (j + 1)))

/-- The values a radix `p` butterfly produces. -/
def bfly (st : KissState) (fstride m p : Nat) (u : Nat) (y : Nat → ℂ) (q : Nat) : ℂ :=
  if p = 2 then a.bf2 (fun r => st.twf (r * u * fstride)) y q
  else if p = 3 then a.bf3 (st.twf (fstride * m)) (fun r => st.twf (r * u * fstride)) y q
  else if p = 4 then a.bf4 st.inverse (fun r => st.twf (r * u * fstride)) y q
  else if p = 5 then
    a.bf5 (st.twf (fstride * m)) (st.twf (fstride * 2 * m)) (fun r => st.twf (r * u * fstride)) y q
  else a.bfg (fun r => st.twf (r * (fstride * (u + q * m)) % st.nfft)) y (p - 1)

/-- The values `kf_work` produces from the inputs `x`. -/
def work (st : KissState) : (factors : List (Nat × Nat)) → (fstride : Nat) → (x : Nat → ℂ) → Nat → ℂ
  | [], _, _, _ => 0
  | (p, m) :: rest, fstride, x, k =>
    a.bfly st fstride m p (k % m)
      (fun r => if m = 1 then x r else work st rest (fstride * p) (fun t => x (r + p * t)) (k % m)) (k / m)

end Arith

/-- What a butterfly does. -/
def BflyF (p m : Nat) (o : Int) (G : Nat → (Nat → ℂ) → Nat → ℂ) (f : Mem ℂ → Option (Mem ℂ)) : Prop :=
  ∀ (F : Mem ℂ) (x : Nat → Nat → ℂ), (∀ q < p, ∀ u < m, F (o + u + q * m) = some (x q u)) →
    ∃ F', f F = some F' ∧
      (∀ q < p, ∀ u < m, F' (o + u + q * m) = some (G u (fun r => x r u) q)) ∧
      ∀ a, (a < o ∨ o + p * m ≤ a) → F' a = F a

theorem TwIn.idx {st : KissState} (h : TwIn st) {fstride m p : Nat} (hN : fstride * (p * m) = st.nfft)
    {r u : Nat} (hr : r < p) (hu : u < m) : r * u * fstride < st.nfft := by
  rw [← hN]
  have hf : 0 < fstride := by
    rcases Nat.eq_zero_or_pos fstride with h0 | h0
    · have := h.pos; subst h0; simp at hN; omega
    · exact h0
  have : r * u < p * m := by
    calc r * u ≤ r * m := Nat.mul_le_mul_left r hu.le
      _ < p * m := Nat.mul_lt_mul_of_pos_right hr (by omega)
  calc r * u * fstride = fstride * (r * u) := by ring
    _ < fstride * (p * m) := Nat.mul_lt_mul_of_pos_left this hf

theorem TwIn.tw_mul {st : KissState} (h : TwIn st) {fstride m p : Nat} (hN : fstride * (p * m) = st.nfft)
    {r u : Nat} (hr : r < p) (hu : u < m) : st.tw ((r * u * fstride : Nat) : Int) =
      some (st.twf (r * u * fstride)) := h.tw _ (h.idx hN hr hu)

theorem kfBfly2F_ok (a : Arith) {st : KissState} (h : TwIn st) {fstride m : Nat} (hm : 0 < m)
    (hN : fstride * (2 * m) = st.nfft) (o : Int) :
    BflyF 2 m o (a.bfly st fstride m 2) (fun F => kfBfly2F a st F o fstride m) := by
  intro F x hF
  simp only [kfBfly2F, doWhile, if_neg hm.ne']
  refine bfly_loop 2 m o _ (a.bfly st fstride m 2) ?_ F x hF
  intro u hu F y hy
  have hA := addr_inj (o := o) (u := u) hm
  have t1 := h.tw_mul hN (r := 1) (by decide) hu
  obtain ⟨A, hAe⟩ : ∃ A : Nat → Int, ∀ q, o + (u : Int) + q * m = A q := ⟨_, fun q => rfl⟩
  simp only [hAe] at hy hA ⊢
  have e0 : o + (u : Int) = A 0 := by rw [← hAe]; simp
  have e1 : A 0 + (m : Int) = A 1 := by rw [← hAe, ← hAe]; push_cast; ring
  have et : (u : Int) * fstride = ((1 * u * fstride : Nat) : Int) := by push_cast; ring
  simp only [e0, e1, et, t1, hy 0 (by decide), hy 1 (by decide), Option.bind_eq_bind, Option.bind_some]
  simp only [Mem.set, hy 0 (by decide), hy 1 (by decide), Option.isSome_some, if_true, Option.bind_some,
    Function.update_apply, hA, Nat.zero_ne_one, if_false]
  refine ⟨_, rfl, ?_, ?_⟩
  · intro q hq
    interval_cases q
    · simp [Arith.bfly, Arith.bf2]
    · simp [Arith.bfly, Arith.bf2, Function.update_apply, hA]
  · intro b ha
    simp [Function.update_apply, ha 0 (by decide), ha 1 (by decide)]

theorem TwIn.first {st : KissState} (h : TwIn st) {fstride m p : Nat} (hp : 1 < p)
    (hN : fstride * (p * m) = st.nfft) : fstride * m < st.nfft := by
  have hpos := h.pos
  have hf : 0 < fstride * m := by
    rcases Nat.eq_zero_or_pos (fstride * m) with h0 | h0
    · have : fstride * (p * m) = p * (fstride * m) := by ring
      rw [this, h0] at hN
      simp at hN; omega
    · exact h0
  have e : fstride * (p * m) = p * (fstride * m) := by ring
  rw [← hN, e]
  nlinarith

theorem kfBfly3F_ok (a : Arith) {st : KissState} (h : TwIn st) {fstride m : Nat} (hm : 0 < m)
    (hN : fstride * (3 * m) = st.nfft) (o : Int) :
    BflyF 3 m o (a.bfly st fstride m 3) (fun F => kfBfly3F a st F o fstride m) := by
  intro F x hF
  have htz : st.tw ((fstride : Int) * m) = some (st.twf (fstride * m)) := by
    have := h.tw (fstride * m) (h.first (by decide) hN)
    push_cast at this
    exact this
  simp only [kfBfly3F, doWhile, if_neg hm.ne', htz, Option.bind_some]
  refine bfly_loop 3 m o _ (a.bfly st fstride m 3) ?_ F x hF
  intro u hu F y hy
  have hA := addr_inj (o := o) (u := u) hm
  have t1 := h.tw_mul hN (r := 1) (by decide) hu
  have t2 := h.tw_mul hN (r := 2) (by decide) hu
  obtain ⟨A, hAe⟩ : ∃ A : Nat → Int, ∀ q, o + (u : Int) + q * m = A q := ⟨_, fun q => rfl⟩
  simp only [hAe] at hy hA ⊢
  have e0 : o + (u : Int) = A 0 := by rw [← hAe]; simp
  have e1 : A 0 + (m : Int) = A 1 := by rw [← hAe, ← hAe]; push_cast; ring
  have e2 : A 0 + 2 * (m : Int) = A 2 := by rw [← hAe, ← hAe]; push_cast; ring
  have et : (u : Int) * fstride = ((1 * u * fstride : Nat) : Int) := by push_cast; ring
  have et2 : (u : Int) * (fstride * 2) = ((2 * u * fstride : Nat) : Int) := by push_cast; ring
  simp only [e0, e1, e2, et, et2, t1, t2, hy 0 (by decide), hy 1 (by decide), hy 2 (by decide),
    Option.bind_eq_bind, Option.bind_some]
  simp only [Mem.set, hy 0 (by decide), hy 1 (by decide), hy 2 (by decide), Option.isSome_some, if_true,
    Option.bind_some, Function.update_apply, hA, Nat.zero_ne_one, if_false, OfNat.ofNat_ne_zero,
    OfNat.ofNat_ne_one, Nat.reduceEqDiff, one_ne_zero]
  refine ⟨_, rfl, ?_, ?_⟩
  · intro q hq
    interval_cases q <;> simp [Arith.bfly, Arith.bf3, Function.update_apply, hA]
  · intro b ha
    simp [Function.update_apply, ha 0 (by decide), ha 1 (by decide), ha 2 (by decide)]

theorem kfBfly4F_ok (a : Arith) {st : KissState} (h : TwIn st) {fstride m : Nat} (hm : 0 < m)
    (hN : fstride * (4 * m) = st.nfft) (o : Int) :
    BflyF 4 m o (a.bfly st fstride m 4) (fun F => kfBfly4F a st F o fstride m) := by
  intro F x hF
  simp only [kfBfly4F, doWhile, if_neg hm.ne']
  refine bfly_loop 4 m o _ (a.bfly st fstride m 4) ?_ F x hF
  intro u hu F y hy
  have hA := addr_inj (o := o) (u := u) hm
  have t1 := h.tw_mul hN (r := 1) (by decide) hu
  have t2 := h.tw_mul hN (r := 2) (by decide) hu
  have t3 := h.tw_mul hN (r := 3) (by decide) hu
  obtain ⟨A, hAe⟩ : ∃ A : Nat → Int, ∀ q, o + (u : Int) + q * m = A q := ⟨_, fun q => rfl⟩
  simp only [hAe] at hy hA ⊢
  have e0 : o + (u : Int) = A 0 := by rw [← hAe]; simp
  have e1 : A 0 + (m : Int) = A 1 := by rw [← hAe, ← hAe]; push_cast; ring
  have e2 : A 0 + 2 * (m : Int) = A 2 := by rw [← hAe, ← hAe]; push_cast; ring
  have e3 : A 0 + 3 * (m : Int) = A 3 := by rw [← hAe, ← hAe]; push_cast; ring
  have et : (u : Int) * fstride = ((1 * u * fstride : Nat) : Int) := by push_cast; ring
  have et2 : (u : Int) * (fstride * 2) = ((2 * u * fstride : Nat) : Int) := by push_cast; ring
  have et3 : (u : Int) * (fstride * 3) = ((3 * u * fstride : Nat) : Int) := by push_cast; ring
  simp only [e0, e1, e2, e3, et, et2, et3, t1, t2, t3, hy 0 (by decide), hy 1 (by decide),
    hy 2 (by decide), hy 3 (by decide), Option.bind_eq_bind, Option.bind_some]
  cases hinv : st.inverse <;>
  · simp only [Bool.false_eq_true, if_true, if_false]
    simp only [Mem.set, hy 0 (by decide), hy 1 (by decide), hy 2 (by decide), hy 3 (by decide),
      Option.isSome_some, if_true, Option.bind_some, Function.update_apply, hA, Nat.zero_ne_one, if_false,
      OfNat.ofNat_ne_zero, OfNat.ofNat_ne_one, Nat.reduceEqDiff, one_ne_zero, OfNat.one_ne_ofNat,
      OfNat.zero_ne_ofNat]
    refine ⟨_, rfl, ?_, ?_⟩
    · intro q hq
      interval_cases q <;> simp [Arith.bfly, Arith.bf4, Function.update_apply, hA, hinv]
    · intro b ha
      simp [Function.update_apply, ha 0 (by decide), ha 1 (by decide), ha 2 (by decide),
        ha 3 (by decide)]

theorem kfBfly5F_ok (a : Arith) {st : KissState} (h : TwIn st) {fstride m : Nat} (hm : 0 < m)
    (hN : fstride * (5 * m) = st.nfft) (o : Int) :
    BflyF 5 m o (a.bfly st fstride m 5) (fun F => kfBfly5F a st F o fstride m) := by
  intro F x hF
  have hN' : fstride * 5 * m = st.nfft := by rw [← hN]; ring
  have hf1 := h.first (by decide) hN
  have htz : st.tw ((fstride : Int) * m) = some (st.twf (fstride * m)) := by
    have := h.tw (fstride * m) hf1
    push_cast at this
    exact this
  have htz2 : st.tw ((fstride : Int) * 2 * m) = some (st.twf (fstride * 2 * m)) := by
    have := h.tw (fstride * 2 * m) (by
      have h1 : fstride * 5 * m = 5 * (fstride * m) := by ring
      have h2 : fstride * 2 * m = 2 * (fstride * m) := by ring
      omega)
    push_cast at this
    exact this
  simp only [kfBfly5F, htz, htz2, Option.bind_some]
  refine bfly_loop 5 m o _ (a.bfly st fstride m 5) ?_ F x hF
  intro u hu F y hy
  have hA := addr_inj (o := o) (u := u) hm
  have t1 := h.tw_mul hN (r := 1) (by decide) hu
  have t2 := h.tw_mul hN (r := 2) (by decide) hu
  have t3 := h.tw_mul hN (r := 3) (by decide) hu
  have t4 := h.tw_mul hN (r := 4) (by decide) hu
  obtain ⟨A, hAe⟩ : ∃ A : Nat → Int, ∀ q, o + (u : Int) + q * m = A q := ⟨_, fun q => rfl⟩
  simp only [hAe] at hy hA ⊢
  have e0 : o + (u : Int) = A 0 := by rw [← hAe]; simp
  have e1 : o + (m : Int) + u = A 1 := by rw [← hAe]; push_cast; ring
  have e2 : o + 2 * (m : Int) + u = A 2 := by rw [← hAe]; push_cast; ring
  have e3 : o + 3 * (m : Int) + u = A 3 := by rw [← hAe]; push_cast; ring
  have e4 : o + 4 * (m : Int) + u = A 4 := by rw [← hAe]; push_cast; ring
  have et : (u : Int) * fstride = ((1 * u * fstride : Nat) : Int) := by push_cast; ring
  have et2 : 2 * (u : Int) * fstride = ((2 * u * fstride : Nat) : Int) := by push_cast; ring
  have et3 : 3 * (u : Int) * fstride = ((3 * u * fstride : Nat) : Int) := by push_cast; ring
  have et4 : 4 * (u : Int) * fstride = ((4 * u * fstride : Nat) : Int) := by push_cast; ring
  simp only [e0, e1, e2, e3, e4, et, et2, et3, et4, t1, t2, t3, t4, hy 0 (by decide), hy 1 (by decide),
    hy 2 (by decide), hy 3 (by decide), hy 4 (by decide), Option.bind_eq_bind, Option.bind_some]
  simp only [Mem.set, hy 0 (by decide), hy 1 (by decide), hy 2 (by decide), hy 3 (by decide),
    hy 4 (by decide), Option.isSome_some, if_true, Option.bind_some, Function.update_apply, hA,
    Nat.zero_ne_one, if_false, OfNat.ofNat_ne_zero, OfNat.ofNat_ne_one, Nat.reduceEqDiff, one_ne_zero,
    OfNat.one_ne_ofNat, OfNat.zero_ne_ofNat]
  refine ⟨_, rfl, ?_, ?_⟩
  · intro q hq
    interval_cases q <;> simp [Arith.bfly, Arith.bf5, Function.update_apply, hA]
  · intro b ha
    simp [Function.update_apply, ha 0 (by decide), ha 1 (by decide), ha 2 (by decide),
      ha 3 (by decide), ha 4 (by decide)]

/-- One output of the generic butterfly. -/
theorem kfGenericOutF_ok (a : Arith) {st : KissState} (h : TwIn st) {fstride p k : Nat} (hp : 0 < p)
    (hk : fstride * k < st.nfft) (scratch : Mem ℂ) (y : Nat → ℂ)
    (hsc : ∀ q : Nat, q < p → scratch q = some (y q)) (o : Int) (F : Mem ℂ)
    (hF : (F (o + k)).isSome) :
    ∃ F', kfGenericOutF a st scratch fstride p o k F = some F' ∧
      F' (o + k) = some (a.bfg (fun r => st.twf (r * (fstride * k) % st.nfft)) y (p - 1)) ∧
      ∀ b, b ≠ o + k → F' b = F b := by
  have h0 := hsc 0 hp
  simp only [Nat.cast_zero] at h0
  unfold kfGenericOutF
  simp only [h0, Option.bind_eq_bind, Option.bind_some, Mem.set_eq hF]
  obtain ⟨s', h1, hfin⟩ := forFrom_inv
    (fun j (s : Int × Mem ℂ) => j ≤ p - 1 → s.1 = ((j * (fstride * k) % st.nfft : Nat) : Int) ∧
      s.2 (o + k) = some (a.bfg (fun r => st.twf (r * (fstride * k) % st.nfft)) y j) ∧
      ∀ b, b ≠ o + k → s.2 b = F b)
    (fun q (s : Int × Mem ℂ) => do
      let sq ← scratch q
      let w ← st.tw (if s.1 + fstride * k ≥ st.nfft then s.1 + fstride * k - st.nfft
        else s.1 + fstride * k)
      let c ← s.2 (o + k)
      let F ← s.2.set (o + k) (a.cadd c (a.cmul sq w))
      some (if s.1 + fstride * k ≥ st.nfft then s.1 + fstride * k - st.nfft
        else s.1 + fstride * k, F)) 1 (p - 1)
    ((0 : Int), Function.update F (o + k) (some (y 0)))
    (fun _ => ⟨by simp, by simp [Arith.bfg], fun b hb => by simp [Function.update_apply, hb]⟩)
    (by
      intro j hj s hP
      obtain ⟨g1, g2, g3⟩ := hP hj.le
      have hidx : (if s.1 + (fstride : Int) * k ≥ st.nfft then s.1 + fstride * k - st.nfft
          else s.1 + fstride * k) = (((j + 1) * (fstride * k) % st.nfft : Nat) : Int) := by
        have hlt := Nat.mod_lt (j * (fstride * k)) h.pos
        have e : ((j + 1) * (fstride * k)) % st.nfft =
            (j * (fstride * k) % st.nfft + fstride * k) % st.nfft := by
          rw [show (j + 1) * (fstride * k) = j * (fstride * k) + fstride * k by ring, Nat.add_mod,
            Nat.mod_eq_of_lt hk]
        rw [e, g1]
        have e3 : ((fstride : Int) * k) = ((fstride * k : Nat) : Int) := by push_cast; rfl
        rw [e3]
        generalize j * (fstride * k) % st.nfft = a at *
        generalize fstride * k = b at *
        by_cases hc : a + b ≥ st.nfft
        · rw [if_pos (by omega), Nat.mod_eq_sub_mod hc, Nat.mod_eq_of_lt (by omega)]
          omega
        · rw [if_neg (by omega), Nat.mod_eq_of_lt (by omega)]
          omega
      have hsq := hsc (j + 1) (by omega)
      have e1 : (1 : Int) + j = ((j + 1 : Nat) : Int) := by push_cast; ring
      have hw := h.tw ((j + 1) * (fstride * k) % st.nfft) (Nat.mod_lt _ h.pos)
      have hs2 : (s.2 (o + k)).isSome := by rw [g2]; rfl
      simp only [hidx, e1, hsq, hw, g2, Option.bind_eq_bind, Option.bind_some, Mem.set_eq hs2]
      refine ⟨_, rfl, fun _ => ⟨rfl, ?_, ?_⟩⟩
      · simp only [Function.update_self, Arith.bfg]
      · intro b hb
        simp only [Function.update_apply, if_neg hb]
        exact g3 b hb)
  obtain ⟨h2, h3, h4⟩ := hfin le_rfl
  refine ⟨s'.2, ?_, h3, h4⟩
  simp only [Option.bind_eq_bind] at h1
  rw [h1]; rfl

theorem kfBflyGenericF_ok (a : Arith) {st : KissState} (h : TwIn st) (junk : Int → ℂ) {fstride m p : Nat}
    (hp : 0 < p) (hm : 0 < m) (hN : fstride * (p * m) = st.nfft) (o : Int) :
    BflyF p m o (fun u y q => a.bfg (fun r => st.twf (r * (fstride * (u + q * m)) % st.nfft)) y (p - 1))
      (fun F => kfBflyGenericF a st junk F o fstride m p) := by
  intro F x hF
  obtain ⟨s', h1, h2, h3⟩ := bfly_loopS (S := Mem ℂ × Mem ℂ) Prod.snd
    (fun s => ∀ q : Nat, q < p → (s.1 q).isSome) p m o
    (fun u (s : Mem ℂ × Mem ℂ) => do
      let scratch ← forN p (fun q1 sc => copy1 s.2 sc q1 (o + (u + q1 * m))) s.1
      let F ← forN p (fun q1 F => kfGenericOutF a st scratch fstride p o (u + q1 * m) F) s.2
      some (scratch, F))
    (fun u y q => a.bfg (fun r => st.twf (r * (fstride * (u + q * m)) % st.nfft)) y (p - 1)) (by
      intro u hu s y hi hy
      -- fill scratch
      obtain ⟨sc, c1, c2, c3⟩ := forN_inv (fun k (sc : Mem ℂ) =>
          (∀ q : Nat, q < k → q < p → sc q = some (y q)) ∧ ∀ q : Nat, q < p → (sc q).isSome)
        (fun q1 sc => copy1 s.2 sc q1 (o + (u + q1 * m))) p s.1
        ⟨fun q hq => absurd hq (by omega), hi⟩
        (by
          intro k hk sc ⟨g1, g2⟩
          have e : o + ((u : Int) + k * m) = o + u + k * m := by ring
          refine ⟨Function.update sc k (some (y k)), ?_, ?_, ?_⟩
          · simp only [copy1, e, hy k hk, Option.bind_some, Mem.set_eq (g2 k hk)]
          · intro q hq hqp
            by_cases hqk : q = k
            · subst hqk; simp
            · have : (q : Int) ≠ k := by exact_mod_cast hqk
              simp only [Function.update_apply, if_neg this]
              exact g1 q (by omega) hqp
          · intro q hq
            by_cases hqk : (q : Int) = k
            · rw [hqk]; simp
            · simp only [Function.update_apply, if_neg hqk]
              exact g2 q hq)
      -- outputs
      have hkN : ∀ q < p, fstride * (u + q * m) < st.nfft := by
        intro q hq
        rw [← hN]
        have hf : 0 < fstride := by
          rcases Nat.eq_zero_or_pos fstride with h0 | h0
          · have := h.pos; subst h0; simp at hN; omega
          · exact h0
        refine Nat.mul_lt_mul_of_pos_left ?_ hf
        have : (q + 1) * m ≤ p * m := Nat.mul_le_mul_right m hq
        have : (q + 1) * m = q * m + m := by ring
        omega
      obtain ⟨F', d1, d2, d3, d4⟩ := forN_inv (fun k (G : Mem ℂ) =>
          (∀ q : Nat, q < k → q < p → G (o + u + q * m) =
            some (a.bfg (fun r => st.twf (r * (fstride * (u + q * m)) % st.nfft)) y (p - 1))) ∧
          (∀ q : Nat, q < p → (G (o + u + q * m)).isSome) ∧
          ∀ b, (∀ q < p, b ≠ o + u + q * m) → G b = s.2 b)
        (fun q1 F => kfGenericOutF a st sc fstride p o (u + q1 * m) F) p s.2
        ⟨fun q hq => absurd hq (by omega), fun q hq => by rw [hy q hq]; rfl, fun b _ => rfl⟩
        (by
          intro k hk G ⟨g1, g2, g3⟩
          have e : (((u + k * m : Nat)) : Int) = (u : Int) + k * m := by push_cast; ring
          have e' : o + ((u : Int) + k * m) = o + u + k * m := by ring
          have hG := g2 k hk
          rw [← e', ← e] at hG
          obtain ⟨G', f1, f2, f3⟩ := kfGenericOutF_ok a h hp (hkN k hk) sc y
            (fun q hq => c2 q hq hq) o G hG
          rw [e] at f1 f2 f3
          rw [e'] at f2 f3
          refine ⟨G', f1, ?_, ?_, ?_⟩
          · intro q hq hqp
            by_cases hqk : q = k
            · subst hqk; rw [f2]
            · rw [f3 _ (by rw [Ne, addr_inj hm]; exact hqk)]
              exact g1 q (by omega) hqp
          · intro q hq
            by_cases hqk : q = k
            · subst hqk; rw [f2]; rfl
            · rw [f3 _ (by rw [Ne, addr_inj hm]; exact hqk)]
              exact g2 q hq
          · intro b hb
            rw [f3 _ (hb k hk)]
            exact g3 b hb)
      refine ⟨(sc, F'), ?_, c3, fun q hq => d2 q hq hq, d4⟩
      simp only [c1, d1, Option.bind_eq_bind, Option.bind_some])
    (Mem.ofFn p junk, F) x (by
      intro q hq
      simp only [Mem.ofFn]
      rw [if_pos (by omega)]; rfl) hF
  exact ⟨s'.2, by simp only [kfBflyGenericF]; rw [h1]; rfl, h2, h3⟩

/-- All butterflies. -/
theorem kfBflyF_ok (a : Arith) {st : KissState} (h : TwIn st) (junk : Int → ℂ) {fstride m p : Nat} (hp : 0 < p)
    (hm : 0 < m) (hN : fstride * (p * m) = st.nfft) (o : Int) :
    BflyF p m o (a.bfly st fstride m p) (fun F => kfBflyF a st junk F o fstride m p) := by
  unfold kfBflyF
  by_cases h2 : p = 2
  · subst h2; simpa using kfBfly2F_ok a h hm hN o
  by_cases h3 : p = 3
  · subst h3; simpa using kfBfly3F_ok a h hm hN o
  by_cases h4 : p = 4
  · subst h4; simpa using kfBfly4F_ok a h hm hN o
  by_cases h5 : p = 5
  · subst h5; simpa using kfBfly5F_ok a h hm hN o
  simp only [if_neg h2, if_neg h3, if_neg h4, if_neg h5]
  have e : a.bfly st fstride m p =
      fun u y q => a.bfg (fun r => st.twf (r * (fstride * (u + q * m)) % st.nfft)) y (p - 1) := by
    funext u y q
    simp only [Arith.bfly, if_neg h2, if_neg h3, if_neg h4, if_neg h5]
  rw [e]
  exact kfBflyGenericF_ok a h junk hp hm hN o

theorem kfWorkF_ok (a : Arith) {st : KissState} (h : TwIn st) (junk : Int → ℂ) (f : Mem ℂ) (inStride : Nat)
    (factors : List (Nat × Nat)) : ∀ (n fstride : Nat) (F : Mem ℂ) (o fo : Int) (x : Nat → ℂ),
    FacChain n factors → fstride * n = st.nfft →
    (∀ j < n, f (fo + j * (fstride * inStride)) = some (x j)) →
    (∀ k < n, (F (o + (k : Nat))).isSome) →
    ∃ F', kfWorkF a st junk f inStride factors F o fo fstride = some F' ∧
      (∀ k < n, F' (o + (k : Nat)) = some (a.work st factors fstride x k)) ∧
      ∀ b, (b < o ∨ o + n ≤ b) → F' b = F b := by
  induction factors with
  | nil => intro n fstride F o fo x hc; exact absurd hc (by simp [FacChain])
  | cons pm rest ih =>
    obtain ⟨p, m⟩ := pm
    intro n fstride F o fo x hc hN hf hF
    obtain ⟨hp, hm, hpm, hrest⟩ := hc
    subst hpm
    simp only [kfWorkF]
    rw [if_neg (by omega)]
    -- the p transforms of length m
    have hsub : ∃ F1, (if m = 1 then
        forN p (fun q F => copy1 f F (o + q) (fo + q * (fstride * inStride))) F
      else
        forN p (fun q F =>
          kfWorkF a st junk f inStride rest F (o + q * m) (fo + q * (fstride * inStride)) (fstride * p)) F)
          = some F1 ∧
        (∀ q < p, ∀ u < m, F1 (o + u + q * m) =
          some (if m = 1 then x q else a.work st rest (fstride * p) (fun t => x (q + p * t)) u)) ∧
        ∀ b, (b < o ∨ o + (p * m : Nat) ≤ b) → F1 b = F b := by
      by_cases hm1 : m = 1
      · subst hm1
        rw [if_pos rfl]
        obtain ⟨F1, h1, h2, h3, h4⟩ := forN_inv (fun k (G : Mem ℂ) =>
            (∀ q : Nat, q < k → q < p → G (o + q) = some (x q)) ∧
            (∀ q : Nat, q < p → (G (o + q)).isSome) ∧
            ∀ b, (b < o ∨ o + (p * 1 : Nat) ≤ b) → G b = F b)
          (fun q F => copy1 f F (o + q) (fo + q * (fstride * inStride))) p F
          ⟨fun q hq => absurd hq (by omega), fun q hq => hF q (by omega), fun b _ => rfl⟩
          (by
            intro k hk G ⟨g1, g2, g3⟩
            refine ⟨Function.update G (o + k) (some (x k)), ?_, ?_, ?_, ?_⟩
            · simp only [copy1, hf k (by omega), Option.bind_some, Mem.set_eq (g2 k hk)]
            · intro q hq hqp
              by_cases hqk : q = k
              · subst hqk; simp
              · have : o + (q : Int) ≠ o + k := by omega
                simp only [Function.update_apply, if_neg this]
                exact g1 q (by omega) hqp
            · intro q hq
              by_cases hqk : q = k
              · subst hqk; simp
              · have : o + (q : Int) ≠ o + k := by omega
                simp only [Function.update_apply, if_neg this]
                exact g2 q hq
            · intro b ha
              have : b ≠ o + k := by push_cast at ha; omega
              simp only [Function.update_apply, if_neg this]
              exact g3 b ha)
        refine ⟨F1, h1, ?_, h4⟩
        intro q hq u hu
        have hu0 : u = 0 := by omega
        subst hu0
        have := h2 q hq hq
        simp only [Nat.cast_zero, Nat.cast_one, mul_one, add_zero]
        rw [this]
        simp
      · rw [if_neg hm1]
        rw [if_neg hm1] at hrest
        have hN' : fstride * p * m = st.nfft := by rw [← hN]; ring
        obtain ⟨F1, h1, h2, h3, h4⟩ := forN_inv (fun k (G : Mem ℂ) =>
            (∀ q : Nat, q < k → q < p → ∀ u < m, G (o + u + q * m) =
              some (a.work st rest (fstride * p) (fun t => x (q + p * t)) u)) ∧
            (∀ q : Nat, q < p → ∀ u < m, (G (o + u + q * m)).isSome) ∧
            ∀ b, (b < o ∨ o + (p * m : Nat) ≤ b) → G b = F b)
          (fun q F =>
            kfWorkF a st junk f inStride rest F (o + q * m) (fo + q * (fstride * inStride)) (fstride * p)) p F
          ⟨fun q hq => absurd hq (by omega), fun q hq u hu => by
              have h6 : (q + 1) * m ≤ p * m := Nat.mul_le_mul_right m hq
              have h7 : (q + 1) * m = q * m + m := by ring
              have := hF (u + q * m) (by omega)
              push_cast at this
              rwa [← add_assoc] at this, fun b _ => rfl⟩
          (by
            intro k hk G ⟨g1, g2, g3⟩
            obtain ⟨G', f1, f2, f3⟩ := ih m (fstride * p) G (o + k * m) (fo + k * (fstride * inStride))
              (fun t => x (k + p * t)) hrest hN'
              (by
                intro t ht
                have hlt : k + p * t < p * m := by
                  have : p * (t + 1) ≤ p * m := Nat.mul_le_mul_left p ht
                  have : p * (t + 1) = p * t + p := by ring
                  omega
                have := hf (k + p * t) hlt
                rw [← this]
                congr 1
                push_cast; ring)
              (by
                intro u hu
                have := g2 k hk u hu
                rw [show o + (k : Int) * m + u = o + u + k * m by ring]
                exact this)
            have hne : ∀ q u, u < m → q ≠ k → (o + (u : Int) + q * m < o + k * m ∨
                o + k * m + m ≤ o + (u : Int) + q * m) := by
              intro q u hu hqk
              rcases Nat.lt_or_gt_of_ne hqk with hlt | hgt
              · left
                have h6 : (q + 1) * m ≤ k * m := Nat.mul_le_mul_right m hlt
                have h7 : (q + 1) * m = q * m + m := by ring
                have h8 : ((q * m + m : Nat) : Int) ≤ (k * m : Nat) := by omega
                push_cast at h8
                omega
              · right
                have h6 : (k + 1) * m ≤ q * m := Nat.mul_le_mul_right m hgt
                have h7 : (k + 1) * m = k * m + m := by ring
                have h8 : ((k * m + m : Nat) : Int) ≤ (q * m : Nat) := by omega
                push_cast at h8
                omega
            refine ⟨G', f1, ?_, ?_, ?_⟩
            · intro q hq hqp u hu
              by_cases hqk : q = k
              · subst hqk
                rw [← f2 u hu]
                congr 1; ring
              · rw [f3 _ (hne q u hu hqk)]
                exact g1 q (by omega) hqp u hu
            · intro q hq u hu
              by_cases hqk : q = k
              · subst hqk
                rw [show o + (u : Int) + q * m = o + q * m + u by ring, f2 u hu]; rfl
              · rw [f3 _ (hne q u hu hqk)]
                exact g2 q hq u hu
            · intro b ha
              rw [f3 b ?_]
              · exact g3 b ha
              · have h6 : (k + 1) * m ≤ p * m := Nat.mul_le_mul_right m hk
                have h7 : (k + 1) * m = k * m + m := by ring
                have h8 : ((k * m + m : Nat) : Int) ≤ (p * m : Nat) := by omega
                have h9 : (0 : Int) ≤ k * m := by positivity
                push_cast at h8 ha
                omega)
        exact ⟨F1, h1, fun q hq u hu => by rw [if_neg hm1]; exact h2 q hq hq u hu, h4⟩
    obtain ⟨F1, h1, h2, h3⟩ := hsub
    rw [h1]
    simp only [Option.bind_some]
    obtain ⟨F', k1, k2, k3⟩ := kfBflyF_ok a h junk hp hm hN o F1 _ h2
    refine ⟨F', k1, ?_, ?_⟩
    · intro k hk
      have hdiv : k = k % m + (k / m) * m := by rw [Nat.mul_comm]; exact (Nat.mod_add_div k m).symm
      have hu : k % m < m := Nat.mod_lt _ hm
      have hq : k / m < p := Nat.div_lt_of_lt_mul (by rw [Nat.mul_comm]; exact hk)
      have := k2 (k / m) hq (k % m) hu
      have e : o + ((k % m : Nat) : Int) + ((k / m : Nat) : Int) * m = o + k := by
        conv_rhs => rw [hdiv]
        push_cast; ring
      rw [e] at this
      rw [this]
      rfl
    · intro b ha
      rw [k3 b (by push_cast at ha; exact ha), h3 b ha]

/-- `kiss_fft_alloc` makes a plan with the factors of `kf_factor`. -/
theorem kissAllocF_ok (a : Arith) {n : Nat} (hn : 1 ≤ n) (hs : n < 2 ^ 32) (inv : Bool) :
    ∃ st, kissAllocF a n inv = some st ∧ st.nfft = n ∧ st.inverse = inv ∧ TwIn st ∧ FacChain n st.factors ∧
      kfFactor n = some st.factors ∧ ∀ i < n, st.twf i = a.twiddle n inv i := by
  obtain ⟨l, h1, h2, _⟩ := kfFactor_chain hn hs
  unfold kissAllocF
  rw [h1]
  have ht : ∀ i : Nat, i < n → Mem.ofFn n (a.twiddle n inv) i = some (a.twiddle n inv i) := by
    intro i hi
    simp only [Mem.ofFn]
    rw [if_pos (by omega)]
  refine ⟨_, rfl, rfl, rfl, ⟨hn, ?_⟩, h2, rfl, ?_⟩
  · intro i hi
    simp only [KissState.twf] at hi ⊢
    rw [ht i hi]; rfl
  · intro i hi
    simp only [KissState.twf]
    rw [ht i hi]; rfl

/-- The in-place transform. -/
theorem kissInF_ok (a : Arith) {st : KissState} (h : TwIn st) (hc : FacChain st.nfft st.factors)
    (junk junk' : Int → ℂ) (x : Nat → ℂ) (data : Mem ℂ) (o : Int)
    (hin : ∀ j < st.nfft, data (o + (j : Nat)) = some (x j)) :
    ∃ data', kissInF a st junk junk' data o 1 = some data' ∧
      (∀ k < st.nfft, data' (o + (k : Nat)) = some (a.work st st.factors 1 x k)) ∧
      ∀ b, (b < o ∨ o + st.nfft ≤ b) → data' b = data b := by
  obtain ⟨F', k1, k2, k3⟩ := kfWorkF_ok a h junk data 1 st.factors st.nfft 1 (Mem.ofFn st.nfft junk') 0 o x hc
    (by omega) (by simpa using hin) (by
      intro k hk
      simp only [Mem.ofFn]
      rw [if_pos (by omega)]; rfl)
  unfold kissInF
  rw [k1]
  simp only [Option.bind_some, memcpyM]
  rw [if_neg (by omega)]
  obtain ⟨G, g1, g2, g3, g4⟩ := forN_inv (fun k (G : Mem ℂ) =>
      (∀ q : Nat, q < k → q < st.nfft → G (o + q) = some (a.work st st.factors 1 x q)) ∧
      (∀ q : Nat, q < st.nfft → (G (o + q)).isSome) ∧ ∀ b, (b < o ∨ o + st.nfft ≤ b) → G b = data b)
    (fun t m => copy1 F' m (o + t) (0 + t)) st.nfft data
    ⟨fun q hq => absurd hq (by omega), fun q hq => by rw [hin q hq]; rfl, fun b _ => rfl⟩
    (by
      intro k hk G ⟨g1, g2, g3⟩
      refine ⟨Function.update G (o + k) (some (a.work st st.factors 1 x k)), ?_, ?_, ?_, ?_⟩
      · simp only [copy1, k2 k hk, Option.bind_some, Mem.set_eq (g2 k hk)]
      · intro q hq hqp
        by_cases hqk : q = k
        · subst hqk; simp
        · have : o + (q : Int) ≠ o + k := by omega
          simp only [Function.update_apply, if_neg this]
          exact g1 q (by omega) hqp
      · intro q hq
        by_cases hqk : q = k
        · subst hqk; simp
        · have : o + (q : Int) ≠ o + k := by omega
          simp only [Function.update_apply, if_neg this]
          exact g2 q hq
      · intro b ha
        have : b ≠ o + k := by omega
        simp only [Function.update_apply, if_neg this]
        exact g3 b ha)
  exact ⟨G, g1, fun k hk => g2 k hk hk, g4⟩

end FftMpi
