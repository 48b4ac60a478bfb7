import Verif.CInt
import Verif.Kiss

/-!
# kissfft.h with C integers

The functions of `Kiss.lean` again, with the C types of the index variables: an operation on `int` that is
not representable is a fault (`none`), an operation on `size_t` is taken modulo 2^64, and the conversion of
a `size_t` value to `int` is a reduction modulo 2^32 (`wrap32`).

The variables `m`, `p`, `n`, `u`, `k`, `q`, `q1`, `twidx`, `Norig`, `nfft` are of type `int`, `fstride` is of
type `size_t`, and so are `m` and `k` in `kf_bfly3` and `kf_bfly4`.  Loop counters that count up to an
`int` bound or down to zero cannot overflow; they are left as they are.  A value added to a pointer is an
array index and is not reduced.
-/

noncomputable section

namespace FftMpi

open Complex

/-- A value of type `size_t`. -/
def u64 (x : Nat) : Nat := x % 18446744073709551616

/-! ## Plan -/

/-- `switch (p) {...}` in `kf_factor`, kissfft.h:414-418. -/
def kfNextP32 (p : Nat) : Option Nat :=
  if p = 4 then some 2 else if p = 2 then some 3 else (add32 p 2).map Int.toNat

/-- The loop `while (n % p) {...}` of `kf_factor`, kissfft.h:413-421. -/
def kfWhile32 (floorSqrt n p : Nat) : Option Nat :=
  if n % p = 0 then some p
  else
    (kfNextP32 p).bind fun _ =>
      if _h : kfNextP p > floorSqrt then some n
      else kfWhile32 floorSqrt n (kfNextP p)
termination_by if p = 0 ∨ p = 4 then floorSqrt + 3 else if p = 2 then floorSqrt + 2 else floorSqrt + 1 - p
decreasing_by
  unfold kfNextP at *
  by_cases h4 : p = 4
  · subst h4; simp
  · by_cases h2 : p = 2
    · subst h2; simp; omega
    · by_cases h0 : p = 0
      · subst h0; simp
      · rw [if_neg h4, if_neg h2] at *
        rw [if_neg (by omega), if_neg (by omega), if_neg (by omega), if_neg h2]
        omega

/-- The loop `do {...} while (n > 1)` of `kf_factor`, kissfft.h:411-426. -/
def kfLoop32 (floorSqrt : Nat) : (slots : Nat) → (p n : Nat) → Option (List (Nat × Nat))
  | 0, _, _ => none
  | slots + 1, p, n =>
    (kfWhile32 floorSqrt n p).bind fun p =>
      let n := n / p
      if n > 1 then (kfLoop32 floorSqrt slots p n).map fun l => (p, n) :: l
      else some [(p, n)]

/-- `kf_factor`, kissfft.h:403-427. -/
def kfFactor32 (n : Nat) : Option (List (Nat × Nat)) := kfLoop32 (Nat.sqrt n) MAXFACTORS 4 n

/-- `kiss_fft_alloc(nfft,inverse_fft,NULL,NULL)`, kissfft.h:435-462.  Line 439 computes `nfft-1` in `int`.
The argument must be an `int`. -/
def kissAlloc32 (nfft : Nat) (inverse : Bool) : Option KissState :=
  (ck nfft).bind fun _ => (sub32 nfft 1).bind fun _ =>
  (kfFactor32 nfft).map fun fs =>
    { nfft, inverse, factors := fs
      tw := Mem.ofFn nfft fun i =>
        let phase : ℝ := (if inverse then 2 * Real.pi else -2 * Real.pi) * i / nfft
        ⟨Real.cos phase, Real.sin phase⟩ }

/-! ## Butterflies -/

/-- `kf_bfly4`, kissfft.h:188-229; `m2`, `m3` are lines 194-195. -/
def kfBfly4_32 (st : KissState) (F : Mem ℂ) (o : Int) (fstride m : Nat) : Option (Mem ℂ) :=
  let m2 := u64 (2 * m)
  let m3 := u64 (3 * m)
  doWhile m (fun u F => do
    let f ← F (o + u)
    let f1 ← F (o + u + m)
    let f2 ← F (o + u + m2)
    let f3 ← F (o + u + m3)
    let w1 ← st.tw (u * fstride)
    let w2 ← st.tw (u * u64 (fstride * 2))
    let w3 ← st.tw (u * u64 (fstride * 3))
    let s0 := f1 * w1
    let s1 := f2 * w2
    let s2 := f3 * w3
    let s5 := f - s1
    let f := f + s1
    let s3 := s0 + s2
    let s4 := s0 - s2
    let F ← F.set (o + u + m2) (f - s3)
    let F ← F.set (o + u) (f + s3)
    if st.inverse then
      let F ← F.set (o + u + m) ⟨s5.re - s4.im, s5.im + s4.re⟩
      F.set (o + u + m3) ⟨s5.re + s4.im, s5.im - s4.re⟩
    else
      let F ← F.set (o + u + m) ⟨s5.re + s4.im, s5.im - s4.re⟩
      F.set (o + u + m3) ⟨s5.re - s4.im, s5.im + s4.re⟩) F

/-- `kf_bfly3`, kissfft.h:231-269; `m2` is line 235. -/
def kfBfly3_32 (st : KissState) (F : Mem ℂ) (o : Int) (fstride m : Nat) : Option (Mem ℂ) :=
  let m2 := u64 (2 * m)
  (st.tw (u64 (fstride * m))).bind fun epi3 =>
  doWhile m (fun u F => do
    let f ← F (o + u)
    let f1 ← F (o + u + m)
    let f2 ← F (o + u + m2)
    let w1 ← st.tw (u * fstride)
    let w2 ← st.tw (u * u64 (fstride * 2))
    let s1 := f1 * w1
    let s2 := f2 * w2
    let s3 := s1 + s2
    let s0 := s1 - s2
    let g : ℂ := ⟨f.re - s3.re * (1 / 2), f.im - s3.im * (1 / 2)⟩
    let s0 : ℂ := ⟨s0.re * epi3.im, s0.im * epi3.im⟩
    let F ← F.set (o + u) (f + s3)
    let F ← F.set (o + u + m2) ⟨g.re + s0.im, g.im - s0.re⟩
    F.set (o + u + m) ⟨g.re - s0.im, g.im + s0.re⟩) F

/-- `kf_bfly5`, kissfft.h:271-326.  `fstride*m` and `fstride*2*m` (lines 280-281) are of type `size_t`,
`2*m`, `3*m`, `4*m` (lines 285-287) and `2*u`, `3*u`, `4*u` (lines 295-297) of type `int`, the products of
the latter with `fstride` again of type `size_t`. -/
def kfBfly5_32 (st : KissState) (F : Mem ℂ) (o : Int) (fstride m : Nat) : Option (Mem ℂ) :=
  (st.tw (u64 (fstride * m))).bind fun ya => (st.tw (u64 (u64 (fstride * 2) * m))).bind fun yb =>
  (mul32 2 m).bind fun m2 => (mul32 3 m).bind fun m3 => (mul32 4 m).bind fun m4 =>
  forN m (fun u F => do
    let s0 ← F (o + u)
    let f1 ← F (o + m + u)
    let f2 ← F (o + m2 + u)
    let f3 ← F (o + m3 + u)
    let f4 ← F (o + m4 + u)
    let w1 ← st.tw (u64 (u.toNat * fstride))
    let u2 ← mul32 2 u
    let w2 ← st.tw (u64 (u2.toNat * fstride))
    let u3 ← mul32 3 u
    let w3 ← st.tw (u64 (u3.toNat * fstride))
    let u4 ← mul32 4 u
    let w4 ← st.tw (u64 (u4.toNat * fstride))
    let s1 := f1 * w1
    let s2 := f2 * w2
    let s3 := f3 * w3
    let s4 := f4 * w4
    let s7 := s1 + s4
    let s10 := s1 - s4
    let s8 := s2 + s3
    let s9 := s2 - s3
    let F ← F.set (o + u) ⟨s0.re + (s7.re + s8.re), s0.im + (s7.im + s8.im)⟩
    let s5 : ℂ := ⟨s0.re + s7.re * ya.re + s8.re * yb.re, s0.im + s7.im * ya.re + s8.im * yb.re⟩
    let s6 : ℂ := ⟨s10.im * ya.im + s9.im * yb.im, -(s10.re * ya.im) - s9.re * yb.im⟩
    let F ← F.set (o + m + u) (s5 - s6)
    let F ← F.set (o + m4 + u) (s5 + s6)
    let s11 : ℂ := ⟨s0.re + s7.re * yb.re + s8.re * ya.re, s0.im + s7.im * yb.re + s8.im * ya.re⟩
    let s12 : ℂ := ⟨-(s10.im * yb.im) + s9.im * ya.im, s10.re * yb.im - s9.re * ya.im⟩
    let F ← F.set (o + m2 + u) (s11 + s12)
    F.set (o + m3 + u) (s11 - s12)) F

/-- `twidx += fstride * k; if (twidx>=Norig) twidx-=Norig;`, kissfft.h:351-352.  The sum is of type `size_t`
and is converted to `int`. -/
def twNext32 (st : KissState) (fstride : Nat) (k twidx : Int) : Option Int :=
  let twidx := wrap32 ((twidx + fstride * k) % 18446744073709551616)
  if twidx ≥ st.nfft then sub32 twidx st.nfft else some twidx

/-- The inner loop of `kf_bfly_generic` for one output, kissfft.h:348-355. -/
def kfGenericOut32 (st : KissState) (scratch : Mem ℂ) (fstride p : Nat) (o k : Int) (F : Mem ℂ) :
    Option (Mem ℂ) := do
  let s0 ← scratch 0
  let F ← F.set (o + k) s0
  (forFrom 1 (p - 1) (fun q (s : Int × Mem ℂ) => do
    let twidx ← twNext32 st fstride k s.1
    let sq ← scratch q
    let w ← st.tw twidx
    let t := sq * w
    let c ← s.2 (o + k)
    let F ← s.2.set (o + k) (c + t)
    some (twidx, F)) ((0 : Int), F)).map Prod.snd

/-- `kf_bfly_generic`, kissfft.h:329-360; `k += m` (lines 343 and 356) is also done after the last use of
`k`. -/
def kfBflyGeneric32 (st : KissState) (junk : Int → ℂ) (F : Mem ℂ) (o : Int) (fstride m p : Nat) :
    Option (Mem ℂ) :=
  (forN m (fun u (s : Mem ℂ × Mem ℂ) => do
    let sc ← forN p (fun q1 (t : Int × Mem ℂ) => do
      let sc ← copy1 s.2 t.2 q1 (o + t.1)
      let k ← add32 t.1 m
      some (k, sc)) (u, s.1)
    let F ← forN p (fun _ (t : Int × Mem ℂ) => do
      let F ← kfGenericOut32 st sc.2 fstride p o t.1 t.2
      let k ← add32 t.1 m
      some (k, F)) (u, s.2)
    some (sc.2, F.2)) (Mem.ofFn p junk, F)).map Prod.snd

/-- `switch (p) {...}`, kissfft.h:390-396.  In `kf_bfly2` (168-186) the only operation on integers is
`--m`. -/
def kfBfly32 (st : KissState) (junk : Int → ℂ) (F : Mem ℂ) (o : Int) (fstride m p : Nat) :
    Option (Mem ℂ) :=
  if p = 2 then kfBfly2 st F o fstride m
  else if p = 3 then kfBfly3_32 st F o fstride m
  else if p = 4 then kfBfly4_32 st F o fstride m
  else if p = 5 then kfBfly5_32 st F o fstride m
  else kfBflyGeneric32 st junk F o fstride m p

/-! ## Transform -/

/-- `kf_work`, kissfft.h:362-397.  `p*m` (line 369) is of type `int`, `fstride*in_stride` (lines 374 and
383) and `fstride*p` (line 382) of type `size_t`. -/
def kfWork32 (st : KissState) (junk : Int → ℂ) (f : Mem ℂ) (inStride : Nat) :
    (factors : List (Nat × Nat)) → (F : Mem ℂ) → (o fo : Int) → (fstride : Nat) → Option (Mem ℂ)
  | [], _, _, _, _ => none
  | (p, m) :: rest, F, o, fo, fstride =>
    if p = 0 ∨ m = 0 then none
    else
      (mul32 p m).bind fun _ =>
      (if m = 1 then
        forN p (fun q F => copy1 f F (o + q) (fo + q * u64 (fstride * inStride))) F
      else
        forN p (fun q F =>
          kfWork32 st junk f inStride rest F (o + q * m) (fo + q * u64 (fstride * inStride))
            (u64 (fstride * p))) F).bind
        fun F => kfBfly32 st junk F o fstride m p

/-- `kiss_fft_stride` with `fin != fout`, kissfft.h:474. -/
def kissOut32 (st : KissState) (junk : Int → ℂ) (fin : Mem ℂ) (fi : Int) (fout : Mem ℂ) (o : Int)
    (inStride : Nat) : Option (Mem ℂ) :=
  kfWork32 st junk fin inStride st.factors fout o fi 1

/-- `kiss_fft_stride` with `fin == fout`, kissfft.h:466-472. -/
def kissIn32 (st : KissState) (junk junk' : Int → ℂ) (data : Mem ℂ) (o : Int) (inStride : Nat) :
    Option (Mem ℂ) :=
  (kfWork32 st junk data inStride st.factors (Mem.ofFn st.nfft junk') 0 o 1).bind fun tmp =>
    memcpyM tmp data o 0 st.nfft

end FftMpi
