import Verif.Mem
import Mathlib.Data.Nat.Sqrt
import Mathlib.Analysis.SpecialFunctions.Trigonometric.Basic

/-!
# Model of kissfft.h

`FFT_DATA` (ffttype.h) is `ℂ`; arithmetic is exact (no rounding), `cos`, `sin`, `sqrt`, `floor` are the
mathematical functions.  `C_MUL`, `C_ADD`, `C_SUB`, `C_ADDTO` (kissfft.h:119-155) are written out in
components in the C code; they are the operations `*`, `+`, `-` of `ℂ`.  `C_FIXDIV` does nothing.
Index variables (`int`, `size_t`) are unbounded.

Arrays are `Mem ℂ`; a routine returns `none` if it accesses an array outside its allocation.
The pointer `Fout` is an index `o` into an array `F`, the pointer `f` an index `fo` into an array `f`.
-/

noncomputable section

namespace FftMpi

open Complex

/-- `MAXFACTORS`, kissfft.h:82. -/
def MAXFACTORS : Nat := 32

/-- `struct kiss_fft_state`, kissfft.h:85-90.  `factors` lists the pairs (radix, remaining length) that
have been stored; `tw` is the array `twiddles`, allocated with `nfft` elements. -/
structure KissState where
  nfft : Nat
  inverse : Bool
  factors : List (Nat × Nat)
  tw : Mem ℂ

/-! ## Plan -/

/-- `switch (p) {...}` in `kf_factor`, kissfft.h:414-418. -/
def kfNextP (p : Nat) : Nat := if p = 4 then 2 else if p = 2 then 3 else p + 2

/-- The loop `while (n % p) {...}` of `kf_factor`, kissfft.h:413-421.  When `p` has passed `floor_sqrt`
it is set to `n`, and then `n % p` is zero. -/
def kfWhile (floorSqrt n p : Nat) : Nat :=
  if n % p = 0 then p
  else if _h : kfNextP p > floorSqrt then n
  else kfWhile floorSqrt n (kfNextP p)
termination_by if p = 0 ∨ p = 4 then floorSqrt + 3 else if p = 2 then floorSqrt + 2 else floorSqrt + 1 - p
decreasing_by
  unfold kfNextP at *
  by_cases h4 : p = 4
  · subst h4; simp
  · by_cases h2 : p = 2
    · subst h2; simp; omega
    · by_cases h0 : p = 0
      · subst h0; simp
      · rw [if_neg h4, if_neg h2] at *
        rw [if_neg (by omega), if_neg (by omega), if_neg (by omega), if_neg h2]
        omega

/-- The loop `do {...} while (n > 1)` of `kf_factor`, kissfft.h:411-426.  `slots = MAXFACTORS - nf`.  With
`nf == MAXFACTORS` (line 412) the code goes on to store a pair behind the end of `factors`: `none`. -/
def kfLoop (floorSqrt : Nat) : (slots : Nat) → (p n : Nat) → Option (List (Nat × Nat))
  | 0, _, _ => none
  | slots + 1, p, n =>
    let p := kfWhile floorSqrt n p
    let n := n / p
    if n > 1 then (kfLoop floorSqrt slots p n).map fun l => (p, n) :: l
    else some [(p, n)]

/-- `kf_factor`, kissfft.h:403-427: the pairs stored in `facbuf`. -/
def kfFactor (n : Nat) : Option (List (Nat × Nat)) := kfLoop (Nat.sqrt n) MAXFACTORS 4 n

/-- `kiss_fft_alloc(nfft,inverse_fft,NULL,NULL)`, kissfft.h:435-462.  The allocation holds
`sizeof(struct kiss_fft_state) + sizeof(FFT_DATA)*(nfft-1)`, i.e. `nfft` twiddles (line 438), and is assumed
to succeed. -/
def kissAlloc (nfft : Nat) (inverse : Bool) : Option KissState :=
  (kfFactor nfft).map fun fs =>
    { nfft, inverse, factors := fs
      tw := Mem.ofFn nfft fun i =>
        let phase : ℝ := (if inverse then 2 * Real.pi else -2 * Real.pi) * i / nfft
        ⟨Real.cos phase, Real.sin phase⟩ }

/-! ## Butterflies -/

/-- The C loop `k = m; do {...} while (--k)`; for `m = 0` the counter would wrap around (`none`). -/
def doWhile {σ : Type} (m : Nat) (body : Int → σ → Option σ) (s : σ) : Option σ :=
  if m = 0 then none else forN m body s

/-- `kf_bfly2`, kissfft.h:168-186. -/
def kfBfly2 (st : KissState) (F : Mem ℂ) (o : Int) (fstride m : Nat) : Option (Mem ℂ) :=
  doWhile m (fun u F => do
    let f ← F (o + u)
    let f2 ← F (o + u + m)
    let w ← st.tw (u * fstride)
    let t := f2 * w
    let F ← F.set (o + u + m) (f - t)
    F.set (o + u) (f + t)) F

/-- `kf_bfly4`, kissfft.h:188-229. -/
def kfBfly4 (st : KissState) (F : Mem ℂ) (o : Int) (fstride m : Nat) : Option (Mem ℂ) :=
  doWhile m (fun u F => do
    let f ← F (o + u)
    let f1 ← F (o + u + m)
    let f2 ← F (o + u + 2 * m)
    let f3 ← F (o + u + 3 * m)
    let w1 ← st.tw (u * fstride)
    let w2 ← st.tw (u * (fstride * 2))
    let w3 ← st.tw (u * (fstride * 3))
    let s0 := f1 * w1
    let s1 := f2 * w2
    let s2 := f3 * w3
    let s5 := f - s1
    let f := f + s1
    let s3 := s0 + s2
    let s4 := s0 - s2
    let F ← F.set (o + u + 2 * m) (f - s3)
    let F ← F.set (o + u) (f + s3)
    if st.inverse then
      let F ← F.set (o + u + m) ⟨s5.re - s4.im, s5.im + s4.re⟩
      F.set (o + u + 3 * m) ⟨s5.re + s4.im, s5.im - s4.re⟩
    else
      let F ← F.set (o + u + m) ⟨s5.re + s4.im, s5.im - s4.re⟩
      F.set (o + u + 3 * m) ⟨s5.re - s4.im, s5.im + s4.re⟩) F

/-- `kf_bfly3`, kissfft.h:231-269. -/
def kfBfly3 (st : KissState) (F : Mem ℂ) (o : Int) (fstride m : Nat) : Option (Mem ℂ) :=
  (st.tw (fstride * m)).bind fun epi3 =>
  doWhile m (fun u F => do
    let f ← F (o + u)
    let f1 ← F (o + u + m)
    let f2 ← F (o + u + 2 * m)
    let w1 ← st.tw (u * fstride)
    let w2 ← st.tw (u * (fstride * 2))
    let s1 := f1 * w1
    let s2 := f2 * w2
    let s3 := s1 + s2
    let s0 := s1 - s2
    let g : ℂ := ⟨f.re - s3.re * (1 / 2), f.im - s3.im * (1 / 2)⟩
    let s0 : ℂ := ⟨s0.re * epi3.im, s0.im * epi3.im⟩
    let F ← F.set (o + u) (f + s3)
    let F ← F.set (o + u + 2 * m) ⟨g.re + s0.im, g.im - s0.re⟩
    F.set (o + u + m) ⟨g.re - s0.im, g.im + s0.re⟩) F

/-- `kf_bfly5`, kissfft.h:271-326. -/
def kfBfly5 (st : KissState) (F : Mem ℂ) (o : Int) (fstride m : Nat) : Option (Mem ℂ) :=
  (st.tw (fstride * m)).bind fun ya => (st.tw (fstride * 2 * m)).bind fun yb =>
  forN m (fun u F => do
    let s0 ← F (o + u)
    let f1 ← F (o + m + u)
    let f2 ← F (o + 2 * m + u)
    let f3 ← F (o + 3 * m + u)
    let f4 ← F (o + 4 * m + u)
    let w1 ← st.tw (u * fstride)
    let w2 ← st.tw (2 * u * fstride)
    let w3 ← st.tw (3 * u * fstride)
    let w4 ← st.tw (4 * u * fstride)
    let s1 := f1 * w1
    let s2 := f2 * w2
    let s3 := f3 * w3
    let s4 := f4 * w4
    let s7 := s1 + s4
    let s10 := s1 - s4
    let s8 := s2 + s3
    let s9 := s2 - s3
    let F ← F.set (o + u) ⟨s0.re + (s7.re + s8.re), s0.im + (s7.im + s8.im)⟩
    let s5 : ℂ := ⟨s0.re + s7.re * ya.re + s8.re * yb.re, s0.im + s7.im * ya.re + s8.im * yb.re⟩
    let s6 : ℂ := ⟨s10.im * ya.im + s9.im * yb.im, -(s10.re * ya.im) - s9.re * yb.im⟩
    let F ← F.set (o + m + u) (s5 - s6)
    let F ← F.set (o + 4 * m + u) (s5 + s6)
    let s11 : ℂ := ⟨s0.re + s7.re * yb.re + s8.re * ya.re, s0.im + s7.im * yb.re + s8.im * ya.re⟩
    let s12 : ℂ := ⟨-(s10.im * yb.im) + s9.im * ya.im, s10.re * yb.im - s9.re * ya.im⟩
    let F ← F.set (o + 2 * m + u) (s11 + s12)
    F.set (o + 3 * m + u) (s11 - s12)) F

/-- The inner loop of `kf_bfly_generic` for one output, kissfft.h:349-355: state `(twidx, F)`. -/
def kfGenericOut (st : KissState) (scratch : Mem ℂ) (fstride p : Nat) (o k : Int) (F : Mem ℂ) :
    Option (Mem ℂ) := do
  let s0 ← scratch 0
  let F ← F.set (o + k) s0
  (forFrom 1 (p - 1) (fun q (s : Int × Mem ℂ) => do
    let twidx := s.1 + fstride * k
    let twidx := if twidx ≥ st.nfft then twidx - st.nfft else twidx
    let sq ← scratch q
    let w ← st.tw twidx
    let t := sq * w
    let c ← s.2 (o + k)
    let F ← s.2.set (o + k) (c + t)
    some (twidx, F)) ((0 : Int), F)).map Prod.snd

/-- `kf_bfly_generic`, kissfft.h:329-360.  `scratch` is a fresh allocation of `p` elements with arbitrary
contents `junk`. -/
def kfBflyGeneric (st : KissState) (junk : Int → ℂ) (F : Mem ℂ) (o : Int) (fstride m p : Nat) :
    Option (Mem ℂ) :=
  (forN m (fun u (s : Mem ℂ × Mem ℂ) => do
    let scratch ← forN p (fun q1 sc => copy1 s.2 sc q1 (o + (u + q1 * m))) s.1
    let F ← forN p (fun q1 F => kfGenericOut st scratch fstride p o (u + q1 * m) F) s.2
    some (scratch, F)) (Mem.ofFn p junk, F)).map Prod.snd

/-- `switch (p) {...}`, kissfft.h:390-396. -/
def kfBfly (st : KissState) (junk : Int → ℂ) (F : Mem ℂ) (o : Int) (fstride m p : Nat) : Option (Mem ℂ) :=
  if p = 2 then kfBfly2 st F o fstride m
  else if p = 3 then kfBfly3 st F o fstride m
  else if p = 4 then kfBfly4 st F o fstride m
  else if p = 5 then kfBfly5 st F o fstride m
  else kfBflyGeneric st junk F o fstride m p

/-! ## Transform -/

/-- `kf_work`, kissfft.h:362-397.  The list argument is what is left of `factors`; an empty list means that
the code would read behind the stored factors.  The `do ... while (Fout != Fout_end)` loops make `p`
passes when `p` and `m` are positive; other values (never stored by `kf_factor`) count as a fault. -/
def kfWork (st : KissState) (junk : Int → ℂ) (f : Mem ℂ) (inStride : Nat) :
    (factors : List (Nat × Nat)) → (F : Mem ℂ) → (o fo : Int) → (fstride : Nat) → Option (Mem ℂ)
  | [], _, _, _, _ => none
  | (p, m) :: rest, F, o, fo, fstride =>
    if p = 0 ∨ m = 0 then none
    else
      (if m = 1 then
        forN p (fun q F => copy1 f F (o + q) (fo + q * (fstride * inStride))) F
      else
        forN p (fun q F =>
          kfWork st junk f inStride rest F (o + q * m) (fo + q * (fstride * inStride)) (fstride * p)) F).bind
        fun F => kfBfly st junk F o fstride m p

/-- `kiss_fft_stride` with `fin != fout` (different allocations), kissfft.h:474. -/
def kissOut (st : KissState) (junk : Int → ℂ) (fin : Mem ℂ) (fi : Int) (fout : Mem ℂ) (o : Int)
    (inStride : Nat) : Option (Mem ℂ) :=
  kfWork st junk fin inStride st.factors fout o fi 1

/-- `kiss_fft_stride` with `fin == fout`, kissfft.h:466-472; `junk'` are the contents of the fresh buffer. -/
def kissIn (st : KissState) (junk junk' : Int → ℂ) (data : Mem ℂ) (o : Int) (inStride : Nat) :
    Option (Mem ℂ) :=
  (kfWork st junk data inStride st.factors (Mem.ofFn st.nfft junk') 0 o 1).bind fun tmp =>
    memcpyM tmp data o 0 st.nfft

end FftMpi
