import Verif.Kiss

/-!
# Model of kissfft.h with the arithmetic as a parameter

The functions of `Kiss.lean` again, with every floating-point operation of the C code written out in the
order in which the code performs it.  The operations are those of an `Arith`; nothing is assumed about
them here.  With exact operations the functions are those of `Kiss.lean` (`KissFlLemmas.lean`).

Each operation of the C code is one operation of the model: the compiler neither contracts `a*b + c` to one
operation nor evaluates with excess precision (`FLT_EVAL_METHOD` is 0).  Signs of zero, infinities and NaN
are not represented: the values are real numbers.
-/

noncomputable section

namespace FftMpi

/-- Floating-point operations.  `add`, `sub`, `mul`: type `kiss_fft_scalar` (ffttype.h:67, 109: `float` or
`double`); `dmul`, `dsub`, `ddiv`: type `double`; `conv`: conversion from `double` to `kiss_fft_scalar`, nothing
if that is `double`; `ofInt`: conversion of a `bigint` to `double`; `pi`: the constant `M_PI`; `cos`, `sin`: the
functions of the C library. -/
structure Arith where
  add : ℝ → ℝ → ℝ
  sub : ℝ → ℝ → ℝ
  mul : ℝ → ℝ → ℝ
  dmul : ℝ → ℝ → ℝ
  dsub : ℝ → ℝ → ℝ
  ddiv : ℝ → ℝ → ℝ
  conv : ℝ → ℝ
  ofInt : Int → ℝ
  pi : ℝ
  cos : ℝ → ℝ
  sin : ℝ → ℝ

/-- Exact operations. -/
def exactArith : Arith where
  add := (· + ·)
  sub := (· - ·)
  mul := (· * ·)
  dmul := (· * ·)
  dsub := (· - ·)
  ddiv := (· / ·)
  conv := id
  ofInt n := n
  pi := Real.pi
  cos := Real.cos
  sin := Real.sin

namespace Arith

variable (a : Arith)

/-- `C_MUL`, kissfft.h:119-121. -/
def cmul (x w : ℂ) : ℂ :=
  ⟨a.sub (a.mul x.re w.re) (a.mul x.im w.im), a.add (a.mul x.re w.im) (a.mul x.im w.re)⟩

/-- `C_ADD`, kissfft.h:131-136, and `C_ADDTO`, 143-148. -/
def cadd (x y : ℂ) : ℂ := ⟨a.add x.re y.re, a.add x.im y.im⟩

/-- `C_SUB`, kissfft.h:137-142. -/
def csub (x y : ℂ) : ℂ := ⟨a.sub x.re y.re, a.sub x.im y.im⟩

/-- `C_MULBYSCALAR`, kissfft.h:123-125. -/
def cscale (x : ℂ) (s : ℝ) : ℂ := ⟨a.mul x.re s, a.mul x.im s⟩

/-- `x - HALF_OF(y)` stored in a `kiss_fft_scalar`, kissfft.h:160, 254-255.  The constant `.5` is a `double`, so
the subtraction is one of `double`. -/
def subHalf (x y : ℝ) : ℝ := a.conv (a.dsub x (a.dmul y (1 / 2)))

/-- The twiddle `i` of a plan: kissfft.h:455-456 and `kf_cexp`, 158-166.  `2.0*M_PI` and `-2.0*M_PI`, the product
with `i`, the quotient and the calls of `cos` and `sin` are of type `double`. -/
def twiddle (nfft : Nat) (inverse : Bool) (i : Int) : ℂ :=
  let phase := a.ddiv (a.dmul (if inverse then a.dmul 2 a.pi else a.dmul (-2) a.pi) i) nfft
  ⟨a.conv (a.cos phase), a.conv (a.sin phase)⟩

end Arith

/-- `kiss_fft_alloc(nfft,inverse_fft,NULL,NULL)`, kissfft.h:435-462. -/
def kissAllocF (a : Arith) (nfft : Nat) (inverse : Bool) : Option KissState :=
  (kfFactor nfft).map fun fs =>
    { nfft, inverse, factors := fs, tw := Mem.ofFn nfft (a.twiddle nfft inverse) }

/-- `kf_bfly2`, kissfft.h:168-186. -/
def kfBfly2F (a : Arith) (st : KissState) (F : Mem ℂ) (o : Int) (fstride m : Nat) : Option (Mem ℂ) :=
  doWhile m (fun u F => do
    let f ← F (o + u)
    let f2 ← F (o + u + m)
    let w ← st.tw (u * fstride)
    let t := a.cmul f2 w
    let F ← F.set (o + u + m) (a.csub f t)
    F.set (o + u) (a.cadd f t)) F

/-- `kf_bfly4`, kissfft.h:188-229. -/
def kfBfly4F (a : Arith) (st : KissState) (F : Mem ℂ) (o : Int) (fstride m : Nat) : Option (Mem ℂ) :=
  doWhile m (fun u F => do
    let f ← F (o + u)
    let f1 ← F (o + u + m)
    let f2 ← F (o + u + 2 * m)
    let f3 ← F (o + u + 3 * m)
    let w1 ← st.tw (u * fstride)
    let w2 ← st.tw (u * (fstride * 2))
    let w3 ← st.tw (u * (fstride * 3))
    let s0 := a.cmul f1 w1
    let s1 := a.cmul f2 w2
    let s2 := a.cmul f3 w3
    let s5 := a.csub f s1
    let f := a.cadd f s1
    let s3 := a.cadd s0 s2
    let s4 := a.csub s0 s2
    let F ← F.set (o + u + 2 * m) (a.csub f s3)
    let F ← F.set (o + u) (a.cadd f s3)
    if st.inverse then
      let F ← F.set (o + u + m) ⟨a.sub s5.re s4.im, a.add s5.im s4.re⟩
      F.set (o + u + 3 * m) ⟨a.add s5.re s4.im, a.sub s5.im s4.re⟩
    else
      let F ← F.set (o + u + m) ⟨a.add s5.re s4.im, a.sub s5.im s4.re⟩
      F.set (o + u + 3 * m) ⟨a.sub s5.re s4.im, a.add s5.im s4.re⟩) F

/-- `kf_bfly3`, kissfft.h:231-269. -/
def kfBfly3F (a : Arith) (st : KissState) (F : Mem ℂ) (o : Int) (fstride m : Nat) : Option (Mem ℂ) :=
  (st.tw (fstride * m)).bind fun epi3 =>
  doWhile m (fun u F => do
    let f ← F (o + u)
    let f1 ← F (o + u + m)
    let f2 ← F (o + u + 2 * m)
    let w1 ← st.tw (u * fstride)
    let w2 ← st.tw (u * (fstride * 2))
    let s1 := a.cmul f1 w1
    let s2 := a.cmul f2 w2
    let s3 := a.cadd s1 s2
    let s0 := a.csub s1 s2
    let g : ℂ := ⟨a.subHalf f.re s3.re, a.subHalf f.im s3.im⟩
    let s0 := a.cscale s0 epi3.im
    let F ← F.set (o + u) (a.cadd f s3)
    let F ← F.set (o + u + 2 * m) ⟨a.add g.re s0.im, a.sub g.im s0.re⟩
    F.set (o + u + m) ⟨a.sub g.re s0.im, a.add g.im s0.re⟩) F

/-- `kf_bfly5`, kissfft.h:271-326. -/
def kfBfly5F (a : Arith) (st : KissState) (F : Mem ℂ) (o : Int) (fstride m : Nat) : Option (Mem ℂ) :=
  (st.tw (fstride * m)).bind fun ya => (st.tw (fstride * 2 * m)).bind fun yb =>
  forN m (fun u F => do
    let s0 ← F (o + u)
    let f1 ← F (o + m + u)
    let f2 ← F (o + 2 * m + u)
    let f3 ← F (o + 3 * m + u)
    let f4 ← F (o + 4 * m + u)
    let w1 ← st.tw (u * fstride)
    let w2 ← st.tw (2 * u * fstride)
    let w3 ← st.tw (3 * u * fstride)
    let w4 ← st.tw (4 * u * fstride)
    let s1 := a.cmul f1 w1
    let s2 := a.cmul f2 w2
    let s3 := a.cmul f3 w3
    let s4 := a.cmul f4 w4
    let s7 := a.cadd s1 s4
    let s10 := a.csub s1 s4
    let s8 := a.cadd s2 s3
    let s9 := a.csub s2 s3
    let F ← F.set (o + u) ⟨a.add s0.re (a.add s7.re s8.re), a.add s0.im (a.add s7.im s8.im)⟩
    let s5 : ℂ := ⟨a.add (a.add s0.re (a.mul s7.re ya.re)) (a.mul s8.re yb.re),
      a.add (a.add s0.im (a.mul s7.im ya.re)) (a.mul s8.im yb.re)⟩
    let s6 : ℂ := ⟨a.add (a.mul s10.im ya.im) (a.mul s9.im yb.im),
      a.sub (-(a.mul s10.re ya.im)) (a.mul s9.re yb.im)⟩
    let F ← F.set (o + m + u) (a.csub s5 s6)
    let F ← F.set (o + 4 * m + u) (a.cadd s5 s6)
    let s11 : ℂ := ⟨a.add (a.add s0.re (a.mul s7.re yb.re)) (a.mul s8.re ya.re),
      a.add (a.add s0.im (a.mul s7.im yb.re)) (a.mul s8.im ya.re)⟩
    let s12 : ℂ := ⟨a.add (-(a.mul s10.im yb.im)) (a.mul s9.im ya.im),
      a.sub (a.mul s10.re yb.im) (a.mul s9.re ya.im)⟩
    let F ← F.set (o + 2 * m + u) (a.cadd s11 s12)
    F.set (o + 3 * m + u) (a.csub s11 s12)) F

/-- The inner loop of `kf_bfly_generic` for one output, kissfft.h:348-355. -/
def kfGenericOutF (a : Arith) (st : KissState) (scratch : Mem ℂ) (fstride p : Nat) (o k : Int) (F : Mem ℂ) :
    Option (Mem ℂ) := do
  let s0 ← scratch 0
  let F ← F.set (o + k) s0
  (forFrom 1 (p - 1) (fun q (s : Int × Mem ℂ) => do
    let twidx := s.1 + fstride * k
    let twidx := if twidx ≥ st.nfft then twidx - st.nfft else twidx
    let sq ← scratch q
    let w ← st.tw twidx
    let t := a.cmul sq w
    let c ← s.2 (o + k)
    let F ← s.2.set (o + k) (a.cadd c t)
    some (twidx, F)) ((0 : Int), F)).map Prod.snd

/-- `kf_bfly_generic`, kissfft.h:329-360. -/
def kfBflyGenericF (a : Arith) (st : KissState) (junk : Int → ℂ) (F : Mem ℂ) (o : Int) (fstride m p : Nat) :
    Option (Mem ℂ) :=
  (forN m (fun u (s : Mem ℂ × Mem ℂ) => do
    let scratch ← forN p (fun q1 sc => copy1 s.2 sc q1 (o + (u + q1 * m))) s.1
    let F ← forN p (fun q1 F => kfGenericOutF a st scratch fstride p o (u + q1 * m) F) s.2
    some (scratch, F)) (Mem.ofFn p junk, F)).map Prod.snd

/-- `switch (p) {...}`, kissfft.h:390-396. -/
def kfBflyF (a : Arith) (st : KissState) (junk : Int → ℂ) (F : Mem ℂ) (o : Int) (fstride m p : Nat) :
    Option (Mem ℂ) :=
  if p = 2 then kfBfly2F a st F o fstride m
  else if p = 3 then kfBfly3F a st F o fstride m
  else if p = 4 then kfBfly4F a st F o fstride m
  else if p = 5 then kfBfly5F a st F o fstride m
  else kfBflyGenericF a st junk F o fstride m p

/-- `kf_work`, kissfft.h:362-397; see `kfWork`. -/
def kfWorkF (a : Arith) (st : KissState) (junk : Int → ℂ) (f : Mem ℂ) (inStride : Nat) :
    (factors : List (Nat × Nat)) → (F : Mem ℂ) → (o fo : Int) → (fstride : Nat) → Option (Mem ℂ)
  | [], _, _, _, _ => none
  | (p, m) :: rest, F, o, fo, fstride =>
    if p = 0 ∨ m = 0 then none
    else
      (if m = 1 then
        forN p (fun q F => copy1 f F (o + q) (fo + q * (fstride * inStride))) F
      else
        forN p (fun q F =>
          kfWorkF a st junk f inStride rest F (o + q * m) (fo + q * (fstride * inStride)) (fstride * p)) F).bind
        fun F => kfBflyF a st junk F o fstride m p

/-- `kiss_fft_stride` with `fin != fout` (different allocations), kissfft.h:474. -/
def kissOutF (a : Arith) (st : KissState) (junk : Int → ℂ) (fin : Mem ℂ) (fi : Int) (fout : Mem ℂ) (o : Int)
    (inStride : Nat) : Option (Mem ℂ) :=
  kfWorkF a st junk fin inStride st.factors fout o fi 1

/-- `kiss_fft_stride` with `fin == fout`, kissfft.h:466-472; `junk'` are the contents of the fresh buffer. -/
def kissInF (a : Arith) (st : KissState) (junk junk' : Int → ℂ) (data : Mem ℂ) (o : Int) (inStride : Nat) :
    Option (Mem ℂ) :=
  (kfWorkF a st junk data inStride st.factors (Mem.ofFn st.nfft junk') 0 o 1).bind fun tmp =>
    memcpyM tmp data o 0 st.nfft

end FftMpi
