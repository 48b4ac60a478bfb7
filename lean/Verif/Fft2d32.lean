import Verif.Fft2d
import Verif.Fft3d32
import Verif.Remap2d32

/-!
# `FFT2d::setup` and `compute` with 32-bit integers

The functions of `Fft2dSetup.lean` and `Fft2d.lean` again, with the operations of `CInt.lean` and
`FftInt.lean` for every expression of type `int` or `bigint`; `none` now also stands for overflow.
`sz = sizeof(FFT_SCALAR)`.  Conventions as in `Fft3d32.lean`.
-/

noncomputable section

namespace FftMpi

variable {α : Type}

/-! ## setup -/

/-- `flag` of the index check, fft2d.cpp:262-265; `||` stops at the first true operand. -/
def badIndices2_32 (nfast nslow : Int) (b : Box2) : Option Bool :=
  ((add32 b.ihi 1).bind fun i =>
    if b.ilo > i then some true
    else (add32 b.jhi 1).map fun j => decide (b.jlo > j)).map fun x =>
    x || decide (b.ilo < 0 ∨ b.jlo < 0) || decide (b.ihi ≥ nfast ∨ b.jhi ≥ nslow)

/-- `(bigint) (in_ihi-in_ilo+1) * (in_jhi-in_jlo+1)`, fft2d.cpp:271. -/
def area64 (b : Box2) : Option Int := do
  let i ← len32 b.ilo b.ihi
  let j ← len32 b.jlo b.jhi
  mul64 i j

/-- The error checks of `setup`, fft2d.cpp:251-276, on rank `me`. -/
def setupCheck2_32 (P me : Nat) (a : Args2) : Option (Option SetupErr) :=
  if a.nfast < 2 ∨ a.nslow < 2 then some (some .dimension)
  else if !primeFactorable a.nfast || !primeFactorable a.nslow then some (some .factorable)
  else
    (badIndices2_32 a.nfast a.nslow (a.ins me)).bind fun _ =>
    if allMax P (fun r => badIndices2 a.nfast a.nslow (a.ins r)) then some (some .indices)
    else
      (area64 (a.ins me)).bind fun _ =>
      (ck64 (allSum P fun r => boxSize2 (a.ins r))).bind fun nall =>
      (mul64 a.nfast a.nslow).map fun t => if nall ≠ t then some .tiling else none

/-- `factor(nprocs)` and `npbrick1`, `npbrick2`, fft2d.cpp:304-319. -/
def setupBrick2_32 (P me : Nat) (a : Args2) (exchange : Int) : Option (Nat × Nat) :=
  (factor32 P).bind fun _ =>
  if exchange ≠ 0 then do
    let b ← (procGrid2_32 a.fp P a.nfast.toNat a.nslow.toNat).join
    let _ ← gridCoords2_32 b me
    some b
  else some (0, 0)

/-- `fast_ilo`, ..., fft2d.cpp:330-342. -/
def fastBox2_32 (P : Nat) (a : Args2) (me : Nat) : Option Box2 :=
  if preflag2 P a = false then some (a.ins me)
  else do
    let ihi ← sub32 a.nfast 1
    let jlo ← blockLo32 me a.nslow P
    let jhi ← blockHi32 me a.nslow P
    some { ilo := 0, ihi, jlo, jhi }

/-- `slow_ilo`, ..., fft2d.cpp:353-363. -/
def slowBox2_32 (P : Nat) (a : Args2) (me : Nat) : Option Box2 :=
  if slowflag2 P a = false then some (a.outs me)
  else do
    let ilo ← blockLo32 me a.nfast P
    let ihi ← blockHi32 me a.nfast P
    let jhi ← sub32 a.nslow 1
    some { ilo, ihi, jlo := 0, jhi }

/-- `brick_ilo`, ..., fft2d.cpp:381-386. -/
def brickBox2_32 (a : Args2) (g : Nat × Nat) (me : Nat) : Option Box2 := do
  let ip ← gridCoords2_32 g me
  let ilo ← blockLo32 ip.1 a.nfast g.1
  let ihi ← blockHi32 ip.1 a.nfast g.1
  let jlo ← blockLo32 ip.2 a.nslow g.2
  let jhi ← blockHi32 ip.2 a.nslow g.2
  some { ilo, ihi, jlo, jhi }

/-- `(ihi-ilo+1) * (jhi-jlo+1)` in `int`, fft2d.cpp:400-406. -/
def boxSize2_32 (b : Box2) : Option Int := do
  let i ← len32 b.ilo b.ihi
  let j ← len32 b.jlo b.jhi
  mul32 i j

/-- `new Remap2d(world)`, ..., `setup(...)`, see `newRemap2`. -/
def newRemap2_32 (sz : Int) (c : Create2) (inst : Nat) (collective : Bool) (ins outs : Nat → Box2)
    (permute : Int) : Option (Remap2 α) :=
  (remapSetup32 (dim2_32 sz) c.P c.me ins outs 2 permute c.st.packflag collective).map fun o =>
    { obj := o, collective, inst }

/-- `FFT2d::remap_forward_create`, fft2d.cpp:1078-1155: the remaps, and `sendsize`, `recvsize`. -/
def forwardCreate2_32 (sz : Int) (c : Create2) (s : Int × Int) : Option (Forward2 α × (Int × Int)) := do
  -- 1084-1097
  let (prefast, s) ←
    if preflag2 c.P c.a then do
      let r ← newRemap2_32 sz c 0 c.bp c.a.ins c.fast 0
      some (some { remap2d := r, extra := none }, bump2 s r)
    else some (none, s)
  -- 1103-1135
  let (fastslow, s) ←
    if c.st.exchange = 0 then do
      let r ← newRemap2_32 sz c 1 c.pp c.fast c.slow 1
      some (({ remap2d := r, extra := none } : RemapPair2 α), bump2 s r)
    else do
      let r ← newRemap2_32 sz c 1 c.bp c.fast c.brick 0
      let s := bump2 s r
      let x ← newRemap2_32 sz c 2 c.bp c.brick c.slow 1
      some (({ remap2d := r, extra := some x } : RemapPair2 α), bump2 s x)
  -- 1140-1154
  let (postslow, s) ←
    if postflag2 c.P c.a then do
      let np ← newpermute2 c.a.permute
      let r ← newRemap2_32 sz c 3 c.bp (fun r => ji (c.slow r)) (fun r => ji (c.a.outs r)) np
      some (some { remap2d := r, extra := none }, bump2 s r)
    else some (none, s)
  some ({ prefast, fastslow, postslow }, s)

/-- The remap `remap_preslow` for each value of `permute`, fft2d.cpp:1170-1190.  For other values
`remap2d` stays `NULL`, which `remap_memory` (1275) dereferences. -/
def newPreslow2_32 (sz : Int) (c : Create2) : Option (Remap2 α) :=
  if c.a.permute = 0 then newRemap2_32 sz c 4 c.bp c.a.outs c.slow 1
  else if c.a.permute = 1 then
    newRemap2_32 sz c 4 c.bp (fun r => ji (c.a.outs r)) (fun r => ji (c.slow r)) 0
  else none

/-- `FFT2d::remap_inverse_create`, fft2d.cpp:1161-1247. -/
def inverseCreate2_32 (sz : Int) (c : Create2) (s : Int × Int) : Option (Inverse2 α × (Int × Int)) := do
  -- 1168-1192
  let (preslow, s) ←
    if postflag2 c.P c.a then do
      let r ← newPreslow2_32 sz c
      some (some { remap2d := r, extra := none }, bump2 s r)
    else some (none, s)
  -- 1198-1230
  let (slowfast, s) ←
    if c.st.exchange = 0 then do
      let r ← newRemap2_32 sz c 5 c.pp (fun r => ji (c.slow r)) (fun r => ji (c.fast r)) 1
      some (({ remap2d := r, extra := none } : RemapPair2 α), bump2 s r)
    else do
      let r ← newRemap2_32 sz c 5 c.bp (fun r => ji (c.slow r)) (fun r => ji (c.brick r)) 0
      let s := bump2 s r
      let x ← newRemap2_32 sz c 6 c.bp (fun r => ji (c.brick r)) (fun r => ji (c.fast r)) 1
      some (({ remap2d := r, extra := some x } : RemapPair2 α), bump2 s x)
  -- 1234-1246
  let (postfast, s) ←
    if preflag2 c.P c.a then do
      let r ← newRemap2_32 sz c 7 c.bp c.fast c.a.ins 0
      some (some { remap2d := r, extra := none }, bump2 s r)
    else some (none, s)
  some ({ preslow, slowfast, postfast }, s)

/-- `fft->n = (hi-lo+1); fft->total = fft->n * fft->length;`, fft2d.cpp:420-426. -/
def lines2_32 (lo hi length : Int) : Option (Int × Int) := do
  let n ← len32 lo hi
  let total ← mul32 n length
  some (n, total)

/-- fft2d.cpp:417-426 and `setup_ffts`, 1452-1466. -/
def setupFfts2_32 (c : Create2) (fast slow : Box2) : Option (Fft1d × Fft1d) := do
  let (n1, t1) ← lines2_32 fast.jlo fast.jhi c.a.nfast
  let (n2, t2) ← lines2_32 slow.ilo slow.ihi c.a.nslow
  let nfast := c.a.nfast
  let nslow := c.a.nslow
  let fastF ← kissAlloc32 nfast.toNat false
  let fastB ← kissAlloc32 nfast.toNat true
  let (slowF, slowB) ←
    if nslow = nfast then some (fastF, fastB)
    else do
      let f ← kissAlloc32 nslow.toNat false
      let b ← kissAlloc32 nslow.toNat true
      some (f, b)
  some ({ n := n1, length := nfast, total := t1, planForward := fastF, planBackward := fastB },
    { n := n2, length := nslow, total := t2, planForward := slowF, planBackward := slowB })

/-- `FFT2d::setup` on rank `me`, after the check of the arguments. -/
def setupMain2_32 (sz : Int) (c : Create2) : Option (Fft2 α) := do
  let fast ← fastBox2_32 c.P c.a c.me
  let slow ← slowBox2_32 c.P c.a c.me
  let brick ← if c.st.exchange ≠ 0 then brickBox2_32 c.a c.g c.me else some ⟨0, -1, 0, -1⟩
  let (f, s) ← forwardCreate2_32 sz c (0, 0)
  let same := inoutSame2 c.P c.a
  let (inv, s) ←
    if same then some ((none : Option (Inverse2 α)), s)
    else (inverseCreate2_32 sz c s).map fun x => (some x.1, x.2)
  let insize ← boxSize2_32 (c.a.ins c.me)
  let outsize ← boxSize2_32 (c.a.outs c.me)
  let fastsize ← boxSize2_32 fast
  let slowsize ← boxSize2_32 slow
  let bricksize ← if c.st.exchange ≠ 0 then boxSize2_32 brick else some 0
  let fftsize := max (max (max insize outsize) fastsize) slowsize
  let fftsize := if c.st.exchange ≠ 0 then max fftsize bricksize else fftsize
  let (f1, f2) ← setupFfts2_32 c fast slow
  let t ← mul64 c.a.nfast c.a.nslow
  some
    { same
      prefast := f.prefast, fastslow := some f.fastslow, postslow := f.postslow
      preslow := inv.bind Inverse2.preslow, slowfast := inv.map Inverse2.slowfast
      postfast := inv.bind Inverse2.postfast
      insize, outsize, fftsize, sendsize := s.1, recvsize := s.2
      fftFast := f1, fftSlow := f2
      norm := 1 / (t : ℝ)
      normnum := outsize }

/-- `FFT2d::setup`, fft2d.cpp:227-463, on rank `me` of `P`. -/
def fft2Setup32 (w sz : Int) (P me : Nat) (a : Args2) (st : Settings) :
    Option (Except SetupErr (Fft2 α)) :=
  (setupCheck2_32 P me a).bind fun e =>
  match e with
  | some e => some (.error e)
  | none => do
    let g ← setupBrick2_32 P me a st.exchange
    let f ← setupMain2_32 sz { w, P, me, a, st, g }
    some (.ok f)

/-! ## compute -/

/-- `remap->remap2d->remap(in,out,sendbuf,recvbuf)`. -/
def Remap2.prog32 (r : Remap2 α) (ai ao : Nat) : List (Instr α) := r.obj.prog32 r.collective r.inst ai ao

/-- `FFT2d::remap`, fft2d.cpp:1055-1060: both remaps get the same `in` and `out`. -/
def RemapPair2.prog32 (p : RemapPair2 α) (ai ao : Nat) : List (Instr α) :=
  p.remap2d.prog32 ai ao ++ match p.extra with
    | none => []
    | some x => x.prog32 ai ao

/-- `if (plan) remap(in,out,plan)`. -/
def remapIf2_32 (p : Option (RemapPair2 α)) (ai ao : Nat) : List (Instr α) :=
  match p with
  | none => []
  | some p => p.prog32 ai ao

/-- `if (plan) remap(in,out,plan); else if (in != out) memcpy(out,in,n*sizeof(FFT_SCALAR));`,
fft2d.cpp:535-536, 550-551, 602-603, 611-612, 638-639, 648-649. -/
def remapOrCopy2_32 (p : Option (RemapPair2 ℝ)) (n : Int) (ai ao : Nat) : List (Instr ℝ) :=
  match p with
  | none => if ai ≠ ao then [.loc (memcpyLoc ai ao n)] else []
  | some p => p.prog32 ai ao

/-- `FFT2d::compute`, fft2d.cpp:526-565, as the program of one rank.  `J 0`, `J 1` are used by the fast
and slow FFTs.  The checks of `setupflag` and `setup_memory_flag` are in `Lifecycle.lean`. -/
def Fft2.compute32 (f : Fft2 ℝ) (J : Nat → Junk) (scaled remaponly : Bool) (flag : Int) (ai ao : Nat) :
    List (Instr ℝ) :=
  (if flag = 1 ∨ f.same then
    remapOrCopy2_32 f.prefast f.insize ai ao ++
    (if remaponly then
      remapIf2_32 f.fastslow ao ao
    else
      [.loc (performLoc32 (J 0) flag f.fftFast ao)] ++ remapIf2_32 f.fastslow ao ao ++
      [.loc (performLoc32 (J 1) flag f.fftSlow ao)]) ++
    remapIf2_32 f.postslow ao ao
  else
    remapOrCopy2_32 f.preslow f.outsize ai ao ++
    (if remaponly then
      remapIf2_32 f.slowfast ao ao
    else
      [.loc (performLoc32 (J 1) flag f.fftSlow ao)] ++ remapIf2_32 f.slowfast ao ao ++
      [.loc (performLoc32 (J 0) flag f.fftFast ao)]) ++
    -- `remap(in,out,remap_postfast)`, line 561
    remapIf2_32 f.postfast ai ao) ++
  (if flag = -1 ∧ scaled ∧ ¬ remaponly then [.loc (scaleLoc f.norm f.normnum ao)] else [])

/-- `FFT2d::only_1d_ffts`, fft2d.cpp:574-581. -/
def Fft2.only1d32 (f : Fft2 ℝ) (J : Nat → Junk) (flag : Int) (ai : Nat) : List (Instr ℝ) :=
  [.loc (performLoc32 (J 0) flag f.fftFast ai), .loc (performLoc32 (J 1) flag f.fftSlow ai)]

/-- `FFT2d::only_remaps`, fft2d.cpp:592-618. -/
def Fft2.onlyRemaps32 (f : Fft2 ℝ) (flag : Int) (ai ao : Nat) : List (Instr ℝ) :=
  if flag = 1 ∨ f.same then
    remapOrCopy2_32 f.prefast f.insize ai ao ++ remapIf2_32 f.fastslow ao ao ++ remapIf2_32 f.postslow ao ao
  else
    remapOrCopy2_32 f.preslow f.outsize ai ao ++ remapIf2_32 f.slowfast ao ao ++ remapIf2_32 f.postfast ao ao

/-- `FFT2d::only_one_remap`, fft2d.cpp:630-656. -/
def Fft2.onlyOneRemap32 (f : Fft2 ℝ) (flag which : Int) (ai ao : Nat) : List (Instr ℝ) :=
  if flag = 1 ∨ f.same then
    if which = 1 then remapOrCopy2_32 f.prefast f.insize ai ao
    else if which = 2 then remapIf2_32 f.fastslow ai ao
    else if which = 3 then remapIf2_32 f.postslow ai ao
    else []
  else
    if which = 3 then remapOrCopy2_32 f.preslow f.outsize ai ao
    else if which = 2 then remapIf2_32 f.slowfast ai ao
    else if which = 1 then remapIf2_32 f.postfast ai ao
    else []

end FftMpi
