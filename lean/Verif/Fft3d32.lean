import Verif.Fft3d
import Verif.FftInt
import Verif.Kiss32
import Verif.Remap3d32

/-!
# `FFT3d::setup` and `compute` with 32-bit integers

The functions of `Fft3dSetup.lean` and `Fft3d.lean` again, with the operations of `CInt.lean` and
`FftInt.lean` for every expression of type `int` or `bigint`; `none` now also stands for overflow.
`sz = sizeof(FFT_SCALAR)`.

What the other ranks contribute to `MPI_Allreduce` and to the gathered boxes are the values of the model
with unbounded integers; they are the true ones as long as no rank overflows, which is what the theorems
show for all ranks.

The transforms are those of `Kiss32.lean`.  Not covered: `memusage` (`int64_t`), the conversion of sizes to
`size_t` for `memcpy` and `smalloc`.
-/

noncomputable section

namespace FftMpi

variable {α : Type}

/-! ## setup -/

/-- `flag` of the index check, fft3d.cpp:259-262; `||` stops at the first true operand. -/
def badIndices32 (nfast nmid nslow : Int) (b : Box3) : Option Bool :=
  ((add32 b.ihi 1).bind fun i =>
    if b.ilo > i then some true
    else (add32 b.jhi 1).bind fun j =>
      if b.jlo > j then some true
      else (add32 b.khi 1).map fun k => decide (b.klo > k)).map fun x =>
    x || decide (b.ilo < 0 ∨ b.jlo < 0 ∨ b.klo < 0) ||
      decide (b.ihi ≥ nfast ∨ b.jhi ≥ nmid ∨ b.khi ≥ nslow)

/-- `(bigint) (in_ihi-in_ilo+1) * (in_jhi-in_jlo+1) * (in_khi-in_klo+1)`, fft3d.cpp:268. -/
def volume64 (b : Box3) : Option Int := do
  let i ← len32 b.ilo b.ihi
  let j ← len32 b.jlo b.jhi
  let k ← len32 b.klo b.khi
  let t ← mul64 i j
  mul64 t k

/-- The error checks of `setup`, fft3d.cpp:247-275, on rank `me`. -/
def setupCheck32 (P me : Nat) (a : Args3) : Option (Option SetupErr) :=
  if a.nfast < 2 ∨ a.nmid < 2 ∨ a.nslow < 2 then some (some .dimension)
  else if !primeFactorable a.nfast || !primeFactorable a.nmid || !primeFactorable a.nslow then
    some (some .factorable)
  else
    (badIndices32 a.nfast a.nmid a.nslow (a.ins me)).bind fun _ =>
    if allMax P (fun r => badIndices a.nfast a.nmid a.nslow (a.ins r)) then some (some .indices)
    else
      (volume64 (a.ins me)).bind fun _ =>
      (ck64 (allSum P fun r => boxSize (a.ins r))).bind fun nall =>
      (mul64 a.nfast a.nmid).bind fun t => (mul64 t a.nslow).map fun t =>
        if nall ≠ t then some .tiling else none

/-- fft3d.cpp:303-316; the coordinates of the rank are computed with each grid. -/
def setupGrids32 (P me : Nat) (a : Args3) (exchange : Int) : Option Grids := do
  let nfast := a.nfast.toNat
  let nmid := a.nmid.toNat
  let nslow := a.nslow.toNat
  let fast ← (procGrid32 a.fp P 1 nmid nslow).join
  let _ ← gridCoords32 fast me
  let mid ← (procGrid32 a.fp P nfast 1 nslow).join
  let _ ← gridCoords32 mid me
  let slow ← (procGrid32 a.fp P nfast nmid 1).join
  let _ ← gridCoords32 slow me
  let brick ←
    if exchange ≠ 0 then do
      let b ← (procGrid32 a.fp P nfast nmid nslow).join
      let _ ← gridCoords32 b me
      some b
    else some (0, 0, 0)
  some { fast, mid, slow, brick }

/-- `fast_ilo`, ..., fft3d.cpp:326-342. -/
def fastBox32 (P : Nat) (a : Args3) (g : Grids) (me : Nat) : Option Box3 :=
  if preflag P a = false then some (a.ins me)
  else do
    let ip ← gridCoords32 g.fast me
    let ihi ← sub32 a.nfast 1
    let jlo ← blockLo32 ip.2.1 a.nmid g.fast.2.1
    let jhi ← blockHi32 ip.2.1 a.nmid g.fast.2.1
    let klo ← blockLo32 ip.2.2 a.nslow g.fast.2.2
    let khi ← blockHi32 ip.2.2 a.nslow g.fast.2.2
    some { ilo := 0, ihi, jlo, jhi, klo, khi }

/-- `mid_ilo`, ..., fft3d.cpp:348-353. -/
def midBox32 (a : Args3) (g : Grids) (me : Nat) : Option Box3 := do
  let ip ← gridCoords32 g.mid me
  let ilo ← blockLo32 ip.1 a.nfast g.mid.1
  let ihi ← blockHi32 ip.1 a.nfast g.mid.1
  let jhi ← sub32 a.nmid 1
  let klo ← blockLo32 ip.2.2 a.nslow g.mid.2.2
  let khi ← blockHi32 ip.2.2 a.nslow g.mid.2.2
  some { ilo, ihi, jlo := 0, jhi, klo, khi }

/-- `slow_ilo`, ..., fft3d.cpp:364-378. -/
def slowBox32 (P : Nat) (a : Args3) (g : Grids) (me : Nat) : Option Box3 :=
  if slowflag P a = false then some (a.outs me)
  else do
    let ip ← gridCoords32 g.slow me
    let ilo ← blockLo32 ip.1 a.nfast g.slow.1
    let ihi ← blockHi32 ip.1 a.nfast g.slow.1
    let jlo ← blockLo32 ip.2.1 a.nmid g.slow.2.1
    let jhi ← blockHi32 ip.2.1 a.nmid g.slow.2.1
    let khi ← sub32 a.nslow 1
    some { ilo, ihi, jlo, jhi, klo := 0, khi }

/-- `brick_ilo`, ..., fft3d.cpp:397-404. -/
def brickBox32 (a : Args3) (g : Grids) (me : Nat) : Option Box3 := do
  let ip ← gridCoords32 g.brick me
  let ilo ← blockLo32 ip.1 a.nfast g.brick.1
  let ihi ← blockHi32 ip.1 a.nfast g.brick.1
  let jlo ← blockLo32 ip.2.1 a.nmid g.brick.2.1
  let jhi ← blockHi32 ip.2.1 a.nmid g.brick.2.1
  let klo ← blockLo32 ip.2.2 a.nslow g.brick.2.2
  let khi ← blockHi32 ip.2.2 a.nslow g.brick.2.2
  some { ilo, ihi, jlo, jhi, klo, khi }

/-- `(ihi-ilo+1) * (jhi-jlo+1) * (khi-klo+1)` in `int`, fft3d.cpp:418-431. -/
def boxSize32 (b : Box3) : Option Int := do
  let i ← len32 b.ilo b.ihi
  let j ← len32 b.jlo b.jhi
  let t ← mul32 i j
  let k ← len32 b.klo b.khi
  mul32 t k

/-- `new Remap3d(world)`, ..., `setup(...)`, see `newRemap`. -/
def newRemap32 (sz : Int) (c : Create) (inst : Nat) (collective : Bool) (ins outs : Nat → Box3)
    (permute : Int) : Option (Remap3 α) :=
  (remapSetup32 (dim3_32 sz) c.P c.me ins outs 2 permute c.st.packflag collective).map fun o =>
    { obj := o, collective, inst }

/-- `FFT3d::remap_forward_create`, fft3d.cpp:1139-1255: the remaps, and `sendsize`, `recvsize`. -/
def forwardCreate32 (sz : Int) (c : Create) (s : Int × Int) : Option (Forward α × (Int × Int)) := do
  -- 1145-1158
  let (prefast, s) ←
    if preflag c.P c.a then do
      let r ← newRemap32 sz c 0 c.bp c.a.ins c.fast 0
      some (some { remap3d := r, extra := none }, bump s r)
    else some (none, s)
  -- 1163-1195
  let (fastmid, s) ←
    if c.st.exchange = 0 then do
      let r ← newRemap32 sz c 1 c.pp c.fast c.mid 1
      some (({ remap3d := r, extra := none } : RemapPair α), bump s r)
    else do
      let r ← newRemap32 sz c 1 c.bp c.fast c.brick 0
      let s := bump s r
      let x ← newRemap32 sz c 2 c.bp c.brick c.mid 1
      some (({ remap3d := r, extra := some x } : RemapPair α), bump s x)
  -- 1201-1233
  let (midslow, s) ←
    if c.st.exchange = 0 then do
      let r ← newRemap32 sz c 3 c.pp (fun r => jki (c.mid r)) (fun r => jki (c.slow r)) 1
      some (({ remap3d := r, extra := none } : RemapPair α), bump s r)
    else do
      let r ← newRemap32 sz c 3 c.bp (fun r => jki (c.mid r)) (fun r => jki (c.brick r)) 0
      let s := bump s r
      let x ← newRemap32 sz c 4 c.bp (fun r => jki (c.brick r)) (fun r => jki (c.slow r)) 1
      some (({ remap3d := r, extra := some x } : RemapPair α), bump s x)
  -- 1238-1254
  let (postslow, s) ←
    if postflag c.P c.a c.g then do
      let np ← newpermute c.a.permute
      let r ← newRemap32 sz c 5 c.bp (fun r => kij (c.slow r)) (fun r => kij (c.a.outs r)) np
      some (some { remap3d := r, extra := none }, bump s r)
    else some (none, s)
  some ({ prefast, fastmid, midslow, postslow }, s)

/-- The remap `remap_preslow` for each value of `permute`, fft3d.cpp:1271-1300.  For other values
`remap3d` is not assigned. -/
def newPreslow32 (sz : Int) (c : Create) : Option (Remap3 α) :=
  if c.a.permute = 0 then newRemap32 sz c 6 c.bp c.a.outs c.slow 2
  else if c.a.permute = 1 then
    newRemap32 sz c 6 c.bp (fun r => jki (c.a.outs r)) (fun r => jki (c.slow r)) 1
  else if c.a.permute = 2 then
    newRemap32 sz c 6 c.bp (fun r => kij (c.a.outs r)) (fun r => kij (c.slow r)) 0
  else none

/-- `FFT3d::remap_inverse_create`, fft3d.cpp:1261-1392.  The sizes of the second remap of `remap_midfast`
are ignored (no `MAX` after lines 1371-1374). -/
def inverseCreate32 (sz : Int) (c : Create) (s : Int × Int) : Option (Inverse α × (Int × Int)) := do
  -- 1269-1302
  let (preslow, s) ←
    if postflag c.P c.a c.g then do
      let r ← newPreslow32 sz c
      some (some { remap3d := r, extra := none }, bump s r)
    else some (none, s)
  -- 1309-1340
  let (slowmid, s) ←
    if c.st.exchange = 0 then do
      let r ← newRemap32 sz c 7 c.pp (fun r => kij (c.slow r)) (fun r => kij (c.mid r)) 2
      some (({ remap3d := r, extra := none } : RemapPair α), bump s r)
    else do
      let r ← newRemap32 sz c 7 c.bp (fun r => kij (c.slow r)) (fun r => kij (c.brick r)) 0
      let s := bump s r
      let x ← newRemap32 sz c 8 c.bp (fun r => kij (c.brick r)) (fun r => kij (c.mid r)) 2
      some (({ remap3d := r, extra := some x } : RemapPair α), bump s x)
  -- 1346-1375
  let (midfast, s) ←
    if c.st.exchange = 0 then do
      let r ← newRemap32 sz c 9 c.pp (fun r => jki (c.mid r)) (fun r => jki (c.fast r)) 2
      some (({ remap3d := r, extra := none } : RemapPair α), bump s r)
    else do
      let r ← newRemap32 sz c 9 c.bp (fun r => jki (c.mid r)) (fun r => jki (c.brick r)) 0
      let s := bump s r
      let x ← newRemap32 sz c 10 c.bp (fun r => jki (c.brick r)) (fun r => jki (c.fast r)) 2
      some (({ remap3d := r, extra := some x } : RemapPair α), s)
  -- 1379-1391
  let (postfast, s) ←
    if preflag c.P c.a then do
      let r ← newRemap32 sz c 11 c.bp c.fast c.a.ins 0
      some (some { remap3d := r, extra := none }, bump s r)
    else some (none, s)
  some ({ preslow, slowmid, midfast, postfast }, s)

/-- `fft->n = (ahi-alo+1) * (bhi-blo+1); fft->total = fft->n * fft->length;`, fft3d.cpp:447-457. -/
def lines32 (alo ahi blo bhi length : Int) : Option (Int × Int) := do
  let a ← len32 alo ahi
  let b ← len32 blo bhi
  let n ← mul32 a b
  let total ← mul32 n length
  some (n, total)

/-- fft3d.cpp:443-457 and `setup_ffts`, 1643-1668. -/
def setupFfts32 (c : Create) (fast mid slow : Box3) : Option (Fft1d × Fft1d × Fft1d) := do
  let (n1, t1) ← lines32 fast.jlo fast.jhi fast.klo fast.khi c.a.nfast
  let (n2, t2) ← lines32 mid.ilo mid.ihi mid.klo mid.khi c.a.nmid
  let (n3, t3) ← lines32 slow.ilo slow.ihi slow.jlo slow.jhi c.a.nslow
  let nfast := c.a.nfast
  let nmid := c.a.nmid
  let nslow := c.a.nslow
  let fastF ← kissAlloc32 nfast.toNat false
  let fastB ← kissAlloc32 nfast.toNat true
  let (midF, midB) ←
    if nmid = nfast then some (fastF, fastB)
    else do
      let f ← kissAlloc32 nmid.toNat false
      let b ← kissAlloc32 nmid.toNat true
      some (f, b)
  let (slowF, slowB) ←
    if nslow = nfast then some (fastF, fastB)
    else if nslow = nmid then some (midF, midB)
    else do
      let f ← kissAlloc32 nslow.toNat false
      let b ← kissAlloc32 nslow.toNat true
      some (f, b)
  some ({ n := n1, length := nfast, total := t1, planForward := fastF, planBackward := fastB },
    { n := n2, length := nmid, total := t2, planForward := midF, planBackward := midB },
    { n := n3, length := nslow, total := t3, planForward := slowF, planBackward := slowB })

/-- `FFT3d::setup` on rank `me`, after the check of the arguments. -/
def setupMain32 (sz : Int) (c : Create) : Option (Fft3 α) := do
  let fast ← fastBox32 c.P c.a c.g c.me
  let mid ← midBox32 c.a c.g c.me
  let slow ← slowBox32 c.P c.a c.g c.me
  let brick ← if c.st.exchange ≠ 0 then brickBox32 c.a c.g c.me else some ⟨0, -1, 0, -1, 0, -1⟩
  let (f, s) ← forwardCreate32 sz c (0, 0)
  let same := inoutSame c.P c.a
  let (inv, s) ←
    if same then some ((none : Option (Inverse α)), s)
    else (inverseCreate32 sz c s).map fun x => (some x.1, x.2)
  let insize ← boxSize32 (c.a.ins c.me)
  let outsize ← boxSize32 (c.a.outs c.me)
  let fastsize ← boxSize32 fast
  let midsize ← boxSize32 mid
  let slowsize ← boxSize32 slow
  let bricksize ← if c.st.exchange ≠ 0 then boxSize32 brick else some 0
  let fftsize := max (max (max (max insize outsize) fastsize) midsize) slowsize
  let fftsize := if c.st.exchange ≠ 0 then max fftsize bricksize else fftsize
  let (f1, f2, f3) ← setupFfts32 c fast mid slow
  let t ← mul64 c.a.nfast c.a.nmid
  let t ← mul64 t c.a.nslow
  some
    { same
      prefast := f.prefast, fastmid := some f.fastmid, midslow := some f.midslow, postslow := f.postslow
      preslow := inv.bind Inverse.preslow, slowmid := inv.map Inverse.slowmid
      midfast := inv.map Inverse.midfast, postfast := inv.bind Inverse.postfast
      insize, outsize, fftsize, sendsize := s.1, recvsize := s.2
      fftFast := f1, fftMid := f2, fftSlow := f3
      norm := 1 / (t : ℝ)
      normnum := outsize }

/-- `FFT3d::setup`, fft3d.cpp:219-494, on rank `me` of `P`. -/
def fft3Setup32 (sz : Int) (P me : Nat) (a : Args3) (st : Settings) :
    Option (Except SetupErr (Fft3 α)) :=
  (setupCheck32 P me a).bind fun e =>
  match e with
  | some e => some (.error e)
  | none => do
    let g ← setupGrids32 P me a st.exchange
    let f ← setupMain32 sz { P, me, a, st, g }
    some (.ok f)

/-! ## compute -/

/-- `for (int p = p0; p < e; p += st)` -/
def forInt32 {σ : Type} (p e st : Int) (body : Int → σ → Option σ) (s : σ) : Option σ :=
  if _h : p < e then
    if _hs : 0 < st then
      (body p s).bind fun s' => (add32 p st).bind fun _ => forInt32 (p+st) e st body s'
    else none
  else some s
termination_by (e - p).toNat
decreasing_by omega

/-- `FFT3d::perform_ffts`, fft3d.cpp:1670-1684. -/
def performFfts32 (J : Junk) (flag : Int) (plan : Fft1d) (data : Mem ℂ) : Option (Mem ℂ) :=
  if flag = 1 then
    forInt32 0 plan.total plan.length (fun offset d =>
      kissIn32 plan.planForward (J offset).1 (J offset).2 d offset 1) data
  else
    forInt32 0 plan.total plan.length (fun offset d =>
      kissIn32 plan.planBackward (J offset).1 (J offset).2 d offset 1) data

/-- `perform_ffts((FFT_DATA *) data,flag,plan)` on user array `ao`. -/
def performLoc32 (J : Junk) (flag : Int) (plan : Fft1d) (ao : Nat) (m : LMem ℝ) : Option (LMem ℝ) :=
  (performFfts32 J flag plan (cview (m.ub ao))).map fun c =>
    { m with ub := Function.update m.ub ao (cstore (m.ub ao) c) }

/-- `remap->remap3d->remap(in,out,sendbuf,recvbuf)`. -/
def Remap3.prog32 (r : Remap3 α) (ai ao : Nat) : List (Instr α) := r.obj.prog32 r.collective r.inst ai ao

/-- `FFT3d::remap`, fft3d.cpp:1116-1121. -/
def RemapPair.prog32 (p : RemapPair α) (ai ao : Nat) : List (Instr α) :=
  p.remap3d.prog32 ai ao ++ match p.extra with
    | none => []
    | some x => x.prog32 ai ao

/-- `if (plan) remap(in,out,plan)`. -/
def remapIf32 (p : Option (RemapPair α)) (ai ao : Nat) : List (Instr α) :=
  match p with
  | none => []
  | some p => p.prog32 ai ao

/-- See `remapOrCopy`. -/
def remapOrCopy32 (p : Option (RemapPair ℝ)) (n : Int) (ai ao : Nat) : List (Instr ℝ) :=
  match p with
  | none => if ai ≠ ao then [.loc (memcpyLoc ai ao n)] else []
  | some p => p.prog32 ai ao

/-- `FFT3d::compute`, fft3d.cpp:560-605, as the program of one rank.  `J 0`, `J 1`, `J 2` are used by the
fast, mid and slow FFTs.  The checks of `setupflag` and `setup_memory_flag` are in `Lifecycle.lean`. -/
def Fft3.compute32 (f : Fft3 ℝ) (J : Nat → Junk) (scaled remaponly : Bool) (flag : Int) (ai ao : Nat) :
    List (Instr ℝ) :=
  (if flag = 1 ∨ f.same then
    remapOrCopy32 f.prefast f.insize ai ao ++
    (if remaponly then
      remapIf32 f.fastmid ao ao ++ remapIf32 f.midslow ao ao
    else
      [.loc (performLoc32 (J 0) flag f.fftFast ao)] ++ remapIf32 f.fastmid ao ao ++
      [.loc (performLoc32 (J 1) flag f.fftMid ao)] ++ remapIf32 f.midslow ao ao ++
      [.loc (performLoc32 (J 2) flag f.fftSlow ao)]) ++
    remapIf32 f.postslow ao ao
  else
    remapOrCopy32 f.preslow f.outsize ai ao ++
    (if remaponly then
      remapIf32 f.slowmid ao ao ++ remapIf32 f.midfast ao ao
    else
      [.loc (performLoc32 (J 2) flag f.fftSlow ao)] ++ remapIf32 f.slowmid ao ao ++
      [.loc (performLoc32 (J 1) flag f.fftMid ao)] ++ remapIf32 f.midfast ao ao ++
      [.loc (performLoc32 (J 0) flag f.fftFast ao)]) ++
    -- `remap(in,out,remap_postfast)`, line 601
    remapIf32 f.postfast ai ao) ++
  (if flag = -1 ∧ scaled ∧ ¬ remaponly then [.loc (scaleLoc f.norm f.normnum ao)] else [])

/-- `FFT3d::only_1d_ffts`, fft3d.cpp:614-622. -/
def Fft3.only1d32 (f : Fft3 ℝ) (J : Nat → Junk) (flag : Int) (ai : Nat) : List (Instr ℝ) :=
  [.loc (performLoc32 (J 0) flag f.fftFast ai), .loc (performLoc32 (J 1) flag f.fftMid ai),
   .loc (performLoc32 (J 2) flag f.fftSlow ai)]

/-- `FFT3d::only_remaps`, fft3d.cpp:633-661. -/
def Fft3.onlyRemaps32 (f : Fft3 ℝ) (flag : Int) (ai ao : Nat) : List (Instr ℝ) :=
  if flag = 1 ∨ f.same then
    remapOrCopy32 f.prefast f.insize ai ao ++ remapIf32 f.fastmid ao ao ++ remapIf32 f.midslow ao ao ++
      remapIf32 f.postslow ao ao
  else
    remapOrCopy32 f.preslow f.outsize ai ao ++ remapIf32 f.slowmid ao ao ++ remapIf32 f.midfast ao ao ++
      remapIf32 f.postfast ao ao

/-- `FFT3d::only_one_remap`, fft3d.cpp:673-704. -/
def Fft3.onlyOneRemap32 (f : Fft3 ℝ) (flag which : Int) (ai ao : Nat) : List (Instr ℝ) :=
  if flag = 1 ∨ f.same then
    if which = 1 then remapOrCopy32 f.prefast f.insize ai ao
    else if which = 2 then remapIf32 f.fastmid ai ao
    else if which = 3 then remapIf32 f.midslow ai ao
    else if which = 4 then remapIf32 f.postslow ai ao
    else []
  else
    if which = 4 then remapOrCopy32 f.preslow f.outsize ai ao
    else if which = 3 then remapIf32 f.slowmid ai ao
    else if which = 2 then remapIf32 f.midfast ai ao
    else if which = 1 then remapIf32 f.postfast ai ao
    else []

end FftMpi
