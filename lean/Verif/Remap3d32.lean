import Verif.Remap32
import Verif.Remap3d
import Verif.Pack3d32

/-!
# The 3d parts of `Remap3d` with 32-bit integers

The expressions of `Remap3d.lean` in the order in which C evaluates them.  The members `isize`, `jsize`,
`ksize` are computed once, with a check (`extent3_32`, `collide3_32`), and then read.
-/

namespace FftMpi

variable {α : Type}

/-- `hi - lo + 1` -/
def len32 (lo hi : Int) : Option Int := (sub32 hi lo).bind fun t => add32 t 1

/-- The sizes of an extent, remap3d.cpp:192-212. -/
def extent3_32 (b : Box3) : Bool :=
  (len32 b.ilo b.ihi).isSome && (len32 b.jlo b.jhi).isSome && (len32 b.klo b.khi).isSome

/-- `collide`, remap3d.cpp:720-740. -/
def collide3_32 (b1 b2 : Box3) : Option (Option Box3) :=
  let ov : Box3 :=
    { ilo := max b1.ilo b2.ilo, ihi := min b1.ihi b2.ihi
      jlo := max b1.jlo b2.jlo, jhi := min b1.jhi b2.jhi
      klo := max b1.klo b2.klo, khi := min b1.khi b2.khi }
  if ov.ilo > ov.ihi ∨ ov.jlo > ov.jhi ∨ ov.klo > ov.khi then some none
  else if extent3_32 ov then some (some ov) else none

/-- `nqty*isize*jsize*ksize`, remap3d.cpp:270, 390, 426. -/
def size3_32 (nqty : Int) (b : Box3) : Option Int := do
  let t ← mul32 nqty b.isize
  let t ← mul32 t b.jsize
  mul32 t b.ksize

/-- `nqty * ((overlap.klo-in.klo)*in.jsize*in.isize + ((overlap.jlo-in.jlo)*in.isize + overlap.ilo-in.ilo))`,
remap3d.cpp:261-263. -/
def sendOff3_32 (nqty : Int) (inb ov : Box3) : Option Int := do
  let k ← sub32 ov.klo inb.klo
  let k ← mul32 k inb.jsize
  let k ← mul32 k inb.isize
  let j ← sub32 ov.jlo inb.jlo
  let j ← mul32 j inb.isize
  let j ← add32 j ov.ilo
  let j ← sub32 j inb.ilo
  let t ← add32 k j
  mul32 nqty t

/-- `packplan[nsend]`, remap3d.cpp:264-269. -/
def sendPlan3_32 (nqty : Int) (inb ov : Box3) : Option PackPlan3 := do
  let nfast ← mul32 nqty ov.isize
  let line ← mul32 nqty inb.isize
  let plane ← mul32 nqty inb.jsize
  let plane ← mul32 plane inb.isize
  pure { nfast, nmid := ov.jsize, nslow := ov.ksize, nstride_line := line, nstride_plane := plane,
         nqty }

/-- `nqty * (z*y1*x1 + y*x2 + x)` with `z = zl-zl'`, `y = yl-yl'`, `x = xl-xl'`. -/
def off3_32 (nqty zl zl' y1 x1 yl yl' x2 xl xl' : Int) : Option Int := do
  let z ← sub32 zl zl'
  let z ← mul32 z y1
  let z ← mul32 z x1
  let y ← sub32 yl yl'
  let y ← mul32 y x2
  let x ← sub32 xl xl'
  let t ← add32 z y
  let t ← add32 t x
  mul32 nqty t

/-- `recv_offset[nrecv]`, remap3d.cpp:357-359, 368-370, 379-381. -/
def recvOff3_32 (permute nqty : Int) (out ov : Box3) : Option Int :=
  if permute = 0 then
    off3_32 nqty ov.klo out.klo out.jsize out.isize ov.jlo out.jlo out.isize ov.ilo out.ilo
  else if permute = 1 then
    off3_32 nqty ov.ilo out.ilo out.ksize out.jsize ov.klo out.klo out.jsize ov.jlo out.jlo
  else if permute = 2 then
    off3_32 nqty ov.jlo out.jlo out.isize out.ksize ov.ilo out.ilo out.ksize ov.klo out.klo
  else some 0

/-- `unpackplan[nrecv]`, remap3d.cpp:360-365, 371-376, 382-387. -/
def recvPlan3_32 (permute nqty : Int) (out ov : Box3) : Option PackPlan3 :=
  if permute = 0 then do
    let nfast ← mul32 nqty ov.isize
    let line ← mul32 nqty out.isize
    let plane ← mul32 nqty out.jsize
    let plane ← mul32 plane out.isize
    pure { nfast, nmid := ov.jsize, nslow := ov.ksize, nstride_line := line, nstride_plane := plane,
           nqty }
  else if permute = 1 then do
    let line ← mul32 nqty out.jsize
    let plane ← mul32 nqty out.ksize
    let plane ← mul32 plane out.jsize
    pure { nfast := ov.isize, nmid := ov.jsize, nslow := ov.ksize, nstride_line := line,
           nstride_plane := plane, nqty }
  else do
    let line ← mul32 nqty out.ksize
    let plane ← mul32 nqty out.isize
    let plane ← mul32 plane out.ksize
    pure { nfast := ov.isize, nmid := ov.jsize, nslow := ov.ksize, nstride_line := line,
           nstride_plane := plane, nqty }

/-- The 3d parts of `Remap3d`; `sz = sizeof(FFT_SCALAR)`. -/
def dim3_32 (sz : Int) : Dim32 α Box3 PackPlan3 where
  extent := extent3_32
  collide := collide3_32
  size := size3_32
  sendOff := sendOff3_32
  sendPlan := sendPlan3_32
  recvOff := recvOff3_32
  recvPlan := recvPlan3_32
  packSel := packSel3_32 sz
  unpackSel := unpackSel3_32 sz

end FftMpi
