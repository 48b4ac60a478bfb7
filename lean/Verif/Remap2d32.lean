import Verif.Remap3d32
import Verif.Remap2d
import Verif.Pack2d32

/-!
# The 2d parts of `Remap2d` with 32-bit integers, see `Remap3d32.lean`
-/

namespace FftMpi

variable {α : Type}

/-- The sizes of an extent, remap2d.cpp:189-205. -/
def extent2_32 (b : Box2) : Bool := (len32 b.ilo b.ihi).isSome && (len32 b.jlo b.jhi).isSome

/-- `collide`, remap2d.cpp:673-688. -/
def collide2_32 (b1 b2 : Box2) : Option (Option Box2) :=
  let ov : Box2 :=
    { ilo := max b1.ilo b2.ilo, ihi := min b1.ihi b2.ihi
      jlo := max b1.jlo b2.jlo, jhi := min b1.jhi b2.jhi }
  if ov.ilo > ov.ihi ∨ ov.jlo > ov.jhi then some none
  else if extent2_32 ov then some (some ov) else none

/-- `nqty*isize*jsize`, remap2d.cpp:255, 345, 370. -/
def size2_32 (nqty : Int) (b : Box2) : Option Int := do
  let t ← mul32 nqty b.isize
  mul32 t b.jsize

/-- `nqty * ((overlap.jlo-in.jlo)*in.isize + overlap.ilo-in.ilo)`, remap2d.cpp:249-250. -/
def sendOff2_32 (nqty : Int) (inb ov : Box2) : Option Int := do
  let j ← sub32 ov.jlo inb.jlo
  let j ← mul32 j inb.isize
  let j ← add32 j ov.ilo
  let j ← sub32 j inb.ilo
  mul32 nqty j

/-- `packplan[nsend]`, remap2d.cpp:251-254. -/
def sendPlan2_32 (nqty : Int) (inb ov : Box2) : Option PackPlan2 := do
  let nfast ← mul32 nqty ov.isize
  let nstride ← mul32 nqty inb.isize
  pure { nfast, nslow := ov.jsize, nstride, nqty }

/-- `nqty * (y*x1 + x)` with `y = yl-yl'`, `x = xl-xl'`. -/
def off2_32 (nqty yl yl' x1 xl xl' : Int) : Option Int := do
  let y ← sub32 yl yl'
  let y ← mul32 y x1
  let x ← sub32 xl xl'
  let t ← add32 y x
  mul32 nqty t

/-- `recv_offset[nrecv]`, remap2d.cpp:329-330, 337-338. -/
def recvOff2_32 (permute nqty : Int) (out ov : Box2) : Option Int :=
  if permute = 0 then off2_32 nqty ov.jlo out.jlo out.isize ov.ilo out.ilo
  else if permute = 1 then off2_32 nqty ov.ilo out.ilo out.jsize ov.jlo out.jlo
  else some 0

/-- `unpackplan[nrecv]`, remap2d.cpp:331-334, 339-342. -/
def recvPlan2_32 (permute nqty : Int) (out ov : Box2) : Option PackPlan2 :=
  if permute = 0 then do
    let nfast ← mul32 nqty ov.isize
    let nstride ← mul32 nqty out.isize
    pure { nfast, nslow := ov.jsize, nstride, nqty }
  else do
    let nstride ← mul32 nqty out.jsize
    pure { nfast := ov.isize, nslow := ov.jsize, nstride, nqty }

/-- The 2d parts of `Remap2d`; `sz = sizeof(FFT_SCALAR)`. -/
def dim2_32 (sz : Int) : Dim32 α Box2 PackPlan2 where
  extent := extent2_32
  collide := collide2_32
  size := size2_32
  sendOff := sendOff2_32
  sendPlan := sendPlan2_32
  recvOff := recvOff2_32
  recvPlan := recvPlan2_32
  packSel := packSel2_32 sz
  unpackSel := unpackSel2_32 sz

end FftMpi
