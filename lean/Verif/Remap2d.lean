import Verif.RemapCore
import Verif.Pack2d
import Verif.GridSpec

/-!
# Model of the parts of `Remap2d` that are specific to 2d

Extents (`struct extent_2d`, remap2d.h) are `Box2`.  `Remap2d::setup` and `Remap2d::remap`
(remap2d.cpp:170-566, 582-664) have the same text as the 3d versions up to the parts defined here, so
the definitions of `RemapCore.lean` are used for both.
-/

namespace FftMpi

variable {α : Type}

/-- `collide`, remap2d.cpp:673-688. -/
def collide2 (b1 b2 : Box2) : Option Box2 :=
  let ov : Box2 :=
    { ilo := max b1.ilo b2.ilo, ihi := min b1.ihi b2.ihi
      jlo := max b1.jlo b2.jlo, jhi := min b1.jhi b2.jhi }
  if ov.ilo > ov.ihi ∨ ov.jlo > ov.jhi then none else some ov

/-- `send_offset[nsend]`, remap2d.cpp:249-250. -/
def sendOff2 (nqty : Int) (inb ov : Box2) : Int :=
  nqty * ((ov.jlo - inb.jlo) * inb.isize + ov.ilo - inb.ilo)

/-- `packplan[nsend]`, remap2d.cpp:251-254. -/
def sendPlan2 (nqty : Int) (inb ov : Box2) : PackPlan2 where
  nfast := nqty * ov.isize
  nslow := ov.jsize
  nstride := nqty * inb.isize
  nqty := nqty

/-- `recv_offset[nrecv]`, remap2d.cpp:329-330, 337-338.  For other values of `permute` the array
element is not assigned (0 here, see `unpackSel2`: then no routine is selected either). -/
def recvOff2 (permute nqty : Int) (out ov : Box2) : Int :=
  if permute = 0 then nqty * ((ov.jlo - out.jlo) * out.isize + (ov.ilo - out.ilo))
  else if permute = 1 then nqty * ((ov.ilo - out.ilo) * out.jsize + (ov.jlo - out.jlo))
  else 0

/-- `unpackplan[nrecv]`, remap2d.cpp:331-334, 339-342. -/
def recvPlan2 (permute nqty : Int) (out ov : Box2) : PackPlan2 :=
  if permute = 0 then
    { nfast := nqty * ov.isize, nslow := ov.jsize, nstride := nqty * out.isize, nqty := nqty }
  else
    { nfast := ov.isize, nslow := ov.jsize, nstride := nqty * out.jsize, nqty := nqty }

/-- `nqty*isize*jsize`, remap2d.cpp:255, 345, 370. -/
def size2 (nqty : Int) (b : Box2) : Int := nqty * b.isize * b.jsize

/-- The 2d parts of `Remap2d`; selection of the routines remap2d.cpp:228-230, 283-301.
`w = sizeof(double)/sizeof(FFT_SCALAR)`, see `Pack2d.lean`. -/
def dim2 (w : Int) : Dim α Box2 PackPlan2 where
  collide := collide2
  size := size2
  sendOff := sendOff2
  sendPlan := sendPlan2
  recvOff := recvOff2
  recvPlan := recvPlan2
  packSel := packSel2 w
  unpackSel := unpackSel2 w

end FftMpi
