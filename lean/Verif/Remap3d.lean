import Verif.RemapCore
import Verif.Pack3dLemmas
import Verif.GridSpec

/-!
# Model of the parts of `Remap3d` that are specific to 3d

Extents (`struct extent_3d`, remap3d.h:94-98) are `Box3`; the members `isize`, `jsize`, `ksize` are
functions because the code always sets them to `hi-lo+1` (remap3d.cpp:192-212, 735-737).
-/

namespace FftMpi

variable {α : Type}

/-- `collide`, remap3d.cpp:720-740. -/
def collide3 (b1 b2 : Box3) : Option Box3 :=
  let ov : Box3 :=
    { ilo := max b1.ilo b2.ilo, ihi := min b1.ihi b2.ihi
      jlo := max b1.jlo b2.jlo, jhi := min b1.jhi b2.jhi
      klo := max b1.klo b2.klo, khi := min b1.khi b2.khi }
  if ov.ilo > ov.ihi ∨ ov.jlo > ov.jhi ∨ ov.klo > ov.khi then none else some ov

/-- `send_offset[nsend]`, remap3d.cpp:261-263. -/
def sendOff3 (nqty : Int) (inb ov : Box3) : Int :=
  nqty * ((ov.klo - inb.klo) * inb.jsize * inb.isize +
    ((ov.jlo - inb.jlo) * inb.isize + ov.ilo - inb.ilo))

/-- `packplan[nsend]`, remap3d.cpp:264-269. -/
def sendPlan3 (nqty : Int) (inb ov : Box3) : PackPlan3 where
  nfast := nqty * ov.isize
  nmid := ov.jsize
  nslow := ov.ksize
  nstride_line := nqty * inb.isize
  nstride_plane := nqty * inb.jsize * inb.isize
  nqty := nqty

/-- `recv_offset[nrecv]`, remap3d.cpp:357-359, 368-370, 379-381.  For other values of `permute` the
array element is not assigned (0 here, see `unpackSel3`: then no routine is selected either). -/
def recvOff3 (permute nqty : Int) (out ov : Box3) : Int :=
  if permute = 0 then
    nqty * ((ov.klo - out.klo) * out.jsize * out.isize +
      (ov.jlo - out.jlo) * out.isize + (ov.ilo - out.ilo))
  else if permute = 1 then
    nqty * ((ov.ilo - out.ilo) * out.ksize * out.jsize +
      (ov.klo - out.klo) * out.jsize + (ov.jlo - out.jlo))
  else if permute = 2 then
    nqty * ((ov.jlo - out.jlo) * out.isize * out.ksize +
      (ov.ilo - out.ilo) * out.ksize + (ov.klo - out.klo))
  else 0

/-- `unpackplan[nrecv]`, remap3d.cpp:360-365, 371-376, 382-387. -/
def recvPlan3 (permute nqty : Int) (out ov : Box3) : PackPlan3 :=
  if permute = 0 then
    { nfast := nqty * ov.isize, nmid := ov.jsize, nslow := ov.ksize
      nstride_line := nqty * out.isize, nstride_plane := nqty * out.jsize * out.isize
      nqty := nqty }
  else if permute = 1 then
    { nfast := ov.isize, nmid := ov.jsize, nslow := ov.ksize
      nstride_line := nqty * out.jsize, nstride_plane := nqty * out.ksize * out.jsize
      nqty := nqty }
  else
    { nfast := ov.isize, nmid := ov.jsize, nslow := ov.ksize
      nstride_line := nqty * out.ksize, nstride_plane := nqty * out.isize * out.ksize
      nqty := nqty }

/-- `nqty*isize*jsize*ksize`, remap3d.cpp:270, 390, 426. -/
def size3 (nqty : Int) (b : Box3) : Int := nqty * b.isize * b.jsize * b.ksize

/-- The 3d parts of `Remap3d`; selection of the routines remap3d.cpp:241-243, 299-331. -/
def dim3 : Dim α Box3 PackPlan3 where
  collide := collide3
  size := size3
  sendOff := sendOff3
  sendPlan := sendPlan3
  recvOff := recvOff3
  recvPlan := recvPlan3
  packSel := packSel3
  unpackSel := unpackSel3

end FftMpi
