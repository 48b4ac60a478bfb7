import Verif.Pack2d
import Verif.CInt

/-!
# pack2d.h with 32-bit integers

The routines of `Pack2d.lean` again, see `Pack3d32.lean`.  `sz = sizeof(PACK_DATA)`, 8 or 4; the memcpy
versions use `sizeof(double)`, which is 8, for the number of bytes.
-/

namespace FftMpi

variable {α : Type}

/-! ## Array versions -/

/-- `pack_2d_array`, pack2d.h:58-74. -/
def pack_2d_array32 (data : Mem α) (d : Int) (buf : Mem α) (b : Int) (p : PackPlan2) :
    Option (Mem α) :=
  (forN p.nslow (fun slow s =>
    (mul32 slow p.nstride).bind fun out =>
    (row32 data b d p.nfast 1 s.1 out s.2).map fun r => (r.1.1, r.2)) ((0 : Int), buf)).map Prod.snd

/-- `unpack_2d_array`, pack2d.h:80-96. -/
def unpack_2d_array32 (buf : Mem α) (b : Int) (data : Mem α) (d : Int) (p : PackPlan2) :
    Option (Mem α) :=
  (forN p.nslow (fun slow s =>
    (mul32 slow p.nstride).bind fun inn =>
    (row32 buf d b p.nfast 1 inn s.1 s.2).map fun r => (r.1.2, r.2)) ((0 : Int), data)).map Prod.snd

/-- `unpack_2d_permute_1_array`, pack2d.h:102-118. -/
def unpack_2d_permute_1_array32 (buf : Mem α) (b : Int) (data : Mem α) (d : Int) (p : PackPlan2) :
    Option (Mem α) :=
  (forN p.nslow (fun slow s =>
    (row32 buf d b p.nfast p.nstride slow s.1 s.2).map fun r => (r.1.2, r.2))
    ((0 : Int), data)).map Prod.snd

/-- `unpack_2d_permute_2_array`, pack2d.h:124-142. -/
def unpack_2d_permute_2_array32 (buf : Mem α) (b : Int) (data : Mem α) (d : Int) (p : PackPlan2) :
    Option (Mem α) :=
  (forN p.nslow (fun slow s =>
    (mul32 2 slow).bind fun inn =>
    (pairRow32 buf d b p.nfast p.nstride inn s.1 s.2).map fun r => (r.1.2, r.2))
    ((0 : Int), data)).map Prod.snd

/-- `unpack_2d_permute_n_array`, pack2d.h:148-168. -/
def unpack_2d_permute_n_array32 (buf : Mem α) (b : Int) (data : Mem α) (d : Int) (p : PackPlan2) :
    Option (Mem α) :=
  (forN p.nslow (fun slow s =>
    (mul32 p.nqty slow).bind fun inn =>
    (multRow32 buf d b p.nfast p.nstride p.nqty inn s.1 s.2).map fun r => (r.1.2, r.2))
    ((0 : Int), data)).map Prod.snd

/-! ## Pointer versions -/

/-- `pack_2d_pointer`, pack2d.h:178-197. -/
def pack_2d_pointer32 (data : Mem α) (d : Int) (buf : Mem α) (b : Int) (p : PackPlan2) :
    Option (Mem α) :=
  (forN p.nslow (fun slow s =>
    (mul32 slow p.nstride).bind fun x =>
    let beg := d + x
    let en := beg + p.nfast
    forPtr beg en 1 (fun out (s : Int × Mem α) =>
      (copy1 data s.2 s.1 out).map fun m => (s.1 + 1, m)) s) (b, buf)).map Prod.snd

/-- `unpack_2d_pointer`, pack2d.h:203-222. -/
def unpack_2d_pointer32 (buf : Mem α) (b : Int) (data : Mem α) (d : Int) (p : PackPlan2) :
    Option (Mem α) :=
  (forN p.nslow (fun slow s =>
    (mul32 slow p.nstride).bind fun x =>
    let beg := d + x
    let en := beg + p.nfast
    forPtr beg en 1 (fun inn (s : Int × Mem α) =>
      (copy1 buf s.2 inn s.1).map fun m => (s.1 + 1, m)) s) (b, data)).map Prod.snd

/-- `unpack_2d_permute_1_pointer`, pack2d.h:228-247; the memcpy version (pack2d.h:361-380) has the same
text. -/
def unpack_2d_permute_1_pointer32 (buf : Mem α) (b : Int) (data : Mem α) (d : Int) (p : PackPlan2) :
    Option (Mem α) :=
  (forN p.nslow (fun slow s =>
    (mul32 p.nfast p.nstride).bind fun len =>
    let beg := d + slow
    let en := beg + len
    forPtr beg en p.nstride (fun inn (s : Int × Mem α) =>
      (copy1 buf s.2 inn s.1).map fun m => (s.1 + 1, m)) s) (b, data)).map Prod.snd

/-- `unpack_2d_permute_2_pointer`, pack2d.h:253-274; the memcpy version (pack2d.h:386-407) has the same
text. -/
def unpack_2d_permute_2_pointer32 (buf : Mem α) (b : Int) (data : Mem α) (d : Int) (p : PackPlan2) :
    Option (Mem α) :=
  (forN p.nslow (fun slow s =>
    (mul32 2 slow).bind fun x =>
    (mul32 p.nfast p.nstride).bind fun len =>
    let beg := d + x
    let en := beg + len
    forPtr beg en p.nstride (fun inn (s : Int × Mem α) =>
      (copy1 buf s.2 inn s.1).bind fun m =>
      (copy1 buf m (inn + 1) (s.1 + 1)).map fun m => (s.1 + 2, m)) s) (b, data)).map Prod.snd

/-- `unpack_2d_permute_n_pointer`, pack2d.h:280-302; the memcpy version (pack2d.h:413-435) has the same
text. -/
def unpack_2d_permute_n_pointer32 (buf : Mem α) (b : Int) (data : Mem α) (d : Int) (p : PackPlan2) :
    Option (Mem α) :=
  (forN p.nslow (fun slow s =>
    (mul32 p.nqty slow).bind fun x =>
    (mul32 p.nfast p.nstride).bind fun len =>
    let beg := d + x
    let en := beg + len
    forPtr beg en p.nstride (fun instart (s : Int × Mem α) =>
      (forN p.nqty (fun _ (t : (Int × Int) × Mem α) =>
        (copy1 buf t.2 t.1.1 t.1.2).map fun m => ((t.1.1 + 1, t.1.2 + 1), m))
        ((instart, s.1), s.2)).map fun r => (r.1.2, r.2)) s) (b, data)).map Prod.snd

/-! ## memcpy versions -/

/-- `pack_2d_memcpy`, pack2d.h:313-331.  `int size = nfast*sizeof(double)`: the product is unsigned and
64 bits wide, its conversion to `int` reduces it modulo 2^32. -/
def pack_2d_memcpy32 (sz : Int) (data : Mem α) (d : Int) (buf : Mem α) (b : Int) (p : PackPlan2) :
    Option (Mem α) :=
  let size := wrap32 (p.nfast * 8)
  forN p.nslow (fun slow s =>
    (mul32 slow p.nfast).bind fun x =>
    (mul32 slow p.nstride).bind fun y => memcpyM data s (b + x) (d + y) (size / sz)) buf

/-- `unpack_2d_memcpy`, pack2d.h:337-355, see `pack_2d_memcpy32`. -/
def unpack_2d_memcpy32 (sz : Int) (buf : Mem α) (b : Int) (data : Mem α) (d : Int) (p : PackPlan2) :
    Option (Mem α) :=
  let size := wrap32 (p.nfast * 8)
  forN p.nslow (fun slow s =>
    (mul32 slow p.nstride).bind fun x =>
    (mul32 slow p.nfast).bind fun y => memcpyM buf s (d + x) (b + y) (size / sz)) data

/-! ## Choice of routine -/

/-- Choice of the `pack` function pointer, remap2d.cpp:228-230. -/
def packSel2_32 (sz : Int) (packflag : Int) :
    Option (Mem α → Int → Mem α → Int → PackPlan2 → Option (Mem α)) :=
  if packflag = 0 then some pack_2d_array32
  else if packflag = 1 then some pack_2d_pointer32
  else if packflag = 2 then some (pack_2d_memcpy32 sz)
  else none

/-- Choice of the `unpack` function pointer, remap2d.cpp:283-301. -/
def unpackSel2_32 (sz : Int) (packflag permute nqty : Int) :
    Option (Mem α → Int → Mem α → Int → PackPlan2 → Option (Mem α)) :=
  if permute = 0 then
    selByFlag packflag unpack_2d_array32 unpack_2d_pointer32 (unpack_2d_memcpy32 sz)
  else if permute = 1 then
    if nqty = 1 then
      selByFlag packflag unpack_2d_permute_1_array32 unpack_2d_permute_1_pointer32
        unpack_2d_permute_1_pointer32
    else if nqty = 2 then
      selByFlag packflag unpack_2d_permute_2_array32 unpack_2d_permute_2_pointer32
        unpack_2d_permute_2_pointer32
    else
      selByFlag packflag unpack_2d_permute_n_array32 unpack_2d_permute_n_pointer32
        unpack_2d_permute_n_pointer32
  else none

end FftMpi
