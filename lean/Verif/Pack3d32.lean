import Verif.Pack3d
import Verif.CInt

/-!
# pack3d.h with 32-bit integers

The routines of `Pack3d.lean` again, with the operations of `CInt.lean` for every expression of type
`int`.  Loop counters (`slow++` and so on) need no check: they run up to a bound that is an `int`.
Indexing and pointer arithmetic (`&data[d]`, `begin + n`, `in += stride` on pointers) is not `int`
arithmetic; pointers are unbounded here.

`sz = sizeof(PACK_DATA)`, 8 or 4.
-/

namespace FftMpi

variable {α : Type}

/-! ## Array versions -/

/-- `pack_3d_array`, pack3d.h:60-81. -/
def pack_3d_array32 (data : Mem α) (d : Int) (buf : Mem α) (b : Int) (p : PackPlan3) :
    Option (Mem α) :=
  (forN p.nslow (fun slow s =>
    (mul32 slow p.nstride_plane).bind fun plane =>
    forN p.nmid (fun mid s =>
      ((mul32 mid p.nstride_line).bind fun t => add32 plane t).bind fun out =>
      (row32 data b d p.nfast 1 s.1 out s.2).map fun r => (r.1.1, r.2)) s)
    ((0 : Int), buf)).map Prod.snd

/-- `unpack_3d_array`, pack3d.h:87-108. -/
def unpack_3d_array32 (buf : Mem α) (b : Int) (data : Mem α) (d : Int) (p : PackPlan3) :
    Option (Mem α) :=
  (forN p.nslow (fun slow s =>
    (mul32 slow p.nstride_plane).bind fun plane =>
    forN p.nmid (fun mid s =>
      ((mul32 mid p.nstride_line).bind fun t => add32 plane t).bind fun inn =>
      (row32 buf d b p.nfast 1 inn s.1 s.2).map fun r => (r.1.2, r.2)) s)
    ((0 : Int), data)).map Prod.snd

/-- `unpack_3d_permute1_1_array`, pack3d.h:114-135. -/
def unpack_3d_permute1_1_array32 (buf : Mem α) (b : Int) (data : Mem α) (d : Int)
    (p : PackPlan3) : Option (Mem α) :=
  (forN p.nslow (fun slow s =>
    (mul32 slow p.nstride_line).bind fun plane =>
    forN p.nmid (fun mid s =>
      (add32 plane mid).bind fun inn =>
      (row32 buf d b p.nfast p.nstride_plane inn s.1 s.2).map fun r => (r.1.2, r.2)) s)
    ((0 : Int), data)).map Prod.snd

/-- `unpack_3d_permute1_2_array`, pack3d.h:141-164. -/
def unpack_3d_permute1_2_array32 (buf : Mem α) (b : Int) (data : Mem α) (d : Int)
    (p : PackPlan3) : Option (Mem α) :=
  (forN p.nslow (fun slow s =>
    (mul32 slow p.nstride_line).bind fun plane =>
    forN p.nmid (fun mid s =>
      ((mul32 2 mid).bind fun t => add32 plane t).bind fun inn =>
      (pairRow32 buf d b p.nfast p.nstride_plane inn s.1 s.2).map fun r => (r.1.2, r.2)) s)
    ((0 : Int), data)).map Prod.snd

/-- `unpack_3d_permute1_n_array`, pack3d.h:170-195. -/
def unpack_3d_permute1_n_array32 (buf : Mem α) (b : Int) (data : Mem α) (d : Int)
    (p : PackPlan3) : Option (Mem α) :=
  (forN p.nslow (fun slow s =>
    (mul32 slow p.nstride_line).bind fun plane =>
    forN p.nmid (fun mid s =>
      ((mul32 p.nqty mid).bind fun t => add32 plane t).bind fun inn =>
      (multRow32 buf d b p.nfast p.nstride_plane p.nqty inn s.1 s.2).map fun r => (r.1.2, r.2)) s)
    ((0 : Int), data)).map Prod.snd

/-- `unpack_3d_permute2_1_array`, pack3d.h:201-222. -/
def unpack_3d_permute2_1_array32 (buf : Mem α) (b : Int) (data : Mem α) (d : Int)
    (p : PackPlan3) : Option (Mem α) :=
  (forN p.nslow (fun slow s =>
    forN p.nmid (fun mid s =>
      ((mul32 mid p.nstride_plane).bind fun t => add32 slow t).bind fun inn =>
      (row32 buf d b p.nfast p.nstride_line inn s.1 s.2).map fun r => (r.1.2, r.2)) s)
    ((0 : Int), data)).map Prod.snd

/-- `unpack_3d_permute2_2_array`, pack3d.h:228-251. -/
def unpack_3d_permute2_2_array32 (buf : Mem α) (b : Int) (data : Mem α) (d : Int)
    (p : PackPlan3) : Option (Mem α) :=
  (forN p.nslow (fun slow s =>
    forN p.nmid (fun mid s =>
      ((mul32 2 slow).bind fun u => (mul32 mid p.nstride_plane).bind fun t => add32 u t).bind fun inn =>
      (pairRow32 buf d b p.nfast p.nstride_line inn s.1 s.2).map fun r => (r.1.2, r.2)) s)
    ((0 : Int), data)).map Prod.snd

/-- `unpack_3d_permute2_n_array`, pack3d.h:257-281. -/
def unpack_3d_permute2_n_array32 (buf : Mem α) (b : Int) (data : Mem α) (d : Int)
    (p : PackPlan3) : Option (Mem α) :=
  (forN p.nslow (fun slow s =>
    forN p.nmid (fun mid s =>
      ((mul32 p.nqty slow).bind fun u => (mul32 mid p.nstride_plane).bind fun t => add32 u t).bind fun inn =>
      (multRow32 buf d b p.nfast p.nstride_line p.nqty inn s.1 s.2).map fun r => (r.1.2, r.2)) s)
    ((0 : Int), data)).map Prod.snd

/-! ## Pointer versions -/

/-- `pack_3d_pointer`, pack3d.h:291-315. -/
def pack_3d_pointer32 (data : Mem α) (d : Int) (buf : Mem α) (b : Int) (p : PackPlan3) :
    Option (Mem α) :=
  (forN p.nslow (fun slow s =>
    (mul32 slow p.nstride_plane).bind fun plane =>
    forN p.nmid (fun mid s =>
      ((mul32 mid p.nstride_line).bind fun t => add32 plane t).bind fun x =>
      let beg := d + x
      let en := beg + p.nfast
      forPtr beg en 1 (fun out (s : Int × Mem α) =>
        (copy1 data s.2 s.1 out).map fun m => (s.1 + 1, m)) s) s) (b, buf)).map Prod.snd

/-- `unpack_3d_pointer`, pack3d.h:321-345. -/
def unpack_3d_pointer32 (buf : Mem α) (b : Int) (data : Mem α) (d : Int) (p : PackPlan3) :
    Option (Mem α) :=
  (forN p.nslow (fun slow s =>
    (mul32 slow p.nstride_plane).bind fun plane =>
    forN p.nmid (fun mid s =>
      ((mul32 mid p.nstride_line).bind fun t => add32 plane t).bind fun x =>
      let beg := d + x
      let en := beg + p.nfast
      forPtr beg en 1 (fun inn (s : Int × Mem α) =>
        (copy1 buf s.2 inn s.1).map fun m => (s.1 + 1, m)) s) s) (b, data)).map Prod.snd

/-- `unpack_3d_permute1_1_pointer`, pack3d.h:351-375; the memcpy version
(pack3d.h:603-627) has the same text. -/
def unpack_3d_permute1_1_pointer32 (buf : Mem α) (b : Int) (data : Mem α) (d : Int)
    (p : PackPlan3) : Option (Mem α) :=
  (forN p.nslow (fun slow s =>
    (mul32 slow p.nstride_line).bind fun plane =>
    forN p.nmid (fun mid s =>
      (add32 plane mid).bind fun x =>
      (mul32 p.nfast p.nstride_plane).bind fun len =>
      let beg := d + x
      let en := beg + len
      forPtr beg en p.nstride_plane (fun inn (s : Int × Mem α) =>
        (copy1 buf s.2 inn s.1).map fun m => (s.1 + 1, m)) s) s)
    (b, data)).map Prod.snd

/-- `unpack_3d_permute1_2_pointer`, pack3d.h:381-407; the memcpy version
(pack3d.h:633-659) has the same text. -/
def unpack_3d_permute1_2_pointer32 (buf : Mem α) (b : Int) (data : Mem α) (d : Int)
    (p : PackPlan3) : Option (Mem α) :=
  (forN p.nslow (fun slow s =>
    (mul32 slow p.nstride_line).bind fun plane =>
    forN p.nmid (fun mid s =>
      ((mul32 2 mid).bind fun t => add32 plane t).bind fun x =>
      (mul32 p.nfast p.nstride_plane).bind fun len =>
      let beg := d + x
      let en := beg + len
      forPtr beg en p.nstride_plane (fun inn (s : Int × Mem α) =>
        (copy1 buf s.2 inn s.1).bind fun m =>
        (copy1 buf m (inn + 1) (s.1 + 1)).map fun m => (s.1 + 2, m)) s) s)
    (b, data)).map Prod.snd

/-- `unpack_3d_permute1_n_pointer`, pack3d.h:413-440; the memcpy version
(pack3d.h:665-692) has the same text. -/
def unpack_3d_permute1_n_pointer32 (buf : Mem α) (b : Int) (data : Mem α) (d : Int)
    (p : PackPlan3) : Option (Mem α) :=
  (forN p.nslow (fun slow s =>
    (mul32 slow p.nstride_line).bind fun plane =>
    forN p.nmid (fun mid s =>
      ((mul32 p.nqty mid).bind fun t => add32 plane t).bind fun x =>
      (mul32 p.nfast p.nstride_plane).bind fun len =>
      let beg := d + x
      let en := beg + len
      forPtr beg en p.nstride_plane (fun instart (s : Int × Mem α) =>
        (forN p.nqty (fun _ (t : (Int × Int) × Mem α) =>
          (copy1 buf t.2 t.1.1 t.1.2).map fun m => ((t.1.1 + 1, t.1.2 + 1), m))
          ((instart, s.1), s.2)).map fun r => (r.1.2, r.2)) s) s)
    (b, data)).map Prod.snd

/-- `unpack_3d_permute2_1_pointer`, pack3d.h:446-469; the memcpy version
(pack3d.h:698-721) has the same text. -/
def unpack_3d_permute2_1_pointer32 (buf : Mem α) (b : Int) (data : Mem α) (d : Int)
    (p : PackPlan3) : Option (Mem α) :=
  (forN p.nslow (fun slow s =>
    forN p.nmid (fun mid s =>
      ((mul32 mid p.nstride_plane).bind fun t => add32 slow t).bind fun x =>
      (mul32 p.nfast p.nstride_line).bind fun len =>
      let beg := d + x
      let en := beg + len
      forPtr beg en p.nstride_line (fun inn (s : Int × Mem α) =>
        (copy1 buf s.2 inn s.1).map fun m => (s.1 + 1, m)) s) s)
    (b, data)).map Prod.snd

/-- `unpack_3d_permute2_2_pointer`, pack3d.h:475-500; the memcpy version
(pack3d.h:727-752) has the same text. -/
def unpack_3d_permute2_2_pointer32 (buf : Mem α) (b : Int) (data : Mem α) (d : Int)
    (p : PackPlan3) : Option (Mem α) :=
  (forN p.nslow (fun slow s =>
    forN p.nmid (fun mid s =>
      ((mul32 2 slow).bind fun u => (mul32 mid p.nstride_plane).bind fun t => add32 u t).bind fun x =>
      (mul32 p.nfast p.nstride_line).bind fun len =>
      let beg := d + x
      let en := beg + len
      forPtr beg en p.nstride_line (fun inn (s : Int × Mem α) =>
        (copy1 buf s.2 inn s.1).bind fun m =>
        (copy1 buf m (inn + 1) (s.1 + 1)).map fun m => (s.1 + 2, m)) s) s)
    (b, data)).map Prod.snd

/-- `unpack_3d_permute2_n_pointer`, pack3d.h:506-532; the memcpy version
(pack3d.h:758-784) has the same text. -/
def unpack_3d_permute2_n_pointer32 (buf : Mem α) (b : Int) (data : Mem α) (d : Int)
    (p : PackPlan3) : Option (Mem α) :=
  (forN p.nslow (fun slow s =>
    forN p.nmid (fun mid s =>
      ((mul32 p.nqty slow).bind fun u => (mul32 mid p.nstride_plane).bind fun t => add32 u t).bind fun x =>
      (mul32 p.nfast p.nstride_line).bind fun len =>
      let beg := d + x
      let en := beg + len
      forPtr beg en p.nstride_line (fun instart (s : Int × Mem α) =>
        (forN p.nqty (fun _ (t : (Int × Int) × Mem α) =>
          (copy1 buf t.2 t.1.1 t.1.2).map fun m => ((t.1.1 + 1, t.1.2 + 1), m))
          ((instart, s.1), s.2)).map fun r => (r.1.2, r.2)) s) s)
    (b, data)).map Prod.snd

/-! ## memcpy versions -/

/-- `pack_3d_memcpy`, pack3d.h:543-567.  The product `nfast*sizeof(PACK_DATA)` has type `size_t`; it is
converted to `int` and, in the call of `memcpy`, back to `size_t`. -/
def pack_3d_memcpy32 (sz : Int) (data : Mem α) (d : Int) (buf : Mem α) (b : Int) (p : PackPlan3) :
    Option (Mem α) :=
  let size := wrap32 (p.nfast * sz)
  forN p.nslow (fun slow s =>
    (mul32 slow p.nstride_plane).bind fun plane =>
    ((mul32 slow p.nmid).bind fun t => mul32 t p.nfast).bind fun upto =>
    forN p.nmid (fun mid s =>
      ((mul32 mid p.nfast).bind fun t => add32 upto t).bind fun x =>
      ((mul32 mid p.nstride_line).bind fun t => add32 plane t).bind fun y =>
      memcpyM data s (b + x) (d + y) (size / sz)) s) buf

/-- `unpack_3d_memcpy`, pack3d.h:573-597, see `pack_3d_memcpy32`. -/
def unpack_3d_memcpy32 (sz : Int) (buf : Mem α) (b : Int) (data : Mem α) (d : Int)
    (p : PackPlan3) : Option (Mem α) :=
  let size := wrap32 (p.nfast * sz)
  forN p.nslow (fun slow s =>
    (mul32 slow p.nstride_plane).bind fun plane =>
    ((mul32 slow p.nmid).bind fun t => mul32 t p.nfast).bind fun upto =>
    forN p.nmid (fun mid s =>
      ((mul32 mid p.nstride_line).bind fun t => add32 plane t).bind fun x =>
      ((mul32 mid p.nfast).bind fun t => add32 upto t).bind fun y =>
      memcpyM buf s (d + x) (b + y) (size / sz)) s) data

/-! ## Choice of routine -/

/-- Choice of the `pack` function pointer, remap3d.cpp:241-243. -/
def packSel3_32 (sz : Int) (packflag : Int) :
    Option (Mem α → Int → Mem α → Int → PackPlan3 → Option (Mem α)) :=
  if packflag = 0 then some pack_3d_array32
  else if packflag = 1 then some pack_3d_pointer32
  else if packflag = 2 then some (pack_3d_memcpy32 sz)
  else none

/-- Choice of the `unpack` function pointer, remap3d.cpp:299-331. -/
def unpackSel3_32 (sz : Int) (packflag permute nqty : Int) :
    Option (Mem α → Int → Mem α → Int → PackPlan3 → Option (Mem α)) :=
  if permute = 0 then
    selByFlag packflag unpack_3d_array32 unpack_3d_pointer32 (unpack_3d_memcpy32 sz)
  else if permute = 1 then
    if nqty = 1 then
      selByFlag packflag unpack_3d_permute1_1_array32 unpack_3d_permute1_1_pointer32
        unpack_3d_permute1_1_pointer32
    else if nqty = 2 then
      selByFlag packflag unpack_3d_permute1_2_array32 unpack_3d_permute1_2_pointer32
        unpack_3d_permute1_2_pointer32
    else
      selByFlag packflag unpack_3d_permute1_n_array32 unpack_3d_permute1_n_pointer32
        unpack_3d_permute1_n_pointer32
  else if permute = 2 then
    if nqty = 1 then
      selByFlag packflag unpack_3d_permute2_1_array32 unpack_3d_permute2_1_pointer32
        unpack_3d_permute2_1_pointer32
    else if nqty = 2 then
      selByFlag packflag unpack_3d_permute2_2_array32 unpack_3d_permute2_2_pointer32
        unpack_3d_permute2_2_pointer32
    else
      selByFlag packflag unpack_3d_permute2_n_array32 unpack_3d_permute2_n_pointer32
        unpack_3d_permute2_n_pointer32
  else none

end FftMpi
