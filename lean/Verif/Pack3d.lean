import Verif.Mem

/-!
# Model of pack3d.h

Every routine takes the array `data` (used from index `d` on, i.e. the C argument
`&data[d]`), the array `buf` (from index `b` on) and a plan.  `data` and `buf` are different
allocations in every call made by `Remap3d::remap`.  The result is the array written to, or
`none` when the C code would access an index outside an allocation (or never terminate).
-/

namespace FftMpi

variable {α : Type}

/-- `struct pack_plan_3d`, pack3d.h:27-34. -/
structure PackPlan3 where
  nfast : Int
  nmid : Int
  nslow : Int
  nstride_line : Int
  nstride_plane : Int
  nqty : Int
deriving DecidableEq, Repr

/-! ## Array versions -/

/-- `pack_3d_array`, pack3d.h:60-81. -/
def pack_3d_array (data : Mem α) (d : Int) (buf : Mem α) (b : Int) (p : PackPlan3) :
    Option (Mem α) :=
  (forN p.nslow (fun slow s =>
    let plane := slow * p.nstride_plane
    forN p.nmid (fun mid s =>
      let out := plane + mid * p.nstride_line
      (forN p.nfast (fun _ (s : (Int × Int) × Mem α) =>
        (copy1 data s.2 (b + s.1.1) (d + s.1.2)).map fun m => ((s.1.1 + 1, s.1.2 + 1), m))
        ((s.1, out), s.2)).map fun r => (r.1.1, r.2)) s) ((0 : Int), buf)).map Prod.snd

/-- `unpack_3d_array`, pack3d.h:87-108. -/
def unpack_3d_array (buf : Mem α) (b : Int) (data : Mem α) (d : Int) (p : PackPlan3) :
    Option (Mem α) :=
  (forN p.nslow (fun slow s =>
    let plane := slow * p.nstride_plane
    forN p.nmid (fun mid s =>
      let inn := plane + mid * p.nstride_line
      (forN p.nfast (fun _ (s : (Int × Int) × Mem α) =>
        (copy1 buf s.2 (d + s.1.1) (b + s.1.2)).map fun m => ((s.1.1 + 1, s.1.2 + 1), m))
        ((inn, s.1), s.2)).map fun r => (r.1.2, r.2)) s) ((0 : Int), data)).map Prod.snd

/-- `unpack_3d_permute1_1_array`, pack3d.h:114-135. -/
def unpack_3d_permute1_1_array (buf : Mem α) (b : Int) (data : Mem α) (d : Int)
    (p : PackPlan3) : Option (Mem α) :=
  (forN p.nslow (fun slow s =>
    let plane := slow * p.nstride_line
    forN p.nmid (fun mid s =>
      let inn := plane + mid
      (forN p.nfast (fun _ (s : (Int × Int) × Mem α) =>
        (copy1 buf s.2 (d + s.1.1) (b + s.1.2)).map fun m =>
          ((s.1.1 + p.nstride_plane, s.1.2 + 1), m))
        ((inn, s.1), s.2)).map fun r => (r.1.2, r.2)) s) ((0 : Int), data)).map Prod.snd

/-- `unpack_3d_permute1_2_array`, pack3d.h:141-164. -/
def unpack_3d_permute1_2_array (buf : Mem α) (b : Int) (data : Mem α) (d : Int)
    (p : PackPlan3) : Option (Mem α) :=
  (forN p.nslow (fun slow s =>
    let plane := slow * p.nstride_line
    forN p.nmid (fun mid s =>
      let inn := plane + 2 * mid
      (forN p.nfast (fun _ (s : (Int × Int) × Mem α) =>
        (copy1 buf s.2 (d + s.1.1) (b + s.1.2)).bind fun m =>
        (copy1 buf m (d + (s.1.1 + 1)) (b + (s.1.2 + 1))).map fun m =>
          ((s.1.1 + p.nstride_plane, s.1.2 + 2), m))
        ((inn, s.1), s.2)).map fun r => (r.1.2, r.2)) s) ((0 : Int), data)).map Prod.snd

/-- `unpack_3d_permute1_n_array`, pack3d.h:170-195. -/
def unpack_3d_permute1_n_array (buf : Mem α) (b : Int) (data : Mem α) (d : Int)
    (p : PackPlan3) : Option (Mem α) :=
  (forN p.nslow (fun slow s =>
    let plane := slow * p.nstride_line
    forN p.nmid (fun mid s =>
      let instart := plane + p.nqty * mid
      (forN p.nfast (fun _ (s : (Int × Int) × Mem α) =>
        let inn := s.1.1
        (forN p.nqty (fun _ (t : (Int × Int) × Mem α) =>
          (copy1 buf t.2 (d + t.1.1) (b + t.1.2)).map fun m => ((t.1.1 + 1, t.1.2 + 1), m))
          ((inn, s.1.2), s.2)).map fun r => ((s.1.1 + p.nstride_plane, r.1.2), r.2))
        ((instart, s.1), s.2)).map fun r => (r.1.2, r.2)) s) ((0 : Int), data)).map Prod.snd

/-- `unpack_3d_permute2_1_array`, pack3d.h:201-222. -/
def unpack_3d_permute2_1_array (buf : Mem α) (b : Int) (data : Mem α) (d : Int)
    (p : PackPlan3) : Option (Mem α) :=
  (forN p.nslow (fun slow s =>
    forN p.nmid (fun mid s =>
      let inn := slow + mid * p.nstride_plane
      (forN p.nfast (fun _ (s : (Int × Int) × Mem α) =>
        (copy1 buf s.2 (d + s.1.1) (b + s.1.2)).map fun m =>
          ((s.1.1 + p.nstride_line, s.1.2 + 1), m))
        ((inn, s.1), s.2)).map fun r => (r.1.2, r.2)) s) ((0 : Int), data)).map Prod.snd

/-- `unpack_3d_permute2_2_array`, pack3d.h:228-251. -/
def unpack_3d_permute2_2_array (buf : Mem α) (b : Int) (data : Mem α) (d : Int)
    (p : PackPlan3) : Option (Mem α) :=
  (forN p.nslow (fun slow s =>
    forN p.nmid (fun mid s =>
      let inn := 2 * slow + mid * p.nstride_plane
      (forN p.nfast (fun _ (s : (Int × Int) × Mem α) =>
        (copy1 buf s.2 (d + s.1.1) (b + s.1.2)).bind fun m =>
        (copy1 buf m (d + (s.1.1 + 1)) (b + (s.1.2 + 1))).map fun m =>
          ((s.1.1 + p.nstride_line, s.1.2 + 2), m))
        ((inn, s.1), s.2)).map fun r => (r.1.2, r.2)) s) ((0 : Int), data)).map Prod.snd

/-- `unpack_3d_permute2_n_array`, pack3d.h:257-281. -/
def unpack_3d_permute2_n_array (buf : Mem α) (b : Int) (data : Mem α) (d : Int)
    (p : PackPlan3) : Option (Mem α) :=
  (forN p.nslow (fun slow s =>
    forN p.nmid (fun mid s =>
      let instart := p.nqty * slow + mid * p.nstride_plane
      (forN p.nfast (fun _ (s : (Int × Int) × Mem α) =>
        let inn := s.1.1
        (forN p.nqty (fun _ (t : (Int × Int) × Mem α) =>
          (copy1 buf t.2 (d + t.1.1) (b + t.1.2)).map fun m => ((t.1.1 + 1, t.1.2 + 1), m))
          ((inn, s.1.2), s.2)).map fun r => ((s.1.1 + p.nstride_line, r.1.2), r.2))
        ((instart, s.1), s.2)).map fun r => (r.1.2, r.2)) s) ((0 : Int), data)).map Prod.snd

/-! ## Pointer versions

Pointers are represented by indices: `out`/`in` pointing into `data` are indices of `data`,
pointers into `buf` are indices of `buf`. -/

/-- `pack_3d_pointer`, pack3d.h:291-315. -/
def pack_3d_pointer (data : Mem α) (d : Int) (buf : Mem α) (b : Int) (p : PackPlan3) :
    Option (Mem α) :=
  (forN p.nslow (fun slow s =>
    let plane := slow * p.nstride_plane
    forN p.nmid (fun mid s =>
      let beg := d + (plane + mid * p.nstride_line)
      let en := beg + p.nfast
      forPtr beg en 1 (fun out (s : Int × Mem α) =>
        (copy1 data s.2 s.1 out).map fun m => (s.1 + 1, m)) s) s) (b, buf)).map Prod.snd

/-- `unpack_3d_pointer`, pack3d.h:321-345. -/
def unpack_3d_pointer (buf : Mem α) (b : Int) (data : Mem α) (d : Int) (p : PackPlan3) :
    Option (Mem α) :=
  (forN p.nslow (fun slow s =>
    let plane := slow * p.nstride_plane
    forN p.nmid (fun mid s =>
      let beg := d + (plane + mid * p.nstride_line)
      let en := beg + p.nfast
      forPtr beg en 1 (fun inn (s : Int × Mem α) =>
        (copy1 buf s.2 inn s.1).map fun m => (s.1 + 1, m)) s) s) (b, data)).map Prod.snd

/-- `unpack_3d_permute1_1_pointer`, pack3d.h:351-375. -/
def unpack_3d_permute1_1_pointer (buf : Mem α) (b : Int) (data : Mem α) (d : Int)
    (p : PackPlan3) : Option (Mem α) :=
  (forN p.nslow (fun slow s =>
    let plane := slow * p.nstride_line
    forN p.nmid (fun mid s =>
      let beg := d + (plane + mid)
      let en := beg + p.nfast * p.nstride_plane
      forPtr beg en p.nstride_plane (fun inn (s : Int × Mem α) =>
        (copy1 buf s.2 inn s.1).map fun m => (s.1 + 1, m)) s) s) (b, data)).map Prod.snd

/-- `unpack_3d_permute1_2_pointer`, pack3d.h:381-407. -/
def unpack_3d_permute1_2_pointer (buf : Mem α) (b : Int) (data : Mem α) (d : Int)
    (p : PackPlan3) : Option (Mem α) :=
  (forN p.nslow (fun slow s =>
    let plane := slow * p.nstride_line
    forN p.nmid (fun mid s =>
      let beg := d + (plane + 2 * mid)
      let en := beg + p.nfast * p.nstride_plane
      forPtr beg en p.nstride_plane (fun inn (s : Int × Mem α) =>
        (copy1 buf s.2 inn s.1).bind fun m =>
        (copy1 buf m (inn + 1) (s.1 + 1)).map fun m => (s.1 + 2, m)) s) s)
    (b, data)).map Prod.snd

/-- `unpack_3d_permute1_n_pointer`, pack3d.h:413-440. -/
def unpack_3d_permute1_n_pointer (buf : Mem α) (b : Int) (data : Mem α) (d : Int)
    (p : PackPlan3) : Option (Mem α) :=
  (forN p.nslow (fun slow s =>
    let plane := slow * p.nstride_line
    forN p.nmid (fun mid s =>
      let beg := d + (plane + p.nqty * mid)
      let en := beg + p.nfast * p.nstride_plane
      forPtr beg en p.nstride_plane (fun instart (s : Int × Mem α) =>
        (forN p.nqty (fun _ (t : (Int × Int) × Mem α) =>
          (copy1 buf t.2 t.1.1 t.1.2).map fun m => ((t.1.1 + 1, t.1.2 + 1), m))
          ((instart, s.1), s.2)).map fun r => (r.1.2, r.2)) s) s) (b, data)).map Prod.snd

/-- `unpack_3d_permute2_1_pointer`, pack3d.h:446-469. -/
def unpack_3d_permute2_1_pointer (buf : Mem α) (b : Int) (data : Mem α) (d : Int)
    (p : PackPlan3) : Option (Mem α) :=
  (forN p.nslow (fun slow s =>
    forN p.nmid (fun mid s =>
      let beg := d + (slow + mid * p.nstride_plane)
      let en := beg + p.nfast * p.nstride_line
      forPtr beg en p.nstride_line (fun inn (s : Int × Mem α) =>
        (copy1 buf s.2 inn s.1).map fun m => (s.1 + 1, m)) s) s) (b, data)).map Prod.snd

/-- `unpack_3d_permute2_2_pointer`, pack3d.h:475-500. -/
def unpack_3d_permute2_2_pointer (buf : Mem α) (b : Int) (data : Mem α) (d : Int)
    (p : PackPlan3) : Option (Mem α) :=
  (forN p.nslow (fun slow s =>
    forN p.nmid (fun mid s =>
      let beg := d + (2 * slow + mid * p.nstride_plane)
      let en := beg + p.nfast * p.nstride_line
      forPtr beg en p.nstride_line (fun inn (s : Int × Mem α) =>
        (copy1 buf s.2 inn s.1).bind fun m =>
        (copy1 buf m (inn + 1) (s.1 + 1)).map fun m => (s.1 + 2, m)) s) s)
    (b, data)).map Prod.snd

/-- `unpack_3d_permute2_n_pointer`, pack3d.h:506-532. -/
def unpack_3d_permute2_n_pointer (buf : Mem α) (b : Int) (data : Mem α) (d : Int)
    (p : PackPlan3) : Option (Mem α) :=
  (forN p.nslow (fun slow s =>
    forN p.nmid (fun mid s =>
      let beg := d + (p.nqty * slow + mid * p.nstride_plane)
      let en := beg + p.nfast * p.nstride_line
      forPtr beg en p.nstride_line (fun instart (s : Int × Mem α) =>
        (forN p.nqty (fun _ (t : (Int × Int) × Mem α) =>
          (copy1 buf t.2 t.1.1 t.1.2).map fun m => ((t.1.1 + 1, t.1.2 + 1), m))
          ((instart, s.1), s.2)).map fun r => (r.1.2, r.2)) s) s) (b, data)).map Prod.snd

/-! ## memcpy versions -/

/-- `pack_3d_memcpy`, pack3d.h:543-567 (`size` counted in elements). -/
def pack_3d_memcpy (data : Mem α) (d : Int) (buf : Mem α) (b : Int) (p : PackPlan3) :
    Option (Mem α) :=
  let size := p.nfast
  forN p.nslow (fun slow s =>
    let plane := slow * p.nstride_plane
    let upto := slow * p.nmid * p.nfast
    forN p.nmid (fun mid s =>
      memcpyM data s (b + (upto + mid * p.nfast)) (d + (plane + mid * p.nstride_line)) size) s) buf

/-- `unpack_3d_memcpy`, pack3d.h:573-597 (`size` counted in elements). -/
def unpack_3d_memcpy (buf : Mem α) (b : Int) (data : Mem α) (d : Int) (p : PackPlan3) :
    Option (Mem α) :=
  let size := p.nfast
  forN p.nslow (fun slow s =>
    let plane := slow * p.nstride_plane
    let upto := slow * p.nmid * p.nfast
    forN p.nmid (fun mid s =>
      memcpyM buf s (d + (plane + mid * p.nstride_line)) (b + (upto + mid * p.nfast)) size) s) data

/-- `unpack_3d_permute1_1_memcpy`, pack3d.h:603-627: same text as the pointer version. -/
def unpack_3d_permute1_1_memcpy : Mem α → Int → Mem α → Int → PackPlan3 → Option (Mem α) :=
  unpack_3d_permute1_1_pointer
/-- `unpack_3d_permute1_2_memcpy`, pack3d.h:633-659: same text as the pointer version. -/
def unpack_3d_permute1_2_memcpy : Mem α → Int → Mem α → Int → PackPlan3 → Option (Mem α) :=
  unpack_3d_permute1_2_pointer
/-- `unpack_3d_permute1_n_memcpy`, pack3d.h:665-692: same text as the pointer version. -/
def unpack_3d_permute1_n_memcpy : Mem α → Int → Mem α → Int → PackPlan3 → Option (Mem α) :=
  unpack_3d_permute1_n_pointer
/-- `unpack_3d_permute2_1_memcpy`, pack3d.h:698-721: same text as the pointer version. -/
def unpack_3d_permute2_1_memcpy : Mem α → Int → Mem α → Int → PackPlan3 → Option (Mem α) :=
  unpack_3d_permute2_1_pointer
/-- `unpack_3d_permute2_2_memcpy`, pack3d.h:727-752: same text as the pointer version. -/
def unpack_3d_permute2_2_memcpy : Mem α → Int → Mem α → Int → PackPlan3 → Option (Mem α) :=
  unpack_3d_permute2_2_pointer
/-- `unpack_3d_permute2_n_memcpy`, pack3d.h:758-784: same text as the pointer version. -/
def unpack_3d_permute2_n_memcpy : Mem α → Int → Mem α → Int → PackPlan3 → Option (Mem α) :=
  unpack_3d_permute2_n_pointer

/-! ## Choice of routine -/

/-- Choice of the `pack` function pointer, remap3d.cpp:241-243 (`packflag` is 0, 1 or 2;
other values leave the pointer uninitialised: `none`). -/
def packSel3 (packflag : Int) :
    Option (Mem α → Int → Mem α → Int → PackPlan3 → Option (Mem α)) :=
  if packflag = 0 then some pack_3d_array
  else if packflag = 1 then some pack_3d_pointer
  else if packflag = 2 then some pack_3d_memcpy
  else none

/-- The three way choice on `packflag` used at remap3d.cpp:300-329. -/
def selByFlag (packflag : Int) {β : Type} (a p m : β) : Option β :=
  if packflag = 0 then some a
  else if packflag = 1 then some p
  else if packflag = 2 then some m
  else none

/-- Choice of the `unpack` function pointer, remap3d.cpp:299-331. -/
def unpackSel3 (packflag permute nqty : Int) :
    Option (Mem α → Int → Mem α → Int → PackPlan3 → Option (Mem α)) :=
  if permute = 0 then
    selByFlag packflag unpack_3d_array unpack_3d_pointer unpack_3d_memcpy
  else if permute = 1 then
    if nqty = 1 then
      selByFlag packflag unpack_3d_permute1_1_array unpack_3d_permute1_1_pointer
        unpack_3d_permute1_1_memcpy
    else if nqty = 2 then
      selByFlag packflag unpack_3d_permute1_2_array unpack_3d_permute1_2_pointer
        unpack_3d_permute1_2_memcpy
    else
      selByFlag packflag unpack_3d_permute1_n_array unpack_3d_permute1_n_pointer
        unpack_3d_permute1_n_memcpy
  else if permute = 2 then
    if nqty = 1 then
      selByFlag packflag unpack_3d_permute2_1_array unpack_3d_permute2_1_pointer
        unpack_3d_permute2_1_memcpy
    else if nqty = 2 then
      selByFlag packflag unpack_3d_permute2_2_array unpack_3d_permute2_2_pointer
        unpack_3d_permute2_2_memcpy
    else
      selByFlag packflag unpack_3d_permute2_n_array unpack_3d_permute2_n_pointer
        unpack_3d_permute2_n_memcpy
  else none

end FftMpi
