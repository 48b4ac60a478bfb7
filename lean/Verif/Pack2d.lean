import Verif.Pack3dLemmas

/-!
# Model of pack2d.h, and every routine as a list of copies

Conventions as in `Pack3d.lean`.

`pack_2d_memcpy` and `unpack_2d_memcpy` compute the number of bytes with `sizeof(double)` instead of
`sizeof(PACK_DATA)` (pack2d.h:325, 349).  The parameter `w = sizeof(double)/sizeof(PACK_DATA)` is 1 in
double precision builds and 2 in single precision builds.
-/

namespace FftMpi

variable {α : Type}

/-- `struct pack_plan_2d`, pack2d.h:27-32. -/
structure PackPlan2 where
  nfast : Int
  nslow : Int
  nstride : Int
  nqty : Int
deriving DecidableEq, Repr

/-! ## Array versions -/

/-- `pack_2d_array`, pack2d.h:58-74. -/
def pack_2d_array (data : Mem α) (d : Int) (buf : Mem α) (b : Int) (p : PackPlan2) :
    Option (Mem α) :=
  (forN p.nslow (fun slow s =>
    let out := slow * p.nstride
    (forN p.nfast (fun _ (s : (Int × Int) × Mem α) =>
      (copy1 data s.2 (b + s.1.1) (d + s.1.2)).map fun m => ((s.1.1 + 1, s.1.2 + 1), m))
      ((s.1, out), s.2)).map fun r => (r.1.1, r.2)) ((0 : Int), buf)).map Prod.snd

/-- `unpack_2d_array`, pack2d.h:80-96. -/
def unpack_2d_array (buf : Mem α) (b : Int) (data : Mem α) (d : Int) (p : PackPlan2) :
    Option (Mem α) :=
  (forN p.nslow (fun slow s =>
    let inn := slow * p.nstride
    (forN p.nfast (fun _ (s : (Int × Int) × Mem α) =>
      (copy1 buf s.2 (d + s.1.1) (b + s.1.2)).map fun m => ((s.1.1 + 1, s.1.2 + 1), m))
      ((inn, s.1), s.2)).map fun r => (r.1.2, r.2)) ((0 : Int), data)).map Prod.snd

/-- `unpack_2d_permute_1_array`, pack2d.h:102-118. -/
def unpack_2d_permute_1_array (buf : Mem α) (b : Int) (data : Mem α) (d : Int) (p : PackPlan2) :
    Option (Mem α) :=
  (forN p.nslow (fun slow s =>
    let inn := slow
    (forN p.nfast (fun _ (s : (Int × Int) × Mem α) =>
      (copy1 buf s.2 (d + s.1.1) (b + s.1.2)).map fun m => ((s.1.1 + p.nstride, s.1.2 + 1), m))
      ((inn, s.1), s.2)).map fun r => (r.1.2, r.2)) ((0 : Int), data)).map Prod.snd

/-- `unpack_2d_permute_2_array`, pack2d.h:124-142. -/
def unpack_2d_permute_2_array (buf : Mem α) (b : Int) (data : Mem α) (d : Int) (p : PackPlan2) :
    Option (Mem α) :=
  (forN p.nslow (fun slow s =>
    let inn := 2 * slow
    (forN p.nfast (fun _ (s : (Int × Int) × Mem α) =>
      (copy1 buf s.2 (d + s.1.1) (b + s.1.2)).bind fun m =>
      (copy1 buf m (d + (s.1.1 + 1)) (b + (s.1.2 + 1))).map fun m =>
        ((s.1.1 + p.nstride, s.1.2 + 2), m))
      ((inn, s.1), s.2)).map fun r => (r.1.2, r.2)) ((0 : Int), data)).map Prod.snd

/-- `unpack_2d_permute_n_array`, pack2d.h:148-168. -/
def unpack_2d_permute_n_array (buf : Mem α) (b : Int) (data : Mem α) (d : Int) (p : PackPlan2) :
    Option (Mem α) :=
  (forN p.nslow (fun slow s =>
    let instart := p.nqty * slow
    (forN p.nfast (fun _ (s : (Int × Int) × Mem α) =>
      let inn := s.1.1
      (forN p.nqty (fun _ (t : (Int × Int) × Mem α) =>
        (copy1 buf t.2 (d + t.1.1) (b + t.1.2)).map fun m => ((t.1.1 + 1, t.1.2 + 1), m))
        ((inn, s.1.2), s.2)).map fun r => ((s.1.1 + p.nstride, r.1.2), r.2))
      ((instart, s.1), s.2)).map fun r => (r.1.2, r.2)) ((0 : Int), data)).map Prod.snd

/-! ## Pointer versions -/

/-- `pack_2d_pointer`, pack2d.h:178-197. -/
def pack_2d_pointer (data : Mem α) (d : Int) (buf : Mem α) (b : Int) (p : PackPlan2) :
    Option (Mem α) :=
  (forN p.nslow (fun slow s =>
    let beg := d + slow * p.nstride
    let en := beg + p.nfast
    forPtr beg en 1 (fun out (s : Int × Mem α) =>
      (copy1 data s.2 s.1 out).map fun m => (s.1 + 1, m)) s) (b, buf)).map Prod.snd

/-- `unpack_2d_pointer`, pack2d.h:203-222. -/
def unpack_2d_pointer (buf : Mem α) (b : Int) (data : Mem α) (d : Int) (p : PackPlan2) :
    Option (Mem α) :=
  (forN p.nslow (fun slow s =>
    let beg := d + slow * p.nstride
    let en := beg + p.nfast
    forPtr beg en 1 (fun inn (s : Int × Mem α) =>
      (copy1 buf s.2 inn s.1).map fun m => (s.1 + 1, m)) s) (b, data)).map Prod.snd

/-- `unpack_2d_permute_1_pointer`, pack2d.h:228-247. -/
def unpack_2d_permute_1_pointer (buf : Mem α) (b : Int) (data : Mem α) (d : Int) (p : PackPlan2) :
    Option (Mem α) :=
  (forN p.nslow (fun slow s =>
    let beg := d + slow
    let en := beg + p.nfast * p.nstride
    forPtr beg en p.nstride (fun inn (s : Int × Mem α) =>
      (copy1 buf s.2 inn s.1).map fun m => (s.1 + 1, m)) s) (b, data)).map Prod.snd

/-- `unpack_2d_permute_2_pointer`, pack2d.h:253-274. -/
def unpack_2d_permute_2_pointer (buf : Mem α) (b : Int) (data : Mem α) (d : Int) (p : PackPlan2) :
    Option (Mem α) :=
  (forN p.nslow (fun slow s =>
    let beg := d + 2 * slow
    let en := beg + p.nfast * p.nstride
    forPtr beg en p.nstride (fun inn (s : Int × Mem α) =>
      (copy1 buf s.2 inn s.1).bind fun m =>
      (copy1 buf m (inn + 1) (s.1 + 1)).map fun m => (s.1 + 2, m)) s) (b, data)).map Prod.snd

/-- `unpack_2d_permute_n_pointer`, pack2d.h:280-302. -/
def unpack_2d_permute_n_pointer (buf : Mem α) (b : Int) (data : Mem α) (d : Int) (p : PackPlan2) :
    Option (Mem α) :=
  (forN p.nslow (fun slow s =>
    let beg := d + p.nqty * slow
    let en := beg + p.nfast * p.nstride
    forPtr beg en p.nstride (fun instart (s : Int × Mem α) =>
      (forN p.nqty (fun _ (t : (Int × Int) × Mem α) =>
        (copy1 buf t.2 t.1.1 t.1.2).map fun m => ((t.1.1 + 1, t.1.2 + 1), m))
        ((instart, s.1), s.2)).map fun r => (r.1.2, r.2)) s) (b, data)).map Prod.snd

/-! ## memcpy versions -/

/-- `pack_2d_memcpy`, pack2d.h:313-331; `size = nfast*sizeof(double)` bytes are `nfast*w` elements. -/
def pack_2d_memcpy (w : Int) (data : Mem α) (d : Int) (buf : Mem α) (b : Int) (p : PackPlan2) :
    Option (Mem α) :=
  let size := p.nfast * w
  forN p.nslow (fun slow s => memcpyM data s (b + slow * p.nfast) (d + slow * p.nstride) size) buf

/-- `unpack_2d_memcpy`, pack2d.h:337-355; `size = nfast*sizeof(double)` bytes are `nfast*w` elements. -/
def unpack_2d_memcpy (w : Int) (buf : Mem α) (b : Int) (data : Mem α) (d : Int) (p : PackPlan2) :
    Option (Mem α) :=
  let size := p.nfast * w
  forN p.nslow (fun slow s => memcpyM buf s (d + slow * p.nstride) (b + slow * p.nfast) size) data

/-- `unpack_2d_permute_1_memcpy`, pack2d.h:361-380: same text as the pointer version. -/
def unpack_2d_permute_1_memcpy : Mem α → Int → Mem α → Int → PackPlan2 → Option (Mem α) :=
  unpack_2d_permute_1_pointer
/-- `unpack_2d_permute_2_memcpy`, pack2d.h:386-407: same text as the pointer version. -/
def unpack_2d_permute_2_memcpy : Mem α → Int → Mem α → Int → PackPlan2 → Option (Mem α) :=
  unpack_2d_permute_2_pointer
/-- `unpack_2d_permute_n_memcpy`, pack2d.h:413-435: same text as the pointer version. -/
def unpack_2d_permute_n_memcpy : Mem α → Int → Mem α → Int → PackPlan2 → Option (Mem α) :=
  unpack_2d_permute_n_pointer

/-! ## Choice of routine -/

/-- Choice of the `pack` function pointer, remap2d.cpp:228-230. -/
def packSel2 (w : Int) (packflag : Int) :
    Option (Mem α → Int → Mem α → Int → PackPlan2 → Option (Mem α)) :=
  if packflag = 0 then some pack_2d_array
  else if packflag = 1 then some pack_2d_pointer
  else if packflag = 2 then some (pack_2d_memcpy w)
  else none

/-- Choice of the `unpack` function pointer, remap2d.cpp:283-301. -/
def unpackSel2 (w : Int) (packflag permute nqty : Int) :
    Option (Mem α → Int → Mem α → Int → PackPlan2 → Option (Mem α)) :=
  if permute = 0 then
    selByFlag packflag unpack_2d_array unpack_2d_pointer (unpack_2d_memcpy w)
  else if permute = 1 then
    if nqty = 1 then
      selByFlag packflag unpack_2d_permute_1_array unpack_2d_permute_1_pointer
        unpack_2d_permute_1_memcpy
    else if nqty = 2 then
      selByFlag packflag unpack_2d_permute_2_array unpack_2d_permute_2_pointer
        unpack_2d_permute_2_memcpy
    else
      selByFlag packflag unpack_2d_permute_n_array unpack_2d_permute_n_pointer
        unpack_2d_permute_n_memcpy
  else none

/-! ## Copy lists -/

/-- Copies of a pack. -/
def packPairs2d (d b : Int) (p : PackPlan2) : List (Int × Int) :=
  (irange p.nslow).flatMap fun s => (irange p.nfast).map fun f =>
    (b + (s * p.nfast + f), d + (s * p.nstride + f))

/-- Copies of an unpack without permutation. -/
def unpackPairs2d0 (b d : Int) (p : PackPlan2) : List (Int × Int) :=
  (irange p.nslow).flatMap fun s => (irange p.nfast).map fun f =>
    (d + (s * p.nstride + f), b + (s * p.nfast + f))

/-- Copies of an unpack with permutation, `q` values per element. -/
def unpackPairs2d1 (q : Int) (b d : Int) (p : PackPlan2) : List (Int × Int) :=
  (irange p.nslow).flatMap fun s => (irange p.nfast).flatMap fun f => (irange q).map fun t =>
    (d + (q * s + f * p.nstride + t), b + ((s * p.nfast + f) * q + t))

/-- Copies of the unpack chosen for a permutation. -/
def unpackPairs2d (permute b d : Int) (p : PackPlan2) : List (Int × Int) :=
  if permute = 0 then unpackPairs2d0 b d p else unpackPairs2d1 p.nqty b d p

/-- One loop around a body of width `w` with one counter. -/
theorem nest1 (src : Mem α) (n : Int) (body : Int → Int × Mem α → Option (Int × Mem α))
    (L : Int → Int → List (Int × Int)) (w : Int)
    (hb : ∀ i c m, body i (c, m) = (copyAll (L i c) src m).map fun m' => (c + w, m'))
    (c : Int) (m : Mem α) :
    (forN n (fun i s => body i s) (c, m)).map Prod.snd =
      copyAll ((irange n).flatMap fun i => L i (c + i * w)) src m := by
  unfold forN
  rw [forFrom_run src _ L w hb]
  simp only [Option.map_map]
  have : (Prod.snd ∘ fun m' : Mem α => (c + n.toNat * w, m')) = id := rfl
  rw [this, Option.map_id]
  simp only [zero_add, id, irange]

/-- One loop without counter. -/
theorem nest1_0 (src : Mem α) (n : Int) (body : Int → Mem α → Option (Mem α))
    (L : Int → List (Int × Int)) (hb : ∀ i m, body i m = copyAll (L i) src m) (m : Mem α) :
    forN n (fun i s => body i s) m = copyAll ((irange n).flatMap fun i => L i) src m := by
  unfold forN
  rw [forFrom_run0 src _ L hb]
  simp [irange]

/-- Well formed plans: sizes and strides as `Remap2d::setup` produces them. -/
structure PackPlan2.Ok (p : PackPlan2) : Prop where
  fast : 0 ≤ p.nfast
  stride : 0 < p.nstride
  qty : 0 ≤ p.nqty

theorem pack_2d_array_eq (data buf : Mem α) (d b : Int) (p : PackPlan2) (h : p.Ok) :
    pack_2d_array data d buf b p = copyAll (packPairs2d d b p) data buf := by
  unfold pack_2d_array packPairs2d
  rw [nest1 data _ _ (fun i c => (irange p.nfast).map fun f =>
      (b + (c + f * 1), d + (i * p.nstride + f * 1))) p.nfast]
  · congr 1; congr 1; funext i; congr 1; funext f; congr 1 <;> ring
  · intro i c m
    simp only [forN_copy_stride, Option.map_map, toNat_cast h.fast]
    congr 1
    funext m'; simp

theorem unpack_2d_array_eq (data buf : Mem α) (d b : Int) (p : PackPlan2) (h : p.Ok) :
    unpack_2d_array buf b data d p = copyAll (unpackPairs2d0 b d p) buf data := by
  unfold unpack_2d_array unpackPairs2d0
  rw [nest1 buf _ _ (fun i c => (irange p.nfast).map fun f =>
      (d + (i * p.nstride + f * 1), b + (c + f * 1))) p.nfast]
  · congr 1; congr 1; funext i; congr 1; funext f; congr 1 <;> ring
  · intro i c m
    simp only [forN_copy_stride, Option.map_map, toNat_cast h.fast]
    congr 1
    funext m'; simp

theorem unpack_2d_permute_1_array_eq (data buf : Mem α) (d b : Int) (p : PackPlan2) (h : p.Ok) :
    unpack_2d_permute_1_array buf b data d p = copyAll (unpackPairs2d1 1 b d p) buf data := by
  unfold unpack_2d_permute_1_array unpackPairs2d1
  rw [nest1 buf _ _ (fun i c => (irange p.nfast).map fun f =>
      (d + (i + f * p.nstride), b + (c + f * 1))) p.nfast]
  · congr 1; congr 1; funext i
    simp only [irange_one, List.map_cons, List.map_nil]
    rw [flatMap_single]
    congr 1; funext f; congr 1 <;> ring
  · intro i c m
    simp only [forN_copy_stride, Option.map_map, toNat_cast h.fast]
    congr 1
    funext m'; simp

theorem unpack_2d_permute_2_array_eq (data buf : Mem α) (d b : Int) (p : PackPlan2) (h : p.Ok) :
    unpack_2d_permute_2_array buf b data d p = copyAll (unpackPairs2d1 2 b d p) buf data := by
  unfold unpack_2d_permute_2_array unpackPairs2d1
  rw [nest1 buf _ _ (fun i c => (irange p.nfast).flatMap fun f => (irange 2).map fun t =>
      (d + (2 * i + f * p.nstride + t), b + (c + f * 2 + t))) (p.nfast * 2)]
  · congr 1; congr 1; funext i; congr 1; funext f; congr 1; funext t
    congr 1; ring
  · intro i c m
    simp only [forN_copy2_stride, Option.map_map, toNat_cast h.fast]
    congr 1

theorem unpack_2d_permute_n_array_eq (data buf : Mem α) (d b : Int) (p : PackPlan2) (h : p.Ok) :
    unpack_2d_permute_n_array buf b data d p = copyAll (unpackPairs2d1 p.nqty b d p) buf data := by
  unfold unpack_2d_permute_n_array unpackPairs2d1
  rw [nest1 buf _ _ (fun i c => (irange p.nfast).flatMap fun f => (irange p.nqty).map fun t =>
      (d + (p.nqty * i + f * p.nstride + t), b + (c + f * p.nqty + t))) (p.nfast * p.nqty)]
  · congr 1; congr 1; funext i; congr 1; funext f; congr 1; funext t
    congr 1; ring
  · intro i c m
    simp only [forN_copyq_stride _ _ _ _ _ h.qty, Option.map_map, toNat_cast h.fast]
    congr 1

theorem pack_2d_pointer_eq (data buf : Mem α) (d b : Int) (p : PackPlan2) (h : p.Ok) :
    pack_2d_pointer data d buf b p = copyAll (packPairs2d d b p) data buf := by
  unfold pack_2d_pointer packPairs2d
  rw [nest1 data _ _ (fun i c => (irange p.nfast).flatMap fun f =>
      [(c + f * 1, d + i * p.nstride + f * 1)]) p.nfast]
  · congr 1; congr 1; funext i
    rw [flatMap_single]
    congr 1; funext f; congr 1 <;> ring
  · intro i c m
    have := forPtr_run data (fun out (s : Int × Mem α) =>
        (copy1 data s.2 s.1 out).map fun m => (s.1 + 1, m)) (fun x c => [(c, x)]) 1
        (by intro x c m; simp [copyAll_single])
        (d + i * p.nstride) 1 p.nfast h.fast (by omega) c m
    simp only [mul_one] at this ⊢
    rw [this]

theorem unpack_2d_pointer_eq (data buf : Mem α) (d b : Int) (p : PackPlan2) (h : p.Ok) :
    unpack_2d_pointer buf b data d p = copyAll (unpackPairs2d0 b d p) buf data := by
  unfold unpack_2d_pointer unpackPairs2d0
  rw [nest1 buf _ _ (fun i c => (irange p.nfast).flatMap fun f =>
      [(d + i * p.nstride + f * 1, c + f * 1)]) p.nfast]
  · congr 1; congr 1; funext i
    rw [flatMap_single]
    congr 1; funext f; congr 1 <;> ring
  · intro i c m
    have := forPtr_run buf (fun inn (s : Int × Mem α) =>
        (copy1 buf s.2 inn s.1).map fun m => (s.1 + 1, m)) (fun x c => [(x, c)]) 1 (ptr1_body buf)
        (d + i * p.nstride) 1 p.nfast h.fast (by omega) c m
    simp only [mul_one] at this ⊢
    rw [this]

theorem unpack_2d_permute_1_pointer_eq (data buf : Mem α) (d b : Int) (p : PackPlan2) (h : p.Ok) :
    unpack_2d_permute_1_pointer buf b data d p = copyAll (unpackPairs2d1 1 b d p) buf data := by
  unfold unpack_2d_permute_1_pointer unpackPairs2d1
  rw [nest1 buf _ _ (fun i c => (irange p.nfast).flatMap fun f =>
      [(d + i + f * p.nstride, c + f * 1)]) (p.nfast * 1)]
  · congr 1; congr 1; funext i
    congr 1; funext f
    simp only [irange_one, List.map_cons, List.map_nil]
    congr 2 <;> ring
  · intro i c m
    exact forPtr_run buf _ (fun x c => [(x, c)]) 1 (ptr1_body buf) _ _ _ h.fast h.stride c m

theorem unpack_2d_permute_2_pointer_eq (data buf : Mem α) (d b : Int) (p : PackPlan2) (h : p.Ok) :
    unpack_2d_permute_2_pointer buf b data d p = copyAll (unpackPairs2d1 2 b d p) buf data := by
  unfold unpack_2d_permute_2_pointer unpackPairs2d1
  have e2 : irange 2 = [0, 1] := rfl
  rw [nest1 buf _ _ (fun i c => (irange p.nfast).flatMap fun f =>
      [(d + 2 * i + f * p.nstride, c + f * 2), (d + 2 * i + f * p.nstride + 1, c + f * 2 + 1)])
      (p.nfast * 2)]
  · congr 1; congr 1; funext i
    congr 1; funext f
    simp only [e2, List.map_cons, List.map_nil]
    have e : ∀ a b c d e f g h : Int, a = e → b = f → c = g → d = h →
        [(a, b), (c, d)] = [(e, f), (g, h)] := by intros; simp_all
    apply e <;> ring
  · intro i c m
    exact forPtr_run buf _ (fun x c => [(x, c), (x + 1, c + 1)]) 2 (ptr2_body buf) _ _ _
      h.fast h.stride c m

theorem unpack_2d_permute_n_pointer_eq (data buf : Mem α) (d b : Int) (p : PackPlan2) (h : p.Ok) :
    unpack_2d_permute_n_pointer buf b data d p = copyAll (unpackPairs2d1 p.nqty b d p) buf data := by
  unfold unpack_2d_permute_n_pointer unpackPairs2d1
  rw [nest1 buf _ _ (fun i c => (irange p.nfast).flatMap fun f => (irange p.nqty).map fun t =>
      (d + p.nqty * i + f * p.nstride + t, c + f * p.nqty + t)) (p.nfast * p.nqty)]
  · congr 1; congr 1; funext i; congr 1; funext f; congr 1; funext t
    congr 1 <;> ring
  · intro i c m
    exact forPtr_run buf _ (fun x c => (irange p.nqty).map fun t => (x + t, c + t)) p.nqty
      (ptrn_body buf _ h.qty) _ _ _ h.fast h.stride c m

theorem pack_2d_memcpy_eq (data buf : Mem α) (d b : Int) (p : PackPlan2) (h : p.Ok) :
    pack_2d_memcpy 1 data d buf b p = copyAll (packPairs2d d b p) data buf := by
  unfold pack_2d_memcpy packPairs2d
  simp only [mul_one, memcpyM_eq _ _ _ _ _ h.fast]
  rw [nest1_0 data _ _ _ (fun i m => rfl)]
  congr 1; congr 1; funext i; congr 1; funext f
  congr 1 <;> ring

theorem unpack_2d_memcpy_eq (data buf : Mem α) (d b : Int) (p : PackPlan2) (h : p.Ok) :
    unpack_2d_memcpy 1 buf b data d p = copyAll (unpackPairs2d0 b d p) buf data := by
  unfold unpack_2d_memcpy unpackPairs2d0
  simp only [mul_one, memcpyM_eq _ _ _ _ _ h.fast]
  rw [nest1_0 buf _ _ _ (fun i m => rfl)]
  congr 1; congr 1; funext i; congr 1; funext f
  congr 1 <;> ring

/-- The values of `packflag` for which the routines work: memcpy only when scalars are doubles. -/
def FlagOk2 (w packflag : Int) : Prop := packflag = 0 ∨ packflag = 1 ∨ (packflag = 2 ∧ w = 1)

theorem packSel2_eq {w packflag : Int} (hp : FlagOk2 w packflag) :
    ∃ f, packSel2 (α := α) w packflag = some f ∧
      ∀ data d buf b (p : PackPlan2), p.Ok →
        f data d buf b p = copyAll (packPairs2d d b p) data buf := by
  rcases hp with rfl | rfl | ⟨rfl, rfl⟩
  · exact ⟨_, rfl, fun _ _ _ _ p h => pack_2d_array_eq _ _ _ _ p h⟩
  · exact ⟨_, rfl, fun _ _ _ _ p h => pack_2d_pointer_eq _ _ _ _ p h⟩
  · exact ⟨_, rfl, fun _ _ _ _ p h => pack_2d_memcpy_eq _ _ _ _ p h⟩

theorem unpackSel2_eq {w packflag permute nqty : Int} (hp : FlagOk2 w packflag)
    (hm : permute = 0 ∨ permute = 1) :
    ∃ f, unpackSel2 (α := α) w packflag permute nqty = some f ∧
      ∀ buf b data d (p : PackPlan2), p.Ok → p.nqty = nqty →
        f buf b data d p = copyAll (unpackPairs2d permute b d p) buf data := by
  rcases hm with rfl | rfl
  · rcases hp with rfl | rfl | ⟨rfl, rfl⟩
    · exact ⟨_, rfl, fun _ _ _ _ p h _ => unpack_2d_array_eq _ _ _ _ p h⟩
    · exact ⟨_, rfl, fun _ _ _ _ p h _ => unpack_2d_pointer_eq _ _ _ _ p h⟩
    · exact ⟨_, rfl, fun _ _ _ _ p h _ => unpack_2d_memcpy_eq _ _ _ _ p h⟩
  · simp only [unpackSel2, unpackPairs2d]
    by_cases h1 : nqty = 1
    · subst h1
      rcases hp with rfl | rfl | ⟨rfl, rfl⟩ <;>
        refine ⟨_, rfl, fun _ _ _ _ p h hq => ?_⟩ <;> simp only [hq]
      · exact unpack_2d_permute_1_array_eq _ _ _ _ p h
      · exact unpack_2d_permute_1_pointer_eq _ _ _ _ p h
      · exact unpack_2d_permute_1_pointer_eq _ _ _ _ p h
    · by_cases h2 : nqty = 2
      · subst h2
        rcases hp with rfl | rfl | ⟨rfl, rfl⟩ <;>
          refine ⟨_, rfl, fun _ _ _ _ p h hq => ?_⟩ <;> simp only [hq]
        · exact unpack_2d_permute_2_array_eq _ _ _ _ p h
        · exact unpack_2d_permute_2_pointer_eq _ _ _ _ p h
        · exact unpack_2d_permute_2_pointer_eq _ _ _ _ p h
      · simp only [h1, h2, if_false]
        rcases hp with rfl | rfl | ⟨rfl, rfl⟩ <;>
          refine ⟨_, rfl, fun _ _ _ _ p h hq => ?_⟩
        · exact unpack_2d_permute_n_array_eq _ _ _ _ p h
        · exact unpack_2d_permute_n_pointer_eq _ _ _ _ p h
        · exact unpack_2d_permute_n_pointer_eq _ _ _ _ p h

end FftMpi
