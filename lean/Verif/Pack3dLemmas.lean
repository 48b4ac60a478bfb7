import Verif.Pack3d

/-!
# Every pack / unpack routine is a list of copies
-/

namespace FftMpi

variable {α : Type}

/-- `[0, 1, ..., k-1]` as integers. -/
def irangeN (k : Nat) : List Int := (List.range k).map fun t : Nat => (t : Int)

/-- `[0, 1, ..., n-1]`, empty for `n ≤ 0`. -/
def irange (n : Int) : List Int := irangeN n.toNat

theorem irangeN_succ (k : Nat) : irangeN (k+1) = 0 :: (irangeN k).map (· + 1) := by
  simp [irangeN, List.range_succ_eq_map, Function.comp_def]

@[simp] theorem irangeN_zero : irangeN 0 = [] := rfl

theorem mem_irange {n x : Int} : x ∈ irange n ↔ 0 ≤ x ∧ x < n := by
  simp only [irange, irangeN, List.mem_map, List.mem_range]
  constructor
  · rintro ⟨t, h1, rfl⟩; omega
  · rintro ⟨h1, h2⟩; exact ⟨x.toNat, by omega, by omega⟩

theorem irange_nodup (n : Int) : (irange n).Nodup := by
  unfold irange irangeN
  exact (List.nodup_range).map (fun a b h => by simpa using h)

/-- Closed form of a loop whose body makes copies and adds `w` to one counter. -/
theorem forFrom_run (src : Mem α) (body : Int → Int × Mem α → Option (Int × Mem α))
    (L : Int → Int → List (Int × Int)) (w : Int)
    (hb : ∀ i c m, body i (c, m) = (copyAll (L i c) src m).map fun m' => (c + w, m'))
    (i : Int) (k : Nat) (c : Int) (m : Mem α) :
    forFrom i k body (c, m) =
      (copyAll ((irangeN k).flatMap fun t => L (i + t) (c + t * w)) src m).map
        fun m' => (c + k * w, m') := by
  induction k generalizing i c m with
  | zero => simp [forFrom]
  | succ k ih =>
    simp only [forFrom, hb, irangeN_succ, List.flatMap_cons, copyAll_append,
      List.flatMap_map, add_zero, zero_mul]
    cases copyAll (L i c) src m with
    | none => simp
    | some m' =>
      simp only [Option.map_some, Option.bind_some, ih]
      have e1 : c + w + k * w = c + ((k + 1 : Nat) : Int) * w := by push_cast; ring
      have e2 : ((irangeN k).flatMap fun t => L (i + 1 + t) (c + w + t * w)) =
          (irangeN k).flatMap fun t => L (i + (t + 1)) (c + (t + 1) * w) := by
        congr 1
        funext t
        congr 1 <;> ring
      rw [e1, e2]

/-- Same with two counters. -/
theorem forFrom_run2 (src : Mem α)
    (body : Int → (Int × Int) × Mem α → Option ((Int × Int) × Mem α))
    (L : Int → Int → Int → List (Int × Int)) (w1 w2 : Int)
    (hb : ∀ i c1 c2 m, body i ((c1, c2), m) =
      (copyAll (L i c1 c2) src m).map fun m' => ((c1 + w1, c2 + w2), m'))
    (i : Int) (k : Nat) (c1 c2 : Int) (m : Mem α) :
    forFrom i k body ((c1, c2), m) =
      (copyAll ((irangeN k).flatMap fun t => L (i + t) (c1 + t * w1) (c2 + t * w2)) src m).map
        fun m' => ((c1 + k * w1, c2 + k * w2), m') := by
  induction k generalizing i c1 c2 m with
  | zero => simp [forFrom]
  | succ k ih =>
    simp only [forFrom, hb, irangeN_succ, List.flatMap_cons, copyAll_append,
      List.flatMap_map, add_zero, zero_mul]
    cases copyAll (L i c1 c2) src m with
    | none => simp
    | some m' =>
      simp only [Option.map_some, Option.bind_some, ih]
      have e1 : ∀ c w : Int, c + w + k * w = c + ((k + 1 : Nat) : Int) * w := by
        intro c w; push_cast; ring
      have e2 : ((irangeN k).flatMap fun t => L (i + 1 + t) (c1 + w1 + t * w1)
            (c2 + w2 + t * w2)) =
          (irangeN k).flatMap fun t => L (i + (t + 1))
            (c1 + (t + 1) * w1) (c2 + (t + 1) * w2) := by
        congr 1
        funext t
        congr 1 <;> ring
      rw [e1, e1, e2]

/-- Same without counter. -/
theorem forFrom_run0 (src : Mem α) (body : Int → Mem α → Option (Mem α))
    (L : Int → List (Int × Int))
    (hb : ∀ i m, body i m = copyAll (L i) src m) (i : Int) (k : Nat) (m : Mem α) :
    forFrom i k body m = copyAll ((irangeN k).flatMap fun t => L (i + t)) src m := by
  induction k generalizing i m with
  | zero => simp [forFrom]
  | succ k ih =>
    simp only [forFrom, hb, irangeN_succ, List.flatMap_cons, copyAll_append,
      List.flatMap_map, add_zero]
    cases copyAll (L i) src m with
    | none => simp
    | some m' =>
      simp only [Option.bind_some, ih]
      congr 2
      funext t
      congr 1; ring

theorem flatMap_single {β : Type} (l : List Int) (f : Int → β) :
    (l.flatMap fun t => [f t]) = l.map f := by
  induction l with
  | nil => rfl
  | cons a l ih => simp [ih]

/-- Consecutive copies with strides `w1` (destination) and `w2` (source). -/
theorem forN_copy_stride (src : Mem α) (d s w1 w2 : Int) (n : Int) (c1 c2 : Int) (m : Mem α) :
    forN n (fun _ (t : (Int × Int) × Mem α) =>
        (copy1 src t.2 (d + t.1.1) (s + t.1.2)).map fun m => ((t.1.1 + w1, t.1.2 + w2), m))
      ((c1, c2), m) =
    (copyAll ((irange n).map fun t =>
        (d + (c1 + t * w1), s + (c2 + t * w2))) src m).map
      fun m' => ((c1 + n.toNat * w1, c2 + n.toNat * w2), m') := by
  unfold forN
  rw [forFrom_run2 src _ (fun _ c1 c2 => [(d + c1, s + c2)]) w1 w2]
  · rw [flatMap_single]; rfl
  · intro i c1 c2 m; simp [copyAll_single]

/-! ## The canonical copy lists -/

/-- Copies of a pack: contiguous `buf` from index `b`, strided `data` from index `d`. -/
def packPairs (d b : Int) (p : PackPlan3) : List (Int × Int) :=
  (irange p.nslow).flatMap fun s => (irange p.nmid).flatMap fun m => (irange p.nfast).map fun f =>
    (b + ((s * p.nmid + m) * p.nfast + f), d + (s * p.nstride_plane + m * p.nstride_line + f))

/-- Copies of an unpack without permutation. -/
def unpackPairs0 (b d : Int) (p : PackPlan3) : List (Int × Int) :=
  (irange p.nslow).flatMap fun s => (irange p.nmid).flatMap fun m => (irange p.nfast).map fun f =>
    (d + (s * p.nstride_plane + m * p.nstride_line + f), b + ((s * p.nmid + m) * p.nfast + f))

/-- Copies of an unpack with one permutation, `q` values per element. -/
def unpackPairs1 (q : Int) (b d : Int) (p : PackPlan3) : List (Int × Int) :=
  (irange p.nslow).flatMap fun s => (irange p.nmid).flatMap fun m =>
    (irange p.nfast).flatMap fun f => (irange q).map fun t =>
    (d + (s * p.nstride_line + q * m + f * p.nstride_plane + t),
     b + (((s * p.nmid + m) * p.nfast + f) * q + t))

/-- Copies of an unpack with two permutations, `q` values per element. -/
def unpackPairs2 (q : Int) (b d : Int) (p : PackPlan3) : List (Int × Int) :=
  (irange p.nslow).flatMap fun s => (irange p.nmid).flatMap fun m =>
    (irange p.nfast).flatMap fun f => (irange q).map fun t =>
    (d + (q * s + m * p.nstride_plane + f * p.nstride_line + t),
     b + (((s * p.nmid + m) * p.nfast + f) * q + t))

/-- Two nested loops around a body of width `w` with one counter. -/
theorem nest2 (src : Mem α) (n1 n2 : Int) (h2 : 0 ≤ n2)
    (body : Int → Int → Int × Mem α → Option (Int × Mem α))
    (L : Int → Int → Int → List (Int × Int)) (w : Int)
    (hb : ∀ i j c m, body i j (c, m) = (copyAll (L i j c) src m).map fun m' => (c + w, m'))
    (c : Int) (m : Mem α) :
    (forN n1 (fun i s => forN n2 (fun j s => body i j s) s) (c, m)).map Prod.snd =
      copyAll ((irange n1).flatMap fun i => (irange n2).flatMap fun j =>
        L i j (c + (i * n2 + j) * w)) src m := by
  unfold forN
  rw [forFrom_run src _
    (fun i c => (irange n2).flatMap fun j => L i j (c + j * w)) (n2 * w)]
  · simp only [Option.map_map]
    have : (Prod.snd ∘ fun m' : Mem α => (c + n1.toNat * (n2 * w), m')) = id := rfl
    rw [this, Option.map_id]
    simp only [zero_add, id]
    congr 1
    unfold irange
    congr 1; funext i; congr 1; funext j; congr 1; ring
  · intro i c m
    rw [forFrom_run src _ (fun j c => L i j c) w (hb i)]
    simp only [zero_add, irange]
    have : (n2.toNat : Int) = n2 := by omega
    rw [this]

/-- Two nested loops without counter. -/
theorem nest2_0 (src : Mem α) (n1 n2 : Int)
    (body : Int → Int → Mem α → Option (Mem α)) (L : Int → Int → List (Int × Int))
    (hb : ∀ i j m, body i j m = copyAll (L i j) src m) (m : Mem α) :
    forN n1 (fun i s => forN n2 (fun j s => body i j s) s) m =
      copyAll ((irange n1).flatMap fun i => (irange n2).flatMap fun j => L i j) src m := by
  unfold forN
  rw [forFrom_run0 src _ (fun i => (irange n2).flatMap fun j => L i j)]
  · simp [irange]
  · intro i m
    rw [forFrom_run0 src _ (fun j => L i j) (hb i)]
    simp [irange]

/-- Well formed plans: sizes and strides as `Remap3d::setup` produces them. -/
structure PackPlan3.Ok (p : PackPlan3) : Prop where
  fast : 0 ≤ p.nfast
  mid : 0 ≤ p.nmid
  line : 0 < p.nstride_line
  plane : 0 < p.nstride_plane
  qty : 0 ≤ p.nqty

theorem pack_3d_array_eq (data buf : Mem α) (d b : Int) (p : PackPlan3) (h : p.Ok) :
    pack_3d_array data d buf b p = copyAll (packPairs d b p) data buf := by
  unfold pack_3d_array packPairs
  rw [nest2 data _ _ h.mid _ (fun i j c => (irange p.nfast).map fun f =>
      (b + (c + f * 1), d + ((i * p.nstride_plane + j * p.nstride_line) + f * 1))) p.nfast]
  · congr 1; congr 1; funext i; congr 1; funext j; congr 1; funext f; congr 1 <;> ring
  · intro i j c m
    simp only [forN_copy_stride, Option.map_map]
    have : (p.nfast.toNat : Int) = p.nfast := by have := h.fast; omega
    rw [this]
    congr 1
    funext m'; simp

theorem unpack_3d_array_eq (data buf : Mem α) (d b : Int) (p : PackPlan3) (h : p.Ok) :
    unpack_3d_array buf b data d p = copyAll (unpackPairs0 b d p) buf data := by
  unfold unpack_3d_array unpackPairs0
  rw [nest2 buf _ _ h.mid _ (fun i j c => (irange p.nfast).map fun f =>
      (d + ((i * p.nstride_plane + j * p.nstride_line) + f * 1), b + (c + f * 1))) p.nfast]
  · congr 1; congr 1; funext i; congr 1; funext j; congr 1; funext f; congr 1 <;> ring
  · intro i j c m
    simp only [forN_copy_stride, Option.map_map]
    have : (p.nfast.toNat : Int) = p.nfast := by have := h.fast; omega
    rw [this]
    congr 1
    funext m'; simp


/-- Inner loops of the 2-value array routines. -/
theorem forN_copy2_stride (src : Mem α) (d s w1 : Int) (n : Int) (c1 c2 : Int) (m : Mem α) :
    forN n (fun _ (t : (Int × Int) × Mem α) =>
        (copy1 src t.2 (d + t.1.1) (s + t.1.2)).bind fun m =>
        (copy1 src m (d + (t.1.1 + 1)) (s + (t.1.2 + 1))).map fun m =>
          ((t.1.1 + w1, t.1.2 + 2), m)) ((c1, c2), m) =
    (copyAll ((irange n).flatMap fun f => (irange 2).map fun t =>
        (d + (c1 + f * w1 + t), s + (c2 + f * 2 + t))) src m).map
      fun m' => ((c1 + n.toNat * w1, c2 + n.toNat * 2), m') := by
  unfold forN
  rw [forFrom_run2 src _ (fun _ c1 c2 => [(d + c1, s + c2), (d + (c1 + 1), s + (c2 + 1))]) w1 2]
  · have : irange 2 = [0, 1] := rfl
    rw [this]
    simp [irange]
  · intro i c1 c2 m
    simp only [copyAll]
    cases copy1 src m (d + c1) (s + c2) <;> simp

/-- Inner loops of the n-value array routines. -/
theorem forN_copyq_stride (src : Mem α) (d s w1 q : Int) (hq : 0 ≤ q) (n : Int) (c1 c2 : Int)
    (m : Mem α) :
    forN n (fun _ (s' : (Int × Int) × Mem α) =>
        (forN q (fun _ (t : (Int × Int) × Mem α) =>
          (copy1 src t.2 (d + t.1.1) (s + t.1.2)).map fun m => ((t.1.1 + 1, t.1.2 + 1), m))
          ((s'.1.1, s'.1.2), s'.2)).map fun r => ((s'.1.1 + w1, r.1.2), r.2)) ((c1, c2), m) =
    (copyAll ((irange n).flatMap fun f => (irange q).map fun t =>
        (d + (c1 + f * w1 + t), s + (c2 + f * q + t))) src m).map
      fun m' => ((c1 + n.toNat * w1, c2 + n.toNat * q), m') := by
  unfold forN
  rw [forFrom_run2 src _ (fun _ c1 c2 => (irange q).map fun t =>
    (d + (c1 + t * 1), s + (c2 + t * 1))) w1 q]
  · simp [irange]
  · intro i c1 c2 m
    have := forN_copy_stride src d s 1 1 q c1 c2 m
    unfold forN at this
    simp only [this, Option.map_map]
    congr 1
    funext m'
    have : (q.toNat : Int) = q := by omega
    simp [this]

theorem toNat_cast {n : Int} (h : 0 ≤ n) : (n.toNat : Int) = n := by omega

theorem irange_one : irange 1 = [0] := rfl

theorem unpack_3d_permute1_1_array_eq (data buf : Mem α) (d b : Int) (p : PackPlan3) (h : p.Ok) :
    unpack_3d_permute1_1_array buf b data d p = copyAll (unpackPairs1 1 b d p) buf data := by
  unfold unpack_3d_permute1_1_array unpackPairs1
  rw [nest2 buf _ _ h.mid _ (fun i j c => (irange p.nfast).map fun f =>
      (d + ((i * p.nstride_line + j) + f * p.nstride_plane), b + (c + f * 1))) p.nfast]
  · congr 1; congr 1; funext i; congr 1; funext j
    simp only [irange_one, List.map_cons, List.map_nil]
    rw [flatMap_single]
    congr 1; funext f; congr 1 <;> ring
  · intro i j c m
    simp only [forN_copy_stride, Option.map_map, toNat_cast h.fast]
    congr 1
    funext m'; simp

theorem unpack_3d_permute1_2_array_eq (data buf : Mem α) (d b : Int) (p : PackPlan3) (h : p.Ok) :
    unpack_3d_permute1_2_array buf b data d p = copyAll (unpackPairs1 2 b d p) buf data := by
  unfold unpack_3d_permute1_2_array unpackPairs1
  rw [nest2 buf _ _ h.mid _ (fun i j c => (irange p.nfast).flatMap fun f => (irange 2).map fun t =>
      (d + ((i * p.nstride_line + 2 * j) + f * p.nstride_plane + t), b + (c + f * 2 + t)))
      (p.nfast * 2)]
  · congr 1; congr 1; funext i; congr 1; funext j; congr 1; funext f; congr 1; funext t
    congr 1; ring
  · intro i j c m
    simp only [forN_copy2_stride, Option.map_map, toNat_cast h.fast]
    congr 1

theorem unpack_3d_permute1_n_array_eq (data buf : Mem α) (d b : Int) (p : PackPlan3) (h : p.Ok) :
    unpack_3d_permute1_n_array buf b data d p =
      copyAll (unpackPairs1 p.nqty b d p) buf data := by
  unfold unpack_3d_permute1_n_array unpackPairs1
  rw [nest2 buf _ _ h.mid _ (fun i j c => (irange p.nfast).flatMap fun f =>
      (irange p.nqty).map fun t =>
      (d + ((i * p.nstride_line + p.nqty * j) + f * p.nstride_plane + t),
       b + (c + f * p.nqty + t)))
      (p.nfast * p.nqty)]
  · congr 1; congr 1; funext i; congr 1; funext j; congr 1; funext f; congr 1; funext t
    congr 1; ring
  · intro i j c m
    simp only [forN_copyq_stride _ _ _ _ _ h.qty, Option.map_map, toNat_cast h.fast]
    congr 1

theorem unpack_3d_permute2_1_array_eq (data buf : Mem α) (d b : Int) (p : PackPlan3) (h : p.Ok) :
    unpack_3d_permute2_1_array buf b data d p = copyAll (unpackPairs2 1 b d p) buf data := by
  unfold unpack_3d_permute2_1_array unpackPairs2
  rw [nest2 buf _ _ h.mid _ (fun i j c => (irange p.nfast).map fun f =>
      (d + ((i + j * p.nstride_plane) + f * p.nstride_line), b + (c + f * 1))) p.nfast]
  · congr 1; congr 1; funext i; congr 1; funext j
    simp only [irange_one, List.map_cons, List.map_nil]
    rw [flatMap_single]
    congr 1; funext f; congr 1 <;> ring
  · intro i j c m
    simp only [forN_copy_stride, Option.map_map, toNat_cast h.fast]
    congr 1
    funext m'; simp

theorem unpack_3d_permute2_2_array_eq (data buf : Mem α) (d b : Int) (p : PackPlan3) (h : p.Ok) :
    unpack_3d_permute2_2_array buf b data d p = copyAll (unpackPairs2 2 b d p) buf data := by
  unfold unpack_3d_permute2_2_array unpackPairs2
  rw [nest2 buf _ _ h.mid _ (fun i j c => (irange p.nfast).flatMap fun f => (irange 2).map fun t =>
      (d + ((2 * i + j * p.nstride_plane) + f * p.nstride_line + t), b + (c + f * 2 + t)))
      (p.nfast * 2)]
  · congr 1; congr 1; funext i; congr 1; funext j; congr 1; funext f; congr 1; funext t
    congr 1; ring
  · intro i j c m
    simp only [forN_copy2_stride, Option.map_map, toNat_cast h.fast]
    congr 1

theorem unpack_3d_permute2_n_array_eq (data buf : Mem α) (d b : Int) (p : PackPlan3) (h : p.Ok) :
    unpack_3d_permute2_n_array buf b data d p =
      copyAll (unpackPairs2 p.nqty b d p) buf data := by
  unfold unpack_3d_permute2_n_array unpackPairs2
  rw [nest2 buf _ _ h.mid _ (fun i j c => (irange p.nfast).flatMap fun f =>
      (irange p.nqty).map fun t =>
      (d + ((p.nqty * i + j * p.nstride_plane) + f * p.nstride_line + t),
       b + (c + f * p.nqty + t)))
      (p.nfast * p.nqty)]
  · congr 1; congr 1; funext i; congr 1; funext j; congr 1; funext f; congr 1; funext t
    congr 1; ring
  · intro i j c m
    simp only [forN_copyq_stride _ _ _ _ _ h.qty, Option.map_map, toNat_cast h.fast]
    congr 1

/-! ### Pointer versions -/

theorem forPtr_run (src : Mem α) (body : Int → Int × Mem α → Option (Int × Mem α))
    (L : Int → Int → List (Int × Int)) (w : Int)
    (hb : ∀ x c m, body x (c, m) = (copyAll (L x c) src m).map fun m' => (c + w, m'))
    (beg st n : Int) (hn : 0 ≤ n) (hst : 0 < st) (c : Int) (m : Mem α) :
    forPtr beg (beg + n * st) st body (c, m) =
      (copyAll ((irange n).flatMap fun t => L (beg + t * st) (c + t * w)) src m).map
        fun m' => (c + n * w, m') := by
  obtain ⟨k, rfl⟩ := Int.eq_ofNat_of_zero_le hn
  rw [forPtr_eq _ _ _ hst]
  rw [forFrom_run src _ (fun i c => L (beg + i * st) c) w]
  · simp [irange]
  · intro i c m; rw [hb]

theorem pack_3d_pointer_eq (data buf : Mem α) (d b : Int) (p : PackPlan3) (h : p.Ok) :
    pack_3d_pointer data d buf b p = copyAll (packPairs d b p) data buf := by
  unfold pack_3d_pointer packPairs
  rw [nest2 data _ _ h.mid _ (fun i j c => (irange p.nfast).flatMap fun f =>
      [(c + f * 1, d + (i * p.nstride_plane + j * p.nstride_line) + f * 1)]) p.nfast]
  · congr 1; congr 1; funext i; congr 1; funext j
    rw [flatMap_single]
    congr 1; funext f; congr 1 <;> ring
  · intro i j c m
    have := forPtr_run data (fun out (s : Int × Mem α) =>
        (copy1 data s.2 s.1 out).map fun m => (s.1 + 1, m)) (fun x c => [(c, x)]) 1
        (by intro x c m; simp [copyAll_single])
        (d + (i * p.nstride_plane + j * p.nstride_line)) 1 p.nfast h.fast (by omega) c m
    simp only [mul_one] at this ⊢
    rw [this]

theorem unpack_3d_pointer_eq (data buf : Mem α) (d b : Int) (p : PackPlan3) (h : p.Ok) :
    unpack_3d_pointer buf b data d p = copyAll (unpackPairs0 b d p) buf data := by
  unfold unpack_3d_pointer unpackPairs0
  rw [nest2 buf _ _ h.mid _ (fun i j c => (irange p.nfast).flatMap fun f =>
      [(d + (i * p.nstride_plane + j * p.nstride_line) + f * 1, c + f * 1)]) p.nfast]
  · congr 1; congr 1; funext i; congr 1; funext j
    rw [flatMap_single]
    congr 1; funext f; congr 1 <;> ring
  · intro i j c m
    have := forPtr_run buf (fun inn (s : Int × Mem α) =>
        (copy1 buf s.2 inn s.1).map fun m => (s.1 + 1, m)) (fun x c => [(x, c)]) 1
        (by intro x c m; simp [copyAll_single])
        (d + (i * p.nstride_plane + j * p.nstride_line)) 1 p.nfast h.fast (by omega) c m
    simp only [mul_one] at this ⊢
    rw [this]

theorem ptr1_body (buf : Mem α) (x c : Int) (m : Mem α) :
    (fun inn (s : Int × Mem α) => (copy1 buf s.2 inn s.1).map fun m => (s.1 + 1, m)) x (c, m) =
      (copyAll [(x, c)] buf m).map fun m' => (c + 1, m') := by
  simp [copyAll_single]

theorem ptr2_body (buf : Mem α) (x c : Int) (m : Mem α) :
    (fun inn (s : Int × Mem α) =>
        (copy1 buf s.2 inn s.1).bind fun m =>
        (copy1 buf m (inn + 1) (s.1 + 1)).map fun m => (s.1 + 2, m)) x (c, m) =
      (copyAll [(x, c), (x + 1, c + 1)] buf m).map fun m' => (c + 2, m') := by
  simp only [copyAll]
  cases copy1 buf m x c <;> simp

theorem ptrn_body (buf : Mem α) (q : Int) (hq : 0 ≤ q) (x c : Int) (m : Mem α) :
    (fun instart (s : Int × Mem α) =>
        (forN q (fun _ (t : (Int × Int) × Mem α) =>
          (copy1 buf t.2 t.1.1 t.1.2).map fun m => ((t.1.1 + 1, t.1.2 + 1), m))
          ((instart, s.1), s.2)).map fun r => (r.1.2, r.2)) x (c, m) =
      (copyAll ((irange q).map fun t => (x + t, c + t)) buf m).map fun m' => (c + q, m') := by
  have := forN_copy_stride buf 0 0 1 1 q x c m
  simp only [zero_add, mul_one] at this
  simp only [this, Option.map_map, toNat_cast hq]
  congr 1

theorem unpack_3d_permute1_1_pointer_eq (data buf : Mem α) (d b : Int) (p : PackPlan3)
    (h : p.Ok) :
    unpack_3d_permute1_1_pointer buf b data d p = copyAll (unpackPairs1 1 b d p) buf data := by
  unfold unpack_3d_permute1_1_pointer unpackPairs1
  rw [nest2 buf _ _ h.mid _ (fun i j c => (irange p.nfast).flatMap fun f =>
      [(d + (i * p.nstride_line + j) + f * p.nstride_plane, c + f * 1)]) (p.nfast * 1)]
  · congr 1; congr 1; funext i; congr 1; funext j
    congr 1; funext f
    simp only [irange_one, List.map_cons, List.map_nil]
    congr 2 <;> ring
  · intro i j c m
    exact forPtr_run buf _ (fun x c => [(x, c)]) 1 (ptr1_body buf) _ _ _ h.fast h.plane c m

theorem unpack_3d_permute1_2_pointer_eq (data buf : Mem α) (d b : Int) (p : PackPlan3)
    (h : p.Ok) :
    unpack_3d_permute1_2_pointer buf b data d p = copyAll (unpackPairs1 2 b d p) buf data := by
  unfold unpack_3d_permute1_2_pointer unpackPairs1
  have e2 : irange 2 = [0, 1] := rfl
  rw [nest2 buf _ _ h.mid _ (fun i j c => (irange p.nfast).flatMap fun f =>
      [(d + (i * p.nstride_line + 2 * j) + f * p.nstride_plane, c + f * 2),
       (d + (i * p.nstride_line + 2 * j) + f * p.nstride_plane + 1, c + f * 2 + 1)])
      (p.nfast * 2)]
  · congr 1; congr 1; funext i; congr 1; funext j
    congr 1; funext f
    simp only [e2, List.map_cons, List.map_nil]
    have e : ∀ a b c d e f g h : Int, a = e → b = f → c = g → d = h →
        [(a, b), (c, d)] = [(e, f), (g, h)] := by intros; simp_all
    apply e <;> ring
  · intro i j c m
    exact forPtr_run buf _ (fun x c => [(x, c), (x + 1, c + 1)]) 2 (ptr2_body buf) _ _ _
      h.fast h.plane c m

theorem unpack_3d_permute1_n_pointer_eq (data buf : Mem α) (d b : Int) (p : PackPlan3)
    (h : p.Ok) :
    unpack_3d_permute1_n_pointer buf b data d p =
      copyAll (unpackPairs1 p.nqty b d p) buf data := by
  unfold unpack_3d_permute1_n_pointer unpackPairs1
  rw [nest2 buf _ _ h.mid _ (fun i j c => (irange p.nfast).flatMap fun f =>
      (irange p.nqty).map fun t =>
      (d + (i * p.nstride_line + p.nqty * j) + f * p.nstride_plane + t, c + f * p.nqty + t))
      (p.nfast * p.nqty)]
  · congr 1; congr 1; funext i; congr 1; funext j; congr 1; funext f; congr 1; funext t
    congr 1 <;> ring
  · intro i j c m
    exact forPtr_run buf _ (fun x c => (irange p.nqty).map fun t => (x + t, c + t)) p.nqty
      (ptrn_body buf _ h.qty) _ _ _ h.fast h.plane c m

theorem unpack_3d_permute2_1_pointer_eq (data buf : Mem α) (d b : Int) (p : PackPlan3)
    (h : p.Ok) :
    unpack_3d_permute2_1_pointer buf b data d p = copyAll (unpackPairs2 1 b d p) buf data := by
  unfold unpack_3d_permute2_1_pointer unpackPairs2
  rw [nest2 buf _ _ h.mid _ (fun i j c => (irange p.nfast).flatMap fun f =>
      [(d + (i + j * p.nstride_plane) + f * p.nstride_line, c + f * 1)]) (p.nfast * 1)]
  · congr 1; congr 1; funext i; congr 1; funext j
    congr 1; funext f
    simp only [irange_one, List.map_cons, List.map_nil]
    congr 2 <;> ring
  · intro i j c m
    exact forPtr_run buf _ (fun x c => [(x, c)]) 1 (ptr1_body buf) _ _ _ h.fast h.line c m

theorem unpack_3d_permute2_2_pointer_eq (data buf : Mem α) (d b : Int) (p : PackPlan3)
    (h : p.Ok) :
    unpack_3d_permute2_2_pointer buf b data d p = copyAll (unpackPairs2 2 b d p) buf data := by
  unfold unpack_3d_permute2_2_pointer unpackPairs2
  have e2 : irange 2 = [0, 1] := rfl
  rw [nest2 buf _ _ h.mid _ (fun i j c => (irange p.nfast).flatMap fun f =>
      [(d + (2 * i + j * p.nstride_plane) + f * p.nstride_line, c + f * 2),
       (d + (2 * i + j * p.nstride_plane) + f * p.nstride_line + 1, c + f * 2 + 1)])
      (p.nfast * 2)]
  · congr 1; congr 1; funext i; congr 1; funext j
    congr 1; funext f
    simp only [e2, List.map_cons, List.map_nil]
    have e : ∀ a b c d e f g h : Int, a = e → b = f → c = g → d = h →
        [(a, b), (c, d)] = [(e, f), (g, h)] := by intros; simp_all
    apply e <;> ring
  · intro i j c m
    exact forPtr_run buf _ (fun x c => [(x, c), (x + 1, c + 1)]) 2 (ptr2_body buf) _ _ _
      h.fast h.line c m

theorem unpack_3d_permute2_n_pointer_eq (data buf : Mem α) (d b : Int) (p : PackPlan3)
    (h : p.Ok) :
    unpack_3d_permute2_n_pointer buf b data d p =
      copyAll (unpackPairs2 p.nqty b d p) buf data := by
  unfold unpack_3d_permute2_n_pointer unpackPairs2
  rw [nest2 buf _ _ h.mid _ (fun i j c => (irange p.nfast).flatMap fun f =>
      (irange p.nqty).map fun t =>
      (d + (p.nqty * i + j * p.nstride_plane) + f * p.nstride_line + t, c + f * p.nqty + t))
      (p.nfast * p.nqty)]
  · congr 1; congr 1; funext i; congr 1; funext j; congr 1; funext f; congr 1; funext t
    congr 1 <;> ring
  · intro i j c m
    exact forPtr_run buf _ (fun x c => (irange p.nqty).map fun t => (x + t, c + t)) p.nqty
      (ptrn_body buf _ h.qty) _ _ _ h.fast h.line c m

/-! ### memcpy versions -/

theorem memcpyM_eq (src dst : Mem α) (d s n : Int) (hn : 0 ≤ n) :
    memcpyM src dst d s n = copyAll ((irange n).map fun t => (d + t, s + t)) src dst := by
  unfold memcpyM forN
  rw [if_neg (by omega)]
  rw [forFrom_run0 src _ (fun t => [(d + t, s + t)])]
  · rw [flatMap_single]; simp [irange]
  · intro i m; simp [copyAll_single]

theorem pack_3d_memcpy_eq (data buf : Mem α) (d b : Int) (p : PackPlan3) (h : p.Ok) :
    pack_3d_memcpy data d buf b p = copyAll (packPairs d b p) data buf := by
  unfold pack_3d_memcpy packPairs
  simp only [memcpyM_eq _ _ _ _ _ h.fast]
  rw [nest2_0 data _ _ _ _ (fun i j m => rfl)]
  congr 1; congr 1; funext i; congr 1; funext j; congr 1; funext f
  congr 1 <;> ring

theorem unpack_3d_memcpy_eq (data buf : Mem α) (d b : Int) (p : PackPlan3) (h : p.Ok) :
    unpack_3d_memcpy buf b data d p = copyAll (unpackPairs0 b d p) buf data := by
  unfold unpack_3d_memcpy unpackPairs0
  simp only [memcpyM_eq _ _ _ _ _ h.fast]
  rw [nest2_0 buf _ _ _ _ (fun i j m => rfl)]
  congr 1; congr 1; funext i; congr 1; funext j; congr 1; funext f
  congr 1 <;> ring

/-! ### The selected routines -/

/-- Copies of the unpack chosen for a permutation. -/
def unpackPairs (permute b d : Int) (p : PackPlan3) : List (Int × Int) :=
  if permute = 0 then unpackPairs0 b d p
  else if permute = 1 then unpackPairs1 p.nqty b d p
  else unpackPairs2 p.nqty b d p

theorem packSel3_eq {packflag : Int} (hp : packflag = 0 ∨ packflag = 1 ∨ packflag = 2) :
    ∃ f, packSel3 (α := α) packflag = some f ∧
      ∀ data d buf b (p : PackPlan3), p.Ok →
        f data d buf b p = copyAll (packPairs d b p) data buf := by
  rcases hp with rfl | rfl | rfl
  · exact ⟨_, rfl, fun _ _ _ _ p h => pack_3d_array_eq _ _ _ _ p h⟩
  · exact ⟨_, rfl, fun _ _ _ _ p h => pack_3d_pointer_eq _ _ _ _ p h⟩
  · exact ⟨_, rfl, fun _ _ _ _ p h => pack_3d_memcpy_eq _ _ _ _ p h⟩

theorem unpackSel3_eq {packflag permute nqty : Int}
    (hp : packflag = 0 ∨ packflag = 1 ∨ packflag = 2)
    (hm : permute = 0 ∨ permute = 1 ∨ permute = 2) :
    ∃ f, unpackSel3 (α := α) packflag permute nqty = some f ∧
      ∀ buf b data d (p : PackPlan3), p.Ok → p.nqty = nqty →
        f buf b data d p = copyAll (unpackPairs permute b d p) buf data := by
  rcases hm with rfl | rfl | rfl
  · rcases hp with rfl | rfl | rfl
    · exact ⟨_, rfl, fun _ _ _ _ p h _ => unpack_3d_array_eq _ _ _ _ p h⟩
    · exact ⟨_, rfl, fun _ _ _ _ p h _ => unpack_3d_pointer_eq _ _ _ _ p h⟩
    · exact ⟨_, rfl, fun _ _ _ _ p h _ => unpack_3d_memcpy_eq _ _ _ _ p h⟩
  · simp only [unpackSel3, unpackPairs]
    by_cases h1 : nqty = 1
    · subst h1
      rcases hp with rfl | rfl | rfl <;>
        refine ⟨_, rfl, fun _ _ _ _ p h hq => ?_⟩ <;> simp only [hq]
      · exact unpack_3d_permute1_1_array_eq _ _ _ _ p h
      · exact unpack_3d_permute1_1_pointer_eq _ _ _ _ p h
      · exact unpack_3d_permute1_1_pointer_eq _ _ _ _ p h
    · by_cases h2 : nqty = 2
      · subst h2
        rcases hp with rfl | rfl | rfl <;>
          refine ⟨_, rfl, fun _ _ _ _ p h hq => ?_⟩ <;> simp only [hq]
        · exact unpack_3d_permute1_2_array_eq _ _ _ _ p h
        · exact unpack_3d_permute1_2_pointer_eq _ _ _ _ p h
        · exact unpack_3d_permute1_2_pointer_eq _ _ _ _ p h
      · simp only [h1, h2, if_false]
        rcases hp with rfl | rfl | rfl <;>
          refine ⟨_, rfl, fun _ _ _ _ p h hq => ?_⟩
        · exact unpack_3d_permute1_n_array_eq _ _ _ _ p h
        · exact unpack_3d_permute1_n_pointer_eq _ _ _ _ p h
        · exact unpack_3d_permute1_n_pointer_eq _ _ _ _ p h
  · simp only [unpackSel3, unpackPairs]
    by_cases h1 : nqty = 1
    · subst h1
      rcases hp with rfl | rfl | rfl <;>
        refine ⟨_, rfl, fun _ _ _ _ p h hq => ?_⟩ <;> simp only [hq]
      · exact unpack_3d_permute2_1_array_eq _ _ _ _ p h
      · exact unpack_3d_permute2_1_pointer_eq _ _ _ _ p h
      · exact unpack_3d_permute2_1_pointer_eq _ _ _ _ p h
    · by_cases h2 : nqty = 2
      · subst h2
        rcases hp with rfl | rfl | rfl <;>
          refine ⟨_, rfl, fun _ _ _ _ p h hq => ?_⟩ <;> simp only [hq]
        · exact unpack_3d_permute2_2_array_eq _ _ _ _ p h
        · exact unpack_3d_permute2_2_pointer_eq _ _ _ _ p h
        · exact unpack_3d_permute2_2_pointer_eq _ _ _ _ p h
      · simp only [h1, h2, if_false]
        rcases hp with rfl | rfl | rfl <;>
          refine ⟨_, rfl, fun _ _ _ _ p h hq => ?_⟩
        · exact unpack_3d_permute2_n_array_eq _ _ _ _ p h
        · exact unpack_3d_permute2_n_pointer_eq _ _ _ _ p h
        · exact unpack_3d_permute2_n_pointer_eq _ _ _ _ p h

end FftMpi
