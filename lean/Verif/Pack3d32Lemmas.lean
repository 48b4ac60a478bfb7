import Verif.Pack3d32

/-!
# The 32-bit pack routines agree with the unbounded ones when the indices fit
-/

namespace FftMpi

variable {α : Type}

/-- Plans of `pack_3d_*` and `unpack_3d_*` without permutation whose indices fit. -/
structure PackPlan3.Fit0 (p : PackPlan3) : Prop where
  fast : 0 ≤ p.nfast
  mid : 1 ≤ p.nmid
  slow : 1 ≤ p.nslow
  line : 0 ≤ p.nstride_line
  plane : 0 ≤ p.nstride_plane
  idx : ∀ s m, 0 ≤ s → s < p.nslow → 0 ≤ m → m < p.nmid →
    s * p.nstride_plane + m * p.nstride_line + p.nfast ≤ 2147483647
  tot : p.nslow * p.nmid * p.nfast ≤ 2147483647

/-- Plans of the unpack routines with permutation, `a` and `c` are the strides of `slow` and `mid`,
`st` the stride of `fast`, `q` values per element.  `ext` is what must fit beyond the first index of a
row: `nfast*st` for the array versions. -/
structure PackPlan3.FitP (p : PackPlan3) (a c st q ext : Int) : Prop where
  fast : 0 ≤ p.nfast
  mid : 1 ≤ p.nmid
  slow : 1 ≤ p.nslow
  apos : 0 ≤ a
  cpos : 0 ≤ c
  qpos : 1 ≤ q
  st_le : q ≤ st
  idx : ∀ s m, 0 ≤ s → s < p.nslow → 0 ≤ m → m < p.nmid → s * a + m * c + ext ≤ 2147483647
  row : p.nfast * st ≤ 2147483647
  tot : p.nslow * p.nmid * (p.nfast * q) ≤ 2147483647

theorem run_pos {n m w i j : Int} (hw : 0 ≤ w) (hi : 0 ≤ i) (hi' : i < n) (hj : 0 ≤ j) (hj' : j < m) :
    0 ≤ (i * m + j) * w ∧ (i * m + j) * w + w ≤ n * m * w := by
  have h1 : 0 ≤ i * m + j := by nlinarith
  have h2 : i * m + j + 1 ≤ n * m := by nlinarith
  constructor
  · exact mul_nonneg h1 hw
  · nlinarith

theorem pack_3d_array32_eq {p : PackPlan3} (h : p.Fit0) (data buf : Mem α) (d b : Int) :
    pack_3d_array32 data d buf b p = pack_3d_array data d buf b p := by
  unfold pack_3d_array32
  rw [forN_bind (p := fun i => i * p.nstride_plane) (F := fun plane _ s => forN p.nmid (fun mid s =>
      ((mul32 mid p.nstride_line).bind fun t => add32 plane t).bind fun out =>
      (row32 data b d p.nfast 1 s.1 out s.2).map fun r => (r.1.1, r.2)) s)]
  · refine congrArg (Option.map Prod.snd) (nest32 (w := p.nfast) (by have := h.slow; omega)
      (by have := h.mid; omega) ?_ buf)
    intro i j M hi hi' hj hj'
    have h1 := h.idx i j hi hi' hj hj'
    have h2 : 0 ≤ i * p.nstride_plane := mul_nonneg hi h.plane
    have h3 : 0 ≤ j * p.nstride_line := mul_nonneg hj h.line
    have h4 := h.fast
    have h5 := run_pos h.fast hi hi' hj hj'
    have h6 := h.tot
    rw [mul32_eq (fits_of h3 (by omega)), Option.bind_some, add32_eq (fits_of (by omega) (by omega)),
      Option.bind_some]
    obtain ⟨r1, r2⟩ := row32_eq data b d (n := p.nfast) (st := 1) (x := (i * p.nmid + j) * p.nfast)
      (y := i * p.nstride_plane + j * p.nstride_line) M h4 (by omega) h5.1 (by omega) (by omega) (by omega)
    refine ⟨?_, ?_⟩
    · rw [r1]; rfl
    · intro s' hs'
      change Option.map (fun r : (Int × Int) × Mem α => (r.1.1, r.2)) (row data b d p.nfast 1 _ _ M) = _ at hs'
      simp only [Option.map_eq_some_iff] at hs'
      obtain ⟨r, hr, rfl⟩ := hs'
      have := r2 r hr
      simp only [this]; ring
  · intro i hi hi'
    have h1 := h.idx i 0 hi hi' (by omega) (by have := h.mid; omega)
    have h2 : 0 ≤ i * p.nstride_plane := mul_nonneg hi h.plane
    have h4 := h.fast
    exact mul32_eq (fits_of h2 (by omega))

theorem unpack_3d_array32_eq {p : PackPlan3} (h : p.Fit0) (buf data : Mem α) (b d : Int) :
    unpack_3d_array32 buf b data d p = unpack_3d_array buf b data d p := by
  unfold unpack_3d_array32
  rw [forN_bind (p := fun i => i * p.nstride_plane) (F := fun plane _ s => forN p.nmid (fun mid s =>
      ((mul32 mid p.nstride_line).bind fun t => add32 plane t).bind fun inn =>
      (row32 buf d b p.nfast 1 inn s.1 s.2).map fun r => (r.1.2, r.2)) s)]
  · refine congrArg (Option.map Prod.snd) (nest32 (w := p.nfast) (by have := h.slow; omega)
      (by have := h.mid; omega) ?_ data)
    intro i j M hi hi' hj hj'
    have h1 := h.idx i j hi hi' hj hj'
    have h2 : 0 ≤ i * p.nstride_plane := mul_nonneg hi h.plane
    have h3 : 0 ≤ j * p.nstride_line := mul_nonneg hj h.line
    have h4 := h.fast
    have h5 := run_pos h.fast hi hi' hj hj'
    have h6 := h.tot
    rw [mul32_eq (fits_of h3 (by omega)), Option.bind_some, add32_eq (fits_of (by omega) (by omega)),
      Option.bind_some]
    obtain ⟨r1, r2⟩ := row32_eq buf d b (n := p.nfast) (st := 1) (y := (i * p.nmid + j) * p.nfast)
      (x := i * p.nstride_plane + j * p.nstride_line) M h4 (by omega) (by omega) h5.1 (by omega) (by omega)
    refine ⟨?_, ?_⟩
    · rw [r1]; rfl
    · intro s' hs'
      change Option.map (fun r : (Int × Int) × Mem α => (r.1.2, r.2)) (row buf d b p.nfast 1 _ _ M) = _ at hs'
      simp only [Option.map_eq_some_iff] at hs'
      obtain ⟨r, hr, rfl⟩ := hs'
      have := r2 r hr
      simp only [this]
  · intro i hi hi'
    have h1 := h.idx i 0 hi hi' (by omega) (by have := h.mid; omega)
    have h2 : 0 ≤ i * p.nstride_plane := mul_nonneg hi h.plane
    have h4 := h.fast
    exact mul32_eq (fits_of h2 (by omega))

theorem unpack_3d_permute1_1_array32_eq {p : PackPlan3}
    (h : p.FitP (p.nstride_line) (1) p.nstride_plane 1 (p.nfast * p.nstride_plane)) (buf data : Mem α) (b d : Int) :
    unpack_3d_permute1_1_array32 buf b data d p = unpack_3d_permute1_1_array buf b data d p := by
  unfold unpack_3d_permute1_1_array32
  rw [forN_bind (p := fun i => i * p.nstride_line) (F := fun plane _ s => forN p.nmid (fun mid s =>
      (add32 plane mid).bind fun inn =>
      (row32 buf d b p.nfast p.nstride_plane inn s.1 s.2).map fun r => (r.1.2, r.2)) s)]
  · refine congrArg (Option.map Prod.snd) (nest32 (w := p.nfast) (by have := h.slow; omega)
      (by have := h.mid; omega) ?_ data)
    intro i j M hi hi' hj hj'
    have h1 := h.idx i j hi hi' hj hj'
    have h2 : 0 ≤ i * p.nstride_line := mul_nonneg hi h.apos
    have h3 : 0 ≤ j * 1 := mul_nonneg hj h.cpos
    have hst := h.st_le
    have hq := h.qpos
    have h7 : 0 ≤ p.nfast * p.nstride_plane := mul_nonneg h.fast (by omega)
    have h8 : 0 ≤ p.nfast := h.fast
    have h5 := run_pos h8 hi hi' hj hj'
    have h6 := h.tot
    rw [mul_one] at h6
    rw [add32_eq (fits_of (by omega) (by omega)), Option.bind_some]
    obtain ⟨r1, r2⟩ := row32_eq buf d b (n := p.nfast) (st := p.nstride_plane) (y := (i * p.nmid + j) * p.nfast)
      (x := i * p.nstride_line + j) M h.fast (by have := h.qpos; have := h.st_le; omega) (by omega) h5.1 (by omega) (by omega)
    refine ⟨?_, ?_⟩
    · rw [r1]; rfl
    · intro s' hs'
      change Option.map (fun r : (Int × Int) × Mem α => (r.1.2, r.2))
        (row buf d b p.nfast p.nstride_plane _ _ M) = _ at hs'
      simp only [Option.map_eq_some_iff] at hs'
      obtain ⟨r, hr, rfl⟩ := hs'
      have := r2 r hr
      simp only [this]
  · intro i hi hi'
    have h1 := h.idx i 0 hi hi' (by omega) (by have := h.mid; omega)
    have h2 : 0 ≤ i * p.nstride_line := mul_nonneg hi h.apos
    have h7 : 0 ≤ p.nfast * p.nstride_plane :=
      mul_nonneg h.fast (by have := h.st_le; have := h.qpos; omega)
    exact mul32_eq (fits_of h2 (by omega))

theorem unpack_3d_permute1_1_pointer32_eq {p : PackPlan3}
    (h : p.FitP (p.nstride_line) (1) p.nstride_plane 1 0) (buf data : Mem α) (b d : Int) :
    unpack_3d_permute1_1_pointer32 buf b data d p =
      unpack_3d_permute1_1_pointer buf b data d p := by
  unfold unpack_3d_permute1_1_pointer32
  rw [forN_bind (p := fun i => i * p.nstride_line) (F := fun plane _ s => forN p.nmid (fun mid s =>
      (add32 plane mid).bind fun x =>
      (mul32 p.nfast p.nstride_plane).bind fun len =>
      forPtr (d + x) (d + x + len) p.nstride_plane (fun inn (s : Int × Mem α) =>
        (copy1 buf s.2 inn s.1).map fun m => (s.1 + 1, m)) s) s)]
  · refine congrArg (Option.map Prod.snd) (forN_congr (fun _ _ => True) (by have := h.slow; omega)
      trivial ?_).1
    intro i s hi hi' _
    refine ⟨?_, fun _ _ => trivial⟩
    refine (forN_congr (fun _ _ => True) (by have := h.mid; omega) trivial ?_).1
    intro j s hj hj' _
    refine ⟨?_, fun _ _ => trivial⟩
    have h1 := h.idx i j hi hi' hj hj'
    have h2 : 0 ≤ i * p.nstride_line := mul_nonneg hi h.apos
    have h3 : 0 ≤ j * 1 := mul_nonneg hj h.cpos
    have hst := h.st_le
    have hq := h.qpos
    have h7 : 0 ≤ p.nfast * p.nstride_plane := mul_nonneg h.fast (by omega)
    have h8 := h.row
    rw [add32_eq (fits_of (by omega) (by omega)), Option.bind_some]
    rw [mul32_eq (fits_of (by omega) (by omega)), Option.bind_some]
  · intro i hi hi'
    have h1 := h.idx i 0 hi hi' (by omega) (by have := h.mid; omega)
    have h2 : 0 ≤ i * p.nstride_line := mul_nonneg hi h.apos
    exact mul32_eq (fits_of h2 (by omega))

theorem unpack_3d_permute1_2_array32_eq {p : PackPlan3}
    (h : p.FitP (p.nstride_line) (2) p.nstride_plane 2 (p.nfast * p.nstride_plane)) (buf data : Mem α) (b d : Int) :
    unpack_3d_permute1_2_array32 buf b data d p = unpack_3d_permute1_2_array buf b data d p := by
  unfold unpack_3d_permute1_2_array32
  rw [forN_bind (p := fun i => i * p.nstride_line) (F := fun plane _ s => forN p.nmid (fun mid s =>
      ((mul32 2 mid).bind fun t => add32 plane t).bind fun inn =>
      (pairRow32 buf d b p.nfast p.nstride_plane inn s.1 s.2).map fun r => (r.1.2, r.2)) s)]
  · refine congrArg (Option.map Prod.snd) (nest32 (w := (p.nfast * 2)) (by have := h.slow; omega)
      (by have := h.mid; omega) ?_ data)
    intro i j M hi hi' hj hj'
    have h1 := h.idx i j hi hi' hj hj'
    have h2 : 0 ≤ i * p.nstride_line := mul_nonneg hi h.apos
    have h3 : 0 ≤ j * 2 := mul_nonneg hj h.cpos
    have hc : 2 * j = j * 2 := mul_comm _ _
    have hst := h.st_le
    have hq := h.qpos
    have h7 : 0 ≤ p.nfast * p.nstride_plane := mul_nonneg h.fast (by omega)
    have h8 : 0 ≤ (p.nfast * 2) := mul_nonneg h.fast (by omega)
    have h5 := run_pos h8 hi hi' hj hj'
    have h6 := h.tot
    rw [mul32_eq (fits_of (by omega) (by omega)), Option.bind_some, add32_eq (fits_of (by omega) (by omega)),
          Option.bind_some]
    obtain ⟨r1, r2⟩ := pairRow32_eq buf d b (n := p.nfast) (st := p.nstride_plane) (y := (i * p.nmid + j) * (p.nfast * 2))
      (x := i * p.nstride_line + 2 * j) M h.fast (by have := h.st_le; omega) (by omega) h5.1 (by omega) (by omega)
    refine ⟨?_, ?_⟩
    · rw [r1]; rfl
    · intro s' hs'
      change Option.map (fun r : (Int × Int) × Mem α => (r.1.2, r.2))
        (pairRow buf d b p.nfast p.nstride_plane _ _ M) = _ at hs'
      simp only [Option.map_eq_some_iff] at hs'
      obtain ⟨r, hr, rfl⟩ := hs'
      have := r2 r hr
      simp only [this]
  · intro i hi hi'
    have h1 := h.idx i 0 hi hi' (by omega) (by have := h.mid; omega)
    have h2 : 0 ≤ i * p.nstride_line := mul_nonneg hi h.apos
    have h7 : 0 ≤ p.nfast * p.nstride_plane :=
      mul_nonneg h.fast (by have := h.st_le; have := h.qpos; omega)
    exact mul32_eq (fits_of h2 (by omega))

theorem unpack_3d_permute1_2_pointer32_eq {p : PackPlan3}
    (h : p.FitP (p.nstride_line) (2) p.nstride_plane 2 0) (buf data : Mem α) (b d : Int) :
    unpack_3d_permute1_2_pointer32 buf b data d p =
      unpack_3d_permute1_2_pointer buf b data d p := by
  unfold unpack_3d_permute1_2_pointer32
  rw [forN_bind (p := fun i => i * p.nstride_line) (F := fun plane _ s => forN p.nmid (fun mid s =>
      ((mul32 2 mid).bind fun t => add32 plane t).bind fun x =>
      (mul32 p.nfast p.nstride_plane).bind fun len =>
      forPtr (d + x) (d + x + len) p.nstride_plane (fun inn (s : Int × Mem α) =>
        (copy1 buf s.2 inn s.1).bind fun m =>
        (copy1 buf m (inn + 1) (s.1 + 1)).map fun m => (s.1 + 2, m)) s) s)]
  · refine congrArg (Option.map Prod.snd) (forN_congr (fun _ _ => True) (by have := h.slow; omega)
      trivial ?_).1
    intro i s hi hi' _
    refine ⟨?_, fun _ _ => trivial⟩
    refine (forN_congr (fun _ _ => True) (by have := h.mid; omega) trivial ?_).1
    intro j s hj hj' _
    refine ⟨?_, fun _ _ => trivial⟩
    have h1 := h.idx i j hi hi' hj hj'
    have h2 : 0 ≤ i * p.nstride_line := mul_nonneg hi h.apos
    have h3 : 0 ≤ j * 2 := mul_nonneg hj h.cpos
    have hc : 2 * j = j * 2 := mul_comm _ _
    have hst := h.st_le
    have hq := h.qpos
    have h7 : 0 ≤ p.nfast * p.nstride_plane := mul_nonneg h.fast (by omega)
    have h8 := h.row
    rw [mul32_eq (fits_of (by omega) (by omega)), Option.bind_some, add32_eq (fits_of (by omega) (by omega)),
          Option.bind_some]
    rw [mul32_eq (fits_of (by omega) (by omega)), Option.bind_some]
  · intro i hi hi'
    have h1 := h.idx i 0 hi hi' (by omega) (by have := h.mid; omega)
    have h2 : 0 ≤ i * p.nstride_line := mul_nonneg hi h.apos
    exact mul32_eq (fits_of h2 (by omega))

theorem unpack_3d_permute1_n_array32_eq {p : PackPlan3}
    (h : p.FitP (p.nstride_line) (p.nqty) p.nstride_plane p.nqty (p.nfast * p.nstride_plane)) (buf data : Mem α) (b d : Int) :
    unpack_3d_permute1_n_array32 buf b data d p = unpack_3d_permute1_n_array buf b data d p := by
  unfold unpack_3d_permute1_n_array32
  rw [forN_bind (p := fun i => i * p.nstride_line) (F := fun plane _ s => forN p.nmid (fun mid s =>
      ((mul32 p.nqty mid).bind fun t => add32 plane t).bind fun inn =>
      (multRow32 buf d b p.nfast p.nstride_plane p.nqty inn s.1 s.2).map fun r => (r.1.2, r.2)) s)]
  · refine congrArg (Option.map Prod.snd) (nest32 (w := (p.nfast * p.nqty)) (by have := h.slow; omega)
      (by have := h.mid; omega) ?_ data)
    intro i j M hi hi' hj hj'
    have h1 := h.idx i j hi hi' hj hj'
    have h2 : 0 ≤ i * p.nstride_line := mul_nonneg hi h.apos
    have h3 : 0 ≤ j * p.nqty := mul_nonneg hj h.cpos
    have hc : p.nqty * j = j * p.nqty := mul_comm _ _
    have hst := h.st_le
    have hq := h.qpos
    have h7 : 0 ≤ p.nfast * p.nstride_plane := mul_nonneg h.fast (by omega)
    have h8 : 0 ≤ (p.nfast * p.nqty) := mul_nonneg h.fast (by omega)
    have h5 := run_pos h8 hi hi' hj hj'
    have h6 := h.tot
    rw [mul32_eq (fits_of (by omega) (by omega)), Option.bind_some, add32_eq (fits_of (by omega) (by omega)),
          Option.bind_some]
    obtain ⟨r1, r2⟩ := multRow32_eq buf d b (n := p.nfast) (st := p.nstride_plane) (q := p.nqty) (y := (i * p.nmid + j) * (p.nfast * p.nqty))
      (x := i * p.nstride_line + p.nqty * j) M h.fast (by have := h.qpos; omega) h.st_le (by omega) h5.1 (by omega) (by omega)
    refine ⟨?_, ?_⟩
    · rw [r1]; rfl
    · intro s' hs'
      change Option.map (fun r : (Int × Int) × Mem α => (r.1.2, r.2))
        (multRow buf d b p.nfast p.nstride_plane p.nqty _ _ M) = _ at hs'
      simp only [Option.map_eq_some_iff] at hs'
      obtain ⟨r, hr, rfl⟩ := hs'
      have := r2 r hr
      simp only [this]
  · intro i hi hi'
    have h1 := h.idx i 0 hi hi' (by omega) (by have := h.mid; omega)
    have h2 : 0 ≤ i * p.nstride_line := mul_nonneg hi h.apos
    have h7 : 0 ≤ p.nfast * p.nstride_plane :=
      mul_nonneg h.fast (by have := h.st_le; have := h.qpos; omega)
    exact mul32_eq (fits_of h2 (by omega))

theorem unpack_3d_permute1_n_pointer32_eq {p : PackPlan3}
    (h : p.FitP (p.nstride_line) (p.nqty) p.nstride_plane p.nqty 0) (buf data : Mem α) (b d : Int) :
    unpack_3d_permute1_n_pointer32 buf b data d p =
      unpack_3d_permute1_n_pointer buf b data d p := by
  unfold unpack_3d_permute1_n_pointer32
  rw [forN_bind (p := fun i => i * p.nstride_line) (F := fun plane _ s => forN p.nmid (fun mid s =>
      ((mul32 p.nqty mid).bind fun t => add32 plane t).bind fun x =>
      (mul32 p.nfast p.nstride_plane).bind fun len =>
      forPtr (d + x) (d + x + len) p.nstride_plane (fun instart (s : Int × Mem α) =>
        (forN p.nqty (fun _ (t : (Int × Int) × Mem α) =>
          (copy1 buf t.2 t.1.1 t.1.2).map fun m => ((t.1.1 + 1, t.1.2 + 1), m))
          ((instart, s.1), s.2)).map fun r => (r.1.2, r.2)) s) s)]
  · refine congrArg (Option.map Prod.snd) (forN_congr (fun _ _ => True) (by have := h.slow; omega)
      trivial ?_).1
    intro i s hi hi' _
    refine ⟨?_, fun _ _ => trivial⟩
    refine (forN_congr (fun _ _ => True) (by have := h.mid; omega) trivial ?_).1
    intro j s hj hj' _
    refine ⟨?_, fun _ _ => trivial⟩
    have h1 := h.idx i j hi hi' hj hj'
    have h2 : 0 ≤ i * p.nstride_line := mul_nonneg hi h.apos
    have h3 : 0 ≤ j * p.nqty := mul_nonneg hj h.cpos
    have hc : p.nqty * j = j * p.nqty := mul_comm _ _
    have hst := h.st_le
    have hq := h.qpos
    have h7 : 0 ≤ p.nfast * p.nstride_plane := mul_nonneg h.fast (by omega)
    have h8 := h.row
    rw [mul32_eq (fits_of (by omega) (by omega)), Option.bind_some, add32_eq (fits_of (by omega) (by omega)),
          Option.bind_some]
    rw [mul32_eq (fits_of (by omega) (by omega)), Option.bind_some]
  · intro i hi hi'
    have h1 := h.idx i 0 hi hi' (by omega) (by have := h.mid; omega)
    have h2 : 0 ≤ i * p.nstride_line := mul_nonneg hi h.apos
    exact mul32_eq (fits_of h2 (by omega))

theorem unpack_3d_permute2_1_array32_eq {p : PackPlan3}
    (h : p.FitP (1) (p.nstride_plane) p.nstride_line 1 (p.nfast * p.nstride_line)) (buf data : Mem α) (b d : Int) :
    unpack_3d_permute2_1_array32 buf b data d p = unpack_3d_permute2_1_array buf b data d p := by
  unfold unpack_3d_permute2_1_array32
  refine congrArg (Option.map Prod.snd) (nest32 (w := p.nfast) (by have := h.slow; omega)
    (by have := h.mid; omega) ?_ data)
  intro i j M hi hi' hj hj'
  have h1 := h.idx i j hi hi' hj hj'
  have h2 : 0 ≤ i * 1 := mul_nonneg hi h.apos
  have h3 : 0 ≤ j * p.nstride_plane := mul_nonneg hj h.cpos
  have hst := h.st_le
  have hq := h.qpos
  have h7 : 0 ≤ p.nfast * p.nstride_line := mul_nonneg h.fast (by omega)
  have h8 : 0 ≤ p.nfast := h.fast
  have h5 := run_pos h8 hi hi' hj hj'
  have h6 := h.tot
  rw [mul_one] at h6
  rw [mul32_eq (fits_of (by omega) (by omega)), Option.bind_some, add32_eq (fits_of (by omega) (by omega)),
        Option.bind_some]
  obtain ⟨r1, r2⟩ := row32_eq buf d b (n := p.nfast) (st := p.nstride_line) (y := (i * p.nmid + j) * p.nfast)
    (x := i + j * p.nstride_plane) M h.fast (by have := h.qpos; have := h.st_le; omega) (by omega) h5.1 (by omega) (by omega)
  refine ⟨?_, ?_⟩
  · rw [r1]; rfl
  · intro s' hs'
    change Option.map (fun r : (Int × Int) × Mem α => (r.1.2, r.2))
      (row buf d b p.nfast p.nstride_line _ _ M) = _ at hs'
    simp only [Option.map_eq_some_iff] at hs'
    obtain ⟨r, hr, rfl⟩ := hs'
    have := r2 r hr
    simp only [this]

theorem unpack_3d_permute2_1_pointer32_eq {p : PackPlan3}
    (h : p.FitP (1) (p.nstride_plane) p.nstride_line 1 0) (buf data : Mem α) (b d : Int) :
    unpack_3d_permute2_1_pointer32 buf b data d p =
      unpack_3d_permute2_1_pointer buf b data d p := by
  unfold unpack_3d_permute2_1_pointer32
  refine congrArg (Option.map Prod.snd) (forN_congr (fun _ _ => True) (by have := h.slow; omega)
    trivial ?_).1
  intro i s hi hi' _
  refine ⟨?_, fun _ _ => trivial⟩
  refine (forN_congr (fun _ _ => True) (by have := h.mid; omega) trivial ?_).1
  intro j s hj hj' _
  refine ⟨?_, fun _ _ => trivial⟩
  have h1 := h.idx i j hi hi' hj hj'
  have h2 : 0 ≤ i * 1 := mul_nonneg hi h.apos
  have h3 : 0 ≤ j * p.nstride_plane := mul_nonneg hj h.cpos
  have hst := h.st_le
  have hq := h.qpos
  have h7 : 0 ≤ p.nfast * p.nstride_line := mul_nonneg h.fast (by omega)
  have h8 := h.row
  rw [mul32_eq (fits_of (by omega) (by omega)), Option.bind_some, add32_eq (fits_of (by omega) (by omega)),
        Option.bind_some]
  rw [mul32_eq (fits_of (by omega) (by omega)), Option.bind_some]

theorem unpack_3d_permute2_2_array32_eq {p : PackPlan3}
    (h : p.FitP (2) (p.nstride_plane) p.nstride_line 2 (p.nfast * p.nstride_line)) (buf data : Mem α) (b d : Int) :
    unpack_3d_permute2_2_array32 buf b data d p = unpack_3d_permute2_2_array buf b data d p := by
  unfold unpack_3d_permute2_2_array32
  refine congrArg (Option.map Prod.snd) (nest32 (w := (p.nfast * 2)) (by have := h.slow; omega)
    (by have := h.mid; omega) ?_ data)
  intro i j M hi hi' hj hj'
  have h1 := h.idx i j hi hi' hj hj'
  have h2 : 0 ≤ i * 2 := mul_nonneg hi h.apos
  have h3 : 0 ≤ j * p.nstride_plane := mul_nonneg hj h.cpos
  have hc : 2 * i = i * 2 := mul_comm _ _
  have hst := h.st_le
  have hq := h.qpos
  have h7 : 0 ≤ p.nfast * p.nstride_line := mul_nonneg h.fast (by omega)
  have h8 : 0 ≤ (p.nfast * 2) := mul_nonneg h.fast (by omega)
  have h5 := run_pos h8 hi hi' hj hj'
  have h6 := h.tot
  rw [mul32_eq (a := 2) (fits_of (by omega) (by omega)), Option.bind_some,
        mul32_eq (fits_of (by omega) (by omega)), Option.bind_some, add32_eq (fits_of (by omega) (by omega)),
        Option.bind_some]
  obtain ⟨r1, r2⟩ := pairRow32_eq buf d b (n := p.nfast) (st := p.nstride_line) (y := (i * p.nmid + j) * (p.nfast * 2))
    (x := 2 * i + j * p.nstride_plane) M h.fast (by have := h.st_le; omega) (by omega) h5.1 (by omega) (by omega)
  refine ⟨?_, ?_⟩
  · rw [r1]; rfl
  · intro s' hs'
    change Option.map (fun r : (Int × Int) × Mem α => (r.1.2, r.2))
      (pairRow buf d b p.nfast p.nstride_line _ _ M) = _ at hs'
    simp only [Option.map_eq_some_iff] at hs'
    obtain ⟨r, hr, rfl⟩ := hs'
    have := r2 r hr
    simp only [this]

theorem unpack_3d_permute2_2_pointer32_eq {p : PackPlan3}
    (h : p.FitP (2) (p.nstride_plane) p.nstride_line 2 0) (buf data : Mem α) (b d : Int) :
    unpack_3d_permute2_2_pointer32 buf b data d p =
      unpack_3d_permute2_2_pointer buf b data d p := by
  unfold unpack_3d_permute2_2_pointer32
  refine congrArg (Option.map Prod.snd) (forN_congr (fun _ _ => True) (by have := h.slow; omega)
    trivial ?_).1
  intro i s hi hi' _
  refine ⟨?_, fun _ _ => trivial⟩
  refine (forN_congr (fun _ _ => True) (by have := h.mid; omega) trivial ?_).1
  intro j s hj hj' _
  refine ⟨?_, fun _ _ => trivial⟩
  have h1 := h.idx i j hi hi' hj hj'
  have h2 : 0 ≤ i * 2 := mul_nonneg hi h.apos
  have h3 : 0 ≤ j * p.nstride_plane := mul_nonneg hj h.cpos
  have hc : 2 * i = i * 2 := mul_comm _ _
  have hst := h.st_le
  have hq := h.qpos
  have h7 : 0 ≤ p.nfast * p.nstride_line := mul_nonneg h.fast (by omega)
  have h8 := h.row
  rw [mul32_eq (a := 2) (fits_of (by omega) (by omega)), Option.bind_some,
        mul32_eq (fits_of (by omega) (by omega)), Option.bind_some, add32_eq (fits_of (by omega) (by omega)),
        Option.bind_some]
  rw [mul32_eq (fits_of (by omega) (by omega)), Option.bind_some]

theorem unpack_3d_permute2_n_array32_eq {p : PackPlan3}
    (h : p.FitP (p.nqty) (p.nstride_plane) p.nstride_line p.nqty (p.nfast * p.nstride_line)) (buf data : Mem α) (b d : Int) :
    unpack_3d_permute2_n_array32 buf b data d p = unpack_3d_permute2_n_array buf b data d p := by
  unfold unpack_3d_permute2_n_array32
  refine congrArg (Option.map Prod.snd) (nest32 (w := (p.nfast * p.nqty)) (by have := h.slow; omega)
    (by have := h.mid; omega) ?_ data)
  intro i j M hi hi' hj hj'
  have h1 := h.idx i j hi hi' hj hj'
  have h2 : 0 ≤ i * p.nqty := mul_nonneg hi h.apos
  have h3 : 0 ≤ j * p.nstride_plane := mul_nonneg hj h.cpos
  have hc : p.nqty * i = i * p.nqty := mul_comm _ _
  have hst := h.st_le
  have hq := h.qpos
  have h7 : 0 ≤ p.nfast * p.nstride_line := mul_nonneg h.fast (by omega)
  have h8 : 0 ≤ (p.nfast * p.nqty) := mul_nonneg h.fast (by omega)
  have h5 := run_pos h8 hi hi' hj hj'
  have h6 := h.tot
  rw [mul32_eq (a := p.nqty) (fits_of (by omega) (by omega)), Option.bind_some,
        mul32_eq (fits_of (by omega) (by omega)), Option.bind_some, add32_eq (fits_of (by omega) (by omega)),
        Option.bind_some]
  obtain ⟨r1, r2⟩ := multRow32_eq buf d b (n := p.nfast) (st := p.nstride_line) (q := p.nqty) (y := (i * p.nmid + j) * (p.nfast * p.nqty))
    (x := p.nqty * i + j * p.nstride_plane) M h.fast (by have := h.qpos; omega) h.st_le (by omega) h5.1 (by omega) (by omega)
  refine ⟨?_, ?_⟩
  · rw [r1]; rfl
  · intro s' hs'
    change Option.map (fun r : (Int × Int) × Mem α => (r.1.2, r.2))
      (multRow buf d b p.nfast p.nstride_line p.nqty _ _ M) = _ at hs'
    simp only [Option.map_eq_some_iff] at hs'
    obtain ⟨r, hr, rfl⟩ := hs'
    have := r2 r hr
    simp only [this]

theorem unpack_3d_permute2_n_pointer32_eq {p : PackPlan3}
    (h : p.FitP (p.nqty) (p.nstride_plane) p.nstride_line p.nqty 0) (buf data : Mem α) (b d : Int) :
    unpack_3d_permute2_n_pointer32 buf b data d p =
      unpack_3d_permute2_n_pointer buf b data d p := by
  unfold unpack_3d_permute2_n_pointer32
  refine congrArg (Option.map Prod.snd) (forN_congr (fun _ _ => True) (by have := h.slow; omega)
    trivial ?_).1
  intro i s hi hi' _
  refine ⟨?_, fun _ _ => trivial⟩
  refine (forN_congr (fun _ _ => True) (by have := h.mid; omega) trivial ?_).1
  intro j s hj hj' _
  refine ⟨?_, fun _ _ => trivial⟩
  have h1 := h.idx i j hi hi' hj hj'
  have h2 : 0 ≤ i * p.nqty := mul_nonneg hi h.apos
  have h3 : 0 ≤ j * p.nstride_plane := mul_nonneg hj h.cpos
  have hc : p.nqty * i = i * p.nqty := mul_comm _ _
  have hst := h.st_le
  have hq := h.qpos
  have h7 : 0 ≤ p.nfast * p.nstride_line := mul_nonneg h.fast (by omega)
  have h8 := h.row
  rw [mul32_eq (a := p.nqty) (fits_of (by omega) (by omega)), Option.bind_some,
        mul32_eq (fits_of (by omega) (by omega)), Option.bind_some, add32_eq (fits_of (by omega) (by omega)),
        Option.bind_some]
  rw [mul32_eq (fits_of (by omega) (by omega)), Option.bind_some]

theorem pack_3d_pointer32_eq {p : PackPlan3} (h : p.Fit0) (data buf : Mem α) (d b : Int) :
    pack_3d_pointer32 data d buf b p = pack_3d_pointer data d buf b p := by
  unfold pack_3d_pointer32
  rw [forN_bind (p := fun i => i * p.nstride_plane) (F := fun plane _ s => forN p.nmid (fun mid s =>
      ((mul32 mid p.nstride_line).bind fun t => add32 plane t).bind fun x =>
      forPtr (d + x) (d + x + p.nfast) 1 (fun out (s : Int × Mem α) =>
        (copy1 data s.2 s.1 out).map fun m => (s.1 + 1, m)) s) s)]
  · refine congrArg (Option.map Prod.snd) (forN_congr (fun _ _ => True) (by have := h.slow; omega)
      trivial ?_).1
    intro i s hi hi' _
    refine ⟨?_, fun _ _ => trivial⟩
    refine (forN_congr (fun _ _ => True) (by have := h.mid; omega) trivial ?_).1
    intro j s hj hj' _
    refine ⟨?_, fun _ _ => trivial⟩
    have h1 := h.idx i j hi hi' hj hj'
    have h2 : 0 ≤ i * p.nstride_plane := mul_nonneg hi h.plane
    have h3 : 0 ≤ j * p.nstride_line := mul_nonneg hj h.line
    have h4 := h.fast
    rw [mul32_eq (fits_of h3 (by omega)), Option.bind_some, add32_eq (fits_of (by omega) (by omega)),
      Option.bind_some]
  · intro i hi hi'
    have h1 := h.idx i 0 hi hi' (by omega) (by have := h.mid; omega)
    have h2 : 0 ≤ i * p.nstride_plane := mul_nonneg hi h.plane
    have h4 := h.fast
    exact mul32_eq (fits_of h2 (by omega))

theorem unpack_3d_pointer32_eq {p : PackPlan3} (h : p.Fit0) (buf data : Mem α) (b d : Int) :
    unpack_3d_pointer32 buf b data d p = unpack_3d_pointer buf b data d p := by
  unfold unpack_3d_pointer32
  rw [forN_bind (p := fun i => i * p.nstride_plane) (F := fun plane _ s => forN p.nmid (fun mid s =>
      ((mul32 mid p.nstride_line).bind fun t => add32 plane t).bind fun x =>
      forPtr (d + x) (d + x + p.nfast) 1 (fun inn (s : Int × Mem α) =>
        (copy1 buf s.2 inn s.1).map fun m => (s.1 + 1, m)) s) s)]
  · refine congrArg (Option.map Prod.snd) (forN_congr (fun _ _ => True) (by have := h.slow; omega)
      trivial ?_).1
    intro i s hi hi' _
    refine ⟨?_, fun _ _ => trivial⟩
    refine (forN_congr (fun _ _ => True) (by have := h.mid; omega) trivial ?_).1
    intro j s hj hj' _
    refine ⟨?_, fun _ _ => trivial⟩
    have h1 := h.idx i j hi hi' hj hj'
    have h2 : 0 ≤ i * p.nstride_plane := mul_nonneg hi h.plane
    have h3 : 0 ≤ j * p.nstride_line := mul_nonneg hj h.line
    have h4 := h.fast
    rw [mul32_eq (fits_of h3 (by omega)), Option.bind_some, add32_eq (fits_of (by omega) (by omega)),
      Option.bind_some]
  · intro i hi hi'
    have h1 := h.idx i 0 hi hi' (by omega) (by have := h.mid; omega)
    have h2 : 0 ≤ i * p.nstride_plane := mul_nonneg hi h.plane
    have h4 := h.fast
    exact mul32_eq (fits_of h2 (by omega))

theorem pack_3d_memcpy32_eq {p : PackPlan3} (h : p.Fit0) {sz : Int} (hsz : 1 ≤ sz)
    (hf : 1 ≤ p.nfast) (hb : p.nfast * sz ≤ 2147483647)
    (data buf : Mem α) (d b : Int) :
    pack_3d_memcpy32 sz data d buf b p = pack_3d_memcpy data d buf b p := by
  unfold pack_3d_memcpy32
  simp only []
  rw [wrap32_eq (fits_of (mul_nonneg h.fast (by omega)) hb), Int.mul_ediv_cancel _ (by omega)]
  refine (forN_congr (fun _ _ => True) (by have := h.slow; omega) trivial ?_).1
  intro i s hi hi' _
  refine ⟨?_, fun _ _ => trivial⟩
  have g1 := h.idx i 0 hi hi' (by omega) (by have := h.mid; omega)
  have h2 : 0 ≤ i * p.nstride_plane := mul_nonneg hi h.plane
  have h4 := h.fast
  have h6 := h.tot
  have hm := h.mid
  have g2 := run_pos h.fast hi hi' (j := 0) (m := p.nmid) (by omega) (by omega)
  rw [add_zero] at g2
  have g3 : 0 ≤ i * p.nmid := mul_nonneg hi (by omega)
  have g4 : i * p.nmid ≤ i * p.nmid * p.nfast := by nlinarith
  rw [mul32_eq (fits_of h2 (by omega)), Option.bind_some, mul32_eq (fits_of g3 (by omega)),
    Option.bind_some, mul32_eq (fits_of g2.1 (by omega)), Option.bind_some]
  refine (forN_congr (fun _ _ => True) (by omega) trivial ?_).1
  intro j s hj hj' _
  refine ⟨?_, fun _ _ => trivial⟩
  have h1 := h.idx i j hi hi' hj hj'
  have h3 : 0 ≤ j * p.nstride_line := mul_nonneg hj h.line
  have h5 := run_pos h.fast hi hi' hj hj'
  rw [add_mul] at h5
  have h8 : 0 ≤ j * p.nfast := mul_nonneg hj h4
  rw [mul32_eq (a := j) (b := p.nfast) (fits_of h8 (by omega)), Option.bind_some,
    add32_eq (a := i * p.nmid * p.nfast) (fits_of (by omega) (by omega)), Option.bind_some,
    mul32_eq (a := j) (b := p.nstride_line) (fits_of h3 (by omega)), Option.bind_some,
    add32_eq (a := i * p.nstride_plane) (fits_of (by omega) (by omega)), Option.bind_some]

theorem unpack_3d_memcpy32_eq {p : PackPlan3} (h : p.Fit0) {sz : Int} (hsz : 1 ≤ sz)
    (hf : 1 ≤ p.nfast) (hb : p.nfast * sz ≤ 2147483647)
    (buf data : Mem α) (b d : Int) :
    unpack_3d_memcpy32 sz buf b data d p = unpack_3d_memcpy buf b data d p := by
  unfold unpack_3d_memcpy32
  simp only []
  rw [wrap32_eq (fits_of (mul_nonneg h.fast (by omega)) hb), Int.mul_ediv_cancel _ (by omega)]
  refine (forN_congr (fun _ _ => True) (by have := h.slow; omega) trivial ?_).1
  intro i s hi hi' _
  refine ⟨?_, fun _ _ => trivial⟩
  have g1 := h.idx i 0 hi hi' (by omega) (by have := h.mid; omega)
  have h2 : 0 ≤ i * p.nstride_plane := mul_nonneg hi h.plane
  have h4 := h.fast
  have h6 := h.tot
  have hm := h.mid
  have g2 := run_pos h.fast hi hi' (j := 0) (m := p.nmid) (by omega) (by omega)
  rw [add_zero] at g2
  have g3 : 0 ≤ i * p.nmid := mul_nonneg hi (by omega)
  have g4 : i * p.nmid ≤ i * p.nmid * p.nfast := by nlinarith
  rw [mul32_eq (fits_of h2 (by omega)), Option.bind_some, mul32_eq (fits_of g3 (by omega)),
    Option.bind_some, mul32_eq (fits_of g2.1 (by omega)), Option.bind_some]
  refine (forN_congr (fun _ _ => True) (by omega) trivial ?_).1
  intro j s hj hj' _
  refine ⟨?_, fun _ _ => trivial⟩
  have h1 := h.idx i j hi hi' hj hj'
  have h3 : 0 ≤ j * p.nstride_line := mul_nonneg hj h.line
  have h5 := run_pos h.fast hi hi' hj hj'
  rw [add_mul] at h5
  have h8 : 0 ≤ j * p.nfast := mul_nonneg hj h4
  rw [mul32_eq (a := j) (b := p.nstride_line) (fits_of h3 (by omega)), Option.bind_some,
    add32_eq (a := i * p.nstride_plane) (fits_of (by omega) (by omega)), Option.bind_some,
    mul32_eq (a := j) (b := p.nfast) (fits_of h8 (by omega)), Option.bind_some,
    add32_eq (a := i * p.nmid * p.nfast) (fits_of (by omega) (by omega)), Option.bind_some]

end FftMpi
