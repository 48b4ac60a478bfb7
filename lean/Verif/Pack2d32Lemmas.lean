import Verif.Pack2d32

/-!
# The 32-bit 2d pack routines agree with the unbounded ones when the indices fit
-/

namespace FftMpi

variable {α : Type}

/-- Plans of `pack_2d_*` and `unpack_2d_*` without permutation whose indices fit. -/
structure PackPlan2.Fit0 (p : PackPlan2) : Prop where
  fast : 0 ≤ p.nfast
  slow : 1 ≤ p.nslow
  stride : 0 ≤ p.nstride
  idx : ∀ s, 0 ≤ s → s < p.nslow → s * p.nstride + p.nfast ≤ 2147483647
  tot : p.nslow * p.nfast ≤ 2147483647

/-- Plans of the unpack routines with permutation, `q` values per element.  `ext` is what must fit
beyond the first index of a row: `nfast*nstride` for the array versions. -/
structure PackPlan2.FitP (p : PackPlan2) (q ext : Int) : Prop where
  fast : 0 ≤ p.nfast
  slow : 1 ≤ p.nslow
  qpos : 1 ≤ q
  st_le : q ≤ p.nstride
  idx : ∀ s, 0 ≤ s → s < p.nslow → s * q + ext ≤ 2147483647
  row : p.nfast * p.nstride ≤ 2147483647
  tot : p.nslow * (p.nfast * q) ≤ 2147483647

theorem run1_pos {n w i : Int} (hw : 0 ≤ w) (hi : 0 ≤ i) (hi' : i < n) :
    0 ≤ i * w ∧ i * w + w ≤ n * w := by
  constructor
  · exact mul_nonneg hi hw
  · nlinarith

theorem pack_2d_array32_eq {p : PackPlan2} (h : p.Fit0) (data buf : Mem α) (d b : Int) :
    pack_2d_array32 data d buf b p = pack_2d_array data d buf b p := by
  unfold pack_2d_array32
  refine congrArg (Option.map Prod.snd) (nest32_1 (w := p.nfast) (by have := h.slow; omega) ?_ buf)
  intro i M hi hi'
  have h1 := h.idx i hi hi'
  have h2 : 0 ≤ i * p.nstride := mul_nonneg hi h.stride
  have h4 := h.fast
  have h5 := run1_pos h.fast hi hi'
  have h6 := h.tot
  rw [mul32_eq (fits_of h2 (by omega)), Option.bind_some]
  obtain ⟨r1, r2⟩ := row32_eq data b d (n := p.nfast) (st := 1) (x := i * p.nfast)
    (y := i * p.nstride) M h4 (by omega) h5.1 (by omega) (by omega) (by omega)
  refine ⟨?_, ?_⟩
  · rw [r1]; rfl
  · intro s' hs'
    change Option.map (fun r : (Int × Int) × Mem α => (r.1.1, r.2)) (row data b d p.nfast 1 _ _ M) = _ at hs'
    simp only [Option.map_eq_some_iff] at hs'
    obtain ⟨r, hr, rfl⟩ := hs'
    have := r2 r hr
    simp only [this]; ring

theorem unpack_2d_array32_eq {p : PackPlan2} (h : p.Fit0) (buf data : Mem α) (b d : Int) :
    unpack_2d_array32 buf b data d p = unpack_2d_array buf b data d p := by
  unfold unpack_2d_array32
  refine congrArg (Option.map Prod.snd) (nest32_1 (w := p.nfast) (by have := h.slow; omega) ?_ data)
  intro i M hi hi'
  have h1 := h.idx i hi hi'
  have h2 : 0 ≤ i * p.nstride := mul_nonneg hi h.stride
  have h4 := h.fast
  have h5 := run1_pos h.fast hi hi'
  have h6 := h.tot
  rw [mul32_eq (fits_of h2 (by omega)), Option.bind_some]
  obtain ⟨r1, r2⟩ := row32_eq buf d b (n := p.nfast) (st := 1) (y := i * p.nfast)
    (x := i * p.nstride) M h4 (by omega) (by omega) h5.1 (by omega) (by omega)
  refine ⟨?_, ?_⟩
  · rw [r1]; rfl
  · intro s' hs'
    change Option.map (fun r : (Int × Int) × Mem α => (r.1.2, r.2)) (row buf d b p.nfast 1 _ _ M) = _ at hs'
    simp only [Option.map_eq_some_iff] at hs'
    obtain ⟨r, hr, rfl⟩ := hs'
    have := r2 r hr
    simp only [this]

theorem unpack_2d_permute_1_array32_eq {p : PackPlan2}
    (h : p.FitP 1 (p.nfast * p.nstride)) (buf data : Mem α) (b d : Int) :
    unpack_2d_permute_1_array32 buf b data d p = unpack_2d_permute_1_array buf b data d p := by
  unfold unpack_2d_permute_1_array32
  refine congrArg (Option.map Prod.snd) (nest32_1 (w := p.nfast) (by have := h.slow; omega) ?_ data)
  intro i M hi hi'
  have h1 := h.idx i hi hi'
  have hst := h.st_le
  have hq := h.qpos
  have h7 : 0 ≤ p.nfast * p.nstride := mul_nonneg h.fast (by omega)
  have h5 := run1_pos (w := p.nfast) h.fast hi hi'
  have h6 := h.tot
  rw [mul_one] at h6
  obtain ⟨r1, r2⟩ := row32_eq buf d b (n := p.nfast) (st := p.nstride) (y := i * p.nfast)
    (x := i) M h.fast (by omega) (by omega) h5.1 (by omega) (by omega)
  refine ⟨?_, ?_⟩
  · rw [r1]; rfl
  · intro s' hs'
    change Option.map (fun r : (Int × Int) × Mem α => (r.1.2, r.2))
      (row buf d b p.nfast p.nstride _ _ M) = _ at hs'
    simp only [Option.map_eq_some_iff] at hs'
    obtain ⟨r, hr, rfl⟩ := hs'
    have := r2 r hr
    simp only [this]

theorem unpack_2d_permute_2_array32_eq {p : PackPlan2}
    (h : p.FitP 2 (p.nfast * p.nstride)) (buf data : Mem α) (b d : Int) :
    unpack_2d_permute_2_array32 buf b data d p = unpack_2d_permute_2_array buf b data d p := by
  unfold unpack_2d_permute_2_array32
  refine congrArg (Option.map Prod.snd) (nest32_1 (w := (p.nfast * 2)) (by have := h.slow; omega) ?_ data)
  intro i M hi hi'
  have h1 := h.idx i hi hi'
  have hst := h.st_le
  have hq := h.qpos
  have h7 : 0 ≤ p.nfast * p.nstride := mul_nonneg h.fast (by omega)
  have h5 := run1_pos (w := (p.nfast * 2)) (mul_nonneg h.fast (by omega)) hi hi'
  have h6 := h.tot
  have hc : 2 * i = i * 2 := mul_comm _ _
  have h3 : 0 ≤ i * 2 := mul_nonneg hi (by omega)
  rw [mul32_eq (fits_of (by omega) (by omega)), Option.bind_some]
  obtain ⟨r1, r2⟩ := pairRow32_eq buf d b (n := p.nfast) (st := p.nstride) (y := i * (p.nfast * 2))
    (x := 2 * i) M h.fast (by omega) (by omega) h5.1 (by omega) (by omega)
  refine ⟨?_, ?_⟩
  · rw [r1]; rfl
  · intro s' hs'
    change Option.map (fun r : (Int × Int) × Mem α => (r.1.2, r.2))
      (pairRow buf d b p.nfast p.nstride _ _ M) = _ at hs'
    simp only [Option.map_eq_some_iff] at hs'
    obtain ⟨r, hr, rfl⟩ := hs'
    have := r2 r hr
    simp only [this]

theorem unpack_2d_permute_n_array32_eq {p : PackPlan2}
    (h : p.FitP p.nqty (p.nfast * p.nstride)) (buf data : Mem α) (b d : Int) :
    unpack_2d_permute_n_array32 buf b data d p = unpack_2d_permute_n_array buf b data d p := by
  unfold unpack_2d_permute_n_array32
  refine congrArg (Option.map Prod.snd) (nest32_1 (w := (p.nfast * p.nqty)) (by have := h.slow; omega) ?_ data)
  intro i M hi hi'
  have h1 := h.idx i hi hi'
  have hst := h.st_le
  have hq := h.qpos
  have h7 : 0 ≤ p.nfast * p.nstride := mul_nonneg h.fast (by omega)
  have h5 := run1_pos (w := (p.nfast * p.nqty)) (mul_nonneg h.fast (by omega)) hi hi'
  have h6 := h.tot
  have hc : p.nqty * i = i * p.nqty := mul_comm _ _
  have h3 : 0 ≤ i * p.nqty := mul_nonneg hi (by omega)
  rw [mul32_eq (fits_of (by omega) (by omega)), Option.bind_some]
  obtain ⟨r1, r2⟩ := multRow32_eq buf d b (n := p.nfast) (st := p.nstride) (q := p.nqty) (y := i * (p.nfast * p.nqty))
    (x := p.nqty * i) M h.fast (by omega) hst (by omega) h5.1 (by omega) (by omega)
  refine ⟨?_, ?_⟩
  · rw [r1]; rfl
  · intro s' hs'
    change Option.map (fun r : (Int × Int) × Mem α => (r.1.2, r.2))
      (multRow buf d b p.nfast p.nstride p.nqty _ _ M) = _ at hs'
    simp only [Option.map_eq_some_iff] at hs'
    obtain ⟨r, hr, rfl⟩ := hs'
    have := r2 r hr
    simp only [this]

theorem pack_2d_pointer32_eq {p : PackPlan2} (h : p.Fit0) (data buf : Mem α) (d b : Int) :
    pack_2d_pointer32 data d buf b p = pack_2d_pointer data d buf b p := by
  unfold pack_2d_pointer32
  refine congrArg (Option.map Prod.snd) (forN_congr (fun _ _ => True) (by have := h.slow; omega) trivial ?_).1
  intro i s hi hi' _
  have h1 := h.idx i hi hi'
  have h2 : 0 ≤ i * p.nstride := mul_nonneg hi h.stride
  have h4 := h.fast
  rw [mul32_eq (fits_of h2 (by omega)), Option.bind_some]
  exact ⟨rfl, fun _ _ => trivial⟩

theorem unpack_2d_pointer32_eq {p : PackPlan2} (h : p.Fit0) (buf data : Mem α) (b d : Int) :
    unpack_2d_pointer32 buf b data d p = unpack_2d_pointer buf b data d p := by
  unfold unpack_2d_pointer32
  refine congrArg (Option.map Prod.snd) (forN_congr (fun _ _ => True) (by have := h.slow; omega) trivial ?_).1
  intro i s hi hi' _
  have h1 := h.idx i hi hi'
  have h2 : 0 ≤ i * p.nstride := mul_nonneg hi h.stride
  have h4 := h.fast
  rw [mul32_eq (fits_of h2 (by omega)), Option.bind_some]
  exact ⟨rfl, fun _ _ => trivial⟩

theorem unpack_2d_permute_1_pointer32_eq {p : PackPlan2} (h : p.FitP 1 0) (buf data : Mem α)
    (b d : Int) :
    unpack_2d_permute_1_pointer32 buf b data d p = unpack_2d_permute_1_pointer buf b data d p := by
  unfold unpack_2d_permute_1_pointer32
  refine congrArg (Option.map Prod.snd) (forN_congr (fun _ _ => True) (by have := h.slow; omega) trivial ?_).1
  intro i s hi hi' _
  have h1 := h.idx i hi hi'
  have hst := h.st_le
  have hq := h.qpos
  have h6 := h.row
  have h7 : 0 ≤ p.nfast * p.nstride := mul_nonneg h.fast (by omega)
  rw [mul32_eq (a := p.nfast) (fits_of (by omega) (by omega)), Option.bind_some]
  exact ⟨rfl, fun _ _ => trivial⟩

theorem unpack_2d_permute_2_pointer32_eq {p : PackPlan2} (h : p.FitP 2 0) (buf data : Mem α)
    (b d : Int) :
    unpack_2d_permute_2_pointer32 buf b data d p = unpack_2d_permute_2_pointer buf b data d p := by
  unfold unpack_2d_permute_2_pointer32
  refine congrArg (Option.map Prod.snd) (forN_congr (fun _ _ => True) (by have := h.slow; omega) trivial ?_).1
  intro i s hi hi' _
  have h1 := h.idx i hi hi'
  have hst := h.st_le
  have hq := h.qpos
  have h6 := h.row
  have h7 : 0 ≤ p.nfast * p.nstride := mul_nonneg h.fast (by omega)
  have hc : 2 * i = i * 2 := mul_comm _ _
  have h3 : 0 ≤ i * 2 := mul_nonneg hi (by omega)
  rw [mul32_eq (a := 2) (fits_of (by omega) (by omega)), Option.bind_some]
  rw [mul32_eq (a := p.nfast) (fits_of (by omega) (by omega)), Option.bind_some]
  exact ⟨rfl, fun _ _ => trivial⟩

theorem unpack_2d_permute_n_pointer32_eq {p : PackPlan2} (h : p.FitP p.nqty 0) (buf data : Mem α)
    (b d : Int) :
    unpack_2d_permute_n_pointer32 buf b data d p = unpack_2d_permute_n_pointer buf b data d p := by
  unfold unpack_2d_permute_n_pointer32
  refine congrArg (Option.map Prod.snd) (forN_congr (fun _ _ => True) (by have := h.slow; omega) trivial ?_).1
  intro i s hi hi' _
  have h1 := h.idx i hi hi'
  have hst := h.st_le
  have hq := h.qpos
  have h6 := h.row
  have h7 : 0 ≤ p.nfast * p.nstride := mul_nonneg h.fast (by omega)
  have hc : p.nqty * i = i * p.nqty := mul_comm _ _
  have h3 : 0 ≤ i * p.nqty := mul_nonneg hi (by omega)
  rw [mul32_eq (a := p.nqty) (fits_of (by omega) (by omega)), Option.bind_some]
  rw [mul32_eq (a := p.nfast) (fits_of (by omega) (by omega)), Option.bind_some]
  exact ⟨rfl, fun _ _ => trivial⟩

theorem pack_2d_memcpy32_eq {p : PackPlan2} (h : p.Fit0) {sz w : Int} (hsz : 1 ≤ sz)
    (hw : 8 = w * sz) (hb : p.nfast * 8 ≤ 2147483647) (data buf : Mem α) (d b : Int) :
    pack_2d_memcpy32 sz data d buf b p = pack_2d_memcpy w data d buf b p := by
  unfold pack_2d_memcpy32
  have h4 := h.fast
  have hs : wrap32 (p.nfast * 8) / sz = p.nfast * w := by
    rw [wrap32_eq (fits_of (by omega) hb)]
    rw [show p.nfast * 8 = p.nfast * w * sz by rw [hw]; ring]
    exact Int.mul_ediv_cancel _ (by omega)
  simp only [hs]
  refine (forN_congr (fun _ _ => True) (by have := h.slow; omega) trivial ?_).1
  intro i s hi hi' _
  have h1 := h.idx i hi hi'
  have h2 : 0 ≤ i * p.nstride := mul_nonneg hi h.stride
  have h5 := run1_pos h.fast hi hi'
  have h6 := h.tot
  rw [mul32_eq (b := p.nfast) (fits_of (by omega) (by omega)), Option.bind_some,
    mul32_eq (b := p.nstride) (fits_of (by omega) (by omega)), Option.bind_some]
  exact ⟨rfl, fun _ _ => trivial⟩

theorem unpack_2d_memcpy32_eq {p : PackPlan2} (h : p.Fit0) {sz w : Int} (hsz : 1 ≤ sz)
    (hw : 8 = w * sz) (hb : p.nfast * 8 ≤ 2147483647) (buf data : Mem α) (b d : Int) :
    unpack_2d_memcpy32 sz buf b data d p = unpack_2d_memcpy w buf b data d p := by
  unfold unpack_2d_memcpy32
  have h4 := h.fast
  have hs : wrap32 (p.nfast * 8) / sz = p.nfast * w := by
    rw [wrap32_eq (fits_of (by omega) hb)]
    rw [show p.nfast * 8 = p.nfast * w * sz by rw [hw]; ring]
    exact Int.mul_ediv_cancel _ (by omega)
  simp only [hs]
  refine (forN_congr (fun _ _ => True) (by have := h.slow; omega) trivial ?_).1
  intro i s hi hi' _
  have h1 := h.idx i hi hi'
  have h2 : 0 ≤ i * p.nstride := mul_nonneg hi h.stride
  have h5 := run1_pos h.fast hi hi'
  have h6 := h.tot
  rw [mul32_eq (b := p.nstride) (fits_of (by omega) (by omega)), Option.bind_some,
    mul32_eq (b := p.nfast) (fits_of (by omega) (by omega)), Option.bind_some]
  exact ⟨rfl, fun _ _ => trivial⟩

end FftMpi
