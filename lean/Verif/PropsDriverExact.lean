import Verif.PropsDriver
import Verif.PropsCheck

/-!
# C60: exactly when `setup` returns an object in the test programs
-/

namespace FftMpi

open Driver

variable {rnd : ℝ → ℝ}

/-- **C60, exactly (3d).**  With accepted options, test3d gets an object from `FFT3d::setup` on all ranks
(test3d.cpp:575-579) if and only if all three sizes are at least 2 and have no prime factors but 2, 3 and 5. -/
theorem C60_setup_iff (R : Rounding rnd) {o : Opt3} {P : Nat} (ho : o.Accepted P) (hs : o.Small P) :
    ∃ a, o.args rnd P = some a ∧ ∀ st : Settings, st.Valid →
      ((∀ r < P, ∃ f : Fft3 ℝ, fft3Setup P r a st = some (.ok f)) ↔ Supported o.nx ∧ Supported o.ny ∧ Supported o.nz) := by
  have ha : ∃ a, o.args rnd P = some a ∧ a.nfast = o.nx ∧ a.nmid = o.ny ∧ a.nslow = o.nz := by
    obtain ⟨p, h1, -⟩ := inGrid3_ok R ho
    obtain ⟨q, h3, -⟩ := outGrid3_ok R ho
    exact ⟨_, by unfold Opt3.args; rw [h1, h3]; rfl, rfl, rfl, rfl⟩
  obtain ⟨a, ha, n1, n2, n3⟩ := ha
  refine ⟨a, ha, fun st hst => ⟨fun h => ?_, ?_⟩⟩
  · obtain ⟨f, hf⟩ := h 0 ho.procs
    obtain ⟨⟨k1, k2, k3⟩, ⟨s1, s2, s3⟩, -⟩ := setupCheck_none.mp (check_of_fft3Setup hf)
    rw [n1] at k1 s1
    rw [n2] at k2 s2
    rw [n3] at k3 s3
    exact ⟨⟨by omega, fun p hp hd => s1 p hp (Int.natCast_dvd_natCast.mpr hd)⟩,
      ⟨by omega, fun p hp hd => s2 p hp (Int.natCast_dvd_natCast.mpr hd)⟩,
      ⟨by omega, fun p hp hd => s3 p hp (Int.natCast_dvd_natCast.mpr hd)⟩⟩
  · rintro ⟨hx, hy, hz⟩ r hr
    obtain ⟨a', ha', hv, -⟩ := C60_args_valid R ho hs hx hy hz
    rw [ha] at ha'
    obtain rfl := Option.some.inj ha'
    obtain ⟨f, S⟩ := setUp3_exists hv hst
    exact ⟨f r, S.result r hr⟩

/-- **C60, exactly (2d).**  The same for test2d, and the mode has to be 0 or 2. -/
theorem C60_setup_iff_2d (R : Rounding rnd) {o : Opt2} {P : Nat} (ho : o.Accepted P) (hs : o.Small P) :
    ∃ a, o.args rnd P = some a ∧ ∀ (w : Int) (st : Settings), st.Valid2 w →
      ((∀ r < P, ∃ f : Fft2 ℝ, fft2Setup w P r a st = some (.ok f)) ↔
        Supported o.nx ∧ Supported o.ny ∧ (o.mode = 0 ∨ o.mode = 2)) := by
  have ha : ∃ a, o.args rnd P = some a ∧ a.nfast = o.nx ∧ a.nslow = o.ny := by
    obtain ⟨p, h1, -⟩ := inGrid2_ok R ho
    obtain ⟨q, h3, -⟩ := outGrid2_ok ho
    exact ⟨_, by unfold Opt2.args; rw [h1, h3]; rfl, rfl, rfl⟩
  obtain ⟨a, ha, n1, n2⟩ := ha
  refine ⟨a, ha, fun w st hst => ⟨fun h => ?_, ?_⟩⟩
  · obtain ⟨f, hf⟩ := h 0 ho.procs
    obtain ⟨⟨k1, k2⟩, ⟨s1, s2⟩, -⟩ := setupCheck2_none.mp (check_of_fft2Setup hf)
    rw [n1] at k1 s1
    rw [n2] at k2 s2
    refine ⟨⟨by omega, fun p hp hd => s1 p hp (Int.natCast_dvd_natCast.mpr hd)⟩,
      ⟨by omega, fun p hp hd => s2 p hp (Int.natCast_dvd_natCast.mpr hd)⟩, ?_⟩
    by_contra hm
    have := ho.mode
    exact (C60_test2d_false ho (by omega) ha).2 w st 0 f hf
  · rintro ⟨hx, hy, hm⟩ r hr
    obtain ⟨a', ha', hv, -⟩ := C60_args_valid_2d_partial R ho hs hx hy hm
    rw [ha] at ha'
    obtain rfl := Option.some.inj ha'
    obtain ⟨f, S⟩ := setUp2_exists hv hst
    exact ⟨f r, S.result r hr⟩

/-- `mpirun -np 6 test3d`, with the default sizes of 8, and with `-g 8 8 7`: the second gets no object on some rank. -/
example : (∃ a, default3.args rnd53 6 = some a ∧ ∀ r < 6, ∃ f : Fft3 ℝ, fft3Setup 6 r a ⟨2, 0, 2⟩ = some (.ok f)) ∧
    ∃ a, ({ default3 with nz := 7 } : Opt3).args rnd53 6 = some a ∧ ¬ ∀ r < 6, ∃ f : Fft3 ℝ, fft3Setup 6 r a ⟨2, 0, 2⟩ = some (.ok f) := by
  have h8 : Supported 8 := supported_of (k := 3) (by decide) (by decide)
  constructor
  · obtain ⟨a, h, H⟩ := C60_setup_iff rounding53 (default3_accepted (P := 6) (by decide)) (by simp [Opt3.Small, default3])
    exact ⟨a, h, (H _ (by simp [Settings.Valid])).mpr ⟨h8, h8, h8⟩⟩
  · obtain ⟨a, h, H⟩ := C60_setup_iff (o := { default3 with nz := 7 }) rounding53
      { default3_accepted (P := 6) (by decide) with nz := by decide } (by simp [Opt3.Small, default3])
    refine ⟨a, h, fun hh => ?_⟩
    have := ((H _ (by simp [Settings.Valid])).mp hh).2.2.2 7 (by norm_num) (by rfl)
    omega

/-- `mpirun -np 6 test2d -m 0` gets its objects, and with `-m 1` some rank does not. -/
example : (∃ a, default2.args rnd53 6 = some a ∧ ∀ r < 6, ∃ f : Fft2 ℝ, fft2Setup 1 6 r a ⟨2, 0, 2⟩ = some (.ok f)) ∧
    ∃ a, ({ default2 with mode := 1 } : Opt2).args rnd53 6 = some a ∧
      ¬ ∀ r < 6, ∃ f : Fft2 ℝ, fft2Setup 1 6 r a ⟨2, 0, 2⟩ = some (.ok f) := by
  have h8 : Supported 8 := supported_of (k := 3) (by decide) (by decide)
  constructor
  · obtain ⟨a, h, H⟩ := C60_setup_iff_2d rounding53 (default2_accepted (P := 6) (by decide)) (by simp [Opt2.Small, default2])
    exact ⟨a, h, (H 1 _ (by simp [Settings.Valid2, FlagOk2])).mpr ⟨h8, h8, Or.inl rfl⟩⟩
  · obtain ⟨a, h, H⟩ := C60_setup_iff_2d (o := { default2 with mode := 1 }) rounding53
      { default2_accepted (P := 6) (by decide) with mode := by decide } (by simp [Opt2.Small, default2])
    refine ⟨a, h, fun hh => ?_⟩
    have := ((H 1 _ (by simp [Settings.Valid2, FlagOk2])).mp hh).2.2
    simp at this

end FftMpi
