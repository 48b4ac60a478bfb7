import Verif.PropsExact
import Mathlib.Tactic.IntervalCases

/-!
# C43: exactly when the scaled convolution is right
-/

namespace FftMpi

open Finset

/-- **C43 with scaling, exactly.**  The result is the circular convolution if and only if that is 0 at the points that are not
scaled. -/
theorem C43_exact {P : Nat} {a : Args3} {st : Settings} {f : Nat → Fft3 ℝ} (S : SetUp3 P a st f) (e : Bool)
    (J : Nat → Nat → Nat → Junk) {n1 n2 : Nat} (hne : n1 ≠ n2) {X Y : Grid3} {m : Nat → LMem ℝ}
    (hX : Holds P 0 a.ins n1 X m) (hY : Holds P 0 a.ins n2 Y m) (hb1 : Bufs P f n1 m) (hb2 : Bufs P f n2 m)
    (hr : RoomBack P a st m) :
    ∃ m', Terminates e P (fun r => convolve (f r) (J r) true n1 n2) m m' ∧
      (Holds P 0 a.ins n1 (conv3 a.nfast.toNat a.nmid.toNat a.nslow.toNat X Y) m' ↔
        ∀ r < P, ∀ i j k, a.Beyond r i j k → conv3 a.nfast.toNat a.nmid.toNat a.nslow.toNat X Y i j k = 0) := by
  obtain ⟨m', s, h⟩ := convolve_step S e J true hne hX hY hb1 hb2 hr
  rw [if_pos rfl] at h
  have hN : (a.N : ℂ) ≠ 0 := by exact_mod_cast S.args.N_pos.ne'
  have h1 : ¬ a.nfast * a.nmid * a.nslow = 1 := by
    intro h
    have := S.args.fast.1
    have := S.args.mid.1
    have := S.args.slow.1
    have h2 : 2 * 2 * 2 ≤ a.nfast * a.nmid * a.nslow := by gcongr
    omega
  have hs : ∀ z : ℂ, ((1 / a.N : ℝ) : ℂ) * ((a.N : ℂ) * z) = z := by
    intro z
    push_cast
    field_simp
  refine ⟨m', s.terminates, ?_, ?_⟩
  · intro h' r hr i j k hb
    have hh := hb.1
    have hag := HoldsBox.agree (h r hr) (h' r hr) hh
    simp only [boxSize_eq_count (S.args.properOut r hr)] at hag
    rw [if_neg ((Args3.beyond_iff hh).mp hb)] at hag
    by_contra hz
    rw [mul_eq_right₀ hz] at hag
    exact h1 (Args3.N_one.mp (by exact_mod_cast hag))
  · intro h0 r hr i j k hh
    have hp := h r hr i j k hh
    simp only [boxSize_eq_count (S.args.properOut r hr)] at hp
    by_cases hl : addr3 0 (a.ins r) 1 i j k 0 < (a.outs r).count
    · rw [if_pos hl, hs] at hp
      exact hp
    · rw [if_neg hl, h0 r hr i j k ((Args3.beyond_iff hh).mpr hl), mul_zero] at hp
      rw [h0 r hr i j k ((Args3.beyond_iff hh).mpr hl)]
      exact hp

/-- **C43 with scaling: for which layouts.**  The result is the circular convolution for all data if and only if no rank has more
points on input than on output. -/
theorem C43_iff {P : Nat} {a : Args3} {st : Settings} {f : Nat → Fft3 ℝ} (S : SetUp3 P a st f) (e : Bool)
    (J : Nat → Nat → Nat → Junk) {n1 n2 : Nat} (hne : n1 ≠ n2) :
    (∀ (X Y : Grid3) (m m' : Nat → LMem ℝ), Holds P 0 a.ins n1 X m → Holds P 0 a.ins n2 Y m → Bufs P f n1 m → Bufs P f n2 m →
      RoomBack P a st m → Terminates e P (fun r => convolve (f r) (J r) true n1 n2) m m' →
      Holds P 0 a.ins n1 (conv3 a.nfast.toNat a.nmid.toNat a.nslow.toNat X Y) m') ↔
    ∀ r < P, (a.ins r).count ≤ (a.outs r).count := by
  constructor
  · intro h
    by_contra hc
    push Not at hc
    obtain ⟨r, hr, hlt⟩ := hc
    obtain ⟨i, j, k, hb⟩ := (Args3.exists_beyond S.args hr).mpr hlt
    obtain ⟨c, rfl, rfl, rfl, _, R⟩ := S.ready
    obtain ⟨m, hm, hR⟩ := S.mem_large (p := 0) (bs := c.a.ins) (fun _ _ _ => 1) fun r hr => R.size_ins hr
    obtain ⟨m', t, hi⟩ := C43_exact S e J hne (hm n1).1 (hm n2).1 (hm n1).2 (hm n2).2 hR
    have h0 := hi.mp (h _ _ m m' (hm n1).1 (hm n2).1 (hm n1).2 (hm n2).2 hR t) r hr i j k hb
    simp only [conv3, mul_one, sum_const, card_range, nsmul_eq_mul, mul_eq_zero, Nat.cast_eq_zero] at h0
    have := S.args.fast.1
    have := S.args.mid.1
    have := S.args.slow.1
    omega
  · intro h X Y m m' hX hY hb1 hb2 hR t
    obtain ⟨m1, t1, hi⟩ := C43_exact S e J hne hX hY hb1 hb2 hR
    have hag := t.agree t1
    refine fun r hr => (hag r hr) ▸ (hi.mpr ?_ : Holds P 0 a.ins n1 _ m1) r hr
    intro r hr i j k hb
    refine absurd ((Args3.exists_beyond S.args hr).mp ⟨i, j, k, hb⟩) ?_
    have := h r hr
    omega

/-- Examples: with `demo3 1` the scaled convolution is right for all data, with `moved` (rank 0 has the input, rank 1 the output)
it is not. -/
example (st : Settings) (hst : st.Valid) : (∀ r < 2, ((demo3 1).ins r).count ≤ ((demo3 1).outs r).count) ∧
    (¬ ∀ r < 2, (moved.ins r).count ≤ (moved.outs r).count) ∧ (∃ f, SetUp3 2 (demo3 1) st f) ∧ ∃ f, SetUp3 2 moved st f := by
  refine ⟨?_, fun h => ?_, setUp3_exists (demo3_valid 1 (by decide)) hst, setUp3_exists moved_valid hst⟩
  · intro r _
    interval_cases r <;> simp [demo3, Box3.count, Box3.isize, Box3.jsize, Box3.ksize]
  · have := h 0 (by decide)
    simp [moved, Box3.count, Box3.isize, Box3.jsize, Box3.ksize] at this

/-! ## 2d -/

/-- **C43 in 2d with scaling, exactly.**  The result is the circular convolution if and only if that is 0 at the points that are not
scaled. -/
theorem C43_exact_2d {w : Int} {P : Nat} {a : Args2} {st : Settings} {f : Nat → Fft2 ℝ} (S : SetUp2 w P a st f) (e : Bool)
    (J : Nat → Nat → Nat → Junk) {n1 n2 : Nat} (hne : n1 ≠ n2) {X Y : Grid2} {m : Nat → LMem ℝ}
    (hX : Holds2 P 0 a.ins n1 X m) (hY : Holds2 P 0 a.ins n2 Y m) (hb1 : Bufs2 P f n1 m) (hb2 : Bufs2 P f n2 m) :
    ∃ m', Terminates e P (fun r => convolve2 (f r) (J r) true n1 n2) m m' ∧
      (Holds2 P 0 a.ins n1 (conv2 a.nfast.toNat a.nslow.toNat X Y) m' ↔
        ∀ r < P, ∀ i j, a.Beyond r i j → conv2 a.nfast.toNat a.nslow.toNat X Y i j = 0) := by
  obtain ⟨m', s, h⟩ := convolve2_step S e J true hne hX hY hb1 hb2
  rw [if_pos rfl] at h
  have hN : (a.N : ℂ) ≠ 0 := by exact_mod_cast S.args.N_pos.ne'
  have h1 : ¬ a.nfast * a.nslow = 1 := by
    intro h
    have := S.args.fast.1
    have := S.args.slow.1
    have h2 : 2 * 2 ≤ a.nfast * a.nslow := by gcongr
    omega
  have hs : ∀ z : ℂ, ((1 / a.N : ℝ) : ℂ) * ((a.N : ℂ) * z) = z := by
    intro z
    push_cast
    field_simp
  refine ⟨m', s.terminates, ?_, ?_⟩
  · intro h' r hr i j hb
    have hh := hb.1
    have hag := HoldsBox2.agree (h r hr) (h' r hr) hh
    simp only [boxSize2_eq_count (S.args.properOut r hr)] at hag
    rw [if_neg ((Args2.beyond_iff hh).mp hb)] at hag
    by_contra hz
    rw [mul_eq_right₀ hz] at hag
    exact h1 (Args2.N_one.mp (by exact_mod_cast hag))
  · intro h0 r hr i j hh
    have hp := h r hr i j hh
    simp only [boxSize2_eq_count (S.args.properOut r hr)] at hp
    by_cases hl : addr2 0 (a.ins r) 1 i j 0 < (a.outs r).count
    · rw [if_pos hl, hs] at hp
      exact hp
    · rw [if_neg hl, h0 r hr i j ((Args2.beyond_iff hh).mpr hl), mul_zero] at hp
      rw [h0 r hr i j ((Args2.beyond_iff hh).mpr hl)]
      exact hp

/-- **C43 in 2d with scaling: for which layouts.**  The result is the circular convolution for all data if and only if no rank has more
points on input than on output. -/
theorem C43_iff_2d {w : Int} {P : Nat} {a : Args2} {st : Settings} {f : Nat → Fft2 ℝ} (S : SetUp2 w P a st f) (e : Bool)
    (J : Nat → Nat → Nat → Junk) {n1 n2 : Nat} (hne : n1 ≠ n2) :
    (∀ (X Y : Grid2) (m m' : Nat → LMem ℝ), Holds2 P 0 a.ins n1 X m → Holds2 P 0 a.ins n2 Y m → Bufs2 P f n1 m → Bufs2 P f n2 m →
      Terminates e P (fun r => convolve2 (f r) (J r) true n1 n2) m m' →
      Holds2 P 0 a.ins n1 (conv2 a.nfast.toNat a.nslow.toNat X Y) m') ↔
    ∀ r < P, (a.ins r).count ≤ (a.outs r).count := by
  constructor
  · intro h
    by_contra hc
    push Not at hc
    obtain ⟨r, hr, hlt⟩ := hc
    obtain ⟨i, j, hb⟩ := (Args2.exists_beyond S.args hr).mpr hlt
    obtain ⟨c, rfl, rfl, rfl, rfl, _, R⟩ := S.ready
    obtain ⟨m, hm⟩ := S.mem_in fun _ _ => 1
    obtain ⟨m', t, hi⟩ := C43_exact_2d S e J hne (hm n1).1 (hm n2).1 (hm n1).2 (hm n2).2
    have h0 := hi.mp (h _ _ m m' (hm n1).1 (hm n2).1 (hm n1).2 (hm n2).2 t) r hr i j hb
    simp only [conv2, mul_one, sum_const, card_range, nsmul_eq_mul, mul_eq_zero, Nat.cast_eq_zero] at h0
    have := S.args.fast.1
    have := S.args.slow.1
    omega
  · intro h X Y m m' hX hY hb1 hb2 t
    obtain ⟨m1, t1, hi⟩ := C43_exact_2d S e J hne hX hY hb1 hb2
    have hag := t.agree t1
    refine fun r hr => (hag r hr) ▸ (hi.mpr ?_ : Holds2 P 0 a.ins n1 _ m1) r hr
    intro r hr i j hb
    refine absurd ((Args2.exists_beyond S.args hr).mp ⟨i, j, hb⟩) ?_
    have := h r hr
    omega

/-- Examples in 2d: `plane2 1` and `moved2`. -/
example (w : Int) (st : Settings) (hst : st.Valid2 w) : (∀ r < 2, ((plane2 1).ins r).count ≤ ((plane2 1).outs r).count) ∧
    (¬ ∀ r < 2, (moved2.ins r).count ≤ (moved2.outs r).count) ∧ (∃ f, SetUp2 w 2 (plane2 1) st f) ∧ ∃ f, SetUp2 w 2 moved2 st f := by
  refine ⟨?_, fun h => ?_, setUp2_exists (plane2_valid 1 (by decide)) hst, setUp2_exists moved2_valid hst⟩
  · intro r _
    interval_cases r <;> simp [plane2, Box2.count, Box2.isize, Box2.jsize]
  · have := h 0 (by decide)
    simp [moved2, Box2.count, Box2.isize, Box2.jsize] at this

end FftMpi
