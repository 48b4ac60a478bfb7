import Verif.Fft3dSetup
import Verif.FactorLemmas
import Verif.Remap3dMain
import Mathlib.Data.Nat.Prime.Defs

/-!
# The layouts computed by `FFT3d::setup` tile the grid
-/

namespace FftMpi

/-- The part of cell `gridCoords np me` when every dimension is cut into blocks. -/
def gridBox (np : Nat × Nat × Nat) (n1 n2 n3 : Nat) (me : Nat) : Box3 :=
  let ip := gridCoords np me
  { ilo := blockLo ip.1 n1 np.1, ihi := blockHi ip.1 n1 np.1
    jlo := blockLo ip.2.1 n2 np.2.1, jhi := blockHi ip.2.1 n2 np.2.1
    klo := blockLo ip.2.2 n3 np.2.2, khi := blockHi ip.2.2 n3 np.2.2 }

theorem gridBox_tiles {np : Nat × Nat × Nat} {P : Nat} (h : np.1 * np.2.1 * np.2.2 = P) (hP : 0 < P)
    (n1 n2 n3 : Nat) : Tiles3 P (gridBox np n1 n2 n3) n1 n2 n3 := by
  obtain ⟨k1, k2, k3⟩ := gridCoords_bij h hP
  have p1 : 0 < np.1 := by
    rcases Nat.eq_zero_or_pos np.1 with h0 | h0
    · rw [h0] at h; simp at h; omega
    · exact h0
  have p2 : 0 < np.2.1 := by
    rcases Nat.eq_zero_or_pos np.2.1 with h0 | h0
    · rw [h0] at h; simp at h; omega
    · exact h0
  have p3 : 0 < np.2.2 := by
    rcases Nat.eq_zero_or_pos np.2.2 with h0 | h0
    · rw [h0] at h; simp at h; omega
    · exact h0
  refine ⟨?_, ?_, ?_⟩
  · intro a ha i j k hh
    obtain ⟨l1, l2, l3⟩ := k1 a ha
    exact ⟨block_inside l1 hh.1, block_inside l2 hh.2.1, block_inside l3 hh.2.2⟩
  · intro i j k hi hj hk
    obtain ⟨x, hx, hx'⟩ := block_owner p1 hi.1 hi.2
    obtain ⟨y, hy, hy'⟩ := block_owner p2 hj.1 hj.2
    obtain ⟨z, hz, hz'⟩ := block_owner p3 hk.1 hk.2
    obtain ⟨m1, m2⟩ := k2 x y z hx hy hz
    refine ⟨_, m1, ?_⟩
    simp only [gridBox, Box3.Has, m2]
    exact ⟨hx', hy', hz'⟩
  · intro a ha b hb i j k h1 h2
    have e1 := block_disjoint h1.1 h2.1
    have e2 := block_disjoint h1.2.1 h2.2.1
    have e3 := block_disjoint h1.2.2 h2.2.2
    rw [k3 a ha, k3 b hb, e1, e2, e3]

theorem gridBox_sizes (np : Nat × Nat × Nat) (n1 n2 n3 me : Nat) :
    0 ≤ (gridBox np n1 n2 n3 me).isize ∧ 0 ≤ (gridBox np n1 n2 n3 me).jsize ∧
      0 ≤ (gridBox np n1 n2 n3 me).ksize := by
  unfold Box3.isize Box3.jsize Box3.ksize gridBox
  have h1 := @block_lo_le_hi n1 np.1 (gridCoords np me).1
  have h2 := @block_lo_le_hi n2 np.2.1 (gridCoords np me).2.1
  have h3 := @block_lo_le_hi n3 np.2.2 (gridCoords np me).2.2
  simp only
  omega

theorem blockLo_one (n : Nat) : blockLo 0 n 1 = 0 := by simp [blockLo]
theorem blockHi_one (n : Nat) : blockHi 0 n 1 = (n : Int) - 1 := by simp [blockHi]

/-! ## Valid arguments -/

/-- No size is negative: every bound satisfies `lo ≤ hi+1`. -/
def Box3.Proper (b : Box3) : Prop := 0 ≤ b.isize ∧ 0 ≤ b.jsize ∧ 0 ≤ b.ksize

/-- All bounds are indices of the grid (an empty box has `hi = lo-1` in some dimension). -/
def Box3.Within (b : Box3) (n1 n2 n3 : Int) : Prop :=
  (0 ≤ b.ilo ∧ b.ihi < n1) ∧ (0 ≤ b.jlo ∧ b.jhi < n2) ∧ (0 ≤ b.klo ∧ b.khi < n3)

/-- What doc/api_setup.txt requires of the arguments: dimensions of at least 2 with factors 2, 3, 5 only
that fit an `int`, input and output boxes that tile the grid, `permute` 0, 1 or 2. -/
structure Args3.Valid (P : Nat) (a : Args3) : Prop where
  procs : 0 < P
  fast : 2 ≤ a.nfast ∧ a.nfast < 2 ^ 31
  mid : 2 ≤ a.nmid ∧ a.nmid < 2 ^ 31
  slow : 2 ≤ a.nslow ∧ a.nslow < 2 ^ 31
  factors : ∀ n, (n = a.nfast ∨ n = a.nmid ∨ n = a.nslow) →
    ∀ p : Nat, p.Prime → (p : Int) ∣ n → p = 2 ∨ p = 3 ∨ p = 5
  tilesIn : Tiles3 P a.ins a.nfast a.nmid a.nslow
  tilesOut : Tiles3 P a.outs a.nfast a.nmid a.nslow
  properIn : ∀ r < P, (a.ins r).Proper ∧ (a.ins r).Within a.nfast a.nmid a.nslow
  properOut : ∀ r < P, (a.outs r).Proper
  permute : a.permute = 0 ∨ a.permute = 1 ∨ a.permute = 2
  /-- not required of the arguments but of the arithmetic: see `FpOK` -/
  round : FpOK P a.fp := by exact fpOK_id (by norm_num)

/-- The processor grids are what `procGrid_spec` says. -/
structure Grids.OK (P : Nat) (g : Grids) (exchange : Int) : Prop where
  fast : g.fast.1 * g.fast.2.1 * g.fast.2.2 = P
  fast1 : g.fast.1 = 1
  mid : g.mid.1 * g.mid.2.1 * g.mid.2.2 = P
  mid2 : g.mid.2.1 = 1
  slow : g.slow.1 * g.slow.2.1 * g.slow.2.2 = P
  slow3 : g.slow.2.2 = 1
  brick : exchange ≠ 0 → g.brick.1 * g.brick.2.1 * g.brick.2.2 = P

theorem setupGrids_ok {P : Nat} {a : Args3} (R : FpOK P a.fp) (hP : 0 < P) (h1 : 2 ≤ a.nfast ∧ a.nfast < 2 ^ 31)
    (h2 : 2 ≤ a.nmid ∧ a.nmid < 2 ^ 31) (h3 : 2 ≤ a.nslow ∧ a.nslow < 2 ^ 31) (exchange : Int) :
    ∃ g, setupGrids P a exchange = some g ∧ g.OK P exchange := by
  obtain ⟨f, f1, f2, f3, f4, f5, _⟩ := procGrid_spec R (nx := 1) (ny := a.nmid.toNat) (nz := a.nslow.toNat) hP
    (by omega) (by omega) (by omega) (by omega) (by omega) (by omega) (by omega)
  obtain ⟨m, m1, m2, m3, m4, m5, _⟩ := procGrid_spec R (nx := a.nfast.toNat) (ny := 1) (nz := a.nslow.toNat) hP
    (by omega) (by omega) (by omega) (by omega) (by omega) (by omega) (by omega)
  obtain ⟨s, s1, s2, s3, s4, s5, _⟩ := procGrid_spec R (nx := a.nfast.toNat) (ny := a.nmid.toNat) (nz := 1) hP
    (by omega) (by omega) (by omega) (by omega) (by omega) (by omega) (by omega)
  obtain ⟨b, b1, b2, _⟩ := procGrid_spec R (nx := a.nfast.toNat) (ny := a.nmid.toNat) (nz := a.nslow.toNat) hP
    (by omega) (by omega) (by omega) (by omega) (by omega) (by omega) (by omega)
  by_cases he : exchange = 0
  · refine ⟨⟨f, m, s, (0, 0, 0)⟩, ?_, ⟨f2, f3 rfl, m2, m4 rfl, s2, s5 rfl, fun h => absurd he h⟩⟩
    simp [setupGrids, f1, m1, s1, he]
  · refine ⟨⟨f, m, s, b⟩, ?_, ⟨f2, f3 rfl, m2, m4 rfl, s2, s5 rfl, fun _ => b2⟩⟩
    simp [setupGrids, f1, m1, s1, b1, he]

/-- Cell coordinate 0 in an undivided dimension. -/
theorem gridCoords_fst_one {np : Nat × Nat × Nat} (h : np.1 = 1) (me : Nat) : (gridCoords np me).1 = 0 := by
  simp [gridCoords, h, Nat.mod_one]

theorem gridCoords_snd_one {np : Nat × Nat × Nat} (h : np.2.1 = 1) (me : Nat) :
    (gridCoords np me).2.1 = 0 := by
  simp [gridCoords, h, Nat.mod_one]

theorem gridCoords_thd_one {np : Nat × Nat × Nat} {P : Nat} (hp : np.1 * np.2.1 * np.2.2 = P) (hP : 0 < P)
    (h : np.2.2 = 1) {me : Nat} (hme : me < P) : (gridCoords np me).2.2 = 0 := by
  have := ((gridCoords_bij hp hP).1 me hme).2.2
  omega

section
variable {P : Nat} {a : Args3} {g : Grids} {ex : Int}

theorem fastBox_eq (hn : 0 ≤ a.nfast) (hg : g.OK P ex) (hpre : preflag P a = true) (me : Nat) :
    fastBox P a g me = gridBox g.fast a.nfast.toNat a.nmid.toNat a.nslow.toNat me := by
  have e : ((a.nfast.toNat : Nat) : Int) = a.nfast := by omega
  simp [fastBox, gridBox, hpre, gridCoords_fst_one hg.fast1, hg.fast1, blockLo_one, blockHi_one, e]

theorem midBox_eq (hn : 0 ≤ a.nmid) (hg : g.OK P ex) (me : Nat) :
    midBox a g me = gridBox g.mid a.nfast.toNat a.nmid.toNat a.nslow.toNat me := by
  have e : ((a.nmid.toNat : Nat) : Int) = a.nmid := by omega
  simp [midBox, gridBox, gridCoords_snd_one hg.mid2, hg.mid2, blockLo_one, blockHi_one, e]

theorem slowBox_eq (hP : 0 < P) (hn : 0 ≤ a.nslow) (hg : g.OK P ex) (hs : slowflag P a = true) {me : Nat}
    (hme : me < P) :
    slowBox P a g me = gridBox g.slow a.nfast.toNat a.nmid.toNat a.nslow.toNat me := by
  have e : ((a.nslow.toNat : Nat) : Int) = a.nslow := by omega
  have h0 := gridCoords_thd_one hg.slow hP hg.slow3 hme
  simp [slowBox, gridBox, hs, h0, hg.slow3, blockLo_one, blockHi_one, e]

theorem brickBox_eq (me : Nat) :
    brickBox a g me = gridBox g.brick a.nfast.toNat a.nmid.toNat a.nslow.toNat me := rfl

theorem Tiles3.congr {P : Nat} {bs bs' : Nat → Box3} {n1 n2 n3 : Int} (h : Tiles3 P bs n1 n2 n3)
    (he : ∀ r < P, bs' r = bs r) : Tiles3 P bs' n1 n2 n3 where
  inside r hr i j k hh := h.inside r hr i j k (by rw [← he r hr]; exact hh)
  owner i j k hi hj hk := by
    obtain ⟨r, hr, hh⟩ := h.owner i j k hi hj hk
    exact ⟨r, hr, by rw [he r hr]; exact hh⟩
  disjoint r hr s hs i j k h1 h2 := by
    rw [he r hr] at h1
    rw [he s hs] at h2
    exact h.disjoint r hr s hs i j k h1 h2

theorem allMax_false {P : Nat} {f : Nat → Bool} : allMax P f = false ↔ ∀ r < P, f r = false := by
  simp [allMax]

theorem allMax_true {P : Nat} {f : Nat → Bool} : allMax P f = true ↔ ∃ r < P, f r = true := by
  simp [allMax]

variable (hv : a.Valid P) (hg : g.OK P ex)
include hv hg

theorem fastBox_tiles : Tiles3 P (fastBox P a g) a.nfast a.nmid a.nslow := by
  have h := hv.fast; have h' := hv.mid; have h'' := hv.slow
  by_cases hp : preflag P a = true
  · have := gridBox_tiles hg.fast hv.procs a.nfast.toNat a.nmid.toNat a.nslow.toNat
    rw [show ((a.nfast.toNat : Nat) : Int) = a.nfast by omega,
      show ((a.nmid.toNat : Nat) : Int) = a.nmid by omega,
      show ((a.nslow.toNat : Nat) : Int) = a.nslow by omega] at this
    exact this.congr fun r _ => fastBox_eq (by omega) hg hp r
  · have hp' : preflag P a = false := by simpa using hp
    exact hv.tilesIn.congr fun r _ => by simp [fastBox, hp']

theorem midBox_tiles : Tiles3 P (midBox a g) a.nfast a.nmid a.nslow := by
  have h := hv.fast; have h' := hv.mid; have h'' := hv.slow
  have := gridBox_tiles hg.mid hv.procs a.nfast.toNat a.nmid.toNat a.nslow.toNat
  rw [show ((a.nfast.toNat : Nat) : Int) = a.nfast by omega,
    show ((a.nmid.toNat : Nat) : Int) = a.nmid by omega,
    show ((a.nslow.toNat : Nat) : Int) = a.nslow by omega] at this
  exact this.congr fun r _ => midBox_eq (by omega) hg r

theorem slowBox_tiles : Tiles3 P (slowBox P a g) a.nfast a.nmid a.nslow := by
  have h := hv.fast; have h' := hv.mid; have h'' := hv.slow
  by_cases hp : slowflag P a = true
  · have := gridBox_tiles hg.slow hv.procs a.nfast.toNat a.nmid.toNat a.nslow.toNat
    rw [show ((a.nfast.toNat : Nat) : Int) = a.nfast by omega,
      show ((a.nmid.toNat : Nat) : Int) = a.nmid by omega,
      show ((a.nslow.toNat : Nat) : Int) = a.nslow by omega] at this
    exact this.congr fun r hr => slowBox_eq hv.procs (by omega) hg hp hr
  · have hp' : slowflag P a = false := by simpa using hp
    exact hv.tilesOut.congr fun r _ => by simp [slowBox, hp']

theorem brickBox_tiles (hex : ex ≠ 0) : Tiles3 P (brickBox a g) a.nfast a.nmid a.nslow := by
  have h := hv.fast; have h' := hv.mid; have h'' := hv.slow
  have := gridBox_tiles (hg.brick hex) hv.procs a.nfast.toNat a.nmid.toNat a.nslow.toNat
  rw [show ((a.nfast.toNat : Nat) : Int) = a.nfast by omega,
    show ((a.nmid.toNat : Nat) : Int) = a.nmid by omega,
    show ((a.nslow.toNat : Nat) : Int) = a.nslow by omega] at this
  exact this

/-! Whole lines along the FFT direction. -/

omit hv hg in
theorem fastBox_full {r : Nat} (hr : r < P) :
    (fastBox P a g r).ilo = 0 ∧ (fastBox P a g r).ihi = a.nfast - 1 := by
  by_cases hp : preflag P a = true
  · simp [fastBox, hp]
  · have hp' : preflag P a = false := by simpa using hp
    have := (allMax_false.mp hp') r hr
    simp [fastBox, hp']
    simpa using this

omit hv hg in
theorem midBox_full (r : Nat) : (midBox a g r).jlo = 0 ∧ (midBox a g r).jhi = a.nmid - 1 := by
  simp [midBox]

omit hv hg in
theorem slowBox_full {r : Nat} (hr : r < P) :
    (slowBox P a g r).klo = 0 ∧ (slowBox P a g r).khi = a.nslow - 1 := by
  by_cases hp : slowflag P a = true
  · simp [slowBox, hp]
  · have hp' : slowflag P a = false := by simpa using hp
    have := (allMax_false.mp hp') r hr
    simp [slowBox, hp']
    simp at this
    tauto

/-! Sizes are not negative. -/

theorem fastBox_proper {r : Nat} (hr : r < P) : (fastBox P a g r).Proper := by
  have h := hv.fast
  by_cases hp : preflag P a = true
  · rw [fastBox_eq (by omega) hg hp]; exact gridBox_sizes _ _ _ _ _
  · have hp' : preflag P a = false := by simpa using hp
    simp [fastBox, hp']
    exact (hv.properIn r hr).1

theorem midBox_proper (r : Nat) : (midBox a g r).Proper := by
  have h := hv.mid
  rw [midBox_eq (by omega) hg]; exact gridBox_sizes _ _ _ _ _

theorem slowBox_proper {r : Nat} (hr : r < P) : (slowBox P a g r).Proper := by
  have h := hv.slow
  by_cases hp : slowflag P a = true
  · rw [slowBox_eq hv.procs (by omega) hg hp hr]; exact gridBox_sizes _ _ _ _ _
  · have hp' : slowflag P a = false := by simpa using hp
    simp [slowBox, hp']
    exact hv.properOut r hr

omit hv hg in
theorem brickBox_proper (r : Nat) : (brickBox a g r).Proper := gridBox_sizes _ _ _ _ _

end

theorem boxSize_eq_count {b : Box3} (h : b.Proper) : boxSize b = b.count := by
  obtain ⟨h1, h2, h3⟩ := h
  unfold boxSize Box3.count
  rw [max_eq_left h1, max_eq_left h2, max_eq_left h3]
  rfl

end FftMpi
