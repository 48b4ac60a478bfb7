import Verif.Fft2dSetup
import Verif.Fft3dCheck
import Verif.Remap2dMain

/-!
# The layouts computed by `FFT2d::setup` tile the grid; what its argument check accepts
-/

namespace FftMpi

/-- The part of cell `gridCoords2 np me` when every dimension is cut into blocks. -/
def gridBox2 (np : Nat × Nat) (n1 n2 : Nat) (me : Nat) : Box2 :=
  let ip := gridCoords2 np me
  { ilo := blockLo ip.1 n1 np.1, ihi := blockHi ip.1 n1 np.1
    jlo := blockLo ip.2 n2 np.2, jhi := blockHi ip.2 n2 np.2 }

theorem gridBox2_tiles {np : Nat × Nat} {P : Nat} (h : np.1 * np.2 = P) (hP : 0 < P)
    (n1 n2 : Nat) : Tiles2 P (gridBox2 np n1 n2) n1 n2 := by
  obtain ⟨k1, k2, k3⟩ := gridCoords2_bij h hP
  have p1 : 0 < np.1 := by
    rcases Nat.eq_zero_or_pos np.1 with h0 | h0
    · rw [h0] at h; simp at h; omega
    · exact h0
  have p2 : 0 < np.2 := by
    rcases Nat.eq_zero_or_pos np.2 with h0 | h0
    · rw [h0] at h; simp at h; omega
    · exact h0
  refine ⟨?_, ?_, ?_⟩
  · intro a ha i j hh
    obtain ⟨l1, l2⟩ := k1 a ha
    exact ⟨block_inside l1 hh.1, block_inside l2 hh.2⟩
  · intro i j hi hj
    obtain ⟨x, hx, hx'⟩ := block_owner p1 hi.1 hi.2
    obtain ⟨y, hy, hy'⟩ := block_owner p2 hj.1 hj.2
    obtain ⟨m1, m2⟩ := k2 x y hx hy
    refine ⟨_, m1, ?_⟩
    simp only [gridBox2, Box2.Has, m2]
    exact ⟨hx', hy'⟩
  · intro a ha b hb i j h1 h2
    have e1 := block_disjoint h1.1 h2.1
    have e2 := block_disjoint h1.2 h2.2
    rw [k3 a ha, k3 b hb, e1, e2]

theorem gridBox2_sizes (np : Nat × Nat) (n1 n2 me : Nat) :
    0 ≤ (gridBox2 np n1 n2 me).isize ∧ 0 ≤ (gridBox2 np n1 n2 me).jsize := by
  unfold Box2.isize Box2.jsize gridBox2
  have h1 := @block_lo_le_hi n1 np.1 (gridCoords2 np me).1
  have h2 := @block_lo_le_hi n2 np.2 (gridCoords2 np me).2
  simp only
  omega

/-! ## Valid arguments -/

/-- No size is negative: every bound satisfies `lo ≤ hi+1`. -/
def Box2.Proper (b : Box2) : Prop := 0 ≤ b.isize ∧ 0 ≤ b.jsize

/-- All bounds are indices of the grid (an empty box has `hi = lo-1` in some dimension). -/
def Box2.Within (b : Box2) (n1 n2 : Int) : Prop :=
  (0 ≤ b.ilo ∧ b.ihi < n1) ∧ (0 ≤ b.jlo ∧ b.jhi < n2)

/-- What doc/api_setup.txt requires of the arguments: dimensions of at least 2 with factors 2, 3, 5 only
that fit an `int`, input and output boxes that tile the grid, `permute` 0 or 1. -/
structure Args2.Valid (P : Nat) (a : Args2) : Prop where
  procs : 0 < P
  fast : 2 ≤ a.nfast ∧ a.nfast < 2 ^ 31
  slow : 2 ≤ a.nslow ∧ a.nslow < 2 ^ 31
  factors : ∀ n, (n = a.nfast ∨ n = a.nslow) →
    ∀ p : Nat, p.Prime → (p : Int) ∣ n → p = 2 ∨ p = 3 ∨ p = 5
  tilesIn : Tiles2 P a.ins a.nfast a.nslow
  tilesOut : Tiles2 P a.outs a.nfast a.nslow
  properIn : ∀ r < P, (a.ins r).Proper ∧ (a.ins r).Within a.nfast a.nslow
  properOut : ∀ r < P, (a.outs r).Proper
  permute : a.permute = 0 ∨ a.permute = 1
  /-- not required of the arguments but of the arithmetic: see `FpOK` -/
  round : FpOK P a.fp := by exact fpOK_id (by norm_num)

/-- The brick grid uses all ranks. -/
def BrickOK (P : Nat) (g : Nat × Nat) (exchange : Int) : Prop := exchange ≠ 0 → g.1 * g.2 = P

theorem setupBrick2_ok {P : Nat} {a : Args2} (R : FpOK P a.fp) (hP : 0 < P) (h1 : 2 ≤ a.nfast ∧ a.nfast < 2 ^ 31)
    (h3 : 2 ≤ a.nslow ∧ a.nslow < 2 ^ 31)
    (exchange : Int) : ∃ g, setupBrick2 P a exchange = some g ∧ BrickOK P g exchange := by
  by_cases he : exchange = 0
  · exact ⟨(0, 0), by simp [setupBrick2, he], fun h => absurd he h⟩
  · obtain ⟨x, y, e1, e2, _⟩ := C15_proc_grid_2d (nprocs := P) (nx := a.nfast.toNat) (ny := a.nslow.toNat) R hP
      (by omega) (by omega) (by omega) (by omega)
    exact ⟨(x, y), by simp [setupBrick2, he, e1], fun _ => e2⟩

section
variable {P : Nat} {a : Args2} {g : Nat × Nat} {ex : Int}

theorem fastBox2_eq (hn : 0 ≤ a.nfast) (hpre : preflag2 P a = true) (me : Nat) :
    fastBox2 P a me = gridBox2 (1, P) a.nfast.toNat a.nslow.toNat me := by
  have e : ((a.nfast.toNat : Nat) : Int) = a.nfast := by omega
  simp [fastBox2, gridBox2, gridCoords2, hpre, Nat.mod_one, blockLo_one, blockHi_one, e]

theorem slowBox2_eq (hn : 0 ≤ a.nslow) (hs : slowflag2 P a = true) {me : Nat}
    (hme : me < P) :
    slowBox2 P a me = gridBox2 (P, 1) a.nfast.toNat a.nslow.toNat me := by
  have e : ((a.nslow.toNat : Nat) : Int) = a.nslow := by omega
  simp [slowBox2, gridBox2, gridCoords2, hs, Nat.mod_eq_of_lt hme, Nat.div_eq_of_lt hme, blockLo_one,
    blockHi_one, e]

theorem brickBox2_eq (me : Nat) :
    brickBox2 a g me = gridBox2 g a.nfast.toNat a.nslow.toNat me := rfl

theorem Tiles2.congr {P : Nat} {bs bs' : Nat → Box2} {n1 n2 : Int} (h : Tiles2 P bs n1 n2)
    (he : ∀ r < P, bs' r = bs r) : Tiles2 P bs' n1 n2 where
  inside r hr i j hh := h.inside r hr i j (by rw [← he r hr]; exact hh)
  owner i j hi hj := by
    obtain ⟨r, hr, hh⟩ := h.owner i j hi hj
    exact ⟨r, hr, by rw [he r hr]; exact hh⟩
  disjoint r hr s hs i j h1 h2 := by
    rw [he r hr] at h1
    rw [he s hs] at h2
    exact h.disjoint r hr s hs i j h1 h2

theorem fastBox2_tiles (hv : a.Valid P) : Tiles2 P (fastBox2 P a) a.nfast a.nslow := by
  have h := hv.fast; have h'' := hv.slow
  by_cases hp : preflag2 P a = true
  · have := gridBox2_tiles (np := (1, P)) (by simp) hv.procs a.nfast.toNat a.nslow.toNat
    rw [show ((a.nfast.toNat : Nat) : Int) = a.nfast by omega,
      show ((a.nslow.toNat : Nat) : Int) = a.nslow by omega] at this
    exact this.congr fun r _ => fastBox2_eq (by omega) hp r
  · have hp' : preflag2 P a = false := by simpa using hp
    exact hv.tilesIn.congr fun r _ => by simp [fastBox2, hp']

theorem slowBox2_tiles (hv : a.Valid P) : Tiles2 P (slowBox2 P a) a.nfast a.nslow := by
  have h := hv.fast; have h'' := hv.slow
  by_cases hp : slowflag2 P a = true
  · have := gridBox2_tiles (np := (P, 1)) (by simp) hv.procs a.nfast.toNat a.nslow.toNat
    rw [show ((a.nfast.toNat : Nat) : Int) = a.nfast by omega,
      show ((a.nslow.toNat : Nat) : Int) = a.nslow by omega] at this
    exact this.congr fun r hr => slowBox2_eq (by omega) hp hr
  · have hp' : slowflag2 P a = false := by simpa using hp
    exact hv.tilesOut.congr fun r _ => by simp [slowBox2, hp']

theorem brickBox2_tiles (hv : a.Valid P) (hg : BrickOK P g ex) (hex : ex ≠ 0) :
    Tiles2 P (brickBox2 a g) a.nfast a.nslow := by
  have h := hv.fast; have h'' := hv.slow
  have := gridBox2_tiles (hg hex) hv.procs a.nfast.toNat a.nslow.toNat
  rw [show ((a.nfast.toNat : Nat) : Int) = a.nfast by omega,
    show ((a.nslow.toNat : Nat) : Int) = a.nslow by omega] at this
  exact this

/-! Whole lines along the FFT direction. -/

theorem fastBox2_full {r : Nat} (hr : r < P) :
    (fastBox2 P a r).ilo = 0 ∧ (fastBox2 P a r).ihi = a.nfast - 1 := by
  by_cases hp : preflag2 P a = true
  · simp [fastBox2, hp]
  · have hp' : preflag2 P a = false := by simpa using hp
    have := (allMax_false.mp hp') r hr
    simp [fastBox2, hp']
    simpa using this

theorem slowBox2_full {r : Nat} (hr : r < P) :
    (slowBox2 P a r).jlo = 0 ∧ (slowBox2 P a r).jhi = a.nslow - 1 := by
  by_cases hp : slowflag2 P a = true
  · simp [slowBox2, hp]
  · have hp' : slowflag2 P a = false := by simpa using hp
    have := (allMax_false.mp hp') r hr
    simp [slowBox2, hp']
    simp at this
    tauto

/-! Sizes are not negative. -/

theorem fastBox2_proper (hv : a.Valid P) {r : Nat} (hr : r < P) : (fastBox2 P a r).Proper := by
  have h := hv.fast
  by_cases hp : preflag2 P a = true
  · rw [fastBox2_eq (by omega) hp]; exact gridBox2_sizes _ _ _ _
  · have hp' : preflag2 P a = false := by simpa using hp
    simp [fastBox2, hp']
    exact (hv.properIn r hr).1

theorem slowBox2_proper (hv : a.Valid P) {r : Nat} (hr : r < P) : (slowBox2 P a r).Proper := by
  have h := hv.slow
  by_cases hp : slowflag2 P a = true
  · rw [slowBox2_eq (by omega) hp hr]; exact gridBox2_sizes _ _ _ _
  · have hp' : slowflag2 P a = false := by simpa using hp
    simp [slowBox2, hp']
    exact hv.properOut r hr

theorem brickBox2_proper (r : Nat) : (brickBox2 a g r).Proper := gridBox2_sizes _ _ _ _

end

theorem boxSize2_eq_count {b : Box2} (h : b.Proper) : boxSize2 b = b.count := by
  obtain ⟨h1, h2⟩ := h
  unfold boxSize2 Box2.count
  rw [max_eq_left h1, max_eq_left h2]
  rfl

/-! ## The argument check -/

/-- The boxes of a tiling have as many points as the grid. -/
theorem Tiles2.sum_count {P : Nat} {bs : Nat → Box2} {n1 n2 : Int} (h1 : 0 ≤ n1) (h2 : 0 ≤ n2)
    (h : Tiles2 P bs n1 n2) : ∑ r ∈ Finset.range P, (bs r).count = n1 * n2 := by
  have := h.lift.sum_count h1 h2 (by decide)
  simpa [Box2.lift_count] using this

/-- Disjoint boxes inside the grid with as many points as the grid tile it. -/
theorem tiles_of_count2 {P : Nat} {bs : Nat → Box2} {n1 n2 : Int} (h1 : 0 ≤ n1) (h2 : 0 ≤ n2)
    (hd : Disjoint2 P bs) (hin : ∀ r < P, ∀ i j, (bs r).Has i j →
      (0 ≤ i ∧ i < n1) ∧ (0 ≤ j ∧ j < n2))
    (hs : ∑ r ∈ Finset.range P, (bs r).count = n1 * n2) : Tiles2 P bs n1 n2 := by
  have T := tiles_of_count (bs := fun r => (bs r).lift) (n3 := 1) h1 h2 (by decide) hd.lift (by
    intro r hr i j k hh
    rw [Box2.lift_has] at hh
    obtain ⟨g1, g2⟩ := hin r hr i j hh.1
    exact ⟨g1, g2, by omega⟩) (by simpa [Box2.lift_count] using hs)
  refine ⟨hin, ?_, hd⟩
  intro i j hi hj
  obtain ⟨r, hr, hh⟩ := T.owner i j 0 hi hj (by decide)
  exact ⟨r, hr, (Box2.lift_has.mp hh).1⟩

theorem badIndices2_false {n1 n2 : Int} {b : Box2} :
    badIndices2 n1 n2 b = false ↔ b.Proper ∧ b.Within n1 n2 := by
  unfold badIndices2 Box2.Proper Box2.Within Box2.isize Box2.jsize
  simp only [Bool.or_eq_false_iff, decide_eq_false_iff_not]
  omega

/-- Which arguments pass the check. -/
theorem setupCheck2_none {P : Nat} {a : Args2} :
    setupCheck2 P a = none ↔
      (2 ≤ a.nfast ∧ 2 ≤ a.nslow) ∧
      (FiveSmooth a.nfast ∧ FiveSmooth a.nslow) ∧
      (∀ r < P, (a.ins r).Proper ∧ (a.ins r).Within a.nfast a.nslow) ∧
      ∑ r ∈ Finset.range P, (a.ins r).count = a.nfast * a.nslow := by
  unfold setupCheck2
  by_cases h1 : a.nfast < 2 ∨ a.nslow < 2
  · rw [if_pos h1]
    simp only [reduceCtorEq, false_iff]
    rintro ⟨h, _⟩
    omega
  rw [if_neg h1]
  have h1' : 2 ≤ a.nfast ∧ 2 ≤ a.nslow := by omega
  rw [← primeFactorable_iff a.nfast (by omega), ← primeFactorable_iff a.nslow (by omega)]
  by_cases h2 : (!primeFactorable a.nfast || !primeFactorable a.nslow) = true
  · rw [if_pos h2]
    simp only [reduceCtorEq, false_iff]
    rintro ⟨_, ⟨h3, h5⟩, _⟩
    simp [h3, h5] at h2
  rw [if_neg h2]
  have h2' : primeFactorable a.nfast = true ∧ primeFactorable a.nslow = true := by
    simpa [not_or, and_assoc] using h2
  by_cases h3 : allMax P (fun r => badIndices2 a.nfast a.nslow (a.ins r)) = true
  · rw [if_pos h3]
    simp only [reduceCtorEq, false_iff]
    rintro ⟨_, _, h4, _⟩
    obtain ⟨r, hr, hb⟩ := allMax_true.mp h3
    rw [badIndices2_false.mpr (h4 r hr)] at hb
    cases hb
  rw [if_neg h3]
  have h3' : ∀ r < P, (a.ins r).Proper ∧ (a.ins r).Within a.nfast a.nslow := by
    intro r hr
    have := allMax_false.mp (by simpa using h3) r hr
    exact badIndices2_false.mp this
  have e : allSum P (fun r => boxSize2 (a.ins r)) = ∑ r ∈ Finset.range P, (a.ins r).count := by
    rw [allSum_eq]
    exact Finset.sum_congr rfl fun r hr => boxSize2_eq_count (h3' r (by simpa using hr)).1
  rw [e]
  by_cases h4 : ∑ r ∈ Finset.range P, (a.ins r).count = a.nfast * a.nslow
  · simp [h4, h1', h2']
    exact h3'
  · simp [h4]

theorem Args2.Valid.check {P : Nat} {a : Args2} (h : a.Valid P) : setupCheck2 P a = none := by
  have h1 := h.fast; have h3 := h.slow
  rw [setupCheck2_none]
  exact ⟨⟨h1.1, h3.1⟩, ⟨h.factors _ (Or.inl rfl), h.factors _ (Or.inr rfl)⟩, h.properIn,
    h.tilesIn.sum_count (by omega) (by omega)⟩

end FftMpi
