import Verif.FactorLemmas
import Mathlib.Data.Nat.Prime.Basic
import Mathlib.Data.Finset.Card
import Mathlib.Tactic.NormNum
import Mathlib.Tactic.IntervalCases
import Mathlib.RingTheory.Int.Basic
import Mathlib.Tactic.NormNum.Prime
import Mathlib.Tactic.NormNum.NatSqrt
import Mathlib.Data.Real.Sqrt
import Mathlib.Algebra.Order.Floor.Semiring

/-!
# Properties C14 - C16: grid sizes and processor grids
-/

noncomputable section

namespace FftMpi

variable {fp : ℝ → ℝ}

/-! ## C14 -/

/-- Every prime factor is 2, 3 or 5. -/
def FiveSmooth (n : Int) : Prop := ∀ p : Nat, p.Prime → (p : Int) ∣ n → p = 2 ∨ p = 3 ∨ p = 5

theorem primeFactorable_iff (n : Int) (hn : 1 ≤ n) : primeFactorable n = true ↔ FiveSmooth n := by
  induction hk : n.toNat using Nat.strong_induction_on generalizing n with
  | _ k ih =>
    subst hk
    rw [primeFactorable]
    split
    · rename_i h
      split
      · rename_i m hs
        obtain ⟨h1, h2⟩ := primeStep_lt h hs
        rw [ih m.toNat (by omega) m h1 rfl]
        unfold primeStep at hs
        obtain ⟨p, hp, rfl⟩ := Option.map_eq_some_iff.mp hs
        have hm := List.mem_of_find?_eq_some hp
        have hd := List.find?_some hp
        simp only [decide_eq_true_eq] at hd
        have hdiv : p * (n / p) = n := Int.mul_ediv_cancel' (Int.dvd_of_emod_eq_zero hd)
        have hp235 : p = 2 ∨ p = 3 ∨ p = 5 := by simpa [fftPrimes] using hm
        constructor
        · intro hsm q hq hqn
          rw [← hdiv] at hqn
          rcases Int.Prime.dvd_mul' hq hqn with h3 | h3
          · have : q ∣ p.toNat := by
              have e : ((p.toNat : Nat) : Int) = p := by omega
              rw [← e] at h3
              exact_mod_cast h3
            rcases hp235 with rfl | rfl | rfl
            · left; exact (Nat.prime_dvd_prime_iff_eq hq Nat.prime_two).mp this
            · right; left; exact (Nat.prime_dvd_prime_iff_eq hq Nat.prime_three).mp this
            · right; right; exact (Nat.prime_dvd_prime_iff_eq hq Nat.prime_five).mp this
          · exact hsm q hq h3
        · intro hsm q hq hqn
          exact hsm q hq (by rw [← hdiv]; exact Dvd.dvd.mul_left hqn p)
      · rename_i hs
        simp only [Bool.false_eq_true, false_iff]
        intro hsm
        unfold primeStep at hs
        rw [Option.map_eq_none_iff, List.find?_eq_none] at hs
        obtain ⟨q, hq, hqn⟩ := Nat.exists_prime_and_dvd (n := n.toNat) (by omega)
        have hqn' : (q : Int) ∣ n := by
          have e : ((n.toNat : Nat) : Int) = n := by omega
          rw [← e]; exact_mod_cast hqn
        have hmem : (q : Int) ∈ fftPrimes := by
          rcases hsm q hq hqn' with rfl | rfl | rfl <;> simp [fftPrimes]
        exact absurd (Int.emod_eq_zero_of_dvd hqn') (by simpa using hs _ hmem)
    · rename_i h
      have h1 : n = 1 := by omega
      subst h1
      simp only [true_iff]
      intro p hp hd
      have : p ∣ 1 := by exact_mod_cast hd
      exact absurd (Nat.dvd_one.mp this) hp.one_lt.ne'

/-- **C14.**  `setup` accepts the dimensions iff every one of them is at least 2 and has no prime
factor other than 2, 3, 5.  (`primeFactorable` is a total function: the loop ends for every integer,
also for zero and negative ones.) -/
theorem C14_dims_accepted (dims : List Int) :
    dimsAccepted dims = true ↔
      ∀ n ∈ dims, 2 ≤ n ∧ ∀ p : Nat, p.Prime → (p : Int) ∣ n → p = 2 ∨ p = 3 ∨ p = 5 := by
  simp only [dimsAccepted, Bool.and_eq_true, List.all_eq_true, Bool.not_eq_true', decide_eq_false_iff_not]
  constructor
  · rintro ⟨h1, h2⟩ n hn
    have := h1 n hn
    exact ⟨by omega, (primeFactorable_iff n (by omega)).mp (h2 n hn)⟩
  · intro h
    exact ⟨fun n hn => by have := (h n hn).1; omega,
      fun n hn => (primeFactorable_iff n (by have := (h n hn).1; omega)).mpr (h n hn).2⟩

example : dimsAccepted [8, 30, 625] = true := by
  rw [C14_dims_accepted]
  intro n hn
  have key : ∀ (n a : Nat) (k : Nat), n ∣ 30 ^ k → ∀ p : Nat, p.Prime → (p : Int) ∣ (n : Int) →
      p = 2 ∨ p = 3 ∨ p = 5 := by
    intro n _ k hk p hp hd
    have h1 : p ∣ 30 := hp.dvd_of_dvd_pow ((Int.natCast_dvd_natCast.mp hd).trans hk)
    have h2 : p ≤ 30 := Nat.le_of_dvd (by decide) h1
    have h3 : 2 ≤ p := hp.two_le
    interval_cases p <;> revert h1 hp <;> norm_num
  simp only [List.mem_cons, List.not_mem_nil, or_false] at hn
  rcases hn with rfl | rfl | rfl
  · exact ⟨by decide, key 8 0 3 (by decide)⟩
  · exact ⟨by decide, key 30 0 1 (by decide)⟩
  · exact ⟨by decide, key 625 0 4 (by decide)⟩

example : dimsAccepted [8, 14] = false := by
  rw [Bool.eq_false_iff, Ne, C14_dims_accepted]
  intro h
  have := (h 14 (by simp)).2 7 (by norm_num) (by decide)
  omega

/-! ## C15 -/

/-- **C15.**  For every number of ranks and all grid sizes (32 bit) of which at least one is divided:
`procfactors` assigns a grid with `npx*npy*npz = nprocs` and 1 in every undivided dimension (`n = 1`),
and the ranks `0..nprocs-1` correspond one to one to the cells of the grid, whatever the rounding errors of the
areas. -/
theorem C15_proc_grid {nprocs nx ny nz : Nat} (R : FpOK nprocs fp) (hn : 0 < nprocs) (hx : 0 < nx ∧ nx < 2 ^ 31)
    (hy : 0 < ny ∧ ny < 2 ^ 31) (hz : 0 < nz ∧ nz < 2 ^ 31) (hdim : 2 ≤ nx ∨ 2 ≤ ny ∨ 2 ≤ nz) :
    ∃ npx npy npz, procGrid fp nprocs nx ny nz = some (npx, npy, npz) ∧ npx * npy * npz = nprocs ∧
      (nx = 1 → npx = 1) ∧ (ny = 1 → npy = 1) ∧ (nz = 1 → npz = 1) ∧
      (∀ me < nprocs, ∃ x < npx, ∃ y < npy, ∃ z < npz, gridCoords (npx, npy, npz) me = (x, y, z)) ∧
      (∀ x < npx, ∀ y < npy, ∀ z < npz,
        ∃ me, (me < nprocs ∧ gridCoords (npx, npy, npz) me = (x, y, z)) ∧
          ∀ me', me' < nprocs → gridCoords (npx, npy, npz) me' = (x, y, z) → me' = me) := by
  obtain ⟨⟨a, b, c⟩, h1, h2, h3, h4, h5, _, _⟩ :=
    procGrid_spec R hn hx.1 hy.1 hz.1 hx.2 hy.2 hz.2 hdim
  obtain ⟨k1, k2, k3⟩ := gridCoords_bij h2 hn
  refine ⟨a, b, c, h1, h2, h3, h4, h5, ?_, ?_⟩
  · intro me hme
    obtain ⟨l1, l2, l3⟩ := k1 me hme
    exact ⟨_, l1, _, l2, _, l3, rfl⟩
  · intro x hx y hy z hz
    refine ⟨_, k2 x y z hx hy hz, ?_⟩
    intro me' hme' he
    have := k3 me' hme'
    rw [he] at this
    exact this

/-- The four calls of `setup` (fft3d.cpp:305-316) meet the hypotheses; and for 4 ranks the fast
pencils of an `8 x 8 x 8` grid use 4 ranks. -/
example : ∃ npx npy npz, procGrid id 4 1 8 8 = some (npx, npy, npz) ∧ npx = 1 ∧ npx * npy * npz = 4 := by
  obtain ⟨a, b, c, h1, h2, h3, _⟩ := C15_proc_grid (nprocs := 4) (nx := 1) (ny := 8) (nz := 8)
    (fpOK_id (by norm_num)) (by decide) (by decide) (by decide) (by decide) (by decide)
  exact ⟨a, b, c, h1, h3 rfl, h2⟩

/-! ## C16 -/

/-- Surface area of the part of one rank: a `nx/i x ny/j x nz/k` box. -/
def faceArea (i j k nx ny nz : Nat) : ℝ :=
  (nx / i : ℝ) * (ny / j) + (ny / j) * (nz / k) + (nx / i) * (nz / k)

theorem surfarea_face {nprocs i j k nx ny nz : Nat} (R : FpOK nprocs fp) (hn : 0 < nprocs) (hijk : i * j * k = nprocs)
    (hx : 0 < nx ∧ nx < 2 ^ 31) (hy : 0 < ny ∧ ny < 2 ^ 31) (hz : 0 < nz ∧ nz < 2 ^ 31) (h1 : nx = 1 → i = 1)
    (h2 : ny = 1 → j = 1) (h3 : nz = 1 → k = 1) : NearR 7 (faceArea i j k nx ny nz) (surfarea fp i j k nx ny nz) := by
  have p : 0 < i * j * k := by omega
  have pij := Nat.pos_of_mul_pos_right p
  exact surfarea_near R (Nat.pos_of_mul_pos_right pij) (Nat.pos_of_mul_pos_left pij) (Nat.pos_of_mul_pos_left p) hijk
    hx.1 hy.1 hz.1 hx.2 hy.2 hz.2 h1 h2 h3

theorem surfarea_face_id {i j k nx ny nz : Nat} (h1 : nx = 1 → i = 1) (h2 : ny = 1 → j = 1)
    (h3 : nz = 1 → k = 1) : surfarea id i j k nx ny nz = faceArea i j k nx ny nz := by
  unfold surfarea
  rw [if_neg (by tauto), if_neg (by tauto), if_neg (by tauto)]
  simp only [id, one_mul]
  rfl

theorem smallDivisors_card {n : Nat} (hn : 0 < n) :
    (smallDivisors n).length = ((Finset.range (n + 1)).filter fun d => d ∣ n ∧ d * d ≤ n).card := by
  have hnd : (smallDivisors n).Nodup := (smallDivisors_sorted n).imp (fun h => Nat.ne_of_lt h)
  rw [← List.toFinset_card_of_nodup hnd]
  congr 1
  ext d
  simp only [List.mem_toFinset, mem_smallDivisors hn, Finset.mem_filter, Finset.mem_range]
  constructor
  · intro h
    exact ⟨by have := Nat.le_of_dvd hn h.1; omega, h⟩
  · intro h; exact h.2

/-- Every factorisation is looked at, if there are at most 50 divisors up to the square root. -/
theorem all_mem_gridTriples {nprocs : Nat} (hn : 0 < nprocs)
    (hfew : ((Finset.range (nprocs + 1)).filter fun d => d ∣ nprocs ∧ d * d ≤ nprocs).card ≤ 50) {a b c : Nat}
    (habc : a * b * c = nprocs) : (a, b, c) ∈ gridTriples nprocs := by
  have hfac : factor nprocs = smallDivisors nprocs := by
    rw [factor_eq, List.take_of_length_le]
    rw [smallDivisors_card hn]; exact hfew
  -- sorted factorisations are looked at
  have key : ∀ a b c : Nat, a * b * c = nprocs → a ≤ b → b ≤ c →
      ∀ t ∈ sixPerms a b c, t ∈ gridTriples nprocs := by
    intro a b c h hab hbc
    have hbb : b * b ≤ nprocs := by
      have ha0 : 0 < a := by
        rcases Nat.eq_zero_or_pos a with h0 | h0
        · subst h0; simp at h; omega
        · exact h0
      calc b * b ≤ b * c := Nat.mul_le_mul_left b hbc
        _ = 1 * (b * c) := by ring
        _ ≤ a * (b * c) := Nat.mul_le_mul_right _ ha0
        _ = nprocs := by rw [← h]; ring
    refine sorted_mem_gridTriples hn ?_ ?_ hab hbc h
    · rw [hfac, mem_smallDivisors hn]
      exact ⟨⟨b * c, by rw [← h]; ring⟩, (Nat.mul_le_mul hab hab).trans hbb⟩
    · rw [hfac, mem_smallDivisors hn]
      exact ⟨⟨a * c, by rw [← h]; ring⟩, hbb⟩
  rcases le_total a b with hab | hab <;> rcases le_total b c with hbc | hbc <;>
    rcases le_total a c with hac | hac
  · exact key a b c habc hab hbc _ (by simp [sixPerms])
  · exact key a b c habc hab hbc _ (by simp [sixPerms])
  · exact key a c b (by rw [← habc]; ring) hac hbc _ (by simp [sixPerms])
  · exact key c a b (by rw [← habc]; ring) hac hab _ (by simp [sixPerms])
  · exact key b a c (by rw [← habc]; ring) hab hac _ (by simp [sixPerms])
  · exact key b c a (by rw [← habc]; ring) hbc hac _ (by simp [sixPerms])
  · exact key c b a (by rw [← habc]; ring) hbc hab _ (by simp [sixPerms])
  · exact key c b a (by rw [← habc]; ring) hbc hab _ (by simp [sixPerms])

/-- **C16, 3d, as far as it holds.**  If `nprocs` has at most 50 divisors up to its square root (the case
for all moderate `nprocs`), then no factorisation of `nprocs` that is 1 in the undivided
dimensions has a surface area that is smaller, by more than rounding errors, than the one chosen.  Missing: larger
`nprocs` with more divisors, for which the statement is false (`C16_min_surface_false`). -/
theorem C16_min_surface_partial {nprocs nx ny nz : Nat} (R : FpOK nprocs fp) (hn : 0 < nprocs)
    (hx : 0 < nx ∧ nx < 2 ^ 31) (hy : 0 < ny ∧ ny < 2 ^ 31) (hz : 0 < nz ∧ nz < 2 ^ 31)
    (hdim : 2 ≤ nx ∨ 2 ≤ ny ∨ 2 ≤ nz)
    (hfew : ((Finset.range (nprocs + 1)).filter fun d => d ∣ nprocs ∧ d * d ≤ nprocs).card ≤ 50) :
    ∃ npx npy npz, procGrid fp nprocs nx ny nz = some (npx, npy, npz) ∧
      ∀ a b c, a * b * c = nprocs → (nx = 1 → a = 1) → (ny = 1 → b = 1) → (nz = 1 → c = 1) →
        faceArea npx npy npz nx ny nz ≤ (1 + 1 / 2 ^ 49) * faceArea a b c nx ny nz := by
  obtain ⟨⟨npx, npy, npz⟩, h1, h2, h3, h4, h5, _, h6⟩ :=
    procGrid_spec R hn hx.1 hy.1 hz.1 hx.2 hy.2 hz.2 hdim
  refine ⟨npx, npy, npz, h1, ?_⟩
  intro a b c habc ha hb hc
  refine NearR.min le_rfl (by unfold faceArea; positivity) (surfarea_face R hn h2 hx hy hz h3 h4 h5)
    (surfarea_face R hn habc hx hy hz ha hb hc) (h6 _ (all_mem_gridTriples hn hfew habc))

/-- **C16, 3d, exact arithmetic, as far as it holds.**  Without rounding errors no other factorisation has a smaller
surface.  Missing as before. -/
theorem C16_min_surface_exact_partial {nprocs nx ny nz : Nat} (hn : 0 < nprocs) (hn2 : nprocs < 2 ^ 31)
    (hx : 0 < nx ∧ nx < 2 ^ 31) (hy : 0 < ny ∧ ny < 2 ^ 31) (hz : 0 < nz ∧ nz < 2 ^ 31)
    (hdim : 2 ≤ nx ∨ 2 ≤ ny ∨ 2 ≤ nz)
    (hfew : ((Finset.range (nprocs + 1)).filter fun d => d ∣ nprocs ∧ d * d ≤ nprocs).card ≤ 50) :
    ∃ npx npy npz, procGrid id nprocs nx ny nz = some (npx, npy, npz) ∧
      ∀ a b c, a * b * c = nprocs → (nx = 1 → a = 1) → (ny = 1 → b = 1) → (nz = 1 → c = 1) →
        faceArea npx npy npz nx ny nz ≤ faceArea a b c nx ny nz := by
  obtain ⟨⟨npx, npy, npz⟩, h1, h2, h3, h4, h5, _, h6⟩ :=
    procGrid_spec (fpOK_id (by omega)) hn hx.1 hy.1 hz.1 hx.2 hy.2 hz.2 hdim
  refine ⟨npx, npy, npz, h1, ?_⟩
  intro a b c habc ha hb hc
  have := h6 _ (all_mem_gridTriples hn hfew habc)
  rwa [surfarea_face_id h3 h4 h5, surfarea_face_id ha hb hc] at this

/-- 12 ranks. -/
example : ∃ npx npy npz, procGrid id 12 64 64 64 = some (npx, npy, npz) ∧
    faceArea npx npy npz 64 64 64 ≤ faceArea 2 2 3 64 64 64 := by
  obtain ⟨a, b, c, h1, h2⟩ := C16_min_surface_exact_partial (nprocs := 12) (nx := 64) (ny := 64) (nz := 64)
    (by decide) (by decide) (by decide) (by decide) (by decide) (by decide) (by decide)
  exact ⟨a, b, c, h1, h2 2 2 3 rfl (by decide) (by decide) (by decide)⟩

theorem factor_50400 : factor 50400 = [1, 2, 3, 4, 5, 6, 7, 8, 9, 10, 12, 14, 15, 16, 18, 20, 21, 24, 25, 28,
    30, 32, 35, 36, 40, 42, 45, 48, 50, 56, 60, 63, 70, 72, 75, 80, 84, 90, 96, 100, 105, 112, 120, 126, 140,
    144, 150, 160, 168, 175] := by
  rw [factor_eq, smallDivisors, show Nat.sqrt 50400 = 224 by norm_num]
  decide +kernel

/-- **C16 is false in general**, whatever the rounding: with 50400 ranks the list of factors is cut off after 50
entries (it ends with 175), and the pencil grid `1 x 224 x 225` is missed, whose surface is smaller by more than
rounding errors. -/
theorem C16_min_surface_false (R : FpOK 50400 fp) :
    ¬ (∀ nprocs nx ny nz : Nat, FpOK nprocs fp → 0 < nprocs → (0 < nx ∧ nx < 2 ^ 31) → (0 < ny ∧ ny < 2 ^ 31) →
      (0 < nz ∧ nz < 2 ^ 31) → (2 ≤ nx ∨ 2 ≤ ny ∨ 2 ≤ nz) →
      ∃ npx npy npz, procGrid fp nprocs nx ny nz = some (npx, npy, npz) ∧
        ∀ a b c, a * b * c = nprocs → (nx = 1 → a = 1) → (ny = 1 → b = 1) → (nz = 1 → c = 1) →
          faceArea npx npy npz nx ny nz ≤ (1 + 1 / 2 ^ 49) * faceArea a b c nx ny nz) := by
  intro h
  obtain ⟨npx, npy, npz, h1, h2⟩ := h 50400 1 6000 6000 R (by decide) (by decide) (by decide) (by decide)
    (by decide)
  have h3 := h2 1 224 225 (by decide) (by decide) (by decide) (by decide)
  obtain ⟨c, k1, k2, k3, _, _, k4, _⟩ := procGrid_spec (nprocs := 50400) (nx := 1) (ny := 6000) (nz := 6000) R
    (by decide) (by decide) (by decide) (by decide) (by decide) (by decide) (by decide) (by decide)
  have hc : (npx, npy, npz) ∈ gridTriples 50400 := by
    rw [h1] at k1; injection k1 with k1
    rw [k1]; exact k4
  have hx : npx = 1 := by
    rw [h1] at k1; injection k1 with k1
    have := k3 rfl; rw [← k1] at this; exact this
  have hsum : npy + npz > 449 := by
    have hall : ∀ t ∈ gridTriples 50400, t.1 = 1 → t.2.1 + t.2.2 > 449 := by
      simp only [gridTriples, factor_50400]
      decide +kernel
    exact hall _ hc hx
  have hprod : npy * npz = 50400 := by
    rw [h1] at k1; injection k1 with k1
    rw [← k1] at k2; simp only [hx, one_mul] at k2; exact k2
  have py : (0 : ℝ) < npy := by
    have : 0 < npy := by
      rcases Nat.eq_zero_or_pos npy with h0 | h0
      · subst h0; simp at hprod
      · exact h0
    exact_mod_cast this
  have pz : (0 : ℝ) < npz := by
    have : 0 < npz := by
      rcases Nat.eq_zero_or_pos npz with h0 | h0
      · subst h0; simp at hprod
      · exact h0
    exact_mod_cast this
  have hprod' : (npy : ℝ) * npz = 50400 := by exact_mod_cast hprod
  have hsum' : (450 : ℝ) ≤ npy + npz := by exact_mod_cast hsum
  unfold faceArea at h3
  rw [hx] at h3
  have e : ((1 : Nat) / (1 : Nat) : ℝ) * ((6000 : Nat) / npy) + ((6000 : Nat) / npy) * ((6000 : Nat) / npz) +
      ((1 : Nat) / (1 : Nat)) * ((6000 : Nat) / npz) = (6000 * (npy + npz) + 6000 * 6000) / (npy * npz) := by
    field_simp
    push_cast
    ring
  rw [e, hprod'] at h3
  norm_num at h3
  linarith

/-- In 2d the quantity that the code minimises, `dx*dy`, is the same for all factorisations; in exact arithmetic the
result is always `1 x nprocs`.  (With rounding errors, these decide: `C16_2d_rounding`.) -/
theorem C16_2d_always_slabs {nprocs nx ny : Nat} (hn : 0 < nprocs) (hx : 2 ≤ nx) (hy : 2 ≤ ny) :
    procGrid2 id nprocs nx ny = some (1, nprocs) := by
  obtain ⟨l, hl⟩ := gridPairs_head hn
  -- the area is constant
  have harea : ∀ c ∈ gridPairs nprocs, surfarea2 id c.1 c.2 nx ny = (nx * ny : ℝ) / nprocs := by
    intro c hc
    have h := mem_gridPairs hc
    have p1 : (0 : ℝ) < c.1 := by
      have : 0 < c.1 := by
        rcases Nat.eq_zero_or_pos c.1 with h0 | h0
        · rw [h0] at h; simp at h; omega
        · exact h0
      exact_mod_cast this
    have p2 : (0 : ℝ) < c.2 := by
      have : 0 < c.2 := by
        rcases Nat.eq_zero_or_pos c.2 with h0 | h0
        · rw [h0] at h; simp at h; omega
        · exact h0
      exact_mod_cast this
    unfold surfarea2
    rw [if_neg (by omega), if_neg (by omega), ← h]
    simp only [id, one_mul]
    push_cast
    field_simp
  have hpos : (0 : ℝ) < nprocs := by exact_mod_cast hn
  have hxy : (0 : ℝ) < nx * ny := by
    have h1 : (0 : ℝ) < nx := by exact_mod_cast (by omega : 0 < nx)
    have h2 : (0 : ℝ) < ny := by exact_mod_cast (by omega : 0 < ny)
    positivity
  have hstay : ∀ (l : List (Nat × Nat)) (o : Option (Nat × Nat)),
      (∀ c ∈ l, surfarea2 id c.1 c.2 nx ny = (nx * ny : ℝ) / nprocs) →
      l.foldl (testGrid2 id nx ny) ((nx * ny : ℝ) / nprocs, o) = ((nx * ny : ℝ) / nprocs, o) := by
    intro l o hl
    induction l with
    | nil => rfl
    | cons c l ih =>
      rw [List.foldl_cons]
      have : testGrid2 id nx ny ((nx * ny : ℝ) / nprocs, o) c = ((nx * ny : ℝ) / nprocs, o) := by
        unfold testGrid2
        simp only [hl c (by simp)]
        rw [if_neg (lt_irrefl _)]
      rw [this]
      exact ih (fun d hd => hl d (by simp [hd]))
  rw [procGrid2_eq, hl, List.foldl_cons]
  have h1 : testGrid2 id nx ny (minarea2 id nx ny, none) (1, nprocs) =
      ((nx * ny : ℝ) / nprocs, some (1, nprocs)) := by
    unfold testGrid2
    have := harea (1, nprocs) (by rw [hl]; simp)
    simp only [this]
    rw [if_pos]
    have h1 : (1 : ℝ) ≤ nprocs := by exact_mod_cast hn
    have h2 : (nx * ny : ℝ) / nprocs ≤ nx * ny := div_le_self hxy.le h1
    simp only [minarea2, id]
    nlinarith
  rw [h1, hstay l _ (fun c hc => harea c (by rw [hl]; simp [hc]))]

/-- Length of the boundary of the part of one rank in 2d (one side each). -/
def edgeLength (i j nx ny : Nat) : ℝ := nx / i + ny / j

theorem gridPairs_four : gridPairs 4 = [(1, 4), (4, 1), (1, 4), (4, 1), (2, 2), (2, 2)] := by
  simp only [gridPairs, factor_eq, smallDivisors, show Nat.sqrt 4 = 2 by norm_num]
  decide +kernel

/-- **C16 is false in 2d**: 4 ranks, `4 x 4` grid: `1 x 4` is chosen, `2 x 2` has the shorter
boundary, by more than rounding errors. -/
theorem C16_2d_false (hint : ∀ n : Nat, n < 2 ^ 53 → fp n = n) :
    ¬ (∀ nprocs nx ny : Nat, 0 < nprocs → 2 ≤ nx → 2 ≤ ny → nx < 2 ^ 31 → ny < 2 ^ 31 →
      ∃ npx npy, procGrid2 fp nprocs nx ny = some (npx, npy) ∧
        ∀ a b, a * b = nprocs → edgeLength npx npy nx ny ≤ (1 + 1 / 2 ^ 49) * edgeLength a b nx ny) := by
  intro h
  obtain ⟨a, b, h1, h2⟩ := h 4 4 4 (by decide) (by decide) (by decide) (by decide) (by decide)
  have f1 : fp 1 = 1 := by exact_mod_cast hint 1 (by norm_num)
  have f2 : fp 2 = 2 := by exact_mod_cast hint 2 (by norm_num)
  have f4 : fp 4 = 4 := by exact_mod_cast hint 4 (by norm_num)
  have f8 : fp 8 = 8 := by exact_mod_cast hint 8 (by norm_num)
  have f32 : fp 32 = 32 := by exact_mod_cast hint 32 (by norm_num)
  have s1 : surfarea2 fp 1 4 4 4 = 4 := by norm_num [surfarea2, f1, f4]
  have s2 : surfarea2 fp 4 1 4 4 = 4 := by norm_num [surfarea2, f1, f4]
  have s3 : surfarea2 fp 2 2 4 4 = 4 := by norm_num [surfarea2, f2, f4]
  have m : minarea2 fp 4 4 = 32 := by norm_num [minarea2, f8, f32]
  have e : procGrid2 fp 4 4 4 = some (1, 4) := by
    rw [procGrid2_eq, gridPairs_four, m]
    simp only [List.foldl_cons, List.foldl_nil, testGrid2, s1, s2, s3]
    norm_num
  rw [e] at h1
  injection h1 with h1
  injection h1 with e1 e2
  have := h2 2 2 (by decide)
  rw [← e1, ← e2] at this
  unfold edgeLength at this
  norm_num at this

/-- **C15, 2d.**  The 2d brick grid uses every rank exactly once, whatever the rounding errors of the areas. -/
theorem C15_proc_grid_2d {nprocs nx ny : Nat} (R : FpOK nprocs fp) (hn : 0 < nprocs) (hx : 2 ≤ nx) (hy : 2 ≤ ny)
    (hx2 : nx < 2 ^ 31) (hy2 : ny < 2 ^ 31) :
    ∃ npx npy, procGrid2 fp nprocs nx ny = some (npx, npy) ∧ npx * npy = nprocs ∧
      (∀ me < nprocs, ∃ x < npx, ∃ y < npy, gridCoords2 (npx, npy) me = (x, y)) ∧
      (∀ x < npx, ∀ y < npy, ∃ me, (me < nprocs ∧ gridCoords2 (npx, npy) me = (x, y)) ∧
          ∀ me', me' < nprocs → gridCoords2 (npx, npy) me' = (x, y) → me' = me) := by
  obtain ⟨⟨npx, npy⟩, h1, h2, _⟩ := procGrid2_spec R hn hx hy hx2 hy2
  obtain ⟨k1, k2, k3⟩ := gridCoords2_bij h2 hn
  refine ⟨npx, npy, h1, h2, ?_, ?_⟩
  · intro me hme
    exact ⟨_, (k1 me hme).1, _, (k1 me hme).2, rfl⟩
  · intro x hx y hy
    refine ⟨_, k2 x y hx hy, ?_⟩
    intro me' hme' he
    have := k3 me' hme'
    rw [he] at this
    exact this

example : procGrid2 id 6 10 12 = some (1, 6) := C16_2d_always_slabs (by decide) (by decide) (by decide)

/-! ## The square root -/

/-- **C15 (square root).**  `(int) sqrt(n) + 1`, corrected by one step (fft3d.cpp:1747-1748, 1773-1774), is the integer
square root of every 32 bit `n`, whatever the rounding error of `sqrt`. -/
theorem C15_sqrt {n P : Nat} (R : FpOK P fp) (hn : 0 < n) (hn2 : n < 2 ^ 31) :
    (if (⌊fp (Real.sqrt n)⌋₊ + 1) * (⌊fp (Real.sqrt n)⌋₊ + 1) > n then ⌊fp (Real.sqrt n)⌋₊ + 1 - 1
      else ⌊fp (Real.sqrt n)⌋₊ + 1) = sqroot n := by
  rw [sqroot_eq]
  set m := Nat.sqrt n with hm
  have m1 : m * m ≤ n := Nat.sqrt_le n
  have m2 : n < (m + 1) * (m + 1) := Nat.lt_succ_sqrt n
  have mb : m < 2 ^ 16 := by
    by_contra hc
    have : 2 ^ 16 * 2 ^ 16 ≤ m * m := Nat.mul_le_mul (not_lt.mp hc) (not_lt.mp hc)
    omega
  have m0 : 0 < m := Nat.sqrt_pos.mpr hn
  set s := Real.sqrt n with hs
  have s0 : 0 ≤ s := Real.sqrt_nonneg _
  have ss : s * s = n := Real.mul_self_sqrt (by positivity)
  have n1 : ((m : ℝ)) * m ≤ n := by exact_mod_cast m1
  have n2 : (n : ℝ) + 1 ≤ ((m : ℝ) + 1) * (m + 1) := by exact_mod_cast m2
  have mr : (1 : ℝ) ≤ m := by exact_mod_cast m0
  have mr2 : (m : ℝ) + 1 ≤ 2 ^ 16 := by exact_mod_cast mb
  have l1 : (m : ℝ) ≤ s := by
    by_contra hc; nlinarith [not_le.mp hc]
  have l2 : s ≤ (m + 1) - 1 / 2 ^ 18 := by
    by_contra hc
    have hc := not_le.mp hc
    have h0 : (0 : ℝ) ≤ (m + 1) - 1 / 2 ^ 18 := by norm_num; linarith
    have : ((m : ℝ) + 1 - 1 / 2 ^ 18) * (m + 1 - 1 / 2 ^ 18) ≤ s * s := mul_le_mul hc.le hc.le h0 s0
    have h2 : ((m : ℝ) + 1) * (1 / 2 ^ 18) ≤ 2 ^ 16 * (1 / 2 ^ 18) := mul_le_mul_of_nonneg_right mr2 (by norm_num)
    norm_num at this h2
    nlinarith
  have hr := abs_le.mp (R.rel s (le_trans (by norm_num) (mr.trans l1)) (le_trans l2 (by norm_num at mr2 ⊢; linarith)))
  have se : s / 2 ^ 53 ≤ 1 / 2 ^ 19 := by norm_num at l2 mr2 ⊢; linarith
  have lo : (m : ℝ) - 1 / 2 ^ 19 ≤ fp s := by linarith [hr.1]
  have hi : fp s < m + 1 := by
    have : (1 : ℝ) / 2 ^ 19 < 1 / 2 ^ 18 := by norm_num
    linarith [hr.2]
  have f0 : 0 ≤ fp s := by norm_num at lo; linarith
  have c1 : ⌊fp s⌋₊ < m + 1 := (Nat.floor_lt f0).mpr (by exact_mod_cast hi)
  have c2 : m - 1 ≤ ⌊fp s⌋₊ := Nat.le_floor (by
    rw [Nat.cast_sub m0]; norm_num at lo ⊢; linarith)
  rcases (by omega : ⌊fp s⌋₊ = m ∨ ⌊fp s⌋₊ + 1 = m) with h | h
  · rw [h, if_pos m2]; omega
  · rw [h, if_neg (by omega)]

/-- An arithmetic that always rounds down: the root of 9 is computed as 2.99..., and the result is 3 nevertheless. -/
example : FpOK 4 (fun x => x - x / 2 ^ 53) ∧ ⌊(fun x : ℝ => x - x / 2 ^ 53) (Real.sqrt (9 : Nat))⌋₊ = 2 ∧ sqroot 9 = 3 := by
  refine ⟨⟨by norm_num, fun x h _ => ?_⟩, ?_, by rw [sqroot_eq]; norm_num⟩
  · have : 0 ≤ x := le_trans (by norm_num) h
    rw [show x - x / 2 ^ 53 - x = -(x / 2 ^ 53) by ring, abs_neg, abs_of_nonneg (by positivity)]
  · have : Real.sqrt (9 : Nat) = 3 := by
      rw [show ((9 : Nat) : ℝ) = 3 * 3 by norm_num]; exact Real.sqrt_mul_self (by norm_num)
    rw [this, Nat.floor_eq_iff (by norm_num)]
    norm_num

end FftMpi
