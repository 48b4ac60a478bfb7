import Mathlib.Data.Nat.Sqrt
import Mathlib.Data.Real.Basic
import Mathlib.Tactic.Ring
import Mathlib.Tactic.Linarith
import Mathlib.Tactic.Positivity
import Mathlib.Tactic.FieldSimp

/-!
# Model: prime factor test, divisors, processor grids

`FFT3d::prime_factorable`, `FFT3d::factor`, `FFT3d::procfactors`, `FFT3d::surfarea` and the 2d versions.

`double` arithmetic on areas is exact arithmetic followed by a function `fp`; a wrong rounding decides which of two grids
with (nearly) the same area is taken.

Simplifications: integers are unbounded; `sqrt` is exact (`C15_sqrt`: rounding it makes no difference).
-/

noncomputable section

namespace FftMpi

/-! ## Prime factors -/

/-- `primes`, fft3d.cpp:158-162, fft2d.cpp:152-156. -/
def fftPrimes : List Int := [2, 3, 5]

/-- The inner loop of `prime_factorable`, fft3d.cpp:1727-1732: divide by the first prime of the list
that divides; `none` when the loop ends with `i == nprime`. -/
def primeStep (n : Int) : Option Int := (fftPrimes.find? fun p => n % p = 0).map fun p => n / p

theorem primeStep_lt {n m : Int} (hn : 1 < n) (h : primeStep n = some m) : 1 ≤ m ∧ m < n := by
  unfold primeStep at h
  obtain ⟨p, hp, rfl⟩ := Option.map_eq_some_iff.mp h
  have hm := List.mem_of_find?_eq_some hp
  have hd := List.find?_some hp
  simp only [decide_eq_true_eq] at hd
  have hp2 : 2 ≤ p := by simp [fftPrimes] at hm; omega
  have hdiv : p * (n / p) = n := Int.mul_ediv_cancel' (Int.dvd_of_emod_eq_zero hd)
  constructor
  · by_contra hc
    have : n / p ≤ 0 := by omega
    nlinarith
  · exact Int.ediv_lt_self_of_pos_of_ne_one (by omega) (by omega)

/-- `FFT3d::prime_factorable`, fft3d.cpp:1722-1737, and `FFT2d::prime_factorable`, fft2d.cpp:1516-1531
(same text). -/
def primeFactorable (n : Int) : Bool :=
  if h : 1 < n then
    match hs : primeStep n with
    | some m => primeFactorable m
    | none => false
  else true
termination_by n.toNat
decreasing_by have := primeStep_lt h hs; omega

/-- The checks of the dimensions in `setup`, fft3d.cpp:250-255 (three dimensions), fft2d.cpp:254-258 (two
dimensions): `dim < 2` is an error, a dimension that is not factorable is an error. -/
def dimsAccepted (dims : List Int) : Bool :=
  dims.all (fun n => !(n < 2)) && dims.all primeFactorable

/-! ## Divisors -/

/-- `NFACTOR`, fft3d.cpp:47 and fft2d.cpp:47. -/
def NFACTOR : Nat := 50

/-- `sqroot`, fft3d.cpp:1747-1748, 1773-1774. -/
def sqroot (n : Nat) : Nat :=
  let s := Nat.sqrt n + 1
  if s * s > n then s - 1 else s

/-- `FFT3d::factor`, fft3d.cpp:1745-1756, and `FFT2d::factor`, fft2d.cpp:1539-1550: the list
`factors[0..nfactor-1]`. -/
def factor (n : Nat) : List Nat :=
  ((List.range (sqroot n)).map (· + 1)).foldl (fun fs i =>
    if n % i ≠ 0 then fs
    else if fs.length < NFACTOR then fs ++ [i]
    else fs) []

/-! ## Processor grids -/

/-- What is assumed of `double` arithmetic on `P` ranks: numbers of moderate size have a relative error of at most `2^-53`,
as in IEEE double precision in any rounding to nearest.  (The number of ranks, an `int`, is at most `2^60`.) -/
structure FpOK (P : Nat) (fp : ℝ → ℝ) : Prop where
  procs : P ≤ 2 ^ 60
  rel : ∀ x : ℝ, 1 / 2 ^ 100 ≤ x → x ≤ 2 ^ 100 → |fp x - x| ≤ x / 2 ^ 53

/-- `BIG`, fft3d.cpp:48. -/
def BIG : ℝ := 10 ^ 20

/-- `FFT3d::surfarea`, fft3d.cpp:1854-1864. -/
def surfarea (fp : ℝ → ℝ) (i j k nx ny nz : Nat) : ℝ :=
  if nx = 1 ∧ i ≠ 1 then BIG
  else if ny = 1 ∧ j ≠ 1 then BIG
  else if nz = 1 ∧ k ≠ 1 then BIG
  else
    let dx := fp (fp (1 * nx) / i)
    let dy := fp (fp (1 * ny) / j)
    let dz := fp (fp (1 * nz) / k)
    fp (fp (fp (dx * dy) + fp (dy * dz)) + fp (dx * dz))

/-- One of the six tests of `procfactors`: `if (newarea < minarea) {...}`. -/
def testGrid (fp : ℝ → ℝ) (nx ny nz : Nat) (st : ℝ × Option (Nat × Nat × Nat)) (c : Nat × Nat × Nat) :
    ℝ × Option (Nat × Nat × Nat) :=
  let newarea := surfarea fp c.1 c.2.1 c.2.2 nx ny nz
  if newarea < st.1 then (newarea, some c) else st

/-- The six permutations tested for one factorisation, fft3d.cpp:1794-1840, in order. -/
def sixPerms (i j k : Nat) : List (Nat × Nat × Nat) :=
  [(i, j, k), (i, k, j), (j, i, k), (j, k, i), (k, i, j), (k, j, i)]

/-- `minarea` at the start, fft3d.cpp:1776. -/
def minarea0 (fp : ℝ → ℝ) (nx ny nz : Nat) : ℝ :=
  fp (fp (fp (fp (2 * nx) * ny) + fp (fp (2 * ny) * nz)) + fp (fp (2 * nx) * nz))

/-- The grid `npx,npy,npz` computed by `FFT3d::procfactors`, fft3d.cpp:1766-1841, with the list
`factors` as computed by `factor(nprocs)`.  `none`: `npx`, `npy`, `npz` are never assigned. -/
def procGrid (fp : ℝ → ℝ) (nprocs nx ny nz : Nat) : Option (Nat × Nat × Nat) :=
  let factors := factor nprocs
  let nfactor := factors.length
  ((List.range nfactor).foldl (fun st i =>
    let ifac := factors.getD i 0
    let jk := nprocs / ifac
    (List.range' i (nfactor - i)).foldl (fun st j =>
      let jfac := factors.getD j 0
      let kfac := jk / jfac
      if ifac * jfac * kfac ≠ nprocs then st
      else if ifac > jfac ∨ jfac > kfac then st
      else (sixPerms ifac jfac kfac).foldl (testGrid fp nx ny nz) st) st)
    (minarea0 fp nx ny nz, none)).2

/-- `ipx,ipy,ipz`, fft3d.cpp:1844-1846. -/
def gridCoords (np : Nat × Nat × Nat) (me : Nat) : Nat × Nat × Nat :=
  (me % np.1, (me / np.1) % np.2.1, me / (np.1 * np.2.1))

/-- `FFT2d::surfarea`, fft2d.cpp:1606-1614. -/
def surfarea2 (fp : ℝ → ℝ) (i j nx ny : Nat) : ℝ :=
  if nx = 1 ∧ i ≠ 1 then BIG
  else if ny = 1 ∧ j ≠ 1 then BIG
  else
    let dx := fp (fp (1 * nx) / i)
    let dy := fp (fp (1 * ny) / j)
    fp (dx * dy)

/-- One of the two tests of the 2d `procfactors`. -/
def testGrid2 (fp : ℝ → ℝ) (nx ny : Nat) (st : ℝ × Option (Nat × Nat)) (c : Nat × Nat) : ℝ × Option (Nat × Nat) :=
  let newarea := surfarea2 fp c.1 c.2 nx ny
  if newarea < st.1 then (newarea, some c) else st

/-- `minarea` at the start, fft2d.cpp:1566. -/
def minarea2 (fp : ℝ → ℝ) (nx ny : Nat) : ℝ := fp (fp (2 * nx) * ny)

/-- The grid computed by `FFT2d::procfactors`, fft2d.cpp:1558-1592.  The inner loop over `j` does not
use `j`. -/
def procGrid2 (fp : ℝ → ℝ) (nprocs nx ny : Nat) : Option (Nat × Nat) :=
  let factors := factor nprocs
  let nfactor := factors.length
  ((List.range nfactor).foldl (fun st i =>
    let ifac := factors.getD i 0
    (List.range' i (nfactor - i)).foldl (fun st _j =>
      let jfac := nprocs / ifac
      if ifac * jfac ≠ nprocs then st
      else if ifac > jfac then st
      else ([(ifac, jfac), (jfac, ifac)]).foldl (testGrid2 fp nx ny) st) st)
    (minarea2 fp nx ny, none)).2

/-- `ipx,ipy`, fft2d.cpp:1596-1597. -/
def gridCoords2 (np : Nat × Nat) (me : Nat) : Nat × Nat := (me % np.1, me / np.1)

/-! ## Blocks -/

/-- First index of block `ip` of `np` blocks of `n` points, fft3d.cpp:334-405: `ip*n/np`. -/
def blockLo (ip n np : Nat) : Int := ((ip * n / np : Nat) : Int)

/-- Last index: `(ip+1)*n/np - 1`. -/
def blockHi (ip n np : Nat) : Int := (((ip + 1) * n / np : Nat) : Int) - 1

end FftMpi
