import Verif.CInt
import Verif.Factor

/-!
# Integer arithmetic of the FFT setup: processor grids and blocks

The functions of `Factor.lean` with the operations of `CInt.lean` for every expression of type `int`, in
the order in which C evaluates them; `none` stands for signed overflow or a division by zero.
The loop counters are at most `nfactor <= 50` or `sqroot`; the `double` expressions of `surfarea` and
`minarea` do not overflow (they stay below 10^20).
-/

noncomputable section

namespace FftMpi

/-- Representable in `bigint`, i.e. `int64_t` (fft3d.cpp:58, fft2d.cpp:58). -/
def Fits64 (x : Int) : Prop := -9223372036854775808 ≤ x ∧ x ≤ 9223372036854775807

instance (x : Int) : Decidable (Fits64 x) := by unfold Fits64; infer_instance

/-- The result of an operation on `bigint`. -/
def ck64 (x : Int) : Option Int := if Fits64 x then some x else none

/-- `a * b` on `bigint` -/
def mul64 (a b : Int) : Option Int := ck64 (a * b)

/-- `a / b` on `int`: division by zero is undefined. -/
def div32 (a b : Int) : Option Int := if b = 0 then none else ck (a.tdiv b)

/-- `a % b` on `int`. -/
def mod32 (a b : Int) : Option Int := if b = 0 then none else ck (a.tmod b)

/-- `int sqroot = (int) sqrt(n) + 1; if (sqroot*sqroot > n) sqroot--;`, fft3d.cpp:1747-1748, 1773-1774. -/
def sqroot32 (n : Nat) : Option Nat :=
  (add32 (Nat.sqrt n) 1).bind fun s =>
  (mul32 s s).map fun (q : Int) => if q > n then Nat.sqrt n else Nat.sqrt n + 1

/-- `factor`, fft3d.cpp:1745-1756, fft2d.cpp:1539-1550. -/
def factor32 (n : Nat) : Option (List Nat) :=
  (sqroot32 n).map fun sq =>
    ((List.range sq).map (· + 1)).foldl (fun fs i =>
      if n % i ≠ 0 then fs
      else if fs.length < NFACTOR then fs ++ [i]
      else fs) []

/-- The grid computed by `FFT3d::procfactors`, fft3d.cpp:1766-1841.  Inner `none`: `npx`, `npy`, `npz` are
never assigned. -/
def procGrid32 (fp : ℝ → ℝ) (nprocs nx ny nz : Nat) : Option (Option (Nat × Nat × Nat)) :=
  (factor32 nprocs).bind fun factors =>
  (sqroot32 nprocs).bind fun _ =>
  let nfactor := factors.length
  ((List.range nfactor).foldlM (fun st i =>
    let ifac := factors.getD i 0
    let jk := nprocs / ifac
    (List.range' i (nfactor - i)).foldlM (fun st j =>
      let jfac := factors.getD j 0
      let kfac := jk / jfac
      (mul32 ifac jfac).bind fun x =>
      (mul32 x kfac).map fun (x : Int) =>
        if x ≠ nprocs then st
        else if ifac > jfac ∨ jfac > kfac then st
        else (sixPerms ifac jfac kfac).foldl (testGrid fp nx ny nz) st) st)
    (minarea0 fp nx ny nz, none)).map Prod.snd

/-- The grid computed by `FFT2d::procfactors`, fft2d.cpp:1558-1592. -/
def procGrid2_32 (fp : ℝ → ℝ) (nprocs nx ny : Nat) : Option (Option (Nat × Nat)) :=
  (factor32 nprocs).bind fun factors =>
  (sqroot32 nprocs).bind fun _ =>
  let nfactor := factors.length
  ((List.range nfactor).foldlM (fun st i =>
    let ifac := factors.getD i 0
    (List.range' i (nfactor - i)).foldlM (fun st _j =>
      let jfac := nprocs / ifac
      (mul32 ifac jfac).map fun (x : Int) =>
        if x ≠ nprocs then st
        else if ifac > jfac then st
        else ([(ifac, jfac), (jfac, ifac)]).foldl (testGrid2 fp nx ny) st) st)
    (minarea2 fp nx ny, none)).map Prod.snd

/-- `ipx = me % npx; ipy = (me/npx) % npy; ipz = me / (npx*npy);`, fft3d.cpp:1844-1846. -/
def gridCoords32 (np : Nat × Nat × Nat) (me : Nat) : Option (Int × Int × Int) :=
  (mod32 me np.1).bind fun ipx =>
  (div32 me np.1).bind fun t => (mod32 t np.2.1).bind fun ipy =>
  (mul32 np.1 np.2.1).bind fun t => (div32 me t).map fun ipz => (ipx, ipy, ipz)

/-- `ipx = me % npx; ipy = me/npx;`, fft2d.cpp:1596-1597. -/
def gridCoords2_32 (np : Nat × Nat) (me : Nat) : Option (Int × Int) :=
  (mod32 me np.1).bind fun ipx => (div32 me np.1).map fun ipy => (ipx, ipy)

/-- `ip*n/np`, fft3d.cpp:338-404, fft2d.cpp:339-386. -/
def blockLo32 (ip n np : Int) : Option Int := (mul32 ip n).bind fun x => div32 x np

/-- `(ip+1)*n/np - 1` -/
def blockHi32 (ip n np : Int) : Option Int :=
  (add32 ip 1).bind fun i => (mul32 i n).bind fun x => (div32 x np).bind fun x => sub32 x 1

end FftMpi
