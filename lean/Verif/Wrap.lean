import Verif.Fft3d
import Verif.Tune
import Verif.Remap2d

/-!
# Model of the C and Fortran interfaces

fft3d_wrap.cpp, fft2d_wrap.cpp, remap3d_wrap.cpp, remap2d_wrap.cpp.  A keyword is a `String`, `strcmp(..) == 0`
is equality (`Fortran` has the functions on memory, C59 says that they agree).  The pointer to the object is left out.
The interface blocks of the `.f90` files are in `Fortran`, `fftmpi.py` in `Py`.
-/

namespace FftMpi

/-! ## set and get -/

/-- The public members of `FFT3d`, fft3d.h:28-51.  `none`: not assigned yet.  The arrays are those that `tune`
fills, one value for each trial. -/
structure Pub3 where
  collective : Int
  exchange : Int
  packflag : Int
  memoryflag : Int
  scaled : Int
  remaponly : Int
  permute : Option Int
  collective_bp : Option Int
  collective_pp : Option Int
  memusage : Int
  npfast1 : Option Int
  npfast2 : Option Int
  npfast3 : Option Int
  npmid1 : Option Int
  npmid2 : Option Int
  npmid3 : Option Int
  npslow1 : Option Int
  npslow2 : Option Int
  npslow3 : Option Int
  npbrick1 : Option Int
  npbrick2 : Option Int
  npbrick3 : Option Int
  ntrial : Option Int
  npertrial : Option Int
  cbest : Option Int
  ebest : Option Int
  pbest : Option Int
  besttime : Option ℚ
  setuptime : Option ℚ
  cflags : Nat → Option Int
  eflags : Nat → Option Int
  pflags : Nat → Option Int
  tfft : Nat → Option ℚ
  t1d : Nat → Option ℚ
  tremap : Nat → Option ℚ
  tremap1 : Nat → Option ℚ
  tremap2 : Nat → Option ℚ
  tremap3 : Nat → Option ℚ
  tremap4 : Nat → Option ℚ
  fft1d : String
  precision : String

namespace Pub3

/-- `fft3d_set`, fft3d_wrap.cpp:64-74. -/
def set (f : Pub3) (keyword : String) (value : Int) : Pub3 :=
  if keyword = "collective" then { f with collective := value }
  else if keyword = "exchange" then { f with exchange := value }
  else if keyword = "pack" then { f with packflag := value }
  else if keyword = "memory" then { f with memoryflag := value }
  else if keyword = "scale" then { f with scaled := value }
  else if keyword = "remaponly" then { f with remaponly := value }
  else f

/-- `fft3d_get_int`, fft3d_wrap.cpp:80-103.  `none`: the value of a member that was never assigned. -/
def getInt (f : Pub3) (keyword : String) : Option Int :=
  if keyword = "collective" then some f.collective
  else if keyword = "exchange" then some f.exchange
  else if keyword = "pack" then some f.packflag
  else if keyword = "npfast1" then f.npfast1
  else if keyword = "npfast2" then f.npfast2
  else if keyword = "npfast3" then f.npfast3
  else if keyword = "npmid1" then f.npmid1
  else if keyword = "npmid2" then f.npmid2
  else if keyword = "npmid3" then f.npmid3
  else if keyword = "npslow1" then f.npslow1
  else if keyword = "npslow2" then f.npslow2
  else if keyword = "npslow3" then f.npslow3
  else if keyword = "npbrick1" then f.npbrick1
  else if keyword = "npbrick2" then f.npbrick2
  else if keyword = "npbrick3" then f.npbrick3
  else if keyword = "ntrial" then f.ntrial
  else if keyword = "npertrial" then f.npertrial
  else some (-1)

/-- `fft3d_get_double`, fft3d_wrap.cpp:109-116. -/
def getDouble (f : Pub3) (keyword : String) : Option ℚ :=
  if keyword = "setuptime" then f.setuptime else some (-1)

/-- `fft3d_get_int64`, fft3d_wrap.cpp:122-129. -/
def getInt64 (f : Pub3) (keyword : String) : Int :=
  if keyword = "memusage" then f.memusage else -1

/-- `fft3d_get_string`, fft3d_wrap.cpp:135-148: the string and its length, `none` is `NULL`. -/
def getString (f : Pub3) (keyword : String) : Option (String × Nat) :=
  if keyword = "fft1d" then some (f.fft1d, f.fft1d.length)
  else if keyword = "precision" then some (f.precision, f.precision.length)
  else none

/-- `fft3d_get_int_vector`, fft3d_wrap.cpp:154-165: the array, `none` is `NULL`, and `*len`. -/
def getIntVector (f : Pub3) (keyword : String) : Option (Nat → Option Int) × Option Int :=
  (if keyword = "cflags" then some f.cflags
   else if keyword = "eflags" then some f.eflags
   else if keyword = "pflags" then some f.pflags
   else none, f.ntrial)

/-- `fft3d_get_double_vector`, fft3d_wrap.cpp:171-186. -/
def getDoubleVector (f : Pub3) (keyword : String) : Option (Nat → Option ℚ) × Option Int :=
  (if keyword = "tfft" then some f.tfft
   else if keyword = "t1d" then some f.t1d
   else if keyword = "tremap" then some f.tremap
   else if keyword = "tremap1" then some f.tremap1
   else if keyword = "tremap2" then some f.tremap2
   else if keyword = "tremap3" then some f.tremap3
   else if keyword = "tremap4" then some f.tremap4
   else none, f.ntrial)

end Pub3
/-- The public members of `FFT2d`, fft2d.h:27-48.  `none`: not assigned yet.  The arrays are those that `tune`
fills, one value for each trial. -/
structure Pub2 where
  collective : Int
  exchange : Int
  packflag : Int
  memoryflag : Int
  scaled : Int
  remaponly : Int
  permute : Option Int
  collective_bp : Option Int
  collective_pp : Option Int
  memusage : Int
  npfast1 : Option Int
  npfast2 : Option Int
  npslow1 : Option Int
  npslow2 : Option Int
  npbrick1 : Option Int
  npbrick2 : Option Int
  ntrial : Option Int
  npertrial : Option Int
  cbest : Option Int
  ebest : Option Int
  pbest : Option Int
  besttime : Option ℚ
  setuptime : Option ℚ
  cflags : Nat → Option Int
  eflags : Nat → Option Int
  pflags : Nat → Option Int
  tfft : Nat → Option ℚ
  t1d : Nat → Option ℚ
  tremap : Nat → Option ℚ
  tremap1 : Nat → Option ℚ
  tremap2 : Nat → Option ℚ
  tremap3 : Nat → Option ℚ
  fft1d : String
  precision : String

namespace Pub2

/-- `fft2d_set`, fft2d_wrap.cpp:63-73. -/
def set (f : Pub2) (keyword : String) (value : Int) : Pub2 :=
  if keyword = "collective" then { f with collective := value }
  else if keyword = "exchange" then { f with exchange := value }
  else if keyword = "pack" then { f with packflag := value }
  else if keyword = "memory" then { f with memoryflag := value }
  else if keyword = "scale" then { f with scaled := value }
  else if keyword = "remaponly" then { f with remaponly := value }
  else f

/-- `fft2d_get_int`, fft2d_wrap.cpp:79-96.  `none`: the value of a member that was never assigned. -/
def getInt (f : Pub2) (keyword : String) : Option Int :=
  if keyword = "collective" then some f.collective
  else if keyword = "exchange" then some f.exchange
  else if keyword = "pack" then some f.packflag
  else if keyword = "npfast1" then f.npfast1
  else if keyword = "npfast2" then f.npfast2
  else if keyword = "npslow1" then f.npslow1
  else if keyword = "npslow2" then f.npslow2
  else if keyword = "npbrick1" then f.npbrick1
  else if keyword = "npbrick2" then f.npbrick2
  else if keyword = "ntrial" then f.ntrial
  else if keyword = "npertrial" then f.npertrial
  else some (-1)

/-- `fft2d_get_double`, fft2d_wrap.cpp:102-109. -/
def getDouble (f : Pub2) (keyword : String) : Option ℚ :=
  if keyword = "setuptime" then f.setuptime else some (-1)

/-- `fft2d_get_int64`, fft2d_wrap.cpp:115-122. -/
def getInt64 (f : Pub2) (keyword : String) : Int :=
  if keyword = "memusage" then f.memusage else -1

/-- `fft2d_get_string`, fft2d_wrap.cpp:128-141: the string and its length, `none` is `NULL`. -/
def getString (f : Pub2) (keyword : String) : Option (String × Nat) :=
  if keyword = "fft1d" then some (f.fft1d, f.fft1d.length)
  else if keyword = "precision" then some (f.precision, f.precision.length)
  else none

/-- `fft2d_get_int_vector`, fft2d_wrap.cpp:147-158: the array, `none` is `NULL`, and `*len`. -/
def getIntVector (f : Pub2) (keyword : String) : Option (Nat → Option Int) × Option Int :=
  (if keyword = "cflags" then some f.cflags
   else if keyword = "eflags" then some f.eflags
   else if keyword = "pflags" then some f.pflags
   else none, f.ntrial)

/-- `fft2d_get_double_vector`, fft2d_wrap.cpp:164-178. -/
def getDoubleVector (f : Pub2) (keyword : String) : Option (Nat → Option ℚ) × Option Int :=
  (if keyword = "tfft" then some f.tfft
   else if keyword = "t1d" then some f.t1d
   else if keyword = "tremap" then some f.tremap
   else if keyword = "tremap1" then some f.tremap1
   else if keyword = "tremap2" then some f.tremap2
   else if keyword = "tremap3" then some f.tremap3
   else none, f.ntrial)

end Pub2
/-- The public members of `Remap3d` and `Remap2d`, remap3d.h:27-28, remap2d.h:27-28. -/
structure PubRemap where
  collective : Int
  packflag : Int

/-- `remap3d_set`, remap3d_wrap.cpp:63-69, and `remap2d_set`, remap2d_wrap.cpp:63-69. -/
def PubRemap.set (f : PubRemap) (keyword : String) (value : Int) : PubRemap :=
  if keyword = "collective" then { f with collective := value }
  else if keyword = "pack" then { f with packflag := value }
  else f

/-! ## setup and tune

The wrappers are functions of the member function that they call, so what the member function does is arbitrary;
`σ` is its effect.  The sizes are returned through references and then stored through the pointers of the
caller. -/

/-- The three values that `setup` and `tune` return. -/
structure Sizes where
  fftsize : Int
  sendsize : Int
  recvsize : Int
deriving DecidableEq

/-- The grid and layout arguments of `fft3d_setup` and `fft3d_tune` on one rank, fft3d_wrap.cpp:192-199. -/
structure Raw3 where
  nfast : Int
  nmid : Int
  nslow : Int
  in_ilo : Int
  in_ihi : Int
  in_jlo : Int
  in_jhi : Int
  in_klo : Int
  in_khi : Int
  out_ilo : Int
  out_ihi : Int
  out_jlo : Int
  out_jhi : Int
  out_klo : Int
  out_khi : Int
  permute : Int
deriving DecidableEq

/-- `fft3d_setup`, fft3d_wrap.cpp:192-211. -/
def wrap3Setup {σ : Type} (setup : Raw3 → σ × Sizes) (x : Raw3) : σ × Sizes :=
  let (e, z) := setup {
    nfast := x.nfast
    nmid := x.nmid
    nslow := x.nslow
    in_ilo := x.in_ilo
    in_ihi := x.in_ihi
    in_jlo := x.in_jlo
    in_jhi := x.in_jhi
    in_klo := x.in_klo
    in_khi := x.in_khi
    out_ilo := x.out_ilo
    out_ihi := x.out_ihi
    out_jlo := x.out_jlo
    out_jhi := x.out_jhi
    out_klo := x.out_klo
    out_khi := x.out_khi
    permute := x.permute }
  (e, { fftsize := z.fftsize, sendsize := z.sendsize, recvsize := z.recvsize })

/-- `fft3d_setup_fortran`, fft3d_wrap.cpp:218-237. -/
def wrap3SetupFortran {σ : Type} (setup : Raw3 → σ × Sizes) (x : Raw3) : σ × Sizes :=
  let (e, z) := setup {
    nfast := x.nfast
    nmid := x.nmid
    nslow := x.nslow
    in_ilo := x.in_ilo - 1
    in_ihi := x.in_ihi - 1
    in_jlo := x.in_jlo - 1
    in_jhi := x.in_jhi - 1
    in_klo := x.in_klo - 1
    in_khi := x.in_khi - 1
    out_ilo := x.out_ilo - 1
    out_ihi := x.out_ihi - 1
    out_jlo := x.out_jlo - 1
    out_jhi := x.out_jhi - 1
    out_klo := x.out_klo - 1
    out_khi := x.out_khi - 1
    permute := x.permute }
  (e, { fftsize := z.fftsize, sendsize := z.sendsize, recvsize := z.recvsize })

/-- `fft3d_tune`, fft3d_wrap.cpp:294-314. -/
def wrap3Tune {σ : Type} (tune : Raw3 → TuneArgs → σ × Sizes) (x : Raw3) (t : TuneArgs) : σ × Sizes :=
  let (e, z) := tune {
    nfast := x.nfast
    nmid := x.nmid
    nslow := x.nslow
    in_ilo := x.in_ilo
    in_ihi := x.in_ihi
    in_jlo := x.in_jlo
    in_jhi := x.in_jhi
    in_klo := x.in_klo
    in_khi := x.in_khi
    out_ilo := x.out_ilo
    out_ihi := x.out_ihi
    out_jlo := x.out_jlo
    out_jhi := x.out_jhi
    out_klo := x.out_klo
    out_khi := x.out_khi
    permute := x.permute }
    { flag := t.flag, niter := t.niter, tmax := t.tmax, tflag := t.tflag }
  (e, { fftsize := z.fftsize, sendsize := z.sendsize, recvsize := z.recvsize })

/-- `fft3d_tune_fortran`, fft3d_wrap.cpp:322-342. -/
def wrap3TuneFortran {σ : Type} (tune : Raw3 → TuneArgs → σ × Sizes) (x : Raw3) (t : TuneArgs) : σ × Sizes :=
  let (e, z) := tune {
    nfast := x.nfast
    nmid := x.nmid
    nslow := x.nslow
    in_ilo := x.in_ilo - 1
    in_ihi := x.in_ihi - 1
    in_jlo := x.in_jlo - 1
    in_jhi := x.in_jhi - 1
    in_klo := x.in_klo - 1
    in_khi := x.in_khi - 1
    out_ilo := x.out_ilo - 1
    out_ihi := x.out_ihi - 1
    out_jlo := x.out_jlo - 1
    out_jhi := x.out_jhi - 1
    out_klo := x.out_klo - 1
    out_khi := x.out_khi - 1
    permute := x.permute }
    { flag := t.flag, niter := t.niter, tmax := t.tmax, tflag := t.tflag }
  (e, { fftsize := z.fftsize, sendsize := z.sendsize, recvsize := z.recvsize })

/-- The arguments of all ranks as the model of `FFT3d::setup` takes them; the grid and `permute` are the same on
all ranks and are taken from rank `me`; `fp` is the rounding of `double`. -/
def Raw3.args (fp : ℝ → ℝ) (me : Nat) (x : Nat → Raw3) : Args3 where
  nfast := (x me).nfast
  nmid := (x me).nmid
  nslow := (x me).nslow
  ins r := ⟨(x r).in_ilo, (x r).in_ihi, (x r).in_jlo, (x r).in_jhi, (x r).in_klo, (x r).in_khi⟩
  outs r := ⟨(x r).out_ilo, (x r).out_ihi, (x r).out_jlo, (x r).out_jhi, (x r).out_klo, (x r).out_khi⟩
  permute := (x me).permute
  fp

/-- The grid and layout arguments of `fft2d_setup` and `fft2d_tune` on one rank, fft2d_wrap.cpp:184-189. -/
structure Raw2 where
  nfast : Int
  nslow : Int
  in_ilo : Int
  in_ihi : Int
  in_jlo : Int
  in_jhi : Int
  out_ilo : Int
  out_ihi : Int
  out_jlo : Int
  out_jhi : Int
  permute : Int
deriving DecidableEq

/-- `fft2d_setup`, fft2d_wrap.cpp:184-201. -/
def wrap2Setup {σ : Type} (setup : Raw2 → σ × Sizes) (x : Raw2) : σ × Sizes :=
  let (e, z) := setup {
    nfast := x.nfast
    nslow := x.nslow
    in_ilo := x.in_ilo
    in_ihi := x.in_ihi
    in_jlo := x.in_jlo
    in_jhi := x.in_jhi
    out_ilo := x.out_ilo
    out_ihi := x.out_ihi
    out_jlo := x.out_jlo
    out_jhi := x.out_jhi
    permute := x.permute }
  (e, { fftsize := z.fftsize, sendsize := z.sendsize, recvsize := z.recvsize })

/-- `fft2d_setup_fortran`, fft2d_wrap.cpp:208-225. -/
def wrap2SetupFortran {σ : Type} (setup : Raw2 → σ × Sizes) (x : Raw2) : σ × Sizes :=
  let (e, z) := setup {
    nfast := x.nfast
    nslow := x.nslow
    in_ilo := x.in_ilo - 1
    in_ihi := x.in_ihi - 1
    in_jlo := x.in_jlo - 1
    in_jhi := x.in_jhi - 1
    out_ilo := x.out_ilo - 1
    out_ihi := x.out_ihi - 1
    out_jlo := x.out_jlo - 1
    out_jhi := x.out_jhi - 1
    permute := x.permute }
  (e, { fftsize := z.fftsize, sendsize := z.sendsize, recvsize := z.recvsize })

/-- `fft2d_tune`, fft2d_wrap.cpp:282-301. -/
def wrap2Tune {σ : Type} (tune : Raw2 → TuneArgs → σ × Sizes) (x : Raw2) (t : TuneArgs) : σ × Sizes :=
  let (e, z) := tune {
    nfast := x.nfast
    nslow := x.nslow
    in_ilo := x.in_ilo
    in_ihi := x.in_ihi
    in_jlo := x.in_jlo
    in_jhi := x.in_jhi
    out_ilo := x.out_ilo
    out_ihi := x.out_ihi
    out_jlo := x.out_jlo
    out_jhi := x.out_jhi
    permute := x.permute }
    { flag := t.flag, niter := t.niter, tmax := t.tmax, tflag := t.tflag }
  (e, { fftsize := z.fftsize, sendsize := z.sendsize, recvsize := z.recvsize })

/-- `fft2d_tune_fortran`, fft2d_wrap.cpp:308-327. -/
def wrap2TuneFortran {σ : Type} (tune : Raw2 → TuneArgs → σ × Sizes) (x : Raw2) (t : TuneArgs) : σ × Sizes :=
  let (e, z) := tune {
    nfast := x.nfast
    nslow := x.nslow
    in_ilo := x.in_ilo - 1
    in_ihi := x.in_ihi - 1
    in_jlo := x.in_jlo - 1
    in_jhi := x.in_jhi - 1
    out_ilo := x.out_ilo - 1
    out_ihi := x.out_ihi - 1
    out_jlo := x.out_jlo - 1
    out_jhi := x.out_jhi - 1
    permute := x.permute }
    { flag := t.flag, niter := t.niter, tmax := t.tmax, tflag := t.tflag }
  (e, { fftsize := z.fftsize, sendsize := z.sendsize, recvsize := z.recvsize })

/-- The arguments of `remap3d_setup` on one rank, remap3d_wrap.cpp:75-80. -/
structure RawRemap3 where
  in_ilo : Int
  in_ihi : Int
  in_jlo : Int
  in_jhi : Int
  in_klo : Int
  in_khi : Int
  out_ilo : Int
  out_ihi : Int
  out_jlo : Int
  out_jhi : Int
  out_klo : Int
  out_khi : Int
  nqty : Int
  permute : Int
  memoryflag : Int
deriving DecidableEq

/-- `remap3d_setup`, remap3d_wrap.cpp:75-87; `setup` returns `sendsize` and `recvsize`. -/
def wrapRemap3Setup {σ : Type} (setup : RawRemap3 → σ × Int × Int) (x : RawRemap3) : σ × Int × Int :=
  setup {
    in_ilo := x.in_ilo
    in_ihi := x.in_ihi
    in_jlo := x.in_jlo
    in_jhi := x.in_jhi
    in_klo := x.in_klo
    in_khi := x.in_khi
    out_ilo := x.out_ilo
    out_ihi := x.out_ihi
    out_jlo := x.out_jlo
    out_jhi := x.out_jhi
    out_klo := x.out_klo
    out_khi := x.out_khi
    nqty := x.nqty
    permute := x.permute
    memoryflag := x.memoryflag }

/-- `remap3d_setup_fortran`, remap3d_wrap.cpp:94-106; `setup` returns `sendsize` and `recvsize`. -/
def wrapRemap3SetupFortran {σ : Type} (setup : RawRemap3 → σ × Int × Int) (x : RawRemap3) : σ × Int × Int :=
  setup {
    in_ilo := x.in_ilo - 1
    in_ihi := x.in_ihi - 1
    in_jlo := x.in_jlo - 1
    in_jhi := x.in_jhi - 1
    in_klo := x.in_klo - 1
    in_khi := x.in_khi - 1
    out_ilo := x.out_ilo - 1
    out_ihi := x.out_ihi - 1
    out_jlo := x.out_jlo - 1
    out_jhi := x.out_jhi - 1
    out_klo := x.out_klo - 1
    out_khi := x.out_khi - 1
    nqty := x.nqty
    permute := x.permute
    memoryflag := x.memoryflag }

/-- The arguments of `remap2d_setup` on one rank, remap2d_wrap.cpp:75-79. -/
structure RawRemap2 where
  in_ilo : Int
  in_ihi : Int
  in_jlo : Int
  in_jhi : Int
  out_ilo : Int
  out_ihi : Int
  out_jlo : Int
  out_jhi : Int
  nqty : Int
  permute : Int
  memoryflag : Int
deriving DecidableEq

/-- `remap2d_setup`, remap2d_wrap.cpp:75-85; `setup` returns `sendsize` and `recvsize`. -/
def wrapRemap2Setup {σ : Type} (setup : RawRemap2 → σ × Int × Int) (x : RawRemap2) : σ × Int × Int :=
  setup {
    in_ilo := x.in_ilo
    in_ihi := x.in_ihi
    in_jlo := x.in_jlo
    in_jhi := x.in_jhi
    out_ilo := x.out_ilo
    out_ihi := x.out_ihi
    out_jlo := x.out_jlo
    out_jhi := x.out_jhi
    nqty := x.nqty
    permute := x.permute
    memoryflag := x.memoryflag }

/-- `remap2d_setup_fortran`, remap2d_wrap.cpp:92-102; `setup` returns `sendsize` and `recvsize`. -/
def wrapRemap2SetupFortran {σ : Type} (setup : RawRemap2 → σ × Int × Int) (x : RawRemap2) : σ × Int × Int :=
  setup {
    in_ilo := x.in_ilo - 1
    in_ihi := x.in_ihi - 1
    in_jlo := x.in_jlo - 1
    in_jhi := x.in_jhi - 1
    out_ilo := x.out_ilo - 1
    out_ihi := x.out_ihi - 1
    out_jlo := x.out_jlo - 1
    out_jhi := x.out_jhi - 1
    nqty := x.nqty
    permute := x.permute
    memoryflag := x.memoryflag }

end FftMpi
