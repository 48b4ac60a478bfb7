# Formal model of fftMPI in Lean 4

Source of truth: `/repo` (lammps/fftmpi, C++), read as text, never built or run.
Properties: `properties.jsonl` (C01 to C78).  Status, theorem names and notes per property: `MANIFEST.json`.
Mutation tests: `seeded/LOG.jsonl`.

## 1. Trusted base

* The Lean 4.33.0 kernel, and the Mathlib modules that are imported one by one.
* Axioms.  `#print axioms` of the theorems in `MANIFEST.json` gives:
  * no axioms: `C09_remap3d_own_group`, `C39_remap2d_own_group`, `C37_c3`, `C37_c2`, `C40_memcpy_false`;
  * `propext`: `C36_unknown3`, `C36_unknown2`, `C37_setup3`, `C37_tune3`, `C37_setup2`, `C37_tune2`,
    `C37_remap3`, `C37_remap2`;
  * `propext`, `Quot.sound`: `C30_fft2d_setup_false`, `C36_get3_false`, `C36_get2_false`, `C37_ranks3`,
    `C40_memcpy_double_partial`, `C44_remap_packflag_partial`, `C45_remap3d_false`, `C45_request_false`,
    `C47_remap_strict_false`, `C47_remap_before_setup_false`, `C47_remap_setup_twice_false`,
    `C47_fft2d_before_setup_false`, `C47_fft_strict_false`, `C48_*_false`, `C49_bounds_iff`;
  * `propext`, `Classical.choice`, `Quot.sound`: all others.

  No own axioms, no `sorry`, no `native_decide`, no `bv_decide`.  `decide +kernel` is used for closed
  finite computations (counterexamples, tables); it is checked by the kernel.
* The transcription of the C++ code into Lean definitions, by hand.  Every definition that models code
  cites file and lines; its simplifications are in its comment or in the header of its module.
* The rules of the concurrent machine (`Machine.lean`) as a description of MPI.
* For C52: the specification of MKL, FFTW2 and FFTW3 at the head of `Package.lean`, written without access to
  their manuals.  Two of its conditions matter for the `C52_*_false` theorems: MKL needs at least one transform,
  a plan of FFTW3 made without `FFTW_UNALIGNED` needs aligned arrays.
* The statements: the small specifications in `GridSpec.lean` (boxes, tilings, storage order), `Dft3.lean`,
  `Dft2.lean` (`dft3`, `dft2`), the definitions at the head of the `Props*.lean` files, and
  `LifecycleHist.lean` (`expected`, `firstError`).

## 2. What is modelled, and where

| Code | Model | Lemmas | Properties |
|---|---|---|---|
| `pack3d.h`, all 24 routines | `Mem`, `Pack3d` | `Pack3dLemmas`, `PtsLemmas` | C08 in `PropsRemap3d` |
| `pack2d.h`, all 15 routines, both precisions (`w`) | `Pack2d` | same file | C39, C40 in `PropsRemap2d` |
| MPI calls used by remaps, any local code between | `Machine` | `MachineLemmas`, `Rounds*`, `Stage` | |
| `Remap3d::setup`, `collide`, `remap` | `RemapCore`, `Remap3d` | `RemapFacts`, `RemapGroup`, `RemapSem`, `RemapP2P`, `RemapColl`, `RemapWorks`, `Remap3dGeom`, `Remap3dMain` | C01-C13 in `PropsRemap3d` |
| `Remap2d::...` | `RemapCore`, `Remap2d` | same, `Remap2dMain` | C39 in `PropsRemap2d` |
| Constructor, allocations, `memusage`, destructor of the remaps | `Heap`, `RemapLife` | `RemapLifeLemmas` | C44, C45, C47 in `PropsRemapLife`, `PropsRemapLifeExact` |
| `prime_factorable`, `factor`, `procfactors`, `surfarea` (3d, 2d) | `Factor` | `FpLemmas`, `FactorLemmas` | C14-C16 in `PropsGrid`, `PropsGridFp` |
| `kissfft.h`, all functions (temporary memory from malloc, not alloca) | `Kiss` | `KissFactor`, `KissBfly`, `KissWork` | C18-C20 in `PropsKiss` |
| `kissfft.h` with `int` and `size_t` arithmetic | `Kiss32` | `Kiss32Lemmas` | C54 in `PropsKiss32` |
| `kissfft.h` with every floating-point operation | `KissFl` | `KissFlLemmas`, `KissErr`, `KissErr2`, `KissErr3` | C55 in `PropsKissErr` |
| `setup`, `compute`, `perform_ffts`, `scale_ffts` (both classes, KISS) with every floating-point operation | `FftFl` | `FftFlLemmas`, `FftFl2Lemmas`, `FftErr`, `FftErr2`, `L2`, `KissL2`, `FftL2` | C56 in `PropsFftErr`, `PropsFftErr2`, C57 in `PropsRepro`, C67 in `PropsL2`, `PropsL22` |
| `FFT3d::setup`, `remap_forward_create`, `remap_inverse_create` | `Fft3dSetup`, `Fft3d` | `Fft3dLayout`, `Fft3dCheck`, `Fft3dPlan` | C17, C29 (exact conditions in `PropsCheck`) |
| `FFT3d::compute`, `only_*`, `perform_ffts`, `scale_ffts` | `Fft3d` | `Fft3dStages`, `Fft3dData`, `Fft3dSizes`, `Fft3dRoom`, `Fft3dCompute`, `Fft3dRun` | C21-C28, C38, C43, C46 in `PropsFft3d*`, `PropsExact`, `PropsApart`, `PropsConvExact`, C51 in `PropsOneRemap`, `PropsOneRemapExact` |
| `FFT2d`, the same functions | `Fft2dSetup`, `Fft2d` | `Fft2d*` | C41, C42 and 2d analogues in `PropsFft2d*` |
| `tune`, `tune_trial` (both classes) | `Tune` | `TuneLemmas`, `TuneReport`, `TuneFp` | C32-C35 in `PropsTune`, `PropsTuneFp`, `PropsTuneExact` |
| MKL, FFTW2, FFTW3 versions of `setup_ffts`, `perform_ffts`, `scale_ffts` (both classes) | `Package` | `Refine`, `PackageLemmas` | C52 in `PropsPackage`, `PropsPackageExact` |
| The plans of all four packages, `deallocate_ffts` | `Lifecycle` | `LifecycleLemmas` | C31 in `PropsLifecycle`, C53 in `PropsPackageLife` |
| Life cycle of `FFT3d`, `FFT2d`: constructor, `setup`, `setup_memory`, calls, `tune`, destructor, assignments to members | `Heap`, `Lifecycle` | `Lifecycle*` | C30, C31, C44, C47 in `PropsLifecycle`, `PropsLifecycle2` |
| C and Fortran wrappers (`*_wrap.cpp`) | `Wrap` | | C36, C37 in `PropsWrap` |
| Failing requests for memory in `setup` of all classes (KISS), `perform_ffts`, KISS, the array of `tune` | `AllocFail` | `AllocFailLemmas` (`Care`, `firstDenied`: specification), `AllocFailRemap`, `AllocFailFft`, `AllocFailPerf` | C69 in `PropsAllocFail` |
| Collective calls of `setup` of all classes, each rank with its own arguments and settings | `Spmd` (with the specification `Returns`), `SpmdHang` (with the specification `Hangs`), `SpmdSetup` | `SpmdLemmas`, `SpmdWorks`, `SpmdStuck`, `SpmdMixed`, `SpmdSettings`, `SpmdSettings3`, `SpmdSettings2` | C70 in `PropsSpmd`, C71 in `PropsSpmdTune`, C72 in `PropsSpmdSettings` |
| Python interface (`fftmpi.py`) | `Py` | `PySpec` (specification), `PyLemmas` | C58 in `PropsPy` |
| Fortran interface blocks (`*_wrap.f90`), `strcmp` on keywords | `Fortran` | `FortranLemmas` (with the specification) | C59 in `PropsFortran` |
| `test3d.cpp`, `test2d.cpp`: `proc_setup`, `grid_setup`, `plan` (without `-tune`), `allocate`, `initialize`, loops of `main`, `output` (index and value of each line), `validate`, `random` | `Driver` | `DriverGrid`, `DriverRound`, `DriverLoops`, `DriverRun` | C60 in `PropsDriver`, `PropsDriverExact`, C61 in `PropsDriverRun`, C63 in `PropsDriverOut`, `PropsDriverOutExact` |
| the same with rounding: `initialize`, loops of `main`, `validate` | `DriverFl` | `DriverFlLemmas`, `DriverFlRun` | C68 in `PropsDriverFl` |
| `main` with `-o` and `output` of the test programs, each rank on its own: order of the lines (C++, C and Fortran) | `Output` (with the specification `OutEnds`) | `OutputLemmas`, `OutputRing` | C73 in `PropsOutput` |
| `tune_trial` of FFT3d and FFT2d; `timing` of the test programs, and `plan` with `-tune` | `TimeRuns` (without the barriers, which only exclude schedules) | `TimeRunsLemmas`, `TimeRunsBad` | C74 in `PropsTimeRuns` |
| buffer sizes are necessary (remaps, FFT3d, FFT2d) | (the models above) | `Tight`, `TightRemap`, `TightFft3d`, `TightFft2d` | C75 in `PropsTightRemap`, `PropsTight`; `C25_exact`, `C25_room_iff`; `C25_remaps_iff`, `C25_one_remap_iff` in `PropsTightMore` |
| the same functions of the test programs (and `2*nloop`, the byte counts of `allocate`, `timing` and `tune`) on 32-bit integers | `Driver32` | `Driver32Lemmas` | C76 in `PropsDriver32` |
| `options` of both test programs, `atoi` | `DriverArgs` | `DriverArgsLemmas`, `DriverArgsText` | C62 in `PropsDriverArgs`, `PropsDriverArgsExact` |
| `test3d_f90.f90`, `test2d_f90.f90`: options, data, validation, output | `DriverF` | in `PropsDriverF` | C65 in `PropsDriverF`, `PropsDriverFArgs` |
| `test3d.py`, `test2d.py`: options, grids, boxes, data, loop, validation, output | `DriverPy` | in `PropsDriverPy` | C66 in `PropsDriverPy`, `PropsDriverPyArgs` |
| `simple.cpp`, `simple_c.cpp`, `simple.py`, `simple_f90.f90` | `Simple` | `SimpleLemmas`, `SimpleRound` | C64 in `PropsSimple` |
| the same with rounding | `SimpleFl` | `SimpleFlLemmas` | C78 in `PropsSimpleFl` |
| `main`, `plan`, `timing` of the test programs: readings of the clock, barriers, printed times and statistics | `DriverTimes` | `DriverTimesLemmas`, `DriverTimesReports` | C77 in `PropsDriverTimes`, `PropsDriverTimesExact` |
| the first part of the report of `timing` (grids, trials, settings, memory) and the members of the FFT object it prints, in C++, C, Python, Fortran | `DriverReport` | in `PropsDriverReport` | C79 in `PropsDriverReport` |
| the script test/Run.sh (its commands, not the two calls of make), `grid_setup` and the arguments of `setup` of test2d_f90 | `RunSh` | in `PropsRunSh` | C80 in `PropsRunSh` |
| a program that uses several objects in turn: the calls of `compute` and `remap` and its own code are the statements of `Use`. An object can have its own buffers (`Use.own`: during its calls two of the arrays are named as the buffers) or share them with others, as after `setup_memory` with the same memory. The communicators of the objects are not told apart, so a message could be taken by a call of another object: the theorem is about the harder case. FFTs are in place or have separate arrays in the cases in which these work (`Use.Apart`, see C26) | in `PropsSeveral` | in `PropsSeveral` | C81 in `PropsSeveral` |
| the communicator that the user passes (fft3d.cpp:113-117, fft2d.cpp:113-117, remap3d.cpp:67-71, remap2d.cpp:67-71): a list of distinct ranks in any order. The programs, in which ranks are named by their number in the communicator, are renamed (`onTeam`) and put after one another, each on its own communicator; ranks that are not in it do nothing. Messages of all user communicators go through the same channels, as in C81: the harder case | `Teams` | `TeamsLemmas`, `PropsTeams` | C82 in `PropsTeams` |
| 32-bit arithmetic of pack routines and remaps | `CInt`, `Pack3d32`, `Pack2d32`, `Remap32`, `Remap3d32`, `Remap2d32` | `*32Lemmas` | C48 in `PropsInt` |
| 32-bit and 64-bit arithmetic of `FFT3d::setup`, `compute`, `only_*` | `FftInt`, `Fft3d32` | `FftIntLemmas`, `Fft3d32Lemmas`, `Fft3d32Main` | C49 in `PropsFftInt`, `PropsFftInt2` |
| The same of `FFT2d` | `FftInt`, `Fft2d32` | `Fft2d32Lemmas`, `Fft2d32Main` | C50 in `PropsFftInt2` |

Not modelled: floating-point rounding outside `KissFl`, `FftFl`, `Factor`, `Tune`, `Driver`, `DriverFl`, `SimpleFl` and `DriverTimes`; infinities and NaN; the MKL and FFTW libraries themselves; the MPI library itself; failure of
allocations in constructors, in the MKL and FFTW variants and in the interfaces; of the test programs the wording of the printed text (`test3d_c.cpp` and `test2d_c.cpp` have the text of the C++ programs, but for the calls, which go through the C
interface of C36); the build; `MPI_Comm_dup` and friends except as resources of the life cycle; integer overflow outside
`CInt` and its users (C48, C49, C50, C54, C76, and `gridBytesF`, `nsizeF2` of C77).

## 3. Conventions and simplifications

* **Memory.**  An array is `Int -> Option a`; `none` is an address outside the allocation, or one that the
  MPI library owns at the moment.  Every operation returns an `Option`; its `none` is undefined behaviour,
  an outcome of its own.  Theorems never get it for free: they say that the operation returns `some`.
* **Undefined behaviour in the machine**: access outside an allocation, touching a receive buffer between
  `MPI_Irecv` and its completion, a message of the wrong length, `MPI_Waitany` without an active request,
  negative counts.  A rank that does this has no step.  `Terminates e P prog m m'` says that every
  execution has bounded length, that no reachable configuration that is not final is stuck, and that the
  final memories are `m'`; hence none of the above can occur under any schedule.
* **MPI.**  Messages between two ranks on a communicator do not overtake.  `e = false`: `MPI_Send` returns
  only when a matching receive is posted; `e = true`: it may return earlier at any time.  `MPI_Waitany` may
  return any request whose message was sent.  `MPI_Alltoallv` sends one block to every member and then
  waits for one block of every member.  `MPI_Allgather` and `MPI_Allreduce` in `setup` are functions of the
  arguments of all ranks: the models of `setup` take the arguments of all ranks, and describe one rank.
  That the ranks, each with its own arguments only, come to these results, is C70: `Spmd` models the calls themselves, and a
  call returns when all ranks have made it (the strictest choice).
  All point-to-point messages use the communicator of the caller; each collective remap has a communicator
  of its own (`inst`), made by `MPI_Comm_create`.
* **Buffers.**  The send and receive buffers of an FFT are one pair per rank, used by all its remaps
  (`LMem.sb`, `LMem.rb`), as in the code; user arrays are numbered.
* **2d and 3d remaps** have the same text up to a parameter `Dim`; the common part is modelled once and
  both files' line numbers are cited.
* **Arithmetic of data** is exact, but for C55 to C57: `FFT_SCALAR` is the reals, `FFT_DATA` the complex numbers, twiddle
  factors are exact.  The contents of memory that KISS FFT allocates but has not yet written is arbitrary
  (`Junk`).
* **Python** (C58).  The methods are lists of statements with an interpreter (`Py`).  An exception is an outcome; a C call with
  arguments that the prototype does not have is another, undefined behaviour.  The C library is arbitrary: its results can
  depend on all earlier calls; assumed is only that it returns values of its declared types (`Lib.Typed`) and writes to no
  ctypes object that it got no pointer to (`Lib.Frame`).
* **Fortran** (C59).  The interface blocks and the C prototypes are two tables, read from the two sets of files; what a
  compiler does with an argument is `pass`.
* **Rounding** (C55, C56, C57, C67, C68).  The operations of `kissfft.h` are parameters (`Arith`), one for each operation in the
  text; that excludes fused multiply-add and excess precision.  `RoundOK` and `TrigOK` say how accurate they are.
  They are functions of all real numbers: outside the floating-point numbers, which is where no program applies
  them, they may be taken as exact, so that IEEE arithmetic has these properties.
  The scale factor `norm` is one conversion of the exact product of the dimensions (`ofInt`; its overflow is a
  matter of C49) and one division; each scaled number is one multiplication.  C57 assumes nothing about the
  arithmetic.
* **Areas** in `procfactors` are of type `double`: every operation is rounded by a parameter `fp` (a field of `Args3` and
  `Args2`), about which `FpOK` assumes a relative error of at most 2^-53 for numbers from 2^-100 to 2^100, and at most 2^60
  ranks.  Not assumed are monotony or exactness on integers.  One rounding per operation in the text excludes
  fused multiply-add and excess precision, and all ranks round alike: on a machine where they do not, ranks could choose
  different grids.  `sqrt` followed by the
  correction is the integer root (`C15_sqrt`).
* **Times** are rational numbers.  What the clock shows is an arbitrary input of `tune`.  Its arithmetic on times
  rounds once per operation, with a function `fp` that the clock of rank 0 carries; the theorems assume of it
  `TimeFp` (monotone, exact on integers up to `2^53`, relative error `2^-53`: no overflow or underflow), which
  holds for rounding to 53 binary digits (`timeFp_rndQ53`).  All ranks are assumed to round like rank 0.
* **Times of the test programs** (C77) are real numbers; every action takes any time that is not negative, the clock
  shows any function of the time.  `Nearest` (relative error `2^-53`: no overflow or underflow) is assumed for the
  statistics, a relative error of `2^-50` for `log`.
* **Sample programs with rounding** (C78): `work[n]-n` has operands of type `FFT_SCALAR` and `int`, so it is a subtraction of type
  `FFT_SCALAR` and `n` is converted first.  An implementation that evaluates `float` expressions in a wider type
  (`FLT_EVAL_METHOD` 1 or 2) is not covered in single precision.
* **Integers** are unbounded in all models but those with `32` in their name, where `int` operations check
  for overflow, `size_t` operations of `kissfft.h` are modulo 2^64, and the conversion from `size_t` wraps.  Pointer arithmetic and array indexing are unbounded
  everywhere.
* **Precision of pack2d.h.**  `w = sizeof(double)/sizeof(FFT_SCALAR)`, 1 or 2.
* **Heap** of the life cycle models: which blocks exist and how they were made, not their contents.
  The `_strict_` theorems count the call of a member function through a deleted pointer
  (`memory->destroy(...)` after `delete memory`) as undefined; the others let it pass, since these member
  functions touch no member data.
* **`RoomBack`** in the theorems on inverse 3d transforms: buffers large enough for the second remap of
  `remap_midfast`, whose sizes `setup` forgets (disagreement 4).  It is not only sufficient: with buffers of the returned
  sizes a backward `compute` is defined if and only if it holds (`C25_room_iff`).

## 4. Properties

* C01-C13, C39: for all boxes, rank counts, permutations, pack styles, modes, schedules.  The machine is
  confluent; one complete schedule is exhibited; both together describe every schedule.
* C14, C15, C17-C21, C24, C31, C37, C38, C41, C46, C53, C54, C55: proved as claimed.
* All others are partial: the code violates the claim in some case.  The negation is proved with a concrete
  witness (`_false` theorems) and what does hold is kept as a `_partial` theorem; the notes in
  `MANIFEST.json` say what is missing.  C23, C28, C43, C56, C67 and C68 have no `_false` theorem of their own: in 3d they
  need `RoomBack` because of `C25_false`, and scaled C43, C56, C67 and C68 need `insize <= outsize` because of `C27_false`.
* C48, C49, C50: the 32-bit programs are shown to agree with the unbounded ones under explicit limits.  For the
  kinds of limits named in the `_false` theorems a counterexample shows that some limit is needed; the exact
  constants are not shown to be best possible.  Their 1d FFTs are those of `Kiss32` (C54).

## 5. Disagreements between code and claims

Numbers in brackets are the theorems that prove them.

1. `compute`, `only_remaps`, `only_one_remap` with `in != out` and no first remap copy
   `insize*sizeof(FFT_SCALAR)` bytes, half of the complex data; fft3d.cpp:570, 588, 644, 654, 682, 694, fft2d.cpp:536, 551, 603, 612, 639, 649
   (`C26_forward_false`, `C26_forward_false_2d`).
2. Inverse `compute` with `in != out` runs the last remap from `in`; fft3d.cpp:601, fft2d.cpp:561
   (`C26_backward_false`, `C26_backward_false_2d`).  `C26_forward_iff`, `C26_backward_iff` and their 2d versions (`PropsApart`)
   say for which layouts exactly points 1 and 2 make the result wrong.
3. `FFT3d::remap` runs the second remap of a pair from `in` again instead of from `out`;
   fft3d.cpp:1116-1121, fft2d.cpp:1055-1060.  Visible in `only_one_remap` with `in != out` and `exchange = 1`
   (`C51_pair_false`, `C51_pair_false_2d`).  `only_one_remap` with `in != out` and no remap to do copies half
   of the data (`C51_first_false`) or nothing (`C51_last_false`).
4. `FFT3d::remap_inverse_create` ignores the buffer sizes of the last remap of the brick exchange;
   fft3d.cpp:1368-1375 (`C25_false`; exactly when: `C25_exact`, `C25_room_iff`).  2d is right.
5. `scale_ffts` scales `outsize` points, the result of an inverse transform has `insize` points
   (`C22_false`, `C27_false`, `C42_false`, `C27_false_2d`; exactly when: `C22_iff`, `C27_iff`, `C42_iff`, `C27_iff_2d`, `C43_iff`, `C43_iff_2d`).
6. `setup` checks only the number of points of the input boxes, not that they tile the grid, and never
   looks at the output boxes (`C29_false`, `C29_outputs_false`, and `_2d`; `C29_iff`, `C29_error` say exactly what is checked).
7. Output boxes with `hi < lo-1` give negative sizes.
8. `tune` compares times that differ between ranks (`C33_false`); the initial run is no candidate
   (`C34_first_false`); the best time is reset before the pack trials (`C34_pack_false`); a measured time of
   0 makes it convert infinity to `int` (`C32_false`); `niter = 1` may become 2 (`C35_niter_false`).
9. Destructors call member functions of `memory` after `delete memory` (`C47_*_strict_false`);
   `~Remap3d` before `setup` reads members that were never assigned (`C47_remap_before_setup_false`);
   `~FFT2d` before `setup` dereferences NULL (`C47_fft2d_before_setup_false`); a second `Remap::setup`
   leaks (`C47_remap_setup_twice_false`).
10. `FFT2d::setup` has no "already setup" check (`C30_fft2d_setup_false`, `C30_fft2d_setup_leak_false`).
11. The 2d surface area is constant, so without rounding errors the 2d processor grid is always `1 x P`
    (`C16_2d_always_slabs`, `C16_2d_false`).  With `double` the rounding errors decide: 3 ranks split a `2 x 5` grid `3 x 1`
    (`C16_2d_rounding`).  In 3d they decide between grids of equal area (`C16_3d_rounding`).  The factor list is cut at 50 entries, so the 3d grid is not always the best, and the
    check `nfactor > NFACTOR` can never fire (`C16_min_surface_false`).
12. `pack_2d_memcpy`, `unpack_2d_memcpy` use `sizeof(double)` for the element size (`C40_memcpy_false`,
    `C40_pack_single_overruns`).
13. `memusage` of a remap misses the copy to itself in point-to-point mode and uses
    `sizeof(MPI_Request *)` (`C45_remap3d_false`, `C45_request_false`).
14. The documented variables cbest, ebest, pbest, besttime have no getter and read as -1
    (`C36_get3_false`, `C36_get2_false`); `set` of a remap ignores the documented keyword memory
    (`C36_remap_false`).
15. The documentation gives `packflag = 2` as the default of a remap, the code uses 0.
16. Changing `collective` of a remap, or `memoryflag` of an FFT, after `setup` has effects although the
    documentation says it has none (`C44_*_false`, `C47_fft_leak_false`, `C47_fft_user_false`).
17. `compute` with a flag other than 1 and -1 is an inverse transform without scaling.
18. The unpack routines with permutation step an `int` index past `INT_MAX` (`C48_unpack_false`,
    `C48_unpack2_false`); an empty box can overflow in an intermediate product (`C48_empty_false`); the byte
    count of the memcpy routines wraps (`C48_memcpy_false`); the send offset overflows in an intermediate sum
    (`C48_offset_false`).
19. The block bounds `ip*n/np` overflow when ranks times dimension exceeds `INT_MAX` (`C49_false`,
    `C49_bounds_iff`, `C50_false`); the index check itself overflows for `in_ihi = INT_MAX` (`C49_check_false`,
    `C50_check_false`);
    `sqroot*sqroot` in `factor` overflows from 46340^2 ranks on.
20. `permute = 2` in `FFT2d`, or `permute` outside 0..2 in `FFT3d`, leaves `newpermute` unassigned.
21. `setup_memory` in fft3d_wrap.f90 and fft2d_wrap.f90 (lines 99-103) passes a `c_ptr` by reference, so C gets the address
    of the pointer (`C59_setup_memory_false`, `C59_setup_memory_var_false`).  The documentation (api_setup.txt:351-357) and
    test3d_f90.f90:569-573 call `fft3d_set` with a literal without NUL (`C59_keyword_false`, `C59_keyword_other_false`).
22. With MKL a rank without lines in some dimension asks for 0 transforms; fft3d.cpp:1465-1466, 1474-1475,
    1483-1484, fft2d.cpp:1310-1311, 1319-1320 (`C52_mkl_false`, `C52_mkl_false_2d`).  With FFTW3 the plans are for
    aligned arrays, which the documentation does not ask users for; fft3d.cpp:1588-1608, fft2d.cpp:1406-1419
    (`C52_fftw3_false`, `C52_fftw3_false_2d`).  Return codes of MKL are ignored.
23. An inverse transform does the dimensions in the order of a forward transform if `inout_layout_same` is set and in the
    opposite order otherwise (fft3d.cpp:567-602, fft2d.cpp:533-562), so the rounded result depends on the output layout and `permute`
    (`C57_false`).
24. fftmpi.py: `setup_memory` reads the names that it assigns (lines 213-217, 467-471; `C58_setup_memory_false`).  The constructors of
    the remap classes use a function that does not exist (lines 600, 703; `C58_remap3_false`, `C58_remap2_false`); their
    `setup` uses undefined names and the attribute `remap` hides the method `remap` (`C58_remap_methods_false`); they declare
    three parameters for `remap3d_create`, which has two, and one pointer too few for `remap3d_setup`.  Integers are
    reduced to 32 bits (`C58_int_false`).  The result type of `only_one_remap` is not declared (lines 132, 389 declare that
    of `only_remaps` again), without effect.
25. test2d.cpp:505-507 passes `permute = 2` in the modes 1 and 3, which `FFT2d::setup` does not define (item 20;
    `C60_test2d_false`).  Modes 0 and 2 are exactly those that work (`C60_setup_iff_2d`).
26. test3d.cpp and test2d.cpp validate `nfft_in` points after the last inverse transform, but the data of a rank with more
    input than output points are not the input: `-np 2 test3d -g 2 2 3 -pin 1 1 2 -pout 1 2 1 -i index -v` reports
    an error of at least 11 (`C61_test3d_false`), `-np 6 test2d -i index -v` with default grids at least 63
    (`C61_test2d_false`).  See `C61_index_iff` for the exact condition.
27. `output(1)` (test3d.cpp:668-718) loops over `nfft_in`, divides by sizes of the output box that may be 0, and ignores
    the permutation of mode 3 (`C63_count_false`, `C63_division_false`, `C63_order_false`).
28. `options`: with `-i n`, ranks disagree exactly if `1 - P < n <= 0`, and the program hangs or fails (`C62_agree_false`,
    `C62_seed_iff`).  Products of
    processor grids, `atoi` and the seed plus the rank can overflow (`C62_defined_false`).
29. The comment on top of test3d.cpp says that the default of `-c` is `point`; it is `combo` (test3d.cpp:279).  The
    description of `-i index` says values from 1 to Nx+Ny+Nz; they run from 1 to Nx+Ny+Nz-2 (test3d.cpp:652).
30. simple.py:123 throws away the result of `allreduce`; the program prints the difference of rank 0 as "Max difference"
    (`C64_py_false`).
31. simple_f90.f90:101-106 computes bounds in single precision and adds 1 before cutting off: for large sizes a point
    between two bricks can get lost (`C64_single_false`).
32. test3d_f90.f90 and test2d_f90.f90 (line numbers of the former): `-i` compares the word `-i` itself with `zero`, `step`
    and `index` (270-285; `C65_words`, `C65_words_false`).  `validate` is called only without `-v` and its result printed
    only with `-v` (178, 1071; `C65_report_false`).  `validate` restarts the random numbers with the seed of rank 0 on all
    ranks (808; `C65_run_partial`).  `initialize` in test3d_f90 and `output` in both use the indices `2*m` and `2*m+1`
    from 0 in an array that begins with 1 (659-664, 722-723; `C65_initialize_false`, `C65_output_false`); `step` in test2d_f90
    leaves imaginary parts unset (584-589; `C65_initialize_2d`).  `-tune` reads the time limit with `f10.3`
    (`C65_tmax_false`).  The fourth remap is timed with the number 5 (961, 965; `C65_remap4_false`).
    `if (me /= iproc) continue` in `output` does nothing.
33. test3d.py (test2d.py where noted).  The number of ranks is compared with the product of the first two numbers of a grid
    (174, 179; `C66_rejects_false`, `C66_accepts_false`), and the third number of the output grid is not checked (177;
    `C66_division_false`: 0 is an exception).  `nloop` 0 is an error also with `-tune` (181).  The surfaces in `proc3d` and
    `proc2d` are computed from quotients rounded down, so that the grid need not be the best one (234-237, also in 2d;
    `C66_proc_false`).  Modes 2 and 3 call `fft3d_compute`, which is not defined (755; `C66_forward_false`).  `output`
    calls `world.Recv` without a buffer and sends a variable that only the receiver assigns (433, 454; also in 2d;
    `C66_output_false`), and prints two indices (438-443; `C66_output_3d_false`).  Seeds are not limited to C's `int`
    (`C66_random_false`).

34. Requests for memory that are not checked: `pflag` and `pgroup` in collective mode (remap3d.cpp:438, 441, 493;
    remap2d.cpp:391, 394, 446; `C69_remap_false`), the plans of KISS (fft3d.cpp:1643-1668, fft2d.cpp:1452-1466; `setup`
    returns, then `C69_missing_plan_false`), the temporary arrays of KISS (kissfft.h:337, 469; `C69_perform_false`), the array of
    `tune` (fft3d.cpp:774-779, 904-909, 947-952; `C69_tune_false`).

35. `tune` compares times that each rank has measured itself (fft3d.cpp:918-922, 961-964), so that the ranks may choose different values of `collective`
    (`C33_false`).  The next `setup` never returns then: a rank in collective mode calls `MPI_Comm_create`, a rank in point-to-point
    mode does not (`C71_false`, `C70_mixed3`).  Different values of `packflag` alone would do no harm (`C72_settings3`).

36. The ranks do not wait for each other after the second `output` (test3d.cpp:250-254): without `-t` rank 0 may print the
    report of `timing` before the other ranks have printed their values (`C73_false`).  In the Fortran programs the loop over
    the ranks runs in full on every rank, as `continue` does nothing: each value is printed once per rank, and the order is
    not kept (`C73_fortran`, `C73_fortran_false`; test3d_f90.f90:707-708, test2d_f90.f90:629-630).

37. `FFT3d::setup` leaves out the buffer sizes of one of the remaps (see C25; fft3d.cpp:1368-1375).  The test
    program meets this with plain options: `mpirun -np 2 test3d -g 3 2 2 -pin 1 1 2 -pout 2 1 1 -c point -e brick` allocates a
    send buffer of 4 numbers on rank 1 and packs 8 (`C74_test3d_false`).  With `-tune` the third trial does the same
    (`C74_tune_false`), though the user chose no exchange.

38. `allocate` in the test programs computes the number of bytes in 64 bits, `tune` computes `user_fftsize*2` in 32 bits
    (fft3d.cpp:776, 906, 949; fft2d.cpp:727, 855, 895): from 2^30 points on `tune` overflows where `allocate` does not
    (`C76_bytes`).  `-n 1073741824` in the modes 0 and 1 overflows in the statistics after all passes have run
    (`C76_count_iff`; test3d.cpp:915, test2d.cpp:822).

39. The statistics.  In test3d_f90 the time of "remap #4" is that of calls with the number 5, which do nothing
    (`C77_f90_false`; test3d_f90.f90:961, 965; see above on the Fortran programs).  The number of bytes of the grid is computed in 32 bits before it is
    assigned to 64 bits and overflows from 2^27 points per rank on in double precision (`C77_f90_bytes`,
    `C77_f90_bytes_false`; test3d_f90.f90:991, test2d_f90.f90:885).  `nsize = nx * ny` overflows from 2^31 points on all
    ranks together on (`C77_f90_nsize`; test2d_f90.f90:878; the other programs multiply in `double` or in Python integers).
    If the clock shows no difference between the two readings, the rate is `inf` or `nan` (`C77_rate_false`, `C77_rate_iff`).

40. The report (C79).  test3d.py calls the brick grid of a 3d FFT "2d brick proc grid" (line 639), where the C++ program has
    "3d brick proc grid"; the values are the right ones.  `FFT2d::FFT2d` leaves `ntrial` and `npertrial` unassigned and has
    `packflag` 0 where `FFT3d` has 2; the test programs set `packflag` themselves and print the trials only after `tune`,
    so that no unassigned member is printed.
