{
 "claims": [
  {
   "property": "C01",
   "status": "proved",
   "theorems": [
    "FftMpi.C01_remap3d_delivers"
   ],
   "note": "All boxes, permutes, pack styles, both modes, both send semantics; model Remap3d.lean/RemapCore.lean."
  },
  {
   "property": "C02",
   "status": "proved",
   "theorems": [
    "FftMpi.C02_remap3d_in_place"
   ],
   "note": ""
  },
  {
   "property": "C03",
   "status": "proved",
   "theorems": [
    "FftMpi.C03_remap3d_in_bounds"
   ],
   "note": "Memory of exactly the advertised sizes; no reachable state fails under any schedule."
  },
  {
   "property": "C04",
   "status": "proved",
   "theorems": [
    "FftMpi.C04_remap3d_no_deadlock"
   ],
   "note": "Any sequence of remaps (both modes mixed), synchronous sends."
  },
  {
   "property": "C05",
   "status": "proved",
   "theorems": [
    "FftMpi.C05_remap3d_schedule_independent"
   ],
   "note": "Whole final configuration, also across buffering behaviours."
  },
  {
   "property": "C06",
   "status": "proved",
   "theorems": [
    "FftMpi.C06_remap3d_matching"
   ],
   "note": "Arbitrary boxes."
  },
  {
   "property": "C07",
   "status": "proved",
   "theorems": [
    "FftMpi.C07_remap3d_modes_agree"
   ],
   "note": ""
  },
  {
   "property": "C08",
   "status": "proved",
   "theorems": [
    "FftMpi.C08_pack3d_variants",
    "FftMpi.C08_remap3d_packflag"
   ],
   "note": ""
  },
  {
   "property": "C09",
   "status": "proved",
   "theorems": [
    "FftMpi.C09_remap3d_groups",
    "FftMpi.C09_remap3d_own_group"
   ],
   "note": ""
  },
  {
   "property": "C10",
   "status": "proved",
   "theorems": [
    "FftMpi.C10_remap3d_alltoallv"
   ],
   "note": ""
  },
  {
   "property": "C11",
   "status": "proved",
   "theorems": [
    "FftMpi.C11_remap3d_round_trip"
   ],
   "note": ""
  },
  {
   "property": "C12",
   "status": "proved",
   "theorems": [
    "FftMpi.C12_remap3d_no_side_effects"
   ],
   "note": ""
  },
  {
   "property": "C13",
   "status": "proved",
   "theorems": [
    "FftMpi.C13_remap3d_sequences"
   ],
   "note": ""
  },
  {
   "property": "C14",
   "status": "proved",
   "theorems": [
    "FftMpi.C14_dims_accepted"
   ],
   "note": "accepted iff every dimension is at least 2 and 5-smooth; the check is total"
  },
  {
   "property": "C15",
   "status": "proved",
   "theorems": [
    "FftMpi.C15_proc_grid",
    "FftMpi.C15_proc_grid_2d",
    "FftMpi.C15_sqrt"
   ],
   "note": "product, undivided dimensions and bijection of ranks with grid cells; 32 bit sizes, any rounding of double with relative error 2^-53 (FpOK).  C15_sqrt: the integer root computed from sqrt is right whatever its rounding error."
  },
  {
   "property": "C16",
   "status": "partial",
   "theorems": [
    "FftMpi.C16_min_surface_partial",
    "FftMpi.C16_min_surface_exact_partial",
    "FftMpi.C16_min_surface_false",
    "FftMpi.C16_2d_always_slabs",
    "FftMpi.C16_2d_false",
    "FftMpi.C16_2d_rounding",
    "FftMpi.C16_3d_rounding"
   ],
   "note": "minimal up to a factor 1+2^-49 when nprocs has at most 50 divisors up to its root (exactly minimal without rounding errors); false for 50400 ranks (factor list cut at NFACTOR) and in 2d (area is constant), both by more than rounding errors.  C16_2d_rounding, C16_3d_rounding: rounding errors decide between grids of equal area, so the grid is not the first of least area."
  },
  {
   "property": "C17",
   "status": "proved",
   "theorems": [
    "FftMpi.C17_layouts_tile",
    "FftMpi.C17_layouts_tile_2d"
   ],
   "note": "All five layouts computed by FFT3d::setup tile the grid; extents of a divided dimension differ by at most one (the fast/slow layouts may be the user's own layout when it already consists of full pencils, then only the tiling part applies). 2d analogue also proved."
  },
  {
   "property": "C18",
   "status": "proved",
   "theorems": [
    "FftMpi.C18_kiss_out",
    "FftMpi.C18_kiss_in_place"
   ],
   "note": "exact arithmetic, 1 <= n < 2^31"
  },
  {
   "property": "C19",
   "status": "proved",
   "theorems": [
    "FftMpi.C19_kf_factor"
   ],
   "note": "1 <= n < 2^32"
  },
  {
   "property": "C20",
   "status": "proved",
   "theorems": [
    "FftMpi.C20_kiss_bounds"
   ],
   "note": "minimal memories suffice, 1 <= n < 2^31"
  },
  {
   "property": "C21",
   "status": "proved",
   "theorems": [
    "FftMpi.C21_forward_dft"
   ],
   "note": "Exact arithmetic, KISS back end, every schedule, buffers of exactly the sizes returned by setup."
  },
  {
   "property": "C22",
   "status": "partial",
   "theorems": [
    "FftMpi.C22_round_trip_partial",
    "FftMpi.C22_round_trip_unscaled_partial",
    "FftMpi.C22_false",
    "FftMpi.C22_exact",
    "FftMpi.C22_iff"
   ],
   "note": "False in general: scale_ffts scales outsize points although the result has insize points (C22_false). Partial theorems: scaled round trip when insize <= outsize on every rank; unscaled always; both need RoomBack because setup under-reports buffer sizes with exchange=1 (C25); RoomBack is exactly the condition under which the backward transform is defined (C25_room_iff). C22_iff: the scaled round trip restores all data if and only if no rank has more points on input than on output (or the grid has one point); C22_exact says for which data it does."
  },
  {
   "property": "C23",
   "status": "partial",
   "theorems": [
    "FftMpi.C23_settings_forward",
    "FftMpi.C23_settings_backward_partial",
    "FftMpi.C23_settings_forward_2d",
    "FftMpi.C23_settings_backward_2d"
   ],
   "note": "3d forward: full claim. 3d backward: needs RoomBack, with exchange=1 buffers that also hold the remap setup forgets (see C25_false; by C25_room_iff this is exactly the condition for the call to be defined). 2d: full claim in both directions (packflag=2 only when FFT_SCALAR is double, C13)."
  },
  {
   "property": "C24",
   "status": "proved",
   "theorems": [
    "FftMpi.C24_fftsize",
    "FftMpi.C24_no_overrun",
    "FftMpi.C24_fftsize_2d",
    "FftMpi.C24_no_overrun_2d"
   ],
   "note": "fftsize is exactly the maximum over the layouts; compute stays in bounds for any flag/in/out. 2d analogue also proved."
  },
  {
   "property": "C25",
   "status": "partial",
   "theorems": [
    "FftMpi.C25_sizes_partial",
    "FftMpi.C25_buffers_partial",
    "FftMpi.C25_exact",
    "FftMpi.C25_room_iff",
    "FftMpi.C25_false",
    "FftMpi.C25_sizes_2d",
    "FftMpi.C25_buffers_2d",
    "FftMpi.C25_remaps_iff",
    "FftMpi.C25_one_remap_iff",
    "FftMpi.C25_remaps_false"
   ],
   "note": "Holds for every remap except the second remap of remap_midfast; compute, only_remaps and only_one_remap complete within the returned sizes forward, or without the brick stage, or with equal layouts. C25_exact: with buffers of the returned sizes a backward compute completes if and only if there is no brick stage, or the layouts are equal, or the buffers happen to have room for that remap. C25_false refutes the full claim: a backward transform writes out of the bounds of a send buffer of the returned size (fft3d.cpp:1368-1375). In 2d the full claim holds (C25_sizes_2d, C25_buffers_2d). C25_remaps_iff, C25_one_remap_iff: the same exact condition for only_remaps and for the second stage of only_one_remap back; the other stages need nothing more than the returned sizes."
  },
  {
   "property": "C26",
   "status": "partial",
   "theorems": [
    "FftMpi.C26_forward_partial",
    "FftMpi.C26_backward_partial",
    "FftMpi.C26_forward_false",
    "FftMpi.C26_backward_false",
    "FftMpi.C26_forward_2d_partial",
    "FftMpi.C26_backward_2d_partial",
    "FftMpi.C26_forward_false_2d",
    "FftMpi.C26_backward_false_2d",
    "FftMpi.C26_forward_iff",
    "FftMpi.C26_backward_iff",
    "FftMpi.C26_forward_iff_2d",
    "FftMpi.C26_backward_iff_2d"
   ],
   "note": "Separate arrays give the in-place result when a first remap exists (and, backward, no last remap). Refuted otherwise: memcpy copies half of the data (fft3d.cpp:570), the last remap of an inverse transform reads in (fft3d.cpp:601). The same in 2d (fft2d.cpp:536, 561). C26_*_iff: these are exactly the layouts where it is right, for every accepted call; in the others some data gives a wrong result (forward also with remaponly)."
  },
  {
   "property": "C27",
   "status": "partial",
   "theorems": [
    "FftMpi.C27_scaled_backward_partial",
    "FftMpi.C27_scaled_points",
    "FftMpi.C27_false",
    "FftMpi.C27_scaled_backward_2d_partial",
    "FftMpi.C27_scaled_points_2d",
    "FftMpi.C27_false_2d",
    "FftMpi.C27_exact",
    "FftMpi.C27_iff",
    "FftMpi.C27_exact_2d",
    "FftMpi.C27_iff_2d"
   ],
   "note": "False in general (C27_false): exactly the first outsize points are scaled (C27_scaled_points). The same in 2d. C27_iff, C27_iff_2d: it holds for all data if and only if no rank has more points on input than on output (or the grid has one point); C27_exact, C27_exact_2d say for which data."
  },
  {
   "property": "C28",
   "status": "partial",
   "theorems": [
    "FftMpi.C28_remaponly_forward",
    "FftMpi.C28_remaponly_round_trip_partial",
    "FftMpi.C28_remaponly_forward_2d",
    "FftMpi.C28_remaponly_round_trip_2d"
   ],
   "note": "Forward: full claim. Round trip: full claim in 2d; in 3d needs RoomBack (see C25_false)."
  },
  {
   "property": "C29",
   "status": "partial",
   "theorems": [
    "FftMpi.C29_checks_partial",
    "FftMpi.C29_valid_accepted",
    "FftMpi.C29_false",
    "FftMpi.C29_outputs_false",
    "FftMpi.C29_checks_2d_partial",
    "FftMpi.C29_valid_accepted_2d",
    "FftMpi.C29_false_2d",
    "FftMpi.C29_outputs_false_2d",
    "FftMpi.C29_iff",
    "FftMpi.C29_error",
    "FftMpi.C29_gap_or_overlap",
    "FftMpi.C29_iff_2d",
    "FftMpi.C29_error_2d",
    "FftMpi.C29_gap_or_overlap_2d"
   ],
   "note": "Accepted input boxes lie in the grid and are a tiling or have both an overlap and a gap; valid arguments are accepted. Refuted: boxes with both an overlap and a gap are accepted, output boxes are not checked. The same in 2d. C29_iff: accepted exactly if sizes are supported, input boxes lie in the grid and their points add up to the grid; C29_error: otherwise the first of these conditions that fails is reported on all ranks."
  },
  {
   "property": "C30",
   "status": "partial",
   "theorems": [
    "FftMpi.C30_fft_partial",
    "FftMpi.C30_fft3d_partial",
    "FftMpi.C30_fft2d_setup_false",
    "FftMpi.C30_fft2d_setup_leak_false",
    "FftMpi.C30_fft2d_partial"
   ],
   "note": "Every finite history of calls and assignments on FFT3d and FFT2d ends in the error that the order of the calls demands, or in none, and uses no plan or buffer that does not exist. The code violates the property for a second setup of FFT2d (no check, the first plan leaks). Conditions on the caller: arguments that satisfy the documented precondition, buffers large enough; internal buffers may be too small (C25_false)."
  },
  {
   "property": "C31",
   "status": "proved",
   "theorems": [
    "FftMpi.C31_plans"
   ],
   "note": "For all lengths, both classes: plans made, found by each 1d FFT, and released exactly once. (The whole setup and destructor around it: see C47.)"
  },
  {
   "property": "C32",
   "status": "partial",
   "theorems": [
    "FftMpi.C32_partial",
    "FftMpi.C32_times",
    "FftMpi.C32_defined",
    "FftMpi.C32_false",
    "FftMpi.C32_unlimited_iff",
    "FftMpi.C32_zero_iff"
   ],
   "note": "The trials, flags and times reported are those run; times up to the rounding errors of double. Missing: with a measured FFT time of 0 the code casts an infinite double to int (C32_false); C32_zero_iff says for which time limits, C32_unlimited_iff when tune returns without a limit (3*niter must be an int if the parts are timed)."
  },
  {
   "property": "C33",
   "status": "partial",
   "theorems": [
    "FftMpi.C33_partial",
    "FftMpi.C33_iff",
    "FftMpi.C33_false"
   ],
   "note": "If all ranks' clocks put the trials in the same order they choose the same settings; exactly if the first of the fastest trials of each stage is the same one on both (C33_iff). In general the code compares local times, so ranks may choose different settings (C33_false)."
  },
  {
   "property": "C34",
   "status": "partial",
   "theorems": [
    "FftMpi.C34_partial",
    "FftMpi.C34_iff",
    "FftMpi.C34_first_false",
    "FftMpi.C34_pack_false"
   ],
   "note": "The chosen setting is the fastest of its stage, besttime is its time per FFT up to rounding. The initial run is ignored and besttime is reset before the pack stage, so the choice may not be the fastest of all trials (counterexamples); C34_iff says exactly when it is the fastest of the trials after the first."
  },
  {
   "property": "C35",
   "status": "partial",
   "theorems": [
    "FftMpi.C35_time",
    "FftMpi.C35_niter_partial",
    "FftMpi.C35_niter_false",
    "FftMpi.C35_rounding",
    "FftMpi.timeFp_rndQ53",
    "FftMpi.C35_exact",
    "FftMpi.C35_niter_iff"
   ],
   "note": "Time budget up to a relative error of 2^-50; tmax itself may be exceeded by a rounding error (C35_rounding); niter may be increased from 1 to 2 when tflag = 1 (C35_niter_false). C35_exact: the number of iterations, in exact arithmetic: the largest for which ten trials fit. C35_niter_iff: exactly when it is increased, in exact arithmetic."
  },
  {
   "property": "C36",
   "status": "partial",
   "theorems": [
    "FftMpi.C36_set3",
    "FftMpi.C36_set2",
    "FftMpi.C36_unknown3",
    "FftMpi.C36_unknown2",
    "FftMpi.C36_get3_partial",
    "FftMpi.C36_get2_partial",
    "FftMpi.C36_roundtrip3",
    "FftMpi.C36_roundtrip2",
    "FftMpi.C36_get3_false",
    "FftMpi.C36_get2_false",
    "FftMpi.C36_remap_partial",
    "FftMpi.C36_remap_false"
   ],
   "note": "set is proved in full for FFT3d and FFT2d. get: the documented variables cbest, ebest, pbest, besttime have no getter and read as -1; remap set ignores the documented keyword memory."
  },
  {
   "property": "C37",
   "status": "proved",
   "theorems": [
    "FftMpi.C37_setup3",
    "FftMpi.C37_tune3",
    "FftMpi.C37_c3",
    "FftMpi.C37_ranks3",
    "FftMpi.C37_setup2",
    "FftMpi.C37_tune2",
    "FftMpi.C37_c2",
    "FftMpi.C37_remap3",
    "FftMpi.C37_remap2"
   ],
   "note": "For every member function that the wrappers call. The interface blocks are the subject of C59."
  },
  {
   "property": "C38",
   "status": "proved",
   "theorems": [
    "FftMpi.C38_ranks_agree",
    "FftMpi.C38_ranks_agree_2d"
   ],
   "note": "Every rank executes the same sequence of remap kinds, for compute in both directions. 2d analogue also proved."
  },
  {
   "property": "C39",
   "status": "proved",
   "theorems": [
    "FftMpi.C39_remap2d_delivers",
    "FftMpi.C39_remap2d_in_place",
    "FftMpi.C39_remap2d_in_bounds",
    "FftMpi.C39_remap2d_no_deadlock",
    "FftMpi.C39_remap2d_schedule_independent",
    "FftMpi.C39_remap2d_matching",
    "FftMpi.C39_remap2d_modes_agree",
    "FftMpi.C39_pack2d_variants",
    "FftMpi.C39_remap2d_packflag",
    "FftMpi.C39_remap2d_groups",
    "FftMpi.C39_remap2d_own_group",
    "FftMpi.C39_remap2d_alltoallv",
    "FftMpi.C39_remap2d_no_side_effects",
    "FftMpi.C39_remap2d_sequences"
   ],
   "note": "Every communicator size, tiling, schedule. memcpy packing (packflag 2) only in double precision builds; single precision with packflag 2 is broken in the code, see C40."
  },
  {
   "property": "C40",
   "status": "partial",
   "theorems": [
    "FftMpi.C40_memcpy_double_partial",
    "FftMpi.C40_memcpy_false",
    "FftMpi.C40_pack_single_overruns",
    "FftMpi.C40_single_array_pointer"
   ],
   "note": "The property is false in the code: pack2d.h uses sizeof(double). Proved: negation with witness, overrun for every plan in single precision, equality in double precision, correctness of the other variants in single precision."
  },
  {
   "property": "C41",
   "status": "proved",
   "theorems": [
    "FftMpi.C41_forward_dft"
   ],
   "note": "Full claim, in exact arithmetic over the complex numbers, every schedule, every documented setting; needs arguments that satisfy Args2.Valid (dimensions >= 2 and < 2^31, prime factors 2,3,5, tilings, permute 0/1)."
  },
  {
   "property": "C42",
   "status": "partial",
   "theorems": [
    "FftMpi.C42_round_trip_unscaled",
    "FftMpi.C42_round_trip_partial",
    "FftMpi.C42_false",
    "FftMpi.C42_exact",
    "FftMpi.C42_iff"
   ],
   "note": "Unscaled: full claim. Scaled: needs at most outsize points in the input box of every rank; C42_false refutes the rest (normnum = outsize, fft2d.cpp:431, 1484-1491). C42_iff: the scaled round trip restores all data if and only if no rank has more points on input than on output (or the grid has one point); C42_exact says for which data it does."
  },
  {
   "property": "C43",
   "status": "partial",
   "theorems": [
    "FftMpi.C43_convolution_partial",
    "FftMpi.C43_convolution_scaled_partial",
    "FftMpi.C43_convolution_2d",
    "FftMpi.C43_convolution_scaled_2d_partial",
    "FftMpi.C43_exact",
    "FftMpi.C43_iff",
    "FftMpi.C43_exact_2d",
    "FftMpi.C43_iff_2d"
   ],
   "note": "3d: RoomBack (see C25_false) and, for scaled, insize <= outsize (see C27_false) are needed. 2d: unscaled full claim; scaled needs insize <= outsize. C43_iff: with scaling it is right for all data if and only if no rank has more points on input than on output; C43_exact says for which data."
  },
  {
   "property": "C44",
   "status": "partial",
   "theorems": [
    "FftMpi.C44_remap_packflag_partial",
    "FftMpi.C44_remap_switch_on_false",
    "FftMpi.C44_remap_switch_off_false",
    "FftMpi.C44_fft_partial",
    "FftMpi.C44_fft_memoryflag_false"
   ],
   "note": "Remap: packflag has no effect after setup; the code violates the property for collective (both directions, for every configuration). FFT3d and FFT2d: assignments to collective, exchange, packflag after setup change no later outcome, for every history; the code violates the property for memoryflag."
  },
  {
   "property": "C45",
   "status": "partial",
   "theorems": [
    "FftMpi.C45_remap_memusage_partial",
    "FftMpi.C45_remap_collective_partial",
    "FftMpi.C45_remap3d_false",
    "FftMpi.C45_request_false",
    "FftMpi.C45_missing",
    "FftMpi.C45_iff",
    "FftMpi.C45_iff_2d"
   ],
   "note": "Exact difference between memusage and the bytes kept for every configuration, both classes; equality in collective mode when sizeof(MPI_Request) is that of a pointer. The code undercounts the entry for the copy to itself in point-to-point mode (C45_remap3d_false) and uses sizeof(MPI_Request *) (C45_request_false). C45_iff, C45_iff_2d: with requests of the size of a pointer it is right if and only if the mode is collective or the rank keeps none of its points."
  },
  {
   "property": "C46",
   "status": "proved",
   "theorems": [
    "FftMpi.C46_only_1d_in_bounds",
    "FftMpi.C46_only_one_remap_composes",
    "FftMpi.C46_only_remaps_forward",
    "FftMpi.C46_only_1d_in_bounds_2d",
    "FftMpi.C46_only_one_remap_composes_2d",
    "FftMpi.C46_only_remaps_forward_2d"
   ],
   "note": "In place. 2d analogues also proved."
  },
  {
   "property": "C47",
   "status": "partial",
   "theorems": [
    "FftMpi.C47_remap_partial",
    "FftMpi.C47_remap_strict_false",
    "FftMpi.C47_remap_before_setup_false",
    "FftMpi.C47_remap_setup_twice_false",
    "FftMpi.C47_fft_partial",
    "FftMpi.C47_fft3d_partial",
    "FftMpi.C47_fft2d_before_setup_false",
    "FftMpi.C47_fft_leak_false",
    "FftMpi.C47_fft_user_false",
    "FftMpi.C47_fft_strict_false",
    "FftMpi.C47_fft2d_partial"
   ],
   "note": "Remap3d and Remap2d: construction, setup, any uses, destruction leaves exactly the earlier blocks. FFT3d and FFT2d: the same after every history of calls incl. tune. Violations proved: call through deleted memory, destructor of Remap before setup reads unassigned members, second setup of Remap leaks, destructor of FFT2d before setup dereferences NULL, memoryflag changed after setup leaks the buffers or frees the caller's."
  },
  {
   "property": "C48",
   "status": "partial",
   "theorems": [
    "FftMpi.C48_remap3d_partial",
    "FftMpi.C48_remap3d_delivers_partial",
    "FftMpi.C48_remap2d_partial",
    "FftMpi.C48_remap2d_delivers_partial",
    "FftMpi.C48_unpack_false",
    "FftMpi.C48_empty_false",
    "FftMpi.C48_memcpy_false",
    "FftMpi.C48_offset_false",
    "FftMpi.C48_unpack2_false"
   ],
   "note": "The claim as stated is false in four ways: the step of the unpack loops goes past INT_MAX (C48_unpack_false, C48_unpack2_false), an empty box overflows in an intermediate product (C48_empty_false), the byte count of the memcpy routines wraps (C48_memcpy_false), the send offset overflows in an intermediate sum (C48_offset_false). Proved: under the conditions of Call3.Small / Call2.Small no int operation of setup, remap or the pack routines overflows, and the 32-bit program is the unbounded one, so it delivers every element. Missing: the volume condition alone does not suffice."
  },
  {
   "property": "C49",
   "status": "partial",
   "theorems": [
    "FftMpi.C49_partial",
    "FftMpi.C49_forward_dft_partial",
    "FftMpi.C49_bounds_iff",
    "FftMpi.C49_false",
    "FftMpi.C49_check_false"
   ],
   "note": "Full claim false: the block bounds (ip+1)*n/np multiply in int, so 65536 ranks on a 2 x 65536 x 2 grid overflow although each rank passes 4 points (C49_false; C49_bounds_iff: no overflow in one dimension exactly if np*n fits). The index check itself overflows for in_ihi = INT_MAX (C49_check_false). C49_partial adds the limit P*n <= INT_MAX for every dimension, and limits of factor 4 and 2*sizeof on boxes and lines. C49_forward_dft_partial: under these limits setup with 32-bit integers succeeds and its compute gives the DFT. The 1d FFTs also use 32-bit integers (C54)."
  },
  {
   "property": "C50",
   "status": "partial",
   "theorems": [
    "FftMpi.C50_partial",
    "FftMpi.C50_forward_dft_partial",
    "FftMpi.C50_false",
    "FftMpi.C50_check_false"
   ],
   "note": "Full claim false as in 3d: 65536 ranks on a 65536 x 2 grid overflow in the bounds of the slow layout although each rank passes 2 points (C50_false); the index check overflows for in_ihi = INT_MAX (C50_check_false). C50_partial and C50_forward_dft_partial add the limit P*n <= INT_MAX for both dimensions, and limits on boxes and lines. The 1d FFTs also use 32-bit integers (C54)."
  },
  {
   "property": "C51",
   "status": "partial",
   "theorems": [
    "FftMpi.C51_one_remap_partial",
    "FftMpi.C51_pair_false",
    "FftMpi.C51_last_false",
    "FftMpi.C51_first_false",
    "FftMpi.C51_one_remap_2d_partial",
    "FftMpi.C51_pair_false_2d",
    "FftMpi.C51_last_false_2d",
    "FftMpi.C51_first_false_2d",
    "FftMpi.C51_ends_iff",
    "FftMpi.C51_ends_iff_2d",
    "FftMpi.C51_back_first_false",
    "FftMpi.C51_back_last_false",
    "FftMpi.C51_back_ends_iff",
    "FftMpi.C51_back_first_false_2d",
    "FftMpi.C51_back_last_false_2d",
    "FftMpi.C51_back_ends_iff_2d"
   ],
   "note": "Holds for in = out, and for separate arrays if the stage is one remap; 3d backward with exchange = 1 needs RoomBack (C25_false). Refuted for separate arrays otherwise: with exchange = 1 the second remap reads in again (C51_pair_false, fft3d.cpp:1116-1121); where no remap is needed half of the data is copied (C51_first_false) or nothing (C51_last_false). The same in 2d. C51_ends_iff: the first and last forward stage with separate arrays are right for some layout of whole rows if and only if they have a remap. C51_back_ends_iff: the same for the stages back."
  },
  {
   "property": "C52",
   "status": "partial",
   "theorems": [
    "FftMpi.C52_same_partial",
    "FftMpi.C52_forward_dft_partial",
    "FftMpi.C52_same_2d_partial",
    "FftMpi.C52_forward_dft_2d_partial",
    "FftMpi.C52_mkl_false",
    "FftMpi.C52_mkl_false_2d",
    "FftMpi.C52_fftw3_false",
    "FftMpi.C52_fftw3_false_2d",
    "FftMpi.C52_compute_iff",
    "FftMpi.C52_only1d_iff",
    "FftMpi.C52_remaponly",
    "FftMpi.C52_compute_iff_2d",
    "FftMpi.C52_only1d_iff_2d",
    "FftMpi.C52_remaponly_2d"
   ],
   "note": "Missing: MKL on a rank with no line in some dimension (0 transforms requested) and FFTW3 on arrays that are not aligned; both have no defined result under the specification of the libraries assumed in Package.lean, which was written without access to their manuals. Arithmetic is exact. C52_compute_iff, C52_only1d_iff: these conditions are exact; C52_remaponly: remaps alone need none."
  },
  {
   "property": "C53",
   "status": "proved",
   "theorems": [
    "FftMpi.C53_plans"
   ],
   "note": "Histories of calls and destructors with these packages: C30_fft3d_partial, C30_fft2d_partial, C47_fft3d_partial, C47_fft2d_partial, which hold for every package."
  },
  {
   "property": "C54",
   "status": "proved",
   "theorems": [
    "FftMpi.C54_kiss_out",
    "FftMpi.C54_kiss_in_place",
    "FftMpi.C54_limit"
   ],
   "note": "All lengths up to 2^30 and all 5-smooth lengths up to INT_MAX (setup accepts only 5-smooth ones). C54_limit: other lengths from 7/6*2^30 on make kf_bfly_generic read outside the twiddles; the claim excludes them."
  },
  {
   "property": "C55",
   "status": "proved",
   "theorems": [
    "FftMpi.C55_rounding",
    "FftMpi.C55_rounding_smooth",
    "FftMpi.C55_twiddle",
    "FftMpi.C55_double",
    "FftMpi.C55_float",
    "FftMpi.kissInF_exact"
   ],
   "note": "Under the stated accuracy of the operations (RoundOK, TrigOK; arith53 is an arithmetic that satisfies them and rounds) and no overflow. kissInF_exact: with exact operations the program is that of C18. Fused multiply-add and excess precision are excluded."
  },
  {
   "property": "C56",
   "status": "partial",
   "theorems": [
    "FftMpi.C56_forward",
    "FftMpi.C56_double",
    "FftMpi.C56_float",
    "FftMpi.C56_backward_unscaled_partial",
    "FftMpi.C56_backward_partial",
    "FftMpi.C56_round_trip_partial",
    "FftMpi.C56_double_round_trip_partial",
    "FftMpi.C56_float_round_trip_partial",
    "FftMpi.C56_forward2",
    "FftMpi.C56_double2",
    "FftMpi.C56_float2",
    "FftMpi.C56_backward2_unscaled",
    "FftMpi.C56_backward2_partial",
    "FftMpi.C56_round_trip2_partial",
    "FftMpi.C56_double_round_trip2_partial",
    "FftMpi.C56_float_round_trip2_partial"
   ],
   "note": "Forward and 2d unscaled backward: as claimed, if nothing overflows. 3d backward needs RoomBack (C25_false), scaling needs the input box of each rank to have at most as many points as its output box (C27_false); these conditions are those of the exact theorems C22-C27. Underflow enters as the absolute error tiny."
  },
  {
   "property": "C57",
   "status": "partial",
   "theorems": [
    "FftMpi.C57_reproducible",
    "FftMpi.C57_reproducible2",
    "FftMpi.C57_reproducible_back_partial",
    "FftMpi.C57_reproducible_back2_partial",
    "FftMpi.C57_false"
   ],
   "note": "Forward: as claimed, for every arithmetic whatsoever. Backward: objects whose input and output layout agree (permute 0) do the dimensions in another order than the others; C57_false shows in double precision that the numbers differ. There are just these two results, one per class of objects (_back_partial, with RoomBack in 3d and the count condition if scaled)."
  },
  {
   "property": "C58",
   "status": "partial",
   "theorems": [
    "FftMpi.Py.C58_session3_partial",
    "FftMpi.Py.C58_session2_partial",
    "FftMpi.Py.C58_freed_once3",
    "FftMpi.Py.C58_freed_once2",
    "FftMpi.Py.C58_precision",
    "FftMpi.Py.C58_arrays",
    "FftMpi.Py.C58_setup_memory_false",
    "FftMpi.Py.C58_setup_memory_meant3",
    "FftMpi.Py.C58_setup_memory_meant2",
    "FftMpi.Py.C58_remap3_false",
    "FftMpi.Py.C58_remap2_false",
    "FftMpi.Py.C58_remap_methods_false",
    "FftMpi.Py.C58_int_false",
    "FftMpi.Py.C58_conv",
    "FftMpi.Py.C58_accepts"
   ],
   "note": "All methods of the FFT classes but setup_memory, for integers that fit into C's int. False, with proofs for all inputs: setup_memory always raises UnboundLocalError (and passes on its arguments once the two wrong names are repaired), the constructors of the remap classes always raise AttributeError, larger integers are reduced to 32 bits."
  },
  {
   "property": "C59",
   "status": "partial",
   "theorems": [
    "FftMpi.Fortran.C59_partial",
    "FftMpi.Fortran.C59_keyword3",
    "FftMpi.Fortran.C59_keyword2",
    "FftMpi.Fortran.C59_keywordRemap",
    "FftMpi.Fortran.C59_setup_memory_false",
    "FftMpi.Fortran.C59_setup_memory_var_false",
    "FftMpi.Fortran.C59_keyword_false",
    "FftMpi.Fortran.C59_keyword_other_false",
    "FftMpi.Fortran.C59_reference"
   ],
   "note": "All procedures but setup_memory, and keywords that end with NUL. setup_memory hands over the address of the pointer (C59_setup_memory_false); the documented calls of fft3d_set have no NUL (C59_keyword_false, C59_keyword_other_false)."
  },
  {
   "property": "C60",
   "status": "partial",
   "theorems": [
    "FftMpi.C60_proc3d",
    "FftMpi.C60_proc3d_exact",
    "FftMpi.C60_proc2d",
    "FftMpi.C60_args_valid",
    "FftMpi.C60_args_valid_2d_partial",
    "FftMpi.C60_test2d_false",
    "FftMpi.C60_args_boxes",
    "FftMpi.C60_args_boxes_2d",
    "FftMpi.C60_setup_iff",
    "FftMpi.C60_setup_iff_2d"
   ],
   "note": "Search and boxes proved for all sizes, rank counts and roundings (products P*n below 2^53, sizes supported by KISS).  test2d in modes 1 and 3 passes permute = 2, for which FFT2d::setup is undefined: the negation is proved, and the positive theorem covers modes 0 and 2.  C60_setup_iff and C60_setup_iff_2d: setup returns an object on all ranks exactly for supported sizes, and in 2d only in modes 0 and 2."
  },
  {
   "property": "C61",
   "status": "partial",
   "theorems": [
    "FftMpi.C61_initialize",
    "FftMpi.C61_initialize_2d",
    "FftMpi.C61_validate",
    "FftMpi.C61_validate_2d",
    "FftMpi.C61_validation_partial",
    "FftMpi.C61_validation_2d_partial",
    "FftMpi.C61_index_iff",
    "FftMpi.C61_index_iff_2d",
    "FftMpi.C61_forward",
    "FftMpi.C61_forward_2d",
    "FftMpi.C61_test3d",
    "FftMpi.C61_test2d",
    "FftMpi.C61_test3d_false",
    "FftMpi.C61_test2d_false"
   ],
   "note": "initialize, validate and the loops are proved for all inputs.  The reported error is zero only if no rank has more input than output points: with nloop passes data is left in the output box, so validate (which checks nfft_in points) otherwise compares with points of other positions; characterised by C61_index_iff and refuted in general by C61_test3d_false and C61_test2d_false.  Exact arithmetic in the transforms; not the -tune path, not the printed text."
  },
  {
   "property": "C62",
   "status": "partial",
   "theorems": [
    "FftMpi.C62_defined_partial",
    "FftMpi.C62_defined_false",
    "FftMpi.C62_agree_partial",
    "FftMpi.C62_agree_false",
    "FftMpi.C62_seed",
    "FftMpi.C62_seed_iff",
    "FftMpi.C62_accepted",
    "FftMpi.C62_accepted_2d",
    "FftMpi.C62_reachable",
    "FftMpi.C62_reachable_2d",
    "FftMpi.C62_atoi"
   ],
   "note": "Defined behaviour and agreement of the ranks hold except for overflows (negation proved) and for a number after -i in (1-P,0], where some ranks call error_all and others go on (negation proved; C62_seed_iff: exactly for these numbers).  Acceptance and reachability proved for all command lines and options.  atof is a parameter."
  },
  {
   "property": "C63",
   "status": "partial",
   "theorems": [
    "FftMpi.C63_output",
    "FftMpi.C63_output_2d",
    "FftMpi.C63_output_all",
    "FftMpi.C63_output_final_partial",
    "FftMpi.C63_output_final_2d_partial",
    "FftMpi.C63_division_false",
    "FftMpi.C63_count_false",
    "FftMpi.C63_order_false",
    "FftMpi.C63_final_iff",
    "FftMpi.C63_final_iff_2d"
   ],
   "note": "Initial output proved for all boxes.  The final output loops over the number of input points and decodes indices with the output box in x-fastest order: right if the counts are equal and the order is not permuted; otherwise division by zero, missing points or wrong indices (negations proved).  C63_final_iff, C63_final_iff_2d: the final output of mode 2 is right on a rank if and only if the counts are equal."
  },
  {
   "property": "C64",
   "status": "partial",
   "theorems": [
    "FftMpi.C64_factors",
    "FftMpi.C64_bricks",
    "FftMpi.C64_bricks_limit",
    "FftMpi.C64_bricks_py",
    "FftMpi.C64_bricks_f90_partial",
    "FftMpi.C64_single_false",
    "FftMpi.C64_run",
    "FftMpi.C64_simple",
    "FftMpi.C64_as_it_stands",
    "FftMpi.C64_py_rank0",
    "FftMpi.C64_py_false",
    "FftMpi.C64_settings"
   ],
   "note": "Everything proved for simple.cpp (C64_simple for all sizes with P*n in an int, C64_as_it_stands with int arithmetic throughout for 128^3 and up to 16777215 ranks).  simple.py drops the result of allreduce and prints the difference of rank 0 only (negation proved).  simple_f90.f90 computes the bricks in single precision: right if P*n <= 2^22, gap beyond (negation proved).  Assumed of pow and sqrt only that the truncated value lies between 1 and the argument."
  },
  {
   "property": "C65",
   "status": "partial",
   "theorems": [
    "FftMpi.C65_words",
    "FftMpi.C65_words_false",
    "FftMpi.C65_tmax_false",
    "FftMpi.C65_initialize_partial",
    "FftMpi.C65_initialize_false",
    "FftMpi.C65_initialize_2d",
    "FftMpi.C65_output_false",
    "FftMpi.C65_output_2d_false",
    "FftMpi.C65_report_false",
    "FftMpi.C65_run_partial",
    "FftMpi.C65_run_2d_partial",
    "FftMpi.C65_test3d_partial",
    "FftMpi.C65_remap4_false",
    "FftMpi.C65_number",
    "FftMpi.C65_tmax_point",
    "FftMpi.C65_options",
    "FftMpi.C65_options_2d",
    "FftMpi.C65_extra",
    "FftMpi.C65_output_shift",
    "FftMpi.C65_output_shift_2d"
   ],
   "note": "The programs violate the property in several ways, each proved: -i zero/step/index end with a run-time error, -v prints a variable without a value, -o reads one element before the array, a time limit without a decimal point is divided by 1000, validate uses the random numbers of rank 0 on all ranks.  Proved of what is left: with zero or random data (all that the command line can choose) the programs run to the end and the transforms restore the data (C65_run_partial, C65_run_2d_partial, C65_test3d_partial); the error that validate finds is zero if and only if the data are zero or only rank 0 has points.  A command line of readable numbers and words is accepted or refused as in the C++ program, with the same values (C65_options, C65_options_2d; except for nloop 0 with -tune in 2d)."
  },
  {
   "property": "C66",
   "status": "partial",
   "theorems": [
    "FftMpi.C66_int",
    "FftMpi.C66_options",
    "FftMpi.C66_accepted_2d",
    "FftMpi.C66_accepted_partial",
    "FftMpi.C66_rejects_false",
    "FftMpi.C66_accepts_false",
    "FftMpi.C66_proc_partial",
    "FftMpi.C66_proc_false",
    "FftMpi.C66_boxes",
    "FftMpi.C66_division_false",
    "FftMpi.C66_random",
    "FftMpi.C66_random_false",
    "FftMpi.C66_data",
    "FftMpi.C66_data_2d",
    "FftMpi.C66_args",
    "FftMpi.C66_args_2d",
    "FftMpi.C66_test3d_partial",
    "FftMpi.C66_test2d_partial",
    "FftMpi.C66_forward_false",
    "FftMpi.C66_output_false",
    "FftMpi.C66_output_2d",
    "FftMpi.C66_output_3d_false",
    "FftMpi.C66_accepts_partial",
    "FftMpi.C66_division_2d"
   ],
   "note": "The programs violate the property in several ways, each proved: test3d.py multiplies only two of the three numbers of a grid and does not check the last one of the output grid, its processor grids come from rounded quotients, modes 2 and 3 call an undefined function, -o does not return on two or more ranks and prints two indices in 3d, a large seed gives negative random numbers.  Proved of what is left: an accepted command line of integers means what it means in the C++ program, the data and the validation are the same, and in mode 0 with equal grids the programs run to the end and report 0.  What the C++ program accepts, the Python program accepts with the same values if the numbers are readable, nloop is not 0 and the third numbers of the grids are 1 (C66_accepts_partial)."
  },
  {
   "property": "C67",
   "status": "partial",
   "theorems": [
    "FftMpi.C67_parseval",
    "FftMpi.C67_forward",
    "FftMpi.C67_backward_unscaled_partial",
    "FftMpi.C67_round_trip_partial",
    "FftMpi.C67_double",
    "FftMpi.C67_double_round_trip_partial",
    "FftMpi.C67_float",
    "FftMpi.C67_float_round_trip_partial",
    "FftMpi.C67_parseval2",
    "FftMpi.C67_forward2",
    "FftMpi.C67_backward2_unscaled",
    "FftMpi.C67_round_trip2_partial",
    "FftMpi.C67_double2",
    "FftMpi.C67_double_round_trip2_partial",
    "FftMpi.C67_float2",
    "FftMpi.C67_float_round_trip2_partial"
   ],
   "note": "Parseval, forward and the 2d unscaled inverse: as claimed, if nothing overflows.  The 3d inverse needs RoomBack (C25_false) and the round trip needs the input box of each rank to have at most as many points as its output box (C27_false).  Accuracy of the operations as in C55."
  },
  {
   "property": "C68",
   "status": "partial",
   "theorems": [
    "FftMpi.C68_initialize",
    "FftMpi.C68_initialize_2d",
    "FftMpi.C68_validate",
    "FftMpi.C68_validate_2d",
    "FftMpi.C68_validation_partial",
    "FftMpi.C68_validation_2d_partial",
    "FftMpi.C68_remap_only_partial",
    "FftMpi.C68_remap_only_2d",
    "FftMpi.C68_double_partial",
    "FftMpi.C68_double_2d_partial",
    "FftMpi.C68_float_partial",
    "FftMpi.C68_float_2d_partial",
    "FftMpi.C68_test3d",
    "FftMpi.C68_test3d_float",
    "FftMpi.C68_test2d",
    "FftMpi.C68_test2d_float"
   ],
   "note": "As claimed for whole programs in mode 0 with the same processor grid for input and output (C68_test3d, C68_test2d).  In general no rank may have more points on input than on output (C61_index_iff, C61_test3d_false: the claim is false without it), and in 3d RoomBack is needed (C25_false)."
  },
  {
   "property": "C69",
   "status": "partial",
   "theorems": [
    "FftMpi.C69_remap_p2p",
    "FftMpi.C69_remap_partial",
    "FftMpi.C69_remap_false",
    "FftMpi.C69_fft_partial",
    "FftMpi.C69_fft3d_partial",
    "FftMpi.C69_fft_p2p",
    "FftMpi.C69_plan_false",
    "FftMpi.C69_missing_plan_false",
    "FftMpi.C69_perform_partial",
    "FftMpi.C69_perform_false",
    "FftMpi.C69_tune_partial",
    "FftMpi.C69_tune_false"
   ],
   "note": "True for setup of remaps in point-to-point mode; setup of FFT3d and FFT2d in that mode uses no null pointer.  The code does not check pflag and pgroup in collective mode (C69_remap_false), the plans (C69_plan_false, C69_missing_plan_false), the temporary arrays of KISS (C69_perform_false: every denied request) and the array of tune (C69_tune_false); the _partial theorems say exactly what each denied request of setup leads to."
  },
  {
   "property": "C70",
   "status": "proved",
   "theorems": [
    "FftMpi.C70_remap3",
    "FftMpi.C70_remap2",
    "FftMpi.C70_remap3_mixed",
    "FftMpi.C70_remap2_mixed",
    "FftMpi.C70_setup3",
    "FftMpi.C70_valid3",
    "FftMpi.C70_error3",
    "FftMpi.C70_mixed3",
    "FftMpi.C70_setup2",
    "FftMpi.C70_valid2",
    "FftMpi.C70_error2",
    "FftMpi.C70_mixed2"
   ],
   "note": "Each rank is a program of its own; executions are interleavings of the ranks.  C70_setup3, C70_setup2: with equal settings setup returns what the models with the arguments of all ranks say (which is defined for valid arguments: C70_valid3, C70_valid2, and for arguments that are not accepted: C70_error3, C70_error2).  Where it does not return, it hangs under every schedule: all executions are finite and one fixed rank never returns."
  },
  {
   "property": "C71",
   "status": "partial",
   "theorems": [
    "FftMpi.C71_partial",
    "FftMpi.C71_partial2",
    "FftMpi.C71_calls",
    "FftMpi.C71_calls2",
    "FftMpi.C71_false"
   ],
   "note": "True for all calls of setup before the trials of packflag, and for all calls if the ranks' clocks put the trials in the same order.  Otherwise the ranks may choose different values of collective, and setup hangs under every schedule (C71_false).  C71_calls, C71_calls2: each call returns exactly if the ranks share the settings that they have to share by C72."
  },
  {
   "property": "C72",
   "status": "proved",
   "theorems": [
    "FftMpi.C72_settings3",
    "FftMpi.C72_settings2",
    "FftMpi.C72_dft3",
    "FftMpi.C72_dft2",
    "FftMpi.C72_remap3",
    "FftMpi.C72_remap2"
   ],
   "note": "C72_settings3 and C72_settings2 decide for every combination of settings whether setup returns or hangs; C72_dft3 and C72_dft2: the transform is the DFT.  Remap classes: each rank may have its own packflag (C72_remap3, C72_remap2), while collective must be the same (C70_remap3_mixed, C70_remap2_mixed).  For nqty 2, the number that the FFT classes use."
  },
  {
   "property": "C73",
   "status": "partial",
   "theorems": [
    "FftMpi.C73_output",
    "FftMpi.C73_grid",
    "FftMpi.C73_timed",
    "FftMpi.C73_one",
    "FftMpi.C73_partial",
    "FftMpi.C73_false",
    "FftMpi.C73_fortran",
    "FftMpi.C73_fortran_false"
   ],
   "note": "C73_output: output prints in the order of the ranks under all schedules; C73_grid: these are all grid points, each once.  The whole program is in order with -t or on one rank (C73_timed, C73_one).  Without -t the report may come in the middle of the values (C73_false), while the values are in order and the report is (C73_partial).  In the Fortran programs every line is printed once per rank and the order is not kept (C73_fortran, C73_fortran_false).  Lines appear when they are printed (no buffering of streams)."
  },
  {
   "property": "C74",
   "status": "partial",
   "theorems": [
    "FftMpi.C74_trial_partial",
    "FftMpi.C74_trial_2d",
    "FftMpi.C74_tune_partial",
    "FftMpi.C74_tune_2d_partial",
    "FftMpi.Driver.C74_timing_partial",
    "FftMpi.Driver.C74_timing_2d",
    "FftMpi.Driver.C74_loops",
    "FftMpi.Driver.C74_test3d_tune",
    "FftMpi.Driver.C74_test3d_false",
    "FftMpi.Driver.C74_tune_false",
    "FftMpi.Driver.C74_trial_runs",
    "FftMpi.Driver.C74_trial_runs_2d",
    "FftMpi.Driver.C74_directions"
   ],
   "note": "Trials and timing end within their arrays: in 2d always, in 3d forward, or with pencils (exchange 0), or with the same layout for input and output.  C74_tune_partial: with the array that tune allocates, all ranks making the same number of passes; clocks as in C71.  C74_test3d_tune: the whole of test3d -tune -v -t in mode 0 with pin = pout.  Violations in 3d: test3d -g 3 2 2 -pin 1 1 2 -pout 2 1 1 -c point -e brick on two ranks writes outside of the send buffer that setup allocated (C74_test3d_false), and so does the third trial of -tune without time limit (C74_tune_false), as setup ignores the sizes of one of its remaps (see C25).  C74_trial_runs/_2d: which runs a trial makes for each tflag and flag; C74_directions: tune times the directions that the test program runs."
  },
  {
   "property": "C75",
   "status": "proved",
   "theorems": [
    "FftMpi.C75_sizes3",
    "FftMpi.C75_remap3d",
    "FftMpi.C75_sizes2",
    "FftMpi.C75_remap2d",
    "FftMpi.C75_fft3d",
    "FftMpi.C75_fft2d"
   ],
   "note": "C75_sizes3/C75_sizes2: the sizes in terms of the overlaps of boxes.  C75_remap3d/C75_remap2d: the call ends if and only if the buffers have these sizes.  C75_fft3d/C75_fft2d: the same for compute in both directions; in 3d with the condition ExtraRoom for the remap whose sizes setup leaves out (see C25, C25_exact)."
  },
  {
   "property": "C76",
   "status": "proved",
   "theorems": [
    "FftMpi.C76_procs_iff",
    "FftMpi.C76_procs_iff_2d",
    "FftMpi.C76_grid_iff",
    "FftMpi.C76_grid_iff_2d",
    "FftMpi.C76_initialize_iff",
    "FftMpi.C76_initialize_iff_2d",
    "FftMpi.C76_output",
    "FftMpi.C76_output_2d",
    "FftMpi.C76_count_iff",
    "FftMpi.C76_bytes",
    "FftMpi.C76_test3d_same",
    "FftMpi.C76_test3d",
    "FftMpi.C76_test2d_same",
    "FftMpi.C76_test2d",
    "FftMpi.C76_index_false"
   ],
   "note": "C76_test3d_same/C76_test2d_same: within the limits of the library every rank executes the program of the model with unbounded integers; C76_test3d/C76_test2d: hence the validation prints 0 (C61).  The _iff theorems give the exact condition of each function, C76_bytes also that of user_fftsize*2 in tune.  C76_index_false: a box of 2^29 points on which only index overflows.  The options themselves (processor grid product, seed) are in C62, random numbers in C60."
  },
  {
   "property": "C77",
   "status": "partial",
   "theorems": [
    "FftMpi.Driver.C77_times",
    "FftMpi.Driver.C77_work",
    "FftMpi.Driver.C77_ranks",
    "FftMpi.Driver.C77_nonneg",
    "FftMpi.Driver.C77_init",
    "FftMpi.Driver.C77_count",
    "FftMpi.Driver.C77_report",
    "FftMpi.Driver.C77_rate_false",
    "FftMpi.Driver.C77_f90_partial",
    "FftMpi.Driver.C77_f90_false",
    "FftMpi.Driver.C77_f90_bytes",
    "FftMpi.Driver.C77_f90_bytes_false",
    "FftMpi.Driver.C77_f90_nsize",
    "FftMpi.Driver.C77_f90_nsize_false",
    "FftMpi.C77_rate_iff"
   ],
   "note": "Proved for the C++ programs (the C and Python programs have the same sequence of actions, except for test3d.py in modes 2 and 3, see C66). False for the flop rate if the clock shows no difference (C77_rate_false; C77_rate_iff: exactly then, or without any FFT), and for the Fortran programs: remap #4 of test3d_f90, bytes of the grid and size of the 2d grid in 32 bits. Assumed: at least one pass (see C62, C35), N <= 2^53, no underflow or overflow of double, a logarithm with relative error 2^-50."
  },
  {
   "property": "C78",
   "status": "partial",
   "theorems": [
    "FftMpi.C78_fill",
    "FftMpi.C78_diff",
    "FftMpi.C78_run",
    "FftMpi.C78_double",
    "FftMpi.C78_float",
    "FftMpi.C78_simple",
    "FftMpi.C78_f90_partial",
    "FftMpi.C78_as_it_stands"
   ],
   "note": "Proved for simple.cpp and simple_c.cpp; simple_f90.f90 computes its bricks in single precision, which is right if the number of ranks times each size is at most 2^22 (C64_single_false). The numbers must not overflow (in double precision they cannot)."
  },
  {
   "property": "C79",
   "status": "partial",
   "theorems": [
    "FftMpi.Driver.C79_test3d",
    "FftMpi.Driver.C79_test2d_partial",
    "FftMpi.Driver.C79_test3d_tune_partial",
    "FftMpi.Driver.C79_test2d_tune_partial",
    "FftMpi.Driver.C79_c",
    "FftMpi.Driver.C79_c_2d",
    "FftMpi.Driver.C79_py",
    "FftMpi.Driver.C79_py_2d",
    "FftMpi.Driver.C79_f90",
    "FftMpi.Driver.C79_f90_2d"
   ],
   "note": "Proved for test3d without -tune. Missing: modes 1 and 3 of test2d, whose arguments are not valid (C60_test2d_false); with -tune, that tune returns (C32_defined, C32_false) and times of 10^20 and more."
  },
  {
   "property": "C80",
   "status": "partial",
   "theorems": [
    "FftMpi.C80_script_partial",
    "FftMpi.C80_commands_3d_partial",
    "FftMpi.C80_commands_2d_partial",
    "FftMpi.C80_test2d_partial",
    "FftMpi.C80_py_2d_partial",
    "FftMpi.C80_f90_2d_partial",
    "FftMpi.C80_args_f90_2d_partial"
   ],
   "note": "All sixteen commands, in the double precision that the Makefiles choose; the 3d and 2d commands on any number of ranks up to 2^15. Missing: the two calls of make; the Fortran programs pass keywords without a terminating NUL (C59), here the settings are taken to be those of the command line; modes 1 and 3 of the 2d programs, which fail (C60)."
  },
  {
   "property": "C81",
   "status": "partial",
   "theorems": [
    "FftMpi.C81_several_partial",
    "FftMpi.C81_hand_over_partial"
   ],
   "note": "any sequence of calls on any objects of the same ranks, with shared or own buffers, with code of the user between the calls; partial: separate arrays in and out only in the cases of C26 in which they work (false otherwise, C26_forward_false, C26_backward_false), backward FFT3d needs the room of C25"
  },
  {
   "property": "C82",
   "status": "partial",
   "theorems": [
    "FftMpi.C82_communicators_partial",
    "FftMpi.C82_names",
    "FftMpi.C82_order"
   ],
   "note": "All calls of C81 on any communicators (lists of distinct ranks), in a common order. Partial: as in C81, separate arrays of FFTs only where they work."
  }
 ]
}
