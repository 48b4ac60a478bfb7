{"id": "C01", "title": "3d remap delivers every datum to its place", "statement": "If the input boxes of all ranks and the output boxes of all ranks each tile the same global grid, then after every rank has called Remap3d::remap(in,out,...) each rank's out array holds, for every grid point (i,j,k) of its output box and every q < nqty, exactly the value that the owner of (i,j,k) had in its in array. in is ordered fast=i, mid=j, slow=k; out is ordered (i,j,k), (j,k,i) or (k,i,j) for permute = 0, 1, 2.", "quantifier": "for all communicator sizes, all tilings (including ranks that own nothing), all nqty >= 1, permute 0/1/2, collective 0/1, packflag 0/1/2, all data, all message schedules", "why_tests_cant": "the space of tilings x ranks x schedules is infinite; tests only try a handful of regular decompositions", "anchors": ["src/remap3d.cpp: Remap3d::setup, Remap3d::remap, Remap3d::collide", "src/pack3d.h", "doc/api_remap.txt", "doc/layout.txt"]}
{"id": "C02", "title": "In-place remap is safe", "statement": "Calling remap with out == in (one array of nqty*max(insize,outsize) scalars) yields the same output values as calling it with two distinct arrays: no input datum is overwritten before it has been packed.", "quantifier": "for all tilings, permutations, nqty, comm styles and schedules as in C01", "why_tests_cant": "aliasing errors show up only for specific layouts and message arrival orders", "anchors": ["src/remap3d.cpp: Remap3d::remap", "src/remap2d.cpp: Remap2d::remap"]}
{"id": "C03", "title": "Remap stays inside the advertised buffers", "statement": "With in of nqty*insize scalars, out of nqty*outsize scalars, and send/recv buffers of exactly the sendsize/recvsize that setup returned, remap performs no read or write outside any of these arrays.", "quantifier": "for all valid tilings, permute, nqty, collective, packflag, schedules", "why_tests_cant": "an overrun of a heap buffer is usually silent and depends on the decomposition", "anchors": ["src/remap3d.cpp: Remap3d::setup lines 409-427, 511-524", "src/pack3d.h"]}
{"id": "C04", "title": "Point-to-point remap cannot deadlock", "statement": "A sequence of remaps executed by all ranks always can make progress until all ranks have returned, even if MPI_Send blocks until the matching receive is posted (no MPI buffering), under every interleaving, including when fast ranks start the next remap while slow ranks are still in the previous one.", "quantifier": "for all schedules, communicator sizes, tilings and all finite sequences of remaps", "why_tests_cant": "a deadlock depends on message size thresholds and timing that a test bed does not control", "anchors": ["src/remap3d.cpp: Remap3d::remap lines 640-683", "src/remap2d.cpp: Remap2d::remap"]}
{"id": "C05", "title": "Remap result does not depend on message arrival order", "statement": "Whatever order MPI_Waitany reports completed receives in, and however sends/receives of different ranks interleave, the final contents of every out array are the same.", "quantifier": "for all schedules and all completion orders", "why_tests_cant": "tests observe one arrival order per run", "anchors": ["src/remap3d.cpp: Remap3d::remap Waitany loop"]}
{"id": "C06", "title": "Sends and receives match pairwise", "statement": "Rank a plans a message of n scalars to rank b if and only if rank b plans to receive a message of n scalars from rank a; every rank plans at most one message per peer, and messages of length 0 are never planned.", "quantifier": "for all extents on all ranks (no tiling assumption), nqty >= 1", "why_tests_cant": "truncation errors and hangs appear only for particular combinations of tiles", "anchors": ["src/remap3d.cpp: Remap3d::setup send/recv loops", "Remap3d::collide"]}
{"id": "C07", "title": "Point-to-point and collective remap agree", "statement": "remap with collective = 0 and with collective = 1 produce identical out arrays for identical inputs.", "quantifier": "for all valid tilings, permute, nqty, packflag, data", "why_tests_cant": "equality must hold for all layouts, tests compare few", "anchors": ["src/remap3d.cpp: Remap3d::remap"]}
{"id": "C08", "title": "The three pack styles are interchangeable", "statement": "For every pack plan with non-negative sizes and positive strides, the array, pointer and memcpy variants of each pack/unpack routine perform exactly the same memory update (same result or all out of bounds), so packflag never changes the result of a 3d remap.", "quantifier": "for all plans, all buffers, nqty >= 1, permute 0/1/2", "why_tests_cant": "27 routine variants x unbounded strides and sizes", "anchors": ["src/pack3d.h: pack_3d_*, unpack_3d_*"]}
{"id": "C09", "title": "Communication groups are the connected components", "statement": "In collective mode the group computed by a rank is exactly the set of ranks reachable from it through input/output overlaps; hence every member of a group computes the identical list, groups of different ranks are equal or disjoint, a rank that owns any data belongs to its own group, and a rank that owns nothing gets an empty group. The closure loop terminates and never stores more than nprocs entries.", "quantifier": "for all communicator sizes and all extents", "why_tests_cant": "MPI_Comm_create hangs or fails only if some pair of ranks disagrees, over unbounded overlap graphs", "anchors": ["src/remap3d.cpp: Remap3d::setup lines 433-509"]}
{"id": "C10", "title": "MPI_Alltoallv arguments are consistent", "statement": "Inside each group the count rank a sends to rank b equals the count rank b expects from rank a; the (displacement,count) ranges on each side are pairwise disjoint, lie inside the buffers, and are the ranges into which the data was packed / from which it is unpacked.", "quantifier": "for all extents, nqty, group sizes", "why_tests_cant": "mis-sized alltoallv corrupts silently", "anchors": ["src/remap3d.cpp: Remap3d::setup lines 538-575, Remap3d::remap lines 687-709"]}
{"id": "C11", "title": "Remap there and back is the identity", "statement": "Remapping from layout A to layout B with permutation p and then back from B to A with the complementary permutation (indices passed in rotated order) restores every array exactly.", "quantifier": "for all tilings A, B, p in 0/1/2, nqty, comm styles", "why_tests_cant": "identity over all layouts", "anchors": ["src/remap3d.cpp", "doc/api_remap.txt"]}
{"id": "C12", "title": "Remap has no side effects beyond its output box", "statement": "When in and out are distinct arrays remap leaves in unchanged, and it never modifies any element of out beyond the first nqty*outsize scalars.", "quantifier": "for all layouts, settings, schedules", "why_tests_cant": "absence of writes over unbounded memory", "anchors": ["src/remap3d.cpp: Remap3d::remap"]}
{"id": "C13", "title": "Consecutive remaps never mix up messages", "statement": "All remaps use the same communicator and tag. Nevertheless in any sequence of remaps on the same ranks each receive obtains the message that the peer sent for that very remap call.", "quantifier": "for all finite sequences of remaps, all schedules (FIFO non-overtaking delivery per ordered pair of ranks)", "why_tests_cant": "cross-talk needs a fast rank overtaking a slow rank by a whole remap", "anchors": ["src/remap3d.cpp: Remap3d::remap lines 642-655", "src/fft3d.cpp: FFT3d::compute"]}
{"id": "C14", "title": "Grid size acceptance", "statement": "FFT setup accepts a dimension if and only if it is at least 2 and has no prime factor other than 2, 3, 5; the check terminates for every int.", "quantifier": "for all integers n", "why_tests_cant": "termination and exactness over all n", "anchors": ["src/fft3d.cpp: FFT3d::prime_factorable, FFT3d::setup lines 254-259", "src/fft2d.cpp: FFT2d::prime_factorable"]}
{"id": "C15", "title": "Processor grids use every rank exactly once", "statement": "For every number of ranks the processor grid chosen for the fast, mid, slow and brick layouts has npx*npy*npz = nprocs, is 1 in the undivided dimension, and the per-rank grid coordinates are a bijection between ranks and grid cells.", "quantifier": "for all nprocs >= 1 and all grid sizes accepted by setup", "why_tests_cant": "the chosen factorisation depends on number theory of nprocs", "anchors": ["src/fft3d.cpp: FFT3d::factor, FFT3d::procfactors, FFT3d::surfarea"]}
{"id": "C16", "title": "Processor grid has minimal surface", "statement": "The processor grid has the smallest per-rank surface area among all factorisations of nprocs that respect the undivided dimension.", "quantifier": "for all nprocs and grid sizes", "why_tests_cant": "optimality is a claim about all factorisations", "anchors": ["src/fft3d.cpp: FFT3d::procfactors, FFT3d::surfarea", "src/fft2d.cpp: FFT2d::procfactors, FFT2d::surfarea"]}
{"id": "C17", "title": "Internal layouts tile the grid and are balanced", "statement": "The fast-, mid-, slow-pencil and brick layouts computed by setup tile the global grid exactly (every point owned by exactly one rank) and along each divided dimension two ranks' extents differ by at most one point.", "quantifier": "for all grid sizes, nprocs (also nprocs larger than a dimension), and all valid in/out tilings", "why_tests_cant": "partition property over unbounded sizes", "anchors": ["src/fft3d.cpp: FFT3d::setup lines 318-401"]}
{"id": "C18", "title": "1d transform computes the DFT", "statement": "In exact arithmetic the built-in KISS 1d FFT of length n writes X_k = sum_j x_j exp(-+2 pi i j k / n) for forward/backward, out of place and in place.", "quantifier": "for all n >= 1 and all complex inputs", "why_tests_cant": "correctness for all lengths and all data", "anchors": ["src/kissfft.h: kf_work, kf_bfly2, kf_bfly3, kf_bfly4, kf_bfly5, kf_bfly_generic, kiss_fft_alloc, kiss_fft_stride"]}
{"id": "C19", "title": "KISS plan factorisation is right", "statement": "The factor list of a plan multiplies to n, each entry stores radix and remaining length, it terminates, fits in the plan's fixed array, and for the sizes that setup accepts only radices 2,3,4,5 occur (the generic butterfly with its malloc is never used).", "quantifier": "for all n with 1 <= n < 2^31", "why_tests_cant": "array overflow would need exotic n", "anchors": ["src/kissfft.h: kf_factor, MAXFACTORS"]}
{"id": "C20", "title": "1d transform stays in bounds", "statement": "kiss_fft of length n reads exactly n input values with the given stride, writes exactly n outputs, and indexes the twiddle table only in 0..n-1.", "quantifier": "for all n >= 1", "why_tests_cant": "index expressions depend on the factor tree of n", "anchors": ["src/kissfft.h"]}
{"id": "C21", "title": "Forward compute is the 3d DFT", "statement": "After compute(data,data,1) on all ranks (in place), each rank's array holds the 3d discrete Fourier transform of the global input grid restricted to its output box, stored in the order selected by permute.", "quantifier": "for all accepted grid sizes, nprocs, valid in/out tilings, permute 0/1/2, collective 0/1/2, exchange 0/1, packflag 0/1/2, all data, all schedules; exact arithmetic", "why_tests_cant": "end-to-end functional correctness over unbounded configurations", "anchors": ["src/fft3d.cpp: FFT3d::setup, FFT3d::compute, remap_forward_create, perform_ffts"]}
{"id": "C22", "title": "Forward then backward restores the data", "statement": "With scaled = 1, compute(...,1) followed by compute(...,-1) on the same array returns the original values on every rank; with scaled = 0 it returns nfast*nmid*nslow times the original values.", "quantifier": "for all accepted configurations and data, exact arithmetic", "why_tests_cant": "identity over all layouts", "anchors": ["src/fft3d.cpp: FFT3d::compute, scale_ffts, remap_inverse_create", "doc/api_setup.txt"]}
{"id": "C23", "title": "Performance settings do not change results", "statement": "collective, exchange and packflag influence only speed: compute gives the same output for all of their documented values.", "quantifier": "for all 18 combinations, all layouts, all data", "why_tests_cant": "tests compare a few combinations on a few grids", "anchors": ["src/fft3d.cpp: FFT3d::setup, remap_forward_create, remap_inverse_create"]}
{"id": "C24", "title": "fftsize is large enough", "statement": "The fftsize returned by setup is at least the number of grid points the rank owns in every layout that compute passes through (input, fast, mid, slow, brick, output), so arrays of 2*fftsize scalars are never overrun.", "quantifier": "for all accepted configurations", "why_tests_cant": "intermediate layouts can be larger than both end layouts", "anchors": ["src/fft3d.cpp: FFT3d::setup lines 410-441"]}
{"id": "C25", "title": "sendsize and recvsize are large enough", "statement": "The send/recv buffers of the sizes returned by setup are large enough for every remap that compute, only_remaps and only_one_remap may run, forward and backward.", "quantifier": "for all accepted configurations", "why_tests_cant": "requires an unusual decomposition to overflow", "anchors": ["src/fft3d.cpp: remap_forward_create, remap_inverse_create", "src/fft2d.cpp: same"]}
{"id": "C26", "title": "Separate in and out arrays give the in-place result", "statement": "compute(in,out,flag) with distinct arrays leaves in out the same values compute(out,out,flag) would give if out initially held the input data.", "quantifier": "for all accepted configurations, both directions", "why_tests_cant": "only certain layouts skip the first or last remap", "anchors": ["src/fft3d.cpp: FFT3d::compute lines 566-602", "src/fft2d.cpp: FFT2d::compute"]}
{"id": "C27", "title": "Backward scaling touches exactly the output", "statement": "With scaled = 1 a backward compute multiplies every grid point of the rank's result by 1/(nfast*nmid*nslow) exactly once, for all points that the rank owns in the input layout.", "quantifier": "for all accepted configurations including ranks whose input and output boxes have different sizes", "why_tests_cant": "only ranks with insize != outsize are affected", "anchors": ["src/fft3d.cpp: scale_ffts, normnum", "src/fft2d.cpp: scale_ffts"]}
{"id": "C28", "title": "remaponly moves data without changing it", "statement": "With remaponly = 1, compute(data,data,1) leaves in each rank's array the untransformed input values of its output box in the permuted order, and forward then backward restores the array exactly, without scaling.", "quantifier": "for all accepted configurations and data", "why_tests_cant": "identity over all layouts", "anchors": ["src/fft3d.cpp: FFT3d::compute, only_remaps"]}
{"id": "C29", "title": "Setup rejects every invalid input tiling", "statement": "setup reports an error unless the ranks' boxes are valid: indices within the grid and every grid point owned by exactly one rank.", "quantifier": "for all boxes passed by all ranks, input and output", "why_tests_cant": "the set of invalid tilings is unbounded", "anchors": ["src/fft3d.cpp: FFT3d::setup lines 261-276"]}
{"id": "C30", "title": "Call-order errors are detected for every history", "statement": "For every sequence of API calls on an FFT object, compute / only_* / setup_memory before setup, compute before setup_memory when memoryflag = 0, setup_memory with memoryflag = 1, and a second setup or tune report an error, and no call uses a plan or buffer that does not exist.", "quantifier": "for all finite call histories", "why_tests_cant": "unbounded histories", "anchors": ["src/fft3d.cpp: FFT3d::setup, setup_memory, compute, only_1d_ffts, only_remaps, only_one_remap, tune", "src/fft2d.cpp: same"]}
{"id": "C31", "title": "1d plans are allocated and freed exactly once", "statement": "For every pattern of equal or different nfast, nmid, nslow, setup followed by destruction frees each 1d plan exactly once and leaks none; mid/slow FFTs always use a plan of their own length.", "quantifier": "for all nfast, nmid, nslow", "why_tests_cant": "double frees occur only for particular equality patterns", "anchors": ["src/fft3d.cpp: setup_ffts, deallocate_ffts (KISS)", "src/fft2d.cpp: same"]}
{"id": "C32", "title": "tune leaves a valid, consistent configuration", "statement": "After tune the object is set up with collective in 0..2, exchange in 0..1 and packflag in 0..2 (or the caller's initial values if no trial ran), memoryflag is as the caller set it, at most 10 result slots were used, and every reported trial slot holds the flags used in that trial.", "quantifier": "for all timings, tmax, niter, flag, tflag", "why_tests_cant": "depends on measured wall-clock times", "anchors": ["src/fft3d.cpp: FFT3d::tune", "src/fft2d.cpp: FFT2d::tune"]}
{"id": "C33", "title": "tune picks the same settings on all ranks", "statement": "All ranks leave tune with the same collective, exchange and packflag.", "quantifier": "for all wall-clock behaviours of all ranks", "why_tests_cant": "requires clock differences between ranks", "anchors": ["src/fft3d.cpp: FFT3d::tune lines 870-955"]}
{"id": "C34", "title": "tune picks the fastest trial", "statement": "The final settings and besttime are those of the fastest of all timing trials performed.", "quantifier": "for all measured times", "why_tests_cant": "depends on measured times", "anchors": ["src/fft3d.cpp: FFT3d::tune", "doc/api_tune.txt"]}
{"id": "C35", "title": "tune respects its time budget", "statement": "If tmax > 0 and each setup and each FFT takes the time measured in the first run, then the planned trials take at most tmax in total, unless the first run alone already exceeded it; niter is never increased.", "quantifier": "for all measured times, niter, tmax, tflag", "why_tests_cant": "depends on measured times", "anchors": ["src/fft3d.cpp: FFT3d::tune lines 797-868"]}
{"id": "C36", "title": "C set/get round trip", "statement": "fftNd_set with a documented keyword changes exactly that setting, unknown keywords change nothing, and fftNd_get_* returns the current value of the named variable.", "quantifier": "for all keywords (all strings), values and states", "why_tests_cant": "all strings", "anchors": ["src/fft3d_wrap.cpp", "src/fft2d_wrap.cpp"]}
{"id": "C37", "title": "Fortran interface is the C interface shifted by one", "statement": "Calling the Fortran setup/tune with 1-based bounds has exactly the effect of the C call with 0-based bounds, for input and output boxes, including empty boxes.", "quantifier": "for all bounds", "why_tests_cant": "12 independent index arguments, any one may be forgotten", "anchors": ["src/fft3d_wrap.cpp: fft3d_setup_fortran, fft3d_tune_fortran", "src/remap3d_wrap.cpp: remap3d_setup_fortran", "src/fft2d_wrap.cpp", "src/remap2d_wrap.cpp"]}
{"id": "C38", "title": "Ranks agree on the plan", "statement": "All ranks take the same decisions about which remaps a compute contains (pre-, post-remap, separate inverse plans, brick stage) for all boxes, so they execute the same sequence of collective operations.", "quantifier": "for all accepted configurations", "why_tests_cant": "a disagreement hangs only in special layouts", "anchors": ["src/fft3d.cpp: FFT3d::setup Allreduce uses"]}
{"id": "C39", "title": "2d remap delivers every datum to its place", "statement": "The analogue of C01-C03, C05-C08 for Remap2d: permute 0 keeps (i,j) order, permute 1 stores (j,i). Memcpy packing (packflag 2) is meant for double precision builds here; single precision is C40.", "quantifier": "for all communicator sizes, tilings, nqty, permute 0/1, collective, packflag, schedules", "why_tests_cant": "as C01", "anchors": ["src/remap2d.cpp", "src/pack2d.h"]}
{"id": "C40", "title": "2d memcpy packing works in both precisions", "statement": "pack_2d_memcpy/unpack_2d_memcpy copy exactly the same scalars as the array variants for double and for single precision builds.", "quantifier": "for all plans and both scalar widths", "why_tests_cant": "needs a single precision build and memcpy packing in 2d", "anchors": ["src/pack2d.h: pack_2d_memcpy, unpack_2d_memcpy"]}
{"id": "C41", "title": "Forward compute is the 2d DFT", "statement": "After FFT2d::compute(data,data,1) each rank holds the 2d DFT of the global input restricted to its output box in the order selected by permute (0/1).", "quantifier": "for all accepted configurations and data, exact arithmetic", "why_tests_cant": "as C21", "anchors": ["src/fft2d.cpp: FFT2d::setup, compute"]}
{"id": "C42", "title": "2d forward then backward restores the data", "statement": "The analogue of C22 for FFT2d.", "quantifier": "for all accepted configurations and data, exact arithmetic", "why_tests_cant": "as C22", "anchors": ["src/fft2d.cpp: FFT2d::compute, scale_ffts"]}
{"id": "C43", "title": "Convolution in the permuted layout", "statement": "Multiplying the forward transforms of two grids elementwise on each rank's output array (any output layout, any permute) and applying backward compute yields the circular convolution of the two grids in the input layout.", "quantifier": "for all accepted configurations and data, exact arithmetic", "why_tests_cant": "the documented use case of permute; depends on all layouts", "anchors": ["doc/layout.txt", "src/fft3d.cpp: FFT3d::compute"]}
{"id": "C44", "title": "Settings are frozen by setup", "statement": "Changing collective, exchange, packflag or memoryflag after setup has no effect on later calls.", "quantifier": "for all histories of set/compute/destroy calls", "why_tests_cant": "needs specific call orders", "anchors": ["doc/api_setup.txt", "doc/api_remap.txt", "src/remap3d.cpp: remap, destructor", "src/fft3d.cpp: destructor, setup_memory"]}
{"id": "C45", "title": "Memory accounting", "statement": "memusage reported by a remap equals the bytes it keeps allocated after setup.", "quantifier": "for all configurations", "why_tests_cant": "depends on group structure", "anchors": ["src/remap3d.cpp: Remap3d::setup lines 585-612"]}
{"id": "C46", "title": "only_1d_ffts and only_one_remap stay in bounds and compose to compute", "statement": "only_1d_ffts(data) never touches more than fftsize points; running only_one_remap for which = 1..4 in place equals only_remaps.", "quantifier": "for all accepted configurations", "why_tests_cant": "depends on layouts", "anchors": ["src/fft3d.cpp: only_1d_ffts, only_one_remap, only_remaps"]}
{"id": "C47", "title": "Destruction is safe at any point of the life cycle", "statement": "Destroying an FFT or Remap object after construction, after setup, or after any number of computes frees exactly what was allocated and touches no uninitialised or freed object.", "quantifier": "for all call histories", "why_tests_cant": "needs specific call orders and uninitialised memory contents", "anchors": ["src/remap3d.cpp: ~Remap3d", "src/fft3d.cpp: ~FFT3d", "src/fft2d.cpp: ~FFT2d"]}
{"id": "C48", "title": "No 32-bit overflow in remap plans", "statement": "If nqty times each rank's box volume fits in an int, then every offset, stride, size and count that setup and the pack routines compute fits in an int as well.", "quantifier": "for all extents and nqty", "why_tests_cant": "overflow needs huge grids", "anchors": ["src/remap3d.cpp: Remap3d::setup"]}
{"id": "C49", "title": "No 32-bit overflow in FFT setup and compute", "statement": "If the boxes of the input, the output and of every layout of an FFT3d are small enough for the remaps between them (C48), then setup computes processor grids, layout bounds, sizes and plans without integer overflow, and compute, only_1d_ffts, only_remaps and only_one_remap do exactly what they would do with unbounded integers.", "quantifier": "for all grids, rank counts, layouts and settings", "why_tests_cant": "overflow needs tens of thousands of ranks", "anchors": ["src/fft3d.cpp: FFT3d::setup", "src/fft3d.cpp: FFT3d::procfactors", "src/fft3d.cpp: FFT3d::perform_ffts"]}
{"id": "C50", "title": "No 32-bit overflow in FFT2d setup and compute", "statement": "If the boxes of the input, the output and of every layout of an FFT2d are small enough for the remaps between them (C48), then setup computes processor grids, layout bounds, sizes and plans without integer overflow, compute, only_1d_ffts, only_remaps and only_one_remap do exactly what they would do with unbounded integers, and so a forward compute gives the DFT.", "quantifier": "for all grids, rank counts, layouts, settings, input data and schedules, in both precisions", "why_tests_cant": "overflow needs tens of thousands of ranks", "anchors": ["src/fft2d.cpp: FFT2d::setup", "src/fft2d.cpp: FFT2d::procfactors", "src/fft2d.cpp: FFT2d::perform_ffts"]}
{"id": "C51", "title": "only_one_remap moves the data of one stage", "statement": "Number the layouts of a transform 0 (input), 1, 2, 3 (whole rows in the first, second, third dimension), 4 (output; in 2d 0 to 3). only_one_remap(in,out,1,which) moves the data in array in from layout which-1 to layout which in array out, and only_one_remap(in,out,-1,which) moves it back, for in = out and for separate arrays.", "quantifier": "for all accepted configurations, data and schedules", "why_tests_cant": "depends on layouts; the test programs call it with in = out only", "anchors": ["src/fft3d.cpp: FFT3d::only_one_remap", "src/fft3d.cpp: FFT3d::remap", "src/fft2d.cpp: FFT2d::only_one_remap", "src/fft2d.cpp: FFT2d::remap"]}
{"id": "C52", "title": "The 1d FFT package makes no difference", "statement": "Compiled for MKL, FFTW2 or FFTW3 instead of KISS, setup succeeds for the same arguments and returns the same sizes, and compute and only_1d_ffts leave the same data in all arrays, up to rounding; in particular a forward compute gives the DFT.", "quantifier": "for all accepted configurations, data, directions, flags and schedules", "why_tests_cant": "each build tests one package on few sizes; ranks without lines and unaligned arrays are not tried", "anchors": ["src/fft3d.cpp: FFT3d::setup_ffts", "src/fft3d.cpp: FFT3d::perform_ffts", "src/fft3d.cpp: FFT3d::scale_ffts", "src/fft2d.cpp: FFT2d::setup_ffts", "src/fft2d.cpp: FFT2d::perform_ffts", "src/fft2d.cpp: FFT2d::scale_ffts"]}
{"id": "C53", "title": "Plans of MKL, FFTW2 and FFTW3 are released once", "statement": "With each of the packages MKL, FFTW2 and FFTW3, every 1d FFT uses a plan or descriptor of its own length and direction, and deallocate_ffts releases every plan and descriptor that setup_ffts made exactly once, whichever of the dimensions are equal.", "quantifier": "for all grid dimensions, in 2d and 3d", "why_tests_cant": "double release and leaks depend on which dimensions are equal and often go unnoticed", "anchors": ["src/fft3d.cpp: FFT3d::setup_ffts", "src/fft3d.cpp: FFT3d::deallocate_ffts", "src/fft2d.cpp: FFT2d::setup_ffts", "src/fft2d.cpp: FFT2d::deallocate_ffts"]}
{"id": "C54", "title": "The index arithmetic of kissfft.h does not overflow", "statement": "With 32-bit int and 64-bit size_t, kiss_fft_alloc and kiss_fft compute no int value outside the range of int and no twiddle index outside the array, and still give the DFT, for every length up to 2^30 and every length up to 2^31-1 without prime factors other than 2, 3 and 5.", "quantifier": "for all such lengths, directions, strides and data", "why_tests_cant": "the lengths at which products and sums of indices come near 2^31 need gigabytes of memory", "anchors": ["src/kissfft.h: kf_bfly5", "src/kissfft.h: kf_bfly_generic", "src/kissfft.h: kf_work", "src/kissfft.h: kf_factor", "src/kissfft.h: kiss_fft_alloc"]}
{"id": "C55", "title": "Rounding errors of the built-in 1d FFT are bounded", "statement": "If the floating-point operations of kissfft.h round with relative error u, and M_PI, cos and sin are accurate to v and c, then every output of a 1d FFT differs from the exact DFT by at most a factor E times the sum of the absolute values of the inputs, where 1+E is (1+O(u+d))^log2(n) for lengths with the prime factors 2, 3, 5 (E <= 2^-40 in double, 2^-14 in single precision for all such lengths below 2^31), with a further factor (1+u)^(n-1) for all other lengths; d is the error of the twiddles, O(v+c+u). The inputs must not be so large that something overflows.", "quantifier": "for all lengths below 2^31, directions, inputs and arithmetics with these accuracies", "why_tests_cant": "tests compare with one result for a few inputs and a tolerance that somebody chose; a loss of accuracy for some lengths or inputs goes unnoticed", "anchors": ["src/kissfft.h: C_MUL", "src/kissfft.h: kf_bfly2", "src/kissfft.h: kf_bfly3", "src/kissfft.h: kf_bfly4", "src/kissfft.h: kf_bfly5", "src/kissfft.h: kf_bfly_generic", "src/kissfft.h: kf_work", "src/kissfft.h: kiss_fft_alloc"]}
{"id": "C56", "title": "Rounding errors of the distributed FFTs are bounded", "statement": "With the built-in 1d FFTs and floating-point operations of stated accuracy, every number that compute leaves in the user's array differs from the exact (scaled) multidimensional DFT by at most a factor E times the sum of the absolute values of all inputs: E <= 2^-38 in double and 2^-12 in single precision for all 3d and 2d grids that setup accepts with dimensions below 2^31. A forward transform followed by a scaled inverse transform returns every value up to 2^-37 (double), 2^-11 (single) of that sum.", "quantifier": "for all numbers of ranks, layouts, permutations, settings, data, message schedules and arithmetics with these accuracies", "why_tests_cant": "the tests measure the error of a round trip for one random array and print it; nothing says what the largest error is", "anchors": ["src/fft3d.cpp: FFT3d::compute", "src/fft3d.cpp: FFT3d::perform_ffts", "src/fft3d.cpp: FFT3d::scale_ffts", "src/fft3d.cpp: FFT3d::setup", "src/fft2d.cpp: FFT2d::compute", "src/fft2d.cpp: FFT2d::perform_ffts", "src/fft2d.cpp: FFT2d::scale_ffts"]}
{"id": "C57", "title": "Results are reproducible to the last bit", "statement": "The rounded numbers that compute returns depend only on the dimensions of the grid, the data, the direction and the scaling flag: not on the number of ranks, the layouts, permute, the settings (collective, exchange, packing), the order in which messages arrive, or what temporary memory contained.", "quantifier": "for all arithmetics, data, numbers of ranks, layouts, settings and schedules", "why_tests_cant": "bitwise comparison over all rank counts, layouts and message orders cannot be run; the tests compare with a tolerance", "anchors": ["src/fft3d.cpp: FFT3d::compute", "src/fft3d.cpp: FFT3d::perform_ffts", "src/fft2d.cpp: FFT2d::compute", "src/fft2d.cpp: FFT2d::perform_ffts", "src/remap3d.cpp: Remap3d::remap"]}
{"id": "C58", "title": "Python methods are the C calls of the same names", "statement": "Every method of the Python classes makes exactly one call of the C function of the same name, with the object's pointer and the arguments of the method, and returns what that function returns or writes through its pointers; the object is freed exactly once, and after destroy() no method reaches the C library.", "quantifier": "for all sequences of method calls, arguments, communicators, precisions and behaviours of the C library", "why_tests_cant": "one broken method (a wrong name, a missing declaration, a wrong argument type) shows only when that method is called with such arguments; the test programs call a few", "anchors": ["src/fftmpi.py: FFT3dMPI", "src/fftmpi.py: FFT2dMPI", "src/fftmpi.py: Remap3dMPI", "src/fftmpi.py: Remap2dMPI"]}
{"id": "C59", "title": "Fortran calls hand to C what C programs pass", "statement": "Every procedure in the Fortran interface blocks is bound to a C function with the same result and the same arguments in the same order, and hands to it the numbers, the pointers, the addresses of result variables and the addresses of keywords that a C program would pass; the keyword functions then select the member of that name and read no memory outside the keyword.", "quantifier": "for all procedures, actual arguments and memory contents", "why_tests_cant": "a missing value attribute or terminator shows only when that procedure is called, and then depends on what is in memory next to it", "anchors": ["src/fft3d_wrap.f90: fft3d_setup_memory", "src/fft2d_wrap.f90: fft2d_setup_memory", "src/remap3d_wrap.f90: remap3d_remap", "src/remap2d_wrap.f90: remap2d_remap", "src/fft3d_wrap.cpp: fft3d_set", "src/fft2d_wrap.cpp: fft2d_set"]}
{"id": "C60", "title": "Test programs decompose the grid validly", "statement": "The processor grids that test3d and test2d choose have product equal to the number of ranks and minimal surface per rank up to rounding of the comparison; the boxes computed from a processor grid with floating-point arithmetic partition the global grid, and the arguments and settings passed to the library satisfy its preconditions.", "quantifier": "for all grid sizes, numbers of ranks, accepted command lines and correctly rounded double arithmetic", "why_tests_cant": "the boxes come from truncated floating-point products; a gap or overlap appears only for particular sizes and rank counts", "anchors": ["test/test3d.cpp: proc3d", "test/test3d.cpp: grid_setup", "test/test3d.cpp: plan", "test/test2d.cpp: proc2d", "test/test2d.cpp: grid_setup", "test/test2d.cpp: plan"]}
{"id": "C61", "title": "Test programs report the error of the round trip", "statement": "initialize fills each rank's input box with the values of the chosen kind without leaving the allocation; after nloop forward and backward transforms validate computes the largest deviation from these values, which is zero in exact arithmetic for every run in modes 0 and 1; forward-only runs end with the repeated transform in the output box.", "quantifier": "for all accepted options, numbers of ranks, iteration counts, seeds and schedules", "why_tests_cant": "the tests rely on this code to judge the library, so an error in it hides errors of the library or reports errors that are not there", "anchors": ["test/test3d.cpp: initialize", "test/test3d.cpp: validate", "test/test3d.cpp: main", "test/test3d.cpp: random", "test/test2d.cpp: initialize", "test/test2d.cpp: validate"]}
{"id": "C62", "title": "Command lines of the test programs", "statement": "options has defined behaviour on every command line and never reads outside argv; all ranks accept or reject it together; accepted options satisfy what the rest of the program assumes, and all such options can be given.", "quantifier": "for all command lines, ranks and numbers of ranks", "why_tests_cant": "the set of command lines is infinite and the faults need particular numbers and rank counts", "anchors": ["test/test3d.cpp: options", "test/test3d.cpp: error_all", "test/test2d.cpp: options", "test/test2d.cpp: error_all"]}
{"id": "C63", "title": "Output of the test programs lists each point with its value", "statement": "output prints exactly one line per grid point of a rank's box, with the global index of the point and the complex value stored for it, for the input box at the start and for the output box at the end.", "quantifier": "for all boxes, memory contents and numbers of ranks", "why_tests_cant": "the printed lists are compared by eye if at all, and the faults appear only for particular box shapes", "anchors": ["test/test3d.cpp: output", "test/test2d.cpp: output"]}
{"id": "C64", "title": "Sample programs work on any number of ranks", "statement": "simple.cpp (and simple_c.cpp, simple.py, simple_f90.f90) factor the number of ranks into three factors whose product is that number, cut the grid into bricks that tile it, pass valid arguments to setup, run forward and inverse transform without deadlock or overflow, and print the largest difference between initial and final values over all ranks, which is zero in exact arithmetic.", "quantifier": "for all numbers of ranks, supported grid sizes, roundings of pow, sqrt and the brick arithmetic, schedules and initial memory", "why_tests_cant": "pow(n,1/3) is inexact for cubes, the brick bounds are truncated quotients, and the sample is normally run on a few ranks with one size", "anchors": ["test/simple.cpp: main", "test/simple_c.cpp: main", "test/simple.py", "test/simple_f90.f90"]}
{"id": "C65", "title": "Fortran test programs do what the C++ test programs do", "statement": "test3d_f90.f90 and test2d_f90.f90 accept the options that they announce, initialise the data inside of the array as chosen, restore them by a forward and an inverse transform, and with -v report a validation error that is zero in exact arithmetic on any number of ranks; with -o they print the values of the grid points.", "quantifier": "for all command lines, numbers of ranks, supported grid sizes, roundings, schedules and initial memory", "why_tests_cant": "the programs end with a printed number that nobody compares; uninitialised variables and an index one before the array usually go unnoticed, and with one rank or zero data the wrong seed of the comparison has no effect", "anchors": ["test/test3d_f90.f90: options, initialize, validate, output, timing", "test/test2d_f90.f90: options, initialize, validate, output"]}
{"id": "C66", "title": "Python test programs do what the C++ test programs do", "statement": "test3d.py and test2d.py accept the command lines that test3d.cpp and test2d.cpp accept, with the same meaning, choose processor grids and boxes that distribute the grid, run all passes of every mode, and with -v report a validation error that is zero in exact arithmetic; with -o they print the grid point and value of every element.", "quantifier": "for all command lines, numbers of ranks, supported grid sizes, roundings, schedules and initial memory", "why_tests_cant": "errors such as an undefined name or a wrong check show only on the path concerned (a mode, an option, more than one rank), and nobody runs all combinations", "anchors": ["test/test3d.py: options, proc3d, proc2d, grid_setup, random, initialize, output, validate", "test/test2d.py: options, proc2d, grid_setup, initialize, output, validate"]}
{"id": "C67", "title": "Rounding errors relative to the Euclidean norm", "statement": "The transforms keep the Euclidean norm up to the factor of the definition (forward: square root of N), and the rounding error of a transform with the KISS library, measured in the Euclidean norm over all ranks and grid points, is at most a stated small multiple of the norm of the result; forward and inverse together give the data back up to such an error.  In double precision the relative error is at most 2^-37 (2^-36 for both), in single precision 2^-11 (2^-10).", "quantifier": "for all supported grid sizes (at most 2^31 points), distributions, numbers of ranks, schedules, input data that do not overflow, and all arithmetics with the stated accuracy", "why_tests_cant": "a test compares a few sizes with a tolerance chosen by eye; it does not say how the error grows with the size and the factorisation", "anchors": ["src/kissfft.h: kf_bfly2, kf_bfly3, kf_bfly4, kf_bfly5, kf_bfly_generic, kf_work", "src/fft3d.cpp: perform_ffts, scale_ffts, compute", "src/fft2d.cpp: perform_ffts, scale_ffts, compute"]}
{"id": "C68", "title": "The error printed by the validation is small", "statement": "With rounding, initialize stores the data of exact arithmetic up to one conversion, validate returns the largest difference from the exact data up to one subtraction (so it cannot hide an error), and after any number of passes of forward and inverse transforms test3d -v and test2d -v print an error of at most nloop*sqrt(N)*V/2^35+V/2^52 in double precision (nloop*sqrt(N)*V/2^9+V/2^23 in single precision), where N is the number of grid points and V the largest number of the data.", "quantifier": "for all supported grids, numbers of ranks, initial data, settings, schedules, fewer than 2^31 passes (32 in single precision), and all arithmetics with the stated accuracy that do not overflow", "why_tests_cant": "a run of the test program shows one number for one grid; whether it is as small as it should be, and how it grows with the number of passes and points, cannot be seen from it", "anchors": ["test/test3d.cpp: initialize, validate, main", "test/test2d.cpp: initialize, validate, main"]}
{"id": "C69", "title": "Denied requests for memory are reported", "statement": "If the system denies a request for memory, in any order and number, the library ends the program with a message or an exception instead of using a null pointer; if all requests are granted it behaves as without failures.", "quantifier": "for all choices of which requests are granted, all argument boxes, settings and states of the heap", "why_tests_cant": "allocations practically never fail in tests, and never at each of the many places in turn", "anchors": ["src/remap3d.cpp: setup_collective", "src/remap3d.cpp: setup", "src/remap2d.cpp: setup", "src/fft3d.cpp: setup, setup_ffts, perform_ffts, tune", "src/fft2d.cpp: setup, setup_ffts, perform_ffts, tune", "src/kissfft.h: kiss_fft_stride, kf_bfly_generic, kiss_fft_alloc", "src/memory.cpp: smalloc, srealloc"]}
{"id": "C70", "title": "The collective calls of setup fit together on all ranks", "statement": "setup of the remap and FFT classes makes matching collective calls (MPI_Allreduce, MPI_Allgather, MPI_Comm_create, and the barrier before an error message) on all ranks, with legal groups, so that under every schedule it returns on all ranks, with what is computed from the arguments of all ranks, or with the same error on all ranks; if the ranks have different values of collective, it returns exactly if they agree in each remap that they make.", "quantifier": "for all numbers of ranks, boxes of all ranks (also ones that do not fit together), settings, and interleavings of the ranks", "why_tests_cant": "the interleavings and the combinations of boxes are unbounded, and a rank that waits for ever only shows as a hanging program", "anchors": ["src/fft3d.cpp: setup lines 264-390, remap_forward_create, remap_inverse_create", "src/fft2d.cpp: setup lines 267-374", "src/remap3d.cpp: setup lines 225-507", "src/remap2d.cpp: setup lines 212-460", "src/error.cpp: all"]}
{"id": "C71", "title": "setup returns in tune on all ranks", "statement": "Each call of setup in tune returns on all ranks.", "quantifier": "for all wall-clock behaviours of all ranks, all valid arguments and numbers of ranks", "why_tests_cant": "requires clock differences between ranks that change the order of the trials", "anchors": ["src/fft3d.cpp: tune lines 760-1010", "src/fft2d.cpp: tune"]}
{"id": "C72", "title": "Which settings the ranks have to share", "statement": "Every rank may set collective, exchange and packflag of its object on its own. setup returns on all ranks if all agree whether exchange is 0 and about what collective says for the kinds of remaps that are made (pencil to pencil: whether it is 0; brick to pencil: whether it is 1); otherwise it hangs under every schedule. If it returns, the objects do the same with data as if all ranks had the settings of rank 0, and a transform gives the DFT; different values of packflag and different nonzero values of exchange do not matter.", "quantifier": "for all numbers of ranks, valid arguments, settings of each rank, interleavings, and input data", "why_tests_cant": "tests give all ranks the same settings; the combinations of settings, layouts and schedules are unbounded, and hanging for ever cannot be observed", "anchors": ["src/fft3d.h: members line 29", "src/fft3d.cpp: setup lines 264-390, remap_forward_create, remap_inverse_create, compute", "src/fft2d.cpp: setup lines 267-374", "src/remap3d.cpp: setup lines 225-507", "src/remap2d.cpp: setup lines 212-460"]}
{"id": "C73", "title": "The test programs print the grid in the order of the ranks", "statement": "With -o the test programs print the values of rank 0, then those of rank 1, and so on, before and after the transforms, and the report at the end. All ranks end, and no message is left over.", "quantifier": "for all numbers of ranks, lines of each rank, interleavings of the ranks, and choices of MPI when MPI_Send returns", "why_tests_cant": "a test sees one interleaving, and wrong orders are rare in practice; the number of ranks is unbounded", "anchors": ["test/test3d.cpp: main lines 217-255, output lines 668-714, timing lines 789-993", "test/test2d.cpp: main lines 216-254, output lines 604-640", "test/test3d_f90.f90: output lines 696-744", "test/test2d_f90.f90: output lines 618-660"]}
{"id": "C74", "title": "Timing runs end and stay within their arrays", "statement": "The trials of tune and the timing runs of the test programs (the whole transform, only 1d FFTs, only remaps, single remaps, any number of times on one array) end, and access nothing outside the array and the buffers that setup and tune allocate. So does a test program with -tune and -t as a whole, and -v reports error 0 there.", "quantifier": "for all grids, layouts, settings, numbers of ranks and passes, contents of the array, directions, clocks, and interleavings of the ranks", "why_tests_cant": "grids, layouts, counts and clocks are unbounded; an access a few elements outside of a buffer often has no visible effect", "anchors": ["src/fft3d.cpp: tune_trial lines 1026-1101, tune lines 752-960, remap buffer sizes lines 1368-1375", "src/fft2d.cpp: tune_trial lines 968-1039", "test/test3d.cpp: plan lines 577-590, timing lines 789-909", "test/test2d.cpp: plan lines 520-532, timing lines 711-816"]}
{"id": "C75", "title": "Buffer sizes are exactly what is needed", "statement": "The sizes of the send and receive buffers that setup of a remap returns are the smallest that work: a call of remap ends without an access outside of the buffers if and only if, on all ranks, the buffers have at least the returned sizes (in point-to-point mode: if every point of the output boxes has an owner). The same for the sizes that setup of an FFT returns and a forward and a backward compute; for FFT3d with exchange of bricks and different layouts, buffers also need room for the second remap between mid pencils and fast pencils, and for nothing else.", "quantifier": "for all box assignments, numbers of ranks, settings, nqty, permutations, contents of the arrays, and interleavings of the ranks", "why_tests_cant": "tests use buffers of the returned sizes or larger; that every element of them is used on every rank is not observed", "anchors": ["src/remap3d.cpp: setup lines 415-417, 513-516", "src/remap2d.cpp: setup lines 368-370, 466-469", "src/fft3d.cpp: remap_forward_create lines 1139-1255, remap_inverse_create lines 1261-1391", "src/fft2d.cpp: remap_forward_create lines 1078-1155, remap_inverse_create lines 1161-1247"]}
{"id": "C76", "title": "Integer overflow in the test programs", "statement": "If the sizes are within the limits under which the library is free of integer overflow (C49, C50), no int operation of test3d and test2d from the choice of the processor grids to the validation overflows, and the programs do exactly what they do with unbounded integers. Each function on its own: the search for a processor grid overflows exactly for INT_MAX ranks; grid_setup overflows on some rank exactly if a box has more than INT_MAX points; initialize and validate exactly if 2*nfft (zero, random) or 2*nfft-1 (step, index) or, with index, a value i+j+k+1 exceeds INT_MAX; the number of FFTs in the statistics exactly if nloop exceeds 2^30-1 in modes 0 and 1; the number of bytes in allocate never.", "quantifier": "for all accepted options, numbers of ranks, ranks, contents of the array, and roundings of double", "why_tests_cant": "overflow needs grids of more than 2^29 points per rank, dimensions near 2^31, 2^31-1 ranks or 2^30 passes", "anchors": ["test/test3d.cpp: proc3d lines 426-466, grid_setup lines 507-546, allocate line 609, initialize lines 618-660, output lines 668-714, validate lines 720-783, timing lines 914-922", "test/test2d.cpp: proc2d lines 421-451, grid_setup lines 459-490, initialize lines 560-596, output lines 604-640, validate lines 648-705, timing lines 821-829", "src/fft3d.cpp: tune lines 776, 906, 949", "src/fft2d.cpp: tune lines 727, 855, 895"]}
{"id": "C77", "title": "Times and statistics printed by the test programs", "statement": "Each time that a test program prints is the time between two readings of the clock just after barriers; the work between them is all of the work that the text names and no other; the first reading comes after everything that any rank did before, the second after the named work of every rank. No time is negative, also not the time for initialization without setup or tuning. The number of FFTs is the number of calls; the time per FFT and the flop rate are timefft/nfft and 5 N log2 N / onetime / 2^30 up to rounding.", "quantifier": "for all options, numbers of ranks, durations of all actions, clocks that do not run backwards and roundings", "why_tests_cant": "nobody can check a printed time against the work it is meant to cover; a barrier or a reading in the wrong place changes the numbers, not the behaviour", "anchors": ["test/test3d.cpp: main, plan, timing", "test/test2d.cpp: main, plan, timing", "test/test3d_f90.f90: timing", "test/test2d_f90.f90: timing", "src/fft3d.cpp: tune (setuptime)", "src/fft2d.cpp: tune (setuptime)"]}
{"id": "C78", "title": "The sample programs print a small difference in floating-point arithmetic", "statement": "The sample programs (simple.cpp, simple_c.cpp, simple_f90.f90) store the number of each scalar of the brick rounded once to the type of the array; the difference they print is, up to the rounding of one subtraction, the largest difference between the array after a forward and a backward transform and the stored numbers (so it neither hides an error nor counts the conversion as one), and with the rounding errors of the transforms it is at most sqrt(N) V / 2^35 in double precision and sqrt(N) V / 2^9 in single precision, where N is the number of grid points and V the number of scalars of the largest brick.", "quantifier": "for all grids the programs can be edited to, numbers of ranks, schedules, contents of the arrays and roundings", "why_tests_cant": "a run shows one number, about which the text of the program says only that it should be near zero; nothing says which numbers are too large", "anchors": ["test/simple.cpp: main", "test/simple_c.cpp: main", "test/simple_f90.f90: program simple_f90"]}
{"id": "C79", "title": "The report of the test programs describes the run", "statement": "The report that the test programs print tells what was run: the initial and final processor grids are those of the boxes passed to setup and use all ranks; the x, y and z pencil grids are undivided in their dimension and use all ranks, the brick grid uses all ranks if bricks are used and is zero otherwise; the number of FFTs is that of the timed loop; collective, exchange and pack are the settings of the user or, after tune, those that tune chose; the table of trials has one row for each reported trial, with the settings of that trial and its measured times per FFT; no variable is printed that was never assigned. The C, Python and Fortran programs read the same values by name.", "quantifier": "for all accepted options, supported grids, numbers of ranks, timings (below 10^20) and roundings", "why_tests_cant": "the report is the only record of a benchmark; a swapped member or an index off by one gives plausible numbers, and nobody compares them with the run", "anchors": ["test/test3d.cpp: timing, plan", "test/test2d.cpp: timing, plan", "test/test3d_c.cpp: timing", "test/test3d_f90.f90: timing", "test/test3d.py: timing", "src/fft3d.cpp: FFT3d, setup, tune", "src/fft2d.cpp: FFT2d, setup, tune"]}
{"id": "C80", "title": "The commands of Run.sh run to the end", "statement": "Every command of test/Run.sh (the eight test programs in C++, C, Fortran and Python, on one rank and on eight) runs to the end: every rank accepts the command line and reads the same values, the processor grids are found, setup succeeds on all ranks, and every execution of the initialization and the loop stays within the arrays and buffers, raises no exception and does not deadlock. More generally, the 2d test programs run to the end in modes 0 and 2 with any processor grids, also when input and output grids differ; the boxes that test2d_f90 computes in single precision give each point exactly one owner.", "quantifier": "for all interleavings, message orders and buffering of MPI, all contents of the memory, all roundings with 53 and 24 bits; for the programs: for all accepted options, supported grids and numbers of ranks", "why_tests_cant": "the script is the test; that it succeeds once says nothing about other interleavings, numbers of ranks or grids", "anchors": ["test/Run.sh", "test/test2d_f90.f90: grid_setup, plan", "test/test2d.cpp: options, proc_setup, grid_setup, initialize", "test/test2d.py: options, proc_setup, grid_setup", "src/fft2d_wrap.cpp: fft2d_setup_fortran"]}
{"id": "C81", "title": "Several FFT and remap objects can be used in turn", "statement": "A program that calls compute and remap on any number of FFT3d, FFT2d, Remap3d and Remap2d objects of the same ranks, in any order, and works on its own arrays in between, runs to the end on all ranks: no deadlock, no access out of bounds, no message of one object taken by another. Every call has exactly the effect it has when it is the only one, and changes no other array. In particular values transformed by one object can be transformed back by another one with the same grid, output boxes and permutation, and arrive in the input layout of the second.", "quantifier": "for all finite sequences of calls (both directions, scaled or not, remap only or not), all objects, boxes, settings and numbers of ranks, all interleavings, message orders and buffering of MPI, all values", "why_tests_cant": "the test programs use one object at a time; a message taken by the wrong call shows only in rare interleavings", "anchors": ["src/fft3d.cpp: compute", "src/fft2d.cpp: compute", "src/remap3d.cpp: remap", "src/remap2d.cpp: remap"]}
{"id": "C82", "title": "Objects on communicators with some of the ranks", "statement": "FFT and remap objects may be made on communicators that have only some of the ranks, in any order, disjoint or overlapping. When every rank makes the calls of the communicators it belongs to, in an order common to all, and does not wait otherwise, all ranks get to the end: no deadlock, no access out of bounds, no message taken by another communicator's call. Every call has exactly the effect on the ranks of its communicator that it has when these are all ranks, and no effect on the memory of other ranks. The order of calls on disjoint communicators does not matter.", "quantifier": "for all lists of calls, each on any communicator, all objects, boxes, settings, numbers of ranks, all interleavings, message orders and buffering of MPI, all values", "why_tests_cant": "the test programs use MPI_COMM_WORLD only; confusion of ranks of different communicators shows only with split communicators and rare interleavings", "anchors": ["src/fft3d.cpp:113-117", "src/fft2d.cpp:113-117", "src/remap3d.cpp:67-71", "src/remap2d.cpp:67-71"]}
