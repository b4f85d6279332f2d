# Formal model of LibFlatArray — design

Source: `/repo` (C++ headers, read as text). Proof assistant: Lean 4.33.0 with Mathlib, project in `/verif/lean`.
All paths below are relative to `/repo/include/libflatarray` unless stated otherwise.
Properties are in `properties.jsonl`, their theorems in `MANIFEST.json`, attempts to fool the theorems in `seeded/LOG.jsonl`.

## 1. Modelling approach

* **Memory.** A buffer (`Block`) is a finite array of bytes. A byte is either indeterminate or "byte *i* of the
  *s*-byte representation of value *v*" (`MByte.frag`). Values `V` are abstract (any type with decidable equality),
  so theorems hold for every member type. A typed read succeeds only if all *s* bytes belong to the same object;
  out-of-bounds access, reading an indeterminate value, assigning to / destroying a non-trivial object that is not
  alive, constructing over a live non-trivial object, touching a freed or null buffer and freeing twice are a
  separate outcome `ub`, never assumed away. This one memory carries values, byte overlap and object lifetime.
* **Heap.** Buffers have identities; `free` keeps the final content of the buffer in a history list, so that
  "nothing alive was thrown away" is a statement about states.
* **Cells.** A registered struct is a list of members (size, optional arity, trivial or not). A cell value is a function
  from (member, array element) to `V`.
* **Control.** Each C++ function becomes a Lean function with the same loops (monadic folds over index ranges) in a
  state/exception/UB result type. C++ exceptions keep the state at the throw point (needed for exception safety).
* **Numbers.** `size_t` is `Nat`, `long` is `Int`; where the property is about wrap-around, arithmetic modulo 2^64 is
  used explicitly (aligned_allocator, soa_array::load, index overflow). `count * 1.2` in `soa_vector::push_back` is
  modelled as exact IEEE double arithmetic on naturals (round to nearest even, 53 bit significand).
* **CUDA.** A kernel launch is an arbitrary permutation of all (block, thread) pairs, executed one after the other.
  That no two threads touch the same bytes is proved (C53; in `broadcast` all threads write the same values to one cell), which justifies the interleaving at this granularity.
* **short_vec.** Lanes are bit patterns. Registers are vectors of lanes; memory is a map from addresses to bytes, so that
  misaligned and misdirected accesses can be seen. Operations on floating point numbers are a parameter (`FEnv`), theorems
  hold for all of them. Each intrinsic has a lane semantics (`SV/Base.lean`), written by hand from the vendors' manuals.
  The classes themselves (`detail/short_vec_*.hpp`, about 24000 lines) are translated to Lean by `tools/sv_gen.py`,
  statement by statement; each definition cites its lines. `tools/sv_proofs.py` writes the proofs that each class obeys
  the laws in `SV/LaneOps.lean`; the kernel checks them like any others. Only C47 and C59 need to know values of floating
  point numbers: `SV/Ieee.lean` defines them for the binary formats of IEEE 754, and what conforming operations return.

## 2. Plan per property

| Id | What is modelled / how it is proved |
|----|------|
| C01 | offsets, `DIM_PROD*(…)` address formula; arithmetic (non-linear, by ordering of members) |
| C02 | `gen_index`; div/mod uniqueness |
| C03 | `LIBFLATARRAY_INDEX`, light accessors; ring arithmetic over `Int` |
| C04 | `reference::operator[]` vs. templated access; arithmetic |
| C05 | recursive `offset<>::operator()`; induction on the member list; the offset is returned as `int`, hence false for offsets from 2^31 on (`C05_false_large`) |
| C06 | `bind_size_*`, `CASE_DIM_*`; induction on the size list |
| C07 | default dispatch with the literal size tables; case analysis |
| C08 | grid invariant over `resize`/construct/assign; false for default construction |
| C09–C13 | functors on blocks; loop invariants on an abstract content map (`View`) |
| C14 | refinement of a multi-grid world (heap + grids) to plain arrays of structs, induction over histories; false if default constructed grids are assigned |
| C15 | corollaries of C14's refinement; false for default constructed grids |
| C16 | false: copy constructor leaves `my_extent_*` unset: negation + partial |
| C17 | false: `swap` swaps only `x` dims: negation + partial (equal y/z) |
| C18 | false: failing `resize` keeps freed pointer: negation + partial |
| C19 | construct functor; refinement |
| C20 | lifetime tracking in memory + freed history; invariant of C14 |
| C21 | `assert_same_grid_sizes`; decision logic |
| C22 | permutation invariance of member writes |
| C23, C24, C26 | soa_array refinement to bounded list |
| C25 | false for n > N (no check): negation + partial |
| C27 | false for non-trivial members: negation + partial |
| C28, C29 | soa_vector refinement to list; growth lemma on double arithmetic |
| C30 | false for shrinking reserve: negation + partial |
| C31, C32, C33, C34 | false: negations + partials; C31 (push_back) and C32 (copies) with exact conditions; bytes outside of the copied structs keep their value (`ByteKept`) |
| C35, C36 | aligned_allocator arithmetic modulo 2^64; false for some alignments and huge requests |
| C37 | loop_peeler as index trace; false if the range is inside one vector: negation + partial |
| C38–C40 | CUDA launch config, kernels as permutations of threads; C40 false |
| C41 | cuda_array on device buffers, refinement to lists; clients which choose their calls by what `save` yielded (`DevClients.lean`), and threads of such clients (`DevThreads.lean`) |
| C42 | macro expansion model (token lists), rows of the macro tables generated from the header |
| C43–C46 | short_vec: laws of each class (generated proofs), then theorems over the table of classes per target |
| C47, C59 | integer division and square root through float: values of IEEE 754 numbers; negations + partials |
| C48 | bounds on every intermediate of the address computation; partial: no theorem about `access_member(size, offset)` in machine arithmetic (`Mach.accessMemberAt`), whose mutant survived |
| C49 | divisibility of member addresses; soa_array false for odd capacities |
| C50 | arithmetic of the two traits |
| C51, C52 | soa_array: swap, and lifetimes at the end of an array's life; negations + partials |
| C53 | read and write sets of threads, from the kernels' operations |
| C54 | compound assignment vs. binary operator of each class |
| C55 | alignment constants vs. what aligned loads and stores of each class demand |
| C56 | expressions by structural induction, peeled loops by induction over the calls of the loop peeler |
| C57 | `operator<<` of each class: tokens written to the stream |
| C58 | table of specialisations per target: which headers define what under which preprocessor symbols |
| C60 | device grids: sets of outcomes, invariant over grids, device memory and staging buffers; induction over the program, also over clients which choose their calls by what they observed (`DevClients.lean`), and threads of such clients (`DevThreads.lean`); devices which may lack memory have the same outcomes or undefined behaviour (`Props/DevOom.lean`); negations for `broadcast`, `get` and lack of memory |
| C61 | small steps of threads, arbitrary schedules; non-interference by an invariant that ties each thread to its run alone; negations for `get`/`set` on one grid |
| C62 | functors for `callback(&other, functor)`: accessors' addresses in bytes, `short_vec` loads and stores of all targets through views of the buffers, rows by the loop peeler; simulation by a sequence of assignments to single members, lifted through the refinement of grids; induction over calls, rows and time steps; `SizedKernel`: the same for all sizes which suit the accesses (`SizedOmp` for C64) |
| C63 | each operation as the list of constructions and assignments it performs on member objects; one of them throws, with any value left behind; the prefix is a sequence of assignments to single members, lifted through the refinement of grids; negations: objects which were never constructed are destroyed, buffers nobody knows stay allocated in every continuation |
| C64 | threads as in C61, bodies as in C62; invariant per thread: which calls are done, which variables are loaded, which elements are stored; frame between threads since slices are disjoint; completion by draining threads one after the other; races by C61_no_race; negation: a functor which reads the slice above from the new grid |
| C65 | loops over pairs of particles: scalar registers for the first particle, peeled vector loop over the second, `any()` and `get()`, scalar updates; generic in what is done per interaction, with a simulation relation between memory and values; induction over lanes, calls and particles; negation: `n` not a multiple of the arity |
| C66 | as C65, where what is done per interaction is `push_back` to a soa_array plus processing by vectors when it is full; simulation relation: scalar values = memory after the pending structs have been processed; needs that statements do not assign to members which are stored |
| C67 | bodies of loops as trees of reads and writes, at indices which are advanced by one or by the size of a plane; loops over rows by induction; CUDA threads as walkers, simulated by functors of C61 in lockstep, ownership of lines; negations for accessors passed by value, different extents, and the launch parameters of the example |
| C68 | as C63, for the operations of `soa_array` and `soa_vector`: each is a list of constructions and assignments, the prefix before the exception is a sequence of assignments to members of the elements, lifted through the refinement of arrays and vectors by lists; programs catch exceptions and go on; negations: objects in the abandoned buffer, buffers which no vector refers to and which stay allocated whatever the program does, destruction of objects which have not been constructed |
| C69 | for each operation the state at the moment its allocation fails, and what unwinding makes of it; constructors and the first allocation of `reserve` leave the state literally unchanged, hence a run with failures is the run without the failed operations (induction over the program); the other cases are refuted |
| C70 | threads as in C61, for any container whose elements are read and written in single steps (one proof of interleavings, instantiated by the refinements of arrays and of vectors by lists); disjointness of bytes from the layout; a parallel loop over whole structs as corollary |
| C71 | strings as lists of characters; loops of `trim` with their reads of characters, `getline`, `fgets` into a buffer which keeps old contents; `trim` and `tokenize` proved equal to stripping and splitting; the file by induction over its lines; the table by an invariant on the buffer: each cell with a word is followed by its value and another cell; negations by concrete and by general inputs |
| C72 | the row as concatenation of padded texts; splitting undoes concatenation if separators are absent; numerals are injective |
| C73 | the four roundings as relations to nearest numbers (`SV.Ieee`), error bounds by a representable number nearby; a span is positive since 2^-21 is representable |
| C74 | model of the loops of ParticleMoverGold over four soa_arrays, generic in struct, member and vector type; invariant of the loop: the target arrays represent the elements distributed so far (`Rep`), block by block; swaps and clear() at the end of a step, induction over the steps |
| C75 | model of the nested loops of NBodySilver and NBodyGold with statements for the three parts of the body, two soa_arrays and the swap; invariant: each lane of each local variable is the variable of the scalar code for that element, the stored structs are those of the scalar code; induction over statements, inner loop, outer loop and time steps. Capacity rounded up to the arity is assumed. NBodyIron, the scalar version with accessors, is a client of the array calls (`AllPairsScalar.lean`) and computes the same. Whole benchmarks, with the choice of the capacity and the filling of the arrays, for all arguments (`NBodyBench.lean`, NBodyBronze in `Props/BronzeBench.lean`) |
| C76 | model of ConditionalUpdater on the buffer of a soa_vector: three calls of the loop peeler with a vector of counters each, `any`, `blend`, the local array and the final additions to an int; invariant: each lane is the number of hits so far (at most 2^24); induction over the inner loop, the blocks and the repetitions, and a rearrangement of the sum by lanes |
| C77 | model of ParticleInteractorGold on a soa_array: loads through operator[], `any`, scalar tests and updates in place, three passes; invariant: the array holds the list which the scalar loops have reached. Loops run with a bound on their iterations; that they end is part of the theorem, and for sizes which are no multiples of the arity no bound suffices (`Prefilter.run_never`) |
| C78 | pointer variables beside the grids of `World`; refinement: the state is that of the last other operation with the buffers permuted by `own`, and if `own` is a bijection it refines the arrays with permuted cells, so the refinement of soa_grid carries on |
| C79 | the functions of soa_grid, its functors and accessors once more (`MachGrid.lean`), with each expression evaluated by checked 64-bit operations in the order of the source; equality with the functions over unbounded integers in every state which refines arrays of cells, then induction over programs; clients which choose their calls by what they observed, and threads of such clients, by executing both versions at once (`MachAdaptive.lean`) |
| C80 | the functions of soa_vector once more (`MachVec.lean`) on top of those of `MachGrid.lean`, with checked counts and capacities; equality with `SoaVector.lean` in every state which refines the specification, then induction over programs, and composition with the refinement of lists; clients which choose their calls by what they observed, and threads of such clients, by executing both versions at once (`MachAdaptive.lean`) |
| C81 | the functions of soa_array once more (`MachArr.lean`), with checked `size_t` sums, conversions to `int` and accesses; equality with `SoaArray.lean` in every state which refines bounded lists, then induction over programs; clients which choose their calls by what they observed, and threads of such clients, by executing both versions at once (`MachAdaptive.lean`) |
| C82 | cuda_array once more (`MachCudaArr.lean`), with products of sizes modulo 2^64; equality with `CudaArray.lean` as long as requests are small, then induction over programs |
| C83 | functors as interaction trees of scalar accesses, output and vectorised loops (`Simulation.lean`), executed on memory and on plain arrays; induction over the tree, with C62's, C65's and C66's lemmas for loops; interchange of statements and particles for loops with several statements |
| C84 | the dual-grid functor of the hand-coded Jacobi example as a state machine over indices and raw bytes (`IntrinsicKernel.lean`): scalar accessor code, blocks of 8 cells in 4 registers, streaming stores, remainder loop with the code's own bounds; loop invariants give the exact effect, induction over time steps with swap; default sizes or custom ones with aligned rows |
| C85 | clients as well-founded trees of calls which branch on results (`Adaptive.lean`); a simulation of single calls is lifted to trees by induction, and used with the refinements of C14, C78, C23 and C28; the loops by induction on the number of elements left. `VecClients.lean` does the same for vectors with `VecSpec`, which also describes copies and assignments. |
| C86 | interleavings of clients at the granularity of calls (`Adaptive.lean`, `Prog.interleave`); contracts and effects are shown to be local to the containers a call reads or changes, for all four specifications (vectors have two); invariant: each thread's own copy of the abstract state agrees with the common one on all containers it may use. Why turns of whole calls suffice: `C86_grid_memory` and `C86_vector_memory` compare two runs of one call on heaps which differ in buffers of other containers, in any state; the call neither changes those buffers nor depends on them. Threads can always finish: any thread that still has calls to make may make them all without the others (`Props/Finish.lean`; for device containers `Props/DevFinish.lean`, by the predicate `Prog.Turns`). |
| C87 | vectors in device memory (`DevVec.lean`) are built from the calls of `DevGrid.lean`; the relation is that of the vectors on the host for the contents (`SoaVectorRefine.lean`), and that of device grids for the staging buffers; induction over clients and over schedules of threads. Calls which reallocate are excluded (those which throw because the traits do not support the size are not), and shown to be undefined behaviour in every state which a client can reach |
| C88 | soa_arrays on the device (`DevArr.lean`): `cudaMemcpy` as a copy of bytes, member functions as compiled with `__CUDA_ARCH__`, kernels of one thread as clients, kernels of many threads as interleavings of single accesses. Specification: bounded lists, kernels as if their threads ran one after the other (`Spec.threads`). Proof: refinement call by call; for kernels the invariant of `Props/Share.lean` twice, once for the arrays under any schedule and once for the lists under the sequential one; both end with what each thread does alone. |

## 3. Trusted base

* Lean's kernel. No `native_decide`, no `bv_decide`, no `sorry`, no axioms of our own. `#print axioms` shows for each theorem at most
  `propext`, `Classical.choice` and `Quot.sound`. `tools/axioms.sh` prints them for all theorems in the manifest.
* The reading of the C++ text into the definitions. Each cites file and lines. For `short_vec` also `tools/sv_gen.py`, whose output is
  committed and can be read next to the headers.
* Semantics of compiler intrinsics (`SV/Base.lean`), NEON and ARM assembly included, as described by the vendors.
* Standard C++: `std::copy`, `std::vector`, placement new, `new`/`delete`, `memcpy`, `std::runtime_error`, as modelled by `Mem.lean` and
  the functions which use them. CUDA runtime calls (`cudaMalloc`, `cudaMemcpy`, `cudaFree`, kernel launches) as modelled in `Cuda.lean`
  and `CudaArray.lean`.
* The specification side: `GridSpec.lean`, `SoaVectorList.lean`, the list specifications in `Props/`, `SV/Spec.lean`, `SV/Ieee.lean`.

## 4. What is modelled

| Code | Module | Remarks |
|------|--------|---------|
| `detail/offset.hpp`, `number_of_members.hpp`, `aggregated_member_size.hpp`, registration macros (`macros.hpp` 38-127, `detail/macros.hpp` 36-57) | `Layout` | members have sizes, arities, alignments |
| `member_ptr_to_offset.hpp` | `MemberPtr` | |
| `soa_accessor` as generated by `macros.hpp` (129-933), host and CUDA versions, light and full | `Accessor` | macros expanded by hand, per member loops |
| `api_traits.hpp`, size binding macros (`macros.hpp` 948-1201, `detail/macros.hpp` 316-360) | `Sizes` | |
| `detail/{construct,destroy,copy,get_instance,set_instance,load,save,set_byte_size}_functor.hpp`, `simple_streak.hpp` | `Functors` | host versions |
| same, CUDA versions, `generate_cuda_launch_config.hpp` | `Cuda` | kernels per thread |
| `soa_grid.hpp`, `detail/dual_callback_helper.hpp`, `detail/staging_buffer.hpp` | `Grid`, `World` | programs over any number of grids |
| `soa_grid.hpp` and `detail/staging_buffer.hpp` for `cuda_allocator` | `DevGrid` | programs over any number of device grids, all schedules |
| `soa_vector.hpp` for `cuda_allocator` | `DevVec` | as `DevGrid`; a `cudaMemcpy` from the host whose source is device memory is undefined behaviour unless it copies nothing; copies and assignments do not compile |
| `soa_array.hpp` in device code, and copies of its objects by `cudaMemcpy` (test/soa_array_cuda_test.cu) | `DevArr` | `cudaMalloc` succeeds; whole arrays are copied; arrays created by kernels are not modelled; memory which has been allocated, but not been written to, may not be used |
| `soa_grid.hpp`: `callback`, `get`, `set` used by several threads | `Threads` | sequentially consistent interleavings; staging buffer as shared variable |
| accessors of `soa_array` and functors on `soa_vector` used by several threads | `Share` | sequentially consistent interleavings; `get`, `set` and `pop_back` of `soa_vector` are not included: they are calls of `soa_grid::get`/`set`, for which C61 shows the race on the staging buffer |
| two-grid `callback` with vectorised user functors (examples/jacobi, examples/gauss) | `GridKernel` | one result per functor; index arithmetic of accessors in unbounded integers (C48 bounds it) |
| the same functors with `#pragma omp parallel for` over z | `OmpKernel` | steps of threads are loads of vectors and stores of elements, in any order; sequentially consistent memory, adequate as data races are excluded; the split of the loop is arbitrary |
| `compute_density_lfa` (examples/smoothed_particle_hydrodynamics/kernels.hpp:77-123), with arbitrary expressions | `PairKernel` | members of the first particle are read once per iteration; the scalar code is a list of assignments; cells in the padding are not covered |
| `handle_interactions` and `compute_accel_lfa` from the definition of the buffer on (examples/smoothed_particle_hydrodynamics/kernels.hpp:125-152, 184-240), with arbitrary structs, expressions and statements | `BufferKernel` | indices are read once per lane; the loop which sets accelerations before (kernels.hpp:170-182) is part of `Simulation` |
| `Simulate::operator()` (examples/smoothed_particle_hydrodynamics/main.cpp:232-287), loops of `compute_density_lfa` and `compute_accel_lfa` which set members (kernels.hpp:67-75, 171-182), pointers to members as arrays in kernels.c, with arbitrary scalar code | `Simulation` | scalar code is any tree of reads, writes and output; `restrict` is not modelled; expressions in loops have broadcast constants |
| `updateLine` with its kernel, launch and time steps (examples/lbm/cell.h:38-142, cudalineupdatefunctorprototype.h, util.h:82-93, update_lbm_cuda_flat_array.h:42-45), `UpdateFunctor` of JacobiD3Q7Bronze (examples/performance_tests/main.cpp:346-399), with arbitrary bodies | `LineKernel` | accesses are atomic, threads sequentially consistent (adequate because races are excluded); grids are in memory which the device can access; indices are unbounded integers (C48 bounds them) |
| `UpdateFunctor` of JacobiD3Q7Silver (examples/performance_tests/main.cpp:476-640) with time steps (main.cpp:670-674) | `IntrinsicKernel` | generic in weights, member and grids; SSE2 intrinsics act on pairs of bit patterns, streaming stores have the effect of aligned stores (the fence is implicit); the sums are written in the order in which the code adds |
| `UpdateFunctor` of JacobiD3Q7Gold (examples/performance_tests/main.cpp:705-855) with time steps (main.cpp:841-845) | `JacobiGold`, `Props/JacobiGold` | an instance of the functors of `GridKernel`: generic in weights, member, grids, sizes, target and vector type (except for those of QPX); without OpenMP, with which it does not compile (main.cpp:730) |
| `filter_functor` of the Gauss filter (examples/gauss/main.cpp:142-252) with its weights, its OpenMP loop and time steps (main.cpp:297-301) | `GaussFilter`, `Props/GaussFilter` | an instance of the functors of `GridKernel` and `OmpKernel`: generic in the values of `exp`, the member, grids, targets and arities; default sizes; `dim_y - 2` wraps around as in the code, and the theorems require `2 <= dim_y`. Proved on all targets (QPX included) without requirements on the length of rows, since rows are filtered from x = 0 on. |
| the benchmark of the Gauss filter as a whole (examples/gauss/main.cpp:272-337): construction of the grids, `init`, `sum`, consistency check, time steps | `GaussBench`, `Props/GaussBench` | without and with OpenMP (`bench`, `benchPar`); output, timing and destruction of the grids are omitted; the loops of `init` wrap around as in the code, and the theorem requires at least four rows and planes |
| ParticleMoverGold (examples/performance_tests/main.cpp:1992-2076): loops, comparisons, push_back, swap, clear, time steps | `Mover` | generic in the struct, the member which is compared and the update of the boundary; the arrays are four slots of `SoaArray`; output of the benchmark is not modelled |
| NBodySilver, NBodyGold, NBodyIron (examples/performance_tests/main.cpp:1645-1726, 1764-1845, 1374-1466): loops, accessors, statements, swap, time steps | `AllPairs`, `Props/AllPairsScalar` | generic in the struct, the capacity, the vector type and the statements before, in and after the inner loop; filling the arrays and the choice of the capacity are in `NBodyBench`, with any function which yields the particles; time measurement and output are not modelled; NBodyBronze by its loop bound only (its intrinsics are those of the vector type) |
| ConditionalUpdater (examples/performance_tests/main.cpp:2355-2415, 2451): loop peeler, inner loop, comparison, `any`, `blend`, counters, repetitions | `Tally` | generic in the struct, the test, the vector type and the counter type of the loops; `float` only. `int(x)` out of range is unspecified instead of undefined |
| ParticleInteractorGold (examples/performance_tests/main.cpp:2199-2278): three passes over all pairs, vectors as filter, scalar test and update | `Prefilter` | generic in the struct, the test, the updates, the vector type and the number of passes; scalar expressions are not contracted |
| clients of soa_grid, soa_array and soa_vector that branch on results, and several such clients in threads | `Adaptive` | any well-founded tree of calls; threads take turns at calls, not at memory accesses; clients that do not terminate are not modelled |
| `data()`, `set_data()` of soa_grid (soa_grid.hpp:353-366) | `DataPtr` | pointers are null or buffers of grids; memory which the program allocates itself is not modelled |
| `soa_grid.hpp`, accessors and functors in 64-bit arithmetic | `MachGrid` | an overflow, a wrapped size or a pointer outside of its buffer ends the program; alignment and aliasing are not modelled; loop counters are those of the unbounded model |
| `soa_vector.hpp` in 64-bit arithmetic | `MachVec` | as `MachGrid`; a count which would wrap ends the program; the growth factor is rounded as in `SoaVector` |
| `soa_array.hpp` in 64-bit arithmetic, 32-bit `int` | `MachArr` | as `MachGrid`; capacities are positive |
| `soa_grid.hpp` with members which throw (non-trivial types; destructors do not throw) | `Throwing` | one exception per operation; elements of the `get`/`save` target are not part of the state |
| `soa_array.hpp` with members which throw | `ThrowingArray` | one exception per operation; elements of the `get`/`save` target are not part of the state |
| `soa_vector.hpp` with members which throw | `ThrowingVector` | one exception per operation; `T()` in `pop_back` does not throw; the target of `get` is not part of the state |
| `soa_grid.hpp`, `soa_vector.hpp` if `allocate` throws | `OutOfMemory` | members do not throw in the same run; `cuda_array` and device grids are treated elsewhere |
| `testbed/cpu_benchmark.hpp`, `testbed/evaluate.hpp` | `Testbed` | not on Windows; `popen`, files, host name, date and the text of a double are inputs; streams have default flags and fill characters |
| `benchmark::time` (testbed/benchmark.hpp) | `Clock` | not on Windows; `gettimeofday` is an input; no fused multiply-add |
| `soa_array.hpp`, `detail/soa_array_member_copy_helper.hpp`, `detail/generic_destruct.hpp` | `SoaArray` | programs over any number of arrays |
| `soa_vector.hpp` | `SoaVector` | programs over any number of vectors |
| `aligned_allocator.hpp` | `AlignedAlloc` | addresses and header words, modulo 2^64 |
| `cuda_array.hpp`, `cuda_allocator.hpp`, `detail/init_kernel.hpp` | `CudaArray` | |
| `cuda_array.hpp`, `cuda_allocator.hpp` in 64-bit arithmetic | `MachCudaArr` | as `CudaArray`; bytes behind the last whole element of a chunk are not modelled |
| `loop_peeler.hpp` | `LoopPeeler`, `LoopPeelerFn` | both macros; the function template with three integer types and the usual arithmetic conversions |
| `preprocessor.hpp`, `detail/preprocessor.hpp` | `Preproc` | expansion of token lists |
| `ilp_to_arity.hpp`, `estimate_optimum_short_vec_type.hpp`, `detail/streaming_short_vec_switch.hpp`, `alignment.hpp` | `Machine`, `SV/Targets` | |
| `short_vec.hpp`, `streaming_short_vec.hpp`, all `detail/short_vec_*.hpp`, `detail/sqrt_reference.hpp` | `SV/*` | 13 targets |

Not modelled: `detail/sibling_short_vec_switch.hpp` and `short_vec_base.hpp` (types only), `flat_array.hpp`, `coord.hpp` (includes and template
parameters), `printf`-style details of number formatting (a printed lane is a token), `std::initializer_list` versions beyond their
pointers, compile-time errors except where a property speaks of them (C50, C58), threads which use one container while another thread changes it, exceptions thrown
by members of containers in device memory, build scripts and tests.

Simplifications, all repeated at the definitions concerned:

* Copying a member object is one step; constructors and assignments of members do not throw, except in `Throwing`, `ThrowingArray` and `ThrowingVector`.
* Host memory allocation never fails, except where stated (`cuda_array`, `resize` with rejected dims) and in `OutOfMemory`.
* Threads of one kernel run one after the other in an arbitrary order (justified by C53).
* Device memory: `cudaMalloc` may return any unused address, and fresh memory may contain anything; device grids are assumed not to run
  out of memory, except in `Props/DevOom.lean`, where allocations of the grids' buffers may fail (those of staging buffers do not).
* Uninitialised registers read as zero; shifts of masks into the sign bit wrap around.
* Left shifts and conversions which need 64 bits assume LP64, as does the code.

## 5. Where the code disagrees with a property

Each has a theorem `Cnn_false…` about the model, with a concrete witness or for a whole class of inputs.

| Id | Disagreement |
|----|------|
| C05 | `member_ptr_to_offset` returns `int` |
| C08, C14, C15, C20, C21 | a default constructed `soa_grid` has no extents and no byte size; copying it reads these, assigning it throws for cells without custom sizes (`resize(0, 0, 0)` is rejected) and the target is broken as in C18; dual callbacks do not run on empty grids (C21) (soa_grid.hpp:87-117, api_traits.hpp:137-257) |
| C16 | `soa_grid(const soa_grid&)` never sets the extents (soa_grid.hpp:96-105) |
| C17 | `swap` exchanges `my_dim_x` only; later in-range accesses are out of bounds (soa_grid.hpp:119-132) |
| C18 | a rejected `resize` leaves a dangling pointer; destruction terminates or frees twice (soa_grid.hpp:134-158) |
| C24 | `load(…, num, offset)` checks `num + offset` modulo 2^64 |
| C25 | `soa_array(n, value)` does not check `n` |
| C27, C51 | copies and swaps of equal `soa_array` types move bytes, also of non-trivial members |
| C28, C33 | elements added by `soa_vector::resize`/`push_back` are not constructed |
| C29 | growth by a factor of 1.2 rounds down to nothing for sizes below five |
| C30 | `reserve` below the size copies all elements into a smaller buffer |
| C31, C32 | elements in the padding count for `size()` but not for `capacity()`, copies lose them |
| C34 | 2D and 3D size traits: elements are addressed with the wrong stride |
| C35 | alignments other than four and the multiples of eight: header word overlaps or is misplaced |
| C36 | the size of a request wraps around |
| C37 | ranges without a multiple of the arity are overrun, negative start indices round to the wrong side; the function template skips ranges below zero if the counter is signed and the end unsigned |
| C38, C39 | launches beyond hardware limits start no thread, and nobody looks at the error |
| C40 | `broadcast` on the device writes to the first cell only |
| C41 | `init_kernel` uses `int`; empty `std::vector`; failing allocations |
| C44, C54 | QPX: `operator*=` adds |
| C45 | NEON: `operator==` compares by less-than, `operator<=` compares absolute values |
| C46 | gather/scatter: offsets must be aligned on AVX512 and MIC, negative offsets fail with `INSERT_PS`; `store_nt` on 64 bit NEON; QPX truncates addresses |
| C47, C54 | integer division through `float`: wrong above 2^24, `/=` rounds to nearest |
| C49 | `soa_array` of odd capacity and over-aligned members of 1D grids are misaligned |
| C50 | `ilp_to_arity` does not compile for QPX and MIC |
| C52 | a throwing converting constructor of `soa_array` leaks |
| C53 | `broadcast` on the device: all threads write to the first cell, the same values |
| C55 | `alignment` is 32 for MIC and 16 for NEON, accesses need 64 and up to 128 |
| C56 | vectorized `float` division is approximate on AVX, AVX512, MIC and NEON, peeled iterations are exact |
| C57 | QPX: `short_vec<double, 32>` prints a stray bracket |
| C58 | QPX lacks `short_vec<float, 32>` |
| C59 | integer square roots: truncated by scalar classes, rounded by vector classes |
| C60 | device `get` replaces the whole target struct; `set` of one struct to a row reaches one cell; failing allocations are not noticed (cuda_allocator.hpp:49-54); copy construction and assignment of device grids do not compile (soa_grid.hpp:172-184, 468-471) |
| C61 | `get` (a const member) and `set` store a pointer to their argument in a member of the grid (soa_grid.hpp:189-190, 217-218): concurrent calls race |
| C62 | ranges along x without a multiple of the arity are overrun (C37); `streaming_short_vec::store` and `store_aligned` need row starts which are aligned, but some default extents (136, 200, 264, … in cubes) are multiples of 8 only. `operator<<` of streaming_short_vec.hpp:86-91 can never be selected (`int ARITY` is not deducible from a `std::size_t` parameter), so `&member << vec` stores without streaming; the loop of JacobiD3Q7Gold (examples/performance_tests/main.cpp:777-790) leaves out the cell itself, which the scalar code weights by 0.20 (`C62_false_gold`); with custom sizes the arrays of a member may start at addresses which are no multiples of its size (`C62_false_sizes`) |
| C63 | `init` (soa_grid.hpp:453-456) runs in constructors and in `resize` without any provision for exceptions: if a member constructor throws, constructors leak the buffer (and the objects constructed so far), while `resize` leaves dimensions and buffer of which only some objects exist, so that the destructor runs into objects which do not |
| C64 | functors which read, from the grid they write, slices other than their own: fine with one thread if those slices come later, a data race with several (not a fault of the library, which cannot know) |
| C65 | the range of the inner loop of the particle simulation begins at `i + 1`, hence for the last `n % ARITY` particles it contains no multiple of the arity and is overrun (C37): these particles interact with cells which are not among the `n` (examples/smoothed_particle_hydrodynamics/kernels.hpp:90-93, 199-201). In a grid with exactly `n` cells these are padding cells, whose members are zero |
| C66 | the same for compute_accel_lfa (examples/smoothed_particle_hydrodynamics/kernels.hpp:199-201) |
| C67 | `updateLine` takes accessors by value and moves the originals (examples/lbm/cell.h:41-47); `planeSizeNew` uses the width of the old grid (cell.h:49); `gen_dims` covers y-coordinates up to dim + 1 (examples/lbm/util.h:92, cell.h:43-44); the loop over rows starts the second accessor at the index of the first one (examples/performance_tests/main.cpp:364-369) |
| C68 | constructors of `soa_array` (soa_array.hpp:60-88) have no provision for exceptions of members: the members constructed so far are never destroyed (the array itself is inside of the object, but whatever its members own is lost) |
| C68 | `soa_vector::reserve` (soa_vector.hpp:111-125): the constructor of `new_grid` leaks its buffer if a member throws; its `resize` to the full extent constructs all members for a second time, and if that throws the destructor of `new_grid` destroys members which have not been constructed; `push_back` and `resize` inherit this |
| C68 | the implicit `operator=` of `soa_vector` assigns to the grid first: after an exception the vector may have more elements than its capacity, e.g. seven in a vector of five |
| C69 | `soa_grid::resize` (soa_grid.hpp:134-158) frees the old buffer and sets the new dimensions before it allocates, `my_data` still refers to the freed buffer: if the allocation fails then the destructor (or the next `resize`) accesses freed memory. `operator=` calls `resize`. A default constructed grid has no old buffer, but a second `resize` to the same dimensions returns at once, without memory |
| C69 | `soa_vector::reserve` (soa_vector.hpp:111-125) allocates twice; if the second allocation fails then the destructor of `new_grid` accesses freed memory during unwinding |
| C71 | `parse_proc_cpu` (testbed/cpu_benchmark.hpp:58-59) reads `tokens[0]` of an empty vector if there is an empty line in front of the entry: /proc/cpuinfo of ARM CPUs (no entry `model name`, an empty line behind each core). An entry without value: `tokens[1]` or `buf[buf.size() - 1]` out of bounds (cpu_benchmark.hpp:62, 66-68) |
| C71 | the entry `cpu\t\t: POWER8` has two tabs: `fields` has two elements and the entry is skipped (cpu_benchmark.hpp:61); a model name with a colon is cut (cpu_benchmark.hpp:58) |
| C71 | `parse_likwid_topology` dereferences the end of `tokens` if the words are in the last cell (cpu_benchmark.hpp:97-102) |
| C72 | `evaluate` reads `dim[0]` of an empty vector (testbed/evaluate.hpp:115); texts with semicolons shift the columns |
| C74 | `boundaryVec` is set once, before the time steps, while `boundary` alternates (examples/performance_tests/main.cpp:1992-2076): from the second step on the vectors are compared to the old boundary; the loops run over whole vectors and move elements beyond the end of the lists |
| C75 | the outer loop of NBodyBronze ends at `numParticles - 7` (examples/performance_tests/main.cpp:1530): the last `n % 8` particles are not updated, they alternate between the old contents of the two arrays |
| C76 | counters are lanes of `short_vec<float, 16>` (examples/performance_tests/main.cpp:2389-2401), so a lane stops counting at 2^24: with 11592 elements which all interact (arity 8) pairs are missing |
| C77 | `j != particles.size(); j += 8` (examples/performance_tests/main.cpp:2205, 2231, 2257) is never false at the end of a list whose size is no multiple of 8: the loop leaves the array or does not end |
| C82 | `n * sizeof(ELEMENT_TYPE)` (cuda_allocator.hpp:52, cuda_array.hpp:159-162) wraps around for 2^64 bytes and more, which nobody notices |
| C83 | as C65 and C66: for numbers of particles which are no multiples of the arity, the last particles interact with particles which don't exist |
| C84 | the block formula lacks the summand of the cell itself (WEIGHT_C, 0.20), so that vector and scalar cells follow different formulas; the remainder loop stops one cell early, so the last inner cell of a row is not updated unless the row length is 3 modulo 8 |
| C87 | `soa_vector::reserve` (soa_vector.hpp:123) passes `grid.data()` to `load`, which copies it with `cudaMemcpyHostToDevice` (soa_grid.hpp:284-299, cuda_array.hpp:149-152): for vectors in device memory the source is a device pointer; so `reserve`, `resize` beyond the capacity and `push_back` on a full buffer never work. The constructor with a value sets one element (as C60) |
| C88 | `operator<<` and `pop_back` of soa_array check the size only unless `__CUDA_ARCH__` is defined (soa_array.hpp:162-166, 235-239), so in kernels they overrun the storage, or make the size 2^64 - 1; `load` and `copy_in` (soa_array.hpp:189-191, 287-289) are declared for devices, but throw, so that they do not compile there |
