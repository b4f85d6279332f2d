{"id": "C01", "title": "Member storage is in bounds and never aliases", "statement": "For any registered struct (any list of scalar and array members) and any padded extents, the storage that the accessor hands out for member m, array element k of cell index i lies completely inside the buffer of byte_size() bytes, and the storage of two different (cell, member, array element) triples never shares a byte.", "quantifier": "every member list (sizes, arities), every extents triple, every pair of cell indices / members / array elements", "why_tests_cant": "member lists, types and extents are template parameters: a test instantiates a handful of structs and sizes and samples a few cells", "anchors": ["include/libflatarray/detail/macros.hpp:LIBFLATARRAY_DECLARE_SOA_MEMBER", "include/libflatarray/detail/macros.hpp:LIBFLATARRAY_DEFINE_FIELD_OFFSET", "include/libflatarray/macros.hpp:soa_accessor", "include/libflatarray/aggregated_member_size.hpp"]}
{"id": "C02", "title": "Coordinates map to distinct cell indices", "statement": "gen_index maps different coordinates inside the padded extents to different cell indices smaller than extent_x*extent_y*extent_z; consecutive x are consecutive indices.", "quantifier": "every extents triple and every pair of in-range coordinates", "why_tests_cant": "coordinate pairs are unbounded; tests sample a few corners", "anchors": ["include/libflatarray/macros.hpp:gen_index"]}
{"id": "C03", "title": "Static neighbour access is a coordinate shift and composes", "statement": "accessor[coord<X,Y,Z>()] denotes exactly the members of the cell at the shifted coordinate whenever that coordinate is inside the padded extents, for negative offsets too; chaining two neighbour accesses equals one access with the summed offset.", "quantifier": "every extents triple, every base coordinate, every (possibly negative) neighbour offset triple", "why_tests_cant": "offsets are compile-time template arguments, each one a separate instantiation", "anchors": ["include/libflatarray/detail/macros.hpp:LIBFLATARRAY_INDEX", "include/libflatarray/macros.hpp:soa_accessor::operator[]", "include/libflatarray/coord.hpp"]}
{"id": "C04", "title": "Array members: runtime and compile-time element access agree", "statement": "For every array member, m()[k] and the compile-time access m<k>() denote the same storage, and elements k of neighbouring x cells are contiguous in memory (unit stride).", "quantifier": "every member list, array arity, element index, extents and cell index", "why_tests_cant": "arity and index are template parameters", "anchors": ["include/libflatarray/detail/soa_array_member_copy_helper.hpp:reference", "include/libflatarray/detail/macros.hpp:LIBFLATARRAY_DECLARE_SOA_MEMBER_ARRAY"]}
{"id": "C05", "title": "member_ptr_to_offset resolves every registered member and rejects all others", "statement": "member_ptr_to_offset returns, for every registered member, the sum of the sizes of the members registered before it (so access_member with that offset denotes that member), and throws invalid_argument for a pointer to a member that was not registered.", "quantifier": "every member list, every member pointer, registered or not", "why_tests_cant": "recursion over an arbitrary member list; a test uses one struct", "anchors": ["include/libflatarray/detail/offset.hpp", "include/libflatarray/member_ptr_to_offset.hpp", "include/libflatarray/detail/macros.hpp:LIBFLATARRAY_DEFINE_FIELD_OFFSET"]}
{"id": "C06", "title": "Size selection picks the smallest available size that fits", "statement": "For ascending size lists, select_sizes runs the functor with, per axis (or for the uniform variants commonly for the used axes), the smallest listed size that is at least the requested dimension, and throws out_of_range exactly if no listed size is large enough (or an unused axis is not 1). It never silently clips.", "quantifier": "every ascending size list per axis, every requested dimension triple, all four selection schemes (custom, 1D, 2D, 3D uniform)", "why_tests_cant": "dimension space is unbounded; tests probe few sizes", "anchors": ["include/libflatarray/macros.hpp:LIBFLATARRAY_CUSTOM_SIZES", "include/libflatarray/macros.hpp:LIBFLATARRAY_CUSTOM_SIZES_1D_UNIFORM", "include/libflatarray/detail/macros.hpp:LIBFLATARRAY_CASE_DIM_X"]}
{"id": "C07", "title": "Default size dispatch accepts exactly the documented grids", "statement": "With default traits, a grid of dimensions (x,y,z) is accepted iff it is 1D (y=z=1, x up to 1073741856), 2D (y>1, z=1, max(x,y) up to 32800) or 3D (y>1, z>1, max up to 1032); everything else throws out_of_range; the extents returned are multiples of 8 in each used axis.", "quantifier": "every dimension triple", "why_tests_cant": "the boundary set of a three-dimensional unbounded input space cannot be enumerated", "anchors": ["include/libflatarray/api_traits.hpp:select_sizes", "include/libflatarray/api_traits.hpp:has_default_1d_sizes"]}
{"id": "C08", "title": "Reported extents and byte size bound the dimensions", "statement": "After successful construction or resize, dim_x/y/z are the requested ones, extent_x/y/z >= dim_x/y/z, byte_size() = extent_x*extent_y*extent_z*aggregated_member_size and the allocated buffer has exactly byte_size() bytes.", "quantifier": "every member list, every dimension triple, every history of construct/resize/assign", "why_tests_cant": "unbounded dims and histories", "anchors": ["include/libflatarray/soa_grid.hpp:resize", "include/libflatarray/detail/set_byte_size_functor.hpp"]}
{"id": "C09", "title": "get returns what set stored and set touches nothing else", "statement": "After g.set(x,y,z,c), g.get(x,y,z) equals c in every registered member and array element, and g.get at any other coordinate returns what it returned before; no access is undefined behaviour.", "quantifier": "every member list, every grid dims, every coordinate pair inside the dims, every cell value, every prior state of a valid grid", "why_tests_cant": "tests write a few cells with a few values", "anchors": ["include/libflatarray/soa_grid.hpp:set", "include/libflatarray/soa_grid.hpp:get", "include/libflatarray/detail/set_instance_functor.hpp", "include/libflatarray/detail/get_instance_functor.hpp"]}
{"id": "C10", "title": "Bulk set/get equal the sequence of single accesses", "statement": "set(x,y,z,cells,count) followed by get(x,y,z,buf,count) returns the cells in order; bulk set equals count single sets at x, x+1, ...; bulk get equals count single gets; cells outside the row segment are unchanged, as long as the segment stays inside the row.", "quantifier": "every count, coordinates, cell arrays, prior states", "why_tests_cant": "unbounded count and states", "anchors": ["include/libflatarray/soa_grid.hpp:set", "include/libflatarray/detail/set_instance_functor.hpp", "include/libflatarray/detail/get_instance_functor.hpp"]}
{"id": "C11", "title": "broadcast fills exactly the requested row segment", "statement": "broadcast(x,y,z,c,count) makes cells x..x+count-1 of the row equal to c and changes no other cell.", "quantifier": "every count, coordinates, cells, prior states", "why_tests_cant": "unbounded count and states", "anchors": ["include/libflatarray/soa_grid.hpp:broadcast", "include/libflatarray/detail/set_instance_functor.hpp"]}
{"id": "C12", "title": "save then load restores the cells; raw format is a packed SoA", "statement": "save(x,y,z,buf,count) writes into buf a packed struct of arrays (per member, per array element, count consecutive values) using exactly count*aggregated_member_size bytes; load of such a buffer into any grid (possibly of other extents) at any row position makes those cells equal to the saved ones and changes no other cell.", "quantifier": "every member list, two grids with arbitrary extents, positions, counts, states", "why_tests_cant": "product of two unbounded state spaces", "anchors": ["include/libflatarray/soa_grid.hpp:load", "include/libflatarray/soa_grid.hpp:save", "include/libflatarray/detail/macros.hpp:LIBFLATARRAY_COPY_SOA_MEMBER_ARRAY_IN"]}
{"id": "C13", "title": "Multi-streak load/save visit the streaks in order with running offsets", "statement": "For any list of streaks with total length count, save(begin,end,buf,count) packs the streaks one after the other and load(begin,end,buf,count) restores them: saving from one grid and loading with the same streaks into another reproduces every covered cell and leaves the rest unchanged.", "quantifier": "every list of streaks of any lengths, every state", "why_tests_cant": "unbounded list of streaks", "anchors": ["include/libflatarray/detail/load_functor.hpp", "include/libflatarray/detail/save_functor.hpp", "include/libflatarray/detail/simple_streak.hpp"]}
{"id": "C14", "title": "Every history of grid operations behaves like a plain 3D array of structs", "statement": "For every finite sequence of in-range set/get/bulk/broadcast/load/save/resize/assign operations, the values returned are those of a plain map from coordinates to structs where resize to new dims resets to default cells; no operation causes undefined behaviour.", "quantifier": "every operation sequence of any length, every member list, every dims", "why_tests_cant": "histories are unbounded", "anchors": ["include/libflatarray/soa_grid.hpp"]}
{"id": "C15", "title": "Copies are equal and independent", "statement": "A copy-constructed grid and an assigned grid have the same dims and cells as the source; afterwards writes to either are not visible in the other.", "quantifier": "every source state, target state and subsequent writes", "why_tests_cant": "unbounded states and histories", "anchors": ["include/libflatarray/soa_grid.hpp:soa_grid(const soa_grid&)", "include/libflatarray/soa_grid.hpp:operator=", "include/libflatarray/detail/copy_functor.hpp"]}
{"id": "C16", "title": "A copied grid reports the extents of its source", "statement": "After soa_grid b(a), b.extent_x()/extent_y()/extent_z() equal those of a.", "quantifier": "every source grid", "why_tests_cant": "reading uninitialised members often yields plausible values in a test run", "anchors": ["include/libflatarray/soa_grid.hpp:soa_grid(const soa_grid&)"]}
{"id": "C17", "title": "swap exchanges two grids completely", "statement": "After a.swap(b), a has the dims, extents and cells b had and vice versa.", "quantifier": "every pair of grids of any dims", "why_tests_cant": "a test with equal y/z dims cannot see that only x is swapped", "anchors": ["include/libflatarray/soa_grid.hpp:swap"]}
{"id": "C18", "title": "resize that fails leaves a usable grid", "statement": "If resize throws because no size fits, the grid is still valid: it can be destroyed, its old dims or an empty grid are reported and no freed memory is referenced.", "quantifier": "every grid state, every too-large dims request", "why_tests_cant": "the failure shows only in later heap corruption", "anchors": ["include/libflatarray/soa_grid.hpp:resize", "include/libflatarray/soa_grid.hpp:destroy_and_deallocate"]}
{"id": "C19", "title": "resize resets to default cells, or is a no-op for equal dims", "statement": "resize to the current dims changes nothing; resize to other accepted dims yields a grid whose every in-range cell is default constructed.", "quantifier": "every state and dims pair", "why_tests_cant": "unbounded dims", "anchors": ["include/libflatarray/soa_grid.hpp:resize", "include/libflatarray/detail/construct_functor.hpp"]}
{"id": "C20", "title": "Member objects are constructed once, destroyed once, and buffers freed once", "statement": "Over any history of grid operations ending in destruction, every member object of every cell is constructed exactly once before any use, destroyed exactly once and never used after; every allocated buffer is freed exactly once with no live non-trivial object left inside.", "quantifier": "every history, member list with non-trivial types, dims", "why_tests_cant": "leaks and double destruction depend on whole histories", "anchors": ["include/libflatarray/detail/construct_functor.hpp", "include/libflatarray/detail/destroy_functor.hpp", "include/libflatarray/detail/generic_destruct.hpp", "include/libflatarray/soa_grid.hpp:destroy_and_deallocate"]}
{"id": "C21", "title": "Dual callback rejects grids of different dims", "statement": "With symmetric dual callback (default), grid.callback(&other, f) runs f with accessors of the same extents on both buffers iff dims are equal, otherwise throws invalid_argument without running f.", "quantifier": "every pair of dims", "why_tests_cant": "unbounded pairs of dims", "anchors": ["include/libflatarray/soa_grid.hpp:dual_callback", "include/libflatarray/soa_grid.hpp:assert_same_grid_sizes", "include/libflatarray/detail/dual_callback_helper.hpp"]}
{"id": "C22", "title": "Writes through accessors to different targets commute", "statement": "Any set of writes through accessors to pairwise different (cell, member, element) targets gives the same final grid under every execution order: parallel loops over cells are deterministic.", "quantifier": "every schedule (permutation) of every finite set of writes", "why_tests_cant": "schedules cannot be enumerated", "anchors": ["include/libflatarray/macros.hpp:soa_accessor", "include/libflatarray/detail/macros.hpp:LIBFLATARRAY_DECLARE_SOA_MEMBER"]}
{"id": "C23", "title": "soa_array behaves like a bounded list", "statement": "For every sequence of push_back/<</pop_back/clear/[]-write/[]-read/back/copy/load operations with in-range indices a soa_array<T,N> returns what a list of at most N elements returns, and no undefined behaviour occurs.", "quantifier": "every capacity, member list and operation sequence", "why_tests_cant": "histories are unbounded", "anchors": ["include/libflatarray/soa_array.hpp"]}
{"id": "C24", "title": "soa_array capacity errors throw and change nothing", "statement": "push_back on a full array, pop_back on an empty one, load or copy of more elements than capacity throw out_of_range and leave size and contents unchanged.", "quantifier": "every state, every count/offset", "why_tests_cant": "unbounded counts, including wrap-around of size_t sums", "anchors": ["include/libflatarray/soa_array.hpp:operator<<", "include/libflatarray/soa_array.hpp:load", "include/libflatarray/soa_array.hpp:pop_back", "include/libflatarray/soa_array.hpp:copy_in"]}
{"id": "C25", "title": "soa_array(n, value) yields n copies or fails cleanly", "statement": "Constructing soa_array<T,N>(n, v) yields size n with all elements v, or throws if n exceeds the capacity N.", "quantifier": "every n, N, v", "why_tests_cant": "out-of-bounds writes into neighbouring memory go unnoticed in tests", "anchors": ["include/libflatarray/soa_array.hpp:soa_array(std::size_t, const T&)"]}
{"id": "C26", "title": "Copy between soa_arrays of different capacity preserves the sequence", "statement": "Copying or assigning a soa_array of another capacity (or a mutable one of the same capacity) whose size fits yields the same sequence of elements; load(accessor, num, offset) places the num source elements at offset.. and keeps the others.", "quantifier": "every pair of capacities, every sequences, offsets", "why_tests_cant": "capacities are template parameters", "anchors": ["include/libflatarray/soa_array.hpp:copy_in", "include/libflatarray/soa_array.hpp:load"]}
{"id": "C27", "title": "Copying a soa_array copies member objects, not bytes", "statement": "Copy construction from a const soa_array of the same type runs the members' copy operations, so that structs with non-trivial members are duplicated correctly and destroyed independently.", "quantifier": "every member list incl. non-trivial members, every content", "why_tests_cant": "double destruction depends on member types and constness of the source, not on values", "anchors": ["include/libflatarray/soa_array.hpp:soa_array(const soa_array<value_type, OTHER_SIZE>&)"]}
{"id": "C28", "title": "soa_vector behaves like std::vector", "statement": "For every sequence of push_back/emplace_back/pop_back (non-empty)/set/get (in range)/clear/resize/reserve (growing) operations, size() and all element values equal those of a list of structs.", "quantifier": "every operation sequence, every member list, default sizes", "why_tests_cant": "histories are unbounded; reallocation happens at padded sizes far apart", "anchors": ["include/libflatarray/soa_vector.hpp"]}
{"id": "C29", "title": "push_back always finds room", "statement": "After push_back the pushed element is within the allocated extent: the 1.2x growth strictly increases the extent until the maximum size, at which out_of_range is thrown instead of writing out of bounds.", "quantifier": "every element count up to the largest supported size", "why_tests_cant": "growth is evaluated in double arithmetic for up to 10^9 different counts", "anchors": ["include/libflatarray/soa_vector.hpp:push_back", "include/libflatarray/soa_vector.hpp:reserve"]}
{"id": "C30", "title": "reserve never loses or corrupts elements", "statement": "reserve(n) for any n leaves size() and all elements unchanged and causes no undefined behaviour.", "quantifier": "every n, every vector state", "why_tests_cant": "heap overruns of a shrinking reserve depend on allocator padding", "anchors": ["include/libflatarray/soa_vector.hpp:reserve"]}
{"id": "C31", "title": "size() never exceeds capacity()", "statement": "At every point of every history size() <= capacity().", "quantifier": "every history", "why_tests_cant": "unbounded histories", "anchors": ["include/libflatarray/soa_vector.hpp:capacity", "include/libflatarray/soa_vector.hpp:push_back"]}
{"id": "C32", "title": "Copying a soa_vector preserves its elements", "statement": "A copy-constructed or assigned soa_vector has the same size and elements as its source.", "quantifier": "every history that built the source", "why_tests_cant": "depends on whether the source was grown by push_back within the padding", "anchors": ["include/libflatarray/soa_vector.hpp", "include/libflatarray/soa_grid.hpp:soa_grid(const soa_grid&)"]}
{"id": "C33", "title": "soa_vector elements are live objects", "statement": "For structs with non-trivial members, every assignment made by push_back, set, pop_back and reserve hits a constructed object, and all of them are destroyed before the buffer is released.", "quantifier": "every history, non-trivial member types", "why_tests_cant": "undefined behaviour on raw memory is silent for most types", "anchors": ["include/libflatarray/soa_vector.hpp:push_back", "include/libflatarray/detail/construct_functor.hpp"]}
{"id": "C34", "title": "soa_vector works with any size traits", "statement": "soa_vector behaves like std::vector also for value types which define custom grid sizes (uniform 3D or custom lists).", "quantifier": "every accepted size list", "why_tests_cant": "size lists are template parameters", "anchors": ["include/libflatarray/soa_vector.hpp:reserve", "include/libflatarray/api_traits.hpp"]}
{"id": "C35", "title": "aligned_allocator returns aligned, in-bounds, recoverable blocks", "statement": "For every n, alignment and address returned by the underlying allocator, allocate(n) returns a multiple of ALIGNMENT, the n objects and the hidden bookkeeping pointer lie inside the underlying chunk without overlapping, and deallocate frees exactly the chunk obtained.", "quantifier": "every ALIGNMENT, element size, n, chunk address", "why_tests_cant": "chunk addresses are chosen by the system", "anchors": ["include/libflatarray/aligned_allocator.hpp:allocate", "include/libflatarray/aligned_allocator.hpp:deallocate"]}
{"id": "C36", "title": "aligned_allocator rejects requests that overflow", "statement": "If n*sizeof(T) plus bookkeeping does not fit in size_t, allocate throws rather than returning a smaller block.", "quantifier": "every n up to 2^64-1", "why_tests_cant": "needs gigantic n", "anchors": ["include/libflatarray/aligned_allocator.hpp:upsize"]}
{"id": "C37", "title": "loop_peeler covers each index of [x, end) exactly once", "statement": "For every start x and end, LIBFLATARRAY_LOOP_PEELER / loop_peeler visit every index in [x,end) exactly once and no other index, in ascending order; the vector body is only called for indices that are multiples of the arity; afterwards x == end.", "quantifier": "every x, end, arity", "why_tests_cant": "boundary combinations are unbounded", "anchors": ["include/libflatarray/loop_peeler.hpp"]}
{"id": "C38", "title": "CUDA launch configuration covers every cell exactly once", "statement": "For every dims the generated grid and block dims together with the kernels' bounds checks start exactly one active thread per cell.", "quantifier": "every dims triple", "why_tests_cant": "thread counts and dims are unbounded, needs a GPU", "anchors": ["include/libflatarray/detail/generate_cuda_launch_config.hpp", "include/libflatarray/detail/construct_functor.hpp:construct_kernel"]}
{"id": "C39", "title": "CUDA functors compute the same result as host functors under every thread schedule", "statement": "construct, destroy, set, get, load and save executed by CUDA threads in any order leave memory in the same state as the sequential host functors.", "quantifier": "every thread schedule, every member list, dims and arguments", "why_tests_cant": "schedules cannot be enumerated", "anchors": ["include/libflatarray/detail/set_instance_functor.hpp:set_kernel", "include/libflatarray/detail/get_instance_functor.hpp:get_kernel", "include/libflatarray/detail/load_functor.hpp:load_kernel", "include/libflatarray/detail/save_functor.hpp:save_kernel"]}
{"id": "C40", "title": "CUDA broadcast equals host broadcast", "statement": "broadcast on a grid with USE_CUDA_FUNCTORS sets all count cells to the given cell.", "quantifier": "every count, position, cell", "why_tests_cant": "needs a GPU", "anchors": ["include/libflatarray/detail/set_instance_functor.hpp:set_kernel"]}
{"id": "C41", "title": "cuda_array behaves like a resizable device vector", "statement": "For every sequence of construct/copy/assign/resize/reserve/load/save/swap operations cuda_array keeps the first min(old,new) elements on resize and reserve, size()<=capacity(), and save returns what load and fill values stored.", "quantifier": "every operation sequence", "why_tests_cant": "histories are unbounded, needs a GPU", "anchors": ["include/libflatarray/cuda_array.hpp"]}
{"id": "C42", "title": "Preprocessor list macros implement list operations", "statement": "LIBFLATARRAY_SIZE, LIBFLATARRAY_ELEM, LIBFLATARRAY_FOR_EACH and LIBFLATARRAY_IF_SHORTER applied to a sequence of up to 51 items yield its length, its n-th item, all items with their indices in order, and the comparison with a length.", "quantifier": "every sequence of supported length and every index", "why_tests_cant": "items are arbitrary token sequences", "anchors": ["include/libflatarray/detail/preprocessor.hpp", "include/libflatarray/preprocessor.hpp"]}
{"id": "C43", "title": "count_mask counts the selected lanes", "statement": "count_mask(mask) equals the number of lanes whose comparison was true; any(mask) is true iff it is non-zero; get(mask, i) is true iff lane i was selected.", "quantifier": "every mask value, every arity", "why_tests_cant": "mask space grows as 2^arity", "anchors": ["include/libflatarray/short_vec.hpp:count_mask", "include/libflatarray/short_vec.hpp:any", "include/libflatarray/short_vec.hpp:get"]}
{"id": "C44", "title": "short_vec arithmetic is lane-wise for every implementation", "statement": "For every cargo type, arity and ISA implementation, +,-,*,/ (and the assigning forms) of two short_vecs compute lane i of the result from lane i of the operands with the ISA's scalar operation, and nothing else.", "quantifier": "every lane value, every arity and ISA variant", "why_tests_cant": "a copy/paste slip in one lane of one of some sixty implementations is only seen when that lane holds a distinguishing value on that ISA", "anchors": ["include/libflatarray/detail/short_vec_scalar_float_4.hpp", "include/libflatarray/detail/short_vec_sse_float_8.hpp", "include/libflatarray/detail/short_vec_avx_double_8.hpp", "include/libflatarray/detail/short_vec_avx512_float_32.hpp"]}
{"id": "C45", "title": "Comparison masks and blend select lane-wise", "statement": "a.blend(a OP b, c) replaces exactly those lanes i where a[i] OP b[i] by c[i], for each comparison and implementation.", "quantifier": "every lane value, comparison, arity and ISA variant", "why_tests_cant": "2^arity mask patterns", "anchors": ["include/libflatarray/short_vec.hpp:blend", "include/libflatarray/detail/short_vec_scalar_float_4.hpp:blend", "include/libflatarray/detail/short_vec_avx512_float_32.hpp:blend"]}
{"id": "C46", "title": "load/store and gather/scatter address exactly their lanes", "statement": "load(p) sets lane i to p[i], store(p) sets p[i] to lane i and leaves all other memory unchanged; gather sets lane i to p[offsets[i]]; scatter writes lane i to p[offsets[i]] in lane order.", "quantifier": "every memory content, offset vector, lane value, arity and ISA variant", "why_tests_cant": "offset vectors and ISA variants", "anchors": ["include/libflatarray/detail/short_vec_sse_float_8.hpp:gather", "include/libflatarray/detail/short_vec_avx_float_16.hpp:gather"]}
{"id": "C47", "title": "Integer short_vec division equals C++ integer division", "statement": "For short_vec<int, N>, lane i of a / b equals the truncated quotient a[i] / b[i] whenever b[i] != 0 and the quotient is representable.", "quantifier": "every pair of 32-bit integers", "why_tests_cant": "2^64 pairs; SIMD variants go through floating point", "anchors": ["include/libflatarray/detail/short_vec_sse_int_8.hpp:operator/", "include/libflatarray/detail/short_vec_scalar_int_4.hpp:operator/"]}
{"id": "C48", "title": "Index arithmetic does not overflow for admissible grids", "statement": "For every grid accepted by the default sizes and every struct of at most 2^31 bytes, no intermediate of the address computation exceeds the range of the C++ types used (long, size_t).", "quantifier": "every accepted dims, coordinate, member", "why_tests_cant": "needs huge grids", "anchors": ["include/libflatarray/macros.hpp:gen_index", "include/libflatarray/detail/set_byte_size_functor.hpp"]}
{"id": "C49", "title": "Members are naturally aligned", "statement": "Every member object inside a grid buffer (4096-byte aligned) and inside a soa_array is stored at a multiple of its alignment; the first x cell of each row is aligned for vector loads when the extent is a multiple of the arity.", "quantifier": "every member list and extents / capacity", "why_tests_cant": "misaligned access is tolerated by x86", "anchors": ["include/libflatarray/detail/macros.hpp:LIBFLATARRAY_DECLARE_SOA_MEMBER", "include/libflatarray/soa_array.hpp", "include/libflatarray/alignment.hpp"]}
{"id": "C50", "title": "ilp_to_arity and streaming selection are consistent", "statement": "ilp_to_arity yields ILP*vector_bits/(8*sizeof(CARGO)) lanes, always at least ILP for cargo no wider than the vector, and estimate_optimum_short_vec_type chooses the streaming variant exactly when the working set reaches the cache size.", "quantifier": "every cargo size, ILP, extents, cache size", "why_tests_cant": "template parameters", "anchors": ["include/libflatarray/ilp_to_arity.hpp", "include/libflatarray/estimate_optimum_short_vec_type.hpp"]}
{"id": "C51", "title": "swap exchanges two soa_arrays", "statement": "After swap(a, b) of two soa_arrays a has the elements b had and vice versa, and both can be used and destroyed as before.", "quantifier": "every capacity, every member list incl. non-trivial members, every contents", "why_tests_cant": "tests swap trivially copyable structs", "anchors": ["include/libflatarray/soa_array.hpp:swap"]}
{"id": "C52", "title": "soa_array destroys exactly the member objects it constructed", "statement": "Every member object a soa_array constructs is destroyed exactly once, also if a constructor throws; no object is alive in storage that has been released.", "quantifier": "every capacity, member list, history", "why_tests_cant": "leaked objects are invisible to value based tests", "anchors": ["include/libflatarray/soa_array.hpp:~soa_array", "include/libflatarray/soa_array.hpp:construct_all_instances", "include/libflatarray/soa_array.hpp:copy_in"]}
{"id": "C53", "title": "CUDA kernels are free of data races", "statement": "In each launch of the construct, destroy, set, get, load and save kernels, no byte of the target memory is written to by two threads, and no thread reads memory that another one writes.", "quantifier": "every member list, dims within the launch limits, all arguments in range", "why_tests_cant": "races depend on the schedule and do not show up reliably", "anchors": ["include/libflatarray/detail/construct_functor.hpp:construct_kernel", "include/libflatarray/detail/set_instance_functor.hpp:set_kernel", "include/libflatarray/detail/load_functor.hpp:load_kernel", "include/libflatarray/detail/save_functor.hpp:save_kernel"]}
{"id": "C54", "title": "Compound assignment agrees with the binary operator", "statement": "For every short_vec type and operator +, -, *, /, the statement a op= b leaves in a the value that a op b returns, also for division by a square root.", "quantifier": "every target, type, arity and lane value for which the operation is defined", "why_tests_cant": "tests compare few values, on one target", "anchors": ["include/libflatarray/detail/short_vec_qpx_double_4.hpp:operator*=", "include/libflatarray/detail/short_vec_sse_int_4.hpp:operator/="]}
{"id": "C55", "title": "alignment of a short_vec suffices for its aligned accesses", "statement": "An address that is a multiple of the alignment which a short_vec's strategy prescribes may be passed to load_aligned, store_aligned, store_nt and to streaming stores of that short_vec; they transfer lane i from or to element i.", "quantifier": "every target, type, arity and such address", "why_tests_cant": "tests use generously aligned arrays", "anchors": ["include/libflatarray/alignment.hpp", "include/libflatarray/detail/short_vec_helpers.hpp:SHORTVEC_ASSERT_ALIGNED"]}
{"id": "C56", "title": "Kernels written for short_vec compute what scalar code computes", "statement": "Code composed of loads, constants, +, -, *, /, sqrt and comparisons with blend yields in lane i of a short_vec what it yields for scalars from the i-th elements. A loop over arrays, split up by the loop peeler into scalar and vectorized iterations, leaves the memory that the loop over scalars leaves.", "quantifier": "every expression, target, arity, array address, range of indices and memory content; arrays that do not overlap or are read ahead", "why_tests_cant": "expressions and ranges are unbounded", "anchors": ["include/libflatarray/short_vec.hpp", "include/libflatarray/loop_peeler.hpp"]}
{"id": "C57", "title": "A short_vec is printed as the list of its lanes", "statement": "Writing a short_vec to a stream yields an opening bracket, the lanes in order, separated by comma and blank, and a closing bracket.", "quantifier": "every target, type, arity and lane values", "why_tests_cant": "most targets cannot be run by the tests", "anchors": ["include/libflatarray/detail/short_vec_qpx_double_32.hpp:operator<<", "include/libflatarray/detail/short_vec_avx_float_16.hpp:operator<<"]}
{"id": "C58", "title": "Each arity of short_vec has exactly one implementation per target", "statement": "On every target there is exactly one short_vec<T, ARITY> for T in float, double, int and ARITY in 1, 2, 4, 8, 16, 32.", "quantifier": "every combination of preprocessor symbols that describes a target", "why_tests_cant": "tests are built for a single target", "anchors": ["include/libflatarray/short_vec.hpp", "include/libflatarray/detail/short_vec_avx512_double_16.hpp"]}
{"id": "C59", "title": "Square roots of integers are the same on all targets", "statement": "For short_vec<int, N>, lane i of sqrt(v) is the square root of v[i] rounded down, as a conversion of a floating point number to int yields, whatever the target and arity.", "quantifier": "every non-negative 32-bit integer, target and arity", "why_tests_cant": "2^31 integers; SIMD variants compute in single precision and convert by other instructions", "anchors": ["include/libflatarray/detail/short_vec_sse_int_4.hpp:sqrt", "include/libflatarray/detail/short_vec_scalar_int_4.hpp:sqrt"]}
{"id": "C60", "title": "Grids in device memory behave like plain 3D arrays under every schedule", "statement": "For soa_grid<T, cuda_allocator, true>: every program which respects the contracts of the operations runs without undefined behaviour, and everything it observes is what the same operations on plain 3D arrays of structs yield. Once all grids are destroyed, no device memory is left.", "quantifier": "every program, struct of trivially copyable members, order of the threads of each kernel, address returned by cudaMalloc and content of fresh device memory", "why_tests_cant": "tests observe a single schedule on one GPU, and cannot choose what fresh memory contains", "anchors": ["include/libflatarray/soa_grid.hpp:soa_grid", "include/libflatarray/detail/staging_buffer.hpp:staging_buffer", "include/libflatarray/cuda_array.hpp:cuda_array"]}
{"id": "C61", "title": "Threads may share grids as long as none writes what another one accesses", "statement": "If several threads access the same grids, through functors passed to callback() or through get() and set(), and no thread writes to a member of a cell which another thread accesses, then in every interleaving each thread observes what it would observe alone, the cells contain what their writers left there, and there is no data race.", "quantifier": "every program of the threads, number of threads, interleaving, struct and sizes of grids", "why_tests_cant": "interleavings are neither reproducible nor enumerable in a test; races rarely show", "anchors": ["include/libflatarray/soa_grid.hpp:get", "include/libflatarray/soa_grid.hpp:callback", "include/libflatarray/detail/staging_buffer.hpp:staging_buffer", "examples/jacobi/main.cpp"]}
{"id": "C62", "title": "a vectorised stencil functor computes what scalar code computes on arrays", "statement": "A functor which the two-grid callback() runs and which updates a member of the cells of a box with short_vecs, in loops from the loop peeler, stores in each cell of the box the value which the scalar code computes from the members (of neighbouring cells, of both grids) before the call, and changes nothing else. Alternating such calls with swap() of the two grids iterates the scalar code.", "quantifier": "every target, element type, arity, expression, set of neighbours, box, number of time steps, grid dimensions and contents; plain, aligned and streaming accesses", "why_tests_cant": "combination of targets, arities, alignments of rows, loop bounds and grid sizes", "anchors": ["include/libflatarray/soa_grid.hpp:callback", "include/libflatarray/loop_peeler.hpp", "include/libflatarray/streaming_short_vec.hpp", "examples/jacobi/main.cpp", "examples/performance_tests/main.cpp:JacobiD3Q7Gold", "examples/gauss/main.cpp"]}
{"id": "C63", "title": "Grids survive exceptions thrown by members", "statement": "If the constructor or an assignment operator of a member throws during an operation on grids, then nothing leaks and all grids remain usable: after set, load and operator= between grids of equal dimensions, the members assigned before the exception have their new values, the others are unchanged, and all grids have kept their dimensions; a constructor which throws leaves no memory behind; after resize which throws, the grid can still be destroyed.", "quantifier": "every program, struct, member which throws, point in time of the exception, and value which the failing assignment leaves behind", "why_tests_cant": "an exception may occur at each of the millions of assignments in an operation; members of test classes do not throw", "anchors": ["include/libflatarray/soa_grid.hpp:soa_grid", "include/libflatarray/soa_grid.hpp:resize", "include/libflatarray/soa_grid.hpp:operator=", "include/libflatarray/soa_grid.hpp:init", "include/libflatarray/detail/construct_functor.hpp"]}
{"id": "C64", "title": "stencil functors which use several OpenMP threads compute what scalar code computes", "statement": "If the vectorised functor run by the two-grid callback() splits its loop over the z-coordinates among OpenMP threads, each with its own copies of the accessors, then no two threads ever race, all threads can finish, and when they have, each cell of the box contains what the scalar code computes from the values before the call, while nothing else has changed. Alternating such calls with swap() of the grids iterates the scalar code.", "quantifier": "every number of threads, split of the loop, interleaving (down to single elements of vectors), target, element type, arity, expression, set of neighbours, box, number of time steps, grid dimensions and contents", "why_tests_cant": "interleavings are neither reproducible nor enumerable, and neighbours of the cells of a slice belong to other threads", "anchors": ["include/libflatarray/soa_grid.hpp:callback", "include/libflatarray/soa_accessor.hpp", "include/libflatarray/loop_peeler.hpp", "examples/jacobi/main.cpp", "examples/gauss/main.cpp"]}
{"id": "C65", "title": "vectorised searches for interacting pairs compute what two nested scalar loops compute", "statement": "A functor which callback() runs, and which for each of the first n cells of a grid loops over the following ones with short_vecs in a loop from the loop peeler, compares the computed vectors, skips vectors for which any() of the comparison is false, and otherwise runs scalar code for those lanes which get() tells to satisfy the comparison, leaves in the grid what two nested scalar loops over the pairs of the n cells leave there.", "quantifier": "every target with comparisons, element type, arity, expression, comparison, list of scalar statements, number of cells, integer types of the counters, grid dimensions and contents", "why_tests_cant": "results of lanes depend on data, remainders of the loop depend on the index of the first cell, and targets cannot all be run", "anchors": ["include/libflatarray/short_vec.hpp:any", "include/libflatarray/short_vec.hpp:get", "include/libflatarray/loop_peeler.hpp:loop_peeler", "examples/smoothed_particle_hydrodynamics/kernels.hpp:compute_density_lfa"]}
{"id": "C66", "title": "collecting interactions in a buffer and processing these by vectors yields what processing each at once yields", "statement": "If the functor of the search for interacting cells stores each interaction (members of both cells, computed lanes and the indices of the cells) in a soa_array whose capacity is the arity of the vectors, processes the stored structs by short_vecs and empties the soa_array whenever it is full, and processes the remaining ones one by one in the end, then the grid finally contains what two nested scalar loops leave there which process each interaction at once. The soa_array never overflows.", "quantifier": "every target with comparisons, element type, arity, expression, struct, list of scalar statements, number of cells and interactions, grid dimensions and contents", "why_tests_cant": "how many interactions are in the buffer at which time depends on data, and stored values may be outdated when they are processed", "anchors": ["include/libflatarray/soa_array.hpp:push_back", "include/libflatarray/soa_array.hpp:clear", "include/libflatarray/short_vec.hpp:get", "examples/smoothed_particle_hydrodynamics/kernels.hpp:handle_interactions", "examples/smoothed_particle_hydrodynamics/kernels.hpp:compute_accel_lfa"]}
{"id": "C67", "title": "functors which move accessors by their index compute what loops over plain arrays compute", "statement": "A functor which the two-grid callback() runs, and which walks through the grids by advancing the indices of the accessors, reading members of neighbouring cells and writing members of the current cell, changes the cells which it visits as the same code on plain 3D arrays would, and nothing else. This holds for loops over rows, and for the threads of a CUDA kernel which walk along the z-axis: these do not race, and their result does not depend on how they take turns. Time steps which alternate between the grids iterate this.", "quantifier": "every body of the loop (its accesses may depend on values read), box, launch configuration, interleaving of the threads, number of time steps, struct, grid dimensions and contents", "why_tests_cant": "interleavings cannot be enumerated, GPUs are not available to tests, and an index which is off by a row or plane is still inside the buffer", "anchors": ["include/libflatarray/soa_grid.hpp:callback", "include/libflatarray/macros.hpp:soa_accessor", "include/libflatarray/detail/macros.hpp", "examples/lbm/cell.h:updateLine", "examples/lbm/cudalineupdatefunctorprototype.h", "examples/performance_tests/main.cpp:JacobiD3Q7Bronze"]}
{"id": "C68", "title": "soa_arrays and soa_vectors survive exceptions thrown by members", "statement": "If the constructor or an assignment operator of a member throws during an operation on a soa_array or soa_vector, then the container remains usable and nothing leaks. push_back, append and reserve leave the list of elements as it was. set, load, assignment between containers of the same capacity and assignments to single members leave the elements which had been overwritten before the exception, while size and all other elements are unchanged. Other containers are never affected. A constructor which throws destroys all members which it had constructed and releases its memory.", "quantifier": "every program which catches such exceptions and goes on, struct, member which throws, point in time of the exception, and value which the failing assignment leaves behind", "why_tests_cant": "an exception may occur at each of the assignments in an operation, reallocations only happen for certain sizes, and members of test classes do not throw", "anchors": ["include/libflatarray/soa_array.hpp:soa_array", "include/libflatarray/soa_array.hpp:push_back", "include/libflatarray/soa_array.hpp:append", "include/libflatarray/soa_vector.hpp:reserve", "include/libflatarray/soa_vector.hpp:push_back", "include/libflatarray/soa_vector.hpp:pop_back"]}
{"id": "C69", "title": "running out of memory leaves grids and vectors as they were", "statement": "If the allocator throws std::bad_alloc during an operation on soa_grids or soa_vectors then all containers are what they were before the operation: a program which catches the exception and goes on observes what it would observe without that operation.", "quantifier": "every program which catches such exceptions and goes on, number and position of failing allocations, struct, size table, dimensions and contents", "why_tests_cant": "allocations hardly ever fail in tests, and each of the allocations of an operation may fail", "anchors": ["include/libflatarray/soa_grid.hpp:resize", "include/libflatarray/soa_grid.hpp:soa_grid", "include/libflatarray/soa_grid.hpp:operator=", "include/libflatarray/soa_vector.hpp:reserve", "include/libflatarray/soa_vector.hpp:push_back", "include/libflatarray/aligned_allocator.hpp:allocate"]}
{"id": "C70", "title": "threads may access different elements of a soa_array or soa_vector at the same time", "statement": "If several threads read and write members of existing elements of soa_arrays through operator[] and accessors, or of soa_vectors through functors run by callback(), and each member is either accessed by one thread only or read only, then there is no data race, and in every interleaving each thread computes what it would compute alone; the final contents do not depend on the interleaving. This includes reading and writing whole structs: a parallel loop which transforms each element of a soa_array yields what the sequential loop yields.", "quantifier": "every number of threads, program per thread (accesses may depend on values read), interleaving, struct, capacity, number and contents of elements", "why_tests_cant": "interleavings are neither reproducible nor enumerable, and in memory the members of an element lie between those of elements which other threads access", "anchors": ["include/libflatarray/soa_array.hpp:operator[]", "include/libflatarray/soa_vector.hpp:callback", "include/libflatarray/macros.hpp:soa_accessor_light", "include/libflatarray/detail/macros.hpp"]}
{"id": "C71", "title": "device() of cpu_benchmark names the CPU", "statement": "device() returns the CPU type and name which likwid-topology prints in its table, separated by a comma; if there is no such program or its output does not contain these then it returns the value of the first entry for the model name in /proc/cpuinfo; if there is no such entry then it returns 'unknown CPU'. Blanks around the texts are removed. It does not fail, whatever these sources contain.", "quantifier": "every output of likwid-topology (number, order, length and number of cells of its lines) and every content of /proc/cpuinfo", "why_tests_cant": "a test only sees the files of the machine it runs on, while contents differ between architectures; the buffer for lines still contains parts of previous lines", "anchors": ["include/libflatarray/testbed/cpu_benchmark.hpp:device", "include/libflatarray/testbed/cpu_benchmark.hpp:parse_proc_cpu", "include/libflatarray/testbed/cpu_benchmark.hpp:parse_likwid_topology", "include/libflatarray/testbed/cpu_benchmark.hpp:trim", "include/libflatarray/testbed/cpu_benchmark.hpp:tokenize"]}
{"id": "C72", "title": "evaluate prints rows from which all results can be read back", "statement": "evaluate runs a benchmark if and only if the given name is part of its family, with the given parameters, and prints a single row (nothing if output is disabled). Splitting the row at semicolons and removing blanks yields revision, date, host, device, order, family, species, parameters, performance and unit, in the order of the header, and different parameters are printed differently. Columns are aligned with those of the header as long as texts fit.", "quantifier": "every benchmark, revision, host name, date and non-empty list of parameters", "why_tests_cant": "rows depend on the host and on the lengths of ten texts", "anchors": ["include/libflatarray/testbed/evaluate.hpp:operator()", "include/libflatarray/testbed/evaluate.hpp:print_header"]}
{"id": "C73", "title": "benchmark::time() is as accurate and as monotonic as the clock", "statement": "The time returned by benchmark::time() deviates from the clock's reading by less than half a microsecond, a later reading always gives a greater time, and a measured span (difference of two times) is positive and deviates from the true one by less than a microsecond.", "quantifier": "every two readings of the clock (seconds below 2^32), and every way of breaking ties when floating point numbers are rounded", "why_tests_cant": "there are more readings than can be tried, and rounding errors grow with the distance to 1970", "anchors": ["include/libflatarray/testbed/benchmark.hpp:time"]}
{"id": "C74", "title": "redistributing elements between soa_arrays by vector comparisons gives the lists which scalar code gives", "statement": "A loop which loads a member of several consecutive elements of a soa_array into a short_vec, compares it to a boundary, tests for all, none or any, and then moves each element to the one or the other soa_array by copying it with push_back through accessors, followed by swaps of the arrays and clear(), leaves two arrays whose lists of elements are those which a scalar loop over lists computes: first the elements of the left array which stay, then those of the right array which are on the left side, in order (and vice versa). Any number of time steps iterates this. Nothing outside of the arrays is accessed.", "quantifier": "every number of elements, contents, boundary, struct, capacity which can hold all elements, vector type with comparisons, target and number of time steps", "why_tests_cant": "the branches taken depend on each group of values, and the last group of a short list contains elements beyond the end", "anchors": ["include/libflatarray/soa_array.hpp:push_back", "include/libflatarray/soa_array.hpp:operator[]", "include/libflatarray/soa_array.hpp:clear", "include/libflatarray/short_vec.hpp:any", "examples/performance_tests/main.cpp:ParticleMoverGold"]}
{"id": "C75", "title": "kernels which combine each element of a soa_array with all elements compute what scalar loops compute", "statement": "A kernel with two nested loops over a soa_array (the outer one loads members of several consecutive elements as short_vecs through an accessor, the inner one reads members of every element through a second accessor and broadcasts them, finally members of the same elements of another soa_array are written through a third accessor), followed by a swap of the two arrays, leaves arrays whose lists of elements are those which scalar nested loops over lists compute with the target's arithmetic, after any number of time steps. The number of elements need not be a multiple of the arity if the capacity has room for the last vector and its members hold numbers; elements beyond the end of the list do not influence the result. Members may be arrays.", "quantifier": "every struct, kernel (statements before, in and after the inner loop), number and contents of elements, capacity which is large enough, vector type, target and number of time steps", "why_tests_cant": "each element depends on all others, on local variables which are carried through the inner loop and on the previous time steps, and the last vector contains structs beyond the end of the list", "anchors": ["include/libflatarray/soa_array.hpp:operator[]", "include/libflatarray/macros.hpp:soa_accessor", "include/libflatarray/short_vec.hpp:short_vec", "examples/performance_tests/main.cpp:NBodySilver", "examples/performance_tests/main.cpp:NBodyGold"]}
{"id": "C76", "title": "counting pairs of elements of a soa_vector by short_vecs gives the number of pairs", "statement": "A functor which is run by callback() on a soa_vector, visits all pairs of elements with the loop peeler and vectors of any arity, tests each pair by a comparison of vectors, and adds up blend(0, 1, mask) per lane in a vector of floating point numbers whose lanes are finally added to an int, increases that int by the number of pairs for which the scalar test holds, times the number of repetitions, whatever the number of elements is.", "quantifier": "every number and contents of elements, struct, test (expression, comparison and limit), number of repetitions, initial counter, vector type with comparisons, target and way to break ties", "why_tests_cant": "the numbers of pairs at which floating point counters stop to count exceed what tests create, and the elements which do not fill a vector depend on the arity of the target", "anchors": ["include/libflatarray/soa_vector.hpp:callback", "include/libflatarray/loop_peeler.hpp:LIBFLATARRAY_LOOP_PEELER", "include/libflatarray/short_vec.hpp:any", "include/libflatarray/short_vec.hpp:blend", "examples/performance_tests/main.cpp:ConditionalUpdater"]}
{"id": "C77", "title": "a test of whole vectors before scalar code does not change what loops over all pairs compute", "statement": "Nested loops over all pairs of elements of a soa_array, in which short_vecs of members of several consecutive elements are tested against the element of the outer loop, any() decides whether the block is skipped, and otherwise each element of the block is tested again by scalar code and updated in place through operator[], leave the array with the list of elements which plain nested scalar loops over a list compute: no element is skipped whose scalar test holds, updates are done in the same order and with the same operands (also when the element of the outer loop is updated itself), capacity and size are unchanged, nothing outside of the array is accessed, and the loops end.", "quantifier": "every struct, test, list of updated members with their update expressions, number and contents of elements, vector type with comparisons, target and number of repetitions", "why_tests_cant": "blocks are skipped depending on all values of a block and earlier updates; sizes which are no multiples of the arity leave the array, which may go unnoticed or never end", "anchors": ["include/libflatarray/soa_array.hpp:operator[]", "include/libflatarray/short_vec.hpp:any", "include/libflatarray/short_vec.hpp:short_vec", "examples/performance_tests/main.cpp:ParticleInteractorGold"]}
{"id": "C78", "title": "handing over buffers by data() and set_data() exchanges the contents of grids", "statement": "When a program takes the buffers of soa_grids by data() and gives them to other grids of the same dimensions by set_data(), such that in the end each grid has exactly one buffer, then the cells of the grids are permuted accordingly and nothing else changes: dimensions, extents and byte sizes stay, all later operations (set, get, broadcast, load, save, accessors, resize, assignment, swap, destruction) on all grids behave as on arrays with the permuted contents, and no buffer is freed twice or leaked. Exchanging two grids this way exchanges their cells without touching the heap.", "quantifier": "every program of interface calls, data() and set_data(), with any number of grids, pointers, dimensions, members and contents", "why_tests_cant": "which grid owns which buffer depends on the whole history; a wrong owner is seen only when grids are destroyed or resized later", "anchors": ["include/libflatarray/soa_grid.hpp:data", "include/libflatarray/soa_grid.hpp:set_data", "include/libflatarray/soa_grid.hpp:destroy_and_deallocate"]}
{"id": "C79", "title": "programs over soa_grid neither overflow nor wrap on a 64-bit machine", "statement": "Whatever a program does with soa_grids within the contracts of the interface (construct, copy, assign, swap, resize, set, get, broadcast, load, save, access neighbours through accessors, query, destroy), no index computation overflows long, no size computation wraps std::size_t, and no pointer is formed outside of its buffer or one past its end; every operation has the observable results which arrays of cells have, exactly as if integers were unbounded.", "quantifier": "every program, struct of at most 2^31 bytes, member arities, dimensions and contents, with the library's own extents or any extents of at most 2^31 cells; raw buffers smaller than 2^63 bytes, accessors positioned inside of the grid before they are shifted", "why_tests_cant": "intermediate results depend on the extents, positions and offsets of all members; tests use small grids on which wrong orders of multiplication, narrow types or stray pointers go unnoticed", "anchors": ["include/libflatarray/macros.hpp:gen_index", "include/libflatarray/detail/macros.hpp:LIBFLATARRAY_INDEX", "include/libflatarray/soa_grid.hpp:resize", "include/libflatarray/soa_grid.hpp:load", "include/libflatarray/soa_grid.hpp:callback", "include/libflatarray/detail/set_byte_size_functor.hpp:set_byte_size_functor"]}
{"id": "C80", "title": "programs over soa_vector neither overflow nor wrap on a 64-bit machine", "statement": "Whatever a program does with soa_vectors within the contracts of the interface (construct, copy, assign, set, get, push_back, pop_back, clear, resize, reserve, query, access members through accessors, destroy), no index computation overflows long, neither the size nor the capacity push_back asks for wraps std::size_t, no pointer is formed outside of its buffer or one past its end; every operation has the results it has if integers are unbounded, and programs without copies observe what lists of structs show.", "quantifier": "every program, struct of at most 2^31 bytes, number and contents of elements, with the library's own sizes or size traits which keep vectors one-dimensional and have sizes up to 2^31; accessors positioned on the vector before they are shifted", "why_tests_cant": "the capacity is computed in floating point, and indices depend on buffers which grow during the program; tests use vectors too short for wrong types or stray pointers to be noticed", "anchors": ["include/libflatarray/soa_vector.hpp:push_back", "include/libflatarray/soa_vector.hpp:reserve", "include/libflatarray/soa_vector.hpp:pop_back", "include/libflatarray/soa_grid.hpp:load", "include/libflatarray/macros.hpp:gen_index"]}
{"id": "C81", "title": "programs over soa_array neither overflow nor wrap on a 64-bit machine", "statement": "Whatever a program does with soa_arrays within the contracts of the interface (construct, copy, assign, destroy, set, get, access members, push_back, pop_back, clear, back, load, query, iterate, swap), no index overflows long or is truncated when it is converted to the int parameter of operator[], no size computation wraps std::size_t, and no pointer is formed outside of the storage or one past its end; every operation has the results which lists of bounded length have, exactly as if integers were unbounded.", "quantifier": "every program, number of arrays, positive capacities (ints), struct of at most 2^31 bytes, and contents", "why_tests_cant": "the interface mixes int, long and std::size_t, and each conversion is harmless for the capacities which tests use", "anchors": ["include/libflatarray/soa_array.hpp:operator[]", "include/libflatarray/soa_array.hpp:at", "include/libflatarray/soa_array.hpp:load", "include/libflatarray/soa_array.hpp:back", "include/libflatarray/soa_array.hpp:byte_size", "include/libflatarray/soa_array.hpp:copy_in"]}
{"id": "C82", "title": "programs over cuda_array neither wrap sizes nor lose elements on a 64-bit machine", "statement": "Whatever a program does with cuda_arrays (construct, copy, assign, resize, reserve, load, save, destroy), the number of bytes which is allocated and copied is the number of elements times their size, for whatever number of elements the interface accepts: size(), capacity() and the elements which save() yields are those of vectors, exactly as if integers were unbounded.", "quantifier": "every program, element size, number and contents of elements, schedule of the fill kernel, and addresses returned by cudaMalloc", "why_tests_cant": "numbers of bytes wrap around only for requests far larger than what tests allocate, and no call reports it", "anchors": ["include/libflatarray/cuda_array.hpp:byte_size", "include/libflatarray/cuda_array.hpp:resize_implementation", "include/libflatarray/cuda_array.hpp:reserve", "include/libflatarray/cuda_allocator.hpp:allocate"]}
{"id": "C83", "title": "a whole simulation in one functor computes what scalar code computes", "statement": "A functor which is called once by callback() and then runs a complete simulation on the grid (vectorised loops over all particles, searches for interacting pairs whose results are added at once or collected in a soa_array, reads and writes of members through pointers to the first particle, output of values, with branches and loops which depend on all values read so far) terminates without undefined behaviour, leaves exactly the values and produces exactly the output which the same steps yield as scalar code on plain arrays. Vectorised loops over all particles do so for any number of particles.", "quantifier": "every functor made of such steps (any finite interaction tree), struct, number of particles, expressions, statements, contents, supported instruction set, vector arity, floating point environment and buffer address", "why_tests_cant": "steps depend on the results of all steps before; a lane which is wrong in one loop changes branches much later, and tests compare a few time steps for one arity at best", "anchors": ["examples/smoothed_particle_hydrodynamics/main.cpp:Simulate", "examples/smoothed_particle_hydrodynamics/kernels.hpp:compute_density_lfa", "examples/smoothed_particle_hydrodynamics/kernels.hpp:compute_accel_lfa", "include/libflatarray/loop_peeler.hpp:loop_peeler", "include/libflatarray/soa_grid.hpp:callback"]}
{"id": "C84", "title": "a stencil coded with intrinsics and raw member pointers computes what the scalar code computes", "statement": "A functor which is called by callback() on two grids, gets cell coordinates and neighbours through accessors, and updates blocks of cells with aligned, unaligned and streaming vector accesses through pointers to members (as the hand-coded 3D Jacobi example does) reads and writes only cells inside of the grids, through suitably aligned pointers, and leaves in each inner cell of the new grid exactly the value which the scalar formula yields for the old grid, everything else as it was; for any number of time steps with the grids swapped in between.", "quantifier": "every struct with a double member (or array of doubles), dimensions, weights, contents, floating point environment, position of the member, buffer address, and number of time steps", "why_tests_cant": "blocks and remainders depend on the dimensions modulo the block size; the example reports speed only, and no test compares its result with scalar code", "anchors": ["examples/performance_tests/main.cpp:JacobiD3Q7Silver", "include/libflatarray/soa_grid.hpp:callback", "include/libflatarray/detail/dual_callback_helper.hpp:dual_callback_helper", "include/libflatarray/soa_accessor.hpp:soa_accessor"]}
{"id": "C85", "title": "programs that decide by what they observe get the results of plain arrays and lists", "statement": "A client that calls soa_grid, soa_array or soa_vector and chooses each next call (which one, with which arguments, or none) by the results of the calls before, such as loops up to size(), searches, or branches on elements and exceptions, has no undefined behaviour as long as each call it makes respects the contracts, and its result is one it could get with plain 3D arrays or lists of structs in place of the containers. In particular a loop that reads all elements of a soa_array computes the fold over the list, and a loop that appends those which pass a test to another array yields the filtered list.", "quantifier": "every terminating client (any well-founded tree of calls, any branching on results), struct, sizes, and for the loops every array, predicate and accumulating function", "why_tests_cant": "the control flow of clients depends on returned values; a test fixes one client and one course of events", "anchors": ["include/libflatarray/soa_grid.hpp:soa_grid", "include/libflatarray/soa_array.hpp:soa_array", "include/libflatarray/soa_vector.hpp:soa_vector"]}
{"id": "C86", "title": "threads that use different containers do not disturb one another", "statement": "If several threads each run a client that changes only containers (soa_grid, soa_array, soa_vector) which no other thread uses, including their creation, growth and destruction, and reads from these and from shared containers which no thread changes, then whatever turns the threads take there is no undefined behaviour, each thread that has finished has a result which it could have if it ran alone, its containers have the contents they would have then, and all threads can finish. In particular any number of threads may look through one soa_array for different elements and collect them in arrays of their own.", "quantifier": "every number of threads, every terminating client (any branching on results), every schedule, struct, sizes, contents, and state from which the threads start", "why_tests_cant": "the number of interleavings grows exponentially; a test sees a few of them, and none on purpose", "anchors": ["include/libflatarray/soa_grid.hpp:soa_grid", "include/libflatarray/soa_array.hpp:soa_array", "include/libflatarray/soa_vector.hpp:soa_vector"]}
{"id": "C87", "title": "vectors in device memory behave like lists of structs", "statement": "A program which keeps soa_vectors in the memory of a CUDA device (soa_vector<T, cuda_allocator<char>, true>) and constructs, fills, reads, writes, appends, removes, resizes, reserves, clears and destroys them observes what it would observe with lists of structs: each get() yields the registered members of the element last set, size(), capacity() and empty() tell the truth, growth keeps all elements, nothing is undefined behaviour, whatever order the threads of the kernels run in, and in the end no device memory is left.", "quantifier": "every program (also programs which choose calls by results), number of vectors, struct with trivially copyable members, sizes below 2^31, schedule of the kernels, address returned by cudaMalloc and contents of fresh memory", "why_tests_cant": "there are no tests of vectors on devices; host and device pointers have the same type, and growth happens only beyond the padded extent", "anchors": ["include/libflatarray/soa_vector.hpp:reserve", "include/libflatarray/soa_vector.hpp:push_back", "include/libflatarray/soa_vector.hpp:soa_vector", "include/libflatarray/soa_grid.hpp:load", "include/libflatarray/cuda_array.hpp:load", "include/libflatarray/detail/staging_buffer.hpp:staging_buffer"]}
{"id": "C88", "title": "soa_arrays may be sent to a CUDA device as bytes, and be used there", "statement": "A soa_array copied byte by byte to device memory, used by kernels through its member functions, and copied back byte by byte, holds the elements which the same operations give on a list of bounded length. Kernels of many threads in which each member of an element is written by one thread at most, and then accessed by no other, have the effect of running their threads one after the other. push_back on a full array and pop_back on an empty one are errors which leave the array as it was, as on the host.", "quantifier": "all structs, capacities, contents, programs of the host which choose their calls by what they observed, kernels, numbers of threads and schedules of their steps", "why_tests_cant": "schedules, kernels and histories are unbounded; a device cannot be made to run all schedules", "anchors": ["include/libflatarray/soa_array.hpp:soa_array", "include/libflatarray/soa_array.hpp:operator<<", "include/libflatarray/soa_array.hpp:pop_back", "test/soa_array_cuda_test.cu:test_modify"]}
