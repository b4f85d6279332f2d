{
 "claims": [
  {
   "property": "C01",
   "status": "proved",
   "theorems": [
    "LFA.Props.C01_in_bounds",
    "LFA.Props.C01_no_alias"
   ],
   "note": "For any layout with members of positive size and any extents."
  },
  {
   "property": "C02",
   "status": "proved",
   "theorems": [
    "LFA.Props.C02_gen_index"
   ],
   "note": ""
  },
  {
   "property": "C03",
   "status": "proved",
   "theorems": [
    "LFA.Props.C03_neighbour",
    "LFA.Props.C03_compose"
   ],
   "note": ""
  },
  {
   "property": "C04",
   "status": "proved",
   "theorems": [
    "LFA.Props.C04_array_access"
   ],
   "note": ""
  },
  {
   "property": "C05",
   "status": "partial",
   "theorems": [
    "LFA.Props.C05_exact",
    "LFA.Props.C05_registered_partial",
    "LFA.Props.C05_false_large",
    "LFA.Props.C05_access",
    "LFA.Props.C05_unregistered"
   ],
   "note": "The offset is returned as int: C05_exact gives the result for all member lists, which is the claimed one for offsets below 2^31 and a wrong one for all others (C05_false_large)."
  },
  {
   "property": "C06",
   "status": "proved",
   "theorems": [
    "LFA.Props.C06_custom",
    "LFA.Props.C06_uniform1",
    "LFA.Props.C06_uniform2",
    "LFA.Props.C06_uniform3",
    "LFA.Props.C06_uniform1_const",
    "LFA.Props.C06_never_clips"
   ],
   "note": "All four kinds of size traits; lists are ascending (only C06_never_clips holds for unsorted lists too)."
  },
  {
   "property": "C07",
   "status": "proved",
   "theorems": [
    "LFA.Props.C07_accepted",
    "LFA.Props.C07_rejected",
    "LFA.Props.C07_multiples"
   ],
   "note": "The selection table of the default traits is part of the model."
  },
  {
   "property": "C08",
   "status": "partial",
   "theorems": [
    "LFA.Props.C08_byte_size",
    "LFA.Props.C08_construct_partial",
    "LFA.Props.C08_resize",
    "LFA.Props.C08_false_default"
   ],
   "note": "Proved for all accepted dimensions other than 0, 0, 0, which default construction uses: extents and byte size then stay uninitialised (C08_false_default)."
  },
  {
   "property": "C09",
   "status": "proved",
   "theorems": [
    "LFA.Props.C09_readable",
    "LFA.Props.C09_unique",
    "LFA.Props.C09_set_get"
   ],
   "note": "For any state reached by a program that respects the contracts (Valid), any grid, any in-range coordinate."
  },
  {
   "property": "C10",
   "status": "proved",
   "theorems": [
    "LFA.Props.C10_bulk_set_get",
    "LFA.Props.C10_bulk_set_is_singles",
    "LFA.Props.C10_bulk_get"
   ],
   "note": ""
  },
  {
   "property": "C11",
   "status": "proved",
   "theorems": [
    "LFA.Props.C11_broadcast"
   ],
   "note": "Host functors; see C40 for CUDA."
  },
  {
   "property": "C12",
   "status": "proved",
   "theorems": [
    "LFA.Props.C12_save_format",
    "LFA.Props.C12_save_load"
   ],
   "note": ""
  },
  {
   "property": "C13",
   "status": "proved",
   "theorems": [
    "LFA.Props.C13_save",
    "LFA.Props.C13_load",
    "LFA.Props.C13_save_load"
   ],
   "note": "C13_load needs disjoint streaks to tell which value a cell gets; the round trip C13_save_load does not. Grids with dimensions 0, 0, 0 have no cells to save and are excluded."
  },
  {
   "property": "C14",
   "status": "partial",
   "theorems": [
    "LFA.Props.C14_history_partial",
    "LFA.Props.C14_false"
   ],
   "note": "Refinement of the byte level model to plain 3D arrays (Spec.Post) by induction over the program. The contracts Spec.Pre leave out what C15, C17 and C18 show to be broken, in particular assignments of default constructed grids: C14_false."
  },
  {
   "property": "C15",
   "status": "partial",
   "theorems": [
    "LFA.Props.C15_independent",
    "LFA.Props.C15_copy_partial",
    "LFA.Props.C15_assign_partial",
    "LFA.Props.C15_false_copy",
    "LFA.Props.C15_false_assign",
    "LFA.Props.C15_false_default_sizes",
    "LFA.Props.C15_assign_empty_partial"
   ],
   "note": "Holds unless the source is a default constructed grid: copying that reads uninitialised memory (C15_false_copy), assigning it throws and may leave a dangling pointer (C15_false_assign, C15_false_default_sizes) unless the sizes accept 0, 0, 0 (C15_assign_empty_partial)."
  },
  {
   "property": "C16",
   "status": "partial",
   "theorems": [
    "LFA.Props.C16_false",
    "LFA.Props.C16_partial"
   ],
   "note": "False as stated: extents of a copy are never initialised (C16_false, for every copy). C16_partial: dimensions and byte size are those of the source."
  },
  {
   "property": "C17",
   "status": "partial",
   "theorems": [
    "LFA.Props.C17_false",
    "LFA.Props.C17_false_extents",
    "LFA.Props.C17_extents_partial",
    "LFA.Props.C17_false_unsafe",
    "LFA.Props.C17_partial"
   ],
   "note": "False as stated: swap exchanges x only (C17_false, C17_false_extents, C17_false_unsafe: later in-range access out of bounds). C17_partial, C17_extents_partial: complete for grids with equal y and z dimensions or extents."
  },
  {
   "property": "C18",
   "status": "partial",
   "theorems": [
    "LFA.Props.C18_false",
    "LFA.Props.C18_blank_partial",
    "LFA.Props.C18_construct_partial"
   ],
   "note": "False as stated for grids with cells (C18_false: rejected dimensions, dangling pointer, terminate on destruction). Partial: default constructed grids and constructors."
  },
  {
   "property": "C19",
   "status": "proved",
   "theorems": [
    "LFA.Props.C19_same",
    "LFA.Props.C19_reset"
   ],
   "note": ""
  },
  {
   "property": "C20",
   "status": "partial",
   "theorems": [
    "LFA.Props.C20_lifecycle_partial",
    "LFA.Props.C20_alive_partial"
   ],
   "note": "Misuse of lifetimes is undefined behaviour in the model; absence follows from C14_history_partial. Histories outside of the contracts break it: C14_false, C17_false_unsafe, C18_false."
  },
  {
   "property": "C21",
   "status": "partial",
   "theorems": [
    "LFA.Props.C21_dual_callback_partial",
    "LFA.Props.C21_false",
    "LFA.Props.C21_same_extents"
   ],
   "note": "Holds for all grids with cells; the functor does not run on two empty grids if the traits reject the dimensions 0, 0, 0 (C21_false)."
  },
  {
   "property": "C22",
   "status": "proved",
   "theorems": [
    "LFA.Props.C22_order_irrelevant"
   ],
   "note": ""
  },
  {
   "property": "C23",
   "status": "proved",
   "theorems": [
    "LFA.Props.C23_history",
    "LFA.Props.C23_readable",
    "LFA.Props.C23_push_back"
   ],
   "note": "Refinement of the byte level model to lists (ArrSpec), any number of arrays, any program that respects the contracts."
  },
  {
   "property": "C24",
   "status": "partial",
   "theorems": [
    "LFA.Props.C24_push_full",
    "LFA.Props.C24_pop_empty",
    "LFA.Props.C24_load_partial",
    "LFA.Props.C24_load_iff",
    "LFA.Props.C24_append_partial",
    "LFA.Props.C24_assign",
    "LFA.Props.C24_copy",
    "LFA.Props.C24_false"
   ],
   "note": "False as stated: num+offset is computed modulo 2^64, so that the check passes for huge counts (C24_false). Partial: load with num+offset < 2^64; exact condition on which load throws: C24_load_iff; push, pop, copy and assignment complete."
  },
  {
   "property": "C25",
   "status": "partial",
   "theorems": [
    "LFA.Props.C25_partial",
    "LFA.Props.C25_false"
   ],
   "note": "False as stated: the constructor has no check, n > N overruns the storage (C25_false). C25_partial: n <= N."
  },
  {
   "property": "C26",
   "status": "proved",
   "theorems": [
    "LFA.Props.C26_copy",
    "LFA.Props.C26_assign",
    "LFA.Props.C26_load"
   ],
   "note": ""
  },
  {
   "property": "C27",
   "status": "partial",
   "theorems": [
    "LFA.Props.C27_partial",
    "LFA.Props.C27_assign_partial",
    "LFA.Props.C27_false"
   ],
   "note": "False as stated: copies of const arrays of the same type are byte copies (C27_false for every struct with a non-trivial member). Partial: structs with trivial members only."
  },
  {
   "property": "C28",
   "status": "partial",
   "theorems": [
    "LFA.Props.C28_history_partial",
    "LFA.Props.C28_history_dflt_partial",
    "LFA.Props.C28_new",
    "LFA.Props.C28_set",
    "LFA.Props.C28_pop",
    "LFA.Props.C28_clear",
    "LFA.Props.C28_shrink",
    "LFA.Props.C28_enlarge_partial",
    "LFA.Props.C28_others",
    "LFA.Props.C28_false"
   ],
   "note": "False as stated for the values of elements added by resize (C28_false) and for non-trivial members (C33_false). Partial: refinement to lists for all programs; resize-added values unspecified; structs with non-trivial members need an initial size of the size table."
  },
  {
   "property": "C29",
   "status": "partial",
   "theorems": [
    "LFA.Props.C29_growth",
    "LFA.Props.C29_push",
    "LFA.Props.C29_push_dflt",
    "LFA.Props.C29_false_all",
    "LFA.Props.C29_false"
   ],
   "note": "False for custom size lists with sizes below five (C29_false; for every struct and all such lists: C29_false_all). Complete for the default sizes (C29_push_dflt) and for all 1D size lists with sizes of at least five (C29_push)."
  },
  {
   "property": "C30",
   "status": "partial",
   "theorems": [
    "LFA.Props.C30_reserve_partial",
    "LFA.Props.C30_grow",
    "LFA.Props.C30_false_all",
    "LFA.Props.C30_iff",
    "LFA.Props.C30_false"
   ],
   "note": "False as stated: a shrinking reserve overruns the new buffer (C30_false). Partial: whenever the elements fit into the extent selected for the request. That condition is exact: C30_iff shows that reserve works exactly then, and C30_false_all that every other request fails."
  },
  {
   "property": "C31",
   "status": "partial",
   "theorems": [
    "LFA.Props.C31_partial",
    "LFA.Props.C31_push_iff",
    "LFA.Props.C31_false"
   ],
   "note": "False as stated: capacity() ignores the padding that push_back uses (C31_false). Partial: histories without push_back/emplace_back; exact condition after push_back: C31_push_iff."
  },
  {
   "property": "C32",
   "status": "partial",
   "theorems": [
    "LFA.Props.C32_copy_partial",
    "LFA.Props.C32_copy_false",
    "LFA.Props.C32_copy_iff",
    "LFA.Props.C32_assign_partial",
    "LFA.Props.C32_false",
    "LFA.Props.C32_false_extent"
   ],
   "note": "False as stated: elements in the padding are lost (C32_false), and copies cannot be enlarged (C32_false_extent). Partial: sources with size() <= capacity(), which is necessary for all sources (C32_copy_false, C32_copy_iff)."
  },
  {
   "property": "C33",
   "status": "partial",
   "theorems": [
    "LFA.Props.C33_partial",
    "LFA.Props.C33_lists_partial",
    "LFA.Props.C33_false_set",
    "LFA.Props.C33_false_push",
    "LFA.Props.C33_false"
   ],
   "note": "False as stated: push_back assigns to never constructed objects in the padding (C33_false; for every struct with a non-trivial member and every vector: C33_false_set, C33_false_push). Partial: programs which append only to constructed cells."
  },
  {
   "property": "C34",
   "status": "partial",
   "theorems": [
    "LFA.Props.C34_partial",
    "LFA.Props.C34_false",
    "LFA.Props.C34_false_all"
   ],
   "note": "False as stated: wrong stride for 2D and 3D sizes (C34_false; for all structs with more than one array, all traits with an extent above one in y or z and every non-empty vector: C34_false_all). Partial: 1D size lists, and custom lists starting with 1 in y and z, with x sizes of at least five."
  },
  {
   "property": "C35",
   "status": "partial",
   "theorems": [
    "LFA.C35_block_partial",
    "LFA.C35_history_partial",
    "LFA.C35_leak_partial",
    "LFA.C35_roundtrip_partial",
    "LFA.C35_false",
    "LFA.C35_false_outside",
    "LFA.C35_false_12",
    "LFA.C35_iff"
   ],
   "note": "False as stated unless ALIGNMENT is four or a multiple of eight (C35_false, C35_false_outside, C35_false_12); exactly these work (C35_iff). Partial: all allocation histories for these alignments."
  },
  {
   "property": "C36",
   "status": "partial",
   "theorems": [
    "LFA.C36_iff",
    "LFA.C36_partial",
    "LFA.C36_false",
    "LFA.C36_false_bytes"
   ],
   "note": "False as stated: the size computation wraps around (C36_false, C36_false_bytes). Partial: all requests which do not overflow; these are exactly the ones which get enough memory (C36_iff)."
  },
  {
   "property": "C37",
   "status": "partial",
   "theorems": [
    "LFA.C37_partial",
    "LFA.C37_false",
    "LFA.C37_false_all",
    "LFA.C37_false_negative",
    "LFA.C37_iff",
    "LFA.C37_false_exact",
    "LFA.C37_function_partial",
    "LFA.C37_function_false",
    "LFA.C37_function_false_exact"
   ],
   "note": "False as stated: ranges without a multiple of the arity overrun (C37_false, C37_false_all), negative ranges too (C37_false_negative). Partial: ranges which contain a multiple of the arity; C37_iff says which ranges are covered, for all ranges including negative ones. The function template with different integer types: C37_function_partial, and C37_function_false for a signed counter with an unsigned end."
  },
  {
   "property": "C38",
   "status": "partial",
   "theorems": [
    "LFA.C38_partial",
    "LFA.C38_default",
    "LFA.C38_false",
    "LFA.C38_false_none",
    "LFA.C38_iff",
    "LFA.C38_row"
   ],
   "note": "False as stated: launches beyond the hardware limits start no thread, unnoticed (C38_false). All other dims below 2^31 start none (C38_false_none, C38_iff). Partial: all dims within the limits, which includes all default sizes (C38_default)."
  },
  {
   "property": "C39",
   "status": "partial",
   "theorems": [
    "LFA.C39_construct_partial",
    "LFA.C39_destroy_partial",
    "LFA.C39_set_partial",
    "LFA.C39_get_partial",
    "LFA.C39_load_partial",
    "LFA.C39_save_partial",
    "LFA.C39_false"
   ],
   "note": "False beyond the launch limits (C39_false). Partial: byte-exact equality with the host functors for every schedule, within the launch limits."
  },
  {
   "property": "C40",
   "status": "partial",
   "theorems": [
    "LFA.C40_partial",
    "LFA.C40_false",
    "LFA.C40_false_case"
   ],
   "note": "False as stated: only the first cell is written to, whatever the schedule (C40_false, C40_false_case). Partial: count <= 1."
  },
  {
   "property": "C41",
   "status": "partial",
   "theorems": [
    "LFA.C41_partial",
    "LFA.C41_swap",
    "LFA.C41_false",
    "LFA.C41_false_vec",
    "LFA.C41_false_oom",
    "LFA.CA.C41_client_partial",
    "LFA.CA.C41_finish_partial",
    "LFA.CA.C41_threads_partial"
   ],
   "note": "False for fills beyond the range of int (C41_false), empty std::vectors (C41_false_vec) and failing allocations (C41_false_oom). Partial: refinement to vectors with capacity for all other programs and all schedules of init_kernel; C41_swap: std::swap, i.e. a copy and two assignments; C41_client_partial: clients which branch on what save yielded; C41_threads_partial: threads of the host with arrays of their own; C41_finish_partial: after any turns the threads can all go on until they have finished."
  },
  {
   "property": "C42",
   "status": "proved",
   "theorems": [
    "LFA.PP.C42_size",
    "LFA.PP.C42_size_limit",
    "LFA.PP.C42_elem",
    "LFA.PP.C42_elem_none",
    "LFA.PP.C42_forEach",
    "LFA.PP.C42_forEach_empty",
    "LFA.PP.C42_ifShorter",
    "LFA.PP.C42_ifShorter_zero"
   ],
   "note": "SIZE, ELEM, FOR_EACH and IF_SHORTER for every list within the supported lengths, over rows generated from the header; limits shown to be exact."
  },
  {
   "property": "C43",
   "status": "proved",
   "theorems": [
    "LFA.SV.C43_float",
    "LFA.SV.C43_double",
    "LFA.SV.C43_float_mask",
    "LFA.SV.C43_double_mask",
    "LFA.SV.C43_int"
   ],
   "note": "All float and double classes with comparisons, on all targets: get(mask, i) (arity 32: offsets 0 to 31), any(mask) and count_mask agree with the lane-wise relation; likewise for each mask, however it was obtained (C43_float_mask, C43_double_mask). Of the int classes only short_vec<int, 1> has comparisons: any and get (C43_int); its count_mask does not compile. short_vec<float, 4> on NEON has comparisons, but neither any nor get."
  },
  {
   "property": "C44",
   "status": "partial",
   "theorems": [
    "LFA.SV.C44_double_divSqrt",
    "LFA.SV.C44_float",
    "LFA.SV.C44_double_partial",
    "LFA.SV.C44_int",
    "LFA.SV.C44_float_div",
    "LFA.SV.C44_double_div",
    "LFA.SV.C44_float_sqrt",
    "LFA.SV.C44_float_sqrt_neon",
    "LFA.SV.C44_double_sqrt",
    "LFA.SV.C44_sqrt_member",
    "LFA.SV.C44_sqrtDiv",
    "LFA.SV.C44_float_divSqrt",
    "LFA.SV.C44_float_left",
    "LFA.SV.C44_double_left",
    "LFA.SV.C44_false"
   ],
   "note": "All targets and arities, all lanes: +, -, * and their compound forms; division and square root exact or by the target's reciprocal. False: *= on QPX adds (C44_false), hence double is partial."
  },
  {
   "property": "C45",
   "status": "partial",
   "theorems": [
    "LFA.SV.C45_float",
    "LFA.SV.C45_double",
    "LFA.SV.C45_float_available",
    "LFA.SV.C45_double_available",
    "LFA.SV.C45_false_neon_eq",
    "LFA.SV.C45_false_neon_le",
    "LFA.SV.C45_neon_partial"
   ],
   "note": "All classes which have comparisons (C45_float, C45_double); which ones do is C45_*_available. False on NEON: == and <= of short_vec<float, 4> use wrong intrinsics (C45_false_neon_*)."
  },
  {
   "property": "C46",
   "status": "partial",
   "theorems": [
    "LFA.SV.C46_int",
    "LFA.SV.C46_float_partial",
    "LFA.SV.C46_double_partial",
    "LFA.SV.C46_float_full",
    "LFA.SV.C46_double_full",
    "LFA.SV.C46_false_offsets",
    "LFA.SV.C46_false_offsets_mic",
    "LFA.SV.C46_false_negative",
    "LFA.SV.C46_false_store_nt",
    "LFA.SV.C46_false_qpx",
    "LFA.SV.C46_roundtrip",
    "LFA.SV.C46_gather_scatter"
   ],
   "note": "load, store, constructors, streaming, gather, scatter of all classes; int completely. False: misaligned offset arrays on AVX512 and MIC, negative offsets with INSERT_PS, store_nt on 64 bit NEON, unaligned addresses on QPX."
  },
  {
   "property": "C47",
   "status": "partial",
   "theorems": [
    "LFA.SV.C47_scalar",
    "LFA.SV.C47_div_partial",
    "LFA.SV.C47_divA_partial",
    "LFA.SV.C47_divA_exact_partial",
    "LFA.SV.C47_false",
    "LFA.SV.C47_false_assign"
   ],
   "note": "Scalar classes for all integers (C47_scalar). All others for dividends up to 2^24 and any divisor (2^24 itself: divisors up to 2^24) for /, given conforming floating point operations; /= where the class truncates or nothing is to be rounded. False for dividends above 2^24 (C47_false) and for /= of classes which round (C47_false_assign)."
  },
  {
   "property": "C48",
   "status": "partial",
   "theorems": [
    "LFA.Mach.C48_index",
    "LFA.Mach.C48_shift",
    "LFA.Mach.C48_member_partial",
    "LFA.Mach.C48_custom"
   ],
   "note": "All intermediates of index, neighbour, named member and byte size computations, including intermediate pointers; C48_custom shows why the default sizes are needed. Missing: access_member(size_of_member, offset) (macros.hpp:340-349) is modelled in machine arithmetic (Mach.accessMemberAt) but no theorem is about that definition, and a mutant of it survived (seeded/LOG.jsonl); C05_access covers it in unbounded integers only."
  },
  {
   "property": "C49",
   "status": "partial",
   "theorems": [
    "LFA.Mach.C49_iff",
    "LFA.Mach.C49_grid_partial",
    "LFA.Mach.C49_rows_partial",
    "LFA.Mach.C49_array_partial",
    "LFA.Mach.C49_false",
    "LFA.Mach.C49_false_grid"
   ],
   "note": "False for soa_array with arbitrary capacity (C49_false) and over-aligned members of 1D grids (C49_false_grid). Partial: exact condition C49_iff; default grids for alignments up to 32 and vector rows; soa_array with suitable capacity or offset."
  },
  {
   "property": "C50",
   "status": "partial",
   "theorems": [
    "LFA.Mach.C50_arity_partial",
    "LFA.Mach.C50_cuda",
    "LFA.Mach.C50_at_least_partial",
    "LFA.Mach.C50_false",
    "LFA.Mach.C50_streaming"
   ],
   "note": "False on QPX and MIC, where ilp_to_arity does not compile (C50_false). Partial: formula and lower bound for the other ISAs; the streaming choice (C50_streaming) is fully proved."
  },
  {
   "property": "C51",
   "status": "partial",
   "theorems": [
    "LFA.Props.C51_partial",
    "LFA.Props.C51_false"
   ],
   "note": "False as stated: swap exchanges bytes (C51_false for every struct with a non-trivial member). Partial: structs with trivial members only."
  },
  {
   "property": "C52",
   "status": "partial",
   "theorems": [
    "LFA.Props.C52_destroy_partial",
    "LFA.Props.C52_released_partial",
    "LFA.Props.C52_false"
   ],
   "note": "False as stated: a throwing converting constructor leaks the constructed members (C52_false). C52_destroy_partial: the destructor destroys everything, in all valid states. C52_released_partial: after every program in which no constructor throws, no object is alive in any storage which has been released."
  },
  {
   "property": "C53",
   "status": "partial",
   "theorems": [
    "LFA.C53_races_partial",
    "LFA.C53_false_broadcast"
   ],
   "note": "construct, destroy, set of single cells and rows, get, load and save, all dims within the launch limits (C53_races_partial). False for broadcast: its kernel's stride is zero, so at least 512 threads write to the first cell, even for a single cell (C53_false_broadcast); all write the same values. RaceFree speaks about the address ranges of the operations; sources are separate buffers in the model."
  },
  {
   "property": "C54",
   "status": "partial",
   "theorems": [
    "LFA.SV.C54_false_int_ieee",
    "LFA.SV.C54_float",
    "LFA.SV.C54_double_partial",
    "LFA.SV.C54_int_partial",
    "LFA.SV.C54_int_div_partial",
    "LFA.SV.C54_false_qpx",
    "LFA.SV.C54_false_int"
   ],
   "note": "float completely; double but for *= on QPX; int but for division where the target computes it in floating point (/ truncates, /= rounds)."
  },
  {
   "property": "C55",
   "status": "partial",
   "theorems": [
    "LFA.SV.C55_float_partial",
    "LFA.SV.C55_double_partial",
    "LFA.SV.C55_int",
    "LFA.SV.C55_available",
    "LFA.SV.C55_false_mic",
    "LFA.SV.C55_false_neon",
    "LFA.SV.C55_false_qpx"
   ],
   "note": "int completely; float and double but for MIC and NEON, where the constants are too small (C55_false_*). QPX lacks the constant."
  },
  {
   "property": "C56",
   "status": "partial",
   "theorems": [
    "LFA.SV.C56_float_target",
    "LFA.SV.C56_double_target",
    "LFA.SV.C56_float_partial",
    "LFA.SV.C56_double_partial",
    "LFA.SV.C56_float_loop_partial",
    "LFA.SV.C56_double_loop_partial",
    "LFA.SV.C56_false_div"
   ],
   "note": "Expressions by induction, loops by induction over the peeled calls, on all targets. C56_float_target and C56_double_target: straight-line code without any restriction, relative to the divisions and square roots of the target. Missing for loops where targets approximate division and square roots (C56_false_div), where there are no comparisons, and ranges without a multiple of the arity (see C37)."
  },
  {
   "property": "C57",
   "status": "partial",
   "theorems": [
    "LFA.SV.C57_float",
    "LFA.SV.C57_int",
    "LFA.SV.C57_double_partial",
    "LFA.SV.C57_false"
   ],
   "note": "All classes but short_vec<double, 32> on QPX (C57_false)."
  },
  {
   "property": "C58",
   "status": "partial",
   "theorems": [
    "LFA.SV.C58_double",
    "LFA.SV.C58_int",
    "LFA.SV.C58_float_partial",
    "LFA.SV.C58_false"
   ],
   "note": "All targets; false for short_vec<float, 32> on QPX (C58_false)."
  },
  {
   "property": "C59",
   "status": "partial",
   "theorems": [
    "LFA.SV.C59_scalar",
    "LFA.SV.C59_simd_partial",
    "LFA.SV.C59_false"
   ],
   "note": "Scalar classes round down, for all integers. Vector classes round to nearest (proved below 2^20), so sqrt(3) differs (C59_false)."
  },
  {
   "property": "C60",
   "status": "partial",
   "theorems": [
    "LFA.Dev.C60_client_partial",
    "LFA.Dev.C60_finish_partial",
    "LFA.Dev.C60_history_partial",
    "LFA.Dev.C60_no_leak",
    "LFA.Dev.C60_get_after_set",
    "LFA.Dev.C60_false_get",
    "LFA.Dev.C60_false_broadcast",
    "LFA.Dev.C60_oom_partial",
    "LFA.Dev.C60_false_oom",
    "LFA.Dev.C60_false_oom_new",
    "LFA.Dev.C60_threads_partial"
   ],
   "note": "Histories of new, destroy, resize, swap, set, get, load, save, peek, poke and queries, for all schedules, addresses and contents of fresh memory, within launch limits and for trivially copyable members. set of one struct to a row reaches the first cell only (C60_false_broadcast); get replaces unregistered members of the target too (C60_false_get, C60_get_after_set). C60_client_partial: clients which choose their calls by what they observed; C60_threads_partial: threads of the host with grids of their own, which can all finish after any turns (C60_finish_partial). C60_oom_partial: if allocations of grids may fail then each outcome is one of those, or undefined behaviour, which each grid that does not get its memory causes (C60_false_oom, C60_false_oom_new). Copy and assignment do not compile."
  },
  {
   "property": "C61",
   "status": "partial",
   "theorems": [
    "LFA.Thr.C61_parallel_partial",
    "LFA.Thr.C61_deterministic",
    "LFA.Thr.C61_no_race",
    "LFA.Thr.C61_calls_partial",
    "LFA.Thr.C61_false_get",
    "LFA.Thr.C61_false_dangling",
    "LFA.Thr.C61_false_set",
    "LFA.Thr.C61_false_race"
   ],
   "note": "Functors run by callback(): all interleavings, no races (C61_parallel_partial, C61_deterministic, C61_no_race). get() and set() only if each thread uses its own grid (C61_calls_partial): on a shared grid they race on the pointer in the staging buffer (C61_false_race), even two calls of the const member get(), which then yields garbage (C61_false_get) or writes to a dead variable (C61_false_dangling)."
  },
  {
   "property": "C62",
   "status": "partial",
   "theorems": [
    "LFA.GK.C62_gauss_bench",
    "LFA.GK.C62_gauss",
    "LFA.GK.C62_gauss_steps",
    "LFA.GK.C62_float_partial",
    "LFA.GK.C62_double_partial",
    "LFA.GK.C62_false",
    "LFA.GK.C62_float_steps_partial",
    "LFA.GK.C62_double_steps_partial",
    "LFA.GK.C62_false_aligned",
    "LFA.GK.C62_gold_steps_partial",
    "LFA.GK.C62_gold_partial",
    "LFA.GK.C62_false_gold",
    "LFA.GK.C62_float_sizes_partial",
    "LFA.GK.C62_double_sizes_partial",
    "LFA.GK.C62_float_sizes_steps_partial",
    "LFA.GK.C62_double_sizes_steps_partial",
    "LFA.GK.C62_false_sizes"
   ],
   "note": "float and double, all targets, arities and expressions, default sizes and all others which suit the accesses (C62_*_sizes_*; C62_false_sizes for others), any number of time steps. The Jacobi stencil of the performance tests is an instance (C62_gold_partial, C62_gold_steps_partial), but leaves out the cell itself (C62_false_gold). The Gauss filter is an instance to which none of the restrictions apply (C62_gauss, C62_gauss_steps, and C62_gauss_bench for the whole benchmark). Missing: ranges along x without a multiple of the arity, where the loop overruns the range (C62_false); aligned and streaming accesses need rows of whole vectors, which default sizes do not guarantee (C62_false_aligned); approximate divisions (C56_false_div)."
  },
  {
   "property": "C63",
   "status": "partial",
   "theorems": [
    "LFA.Throwing.C63_set_partial",
    "LFA.Throwing.C63_broadcast_partial",
    "LFA.Throwing.C63_load_partial",
    "LFA.Throwing.C63_assign_partial",
    "LFA.Throwing.C63_false_resize",
    "LFA.Throwing.C63_false_assign",
    "LFA.Throwing.C63_false_new",
    "LFA.Throwing.C63_false_copy"
   ],
   "note": "set of one and several structs, load, and operator= between grids of equal dimensions, for every point of the exception. False where members are constructed: a throwing constructor or copy constructor leaks the buffer for good (C63_false_new, C63_false_copy); after resize, or operator= between different dimensions, the grid cannot be destroyed (C63_false_resize, C63_false_assign)."
  },
  {
   "property": "C64",
   "status": "partial",
   "theorems": [
    "LFA.GK.C64_gauss_bench",
    "LFA.GK.C64_gauss_steps",
    "LFA.GK.C64_float_partial",
    "LFA.GK.C64_double_partial",
    "LFA.GK.C64_float_steps_partial",
    "LFA.GK.C64_double_steps_partial",
    "LFA.GK.C64_false",
    "LFA.GK.C64_float_sizes_partial",
    "LFA.GK.C64_double_sizes_partial",
    "LFA.GK.C64_float_sizes_steps_partial",
    "LFA.GK.C64_double_sizes_steps_partial"
   ],
   "note": "float and double, all targets, arities, expressions, splits of the loop and schedules, default sizes and all others which suit the accesses (C64_*_sizes_*), any number of time steps; sequentially consistent interleavings, which is adequate because races are excluded. The Gauss filter is an instance without restrictions (C64_gauss_steps, and C64_gauss_bench for the whole benchmark). Missing: what C62 lacks, and functors which read from the new grid what other threads write, which race although they are fine with one thread (C64_false)."
  },
  {
   "property": "C65",
   "status": "partial",
   "theorems": [
    "LFA.GK.C65_float_partial",
    "LFA.GK.C65_double_partial",
    "LFA.GK.C65_false"
   ],
   "note": "float and double, all targets and arities which have comparisons, all expressions, statements and counter types, for numbers of particles which are multiples of the arity. For others the functor also lets the last particles interact with cells beyond the n particles (C65_false); exactly which pairs are processed then is proved too (float_interact, double_interact)."
  },
  {
   "property": "C66",
   "status": "partial",
   "theorems": [
    "LFA.GK.C66_float_partial",
    "LFA.GK.C66_double_partial",
    "LFA.GK.C66_false"
   ],
   "note": "float and double, all targets and arities which have comparisons, all structs, expressions and statements, for numbers of particles which are multiples of the arity; for others the same happens as in C65 (C66_false), and float_buffered and double_buffered say exactly what. Divisions and square roots of float vectors are only covered where they are exact (C44): approximate ones would make the result depend on whether an interaction is processed by a vector or in the end."
  },
  {
   "property": "C67",
   "status": "partial",
   "theorems": [
    "LFA.Line.C67_rows_partial",
    "LFA.Line.C67_rows_local_partial",
    "LFA.Line.C67_launch_partial",
    "LFA.Line.C67_steps_partial",
    "LFA.Line.C67_false_copies",
    "LFA.Line.C67_false_plane",
    "LFA.Line.C67_false_rows",
    "LFA.Line.C67_false_dims"
   ],
   "note": "loops over rows and launches of CUDA kernels, any body, launch configuration, schedule and number of time steps. False for examples/lbm: updateLine takes the accessors by value, so that only the cell (0, 0, 0) is ever updated, with races (C67_false_copies), and gen_dims starts threads for cells outside of the grid (C67_false_dims). False for grids with different extents (C67_false_plane, C67_false_rows)."
  },
  {
   "property": "C68",
   "status": "partial",
   "theorems": [
    "LFA.Props.C68_array_loops_partial",
    "LFA.Props.C68_array_history_partial",
    "LFA.Props.C68_array_push_partial",
    "LFA.Props.C68_array_append_partial",
    "LFA.Props.C68_array_set_partial",
    "LFA.Props.C68_array_poke_partial",
    "LFA.Props.C68_array_assign_partial",
    "LFA.Props.C68_array_load_partial",
    "LFA.Props.C68_array_others_partial",
    "LFA.Props.C68_false_array_new",
    "LFA.Props.C68_false_array_copy",
    "LFA.Props.C68_vector_history_partial",
    "LFA.Props.C68_vector_push_partial",
    "LFA.Props.C68_vector_reserve_partial",
    "LFA.Props.C68_vector_resize_partial",
    "LFA.Props.C68_vector_set_partial",
    "LFA.Props.C68_vector_poke_partial",
    "LFA.Props.C68_vector_pop_partial",
    "LFA.Props.C68_vector_assign_partial",
    "LFA.Props.C68_vector_others_partial",
    "LFA.Props.C68_vector_fill_partial",
    "LFA.Props.C68_false_vector_new",
    "LFA.Props.C68_false_vector_fill",
    "LFA.Props.C68_false_vector_copy",
    "LFA.Props.C68_false_vector_reserve",
    "LFA.Props.C68_false_vector_reserve_unwind",
    "LFA.Props.C68_false_vector_push_unwind",
    "LFA.Props.C68_false_vector_assign",
    "LFA.Props.C68_false_vector_assign_size"
   ],
   "note": "soa_array and soa_vector: all operations on existing containers, for every point of the exception and every program which catches exceptions and goes on, as long as the exception does not come out of the constructor of a member. False for constructors of members: in constructors of soa_array the members constructed before the exception are never destroyed (C68_false_array_*); constructors and reserve of soa_vector leak the buffer (C68_false_vector_new/fill/copy/reserve), reserve and push_back may destroy objects which have not been constructed (C68_false_vector_reserve_unwind, _push_unwind), so may the destructor after operator= (C68_false_vector_assign). After operator= of vectors of different capacity the size may exceed the capacity (C68_false_vector_assign_size)."
  },
  {
   "property": "C69",
   "status": "partial",
   "theorems": [
    "LFA.Props.C69_new_partial",
    "LFA.Props.C69_copy_partial",
    "LFA.Props.C69_history_partial",
    "LFA.Props.C69_false_resize",
    "LFA.Props.C69_false_assign",
    "LFA.Props.C69_blank_partial",
    "LFA.Props.C69_false_retry",
    "LFA.Props.C69_vector_new_partial",
    "LFA.Props.C69_vector_copy_partial",
    "LFA.Props.C69_vector_reserve_partial",
    "LFA.Props.C69_vector_resize_partial",
    "LFA.Props.C69_vector_push_partial",
    "LFA.Props.C69_vector_history_partial",
    "LFA.Props.C69_false_vector_reserve",
    "LFA.Props.C69_false_vector_push",
    "LFA.Props.C69_false_vector_assign"
   ],
   "note": "Constructors of grids and vectors, and the first allocation of reserve, resize and push_back of vectors, for every program which catches exceptions and goes on. False of resize and operator= of soa_grid: the old cells are gone, the new dimensions are reported and the destructor accesses the deallocated buffer (C69_false_resize, C69_false_assign, C69_false_vector_assign); a default constructed grid pretends to have been resized at the second attempt (C69_false_retry). False of the second allocation of soa_vector::reserve and push_back: unwinding accesses a deallocated buffer (C69_false_vector_reserve, C69_false_vector_push)."
  },
  {
   "property": "C70",
   "status": "proved",
   "theorems": [
    "LFA.Share.Arr.C70_array",
    "LFA.Share.Arr.C70_array_deterministic",
    "LFA.Share.Arr.C70_array_no_race",
    "LFA.Share.Arr.C70_array_loop",
    "LFA.Share.Vec.C70_vector",
    "LFA.Share.Vec.C70_vector_deterministic",
    "LFA.Share.Vec.C70_vector_no_race"
   ],
   "note": "soa_array through operator[] and accessors (single members and whole structs) and functors run by callback() of soa_vector; sequentially consistent interleavings, adequate since data races are excluded. get() and set() of soa_vector are not covered: these go through the staging buffer of soa_grid and race (C61)."
  },
  {
   "property": "C71",
   "status": "partial",
   "theorems": [
    "LFA.Testbed.C71_trim",
    "LFA.Testbed.C71_tokenize",
    "LFA.Testbed.C71_cpuinfo",
    "LFA.Testbed.C71_model_name",
    "LFA.Testbed.C71_unknown",
    "LFA.Testbed.C71_false_blank",
    "LFA.Testbed.C71_false_no_value",
    "LFA.Testbed.C71_false_tabs",
    "LFA.Testbed.C71_false_colon",
    "LFA.Testbed.C71_likwid",
    "LFA.Testbed.C71_false_likwid_end"
   ],
   "note": "trim and tokenize for all strings; /proc/cpuinfo for every content (C71_cpuinfo), hence the model name on x86 (C71_model_name) and 'unknown CPU' if no line tells a name (C71_unknown); the output of likwid-topology for tables whose cells with the words are followed by the same value and another cell in all lines, with leftovers of previous lines in the buffer (C71_likwid). False in general: an empty line in front of the entry (C71_false_blank; /proc/cpuinfo on ARM) and an entry without value (C71_false_no_value) are undefined behaviour, as are the words in the last cell of a table (C71_false_likwid_end); the entry for POWER CPUs is not recognised because of its two tabs (C71_false_tabs); names end at a colon (C71_false_colon)."
  },
  {
   "property": "C72",
   "status": "partial",
   "theorems": [
    "LFA.Testbed.C72_roundtrip",
    "LFA.Testbed.C72_columns",
    "LFA.Testbed.C72_dims",
    "LFA.Testbed.C72_dims_clean",
    "LFA.Testbed.C72_evaluate",
    "LFA.Testbed.C72_false_empty",
    "LFA.Testbed.C72_false_semicolon",
    "LFA.Testbed.C72_cells",
    "LFA.Testbed.C72_cells_iff"
   ],
   "note": "All parts for texts without semicolons, newlines and blanks at their ends. False for an empty list of parameters (C72_false_empty: reads dim[0]) and for texts with semicolons (C72_false_semicolon; C72_cells tells how many cells there are, C72_cells_iff when there are ten). The date and the textual representation of performance are inputs."
  },
  {
   "property": "C73",
   "status": "proved",
   "theorems": [
    "LFA.Clock.C73_accuracy",
    "LFA.Clock.C73_monotone",
    "LFA.Clock.C73_span"
   ],
   "note": "IEEE double precision with rounding to nearest, any resolution of ties, no contraction to fused multiply-add; not for Windows."
  },
  {
   "property": "C74",
   "status": "partial",
   "theorems": [
    "LFA.GK.C74_false_boundary_double",
    "LFA.GK.C74_false_size_double",
    "LFA.GK.C74_float_partial",
    "LFA.GK.C74_double_partial",
    "LFA.GK.C74_false_boundary",
    "LFA.GK.C74_false_size"
   ],
   "note": "float and double, all targets and arities with comparisons, every struct, list, boundary and number of time steps, for numbers of elements which are multiples of the arity in each step and a boundary which stays the same (or a single step). False otherwise: the vector with the boundary is not updated when the boundary changes (C74_false_boundary), and the last vector of a list whose length is no multiple of the arity moves elements beyond its end, so that there are more elements afterwards (C74_false_size); for double C74_false_boundary_double, C74_false_size_double."
  },
  {
   "property": "C75",
   "status": "proved",
   "theorems": [
    "LFA.GK.C75_float",
    "LFA.GK.C75_double",
    "LFA.GK.C75_double_exact",
    "LFA.GK.C75_false_bronze",
    "LFA.GK.C75_iron",
    "LFA.GK.C75_agree",
    "LFA.GK.C75_agree_double",
    "LFA.GK.C75_bronzeBench",
    "LFA.GK.C75_bench",
    "LFA.GK.C75_ironBench"
   ],
   "note": "float and double, all targets and arities, every struct (also array members), kernel, list and number of time steps, relative to the divisions and square roots of the target (floatArith, doubleArith); C75_double_exact: those of scalars for double except on QPX. The capacity has to be at least the number of elements rounded up to the arity, since the last vector is loaded and stored as a whole. NBodyIron, which reads and writes single members, computes the lists for any number of elements (C75_iron), so the versions agree (C75_agree, C75_agree_double). The benchmarks as a whole, with the choice of the capacity and the filling of the arrays, never violate a contract, whatever the number of particles: C75_bench (the capacity which is chosen always suffices, more than 8192 particles are rejected), C75_ironBench. The loop of NBodyBronze, which does not belong to the property's kernels since it ends arity - 1 elements before the end, does not update the elements behind the last whole vector (C75_false_bronze); over the whole benchmark these never move, and if there are none the result is that of the scalar loops (C75_bronzeBench)."
  },
  {
   "property": "C76",
   "status": "partial",
   "theorems": [
    "LFA.GK.C76_float_partial",
    "LFA.GK.C76_float_few",
    "LFA.GK.C76_float_exact",
    "LFA.GK.C76_false"
   ],
   "note": "float, all targets and arities with comparisons, every struct, test, list of elements and number of repetitions, if each lane counts at most 2^24 pairs (C76_float_few: any test on few elements). False beyond: lanes stop at 2^24 (C76_false; C76_float_exact says what is counted instead). Given conforming conversions and sums rounded to nearest, and an int which does not overflow."
  },
  {
   "property": "C77",
   "status": "partial",
   "theorems": [
    "LFA.GK.C77_false_size_double",
    "LFA.GK.C77_double_iff",
    "LFA.GK.C77_float_partial",
    "LFA.GK.C77_double_partial",
    "LFA.GK.C77_false_size",
    "LFA.GK.C77_float_iff"
   ],
   "note": "float and double, all targets and arities with comparisons (float: tests without division and square root where these are approximated), every struct, test, update, list and number of repetitions, for numbers of elements which are multiples of the arity. False otherwise: the loop ends only if its index equals size(), so it does not end or leaves the array (C77_false_size, C77_float_iff; for double C77_false_size_double, C77_double_iff)."
  },
  {
   "property": "C78",
   "status": "proved",
   "theorems": [
    "LFA.C78_history",
    "LFA.C78_exchange",
    "LFA.C78_needs_dims",
    "LFA.C78_shared"
   ],
   "note": "all histories in which pointers are given to grids of equal dimensions and are not kept across other operations (C78_history); C78_exchange: the exchange of two grids in any valid state. The conditions are needed: exchanging grids of other dimensions leaves the buffer (C78_needs_dims), a buffer which two grids share is freed twice (C78_shared)."
  },
  {
   "property": "C79",
   "status": "proved",
   "theorems": [
    "LFA.Props.C79_client",
    "LFA.Props.C79_threads",
    "LFA.Props.C79_run",
    "LFA.Props.C79_default",
    "LFA.Props.C79_step",
    "LFA.Props.C79_needs_small",
    "LFA.Props.C79_needs_near"
   ],
   "note": "also for clients which choose their calls by what they observed (C79_client) and for threads of such clients in any interleaving (C79_threads); all legal histories (C79_run), every step on the way (C79_step), and without any condition on extents for those the library selects (C79_default). Beyond the bounds it fails: extents of 2^33 x 2^33 given by the user overflow (C79_needs_small), an accessor at x = 2^63 overflows before it is shifted back (C79_needs_near). One past the end of a buffer is allowed for pointers; strict aliasing and alignment are not modelled here."
  },
  {
   "property": "C80",
   "status": "proved",
   "theorems": [
    "LFA.Props.C80_client",
    "LFA.Props.C80_threads",
    "LFA.Props.C80_client_all",
    "LFA.Props.C80_run",
    "LFA.Props.C80_default",
    "LFA.Props.C80_lists",
    "LFA.Props.C80_lists_default",
    "LFA.Props.C80_needs_element",
    "LFA.Props.C80_needs_small"
   ],
   "note": "also for clients which choose their calls by what they observed (C80_client, C80_client_all with copies and assignments) and for threads of such clients in any interleaving (C80_threads); all programs within the contracts of VecSpec, copies and assignments included (C80_run), without any condition on sizes for types without size traits (C80_default), and observations of lists (C80_lists, C80_lists_default). Beyond the contracts it fails: pop_back on an empty vector wraps its count (C80_needs_element), a size table which starts at 2^62 overflows (C80_needs_small). Size traits which give vectors 2D or 3D extents are excluded, see C34."
  },
  {
   "property": "C81",
   "status": "proved",
   "theorems": [
    "LFA.Props.C81_client",
    "LFA.Props.C81_threads",
    "LFA.Props.C81_run",
    "LFA.Props.C81_needs_element",
    "LFA.Props.C81_needs_sum",
    "LFA.Props.C81_needs_int",
    "LFA.Props.C81_needs_small"
   ],
   "note": "also for clients which choose their calls by what they observed (C81_client) and for threads of such clients in any interleaving (C81_threads); all programs within the contracts of ArrSpec (C81_run). Beyond the contracts it fails: back() on an empty array (C81_needs_element), load with num + offset >= 2^64 (C81_needs_sum, see C24), a count of elements which is no int (C81_needs_int), storage of 2^64 bytes (C81_needs_small)."
  },
  {
   "property": "C82",
   "status": "partial",
   "theorems": [
    "LFA.C82_partial",
    "LFA.C82_false",
    "LFA.C82_false_fill"
   ],
   "note": "all legal programs whose requests are below 2^64 bytes each, with all element sizes, schedules and addresses (C82_partial). False for each request of 2^64 bytes or more: the array claims to have elements it has no memory for, save() yields fewer (C82_false), resize() with a default element writes behind the memory (C82_false_fill)."
  },
  {
   "property": "C83",
   "status": "partial",
   "theorems": [
    "LFA.GK.C83_float_partial",
    "LFA.GK.C83_double_partial",
    "LFA.GK.C83_false"
   ],
   "note": "all functors whose accesses stay inside of the grid, any number of particles for loops which set members, multiples of the arity for loops over pairs; float and double. Missing: interactions of numbers of particles which are no multiples of the arity, where it is false (C83_false, as C65 and C66), float divisions and square roots where vectors approximate these, and members of the same particle read after they were assigned to in the same loop without holding a number before."
  },
  {
   "property": "C84",
   "status": "partial",
   "theorems": [
    "LFA.GK.C84_partial",
    "LFA.GK.C84_steps_partial",
    "LFA.GK.C84_false_last",
    "LFA.GK.C84_false_center"
   ],
   "note": "all accesses are inside of the grids and aligned, all effects are given exactly (C84_partial), for any number of time steps (C84_steps_partial); blocks of 8 cells yield the formula without the cell's own temperature. The full claim is false of the example: a cell in a block ignores its own old temperature (C84_false_center, as the code drops the summand with WEIGHT_C), and unless the row length is 3 modulo 8 the last inner cell of each row is never updated (C84_false_last). With default extents, or any custom ones for which rows are of even length and the member's array starts at a multiple of 16 bytes; the member has to be 8 bytes wide, buffers 16-byte aligned."
  },
  {
   "property": "C85",
   "status": "partial",
   "theorems": [
    "LFA.Props.C85_grid_partial",
    "LFA.Props.C85_pointer",
    "LFA.Props.C85_vector_partial",
    "LFA.Props.C85_array",
    "LFA.Props.C85_array_fold",
    "LFA.Props.C85_array_filter",
    "LFA.Props.C85_vector_all"
   ],
   "note": "arrays: all clients, and the two loops (C85_array, C85_array_fold, C85_array_filter); grids and handed over buffers: all clients within Spec.Pre (C85_grid_partial, C85_pointer); vectors: all clients within VecList.Pre (C85_vector_partial), and copies, assignments and arbitrary members by the more detailed VecSpec, which tells which cells hold objects (C85_vector_all). Missing: what C14 and C28 lack, namely copies of and assignments from default constructed grids, and lists for copies of vectors which lose elements, for members which were never constructed and for sizes outside of the table; it is false there (C14_false, C15_false_*, C28_false, C32_false, C33_false)."
  },
  {
   "property": "C86",
   "status": "partial",
   "theorems": [
    "LFA.Props.C86_array",
    "LFA.Props.C86_grid_partial",
    "LFA.Props.C86_vector_partial",
    "LFA.Props.C86_finish",
    "LFA.Props.C86_parallel_filter",
    "LFA.Props.C86_finish_grid_partial",
    "LFA.Props.C86_finish_vector",
    "LFA.Props.C86_grid_memory",
    "LFA.Props.C86_grid_apart",
    "LFA.Props.C86_vector_all",
    "LFA.Props.C86_vector_memory",
    "LFA.Props.C86_vector_apart"
   ],
   "note": "turns are whole calls, which is adequate as calls on different containers access different memory (C86_grid_memory, C86_grid_apart, C86_vector_memory, C86_vector_apart; soa_array has no memory besides the object; the allocator itself is taken to be thread safe); arrays: all clients (C86_array, C86_parallel_filter, C86_finish, also C86_finish_grid_partial and C86_finish_vector); grids within Spec.Pre and vectors within VecList.Pre (C86_grid_partial, C86_vector_partial), vectors with copies and assignments by VecSpec (C86_vector_all), where get, save and pop_back count as changes because of the staging buffer (C61). Missing: what C14 and C28 lack."
  },
  {
   "property": "C87",
   "status": "partial",
   "theorems": [
    "LFA.Dev.C87_finish_partial",
    "LFA.Dev.C87_partial",
    "LFA.Dev.C87_false_reserve",
    "LFA.Dev.C87_false_resize",
    "LFA.Dev.C87_false_push",
    "LFA.Dev.C87_false_fill",
    "LFA.Dev.C87_misuse",
    "LFA.Dev.C87_threads_partial"
   ],
   "note": "All clients, schedules, addresses and contents of fresh memory, for operations which get no other buffer, including those which throw because the traits do not support the size (C87_partial), and threads of the host with vectors of their own (C87_threads_partial), which can all finish after any turns (C87_finish_partial). False: reserve, resize beyond the capacity and push_back on a full buffer are undefined behaviour in every reachable state, as the old buffer on the device is copied as if it was on the host (C87_false_reserve, C87_false_resize, C87_false_push); the constructor with a value sets the first element only (C87_false_fill). C87_misuse: calls for vectors which do not exist are undefined behaviour, not ignored. Copies and assignments do not compile."
  },
  {
   "property": "C88",
   "status": "partial",
   "theorems": [
    "LFA.DevArr.C88_partial",
    "LFA.DevArr.C88_false_push",
    "LFA.DevArr.C88_false_pop",
    "LFA.DevArr.C88_false_bytes",
    "LFA.DevArr.C88_map_partial"
   ],
   "note": "structs with trivial members, all clients, kernels of one thread which stay within the capacity, kernels of many threads without races, all schedules (C88_partial); a kernel which changes each element is a map (C88_map_partial). False: in device code push_back on a full array overruns the storage (C88_false_push) and pop_back on an empty one makes the size 2^64-1 (C88_false_pop), as the checks are compiled for the host only; structs with non-trivial members come back as bytes (C88_false_bytes). load, copies between capacities and non-const copies contain throw and do not compile for devices. Arrays which kernels create themselves are not modelled."
  }
 ]
}