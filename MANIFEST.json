{
 "claims": [
  {
   "property": "C01",
   "status": "proved",
   "theorems": [
    "MpiSerial.C01_live_handles_distinct",
    "MpiSerial.C01_calls"
   ],
   "note": "handle table by itself, and histories of MPI calls"
  },
  {
   "property": "C02",
   "status": "proved",
   "theorems": [
    "MpiSerial.C02_live_handle_stable",
    "MpiSerial.C02_calls"
   ],
   "note": "handle table by itself, and histories of MPI calls"
  },
  {
   "property": "C03",
   "status": "proved",
   "theorems": [
    "MpiSerial.C03_capacity",
    "MpiSerial.C03_capacity_reached"
   ],
   "note": "second theorem shows every live count up to 262143 is reachable"
  },
  {
   "property": "C04",
   "status": "partial",
   "theorems": [
    "MpiSerial.C04_fresh",
    "MpiSerial.C04_after_finalize",
    "MpiSerial.C04_twice",
    "MpiSerial.C04_init",
    "MpiSerial.C04_handles_before_init_partial",
    "MpiSerial.C04_fails_released",
    "MpiSerial.C04_exact"
   ],
   "note": "All clauses hold for every history except one: a handle-creating call before MPI_Init makes it abort only if handle 1 was not released again (C04_fails_released is a history where MPI_Init succeeds although a handle created earlier is still live). C04_init shows MPI_Init never produces another world handle. C04_exact: in every reachable state MPI_Init succeeds exactly if handle 1 is the next one to be given out, and aborts otherwise. Premises: fewer than 2^31-1 communicators ever created, 2^30-1 not freed."
  },
  {
   "property": "C05",
   "status": "proved",
   "theorems": [
    "MpiSerial.C05_lifo",
    "MpiSerial.C05_blocks_high_water"
   ],
   "note": ""
  },
  {
   "property": "C06",
   "status": "proved",
   "theorems": [
    "MpiSerial.C06_lists_are_sequences",
    "MpiSerial.C06_operations_succeed",
    "MpiSerial.C06_apply",
    "MpiSerial.C06_cursor"
   ],
   "note": "while at most 2^31-1 items/lists are outstanding (C int counters)"
  },
  {
   "property": "C07",
   "status": "proved",
   "theorems": [
    "MpiSerial.C07_leak_accounting"
   ],
   "note": ""
  },
  {
   "property": "C08",
   "status": "proved",
   "theorems": [
    "MpiSerial.C08_duplicate_independent"
   ],
   "note": ""
  },
  {
   "property": "C09",
   "status": "proved",
   "theorems": [
    "MpiSerial.C09_isend",
    "MpiSerial.C09_irecv",
    "MpiSerial.C09_non_overtaking",
    "MpiSerial.C09_messages_in_order",
    "MpiSerial.C09_receives_in_order",
    "MpiSerial.C21_iprobe"
   ],
   "note": "Concrete state (handle table, linked lists, request records) after any history; completion is what MPI_Test reports. Premise: fewer than 2^31-1 unmatched operations (C int counter)."
  },
  {
   "property": "C10",
   "status": "proved",
   "theorems": [
    "MpiSerial.C10_one_partner",
    "MpiSerial.C10_never_again",
    "MpiSerial.C10_no_delivery_without_send"
   ],
   "note": "Histories that never release a pending request (Step.requestFree premise)."
  },
  {
   "property": "C11",
   "status": "proved",
   "theorems": [
    "MpiSerial.C11_traffic",
    "MpiSerial.C11_requests",
    "MpiSerial.C11_probe",
    "MpiSerial.C11_probe_own",
    "MpiSerial.C10_one_partner"
   ],
   "note": "Stated for every call of the history relation."
  },
  {
   "property": "C12",
   "status": "proved",
   "theorems": [
    "MpiSerial.C12_no_pending_pair",
    "MpiSerial.C12_deadlock_not_premature"
   ],
   "note": ""
  },
  {
   "property": "C13",
   "status": "proved",
   "theorems": [
    "MpiSerial.C13_status",
    "MpiSerial.C13_recv",
    "MpiSerial.C13_sendrecv"
   ],
   "note": ""
  },
  {
   "property": "C14",
   "status": "proved",
   "theorems": [
    "MpiSerial.C14_test",
    "MpiSerial.C14_wait"
   ],
   "note": ""
  },
  {
   "property": "C15",
   "status": "proved",
   "theorems": [
    "MpiSerial.C15_send",
    "MpiSerial.C15_recv",
    "MpiSerial.C15_irsend",
    "MpiSerial.C15_null",
    "MpiSerial.C15_other",
    "MpiSerial.C15_sendrecv"
   ],
   "note": "When a partner waits, the outcome equals that of the data copy (C22, C32); premises: a handle is left (262143 is the table's capacity), fewer than 2^31-1 unmatched operations."
  },
  {
   "property": "C16",
   "status": "proved",
   "theorems": [
    "MpiSerial.C16_isend",
    "MpiSerial.C16_irecv",
    "MpiSerial.C16_recv",
    "MpiSerial.C15_null"
   ],
   "note": "Premise: a handle is left."
  },
  {
   "property": "C17",
   "status": "proved",
   "theorems": [
    "MpiSerial.C17_test_success",
    "MpiSerial.C17_wait_success",
    "MpiSerial.C17_test_unsuccessful",
    "MpiSerial.C17_null"
   ],
   "note": ""
  },
  {
   "property": "C18",
   "status": "partial",
   "theorems": [
    "MpiSerial.C18_waitall",
    "MpiSerial.C18_testall_partial",
    "MpiSerial.C18_testall_releases",
    "MpiSerial.C18_ignore_partial",
    "MpiSerial.C18_fails_testall",
    "MpiSerial.C18_fails_ignore",
    "MpiSerial.C18_ignore_exact"
   ],
   "note": "MPI_Waitall with statuses proved in full; the code violates the claim for MPI_Testall with flag=0 (releases completed requests) and for MPI_STATUSES_IGNORE with two or more complete requests (invalid pointer), both proved; C18_ignore_exact: the exact outcome with MPI_STATUSES_IGNORE, for all request arrays."
  },
  {
   "property": "C19",
   "status": "partial",
   "theorems": [
    "MpiSerial.C19_testany_partial",
    "MpiSerial.C19_waitany_partial",
    "MpiSerial.C19_fails_index"
   ],
   "note": "All but the reported index, which the code never writes (proved)."
  },
  {
   "property": "C20",
   "status": "partial",
   "theorems": [
    "MpiSerial.C20_testsome",
    "MpiSerial.C20_counted",
    "MpiSerial.C20_waitsome_partial",
    "MpiSerial.C20_fails_waitsome",
    "MpiSerial.C18_ignore_exact"
   ],
   "note": "MPI_Testsome proved (null entries are counted as complete); MPI_Waitsome never aborts (proved)."
  },
  {
   "property": "C21",
   "status": "proved",
   "theorems": [
    "MpiSerial.C21_iprobe",
    "MpiSerial.C21_other"
   ],
   "note": ""
  },
  {
   "property": "C22",
   "status": "partial",
   "theorems": [
    "MpiSerial.C22_recv_first_partial",
    "MpiSerial.C22_recv_first_returns_partial",
    "MpiSerial.C22_send_first_partial",
    "MpiSerial.C22_send_first_same_partial",
    "MpiSerial.C22_order_partial",
    "MpiSerial.C22_send_first_exact",
    "MpiSerial.C22_fails_send_first"
   ],
   "note": "Holds for every call in which the receive was posted first (also MPI_Sendrecv and the collectives) with buffer offsets that are ints. When the send was posted first, recv.c:81 uses the receiver's count and type for both sides: the property fails for differing layouts (C22_fails_send_first) and is proved when the receive type lays out the send buffer as the send type does; C22_send_first_exact says for all datatypes exactly when the message arrives as it should."
  },
  {
   "property": "C23",
   "status": "partial",
   "theorems": [
    "MpiSerial.C23_refused_partial",
    "MpiSerial.C23_over_receive_copy",
    "MpiSerial.C23_fails_send_first",
    "MpiSerial.C23_fails_send_first_always"
   ],
   "note": "Holds whenever the receive was posted first (also MPI_Sendrecv and the collectives); fails when the send was posted first (C23_fails_send_first; for all types and states: C23_fails_send_first_always)."
  },
  {
   "property": "C24",
   "status": "proved",
   "theorems": [
    "MpiSerial.C24_struct_typemap",
    "MpiSerial.C24_contiguous_typemap",
    "MpiSerial.C24_hvector_typemap",
    "MpiSerial.C24_vector_typemap",
    "MpiSerial.C24_hindexed_typemap",
    "MpiSerial.C24_indexed_typemap",
    "MpiSerial.C24_indexed_block_typemap"
   ],
   "note": "component extents as reported by MPI_Type_extent (what those are is C25); success of the model run includes absence of out-of-bounds writes"
  },
  {
   "property": "C25",
   "status": "partial",
   "theorems": [
    "MpiSerial.C25_bounds_partial",
    "MpiSerial.C25_contiguous_partial",
    "MpiSerial.C25_hvector_partial",
    "MpiSerial.C25_vector_partial",
    "MpiSerial.C25_hindexed_partial",
    "MpiSerial.C25_indexed_partial",
    "MpiSerial.C25_indexed_block_partial",
    "MpiSerial.C25_basic_extent",
    "MpiSerial.C25_reports",
    "MpiSerial.C25_struct_call_partial",
    "MpiSerial.C25_contiguous_call_partial",
    "MpiSerial.C25_hvector_call_partial",
    "MpiSerial.C25_vector_call_partial",
    "MpiSerial.C25_hindexed_call_partial",
    "MpiSerial.C25_indexed_call_partial",
    "MpiSerial.C25_indexed_block_call_partial",
    "MpiSerial.C25_fails_empty",
    "MpiSerial.C25_fails_uninitialised",
    "MpiSerial.C25_empty_exact",
    "MpiSerial.C25_uninitialised_exact"
   ],
   "note": "the code violates the statement for types without data entries and when malloc'ed memory does not read as zero (o_lb/o_ub never initialised); C25_empty_exact and C25_uninitialised_exact say for all calls what happens then, and when the extent is right all the same; proved otherwise, nested to any depth; the _call theorems say the same of MPI calls on handles in any history"
  },
  {
   "property": "C26",
   "status": "partial",
   "theorems": [
    "MpiSerial.C26_markers_partial",
    "MpiSerial.C25_struct_call_partial",
    "MpiSerial.C26_fails_upper",
    "MpiSerial.C26_fails_lower",
    "MpiSerial.C26_fails_witness"
   ],
   "note": "the code compares bounds as unsigned: proved for non-negative explicit lower and negative explicit upper bounds; the failure for the other signs is proved universally"
  },
  {
   "property": "C27",
   "status": "proved",
   "theorems": [
    "MpiSerial.C27_struct_size",
    "MpiSerial.C27_contiguous_size",
    "MpiSerial.C27_hvector_size",
    "MpiSerial.C27_vector_size",
    "MpiSerial.C27_hindexed_size",
    "MpiSerial.C27_indexed_size",
    "MpiSerial.C27_indexed_block_size",
    "MpiSerial.C25_reports"
   ],
   "note": "element counts and byte sizes within the int range (the code counts in int)"
  },
  {
   "property": "C28",
   "status": "partial",
   "theorems": [
    "MpiSerial.C28_contiguous_forms",
    "MpiSerial.C28_vector_hvector",
    "MpiSerial.C28_indexed_hindexed",
    "MpiSerial.C28_indexed_block_indexed",
    "MpiSerial.C28_consecutive_partial",
    "MpiSerial.C28_fails_zero",
    "MpiSerial.C28_zero_exact"
   ],
   "note": "equality of the whole outcome; false for zero copies of a type with explicit bounds (C28_fails_zero; C28_zero_exact gives the bounds for all such calls), proved for everything else"
  },
  {
   "property": "C29",
   "status": "partial",
   "theorems": [
    "MpiSerial.C29_predefined_partial",
    "MpiSerial.C29_basic_layout",
    "MpiSerial.C29_pair_layout",
    "MpiSerial.C29_fails"
   ],
   "note": "all constants but MPI_INTEGER16, MPI_SIGNED_CHAR, MPI_WCHAR, for which the statement is proved false"
  },
  {
   "property": "C30",
   "status": "partial",
   "theorems": [
    "MpiSerial.C30_recv_type",
    "MpiSerial.C30_send_type_partial",
    "MpiSerial.C30_new",
    "MpiSerial.C30_commit",
    "MpiSerial.C30_usable",
    "MpiSerial.C30_derived_uncommitted",
    "MpiSerial.C30_uncommitted_copy",
    "MpiSerial.C30_fails_send_first",
    "MpiSerial.C30_fails_send_first_always"
   ],
   "note": "An uncommitted receive type is always refused; an uncommitted send type is refused if the receive was posted first, but goes unnoticed if the send was (C30_fails_send_first; for all types and states: C30_fails_send_first_always)."
  },
  {
   "property": "C31",
   "status": "partial",
   "theorems": [
    "MpiSerial.C31_frame_partial",
    "MpiSerial.C31_frame_exact",
    "MpiSerial.C31_landing",
    "MpiSerial.C31_fails_large"
   ],
   "note": "Holds for offsets within a C int; beyond 2 GiB the code writes elsewhere (C31_fails_large). C31_frame_exact says where, for every layout; C31_landing when that is the right place."
  },
  {
   "property": "C32",
   "status": "proved",
   "theorems": [
    "MpiSerial.C32_bytes",
    "MpiSerial.C32_succeeds",
    "MpiSerial.C32_bytes_exact"
   ],
   "note": "The property is about offsets that fit a C int; C32_bytes_exact says what happens for any offsets."
  },
  {
   "property": "C33",
   "status": "proved",
   "theorems": [
    "MpiSerial.C33_round_trip",
    "MpiSerial.C33_calls"
   ],
   "note": "On descriptors and (C33_calls) for the calls of a program with handles; the packed bytes may be moved elsewhere in between; packed bytes disjoint from both user buffers"
  },
  {
   "property": "C34",
   "status": "proved",
   "theorems": [
    "MpiSerial.C34_pack_position",
    "MpiSerial.C34_unpack_position",
    "MpiSerial.C34_pack_succeeds_iff",
    "MpiSerial.C34_unpack_succeeds_iff",
    "MpiSerial.C34_position_beyond",
    "MpiSerial.C34_pack_call",
    "MpiSerial.C34_unpack_call"
   ],
   "note": "On descriptors and (C34_pack_call, C34_unpack_call) for the calls of a program with handles; outsize at most INT_MAX-128 (the code adds an element length to position as int)"
  },
  {
   "property": "C35",
   "status": "partial",
   "theorems": [
    "MpiSerial.C35_gather",
    "MpiSerial.C35_scatter",
    "MpiSerial.C35_alltoall",
    "MpiSerial.C35_reductions",
    "MpiSerial.C35_operator",
    "MpiSerial.C35_gatherv_partial",
    "MpiSerial.C35_scatterv_partial",
    "MpiSerial.C35_alltoallv_partial",
    "MpiSerial.C35_alltoallw",
    "MpiSerial.C35_displacement_exact",
    "MpiSerial.C35_displacement_right",
    "MpiSerial.C35_fails_displacement"
   ],
   "note": "Outcome (bytes written, or the way the program ends) equals that of MPI_Sendrecv with oneself, in every reachable state. The v variants truncate displacement*extent to int (C35_fails_displacement), so their theorems assume it fits; C35_displacement_exact and C35_displacement_right say for all displacements where the message goes and exactly when that is right; offsets inside one typed buffer have the same limit, as for point-to-point (C32)."
  },
  {
   "property": "C36",
   "status": "partial",
   "theorems": [
    "MpiSerial.C36_root_partial",
    "MpiSerial.C36_mpi_root",
    "MpiSerial.C36_in_place_partial",
    "MpiSerial.C36_nothing",
    "MpiSerial.C36_fails_root",
    "MpiSerial.C36_fails_in_place",
    "MpiSerial.C36_in_place_exact"
   ],
   "note": "Fails in two ways: with MPI_IN_PLACE a bad root is not noticed, and MPI_Reduce/Scan/Reduce_scatter/Alltoall do not know MPI_IN_PLACE (C36_in_place_exact: they send from that address). Everything else is proved for all arguments and states."
  },
  {
   "property": "C37",
   "status": "proved",
   "theorems": [
    "MpiSerial.C37_null",
    "MpiSerial.C37_fresh",
    "MpiSerial.C37_total",
    "MpiSerial.C37_singleton"
   ],
   "note": "Premises: room for one more communicator in the int counters of comm.c and list.c."
  },
  {
   "property": "C38",
   "status": "partial",
   "theorems": [
    "MpiSerial.C38_obtainable",
    "MpiSerial.C38_unique",
    "MpiSerial.C38_comm_group",
    "MpiSerial.C38_union",
    "MpiSerial.C38_intersection",
    "MpiSerial.C38_difference",
    "MpiSerial.C38_null",
    "MpiSerial.C38_freed",
    "MpiSerial.C38_lattice",
    "MpiSerial.C38_incl",
    "MpiSerial.C38_range_incl_partial",
    "MpiSerial.C38_fails_range",
    "MpiSerial.C38_fails_range_always"
   ],
   "note": "MPI_Group_range_incl aborts for valid strided ranges such as (0,3,5), which describe exactly rank 0 (C38_fails_range; C38_fails_range_always: every such range, in every state); everything else holds."
  },
  {
   "property": "C39",
   "status": "proved",
   "theorems": [
    "MpiSerial.C39_translate",
    "MpiSerial.C39_aborts"
   ],
   "note": ""
  },
  {
   "property": "C40",
   "status": "proved",
   "theorems": [
    "MpiSerial.C40_create",
    "MpiSerial.C40_create_iff",
    "MpiSerial.C40_get",
    "MpiSerial.C40_coords",
    "MpiSerial.C40_dims",
    "MpiSerial.C40_none"
   ],
   "note": ""
  },
  {
   "property": "C41",
   "status": "proved",
   "theorems": [
    "MpiSerial.C41_roundtrip",
    "MpiSerial.C41_constants",
    "MpiSerial.C41_version",
    "MpiSerial.C41_init",
    "MpiSerial.C41_checked"
   ],
   "note": "The header tables are transcribed by hand. mpi_init passes iff the sizes match, with REAL8 etc. as configured; C41_checked shows the comparison detects any differing constant."
  },
  {
   "property": "C42",
   "status": "proved",
   "theorems": [
    "MpiSerial.C42_error_string",
    "MpiSerial.C42_processor_name",
    "MpiSerial.C42_library_version",
    "MpiSerial.C42_library_version_fortran"
   ],
   "note": "Buffers of at least the documented sizes; gethostname is an arbitrary result and content of the 128 bytes."
  },
  {
   "property": "C43",
   "status": "proved",
   "theorems": [
    "MpiSerial.C43_initialized",
    "MpiSerial.C43_thread",
    "MpiSerial.C43_thread_fortran"
   ],
   "note": "Any list of the modelled calls with arbitrary arguments, all of which return."
  },
  {
   "property": "C44",
   "status": "partial",
   "theorems": [
    "MpiSerial.C44_safe_partial",
    "MpiSerial.C44_account",
    "MpiSerial.C44_fails_signed_char"
   ],
   "note": "No undefined behaviour in any well-formed history, apart from MPI_SIGNED_CHAR and MPI_WCHAR, whose table entries are null (C44_fails_signed_char), and within the capacity of the handle table and of int counters."
  },
  {
   "property": "C45",
   "status": "partial",
   "theorems": [
    "MpiSerial.C45_count_partial",
    "MpiSerial.C45_reported",
    "MpiSerial.C45_fails",
    "MpiSerial.C45_fails_always",
    "MpiSerial.C45_fails_nonblocking"
   ],
   "note": "The code reports the receive count, not the message length: proved for messages at least as long as the receive, refuted for all shorter ones (C45_reported, C45_fails_always), among them receives from MPI_PROC_NULL. The other completing calls leave the count as it was (C45_fails_nonblocking)."
  },
  {
   "property": "C46",
   "status": "partial",
   "theorems": [
    "MpiSerial.C46_recognised",
    "MpiSerial.C46_in_place_partial",
    "MpiSerial.C46_through",
    "MpiSerial.C46_status",
    "MpiSerial.C46_statuses",
    "MpiSerial.C46_fails_in_place",
    "MpiSerial.C46_in_place_exact"
   ],
   "note": "The Fortran bindings of MPI_Allreduce, Reduce, Scan, Reduce_scatter, Alltoall do not translate MPI_IN_PLACE (C46_fails_in_place; C46_in_place_exact says what each does with it); everything else holds."
  },
  {
   "property": "C47",
   "status": "partial",
   "theorems": [
    "MpiSerial.C47_silent",
    "MpiSerial.C47_footprint_partial",
    "MpiSerial.C47_history_partial",
    "MpiSerial.C47_fails_displacement",
    "MpiSerial.C47_footprint_exact",
    "MpiSerial.C47_history_exact",
    "MpiSerial.C47_within_limits"
   ],
   "note": "Every modelled call, after every well-formed history. Limits: offsets of elements and displacement*extent must fit a C int (the code truncates them: C47_fails_displacement, C31_fails_large). C47_footprint_exact and C47_history_exact have no such limit: only bytes at the places where elements land with offsets reduced as the code does (CodeWrites) change; C47_within_limits: within the limits these are bytes the call may change. For MPI_Pack the permitted bytes are those between position and outsize."
  },
  {
   "property": "C48",
   "status": "partial",
   "theorems": [
    "MpiSerial.C48_live",
    "MpiSerial.C48_histories",
    "MpiSerial.C48_lookup",
    "MpiSerial.C48_double_release",
    "MpiSerial.C48_release",
    "MpiSerial.C48_list_histories",
    "MpiSerial.C48_list_delete",
    "MpiSerial.C48_fails_duplicate",
    "MpiSerial.C48_duplicate_exact"
   ],
   "note": "False in two cases, both proved: AP_list_duplicate does not set the field the list check reads, so a correct removal from a duplicate aborts (C48_fails_duplicate; C48_duplicate_exact: for every duplicate, unless the storage happens to hold the right number); a handle released twice in a row goes unnoticed exactly when no other handle of the table was free (C48_double_release, else branch), after which it is handed out repeatedly; more generally exactly one of the numbers of the table that are not live, the end of the free list, can be released unnoticed (C48_release)."
  },
  {
   "property": "C49",
   "status": "partial",
   "theorems": [
    "MpiSerial.C49_accounting",
    "MpiSerial.C49_balanced",
    "MpiSerial.C49_finalize",
    "MpiSerial.C49_fails_finalize"
   ],
   "note": "Everything except the clause about MPI_Finalize, which is false: it gives back neither lists nor datatype descriptors (C49_finalize says exactly when list storage remains; C49_fails_finalize is the smallest program)."
  },
  {
   "property": "C50",
   "status": "partial",
   "theorems": [
    "MpiSerial.C50_performs_partial",
    "MpiSerial.C50_reads_back",
    "MpiSerial.C50_history_partial",
    "MpiSerial.C50_fails_hvector_read",
    "MpiSerial.C50_fails_hvector_big",
    "MpiSerial.C50_fails_pack_size",
    "MpiSerial.C50_pack_size_exact",
    "MpiSerial.C50_hvector_crash_exact",
    "MpiSerial.C50_hvector_big_exact"
   ],
   "note": "All bindings except where the code is wrong: MPI_PACK_SIZE (stores 8 bytes in an INTEGER), MPI_TYPE_HVECTOR and MPI_TYPE_CREATE_HVECTOR on big-endian machines or at the end of accessible memory (read 8 bytes of an INTEGER), MPI_IN_PLACE in seven collectives (C46). The three exact theorems say what these calls do instead. Address-sized arguments are taken to be of kind MPI_ADDRESS_KIND. Simplification: array and in/out arguments are read before and stored after the C function."
  },
  {
   "property": "C51",
   "status": "partial",
   "theorems": [
    "MpiSerial.C51_elements",
    "MpiSerial.C51_gather_scatter",
    "MpiSerial.C51_transfer_partial",
    "MpiSerial.C51_fails_bottom",
    "MpiSerial.C51_fails_fortran",
    "MpiSerial.C51_fails_bottom_always"
   ],
   "note": "Complete for packing and unpacking in C; in Fortran absolute addresses never work (C51_fails_fortran). Messages: only with every variable within 2 GiB of the base, because offsets are truncated to int; MPI_BOTTOM with ordinary 64-bit addresses fails (C51_fails_bottom; C51_fails_bottom_always: no typed copy to MPI_BOTTOM changes a byte at an ordinary address)."
  },
  {
   "property": "C52",
   "status": "partial",
   "theorems": [
    "MpiSerial.C52_operations",
    "MpiSerial.C52_info",
    "MpiSerial.C52_fails_merge"
   ],
   "note": "Everything except the clause about MPI_Intercomm_merge, which is false: it never stores its result (C52_fails_merge)."
  },
  {
   "property": "C53",
   "status": "proved",
   "theorems": [
    "MpiSerial.C53_monotone",
    "MpiSerial.C53_accuracy",
    "MpiSerial.C53_resolution",
    "MpiSerial.C53_no_clock"
   ],
   "note": "Doubles are rationals rounded to 53 digits, ties to even; exponent range not modelled (values lie between 1e-6 and 2^54)."
  },
  {
   "property": "C54",
   "status": "partial",
   "theorems": [
    "MpiSerial.C54_request_partial",
    "MpiSerial.C54_type_partial",
    "MpiSerial.C54_fails_request",
    "MpiSerial.C54_fails_request_send",
    "MpiSerial.C54_fails_type",
    "MpiSerial.C54_fails_request_always",
    "MpiSerial.C54_fails_request_send_always",
    "MpiSerial.C54_fails_type_always"
   ],
   "note": "False for a request whose operation is pending and for the type of a pending receive, because their storage is recycled at once (three witnesses, and after every history: C54_fails_request_always, C54_fails_request_send_always, C54_fails_type_always say which calls then go wrong); proved for all other requests and types, including types of pending sends."
  },
  {
   "property": "C55",
   "status": "partial",
   "theorems": [
    "MpiSerial.C55_padded",
    "MpiSerial.C55_span_partial",
    "MpiSerial.C55_fails",
    "MpiSerial.C55_exact"
   ],
   "note": "The code rounds the span up to a multiple of the largest element (C55_padded: the exact value for every type); so the statement holds if and only if the span is such a multiple (C55_exact, C55_fails)."
  },
  {
   "property": "C56",
   "status": "proved",
   "theorems": [
    "MpiSerial.C56_call",
    "MpiSerial.C56_program",
    "MpiSerial.C56_send_status"
   ],
   "note": "Programs are arbitrary functions from what was seen so far to the next call. C56_call is the single call, C56_program whole runs, C56_send_status shows that the exception for sends is needed."
  },
  {
   "property": "C57",
   "status": "partial",
   "theorems": [
    "MpiSerial.C57_isend_partial",
    "MpiSerial.C57_irecv_partial",
    "MpiSerial.C57_posts_partial",
    "MpiSerial.C57_sendrecv_partial",
    "MpiSerial.C57_call_partial",
    "MpiSerial.C57_program_partial",
    "MpiSerial.C57_fails_debug_always",
    "MpiSerial.C57_fails_debug",
    "MpiSerial.C57_fails_info",
    "MpiSerial.C57_fails_info_always"
   ],
   "note": "False for DEBUG: a matched message whose buffer has fewer than 4 bytes (always undefined: C57_fails_debug_always), and for INFO with MPI_COMM_NULL and MPI_PROC_NULL (C57_fails_info_always). C57_isend_partial and C57_irecv_partial give the exact difference; C57_call_partial and C57_program_partial are equality of all builds for all calls and programs otherwise. probe.c does not compile with INFO and is taken without it."
  },
  {
   "property": "C58",
   "status": "partial",
   "theorems": [
    "MpiSerial.C58_library_version",
    "MpiSerial.C58_fails_error_string",
    "MpiSerial.C58_fails_processor_name"
   ],
   "note": "Holds for MPI_GET_LIBRARY_VERSION; false for the other two for every error code and host name, which leave a C string (the theorems also say what is right: the text and RESULTLEN)."
  },
  {
   "property": "C59",
   "status": "partial",
   "theorems": [
    "MpiSerial.C59_built_partial",
    "MpiSerial.C59_lasting",
    "MpiSerial.C59_commit",
    "MpiSerial.C59_reports",
    "MpiSerial.C59_delivers_partial",
    "MpiSerial.C59_returns_partial",
    "MpiSerial.C59_collects_partial"
   ],
   "note": "Stated on handles and datatypes of the standard only. Construction as in C25 (malloc returns zeroed bounds, values fit, explicit bounds have the handled signs); messages with int offsets; if the send was posted first, only when both sides have the same datatype (C22_fails_send_first)."
  },
  {
   "property": "C60",
   "status": "partial",
   "theorems": [
    "MpiSerial.C60_create_partial",
    "MpiSerial.C60_get_partial",
    "MpiSerial.C60_fails_periods",
    "MpiSerial.C60_fails_zero",
    "MpiSerial.C60_dims_partial",
    "MpiSerial.C60_fails_dims"
   ],
   "note": "Holds for grids with positive dimensions except for the periods, which MPI_Cart_get never writes (C60_fails_periods: for every grid and all periods). Dimensions below 1 are accepted (C60_fails_zero) and constraints of MPI_Dims_create other than 1 overwritten (C60_fails_dims). That the communicator is a working duplicate is C37 through C40_create."
  },
  {
   "property": "C61",
   "status": "partial",
   "theorems": [
    "MpiSerial.C61_call_partial",
    "MpiSerial.C61_program_partial",
    "MpiSerial.C61_lists",
    "MpiSerial.C61_all_partial",
    "MpiSerial.C61_fails_type"
   ],
   "note": "Proved for all calls and programs without the seven datatype constructors, which use the result of malloc unchecked: for every such call that returns there is an allocation whose failure makes it write through a null pointer (C61_fails_type). C61_all_partial: in all programs a failed allocation ends in the message or in that null pointer."
  },
  {
   "property": "C62",
   "status": "proved",
   "theorems": [
    "MpiSerial.C62_call",
    "MpiSerial.C62_program"
   ],
   "note": "Well-formedness is judged by the machine's own account (Prog.MachWf). Source and tag in the status of a completed send are not compared (unspecified in MPI, and not written by the code: C56_send_status). Datatype descriptors and typed copies are those of Model/Types and Model/Copy, whose meaning is the subject of C22-C34, C59."
  },
  {
   "property": "C63",
   "status": "partial",
   "theorems": [
    "MpiSerial.C63_call_partial",
    "MpiSerial.C63_program_partial"
   ],
   "note": "Conforming is Ideal.Legal, which leaves out what the library gets wrong: receives larger than their message, waiting messages received with another datatype (C22_fails_send_first), offsets beyond int, explicit bounds of the wrong sign, MPI_INTEGER16, MPI_BOTTOM; and storage from malloc reads as zero in the two fields the constructors never write (C25_fails_uninitialised). The status count is the one the library reports (C45_fails). Communicators, requests and handle numbers are those of the machine of C62."
  },
  {
   "property": "C64",
   "status": "partial",
   "theorems": [
    "MpiSerial.C64_reference_partial",
    "MpiSerial.C64_standard_partial",
    "MpiSerial.C64_determined"
   ],
   "note": "For the calls and arguments of C50 (FCall.Supported) and, for the machine of the standard, the conforming calls of C63. A run on the library is one of the possible runs on the machine: the machine may write anything into source and tag of the status of a completed send (C56_send_status shows why); C64_determined says that a call without such a status has one result. Assignments of the program itself are steps that store any memory."
  },
  {
   "property": "C65",
   "status": "proved",
   "theorems": [
    "MpiSerial.C65_strategy",
    "MpiSerial.C65_library"
   ],
   "note": "Opaque use is made precise by names: the program sees 2, 3, 4, ... in the order in which it obtains handles, no name twice, and never the numbers (Prog.Opaque, Prog.runNamed). A way of giving out numbers (Strategy) may replace the free numbers before every call; Strategy.Sound says what it must keep, among it that MPI_Init gets 1, since MPI_COMM_WORLD is 1 in mpi.h."
  },
  {
   "property": "C66",
   "status": "proved",
   "theorems": [
    "MpiSerial.C66_layout",
    "MpiSerial.C66_size",
    "MpiSerial.C66_build",
    "MpiSerial.C66_inside",
    "MpiSerial.C66_struct_standard",
    "MpiSerial.C66_queries",
    "MpiSerial.C66_commit",
    "MpiSerial.C66_access",
    "MpiSerial.C66_use",
    "MpiSerial.C66_use_inside",
    "MpiSerial.C66_invariant",
    "MpiSerial.C66_predefined",
    "MpiSerial.C66_negative",
    "MpiSerial.C66_dup_overruns"
   ],
   "note": "Loads and stores are checked against the length of the object (Model/Desc). With negative block lengths the storage can be too small for the header; then the call does not return (C66_negative). Type_dup, which no call uses, allocates the size of a pointer and overruns it for every type (C66_dup_overruns)."
  },
  {
   "property": "C67",
   "status": "proved",
   "theorems": [
    "MpiSerial.C67_unique",
    "MpiSerial.C67_word",
    "MpiSerial.C67_pairing",
    "MpiSerial.C67_same",
    "MpiSerial.C67_complete",
    "MpiSerial.C67_status",
    "MpiSerial.C67_probe"
   ],
   "note": "The word of a communicator is read off the client ledger (Ledger.word); IsPairing states the rule on words alone, without ledger or library. Histories are those of Reach: communicators in use, fewer than 2^31-1 operations unmatched at a time."
  },
  {
   "property": "C68",
   "status": "proved",
   "theorems": [
    "MpiSerial.C68_machine",
    "MpiSerial.C68_bounded",
    "MpiSerial.C68_library",
    "MpiSerial.C68_order",
    "MpiSerial.C68_safe",
    "MpiSerial.C68_world_shared"
   ],
   "note": "C68_bounded: up to 262141 turns cannot run out of handle numbers, so nothing is assumed about that. C68_machine is about the machine of C62, C68_library says that the library after MPI_Init does the same for up to 2^30-2 turns. By itself a part has a memory that consists of its region, so that leaving the region is an illegal access (Layer.Correct forbids it). The storage in which datatypes are built must have the same contents at every construction (Env.Steady; C25_fails_uninitialised shows that the contents matter). C68_world_shared: two parts that both use MPI_COMM_WORLD can disturb each other."
  },
  {
   "property": "C69",
   "status": "proved",
   "theorems": [
    "MpiSerial.C69_call",
    "MpiSerial.C69_program",
    "MpiSerial.C69_reached",
    "MpiSerial.C69_exact"
   ],
   "note": "Stated for the library in every state the machine of C62 accounts for (Sim), with the int counters not exhausted (Room). needs and leaves: Spec/Capacity.lean."
  },
  {
   "property": "C70",
   "status": "proved",
   "theorems": [
    "MpiSerial.C70_pack",
    "MpiSerial.C70_carried",
    "MpiSerial.C70_unpack",
    "MpiSerial.C70_message"
   ],
   "note": "Stated on handles and datatypes of the standard. A message received before it is sent must be received with its own count (a larger one is refused, C23); one that waits may be received with a larger count."
  },
  {
   "property": "C71",
   "status": "proved",
   "theorems": [
    "MpiSerial.C71_machine",
    "MpiSerial.C71_bounded",
    "MpiSerial.C71_library",
    "MpiSerial.C71_needs_private"
   ],
   "note": "The program sees names of handles (C65), and all memory is its own (Prog.whole); Layer.Correct is that of C68. Calls that move no data (MPI_Barrier, MPI_Bcast, MPI_IN_PLACE, roots other than 0) are left as they are. C71_needs_private: on MPI_COMM_WORLD the claim would be false."
  },
  {
   "property": "C72",
   "status": "proved",
   "theorems": [
    "MpiSerial.C72_machine",
    "MpiSerial.C72_library",
    "MpiSerial.C72_storage"
   ],
   "note": "C72_machine: MPI_Finalize in every state the machine of C62 accounts for, and the machine afterwards; C72_library: two runs of the library, the counters being far enough from 2^31. Both assume that the storage in which datatypes are built reads the same in the second session (hypothesis hg); C72_storage shows that without it the claim is false: the constructors leave bounds as malloc left them (C25_fails_uninitialised)."
  },
  {
   "property": "C73",
   "status": "partial",
   "theorems": [
    "MpiSerial.C73_reference_partial",
    "MpiSerial.C73_standard_partial",
    "MpiSerial.C73_handles"
   ],
   "note": "Partial for the same reasons as C50, C63 and C64: the bindings of mpi_type_hvector and mpi_pack_size treat INTEGERs as longs, and the deviations from the standard listed in DESIGN.md are excluded. C73_handles is complete."
  },
  {
   "property": "C74",
   "status": "proved",
   "theorems": [
    "MpiSerial.C74_library"
   ],
   "note": "Programs are those of C65 (Prog.Opaque). The text of the message with which the library stops the program is not compared (Fate.kind). Call.Roomy is the condition about statuses; without it MPI_Waitall is undefined (C18_fails_ignore)."
  },
  {
   "property": "C75",
   "status": "partial",
   "theorems": [
    "MpiSerial.C75_fails",
    "MpiSerial.C75_fails_request_free",
    "MpiSerial.C75_fails_ignored",
    "MpiSerial.C75_null_request_partial"
   ],
   "note": "False for every wrong handle in every reachable state. C75_fails: messages, probes, MPI_Comm_free, MPI_Test, MPI_Wait, all uses of a datatype (in MPI_Type_struct, vector collectives and receive sides the same lookup is done, not listed in Call.Needs) go through a null pointer or an object of another kind. C75_fails_request_free: MPI_Request_free takes away any object. C75_fails_ignored: collectives and communicator constructors never look at their communicator. C75_null_request_partial is the part that holds."
  },
  {
   "property": "C76",
   "status": "proved",
   "theorems": [
    "MpiSerial.C76_machine",
    "MpiSerial.C76_bounded",
    "MpiSerial.C76_library",
    "MpiSerial.C76_needs_release"
   ],
   "note": "The program sees names of handles (C65), and all memory is its own (Prog.whole); Layer.Correct is that of C68. MPI_Comm_free is not put off, nor are the releases within MPI_Wait and MPI_Test. C76_needs_release: the alternative (out of handle numbers) is real."
  },
  {
   "property": "C77",
   "status": "proved",
   "theorems": [
    "MpiSerial.C77_call",
    "MpiSerial.C77_recode",
    "MpiSerial.C77_programs"
   ],
   "note": "No hypothesis on the state or the call, except that the call is not the program's own store. Call has the functions of the C interface; the Fortran bindings take their arguments from memory, so for them the claim holds of the call they make (C50, C64)."
  },
  {
   "property": "C78",
   "status": "partial",
   "theorems": [
    "MpiSerial.C78_prints_partial",
    "MpiSerial.C78_bounds_partial",
    "MpiSerial.C78_tells_partial",
    "MpiSerial.C78_fails_wide"
   ],
   "note": "False beyond 32 bits: all numbers are printed with %d, so a displacement of 2^32 shows as 0 (C78_fails_wide; formally the mismatch is undefined behaviour, the lower 32 bits are what LP64 targets print). The others: type maps with displacements in int range, nested to any depth (Describes, as in C25 and C59), bounds and extent modulo 2^32."
  },
  {
   "property": "C79",
   "status": "partial",
   "theorems": [
    "MpiSerial.C79_runs_partial",
    "MpiSerial.C79_malloc_partial",
    "MpiSerial.C79_fails_flags",
    "MpiSerial.C79_fails_empty"
   ],
   "note": "False in two places: the flags o_lb and o_ub are set but never cleared (C79_fails_flags), and pairs[0].type of a component without entries is read though never written (C79_fails_empty). The positive theorems: apart from these two reads nothing of the old contents shows, in runs of arbitrary programs; C79_malloc_partial adds the storage of requests (C56)."
  },
  {
   "property": "C80",
   "status": "partial",
   "theorems": [
    "MpiSerial.C80_basic",
    "MpiSerial.C80_pairs",
    "MpiSerial.C80_struct_partial",
    "MpiSerial.C80_array_partial",
    "MpiSerial.C80_sizeof_partial",
    "MpiSerial.C80_delivers_partial",
    "MpiSerial.C80_collects_partial",
    "MpiSerial.C80_fails_complex"
   ],
   "note": "False for members whose alignment is not their size, complex numbers for example: the library rounds to the largest size (C80_fails_complex). For naturally aligned basic types (alignment = size = a power of two; true of all the others on LP64 targets) the guess is right for every nesting. Also excluded: empty arrays (C25_fails_empty), more than 2 GiB (C31_fails_large), malloc'ed memory that does not read as zero (C79_fails_flags)."
  },
  {
   "property": "C81",
   "status": "proved",
   "theorems": [
    "MpiSerial.C81_exact",
    "MpiSerial.C81_exact_waiting",
    "MpiSerial.C81_moved",
    "MpiSerial.C81_same",
    "MpiSerial.C81_down"
   ],
   "note": "For a receive that finds its message waiting, 'the transfer' is the one the code makes, with the description of the receive on both sides (C22_fails_send_first)."
  },
  {
   "property": "C82",
   "status": "proved",
   "theorems": [
    "MpiSerial.C82_same",
    "MpiSerial.C82_call",
    "MpiSerial.C82_basic",
    "MpiSerial.C82_program",
    "MpiSerial.C82_program_same"
   ],
   "note": "Constructors that repeat a datatype: the library takes a handle before it computes the extent of the old type, the layer after; if both would fail, the failures may differ, that is why the equality of failures excludes them."
  },
  {
   "property": "C83",
   "status": "proved",
   "theorems": [
    "MpiSerial.C83_in_place",
    "MpiSerial.C83_same",
    "MpiSerial.C83_program",
    "MpiSerial.C83_reference",
    "MpiSerial.C83_standard",
    "MpiSerial.C83_bystander_send",
    "MpiSerial.C83_bystander_recv",
    "MpiSerial.C83_handle",
    "MpiSerial.FDemo.C83_needs_apart",
    "MpiSerial.FDemo.C83_needs_clear",
    "MpiSerial.FDemo.C83_needs_arrays"
   ],
   "note": "IntJunk: the int member 'complete' of storage that never held a request reads as an int, which is what its type says. For the nonblocking calls Clear says that the request variable takes no part in the transfer (Bystander); C83_bystander_send and C83_bystander_recv derive this from the placement of the buffers, C83_handle that the handle read back by MPI_Irsend is an int. For packing it says that the call does not fail for want of memory if the position variable is not there. C83_needs_apart shows that the variables must not overlap, C83_needs_clear that packing must not go over its position, C83_needs_arrays that the new datatype must not lie in an array that the constructor has still to read."
  },
  {
   "property": "C84",
   "status": "proved",
   "theorems": [
    "MpiSerial.C84_call",
    "MpiSerial.C84_program",
    "MpiSerial.C84_needs_moves",
    "MpiSerial.C84_fortran_call",
    "MpiSerial.C84_fortran_program",
    "MpiSerial.C84_fortran_conforming",
    "MpiSerial.FDemo.C84_fortran_needs_moves"
   ],
   "note": "The data are moved as a whole, so overlaps and gaps stay. C84_call holds in every state; the programs of C84_program are well formed because storage that never held a request (which C84_call moves as well) must not show (C56). C84_fortran_call and C84_fortran_program say the same of the Fortran subroutines, where the scalar arguments are variables and move as well, together with the MPI_STATUS_IGNORE, MPI_STATUSES_IGNORE and MPI_IN_PLACE of the module's common block; any Fortran program, well formed or not, and any number of steps, but with junk storage moved along; C84_fortran_conforming does without that for the programs of C85. C84_needs_moves and FDemo.C84_fortran_needs_moves are the exceptions: the last address, and MPI_GET_ADDRESS, whose answer is the address."
  },
  {
   "property": "C85",
   "status": "proved",
   "theorems": [
    "MpiSerial.C85_one_run",
    "MpiSerial.C85_one_run_standard",
    "MpiSerial.C85_junk",
    "MpiSerial.FDemo.C85_needs_settled"
   ],
   "note": "Conforms is the premise of C64 (supported subroutines, legal calls, result variables that exist and do not overlap); Settled says that the statuses of completed sends are ignored. FDemo.C85_needs_settled: without it the leftovers of a request show in the status of a send."
  },
  {
   "property": "C86",
   "status": "proved",
   "theorems": [
    "MpiSerial.C86_call",
    "MpiSerial.C86_poll",
    "MpiSerial.C86_program",
    "MpiSerial.C86_program_start",
    "MpiSerial.C86_needs_init"
   ],
   "note": "C86_call assumes of the state only that the handle table has been set up; C86_needs_init shows that before MPI_Init a question may set it up. In C86_program the program with questions makes the same other calls whatever the answers; the answers themselves are the subject of C21, C25, C27 and C34. MPI_Testall is not among the polls: with flag 0 it frees the requests that are complete, see C18."
  },
  {
   "property": "C87",
   "status": "proved",
   "theorems": [
    "MpiSerial.C87_call",
    "MpiSerial.C87_deadlock",
    "MpiSerial.C87_program",
    "MpiSerial.C87_program_start"
   ],
   "note": "The program that waits does not poll by itself (so that its polls and those put in for its waits are not confused) and waits between MPI_Init and MPI_Finalize only. C87_program compares the same number of calls of both programs; together with C86_program the program that polls may do other things to pass the time."
  },
  {
   "property": "C88",
   "status": "proved",
   "theorems": [
    "MpiSerial.C88_call",
    "MpiSerial.C88_program",
    "MpiSerial.C88_needs_ren"
   ],
   "note": "TagRen: different tags get different numbers and MPI_ANY_TAG stays; for whole programs the renumbering is also onto, because storage that never held a request (whose tag may be any number) is not renumbered and must not show (C56). Tags in statuses are renumbered with the others, also in those that the program hands in. C88_needs_ren: if two tags become one, or one becomes MPI_ANY_TAG, another message is received."
  },
  {
   "property": "C89",
   "status": "partial",
   "theorems": [
    "MpiSerial.C89_call_partial",
    "MpiSerial.C89_program_partial",
    "MpiSerial.C89_fails_waitall",
    "MpiSerial.C89_fails_testall",
    "MpiSerial.C89_fails_testsome"
   ],
   "note": "True for all calls with one status, and for the array calls with one request. False for the array calls with two or more requests, because they pass on &array_of_statuses[i], which is not null for i > 0: MPI_Waitall then never returns (C89_fails_waitall), MPI_Testall never says that the requests are complete (C89_fails_testall), MPI_Testsome and MPI_Waitsome never complete more than one (C89_fails_testsome); where they would, they write near address 0 (C18_fails_ignore)."
  },
  {
   "property": "C90",
   "status": "partial",
   "theorems": [
    "MpiSerial.C90_pack",
    "MpiSerial.C90_unpack",
    "MpiSerial.C90_collectives_partial",
    "MpiSerial.C90_reductions_partial",
    "MpiSerial.C90_message_partial",
    "MpiSerial.C90_fails_far"
   ],
   "note": "Packing and unpacking: without restriction. Copies (collectives and messages): while the offsets of the elements and their number are values of type int; false beyond, because copy.c:82-83 keeps the offset in an int (C90_fails_far)."
  },
  {
   "property": "C91",
   "status": "proved",
   "theorems": [
    "MpiSerial.C91_call",
    "MpiSerial.C91_calls",
    "MpiSerial.C91_program",
    "MpiSerial.C91_needs_choices"
   ],
   "note": ""
  },
  {
   "property": "C92",
   "status": "proved",
   "theorems": [
    "MpiSerial.C92_again",
    "MpiSerial.C92_back",
    "MpiSerial.C92_forward",
    "MpiSerial.C92_needs_apart"
   ],
   "note": "For transfers in which the receive is posted first, MPI_Sendrecv and the collectives (Delivers). The condition on offsets and counts (Exchangeable) is the one under which copy.c finds the elements at all, see C31_fails_large and C90_fails_far."
  },
  {
   "property": "C93",
   "status": "proved",
   "theorems": [
    "MpiSerial.C93_call",
    "MpiSerial.C93_program",
    "MpiSerial.C93_transfer",
    "MpiSerial.C93_fortran",
    "MpiSerial.C93_needs"
   ],
   "note": "For a library compiled without TYPE_CHECKING (the statement says so; C93_needs shows that it is needed). Well-formedness and the bound on the number of calls in C93_program come from C56."
  },
  {
   "property": "C94",
   "status": "partial",
   "theorems": [
    "MpiSerial.C94_nested_partial",
    "MpiSerial.C94_blocks_partial",
    "MpiSerial.C94_exchange",
    "MpiSerial.C94_collects",
    "MpiSerial.C94_pack",
    "MpiSerial.C94_unpack",
    "MpiSerial.C94_fails"
   ],
   "note": "Construction holds under the conditions of C25 (exact values fit, explicit bounds of the signs the code handles, zeroed storage); C94_fails is a witness that it fails for a negative MPI_LB. Transfers: for all datatypes of nonnegative extent."
  },
  {
   "property": "C95",
   "status": "proved",
   "theorems": [
    "MpiSerial.C95_hindexed",
    "MpiSerial.C95_indexed",
    "MpiSerial.C95_struct",
    "MpiSerial.C95_vector"
   ],
   "note": "Equality of the calls themselves: same new handle, same resulting state, same failure, also where C25 fails (explicit bounds of any sign in the result, displacements or counts that do not fit, storage that is not zeroed). The component stands for a datatype of the standard (C59), as the statement says."
  }
 ]
}