{"id": "C01", "title": "Live handles are distinct, positive and non-null", "statement": "At every moment of every history of MPI calls that create and release communicators, requests and datatypes (each release naming a live handle), all live handles are pairwise different positive ints, none equals MPI_COMM_NULL/MPI_REQUEST_NULL/MPI_DATATYPE_NULL (0), and they denote pairwise different storage.", "quantifier": "every finite sequence of handle allocations, releases, look-ups and finalize calls, of any length and with any number of live objects up to the documented limit", "why_tests_cant": "a clash can need a particular release order and block-growth point; tests sample a handful of orders with a few live handles", "anchors": ["handles.c: mpi_alloc_handle, mpi_free_handle, init_block, init_handles"]}
{"id": "C02", "title": "A live handle keeps denoting the same object", "statement": "From its creation to its release a handle resolves to the same object and no creation or release of another object, including growth of the handle space, changes that object's contents or address.", "quantifier": "every live handle and every interleaving of other allocations, releases and look-ups", "why_tests_cant": "depends on arbitrary interleavings and on crossing 256-entry block boundaries", "anchors": ["handles.c: mpi_handle_to_ptr, mpi_alloc_handle, mpi_free_handle"]}
{"id": "C03", "title": "Handle capacity is exactly 262143", "statement": "Creating an object succeeds whenever fewer than 262143 objects are live and aborts with a diagnostic when exactly 262143 are live; it never wraps, reuses a live handle, or reports a spurious exhaustion, whatever the release/reuse history.", "quantifier": "every reachable allocation history", "why_tests_cant": "needs a quarter of a million live objects and all release patterns", "anchors": ["handles.c: mpi_alloc_handle, MAX_BLOCKS, BLOCK_ITEMS"]}
{"id": "C04", "title": "MPI_Init yields MPI_COMM_WORLD and can be repeated only after MPI_Finalize", "statement": "MPI_Init succeeds in a fresh process and again after every MPI_Finalize, each time making MPI_COMM_WORLD a valid communicator with no pending traffic; a second MPI_Init without MPI_Finalize (while MPI_COMM_WORLD is live), or any handle-creating call before MPI_Init, makes MPI_Init abort instead of producing a different world handle.", "quantifier": "every history of calls preceding MPI_Init", "why_tests_cant": "the outcome depends on the whole preceding history of handle creation", "anchors": ["mpi.c: MPI_Init, MPI_Finalize", "comm.c: mpi_comm_new", "handles.c: mpi_destroy_handles, init_handles"]}
{"id": "C05", "title": "Released handles are recycled and handle storage stays at the high-water mark", "statement": "A released handle is the next one handed out, and after any history the number of 256-entry handle blocks ever allocated is the smallest that could hold the peak number of simultaneously live objects (plus the reserved null handle): a program with bounded live objects runs in bounded handle storage forever.", "quantifier": "every allocation/release history of any length", "why_tests_cant": "a leak-free claim about unbounded executions", "anchors": ["handles.c: mpi_alloc_handle, mpi_free_handle"]}
{"id": "C06", "title": "The pending-request queues behave as sequences", "statement": "Any sequence of appends, prepends, deletions (by item or by value), searches and traversals on the library's linked lists behaves exactly as on a mathematical sequence: forward and backward traversal are mutually reverse, size equals length, search returns the first match, deletion removes exactly the designated element.", "quantifier": "every list contents, every operation sequence, several lists coexisting", "why_tests_cant": "pointer-level behaviour over all lengths and all deletion positions", "anchors": ["list.c: AP_list_append, AP_list_prepend, AP_list_delete, AP_list_delete_item, AP_list_search, AP_list_search_func, AP_list_next, AP_list_size"]}
{"id": "C07", "title": "List leak accounting is exact", "statement": "AP_listitem_verify reports outstanding storage if and only if some list or list item that was created has not been freed; freeing a list releases exactly its own items and never another list's.", "quantifier": "every history of list operations over any number of lists", "why_tests_cant": "a counter equality over all histories", "anchors": ["list.c: AP_listitem_verify, AP_listitem_malloc, AP_listitem_free, AP_list_new, AP_list_free"]}
{"id": "C08", "title": "Duplicating a list yields an independent equal copy", "statement": "AP_list_duplicate returns a new list holding the same data in the same order as the original; later changes to either list do not affect the other.", "quantifier": "every list and every later operation on either list", "why_tests_cant": "aliasing freedom over all later operation sequences", "anchors": ["list.c: AP_list_duplicate"]}
{"id": "C09", "title": "Messages are matched in order (non-overtaking)", "statement": "On a communicator, a receive (or probe) is always satisfied by the earliest-posted still-unmatched send it can accept, and a send is always delivered to the earliest-posted still-unmatched receive that accepts it; so two messages with the same tag are received in the order they were sent, and two receives accepting the same message are satisfied in the order they were posted.", "quantifier": "every history of isend/irecv/test/wait/probe calls with arbitrary tags (including MPI_ANY_TAG) and communicators", "why_tests_cant": "an ordering statement over all histories", "anchors": ["send.c: MPI_Isend", "recv.c: MPI_Irecv", "list.c: AP_list_search_func, AP_list_append"]}
{"id": "C10", "title": "Every message is delivered exactly once", "statement": "Each posted send is matched with at most one receive and each posted receive with at most one send; a matched pair never matches again and no message is delivered without having been sent.", "quantifier": "every history of point-to-point calls that does not release pending requests", "why_tests_cant": "a global property of histories of unbounded length, including handle recycling", "anchors": ["send.c: MPI_Isend", "recv.c: MPI_Irecv", "list.c: AP_list_delete_item"]}
{"id": "C11", "title": "Communicators are isolated", "statement": "A message sent on one communicator is never received, probed or counted on another, and operations on one communicator do not change the pending traffic of any other.", "quantifier": "every pair of distinct live communicators and every operation", "why_tests_cant": "quantifies over all histories and communicator handle reuse", "anchors": ["send.c: MPI_Isend", "recv.c: MPI_Irecv", "comm.c: mpi_comm_new"]}
{"id": "C12", "title": "No matchable pair is ever left pending", "statement": "After every call, no communicator simultaneously has a pending send and a pending receive that could match; hence a request found incomplete really has no partner, and reporting deadlock is never premature.", "quantifier": "every reachable state", "why_tests_cant": "an invariant over all histories", "anchors": ["send.c: MPI_Isend", "recv.c: MPI_Irecv", "req.c: MPI_Wait"]}
{"id": "C13", "title": "Receive status reports source 0 and the actual message tag", "statement": "When a receive completes against a message, the status returned by Test/Wait/Recv/Sendrecv carries MPI_SOURCE = 0 and MPI_TAG equal to the tag given by the sender, also when the receive was posted with MPI_ANY_TAG or MPI_ANY_SOURCE.", "quantifier": "every matched pair in every history, whichever side was posted first", "why_tests_cant": "must hold for all interleavings between match and completion call", "anchors": ["recv.c: MPI_Irecv, MPI_Recv", "send.c: MPI_Isend, MPI_Sendrecv", "req.c: MPI_Test"]}
{"id": "C14", "title": "Wait and Test tell the truth about completion", "statement": "MPI_Test sets flag exactly when the request's operation has been matched (or was to/from MPI_PROC_NULL); MPI_Wait returns exactly in that case and aborts (deadlock) otherwise.", "quantifier": "every request in every reachable state", "why_tests_cant": "needs the whole history since the request was posted", "anchors": ["req.c: MPI_Test, MPI_Wait"]}
{"id": "C15", "title": "Blocking send and receive succeed exactly when the partner is already posted", "statement": "MPI_Send/MPI_Ssend/MPI_Rsend return iff a matching receive is pending on the communicator (or dest is MPI_PROC_NULL) and abort otherwise; MPI_Recv returns iff a matching send is pending (or source is MPI_PROC_NULL) and aborts otherwise; MPI_Irsend aborts iff no matching receive is posted; MPI_Sendrecv to oneself with accepted tags returns whenever neither queue holds an older candidate.", "quantifier": "every reachable state and all argument values", "why_tests_cant": "deadlock freedom/deadlock detection over all histories", "anchors": ["send.c: MPI_Send, MPI_Ssend, MPI_Rsend, MPI_Irsend, MPI_Sendrecv", "recv.c: MPI_Recv"]}
{"id": "C16", "title": "MPI_PROC_NULL operations complete immediately without effect", "statement": "A send to or receive from MPI_PROC_NULL produces an already complete request, transfers no data, and never enters or alters any communicator's pending traffic; a PROC_NULL receive completes with MPI_SOURCE = MPI_PROC_NULL and MPI_TAG = MPI_ANY_TAG.", "quantifier": "every state, buffer, count, datatype and tag", "why_tests_cant": "non-interference over all states", "anchors": ["send.c: MPI_Isend", "recv.c: MPI_Irecv"]}
{"id": "C17", "title": "Request life cycle", "statement": "A successful Test/Wait sets the caller's handle to MPI_REQUEST_NULL and releases the request; an unsuccessful Test changes nothing and may be repeated any number of times; Test/Wait on MPI_REQUEST_NULL succeeds immediately with the empty status (MPI_ANY_SOURCE, MPI_ANY_TAG).", "quantifier": "every reachable state and any number of repetitions", "why_tests_cant": "idempotence over all states", "anchors": ["req.c: MPI_Test, MPI_Wait"]}
{"id": "C18", "title": "Testall/Waitall succeed exactly when all requests are complete", "statement": "MPI_Waitall returns iff every non-null request in the array is complete (aborting otherwise) and MPI_Testall sets flag iff every one is complete; on success all handles become MPI_REQUEST_NULL and each status is that of its own request. When flag = 0 Testall leaves every request untouched. MPI_STATUSES_IGNORE is accepted.", "quantifier": "request arrays of every length and composition in every reachable state", "why_tests_cant": "arrays of unbounded length and every completion pattern", "anchors": ["req.c: MPI_Testall, MPI_Waitall"]}
{"id": "C19", "title": "Testany/Waitany complete exactly one request", "statement": "MPI_Testany/MPI_Waitany complete exactly the lowest-index completed (or null) request of the array, report its index and status, and leave all other requests untouched; flag = 0 (Testany) or abort (Waitany) happens exactly when no request is complete.", "quantifier": "request arrays of every length and composition in every reachable state", "why_tests_cant": "arrays of unbounded length and every completion pattern", "anchors": ["req.c: MPI_Testany, MPI_Waitany"]}
{"id": "C20", "title": "Testsome/Waitsome count and release exactly the completed requests", "statement": "MPI_Testsome sets outcount to the number of completed requests of the array, releases exactly those and leaves the others untouched; MPI_Waitsome aborts when none is complete.", "quantifier": "request arrays of every length and composition in every reachable state", "why_tests_cant": "arrays of unbounded length and every completion pattern", "anchors": ["req.c: MPI_Testsome, MPI_Waitsome"]}
{"id": "C21", "title": "Probe agrees with the next receive", "statement": "MPI_Iprobe sets flag iff a receive with the same tag posted now would complete immediately, reports source 0 and the tag of exactly the message that receive would take, and changes nothing; MPI_Probe returns iff flag would be set and aborts otherwise.", "quantifier": "every reachable state and tag", "why_tests_cant": "relates two different calls over all queue contents", "anchors": ["probe.c: MPI_Iprobe, MPI_Probe"]}
{"id": "C22", "title": "Received data equals sent data whichever side is posted first", "statement": "When a send (count, type) is matched with a receive (count, type), the receive buffer obtains, element by element along the receive type map, the values laid out in the send buffer along the send type map, independent of whether the send or the receive was posted first.", "quantifier": "every pair of type maps, counts and buffers, and both posting orders", "why_tests_cant": "all datatypes and layouts; posting orders are rarely crossed with unequal types in tests", "anchors": ["send.c: MPI_Isend", "recv.c: MPI_Irecv", "copy.c: Pcopy_data2"]}
{"id": "C23", "title": "Receiving more elements than were sent is refused", "statement": "A match in which the receive describes more basic elements than the send terminates the program with a diagnostic and without writing any byte of the receive buffer.", "quantifier": "every pair of counts and datatypes and both posting orders", "why_tests_cant": "all count/type combinations", "anchors": ["copy.c: Pcopy_data2"]}
{"id": "C24", "title": "Derived type maps are those of the MPI standard", "statement": "The type map of MPI_Type_struct(count, blocklens, displs, types) is the concatenation, for each block i and each repetition j < blocklens[i], of types[i]'s map displaced by displs[i] + j*extent(types[i]), with MPI_LB/MPI_UB blocks contributing no data entries; contiguous, vector, hvector, indexed, hindexed and indexed_block are the corresponding special cases; building a type never writes outside the storage allocated for it.", "quantifier": "all counts, block lengths, displacements and component types (nested to any depth) whose exact values fit the C integer types", "why_tests_cant": "unbounded nesting and sizes; memory safety for all inputs", "anchors": ["type.c: Type_struct, Type_contiguous, Type_hvector, Type_vector, Type_hindexed, Type_indexed, Type_create_indexed_block"]}
{"id": "C25", "title": "Lower bound, upper bound and extent follow the type map", "statement": "For a type without explicit bounds, lb is the least displacement, ub the greatest displacement-plus-size, and the extent is the least multiple of the largest element size that covers ub - lb; nested constructors see exactly these values.", "quantifier": "every type map whose displacements fit in int, nested to any depth", "why_tests_cant": "all type maps", "anchors": ["type.c: calc_lb, calc_ub, calc_padding, Type_extent, Type_struct"]}
{"id": "C26", "title": "MPI_LB and MPI_UB override bounds", "statement": "Including MPI_LB (MPI_UB) at displacement d in a struct makes d the lower (upper) bound: the least of several MPI_LB displacements, the greatest of several MPI_UB displacements, inherited through nesting; the extent is then ub - lb without padding.", "quantifier": "all displacements, positive and negative, any number of markers, any nesting", "why_tests_cant": "signed displacements over the whole range", "anchors": ["type.c: Type_struct, Type_extent"]}
{"id": "C27", "title": "Type size is additive", "statement": "MPI_Type_size of a derived type equals the sum over blocks of blocklen times the component's size (markers count zero), independent of displacements, strides and padding.", "quantifier": "all constructors, counts and nesting depths", "why_tests_cant": "unbounded nesting", "anchors": ["type.c: Type_size, Type_struct"]}
{"id": "C28", "title": "Type constructors agree on equivalent descriptions", "statement": "contiguous(n,t), vector(n,1,1,t), vector(1,n,s,t), hvector(n,1,extent(t),t), indexed with consecutive displacements and indexed_block describe the same type (same type map, bounds, extent and size); vector(c,b,s,t) equals hvector(c,b,s*extent(t),t); indexed equals hindexed with scaled displacements.", "quantifier": "all parameters and component types", "why_tests_cant": "algebraic laws over all parameters", "anchors": ["type.c: Type_contiguous, Type_vector, Type_hvector, Type_indexed, Type_hindexed, Type_create_indexed_block"]}
{"id": "C29", "title": "Every predefined datatype has the size and extent of the language type it names", "statement": "Each predefined MPI datatype constant denotes a committed type whose size and extent are those of the corresponding C/Fortran type (pair types: the size of the pair and the extent and member positions of the C struct); different constants have different element kinds, MPI_BYTE and MPI_PACKED excepted.", "quantifier": "the complete table of predefined datatype constants in mpi.h", "why_tests_cant": "the project's own comment asks for protection against human error in the table; tests use a few entries", "anchors": ["type_const.c: simpletypes", "type.c: Simpletype_length, mpi_handle_to_datatype", "mpi.h: MPI_CHAR..MPI_WCHAR"]}
{"id": "C30", "title": "Uncommitted datatypes cannot be used in communication", "statement": "Any communication that transfers data with a datatype that has not been committed terminates the program before any byte of any buffer is modified; committing makes it usable, and derived types start uncommitted even if their components are committed.", "quantifier": "every datatype and every transferring call", "why_tests_cant": "all call/type combinations", "anchors": ["copy.c: Pcopy_data2", "type.c: MPI_Type_commit, Type_struct"]}
{"id": "C31", "title": "A transfer modifies exactly the bytes described by the receive side", "statement": "A typed transfer of n elements writes only bytes covered by the first n entries of the (repeated) receive type map relative to the receive buffer, and leaves every other byte of memory unchanged - including gaps inside the type.", "quantifier": "all types, counts, buffers and memory contents", "why_tests_cant": "frame condition over all of memory", "anchors": ["copy.c: Pcopy_data2"]}
{"id": "C32", "title": "Transferred bytes are the sender's bytes, element by element", "statement": "If source and destination footprints do not overlap and destination elements are pairwise disjoint, after a transfer each byte of the i-th destination element equals the corresponding byte of the i-th source element as it was before the transfer.", "quantifier": "all types, counts, buffers and memory contents whose exact byte offsets fit in int", "why_tests_cant": "all layouts; offset arithmetic limits", "anchors": ["copy.c: Pcopy_data2"]}
{"id": "C33", "title": "Pack/unpack round trip", "statement": "Packing count elements of a type and unpacking the result with the same count and type reproduces every described byte in the target buffer and leaves all other target bytes unchanged, for any starting position.", "quantifier": "all types, counts, positions and memory contents with non-overlapping buffers", "why_tests_cant": "all layouts", "anchors": ["pack.c: Pack, Unpack"]}
{"id": "C34", "title": "Pack position and size are consistent, and pack never overruns", "statement": "A successful MPI_Pack/MPI_Unpack advances position by exactly count*size(type) = MPI_Pack_size(count,type); it succeeds iff that many bytes are left between position and the stated buffer size (otherwise the program exits), and never accesses packed bytes outside [position, outsize).", "quantifier": "all types, counts, positions and buffer sizes", "why_tests_cant": "boundary behaviour for all sizes", "anchors": ["pack.c: Pack, Unpack, Pack_size"]}
{"id": "C35", "title": "Data-moving collectives are the local typed copy", "statement": "On one process Gather, Allgather, Scatter, Reduce, Allreduce, Reduce_scatter, Scan, Alltoall copy the send data to the receive buffer exactly as a self send/receive would, and the v/w variants do so at the receive/send displacements times the extent (w: bytes); the reduction operator is irrelevant.", "quantifier": "all buffers, counts, datatypes, displacements and operators", "why_tests_cant": "all layouts and displacements", "anchors": ["collective.c: MPI_Gather, MPI_Gatherv, MPI_Allgather, MPI_Allgatherv, MPI_Scatter, MPI_Scatterv, MPI_Reduce, MPI_Allreduce, MPI_Reduce_scatter, MPI_Scan, MPI_Alltoall, MPI_Alltoallv, MPI_Alltoallw"]}
{"id": "C36", "title": "Collective argument handling", "statement": "Rooted collectives abort for every root other than 0 (or MPI_ROOT where supported), before touching memory; MPI_IN_PLACE and MPI_ROOT calls leave all memory unchanged; MPI_Barrier and MPI_Bcast change nothing.", "quantifier": "all argument values and memory states", "why_tests_cant": "all int roots and states", "anchors": ["collective.c: MPI_Bcast, MPI_Gather, MPI_Scatter, MPI_Reduce, MPI_Allreduce, MPI_Barrier"]}
{"id": "C37", "title": "Communicator constructors give fresh, empty, singleton communicators", "statement": "Dup, create, split, cart_create and intercomm_create return either MPI_COMM_NULL exactly for the null/empty group, MPI_UNDEFINED color, or two null input communicators, or else a new live communicator, different from every live handle, with no pending traffic; every communicator has size 1 and rank 0.", "quantifier": "every reachable state and all arguments", "why_tests_cant": "freshness against every live handle in every state", "anchors": ["comm.c: MPI_Comm_dup, MPI_Comm_create, MPI_Comm_split, MPI_Intercomm_create, MPI_Comm_size, MPI_Comm_rank", "cart.c: MPI_Cart_create"]}
{"id": "C38", "title": "Group operations are set algebra on {0}", "statement": "With the empty group as the empty set and the one-process group as {0}, union, intersection, difference and incl/range_incl compute the corresponding sets for all valid groups, satisfy the lattice laws, and abort for the null group.", "quantifier": "all groups obtainable through the API and all rank lists", "why_tests_cant": "algebraic laws over all inputs and rank arrays of any length", "anchors": ["group.c: MPI_Group_union, MPI_Group_intersection, MPI_Group_difference, MPI_Group_incl, MPI_Group_range_incl"]}
{"id": "C39", "title": "Rank translation", "statement": "MPI_Group_translate_ranks maps every rank 0 to 0 when the target group contains the process and to MPI_UNDEFINED when it is empty, for arrays of any length, writes exactly n outputs, and aborts on any non-zero input rank, on a null group, or on an empty source group with n > 0.", "quantifier": "arrays of every length and contents", "why_tests_cant": "unbounded arrays", "anchors": ["group.c: MPI_Group_translate_ranks"]}
{"id": "C40", "title": "Cartesian helpers", "statement": "Cart_create succeeds iff every requested dimension is at most 1 and otherwise aborts; Cart_get reports all dims 1 and coords 0, Cart_coords all 0 (rank 0 only), Dims_create all 1 (at most one node), writing exactly the requested number of entries.", "quantifier": "every number of dimensions and every contents", "why_tests_cant": "unbounded arrays", "anchors": ["cart.c: MPI_Cart_create, MPI_Cart_get, MPI_Cart_coords, MPI_Dims_create"]}
{"id": "C41", "title": "C and Fortran handles convert without loss", "statement": "Converting any communicator, request, group or operator handle from C to Fortran and back yields the same handle and vice versa, and the C and Fortran constants agree, so mpi_init's consistency check passes exactly when the Fortran integer, logical, real, double and complex sizes match the configured ones.", "quantifier": "all handle values and all configured Fortran sizes", "why_tests_cant": "all ints; all configurations", "anchors": ["comm.c: MPI_Comm_f2c, MPI_Comm_c2f", "req.c: MPI_Request_f2c", "group.c: MPI_Group_f2c", "collective.c: MPI_Op_f2c", "mpi.c: mpi_init_fort", "fort.F90: mpi_init", "mpif.h"]}
{"id": "C42", "title": "Strings returned by the library fit their buffers", "statement": "MPI_Error_string for every error code writes a NUL-terminated string of fewer than MPI_MAX_ERROR_STRING characters with resultlen its length, MPI_Get_processor_name always NUL-terminates within MPI_MAX_PROCESSOR_NAME whatever gethostname does, and MPI_Get_library_version (C: NUL-terminated, Fortran: blank padded to 80) stays inside 80 characters.", "quantifier": "all 32-bit error codes, all host names and gethostname results", "why_tests_cant": "2^32 codes; arbitrary OS behaviour", "anchors": ["mpi.c: MPI_Error_string, MPI_Get_processor_name, MPI_Get_library_version"]}
{"id": "C43", "title": "MPI_Initialized tracks init and finalize", "statement": "After any history, MPI_Initialized reports true iff the last successful MPI_Init/MPI_Init_thread has not been followed by MPI_Finalize; MPI_Init_thread grants the requested level.", "quantifier": "every history of calls", "why_tests_cant": "all histories", "anchors": ["mpi.c: MPI_Init, MPI_Init_thread, MPI_Finalize, MPI_Initialized"]}
{"id": "C44", "title": "Well-formed use never reaches undefined behaviour in handle and queue management", "statement": "A program that uses only live handles of the right kind, does not release pending requests, and does not free a communicator or datatype still in use by pending traffic never makes the library dereference a null, dangling or out-of-range handle/list pointer and never loops forever, at any point of any history.", "quantifier": "every history of well-formed calls", "why_tests_cant": "absence of memory errors over all histories", "anchors": ["send.c", "recv.c", "req.c", "comm.c", "list.c", "handles.c"]}
{"id": "C45", "title": "Status element counts after a receive", "statement": "After MPI_Recv with a status, MPI_Get_count returns the number of elements received and MPI_Get_elements that number times the basic elements per type entry.", "quantifier": "all receives, counts and types", "why_tests_cant": "relates receive and later query for all message sizes, including messages longer or shorter than the buffer", "anchors": ["recv.c: MPI_Recv", "getcount.c: MPI_Get_count, MPI_Get_elements"]}
{"id": "C46", "title": "Fortran sentinels map to their C counterparts", "statement": "The Fortran MPI_STATUS_IGNORE, MPI_STATUSES_IGNORE and MPI_IN_PLACE objects are recognised by address and only then; in every Fortran collective that accepts MPI_IN_PLACE, passing it has the in-place meaning, and any other argument is passed through unchanged.", "quantifier": "all buffer addresses", "why_tests_cant": "all addresses; every binding", "anchors": ["mpi.c: mpi_c_status, mpi_c_statuses, mpi_c_in_place", "collective.c: Fortran bindings"]}
{"id": "C47", "title": "Calls write only the buffers they are told to", "statement": "A well-formed call changes only those bytes of user memory that belong to elements of a typed buffer it delivers data to: the buffer of the matched receive, the output buffer of MPI_Unpack, the receive buffer of a collective at the root that is not in place, or the remaining part of the output buffer of MPI_Pack. All other calls change no byte of user memory at all. Hence a byte that no call of a history may write keeps its value through the history.", "quantifier": "every well-formed history, every call, every byte address", "why_tests_cant": "absence of stray writes for all addresses, types, counts and histories; tests only look at selected bytes", "anchors": ["copy.c: Pcopy_data2", "send.c: mpi_match_recv, MPI_Isend", "recv.c: mpi_match_send, MPI_Irecv", "pack.c: Pack, Unpack", "collective.c"]}
{"id": "C48", "title": "The CHECKS build detects misuse and nothing else", "statement": "With CHECKS defined, handle and list functions behave as without it for every correct history; looking up a number that is no handle of the table aborts instead of computing a wild pointer; removing an item from a list it is not in aborts; releasing a handle twice in a row, releasing any other number that is not a live handle, and releasing any handle before initialisation or after finalize abort.", "quantifier": "all histories of handle and list operations, all int handle values", "why_tests_cant": "absence of false alarms over all histories and completeness over all ints; the build is not tested at all", "anchors": ["handles.c: verify_handle, mpi_handle_to_ptr, mpi_free_handle (CHECKS)", "list.c: AP_list_delete_item, AP_list_append, AP_list_prepend, AP_list_duplicate (CHECKS)"]}
{"id": "C49", "title": "Library storage is accounted for", "statement": "At any time the library holds exactly two list headers per communicator created and not freed, one list item per unmatched operation on such a communicator, and one descriptor per derived datatype created and not freed; the list module's counters say so; a program that frees its communicators and datatypes leaves nothing allocated, and MPI_Finalize leaves nothing allocated.", "quantifier": "every history of successful calls", "why_tests_cant": "leaks accumulate over arbitrary histories; a test sees only the histories it runs and nothing reports the counters", "anchors": ["comm.c: mpi_comm_new, MPI_Comm_free", "list.c: AP_listitem_malloc, AP_list_free, AP_listitem_verify", "mpi.c: MPI_Finalize", "type.c: Type_struct, MPI_Type_free"]}
{"id": "C50", "title": "Fortran bindings pass values and results faithfully", "statement": "A Fortran call performs the C function on the values its argument variables hold in memory (INTEGERs, address-kind integers, arrays of them, statuses), sets exactly the output variables, in/out variables and ierror to the results, and changes no other byte; if the C function does not return the Fortran call ends in the same way. The states a Fortran program can bring the library into are those a C program can.", "quantifier": "all 83 modelled bindings, all argument addresses, all memory contents, both byte orders, all library states, all Fortran call sequences", "why_tests_cant": "widths of loads and stores are invisible to tests whose neighbouring memory happens to be zero or unused; all bindings, addresses and byte orders", "anchors": ["send.c", "recv.c", "req.c", "probe.c", "getcount.c", "comm.c", "group.c", "cart.c", "collective.c", "type.c", "pack.c", "mpi.c: functions named with FC_FUNC", "mpiP.h: FC_FUNC"]}
{"id": "C51", "title": "Types built from addresses describe the variables", "statement": "A struct type whose displacements are differences of MPI_Get_address values (or the addresses themselves, with MPI_BOTTOM as buffer) describes exactly the elements of the variables, in order: packing one element of it and unpacking with a type built from the addresses of other variables, or sending and receiving, moves the bytes element by element and touches nothing else.", "quantifier": "all lists of variables, datatypes, lengths and addresses in the lower half of the address space, all bases", "why_tests_cant": "addresses chosen by the loader hide truncation to 32 bits; unsigned wrap-around of differences in both directions", "anchors": ["type.c: MPI_Get_address, MPI_Address, Type_struct", "pack.c: Pack, Unpack", "copy.c: Pcopy_data2"]}
{"id": "C52", "title": "Calls without library state deliver usable handles", "statement": "An operation made by MPI_Op_create can be used in every reduction and MPI_Op_free leaves MPI_OP_NULL; MPI_Info_create stores a handle whatever the variable held, MPI_Info_set leaves it and MPI_Info_free leaves MPI_INFO_NULL; MPI_Errhandler_set leaves the program's handle as it is; MPI_Intercomm_merge delivers a communicator.", "quantifier": "all arguments, all previous values of the output variables, all reachable states", "why_tests_cant": "a variable that happens to hold a plausible value hides that nothing was stored", "anchors": ["op.c", "info.c", "ic_merge.c", "error.c: MPI_Errhandler_set"]}
{"id": "C53", "title": "MPI_Wtime follows the clock", "statement": "MPI_Wtime does not decrease while the clock does not; until 2106 it is within half a microsecond of the clock and tells microseconds apart; if the clock cannot be read the process aborts.", "quantifier": "all clock readings (monotonicity up to 2^53 seconds), double arithmetic with rounding after every operation", "why_tests_cant": "rounding near the end of a second and over the whole range of seconds", "anchors": ["time.c: MPI_Wtime"]}
{"id": "C54", "title": "Releasing objects does not disturb communication in progress", "statement": "After MPI_Request_free or MPI_Type_free the handle is gone, and everything else goes on as if the call had not been made: memory is unchanged, every other request is reported in the same way, probes find the same messages, and every message sent or receive posted afterwards has the same effect on memory - even if the released object is used by an operation in progress.", "quantifier": "all reachable states, all live requests and datatypes, all later operations", "why_tests_cant": "recycled storage usually still holds the old values", "anchors": ["req.c: MPI_Request_free", "type.c: MPI_Type_free", "handles.c: mpi_free_handle"]}
{"id": "C55", "title": "True extent is the span of the data", "statement": "Type_get_true_extent reports the distance from the least displacement to the greatest displacement plus size, whatever explicit bounds the type has.", "quantifier": "all types nested to any depth whose values fit the C types", "why_tests_cant": "rounding shows only for particular combinations of element sizes", "anchors": ["type.c: Type_get_true_extent, calc_padding, calc_ub, calc_lb"]}
{"id": "C56", "title": "Leftovers in recycled request storage never show", "statement": "Request storage is neither cleared when it is handed out nor written completely by MPI_Isend and MPI_Irecv. Nevertheless nothing a program can observe depends on what the storage held before: every call ends in the same way, returns the same handles, flags, counts and positions, writes the same memory, and completion calls on receives write the same statuses. (The source and tag in the status of a completed send do depend on it; MPI leaves them undefined.)", "quantifier": "all programs choosing each call from everything seen so far, all well-formed histories of fewer than 2^30 calls, all former contents", "why_tests_cant": "the former contents are those of one particular run, usually zero or a similar request", "anchors": ["handles.c: mpi_alloc_handle", "send.c: MPI_Isend", "recv.c: MPI_Irecv", "req.c: MPI_Test"]}
{"id": "C57", "title": "Diagnostic builds behave the same", "statement": "Compiling with INFO and/or DEBUG only adds output: every correct program that runs in the default build runs the same way in the diagnostic ones - each call returns the same handles and statuses, leaves the same memory and the same state, and ends the program in the same cases.", "quantifier": "all builds, all reachable states, all calls, all well-formed programs", "why_tests_cant": "the diagnostic statements walk queues and read buffers; whether a read is valid depends on the history and the message", "anchors": ["send.c: MPI_Isend", "recv.c: MPI_Irecv, print_list, print_item", "list.c: AP_list_apply"]}
{"id": "C58", "title": "Fortran string results are blank padded", "statement": "The Fortran subroutines that return text (MPI_GET_LIBRARY_VERSION, MPI_ERROR_STRING, MPI_GET_PROCESSOR_NAME) fill a CHARACTER variable of the documented length with the text followed by blanks, and RESULTLEN is the number of characters of the text.", "quantifier": "all error codes, all host names and results of gethostname, all former contents and lengths of the variable", "why_tests_cant": "printing a variable with a NUL in it usually looks right", "anchors": ["mpi.c: FC_FUNC(mpi_get_library_version), FC_FUNC(mpi_error_string), FC_FUNC(mpi_get_processor_name)"]}
{"id": "C59", "title": "Derived datatypes work from construction to use", "statement": "A handle returned by a datatype constructor applied to handles of known datatypes stands for the datatype the standard prescribes, and keeps standing for it - whatever else the program does, committed or not - until it is freed: the inquiry calls report its bounds, extent and size, further constructors build on it, and a message described by one committed datatype and received as another moves exactly the elements of the two type maps, in order, and changes no other byte.", "quantifier": "all histories of calls, all constructor arguments within the limits of C25, nesting to any depth, all pairs of datatypes, all memory contents", "why_tests_cant": "the combinations of constructors, intervening calls and layouts are unlimited; errors in one layer show only through another", "anchors": ["type.c: MPI_Type_struct, MPI_Type_commit, MPI_Type_extent", "copy.c: copy_data2", "send.c: MPI_Isend", "recv.c: MPI_Irecv"]}
{"id": "C60", "title": "Cartesian topology reads back as requested", "statement": "A grid can be created iff it has at most as many positions as there are processes (one), every other request is refused; the dimensions, periods and coordinates read back are those requested and the row-major rank of the coordinates is the rank of the process; MPI_Dims_create chooses the unconstrained entries so that the grid has the given number of nodes and keeps the others.", "quantifier": "every number of dimensions, all dimensions, periods and constraints, all previous contents of the output arrays", "why_tests_cant": "the arrays are unbounded, and an output that is never written may hold the right value by chance", "anchors": ["cart.c: MPI_Cart_create, MPI_Cart_get, MPI_Cart_coords, MPI_Dims_create"]}
{"id": "C61", "title": "Running out of memory is reported", "statement": "Every call makes a number of allocations that does not depend on their success up to the first failure. If all of them succeed, the call does what it does with unlimited memory. If one of them fails, the program stops with a message that says so, and no pointer from a failed allocation is used.", "quantifier": "all programs of MPI calls with arbitrary arguments, all states, every choice of the allocations that fail", "why_tests_cant": "which allocation fails is decided by the system; a failed allocation in the middle of a long run cannot be provoked for every position", "anchors": ["handles.c: mpi_malloc, mpi_alloc_handle", "list.c: AP_listitem_malloc, AP_list_new", "type.c: Type_struct"]}
{"id": "C62", "title": "The library behaves as a simple reference machine", "statement": "There is a machine whose state is only an account of the posted operations and live objects, a stack of free handle numbers and the program's memory (no handle table, linked lists, request records or descriptor heap). Every program that uses MPI correctly by the account of the machine gets from the library exactly the handles, flags, counts, receive statuses and memory contents it would get from the machine, and ends in the same way with the same message.", "quantifier": "all programs (arbitrary functions from everything seen so far to the next call) of fewer than 2^30 well-formed calls of the modelled interface, all initial memories, all contents of uninitialised storage", "why_tests_cant": "the equality is about every interleaving of allocation, release, matching and completion; tests only ever see a few handle numbers and short lists", "anchors": ["handles.c: mpi_alloc_handle, mpi_free_handle", "send.c: MPI_Isend", "recv.c: MPI_Irecv", "req.c: MPI_Test", "comm.c: mpi_comm_new, MPI_Comm_free", "type.c: MPI_Type_struct, MPI_Type_free"]}
{"id": "C63", "title": "A conforming program sees what the MPI standard says", "statement": "Take a machine with datatypes of the standard (type maps over exact integers) instead of descriptors, on which a message puts the bytes of its i-th element into the i-th element of the receive buffer and changes nothing else, a pack lines the elements up, a collective delivers the process's own contribution, and the inquiry functions give the exact extents, sizes and bounds. Every conforming program gets from the library exactly the results, receive statuses and memory contents it would get from this machine, and ends in the same way.", "quantifier": "all programs (arbitrary functions from everything seen so far to the next call) of fewer than 2^30 conforming calls, all initial memories", "why_tests_cant": "it covers every combination of nested datatypes, buffers, orders of posting and completion, and every continuation that depends on received data", "anchors": ["type.c: Type_struct, Type_vector, Type_extent", "copy.c: Pcopy_data2", "pack.c: Pack, Unpack", "send.c: MPI_Isend", "recv.c: MPI_Irecv", "collective.c"]}
{"id": "C64", "title": "A Fortran program sees what the MPI standard says", "statement": "Run a Fortran program, an arbitrary function from all it has seen in its variables to its next subroutine call, on the library through its bindings. After every call each byte of the program's memory (results, error codes, statuses, request and handle variables, message buffers) is as it would be on the simple reference machine, and, for conforming programs, on the machine of the MPI standard; and the program ends in the same way. The only freedom of the machines is the source and tag in the status of a completed send.", "quantifier": "all Fortran programs of fewer than 2^30 steps over the modelled bindings, all placements of variables in memory, both byte orders, all initial memories", "why_tests_cant": "it composes every binding with every state of the library and every later use of the written variables", "anchors": ["fort.F90", "mpif.master.h", "send.c: FC_FUNC(mpi_isend)", "recv.c: FC_FUNC(mpi_irecv)", "req.c: FC_FUNC(mpi_wait)", "collective.c", "type.c: FC_FUNC(mpi_type_struct)"]}
{"id": "C65", "title": "Handles are opaque", "statement": "Consider a program that uses handles as the MPI standard intends: it obtains them from calls, hands them to later calls while the object exists, and never looks at their numbers. Whatever numbers the handle table gives out - in any order, reusing a number early, late or never, as long as no number in use is given out again and the supply is as large - the program sees the same results, statuses and memory after every call, it ends in the same way, and whether its calls are well formed does not depend on the numbers either. In particular it sees on the library what it sees on the reference machine with any such numbering.", "quantifier": "all programs (functions from all that has been seen to the next call) of fewer than 2^30 calls whose communication calls lie between MPI_Init and MPI_Finalize and which do not free MPI_COMM_WORLD, all sound ways of giving out numbers, all initial memories", "why_tests_cant": "it compares a run with its runs under every other numbering, and numbers are reused, so no fixed renaming relates two runs", "anchors": ["handles.c: mpi_alloc_handle", "handles.c: mpi_free_handle", "handles.c: mpi_handle_to_ptr", "send.c: MPI_Isend", "recv.c: MPI_Irecv", "req.c: MPI_Test", "comm.c: mpi_comm_new", "type.c: MPI_Type_free"]}
{"id": "C66", "title": "Datatype descriptors stay inside their storage", "statement": "A datatype descriptor is one object: a header of 40 bytes and then pairs of 16 bytes each. The size that MPI_Type_struct computes has room for all pairs it counts (and one more), and no constructor and no query loads or stores outside the object it works on: every header field and every counted pair of every descriptor that calls can make, nested to any depth, is inside. Neither do copying a message, packing and unpacking, which only read descriptors. Run on these bytes, with whatever malloc leaves in them, all these functions give the results they give on descriptors as mathematical values, so the type map the standard requires is what the bytes contain.", "quantifier": "all descriptors made by any sequence of constructor calls and commits from the predefined types, all counts, strides, displacements and non-negative block lengths, any previous content of the new storage, both byte orders", "why_tests_cant": "an overrun of a heap object is seldom visible, and the number of pairs is the product and sum of unbounded arguments", "anchors": ["type.h: Typestruct", "type.h: typepair", "type.c: Type_struct", "type.c: Copy_type", "type.c: Type_contiguous", "type.c: Type_hvector", "type.c: Type_indexed", "type.c: Type_extent", "type.c: Type_size", "type.c: Type_dup", "type_const.c: simpletypes", "copy.c: Pcopy_data2", "pack.c: Pack", "pack.c: Unpack", "pack.c: Pack_size"]}
{"id": "C67", "title": "Who meets whom depends only on order and tags", "statement": "Write down, for one communicator, the sends and receives posted on it in the order of posting, each with its tag. By the rule of the MPI standard (an operation meets the first earlier one that fits and has not met another) every such word has exactly one pairing, and after every history the operations matched on the communicator are those of this pairing. A posting adds its letter to the word of its own communicator and no other call changes any word. So two programs that post the same word on some communicator - whatever else they do in between, with whatever buffers, counts, types, handles and other communicators, and whenever they test, wait or free requests - have the same operations matched there, their requests are complete or incomplete together, MPI_Wait returns or aborts together, receives report the same source and tag, and MPI_Iprobe gives the same answer.", "quantifier": "all histories of both programs, all words, all communicators, all orders of other calls in between", "why_tests_cant": "it compares all pairs of programs that agree on one communicator; the histories are unbounded and matching depends on all that came before", "anchors": ["send.c: MPI_Isend", "recv.c: MPI_Irecv", "probe.c: MPI_Iprobe", "req.c: MPI_Test", "req.c: MPI_Wait", "list.c: AP_list_search_func", "list.c: AP_list_append"]}
{"id": "C68", "title": "Parts of a program that take turns do not interfere", "statement": "A program is made of parts (a library, a coupler, component models), each with memory of its own, each using handles as opaque values, and each exchanging messages only on communicators it made itself, except that one part may use MPI_COMM_WORLD. By itself every part is correct. Let the parts run in one process, between one MPI_Init and one MPI_Finalize, taking turns call by call in any order. Unless the process runs out of handle numbers, every part then sees exactly what it sees when it has the process to itself - the results of its calls, the statuses of its receives, its whole memory after every call - and if the program is stopped in a call of some part, then that part by itself is stopped in the same call in the same way. In particular the order of turns makes no difference, and a program of parts that are never stopped is never stopped.", "quantifier": "all families of parts, all programs of the parts, all orders of turns, all initial memories", "why_tests_cant": "parts, programs and orders of turns are unbounded, and what is compared are runs with different handle numbers, different positions in the global lists of requests and different histories of other parts", "anchors": ["handles.c: mpi_alloc_handle", "handles.c: mpi_free_handle", "comm.c: MPI_Comm_dup", "send.c: MPI_Isend", "recv.c: MPI_Irecv", "req.c: MPI_Test", "req.c: MPI_Wait", "list.c: AP_list_search_func", "type.c: MPI_Type_free"]}
{"id": "C69", "title": "Handle numbers do not run out early", "statement": "A well-formed call of the library stops the program with \"max active handles exceeded\" only if fewer handle numbers than it needs are left of the 262143 there are: two for MPI_Sendrecv, one for every other call that makes an object or moves a message, none for any other call. If a call returns, the number of live objects has grown by one at most, and only if the call hands a new handle to the program; blocking sends and receives leave nothing behind. So a program of at most 262142 calls never runs out, whatever it does. The bound is exact: a program of 262143 calls can run out at an MPI_Sendrecv, and one that only makes communicators after MPI_Init runs out at its 262144th call.", "quantifier": "all reachable states, all well-formed calls, all programs", "why_tests_cant": "programs and states are unbounded; every path of every call that takes or returns a handle number matters, and a leak of one handle in 262142 calls is invisible to a test", "anchors": ["handles.c: mpi_alloc_handle", "handles.c: mpi_free_handle", "send.c: MPI_Send", "recv.c: MPI_Recv", "send.c: MPI_Sendrecv", "req.c: MPI_Test", "comm.c: mpi_comm_new", "type.c: Type_struct"]}
{"id": "C70", "title": "Packed messages carry many pieces", "statement": "A program packs any list of pieces (counts of items of datatypes at addresses) one after the other into a buffer, sends the packed bytes as MPI_PACKED, receives as many at another place, and unpacks them as a list of pieces whose elements have the same sizes one by one - under other handles, with other datatypes and another division into pieces if it likes. Packing succeeds exactly if the buffer has room for all pieces (the program exits otherwise), the message arrives whichever side is posted first, unpacking ends at the position where packing ended, every element of the target holds the bytes its counterpart held when it was packed, and no step changes any other byte.", "quantifier": "all lists of pieces, datatypes, counts, buffers and memory contents (sizes and positions within int, addresses of the machine, no overlap), all reachable states, both orders of posting, anything the program does between the three steps that keeps the packed bytes", "why_tests_cant": "the number of pieces, their types and layouts and what happens in between are unbounded; an error in one position or length shows only in particular combinations", "anchors": ["pack.c: MPI_Pack", "pack.c: Pack", "pack.c: MPI_Unpack", "pack.c: Unpack", "copy.c: Pcopy_data2", "send.c: MPI_Isend", "recv.c: MPI_Irecv"]}
{"id": "C71", "title": "Collectives may be done as messages on a private communicator", "statement": "A layer between a program and the library calls MPI_Comm_dup after MPI_Init, keeps the new communicator to itself, and does any of the program's collectives it likes (gather, scatter, allgather, their vector forms, reduce, allreduce, reduce_scatter, scan, alltoall, alltoallv, alltoallw) as one MPI_Sendrecv to oneself on that communicator, with any tag. Unless the process runs out of handle numbers - which it does not in the first 262140 calls - the program cannot tell: it sees the same results, the same statuses and the same memory after every call, and if it is stopped (by a message of the library or an exit), then in the same call and in the same way. The communicator has to be private: on MPI_COMM_WORLD the messages can be taken by receives of the program.", "quantifier": "all programs that use handles as opaque values and are correct by themselves (well-formed calls, no undefined behaviour, no MPI_Finalize), all initial memories, all choices of the layer (which may depend on everything that happened before), all numbers of calls", "why_tests_cant": "programs, histories and choices of the layer are unbounded, and a leak of the layer's messages, handles or requests into the program shows only in particular interleavings", "anchors": ["collective.c: MPI_Gather", "collective.c: MPI_Gatherv", "collective.c: MPI_Allgather", "collective.c: MPI_Allgatherv", "collective.c: MPI_Scatter", "collective.c: MPI_Scatterv", "collective.c: MPI_Reduce", "collective.c: MPI_Allreduce", "collective.c: MPI_Reduce_scatter", "collective.c: MPI_Scan", "collective.c: MPI_Alltoall", "collective.c: MPI_Alltoallv", "collective.c: MPI_Alltoallw", "send.c: MPI_Sendrecv", "comm.c: MPI_Comm_dup", "comm.c: mpi_comm_new"]}
{"id": "C72", "title": "MPI_Finalize leaves no trace", "statement": "MPI_Finalize always returns, whatever communicators, groups, datatypes, requests and unreceived messages are left. What the program does with the library afterwards gives the same results, the same handle numbers, the same statuses and the same memory as with a library that has just been started, and ends in the same way: no handle, message or attribute of the first session can be seen in the second. The only thing that can differ is storage the library reads without having set it: the bounds of a structure datatype may depend on what malloc returns.", "quantifier": "all reachable states before MPI_Finalize, all programs after it (all calls, any number of them), all memories", "why_tests_cant": "the histories before and the programs after are unbounded, and a counter, list or table entry that survives shows only in particular continuations", "anchors": ["mpi.c: MPI_Finalize", "mpi.c: MPI_Init", "handles.c: mpi_destroy_handles", "handles.c: mpi_alloc_handle", "comm.c: mpi_comm_new", "send.c: MPI_Isend", "recv.c: MPI_Irecv"]}
{"id": "C73", "title": "Programs written partly in C and partly in Fortran", "statement": "A program may make any of its calls from C and any from Fortran, in any order. What it sees - return values, statuses, all of its memory after every step, and how it ends - is what it may see on one machine that knows one kind of communicator, group, request and datatype: an object made in one language can be used and freed in the other, a message sent from one is received in the other. A handle keeps its identity on the way: MPI_Comm_c2f or MPI_Request_c2f, an INTEGER variable and MPI_Comm_f2c or MPI_Request_f2c give back the handle.", "quantifier": "all programs of conforming steps in both languages, all initial memories, both byte orders, up to 2^30-1 steps", "why_tests_cant": "the ways to interleave the two languages are unbounded, and a difference between the conventions of the two (sizes, status layout, handle numbering) shows only where an object crosses", "anchors": ["comm.c: MPI_Comm_f2c", "comm.c: MPI_Comm_c2f", "req.c: MPI_Request_f2c", "req.c: MPI_Request_c2f", "send.c: MPI_Isend", "recv.c: MPI_Irecv", "req.c: MPI_Wait", "mpi.c: mpi_init_fort"]}
{"id": "C74", "title": "Requests may be completed in any order", "statement": "Replace every MPI_Waitall of a program by one MPI_Wait for each of its requests, in any order, and every MPI_Sendrecv by MPI_Irecv, MPI_Isend and two MPI_Waits, in either order. The program cannot tell: it sees the same results, the same statuses and the same memory after every call, and it ends in the same way - it goes on, is stopped with a message, exits or hangs at the same call. Only the numbers of handles obtained later can differ, which a program that uses handles as opaque values does not see. The library must be given a status for every request; MPI_STATUSES_IGNORE will do for a single request only.", "quantifier": "all programs that use handles as opaque values, all orders (which may depend on everything that happened before and be different at every call), all initial memories, up to 2^30-1 calls", "why_tests_cant": "the number of orders grows with the factorial of the number of requests, and handles given back in another order show only in what the program obtains much later", "anchors": ["req.c: MPI_Waitall", "req.c: MPI_Wait", "req.c: MPI_Test", "send.c: MPI_Sendrecv", "send.c: MPI_Isend", "recv.c: MPI_Irecv", "handles.c: mpi_free_handle"]}
{"id": "C75", "title": "Wrong handles are refused", "statement": "A call that needs a communicator, request or datatype and is given a null handle or the handle of an object of another kind stops the program with a message; it neither returns as if nothing were wrong nor misuses memory. MPI_REQUEST_NULL, which MPI allows in MPI_Test, MPI_Wait and MPI_Request_free, is treated as a request that is complete, with the empty status.", "quantifier": "all reachable states, all calls that take such a handle, all other arguments, all wrong handles", "why_tests_cant": "tests use handles correctly; what a wrong handle does depends on what happens to be stored under its number", "anchors": ["handles.c: mpi_handle_to_ptr", "send.c: MPI_Isend", "recv.c: MPI_Irecv", "probe.c: MPI_Iprobe", "comm.c: MPI_Comm_free", "comm.c: MPI_Comm_dup", "req.c: MPI_Test", "req.c: MPI_Wait", "req.c: MPI_Request_free", "type.c: mpi_handle_to_datatype", "collective.c"]}
{"id": "C76", "title": "Releases may come late, or never", "statement": "A layer between the program and the library may put off the program's MPI_Type_free and MPI_Request_free calls: it tells the program that the call was made, and makes it later, in any order relative to the others, or never. The program sees the same results, statuses and memory in every call, and is stopped in the same call in the same way if it is stopped, unless the process runs out of handle numbers, which cannot happen in the first 262141 calls. It does happen in the end to a program that makes and releases datatypes for ever if nothing is released.", "quantifier": "all programs that use handles as opaque values and are correct by themselves, all policies for putting off and making up for releases, all numbers of calls", "why_tests_cant": "needs all programs and all schedules of releases; handle numbers, which differ, are reused at unpredictable moments", "anchors": ["type.c: MPI_Type_free", "req.c: MPI_Request_free", "handles.c: mpi_free_handle", "handles.c: mpi_allocate_handle"]}
{"id": "C77", "title": "The library does not look at the data it moves", "statement": "What a call does depends on the addresses, counts, datatypes and handles it is given, not on the bytes stored in the program's memory. For any call in any state there is one outcome: over every memory with the same accessible addresses the call ends in the same way, returns the same handles, flags, positions and statuses, leaves the library in the same state, and every byte afterwards is a byte that was there before, from a place that is the same for all contents; no byte is computed. So recoding all data byte by byte and then calling is the same as calling and then recoding, and two programs that differ only in their data make the same calls, see the same results and die in the same way, with corresponding data, to the end.", "quantifier": "all states, all calls with all arguments, all memories with the same accessible addresses, all relations between bytes, all programs", "why_tests_cant": "a test runs with a few data patterns; a byte treated specially (a sentinel, an end-of-string, a short cut for zeros) is missed unless the test happens to contain it", "anchors": ["copy.c: Pcopy_data2", "pack.c: Pack", "pack.c: Unpack", "send.c: MPI_Isend", "recv.c: MPI_Irecv", "collective.c: MPI_Reduce"]}
{"id": "C78", "title": "print_typemap shows the datatype", "statement": "In a build with TEST_INTERNAL, print_typemap prints the type map of a datatype: the number of entries, and for each entry, in order, its basic type, size and displacement; further the lower and upper bound, the extent and the size of the largest entry, all as the standard defines them for the way the datatype was constructed. It changes nothing. Two datatypes with different type maps never look the same.", "quantifier": "all reachable states, all datatypes however nested", "why_tests_cant": "the test programs print a few small datatypes and compare with nothing; the numbers printed are 64 bits wide and the format is not", "anchors": ["type.c: print_typemap", "type.c: Pprint_typemap", "type.c: calc_padding"]}
{"id": "C79", "title": "What malloc'ed memory held before does not show", "statement": "Datatype descriptors live in memory from malloc that the constructors do not clear. Whatever that memory held before, every program sees the same results, statuses and data and ends in the same way.", "quantifier": "all programs, well formed or not, all lengths of run, all contents of memory from malloc at every allocation", "why_tests_cant": "in a short test run fresh memory is zero; what it holds in a long-running program is a matter of history", "anchors": ["type.c: Type_struct", "type.c: Type_extent", "type.c: calc_padding", "type.c: Pack_size", "copy.c: Pcopy_data2"]}
{"id": "C80", "title": "Datatypes of C structs", "statement": "A datatype built the way the manuals recommend - MPI_Type_struct with offsetof of every member and the datatype of each member (or the length of an array member and the datatype of its elements), MPI_Type_contiguous for arrays - describes the C type: its extent is sizeof, its lower bound 0, and sending an array of n such values into an array of k <= n moves every member of the k elements and no other byte, padding included. So no MPI_UB and no resizing is needed.", "quantifier": "all C types made of basic types, arrays and structs, nested to any depth, all lengths, all reachable states, all ways to send", "why_tests_cant": "the padding rule of the library is a guess (\"probably\", type.c:50) that agrees with the layout rules of C for the structs of the test programs; whether it does for all nestings needs induction over C types", "anchors": ["type.c: calc_padding", "type.c: Type_extent", "type.c: Type_struct", "type.c: Type_contiguous", "copy.c: Pcopy_data2"]}
{"id": "C81", "title": "Exactly which transfers are carried out", "statement": "A transfer between committed datatypes whose counts and offsets are ints, which sends enough and (if types are checked) the right types, is carried out if and only if the program may access every element on both sides and no element overlaps the one it is copied onto - however else the buffers overlap, including elements of the receive buffer that overlap each other. It then copies one element after the other in the order of the type maps. Any other transfer is undefined behaviour. So the values arrive whenever no element is overwritten before it is sent or after it arrived: an array may be moved down by at least one element, as with memmove; a message into its own buffer is always undefined.", "quantifier": "all datatypes, counts, buffers, memories, all reachable states, all ways to send and receive", "why_tests_cant": "the tests use separate buffers; which overlaps work depends on the order of the copy loop and on every memcpy in it, for every type map", "anchors": ["copy.c: Pcopy_data2", "copy.c: copy_data2", "send.c: MPI_Isend", "recv.c: MPI_Irecv"]}
{"id": "C82", "title": "A small set of calls suffices", "statement": "26 of the 62 calls do all the work: a layer that makes the other 36 calls out of them - blocking calls out of MPI_Isend, MPI_Irecv and MPI_Test, all calls on arrays of requests out of MPI_Test, every collective call out of MPI_Alltoall and MPI_Type_extent, communicators out of MPI_Comm_dup, every datatype out of MPI_Type_struct - cannot be told from the library: for all arguments, in every state, a call returns if and only if it returns through the layer, with the same results, memory and complete library state; unless it makes a datatype by repeating another, it also fails in the same way with the same message. The layer uses nothing but the basic calls and what they hand back. So every program sees the same with the layer.", "quantifier": "all calls, arguments, states, environments, programs", "why_tests_cant": "a test compares two calls for some arguments in some state; that the two are interchangeable needs the equality of results and of the state left behind, for every argument including wrong ones, and every state", "anchors": ["send.c: MPI_Send", "send.c: MPI_Sendrecv", "req.c: MPI_Wait", "req.c: MPI_Waitall", "req.c: MPI_Testsome", "type.c: Type_struct", "type.c: MPI_Type_vector", "type.c: MPI_Type_create_indexed_block", "collective.c: MPI_Gatherv", "collective.c: MPI_Alltoallv", "comm.c: MPI_Comm_split"]}
{"id": "C83", "title": "Calls that work on the caller's variables do the same as on values", "statement": "The completion functions store into the request, flag, index, count and status variables of the program while they run and read some of them again (*flag and *request in MPI_Test, the request array in MPI_Testall and MPI_Waitall); MPI_Isend, MPI_Irsend and MPI_Irecv store *request before they transfer a message; MPI_Pack and MPI_Unpack read and advance *position at every element; the datatype constructors store *newtype before they read their block lengths and displacements; MPI_Group_translate_ranks and MPI_Cart_get fill arrays element by element. If the variables passed to one call do not overlap each other, no blocking receive delivers its message onto the arguments of the same call, the request variable of a nonblocking call is not part of the message that it transfers, packing touches the position variable with no element, the new datatype is not part of the block lengths or displacements, and no rank is overwritten before it is read, the call ends in the same way, leaves the library in the same state and the variables with the same values as if the arguments were read at the start and the results stored at the end. So programs run as in C64. With one variable for request and flag MPI_TEST frees MPI_COMM_WORLD; with the position variable inside the buffer MPI_PACK ends the program although the data fit; with the new datatype in place of a displacement the handle becomes the displacement.", "quantifier": "all Fortran calls that post, complete, cancel, probe, pack, unpack, build a datatype from arrays or fill arrays, all memories and placements of variables, all reachable states, all programs of any length", "why_tests_cant": "the tests use separate variables with a few placements; a wrong order of a store and a read only shows for particular values and placements", "anchors": ["req.c: MPI_Test", "req.c: MPI_Testall", "req.c: MPI_Testsome", "req.c: MPI_Waitall", "req.c: mpi_testall", "probe.c: MPI_Iprobe", "recv.c: MPI_Recv", "send.c: MPI_Isend", "send.c: MPI_Irsend", "recv.c: MPI_Irecv", "pack.c: Pack", "pack.c: Unpack", "type.c: MPI_Type_struct", "type.c: MPI_Type_hindexed", "type.c: MPI_Type_indexed", "type.c: MPI_Type_create_indexed_block", "group.c: MPI_Group_translate_ranks", "cart.c: MPI_Cart_get"]}
{"id": "C84", "title": "Where the data lie does not show", "statement": "If the data of a program - every buffer it passes and every byte it owns - lie a fixed distance further on in the address space, every call dies in the same way or hands back the same numbers and statuses, leaves the same data (that distance further on) and leaves the library in the same state up to the buffer addresses it has noted in queued requests. A program that is moved in this way therefore makes the same calls, sees the same, and ends in the same way, at any number of calls. So no call depends on the alignment of a buffer, on which of two buffers comes first in memory, or on an address being small or large. The same holds of the Fortran subroutines, whose arguments are all addresses of variables, and of whole Fortran programs; MPI_ADDRESS and MPI_GET_ADDRESS, whose answer is the address, are left out. The one exception otherwise is the last address of the address space, which the library takes for MPI_IN_PLACE: a buffer of one byte moved there is not copied by MPI_Allreduce.", "quantifier": "all calls, all states (reachable or not), all distances that keep the data within the address space, all well-formed programs of fewer than 2^30 calls; all Fortran subroutines but the two and all Fortran programs of any length", "why_tests_cant": "tests run with the addresses the linker and allocator happen to give; a dependence on alignment or on the order of buffers shows for some placements only", "anchors": ["copy.c: copy_data2", "pack.c: Pack", "pack.c: Unpack", "collective.c: MPI_Gatherv", "collective.c: MPI_Allreduce", "send.c: MPI_Isend", "recv.c: MPI_Irecv", "type.c: MPI_Type_struct", "send.c: mpi_isend", "mpi.c: mpi_init_fort"]}
{"id": "C85", "title": "A Fortran program has one run", "statement": "The standard leaves source and tag in the status of a completed send undefined, so a program may have several runs. A conforming Fortran program that ignores the statuses of its completed sends has exactly one: whatever it may see on the reference machine, and whatever it may see on the machine of the standard, is what it sees on the library - all of its memory after every step, and how it ends. In particular it never sees what the storage of a request held before the request was made. A program that looks at the status of a completed send does see it.", "quantifier": "all Fortran programs of fewer than 2^30 steps whose steps conform, all initial memories, all byte orders, all leftovers in the storage of requests", "why_tests_cant": "leftovers in freshly allocated handle storage are usually zero in a test run; and a test sees one run, not that there is no other", "anchors": ["send.c: mpi_isend", "recv.c: mpi_irecv", "req.c: mpi_wait", "handles.c: mpi_alloc_handle", "send.c: MPI_Isend"]}
{"id": "C86", "title": "Asking changes nothing", "statement": "Once MPI has been initialised, a call that only asks (MPI_Initialized, MPI_Iprobe, MPI_Probe, MPI_Type_extent, MPI_Type_size, MPI_Type_lb, MPI_Type_ub, MPI_Get_elements, MPI_Pack_size) or that has nothing to do in a single process (MPI_Barrier, MPI_Bcast) leaves memory and all tables of the library as they were; so do MPI_Test, MPI_Testany and MPI_Testsome when they find nothing complete, and these leave the requests and the statuses alone too. Hence questions can be inserted anywhere between MPI_Init and MPI_Finalize of any program: all its other calls give the same results and the same memory, and it ends the same way unless a question ends it.", "quantifier": "all states in which the handle table is set up, all arguments; all programs, all ways of inserting questions, all numbers of calls, all initial memories", "why_tests_cant": "a probe that consumed the message or moved it in the list, or a query that took a handle, shows only in what some later call does; tests do not compare a program with and without its questions", "anchors": ["probe.c: MPI_Iprobe", "type.c: MPI_Type_size", "getcount.c: MPI_Get_elements", "pack.c: MPI_Pack_size", "collective.c: MPI_Barrier", "req.c: MPI_Test", "handles.c: mpi_handle_to_ptr"]}
{"id": "C87", "title": "Waiting may be done by polling", "statement": "A program that waits for its requests with MPI_Wait and MPI_Waitany may poll them with MPI_Test and MPI_Testany until the poll succeeds: all other calls give the same results and the same memory, the completing poll gives what the wait gives, and it takes no more calls, because a wait that returns corresponds to a poll that succeeds at once. Where the waiting program is stopped for a deadlock, the polling program polls for ever, and the polls change nothing; otherwise both end the same way.", "quantifier": "all programs that wait between MPI_Init and MPI_Finalize, all numbers of calls, all initial memories; for one call all states in which the handle table is set up and all arguments", "why_tests_cant": "endless polling cannot be tested; and a poll in vain that did leave a trace would show only in some later call", "anchors": ["req.c: MPI_Wait", "req.c: MPI_Test", "req.c: MPI_Waitany", "req.c: MPI_Testany", "handles.c: mpi_free_handle"]}
{"id": "C88", "title": "Tags are names", "statement": "The numbers chosen for tags do not matter. If a program uses other numbers for its tags, different ones for different tags and MPI_ANY_TAG for MPI_ANY_TAG, then every call behaves as before: the same messages are matched in the same order, the same memory is written, the same results come back with only the tags in statuses renumbered, and the program ends in the same way. This holds for negative and huge tags as well.", "quantifier": "all injective renumberings that keep MPI_ANY_TAG, all calls, all states; for whole runs all well-formed programs, all numbers of calls below 2^30, all initial memories", "why_tests_cant": "there are 2^32 tags and a test uses a handful of them; a limit, a special value or a table indexed by tag shows only for the numbers that were not tried", "anchors": ["send.c: mpi_match_recv", "recv.c: mpi_match_send", "probe.c: mpi_match_send", "send.c: MPI_Isend", "recv.c: MPI_Irecv", "probe.c: MPI_Iprobe", "req.c: MPI_Test"]}
{"id": "C89", "title": "Statuses may be ignored", "statement": "A program that makes no use of statuses may pass MPI_STATUS_IGNORE and MPI_STATUSES_IGNORE: every call does the same to the library and to memory, hands back the same results apart from the statuses, and dies in the same situations, so that the whole program runs the same.", "quantifier": "all states, all calls with status arguments, all programs whose choices do not depend on statuses, all numbers of calls, all initial states", "why_tests_cant": "test programs pass a status nearly everywhere; each completion call must be tried with a null status in every state of each of its requests", "anchors": ["req.c: MPI_Test", "req.c: MPI_Wait", "req.c: MPI_Waitall", "req.c: MPI_Testall", "req.c: MPI_Testsome", "req.c: MPI_Waitsome", "req.c: MPI_Testany", "req.c: MPI_Waitany", "recv.c: MPI_Recv", "send.c: MPI_Sendrecv", "probe.c: MPI_Iprobe", "probe.c: MPI_Probe", "mpi.h: MPI_STATUS_IGNORE"]}
{"id": "C90", "title": "Data may be moved in pieces", "statement": "Packing, unpacking, sending to oneself, gathering, scattering or reducing a + b items is doing so with a items and then with b items at the addresses where those lie (a times the extent further on): the same bytes end up at the same places, the position variable is the same, and the program ends in the same way if a buffer is too small.", "quantifier": "all states reachable by correct programs, all datatypes with any extent (also negative), all a, b >= 0, all buffers, also overlapping ones", "why_tests_cant": "a test compares few counts of few types; that item number k of any type lies k extents on, and that the element index is carried over the boundary correctly on both sides with different types, is an induction over both counts", "anchors": ["pack.c: Pack", "pack.c: Unpack", "copy.c: Pcopy_data2", "collective.c: MPI_Gather", "collective.c: MPI_Scatter", "collective.c: MPI_Alltoall", "collective.c: MPI_Reduce", "collective.c: MPI_Scan", "send.c: MPI_Sendrecv"]}
{"id": "C91", "title": "Alone, there is nothing to choose", "statement": "MPI_ANY_SOURCE and source 0 are the same; the operator and the communicator of a collective, the key and the (defined) colour of MPI_Comm_split, the parent communicator, and the leaders and tag of MPI_Intercomm_create make no difference: two programs that differ in these arguments only get the same results, leave the same memory and end in the same way.", "quantifier": "all states, all calls, all pairs of programs that differ in such arguments only, all numbers of calls, all initial states, well formed or not", "why_tests_cant": "argument values are unbounded and the claim compares two runs; it also has to hold in the states where the calls fail", "anchors": ["recv.c: MPI_Irecv", "probe.c: MPI_Iprobe", "collective.c: MPI_Reduce", "collective.c: MPI_Allreduce", "collective.c: MPI_Scan", "collective.c: MPI_Bcast", "comm.c: MPI_Comm_split", "comm.c: MPI_Comm_create", "comm.c: MPI_Comm_dup", "comm.c: MPI_Intercomm_create", "cart.c: MPI_Cart_create"]}
{"id": "C92", "title": "Transfers may be repeated, returned and forwarded", "statement": "If no byte is in both buffers, the kinds of elements agree, and offsets and counts are values of type int: a transfer that was carried out is carried out again, in whatever way it is made, and then changes nothing, even if elements of the receive buffer overlap; sending the received data back to where they came from changes nothing; passing them on to a third buffer puts there what the first one held, and changes nothing else except in the buffer in between.", "quantifier": "all reachable states, all committed datatypes on both sides, all counts and buffers, all ways to make the transfer (send to a waiting receive, MPI_Sendrecv, collectives), independently for the first and the second transfer", "why_tests_cant": "relates two or three transfers with arbitrary different datatypes; the second may be made in another way and any number of calls later", "anchors": ["copy.c: Pcopy_data2", "copy.c: copy_data2", "send.c: MPI_Isend", "send.c: MPI_Sendrecv", "collective.c: MPI_Gather", "collective.c: MPI_Scatter", "collective.c: MPI_Alltoall"]}
{"id": "C93", "title": "Without type checking only the sizes of the elements count", "statement": "In a library compiled without TYPE_CHECKING, a program that uses other names for the predefined datatypes - names of datatypes with elements of the same sizes at the same places, such as the Fortran instead of the C names - also inside the derived datatypes it builds, makes the same calls up to those names, gets the same results, finds the same memory after every call, and dies in the same way. The two sides of a transfer may choose their names independently.", "quantifier": "all states (also unreachable ones), all calls, all programs of fewer than 2^30 well-formed calls, all renamings of predefined datatypes that keep sizes and places, all configurations of Fortran sizes", "why_tests_cant": "compares two runs of an arbitrary program for every renaming of its datatypes; the datatypes may be nested arbitrarily and waiting in requests when they are used", "anchors": ["type.c: Simpletype_length", "type.c: Type_struct", "type.c: Type_extent", "type.c: mpi_handle_to_datatype", "copy.c: Pcopy_data2", "pack.c: Pack", "pack.c: Unpack", "type_const.c: simpletypes", "send.c: MPI_Isend", "recv.c: MPI_Irecv"]}
{"id": "C94", "title": "A count may be folded into the datatype", "statement": "m items of MPI_Type_contiguous(n, t) are m*n items of t, for every datatype t whose extent is not negative: MPI_Type_contiguous(m, .) of it is the same datatype as MPI_Type_contiguous(m*n, t) (same type map, bounds, extent and size), MPI_Type_hvector with c blocks of one such item is MPI_Type_hvector with c blocks of n items of t, and a message of m such items, received into m' items of n' times another datatype, has the same outcome as the message of m*n items received into m'*n' items: the same memory results, or neither is carried out. Likewise for a receive that finds its message waiting; and packing or unpacking m such items is packing or unpacking m*n items.", "quantifier": "all histories, all datatypes nested to any depth with or without explicit bounds, all counts m, n, m', n', all buffers (also overlapping ones), all transfers: messages, MPI_Sendrecv, collectives", "why_tests_cant": "needs the extent of every nested datatype, alignment padding included, to be multiplied exactly by the count; a test tries a few datatypes and counts", "anchors": ["type.c: Type_contiguous", "type.c: Type_hvector", "type.c: Type_struct", "type.c: Type_extent", "type.c: calc_padding", "copy.c: Pcopy_data2", "send.c: MPI_Isend", "recv.c: MPI_Irecv", "collective.c: MPI_Allgather", "pack.c: Pack", "pack.c: Unpack"]}
{"id": "C95", "title": "Blocks that follow each other may be joined", "statement": "For every component datatype that stands for a datatype of the standard: an MPI_Type_hindexed, MPI_Type_indexed or MPI_Type_struct call with a block of a+b items, anywhere among its blocks (in a struct: blocks of any datatypes and markers), has exactly the same outcome as the call with a block of a items and a block of b items that begins where the first ends (same handle, same resulting state, or the same failure); and MPI_Type_vector(n, b, b) and MPI_Type_hvector(n, b, b times the extent) have exactly the same outcome as MPI_Type_contiguous(n*b), for n, b at least 1.", "quantifier": "all histories, all component datatypes nested to any depth with or without explicit bounds, all lists of blocks before and after, all block lengths and displacements, also those for which the computation overflows, all contents of fresh storage", "why_tests_cant": "needs the running count, the running bounds and the output position of the two passes of Type_struct to agree for every split, overflow included; a test tries a few splits", "anchors": ["type.c: Type_struct", "type.c: Type_hindexed", "type.c: Type_indexed", "type.c: Type_vector", "type.c: Type_hvector", "type.c: Type_contiguous"]}
