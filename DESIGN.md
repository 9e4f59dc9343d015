# Formal model of ESMCI/mpi-serial (2.5.0) in Lean 4

Everything in `/verif/lean/Verif` is plain Lean 4 (a few files import single Mathlib modules). The
model follows the C code function by function; every definition cites the file and lines of `/repo`
it models. `MANIFEST.json` maps every property of `properties.jsonl` to its theorems.

## 1. Trusted base

* Lean's kernel (4.33.0) and the axioms `propext`, `Classical.choice`, `Quot.sound`. No axiom is added, there is
  no `sorry`, no `native_decide`, no `bv_decide`. Section 9 lists the axioms of every property theorem
  as printed by `#print axioms`.
* The reading of C described in section 3.
* The faithfulness of the definitions in `Verif/Model` to the cited lines: they were written by hand
  from the source text; nothing was compiled or run. Section 8 describes how the definitions and the
  theorems were tested by mutation.
* The definitions in `Verif/Spec` say what the English properties mean; together with the statements
  in `Verif/Props` they are what has to be read to believe a claim. Files in `Verif/Proofs` need not be
  trusted (a few statement-level helpers defined there, such as `locOf`, `dataAt` and the `Demo`
  histories, occur only in examples and inside proofs).

## 2. Layout

* `Verif/Base.lean` - outcome of a C call (`Res`: `ok`, `abort`, `exit`, `ub` with a kind, `hang`) and C
  integers (`u64`, `s64`, `s32`: conversions; `ck32`, `ck64`: signed arithmetic that is `ub overflow`
  outside the range).
* `Verif/Model` - the code:

  | file | C source |
  |------|----------|
  | `Handles` | handles.c |
  | `Lists` | list.c, listP.h, listops.h |
  | `Types` | type.h, type_const.c, type.c on descriptor values |
  | `Desc`, `DescUse` | type.h, type.c, copy.c, pack.c on the bytes of descriptors, every load and store checked against the object; `Type_dup` |
  | `Mem` | user memory, memcpy |
  | `Copy` | copy.c (`Pcopy_data2`), pack.c (`Pack`, `Unpack`, `Pack_size`) |
  | `Sys` | global state; mpiP.h records; comm.c; MPI-level functions of type.c; `copy_data2`; MPI_Init, MPI_Finalize |
  | `P2P` | send.c, recv.c, probe.c, req.c, getcount.c |
  | `Coll` | collective.c |
  | `Group`, `Cart` | group.c, cart.c |
  | `Misc` | mpi.c strings, constants of mpi.h/mpif.h, fort.F90, Fortran bindings with sentinel arguments |
  | `Checks` | the `CHECKS` code of handles.c and list.c |
  | `Diag` | the `INFO` and `DEBUG` code of send.c and recv.c |
  | `Oom` | every function that calls `malloc` or a function that does, with `malloc` failing |
  | `Stubs` | op.c, info.c, error.c, ic_merge.c, `MPI_Get_address` |
  | `Time` | time.c |
  | `Fort` | Fortran bindings of all modelled functions with their arguments in memory, both byte orders |

* `Verif/Spec` - specifications written from the English, not using the model's helper functions:
  `Handles` (histories of the handle table, live sets), `Lists` (sequences), `Types` (type maps of the MPI
  standard over unbounded integers), `Transfer` (elements of a typed buffer and what a transfer does
  to them), `P2P` (the client's account `Ledger` of a history, `Step`, `Reach`), `Observe` (what a program can
  see of a request: `Incomplete`, `Completed`, ...), `Arrays` (Testall and friends), `Exchange` (typed
  messages), `Coll`, `Group`, `Strings`, `Fate` (how a call ends), `Calls` (programs as lists of calls
  with arbitrary arguments, well-formed use), `Frame` (footprints), `Checks`, `Twin` (two runs), `Diag` (builds),
  `TypeUse` (typed messages between datatypes of the standard), `Cart` (grids),
  `Oom` (failing allocations), `Machine` (the reference machine: ledger, stack of free handle numbers, memory),
  `Ideal` (the same with datatypes of the standard; conforming calls), `FortMach` (Fortran programs on these machines),
  `Opaque` (ways of giving out handle numbers), `Compose` (parts of a program that take turns), `Capacity` (handle numbers a call needs), `Desc` (struct layout of the ABI; the descriptor a byte string represents).
* `Verif/Proofs` - invariants and lemmas. `Verif/Props` - the property theorems, each with an `example`
  showing that its hypotheses are satisfiable in a non-trivial case.
* `Verif/Tests` - the library's own test programs tests/ctest.c, tests/ctest_old.c, tests/ftest.F90 and tests/ftest_old.F90 run in
  the model, the Fortran ones through the bindings, as a check of the model. These are tests, no claim rests on them.

## 3. Reading of C

* Platform: LP64, two's complement, gcc (short 2, int 4, long 8, long double 16, pointers 8).
  `MPI_Aint` is `unsigned long` (mpi.h:66) and is modelled with its *unsigned* comparisons and
  mod 2^64 arithmetic; conversions to `int`/`long` wrap (gcc's documented choice).
* Undefined behaviour is an explicit outcome `ub` with a kind: null pointer, pointer to nothing,
  signed overflow, read of uninitialised storage where it matters, overlapping `memcpy`, inaccessible
  memory, division by zero, bad `free`, reading a union member other than the one stored, negative
  length of a variable-length array (length zero is accepted, as by gcc).
* `abort()` and `exit()` are outcomes without later state. Diagnostics printed to stdout/stderr are not
  modelled, only the fact that the program stops.
* Loops over linked structures carry fuel; running out of it is the outcome `hang`. Loops with a
  counter are structural recursions. C44 shows that `hang` is not reached by well-formed use.
* `malloc` succeeds (except in `Model/Oom`, where each of its calls may fail; `C61_all_partial` relates the two for whole
  programs) and returns an address not in use, never reused (a freed pointer is never
  valid again, as in the C abstract machine). The *contents* of fresh memory are parameters wherever the code
  reads fields it never wrote: `Env.garbage` (`o_lb`, `o_ub`, unused pairs of a type descriptor),
  `Env.junk` (a handle slot read as a request), the `list` field in the CHECKS build, the `next` pointer
  of a duplicated empty list. Theorems quantify over these parameters. (All items of a new block of handles have
  the same former contents.)
* User memory is `Int -> Option UInt8`; `none` is memory the process may not access. Library objects (handle
  blocks, list nodes, descriptors) live in separate heaps: a program does not pass pointers into them.
* Output arguments are results of the model functions: the caller's variables are distinct and do not
  overlap message buffers (`Model/Fort` puts them in memory for the Fortran bindings). A
  `MPI_Status *` is null, an object, or the invalid non-null address `&((MPI_Status *)0)[i]` (`StPtr.bad`).
* Arguments that a function ignores (e.g. `local_leader`) are kept when they matter for the statement
  and are otherwise arbitrary.
* Compile-time options: `TYPE_CHECKING`, `CONFIG_FORT_REAL`, `CONFIG_FORT_DOUBLE` are parameters
  (`Cfg`); `CHECKS` is modelled separately (`Model/Checks`), so are `INFO` and `DEBUG` (`Model/Diag`) and the function `TEST_INTERNAL` adds (`Model/Print`); elsewhere
  these, `HANDLE_INFO`, `TEST_INTERNAL` and `LISTMAIN` are off (their default). With `INFO` probe.c does not compile (it
  mentions parameters `MPI_Iprobe` does not have).
* `gethostname`, `gettimeofday` and the sizes of Fortran kinds are parameters.
* The only floating point arithmetic is in `MPI_Wtime`: rationals rounded to 53 significant digits after every
  operation, ties to even (`Model/Time`).

## 4. Not modelled

The text that is printed
(`AP_list_print` and `AP_list_revprint` are modelled as traversals; their `%d` for pointers and other format mismatches
are not), `LISTMAIN`, the configure machinery, the tests. Of the Fortran
bindings those with string arguments (`mpi_error_string`, `mpi_get_processor_name`,
`mpi_get_library_version`) are modelled without argument addresses; the others are in `Model/Fort`, where array and
in/out arguments are read before the C function runs and stored after it (Fortran forbids overlapping
modified arguments). For the completion calls (req.c, probe.c, MPI_Recv, MPI_Sendrecv) and for MPI_Isend, MPI_Irsend,
MPI_Irecv, MPI_Pack, MPI_Unpack, the datatype constructors with array arguments, MPI_Group_translate_ranks and MPI_Cart_get
`Model/Place` has the loads and stores where the code has them, and C83 shows that this makes no difference for variables that do not
overlap. Every other call stores its results after its last load from the program's memory (MPI_Type_size and MPI_Pack_size sum up in
the result variable).

## 5. Proof structure

1. *Handles.* `HInv t L fl`: the concrete table (blocks of 256 items with an intrusive free list) represents
   the set `L` of live handles and the stack `fl` of free ones. Preserved by every operation; gives
   C01-C03, C05.
2. *Lists.* `LInv h M`: the node heap consists of exactly the doubly linked lists `M` (addresses and
   data). Gives C06-C08.
3. *System.* `Inv s L M lst` relates the whole concrete state to the client's ledger: which communicators,
   requests and datatypes are live under which handle, which operations are pending in which list and in
   which order, what each request record contains, and the exact values of the library's counters. `Step.inv`/`Reach.inv`: every
   history of calls keeps it. The ledger itself satisfies the history properties (`OpsInv`:
   matching is symmetric, earliest first, once), and the property theorems restate these through what
   calls return (C04, C09-C21, C37, C49).
4. *Data.* `copyLoop`, `packLoop` by induction over elements with frame lemmas (C22, C23, C30-C36, C47).
5. *Types.* The constructors against the unbounded-integer type-map specification, under
   hypotheses that the numbers fit (C24-C28), by induction over blocks and over nesting.
6. *Programs.* `Call` covers the whole modelled C interface with arbitrary arguments; `Call.Wf` is
   well-formed use in a ledger, `WfReach` histories of well-formed calls. `Call.sat` shows that a
   well-formed call keeps a ledger and has no undefined behaviour (C44), `Call.frame` bounds what it writes
   (C47), `Inited` follows `initialized` through arbitrary calls (C43).
7. *Leftovers.* `Agree s t`: equal except for the contents of request records; `Call.twin` runs a well-formed call in
   two such states under one ledger, and `run_twin` follows a program (a function from what it has seen to its next
   call) through both runs (C56).
8. *Reference machine.* `Sim env s M`: a reachable state `s` has the ledger, memory and number of built datatypes of the
   machine `M`, and its free list is the machine's stack of free numbers (`PoolRel`). `Call.sim` runs a well-formed call
   on both, `run_sim` a program (C62). The machine uses the descriptor-level functions of `Model/Types` and `Model/Copy`
   for datatypes and data; everything else in it is written from the English.
9. *Machine of the standard.* `Mirror cfg M I`: machine `I` is the reference machine `M` without descriptors; each of its
   datatypes is described by the descriptor of `M` under the same handle (`Describes`, `Reports`). `Call.ideal` runs a
   conforming call on both, `run_ideal` a program; with C62 this gives C63.
10. *Fortran programs.* `FCall.meaning_eq`: what C50 says a binding does is the call `FCall.deed` answered by the library,
   plus its outputs. `Implements K` is the simulation a machine must have with the library; `mach_implements` and
   `ideal_implements` take it from C62 and C63, and `run_may` follows a Fortran program (C64). The machines may write
   anything into source and tag of the status of a completed send; `C64_determined` says that this is their only choice.
11. *Numbers of handles.* `Full l M N`: machines `M` and `N` are equal but for handle numbers; `l` lists the numbers in use
   on both sides with the object. Types of operations that are no longer in progress are left out (their numbers may have
   been reused). `Full.answer` runs a call on both, `Told.after` follows the names the program uses, `named_same` a program;
   `named_sim` does the same between library and machine (C65).
12. *Bytes of descriptors.* `decode bo b` is the descriptor value that the object `b` holds. Each function of
   `Model/Desc`, `Model/DescUse` is related to its counterpart in `Model/Types`, `Model/Copy`: both end in the same way, and results decode to
   results. Uninitialised storage reads as `leftover bo junk`, the `Garbage` of `Model/Types`. `Inside` says of the functions
   on values that they do not leave the list of pairs; `Sound` is the invariant of the objects (C66).
13. *Words and pairings.* `Ledger.word c` lists kind and tag of the operations on communicator `c`. `IsPairing w P` is the
   matching rule on words; by induction on the later of two operations it determines `P` (`pairing_unique`). The ledger
   invariant of item 3 says that the matched operations are such a pairing (`joined_pairing`); C67 follows.
14. *Parts that take turns.* `Part φ ψ w M N`: the objects and operations of machine `N` are among those of `M`, at the places
   `φ` (operations) and `ψ` (communicators), in the same order, and nobody else uses its communicators. A call of the part does
   the same on both (`Beside.answer`), except that it may be undefined on `N` or find no handle number on `M` (`Res.Sub`); what it
   does to `M` is a sequence of small moves (`Moves`), and moves of others keep `Part` (`Part.foreigns`). Before each call `N` gets
   the free numbers of `M` (`Pool.Leads`); item 11 says that its numbers do not matter. `Joint.run` follows all parts, `together_sim`
   the library (C68).
15. *Running out of handle numbers.* `Mach.answer_fits` goes through every call of the machine and says when it ends with "max
   active handles exceeded" and how many numbers it uses up; numbers left and live objects are 262143 together (`Sim.stock`).
   C69 and the bound of C68_bounded follow by induction over the calls.
16. *Packed messages of many pieces.* `Packed` and `Unpacked` (Spec/TypeUse.lean) compose: packing `es` and then `fs` behind it is
   packing `es ++ fs` (`Packed.append`). C70 is this, by induction over the pieces, and a message of single bytes in between.
17. *Collectives as messages.* `Private M x`: nobody else uses communicator `x`, and no operation waits on it. `Mach.message`: an
   MPI_Sendrecv with oneself on such a communicator does what the copy of the collective does, and leaves two operations that
   are over (`Over`). `Via` relates the machine with the layer to one without (`Part` of item 14, same memory); `Via.turn` is one call,
   `Via.run` a program, `via_sim` the library (C71).
18. *A machine with a past.* `B.onto M` is the machine `M` with the operations and communicators of an earlier session `B` put
   below its own; numbers of operations and communicators are shifted, handles are not. `Mach.onto_answer`: if the pending
   operations of `B` are on communicators of `B` (`Ledger.Past`), a call answers on `B.onto M` as on `M`. A machine after MPI_Finalize
   is its past put below a machine just started (`Mach.finalize_onto`), which is C72.
19. *The order of completions.* On the machine of C62 an MPI_Wait drops its handle and writes its status, and neither touches what
   another MPI_Wait reads; so two orders lead to states that are equal up to the order of the free handle numbers (`Order.waits_perm`).
   MPI_Waitall is the order 0, 1, 2, ... (`waitall_waits`). `steps_sim` takes this to the library, and the names of C65 hide the
   numbers (`Order.steps_run`, C74).
20. *Releases that are put off.* The machine in which releases are put off contains the machine of the program (`Part`, C68): what
   the program has released and the layer has not is nobody's.  Putting a release off shrinks the inner machine only
   (`Part.unrelease`); making up for it is a move of others (`Part.foreign`); and nothing the program does comes to need what it
   released (`Idle.moves`, C76).
21. *All memories at once.* `Blind e d f`: run over every memory with the accessible addresses of `d`, `f` has one outcome, put together
   from something that does not depend on the memory and the memory with its bytes moved by a fixed map of addresses. It is closed
   under `>>=`, tests that do not read memory, and loops; `memcpy_blind` is the only step that moves anything (C77).
22. *Calls out of calls.* `Engine.outOfBasic` (Spec/Kernel.lean) is a layer written with calls and what they hand back only. That it is the
   library is one equation per call: for most an equality of outcomes, for constructors of datatypes `OkSame` (both return, with
   the same, or both fail), because the library takes the handle first (C82).
23. *Stores in the middle of a call.* `Img` (Proofs/Place.lean): the state in place is the state on
   values with the partial results stored on top; since the variables do not overlap, a load gives the value, and no load of the
   library sees another variable. `performs_unique` then identifies the two final memories (C83).
   `Follows` (Proofs/PlacePack.lean) says the same of a loop that reads and advances one variable.
24. *Moving all data.* `MovesTo δ f g` (Proofs/Move.lean): `g` is `f` followed by moving whatever address or memory it returned, and memory
   stays within the address space. Closed under `>>=`, tests of what does not move, and loops; the only step that uses an
   address is `memcpy`, where the offset is added modulo 2^64 before and after the move alike (C84). For the Fortran
   bindings every argument is an address; loads and stores of the variables move, and so do the sentinels (Proofs/MoveFort.lean).
25. *One run.* The machines of C64 are nondeterministic in the statuses of sends only. `Settled` (Spec/FortSure.lean) excludes that choice at every
   step; then two possible runs are equal by induction, and since the machine does not mention leftovers, neither
   does the run on the library (C85).
26. *Questions.* Once the handle table is set up, looking up a handle returns the very same state (`ptr_same`, Proofs/Asking.lean), and so do all calls
    that only look things up. For programs: induction over the calls of the program with questions, striking out the questions from
    the record (`deeds`, Spec/Asking.lean); that the table is up follows from the calls made so far (`between_up`). (C86)
27. *Polling.* `waited` (Spec/Polling.lean) reads the record of the polling program as one of waits: polls in vain are struck out, the flag is
    dropped. Induction over the number of calls, the same for both programs; a poll in vain leaves the state as it was (C86), so that a
    stuck program stays stuck. (C87)
28. *Renumbering.* `Sys.retag ρ` (Spec/Tags.lean) renumbers every tag in the state: of requests in use, of freed ones and of storage that never
    held one. Every function of the library commutes with it, by cases on its code; the comparisons are where `TagRen ρ` is used. (C88)
29. *Null statuses.* The same call with and without a status, related step by step (`Res.Rel`): the status pointer is never read, only tested for null
    before it is written. (C89)
30. *Pieces.* The loops of pack.c and copy.c split at an item boundary; the remaining iterations are those of a call with buffers that begin an
    item boundary later. Needs no statement about disjointness of buffers, since the order of the iterations stays the same. (C90)
31. *Plainest choice.* A function replaces every argument that chooses among processes by its plainest value (`Call.plain`); a call and its plain form
    have the same outcome in every state, hence two programs with the same plain form run the same. (C91)
32. *Transfers as functions of memory.* From the exact law of C81 (`oneByOne`): a sequence of overwrites from places it does not write is idempotent;
    copying equal values changes nothing; two transfers compose. (C92)
33. *Parametricity in the kinds of elements.* Descriptors are related entry by entry (same displacement, same Simpletype_length, same marker); every
    loop over entries gives the same result for related descriptors, the constructors give related ones, and a state is related to one with other
    names in its requests and related descriptors. (C93)
34. *Counts as datatypes.* The standard's own algebra of datatypes (exact integers): n copies have n times the extent because the extent is a multiple of the
    alignment and all copies have the same one; hence contiguous of contiguous is contiguous of the product. Carried over to the code by C25, C59 and C81. (C94)
35. *Joining blocks.* Both passes of Type_struct are folds over the blocks; the inner loop of a block of a+b items is the loop for a followed by the loop for b from
    the shifted displacement, modulo 2^64. Counts are not negative, so the first pass overflows for the joined block exactly if it does for the parts. (C95)

## 6. Limits that appear as hypotheses

* Capacity: 262143 live handles (C03; elsewhere "a handle is left"); at most 2^31-1 unmatched operations
  and list headers (`int` counters of list.c), fewer than 2^31-1 communicators created in total (`num` of comm.c).
* Typed copies compute offsets in `int`: statements about delivered bytes assume `OffsetsFit` (all element offsets
  within +-2 GiB of the buffer); beyond it they are proved false (`C31_fails_large`, `C90_fails_far`), and `C31_frame_exact`,
  `C32_bytes_exact` say where the elements land.
* `MPI_Pack`/`MPI_Unpack` add to `position` as `int`: `outsize`/`insize` at most INT_MAX-128.
* A pending request is not released with `MPI_Request_free` and a datatype or communicator with pending traffic is
  not freed where C44/C47 are concerned (the code would use recycled memory, item 9 and 10 below).
* Explicit bounds: signs restricted as in item 1 below.
* C63 (and C64) collects these limits in `Ideal.Legal`.

## 7. Disagreements between code and property

Each is proved: the negation with a concrete witness (`..._fails_...`), the part that holds as
`..._partial` or with the exact condition in the statement.

1. `Type_struct` compares bounds as unsigned: an `MPI_UB` marker with non-negative displacement is
   ignored (ub becomes LONG_MIN), an `MPI_LB` marker with negative displacement is ignored (lb
   becomes LONG_MAX). (type.c:267-293; `C26_fails_*`;
   two times two such items then differ from four: `C94_fails`)
2. `Type_struct` never initialises `o_lb`/`o_ub` when no override is present; `Type_extent` reads
   them. (type.c:363-383, 191; `C25_fails_uninitialised`)
3. `calc_lb` accumulates in an `int`: displacements above INT_MAX give lb = INT_MAX, below INT_MIN
   wrap. (type.c:147-161; excluded in C25 by "fits")
4. A derived type with no data entries has extent -2^32 (as `MPI_Aint`). (type.c:46-60, 147-208;
   `C25_fails_empty`) Zero copies of a type with explicit bounds inherit bounds LONG_MAX/LONG_MIN
   (`C28_fails_zero`).
5. `MPI_Irecv` matching an earlier send copies with the *receive* count and type on both sides.
   (recv.c:81) So layout conversion, the over-receive check and the committed check of the sender's type do not
   happen in that order. (`C22_fails_send_first`, `C23_fails_send_first`, `C30_fails_send_first`)
6. `MPI_Testall` tests the pointer `flag` instead of `*flag` and releases completed requests even
   when it reports flag=0 (req.c:166); `MPI_Waitsome` tests the pointer `outcount` and never aborts
   (req.c:265); `MPI_Testany`/`MPI_Waitany`/`MPI_Testsome` never write their index outputs. (`C18_fails_*`, `C19_fails_index`,
   `C20_fails_*`)
7. `MPI_Waitall`/`MPI_Testall`/`MPI_Testsome` form `&array_of_statuses[i]` from a null
   `MPI_STATUSES_IGNORE`: undefined for i >= 1. (req.c:168,201,236; `C18_fails_ignore`, `C89_fails_waitall`;
   `C18_ignore_exact`: the outcome for all request arrays)
8. `MPI_INTEGER16` has no length (program exits); `MPI_SIGNED_CHAR` and `MPI_WCHAR` have no table
   entry (null dereference). (type.c:68-141, type_const.c:171; `C29_fails`, `C44_fails_signed_char`)
9. `MPI_Request_free` on a pending request leaves the recycled slot in the queue. (req.c:285; `C54_fails_request`,
   `C54_fails_request_send`, after every history `C54_fails_request_always` and
   `C54_fails_request_send_always`; excluded by `Step.requestFree`)
10. `MPI_Type_free` while a receive with that type is pending makes the later match use freed
    memory; `MPI_Type_free` does not null the caller's handle. (type.c:814; `C54_fails_type`, `C54_fails_type_always`;
    excluded by `Call.Wf`) `Type_get_true_extent` pads the span (type.c:227; `C55_fails`).
11. Typed-copy offsets are `int`: wrong beyond 2 GiB. (copy.c:46,82; `C31_fails_large`, `C90_fails_far`) Displacements of the v-collectives
    times extent are passed through an `int` as well (`C35_fails_displacement`, `C47_fails_displacement`; where the bytes go instead, for all arguments: `C31_frame_exact`,
    `C35_displacement_exact`, `C47_footprint_exact`).
12. `MPI_Recv` sets the status count to the *receive* count, `MPI_Wait` does not set it at all.
    (recv.c:138; `C45_fails`)
13. Fortran `mpi_reduce`, `mpi_allreduce`, `mpi_scan`, `mpi_alltoall*`, `mpi_reduce_scatter` do not
    translate the Fortran `MPI_IN_PLACE`. (collective.c; `C46_fails_in_place`) The C functions MPI_Reduce,
    MPI_Scan, MPI_Alltoall*, MPI_Reduce_scatter do not recognise MPI_IN_PLACE either (`C36_fails_in_place`), and
    some rooted collectives accept MPI_IN_PLACE before they look at the root (`C36_fails_root`).
14. Before `MPI_Init` the Fortran sentinel pointers are null, so a null buffer would be taken for them.
15. `MPI_Init` succeeds although handles created before it are still live, if handle 1 was released in between
    (`C04_fails_released`; `C04_exact`: MPI_Init succeeds exactly if handle 1 is the next to be given out).
16. `MPI_Group_range_incl` aborts for valid strided ranges that denote rank 0 only, such as (0,3,5)
    (`C38_fails_range`).
17. CHECKS build: `AP_list_duplicate` does not set the field the list check reads (`C48_fails_duplicate`); a
    double release is unnoticed when no other handle is free (`C48_double_release`).
18. `MPI_Finalize` frees neither the lists of communicators nor datatype descriptors (`C49_fails_finalize`).
19. Fortran `mpi_type_hvector` and `mpi_type_create_hvector` read the INTEGER `blocklen` through `long *`: four
    bytes too many (`C50_fails_hvector_read`), the wrong four on a big-endian machine (`C50_fails_hvector_big`).
    `mpi_pack_size` stores eight bytes into the INTEGER `size` (`C50_fails_pack_size`). Extents, bounds, addresses,
    strides and displacements are INTEGER(KIND=MPI_ADDRESS_KIND) in all bindings, as the library's own tests
    assume (tests/ftest.F90); for the MPI-1 subroutines MPI_TYPE_EXTENT, MPI_TYPE_LB, MPI_TYPE_UB, MPI_TYPE_HVECTOR,
    MPI_TYPE_HINDEXED, MPI_TYPE_STRUCT and MPI_ADDRESS the standard says INTEGER.
20. `MPI_Intercomm_merge` assigns to its own parameter and never writes its output. (ic_merge.c:13; `C52_fails_merge`) Absolute
    addresses with `MPI_BOTTOM` work for `MPI_Pack`/`MPI_Unpack` (`C51_gather_scatter`) but not for messages: offsets are
    truncated to `int`. (copy.c:46; `C51_fails_bottom`) In Fortran
    `MPI_BOTTOM` is an ordinary integer constant, so absolute addresses are displaced by the address of a constant. (mpif.h:13;
    `C51_fails_fortran`) `MPI_Type_dup` is declared but not defined; the internal
    `Type_dup`, which nothing calls, allocates `sizeof(pointer)` bytes and overruns them. (type.c:668; `C66_dup_overruns`) `FC_FUNC(mpi_get_address, MPI_ADDRESS)` and
    `FC_FUNC(mpi_address, MPI_ADDRESS)` define the same upper-case symbol. (type.c:767,779) Not modelled.
21. With `DEBUG`, `MPI_Isend` and `MPI_Irecv` print the first 4 bytes of the buffer of a matched message, even if the
    message is shorter or empty. (send.c:77-80, recv.c:88-91; `C57_fails_debug`, `C57_fails_debug_always`) With `INFO` they read
    the communicator before they look at the rank (`C57_fails_info`).
22. The Fortran MPI_ERROR_STRING and MPI_GET_PROCESSOR_NAME leave NUL-terminated strings. (mpi.c:243-269;
    `C58_fails_error_string`, `C58_fails_processor_name`)
23. `MPI_Cart_get` never writes `periods`, `MPI_Cart_create` accepts dimensions below 1 and forgets them, `MPI_Dims_create`
    overwrites constraints. (cart.c:20-34, 57-67, 119-133; `C60_fails_periods`, `C60_fails_zero`, `C60_fails_dims`)
24. `Type_struct` does not look at the result of `malloc`. (type.c:311-314; `C61_fails_type`)
25. Null handles and handles of another kind of object are not noticed: calls that need the object go through a null or wrong
    pointer (`C75_fails`), `MPI_Request_free` gives back any handle (`C75_fails_request_free`), and collectives and constructors of
    communicators never look at their communicator (`C75_fails_ignored`).
26. `print_typemap` prints 64-bit numbers with `%d`. (type.c:849-857; `C78_fails_wide`)
27. `Type_struct` looks at `pairs[0].type` of every component, also of one without entries, where it was never written: if 12 or 13
    is left there, the empty datatype counts as `MPI_LB` or `MPI_UB`. (type.c:280, 286, 326-327; `C79_fails_empty`)
28. `calc_padding` takes the size of the largest member for the alignment of the struct. For complex members it is twice the alignment:
    `struct { float complex z; float r; }` has 12 bytes, its datatype extent 16. (type.c:45-60, 193-200; `C80_fails_complex`)

## 8. Mutation testing

`seeded/LOG.jsonl` has one line per attempt: a definition of the model was edited in a scratch copy the way
a realistic bug would (wrong comparison, swapped argument, missing update, off-by-one, ...), the project rebuilt, and
the failing property theorems recorded. A theorem counts as failing if its own proof or a lemma below it no longer checks;
for mutants where only auxiliary lemmas failed, the statement was examined by hand. When a mutant falsified the
English of a property and all its theorems still went through, the statement was strengthened (recorded as `tightened`).

## 9. Axioms of the property theorems

* none: C37_singleton, C38_lattice, C41_roundtrip, C41_version, C46_recognised, C52_info.
* propext: C17_null, C22_fails_send_first, C25_fails_empty, C25_fails_uninitialised, C26_fails_witness,
  C28_fails_zero, C30_uncommitted_copy, C30_fails_send_first, C35_operator, C36_root_partial, C36_mpi_root,
  C36_in_place_partial, C36_nothing, C36_fails_root, C36_fails_in_place, C38_comm_group, C38_null, C38_freed,
  C41_constants, C43_thread, C43_thread_fortran, C44_fails_signed_char, C46_in_place_partial, C46_through, C46_status,
  C46_statuses, C46_fails_in_place, C48_fails_duplicate, C49_fails_finalize, C50_fails_hvector_read,
  C50_fails_hvector_big, C50_fails_pack_size, C51_fails_bottom, C52_operations, C54_fails_request,
  C54_fails_request_send, C54_fails_type, C55_fails, C56_send_status, C57_fails_debug, C57_fails_info,
  C75_fails_ignored, C75_null_request_partial, C78_tells_partial, C78_fails_wide, C79_fails_flags, C79_fails_empty,
  C80_fails_complex, FDemo.C83_needs_apart, FDemo.C83_needs_clear, FDemo.C83_needs_arrays,
  FDemo.C84_fortran_needs_moves, FDemo.C85_needs_settled, C86_needs_init, C88_needs_ren, C90_fails_far, C91_call,
  C91_calls, C91_needs_choices, C92_needs_apart, C93_fortran, C93_needs, C94_fails.
* propext, Quot.sound: C04_fails_released, C19_fails_index, C23_over_receive_copy, C23_fails_send_first,
  C28_contiguous_forms, C28_vector_hvector, C28_indexed_hindexed, C28_indexed_block_indexed, C29_pair_layout,
  C29_fails, C30_derived_uncommitted, C31_fails_large, C35_displacement_right, C38_obtainable, C38_union,
  C38_intersection, C38_incl, C39_translate, C39_aborts, C40_create, C40_create_iff, C40_get, C40_coords, C40_dims,
  C40_none, C43_initialized, C45_reported, C45_fails, C45_fails_always, C45_fails_nonblocking, C47_silent,
  C47_fails_displacement, C50_reads_back, C50_hvector_crash_exact, C57_fails_info_always, C60_get_partial,
  C60_fails_periods, C60_dims_partial, C60_fails_dims, C66_queries, C66_access, C66_use, C66_use_inside,
  C66_dup_overruns, C68_world_shared, C71_needs_private, C77_call, C77_recode, C77_programs, C80_basic, C80_pairs,
  C82_same, C82_basic, C82_program_same, C86_call, C89_call_partial, C89_program_partial, C89_fails_waitall,
  C89_fails_testall, C89_fails_testsome, C90_pack, C90_unpack, C91_program, C93_call, C93_transfer.
* propext, Classical.choice, Quot.sound: C01_live_handles_distinct, C01_calls, C02_live_handle_stable, C02_calls,
  C03_capacity, C03_capacity_reached, C04_fresh, C04_after_finalize, C04_twice, C04_init,
  C04_handles_before_init_partial, C04_exact, C05_lifo, C05_blocks_high_water, C06_lists_are_sequences,
  C06_operations_succeed, C06_apply, C06_cursor, C07_leak_accounting, C08_duplicate_independent, C09_isend, C09_irecv,
  C09_non_overtaking, C09_messages_in_order, C09_receives_in_order, C21_iprobe, C10_one_partner, C10_never_again,
  C10_no_delivery_without_send, C11_traffic, C11_requests, C11_probe, C11_probe_own, C12_no_pending_pair,
  C12_deadlock_not_premature, C13_status, C13_recv, C13_sendrecv, C14_test, C14_wait, C15_send, C15_recv, C15_irsend,
  C15_null, C15_other, C15_sendrecv, C16_isend, C16_irecv, C16_recv, C17_test_success, C17_wait_success,
  C17_test_unsuccessful, C18_waitall, C18_testall_partial, C18_testall_releases, C18_ignore_partial,
  C18_fails_testall, C18_fails_ignore, C18_ignore_exact, C19_testany_partial, C19_waitany_partial, C20_testsome,
  C20_counted, C20_waitsome_partial, C20_fails_waitsome, C21_other, C22_recv_first_partial,
  C22_recv_first_returns_partial, C22_send_first_partial, C22_send_first_same_partial, C22_order_partial,
  C22_send_first_exact, C23_refused_partial, C23_fails_send_first_always, C24_struct_typemap, C24_contiguous_typemap,
  C24_hvector_typemap, C24_vector_typemap, C24_hindexed_typemap, C24_indexed_typemap, C24_indexed_block_typemap,
  C25_bounds_partial, C25_contiguous_partial, C25_hvector_partial, C25_vector_partial, C25_hindexed_partial,
  C25_indexed_partial, C25_indexed_block_partial, C25_basic_extent, C25_reports, C25_struct_call_partial,
  C25_contiguous_call_partial, C25_hvector_call_partial, C25_vector_call_partial, C25_hindexed_call_partial,
  C25_indexed_call_partial, C25_indexed_block_call_partial, C25_empty_exact, C25_uninitialised_exact,
  C26_markers_partial, C26_fails_upper, C26_fails_lower, C27_struct_size, C27_contiguous_size, C27_hvector_size,
  C27_vector_size, C27_hindexed_size, C27_indexed_size, C27_indexed_block_size, C28_consecutive_partial,
  C28_zero_exact, C29_predefined_partial, C29_basic_layout, C30_recv_type, C30_send_type_partial, C30_new, C30_commit,
  C30_usable, C30_fails_send_first_always, C31_frame_partial, C31_frame_exact, C31_landing, C32_bytes, C32_succeeds,
  C32_bytes_exact, C33_round_trip, C33_calls, C34_pack_position, C34_unpack_position, C34_pack_succeeds_iff,
  C34_unpack_succeeds_iff, C34_position_beyond, C34_pack_call, C34_unpack_call, C35_gather, C35_scatter, C35_alltoall,
  C35_reductions, C35_gatherv_partial, C35_scatterv_partial, C35_alltoallv_partial, C35_alltoallw,
  C35_displacement_exact, C35_fails_displacement, C36_in_place_exact, C37_null, C37_fresh, C37_total, C38_unique,
  C38_difference, C38_range_incl_partial, C38_fails_range, C38_fails_range_always, C41_init, C41_checked,
  C42_error_string, C42_processor_name, C42_library_version, C42_library_version_fortran, C44_safe_partial,
  C44_account, C45_count_partial, C46_in_place_exact, C47_footprint_partial, C47_history_partial, C47_footprint_exact,
  C47_history_exact, C47_within_limits, C48_live, C48_histories, C48_lookup, C48_double_release, C48_release,
  C48_list_histories, C48_list_delete, C48_duplicate_exact, C49_accounting, C49_balanced, C49_finalize,
  C50_performs_partial, C50_history_partial, C50_pack_size_exact, C50_hvector_big_exact, C51_elements,
  C51_gather_scatter, C51_transfer_partial, C51_fails_fortran, C51_fails_bottom_always, C52_fails_merge, C53_monotone,
  C53_accuracy, C53_resolution, C53_no_clock, C54_request_partial, C54_type_partial, C54_fails_request_always,
  C54_fails_request_send_always, C54_fails_type_always, C55_padded, C55_span_partial, C55_exact, C56_call,
  C56_program, C57_isend_partial, C57_irecv_partial, C57_posts_partial, C57_sendrecv_partial, C57_call_partial,
  C57_program_partial, C57_fails_debug_always, C58_library_version, C58_fails_error_string, C58_fails_processor_name,
  C59_built_partial, C59_lasting, C59_commit, C59_reports, C59_delivers_partial, C59_returns_partial,
  C59_collects_partial, C60_create_partial, C60_fails_zero, C61_call_partial, C61_program_partial, C61_lists,
  C61_all_partial, C61_fails_type, C62_call, C62_program, C63_call_partial, C63_program_partial,
  C64_reference_partial, C64_standard_partial, C64_determined, C65_strategy, C65_library, C66_layout, C66_size,
  C66_build, C66_inside, C66_struct_standard, C66_commit, C66_invariant, C66_predefined, C66_negative, C67_unique,
  C67_word, C67_pairing, C67_same, C67_complete, C67_status, C67_probe, C68_machine, C68_bounded, C68_library,
  C68_order, C68_safe, C69_call, C69_program, C69_reached, C69_exact, C70_pack, C70_carried, C70_unpack, C70_message,
  C71_machine, C71_bounded, C71_library, C72_machine, C72_library, C72_storage, C73_reference_partial,
  C73_standard_partial, C73_handles, C74_library, C75_fails, C75_fails_request_free, C76_machine, C76_bounded,
  C76_library, C76_needs_release, C78_prints_partial, C78_bounds_partial, C79_runs_partial, C79_malloc_partial,
  C80_struct_partial, C80_array_partial, C80_sizeof_partial, C80_delivers_partial, C80_collects_partial, C81_exact,
  C81_exact_waiting, C81_moved, C81_same, C81_down, C82_call, C82_program, C83_in_place, C83_same, C83_program,
  C83_reference, C83_standard, C83_bystander_send, C83_bystander_recv, C83_handle, C84_call, C84_program,
  C84_needs_moves, C84_fortran_call, C84_fortran_program, C84_fortran_conforming, C85_one_run, C85_one_run_standard,
  C85_junk, C86_poll, C86_program, C86_program_start, C87_call, C87_deadlock, C87_program, C87_program_start,
  C88_call, C88_program, C90_collectives_partial, C90_reductions_partial, C90_message_partial, C92_again, C92_back,
  C92_forward, C93_program, C94_nested_partial, C94_blocks_partial, C94_exchange, C94_collects, C94_pack, C94_unpack,
  C95_hindexed, C95_indexed, C95_struct, C95_vector.
