{
 "C03": {
  "status": "partial",
  "note": "False as stated: after a bad_alloc the stream believes it reserved the memory and the next write leaves the allocation (C03_write_after_bad_alloc_is_ub). Proved: the bytes are intact right after the exception; histories that go on after any number of exceptions behave as a file as long as no call ends in the gap between the memory held and the memory believed reserved, and exactly the calls ending in the gap are unsafe (C03_after_failures_partial, C03_histories_partial); calls within GetSize() are always safe (C03_within_the_size_partial)."
 },
 "C17": {
  "status": "partial",
  "note": "False as stated for small blocks (C17_false_*): the key has no length of its own, so another width of value and suffix of key can be accepted. Proved: refusal when keys are not proper suffixes of each other, and for all large blocks; and exactly which reads of which written blocks are accepted (C17_small_exact, C17_large_exact)."
 },
 "C18": {
  "status": "partial",
  "note": "False for the empty key (C18_false_for_empty_key). Proved for every non-empty key, type, container and cut, and exactly which cuts are accepted (C18_exact)."
 },
 "C19": {
  "status": "partial",
  "note": "False for arrays of types with several scalars per item (C19_false_for_multi_scalar_arrays: heap overrun). Proved on arbitrary bytes for all the other reads, and for the multi-scalar arrays when the count is a multiple."
 },
 "C24": {
  "status": "partial",
  "note": "False as stated (C24_end_without_begin_is_ub: null dereference). Proved for the calls that do refuse; C24_null_exact gives the exact condition for the null pointer in every state of the writer and reader."
 },
 "C28": {
  "status": "partial",
  "note": "False for a successor equal to the sup constant (C28_false). Proved for all the others."
 },
 "C43": {
  "status": "partial",
  "note": "False for vectors of entity_ref and package_ref, which append to the destination (C43_false_for_refs). Proved for exactly the other types (C43_which_types)."
 },
 "C51": {
  "status": "partial",
  "note": "False: EndWriteSection with the array's own pointer closes it (C51_array_closed_by_section_end). Proved for every history of calls on the writer and its subsection without that call (C51_array_stays_open_partial)."
 },
 "C35": {
  "status": "partial",
  "note": "False for self copy (C35_self_copy_empties: the table loses all entries). For another object as source the copy has the same keys, nulls and contents (C35_copies_partial); it also compares equal unless some value does not compare equal to itself (NaN, uninitialised Varying)."
 },
 "C39": {
  "status": "partial",
  "note": "False for uninitialised objects (the copy does not compare equal), for self copies (the object is emptied) and for NaN: C39_false_*. Proved for initialised objects copied from another object, all 324 types; C39_exactly says exactly when the copy compares equal, for every source and destination."
 },
 "C50": {
  "status": "partial",
  "note": "Proved: Equals is defined, symmetric, transitive and holds exactly when contents are C++-equal; reflexive iff no NaN and no uninitialised Varying (C50_reflexive_iff); exact for classes without floats and Varying (C50_plain_classes); copies have the same contents; copy from null and Clear give a default object for all repository entities. False for a Varying: Clear keeps the type (C50_false_for_varying), and with NaN."
 },
 "C42": {
  "status": "partial",
  "note": "False for the section of the last managed variable: EndReadSection's result is ignored there (C42_false_for_the_last_section). Proved: every other section ends exactly where recorded, the last one iff no section is left open (C42_sections_end_partial); the recording does not change the run (C42_record_changes_nothing)."
 },
 "C45": {
  "status": "partial",
  "note": "False for the ids: ClearErrorCount keeps them (C45_false_ids_survive_clear). Proved: the count is the number of reports since the last clear mod 2^32; the ids are the union of all reported since construction."
 },
 "C46": {
  "status": "proved",
  "note": "librock_sha256 is not in the repository; it is a parameter assumed to hash the concatenation of pieces of 1..INT_MAX bytes."
 },
 "C47": {
  "status": "proved",
  "note": "OS calls are nondeterministic inputs. When memory runs out the code throws instead of returning ECantAllocate; handle leaks and endless 0-byte reads are stated as findings."
 },
 "C48": {
  "status": "partial",
  "note": "False: position + size wraps (C48_false_size_wraps), a flipping stream stays flipped (C48_false_stays_flipped), short streams compare uninitialised magic (C48_false_short_stream). Proved for whole headers with sizes below 2^64 - 2^60 on a stream in initial byte order; C48_header gives the exact behaviour for every whole header."
 },
 "C58": {
  "status": "partial",
  "note": "False for classes with arrays of vectors (Mesh: C58_false_for_Mesh, the overrun of finding 4 reached through a whole file). Proved for every class whose base values are single values or arrays of one scalar per element (all other entities of the repository), and for the rest on all bytes whose declared counts are multiples (C58_named_arrays_partial, C58_Mesh_partial)."
 },
 "C59": {
  "status": "proved",
  "note": "For every class the generator can produce and all bytes; no condition on the counts."
 },
 "C60": {
  "status": "partial",
  "note": "False for reads that end up refused (C60_false_for_refused_reads: 29 bytes make the reader ask for 2^62 bytes, finding 18). Proved for every read that is accepted, for values and for every class. Only the resize calls of the reader are modelled as allocations; nodes of sets and tables and small temporaries are not."
 },
 "C62": {
  "status": "partial",
  "note": "False for tables, which are written in the iteration order of the map (C62_false_for_tables). Proved for every class without tables inside (graphs, indexed vectors, Varying, entities of these), both for equal contents and for reading back and writing again; for all classes the number of bytes is the same (C62_same_contents_same_size)."
 },
 "C63": {
  "status": "partial",
  "note": "Validity of the object, usability, and Clear followed by reading proved for every class and every history. Reading again without Clear is proved for classes without a vector or indexed vector of references among the variables and is false for the others (C63_false_for_reference_vectors, finding 20). What a failed read of a base value leaves in its variable is arbitrary in the model."
 },
 "C66": {
  "status": "partial",
  "note": "Proved for every history except ones with EndWriteSectionInArray called with the index 2^64-1, which a writer without an open array accepts and which overwrites the first eight bytes of the stream (C66_false_for_last_index, finding 21). Arguments are assumed to fit in memory and allocations of 2^63 bytes or more to fail. Histories that go on after a thrown exception are not covered (C03)."
 },
 "C67": {
  "status": "partial",
  "note": "False for End calls with a null pointer and no open section (C67_false_for_null, C24) and for arrays of several scalars per element with a declared count that is not a multiple (C19). Proved for every other history, with keys up to EntityMaxKeyLength."
 },
 "C68": {
  "status": "proved",
  "note": "For arrays the elements are counted when the caller passes dest_section_has_data; without it BeginReadSectionInArray returns false for an empty element although it has begun it. Whether elements were ended is not required by EndReadSectionsArray."
 },
 "C83": {
  "status": "partial",
  "note": "False in general: begin_read_large_block compares the key with an array that is not initialised and does not check how many bytes of it were read, so a block cut off in front of its key at the end of the stream is accepted or not depending on the stack (C83_false_for_optionals: a TestEntity; C83_false_for_sections). Proved: every read that ends in front of the end of the stream is independent of the uninitialised memory (also when it fails or throws); two reads that both succeed agree; reads of values that must be there, and of classes without optional strings, vectors or indexed vectors and without Varying (C83_definite_classes; five of the repository's entities), accept the same bytes whatever the memory. Missing: exactly the files that end inside the key of such an optional."
 },
 "C84": {
  "status": "partial",
  "note": "False in general for reading: the check in read_array_metadata_and_index fails on an indexed array that ends inside its own header, and the check at the end of read_single_item on an optional value without a name at the end of the stream: the debug build throws where the release build returns false (or lets BeginReadSectionsArray succeed), C84_false_in_general. Proved: writing programs are identical in both builds; reading programs are identical unless they read an index or an optional value without a name, and otherwise identical or the debug build throws; typed reads and whole objects of all classes are accepted by one build exactly if by the other, with the same value. Not modelled: the checks of optional_value::value() and the vector() accessors (the library itself calls them only after has_value()), and the loop counts of ISD_EntityTable.h 188, ISD_DirectedGraph.h 198."
 },
 "C87": {
  "status": "partial",
  "note": "False for tables of IndexedVector objects, and so for Mesh: the copy constructor of idx_vector is noexcept, so running out of memory there terminates the program (C87_false_terminated, C87_false_Mesh). Proved for all classes and all allocations that fail: when the exception reaches the caller, the destination is well formed, can be cleared, compared and validated, and copied to again with the result of a first copy (C87_usable_partial), and what it holds for entities, tables and graphs; no class without such a table terminates (C87_not_terminated, C87_no_indexed_tables). The destination is neither old nor new in general and may break the rules of its class (C87_false_atomic, C87_false_rules). std::vector assignment is taken to leave any vector. The memory leaked by a copy constructor of Varying that throws is not modelled."
 },
 "C97": {
  "status": "partial",
  "note": "False as stated for the copy constructor: when the contents cannot be copied after memory for the object was had, the constructor throws, no destructor runs and the object stays on the heap (C97_copy_constructor_leaks). Proved for all programs with any number of such failures: values and exceptions (C97_values), ownership with the exact number of lost objects (C97_ownership: one per such construction, one per move assignment to an initialised variable), and no loss in programs without these two (C97_clean_exit_partial)."
 }
}