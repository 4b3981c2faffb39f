{
 "claims": [
  {
   "property": "C01",
   "status": "proved",
   "theorems": [
    "ISD.C01_from_any_state",
    "ISD.C01_write_stream_is_byte_file"
   ],
   "note": ""
  },
  {
   "property": "C02",
   "status": "proved",
   "theorems": [
    "ISD.C02_growth_invisible"
   ],
   "note": ""
  },
  {
   "property": "C03",
   "status": "partial",
   "theorems": [
    "ISD.C03_after_failures_partial",
    "ISD.C03_bad_alloc_partial",
    "ISD.C03_created",
    "ISD.C03_histories_partial",
    "ISD.C03_until_first_failure_partial",
    "ISD.C03_within_the_size_partial",
    "ISD.C03_write_after_bad_alloc_is_ub"
   ],
   "note": "False as stated: after a bad_alloc the stream believes it reserved the memory and the next write leaves the allocation (C03_write_after_bad_alloc_is_ub). Proved: the bytes are intact right after the exception; histories that go on after any number of exceptions behave as a file as long as no call ends in the gap between the memory held and the memory believed reserved, and exactly the calls ending in the gap are unsafe (C03_after_failures_partial, C03_histories_partial); calls within GetSize() are always safe (C03_within_the_size_partial)."
  },
  {
   "property": "C04",
   "status": "proved",
   "theorems": [
    "ISD.C04_peek_eof",
    "ISD.C04_read_stream_bounds"
   ],
   "note": ""
  },
  {
   "property": "C05",
   "status": "proved",
   "theorems": [
    "ISD.C05_scalar_round_trip"
   ],
   "note": ""
  },
  {
   "property": "C06",
   "status": "proved",
   "theorems": [
    "ISD.C06_cross_flip",
    "ISD.C06_wire_order"
   ],
   "note": ""
  },
  {
   "property": "C07",
   "status": "proved",
   "theorems": [
    "ISD.C07_any_flip",
    "ISD.C07_stored_in_printed_order"
   ],
   "note": ""
  },
  {
   "property": "C08",
   "status": "proved",
   "theorems": [
    "ISD.C08_from_to",
    "ISD.C08_msb_first",
    "ISD.C08_swap_involutive",
    "ISD.C08_swap_reverses",
    "ISD.C08_to_from"
   ],
   "note": ""
  },
  {
   "property": "C09",
   "status": "proved",
   "theorems": [
    "ISD.C09_bytes",
    "ISD.C09_uuid",
    "ISD.C09_uuid_hash_injective",
    "ISD.C09_values",
    "ISD.C09_values_injective"
   ],
   "note": ""
  },
  {
   "property": "C10",
   "status": "proved",
   "theorems": [
    "ISD.C10_single_values_round_trip"
   ],
   "note": ""
  },
  {
   "property": "C11",
   "status": "proved",
   "theorems": [
    "ISD.C11_optional_values",
    "ISD.C11_present_reads_as_mandatory"
   ],
   "note": ""
  },
  {
   "property": "C12",
   "status": "proved",
   "theorems": [
    "ISD.C12_vectors_round_trip"
   ],
   "note": ""
  },
  {
   "property": "C13",
   "status": "proved",
   "theorems": [
    "ISD.C13_indexed_vectors"
   ],
   "note": ""
  },
  {
   "property": "C14",
   "status": "proved",
   "theorems": [
    "ISD.C14_strings_binary_safe"
   ],
   "note": ""
  },
  {
   "property": "C15",
   "status": "proved",
   "theorems": [
    "ISD.C15_bool_packing"
   ],
   "note": ""
  },
  {
   "property": "C16",
   "status": "proved",
   "theorems": [
    "ISD.C16_blocks_self_delimiting",
    "ISD.C16_sections"
   ],
   "note": ""
  },
  {
   "property": "C17",
   "status": "partial",
   "theorems": [
    "ISD.C17_core",
    "ISD.C17_false_absent",
    "ISD.C17_false_present",
    "ISD.C17_false_width",
    "ISD.C17_large_exact",
    "ISD.C17_small_exact",
    "ISD.C17_wrong_type_or_key_refused_partial"
   ],
   "note": "False as stated for small blocks (C17_false_*): the key has no length of its own, so another width of value and suffix of key can be accepted. Proved: refusal when keys are not proper suffixes of each other, and for all large blocks; and exactly which reads of which written blocks are accepted (C17_small_exact, C17_large_exact)."
  },
  {
   "property": "C18",
   "status": "partial",
   "theorems": [
    "ISD.C18_exact",
    "ISD.C18_false_for_empty_key",
    "ISD.C18_truncated_read_fails_safely_partial",
    "ISD.C18_truncation_refused_partial"
   ],
   "note": "False for the empty key (C18_false_for_empty_key). Proved for every non-empty key, type, container and cut, and exactly which cuts are accepted (C18_exact)."
  },
  {
   "property": "C19",
   "status": "partial",
   "theorems": [
    "ISD.C19_false_for_multi_scalar_arrays",
    "ISD.C19_hostile_bytes_partial",
    "ISD.C19_multi_scalar_partial"
   ],
   "note": "False for arrays of types with several scalars per item (C19_false_for_multi_scalar_arrays: heap overrun). Proved on arbitrary bytes for all the other reads, and for the multi-scalar arrays when the count is a multiple."
  },
  {
   "property": "C20",
   "status": "proved",
   "theorems": [
    "ISD.C20_success_consumes_declared_block"
   ],
   "note": ""
  },
  {
   "property": "C21",
   "status": "proved",
   "theorems": [
    "ISD.C21_section_trees_round_trip"
   ],
   "note": ""
  },
  {
   "property": "C22",
   "status": "proved",
   "theorems": [
    "ISD.C22_counters",
    "ISD.C22_writer_refuses"
   ],
   "note": ""
  },
  {
   "property": "C23",
   "status": "proved",
   "theorems": [
    "ISD.C23_reader_refuses"
   ],
   "note": ""
  },
  {
   "property": "C24",
   "status": "partial",
   "theorems": [
    "ISD.C24_end_without_begin_is_ub",
    "ISD.C24_end_without_begin_partial",
    "ISD.C24_null_exact"
   ],
   "note": "False as stated (C24_end_without_begin_is_ub: null dereference). Proved for the calls that do refuse; C24_null_exact gives the exact condition for the null pointer in every state of the writer and reader."
  },
  {
   "property": "C25",
   "status": "proved",
   "theorems": [
    "ISD.C25_all_return",
    "ISD.C25_linearizable",
    "ISD.C25_no_deadlock",
    "ISD.C25_no_overlap",
    "ISD.C25_steps_bounded"
   ],
   "note": ""
  },
  {
   "property": "C26",
   "status": "proved",
   "theorems": [
    "ISD.C26_idx_vector",
    "ISD.C26_optional_idx_vector",
    "ISD.C26_optional_value",
    "ISD.C26_optional_vector",
    "ISD.C26_reset_discards"
   ],
   "note": ""
  },
  {
   "property": "C27",
   "status": "proved",
   "theorems": [
    "ISD.C27_edges_are_a_set"
   ],
   "note": ""
  },
  {
   "property": "C28",
   "status": "partial",
   "theorems": [
    "ISD.C28_false",
    "ISD.C28_successors_partial"
   ],
   "note": "False for a successor equal to the sup constant (C28_false). Proved for all the others."
  },
  {
   "property": "C29",
   "status": "proved",
   "theorems": [
    "ISD.C29_copying",
    "ISD.C29_equality"
   ],
   "note": ""
  },
  {
   "property": "C30",
   "status": "proved",
   "theorems": [
    "ISD.C30_acyclic_validation",
    "ISD.C30_cycle_search"
   ],
   "note": ""
  },
  {
   "property": "C31",
   "status": "proved",
   "theorems": [
    "ISD.C31_rooted_validation"
   ],
   "note": ""
  },
  {
   "property": "C32",
   "status": "proved",
   "theorems": [
    "ISD.C32_validates_iff_meets_flags",
    "ISD.C32_validation_reports"
   ],
   "note": ""
  },
  {
   "property": "C33",
   "status": "proved",
   "theorems": [
    "ISD.C33_graphs_round_trip",
    "ISD.C33_reference_nodes"
   ],
   "note": ""
  },
  {
   "property": "C34",
   "status": "proved",
   "theorems": [
    "ISD.C34_order_does_not_matter",
    "ISD.C34_tables_compare_as_maps"
   ],
   "note": ""
  },
  {
   "property": "C35",
   "status": "partial",
   "theorems": [
    "ISD.C35_copies_partial",
    "ISD.C35_self_copy_empties"
   ],
   "note": "False for self copy (C35_self_copy_empties: the table loses all entries). For another object as source the copy has the same keys, nulls and contents (C35_copies_partial); it also compares equal unless some value does not compare equal to itself (NaN, uninitialised Varying)."
  },
  {
   "property": "C36",
   "status": "proved",
   "theorems": [
    "ISD.C36_same_contents",
    "ISD.C36_tables_round_trip"
   ],
   "note": ""
  },
  {
   "property": "C37",
   "status": "proved",
   "theorems": [
    "ISD.C37_error_count",
    "ISD.C37_table_validation"
   ],
   "note": ""
  },
  {
   "property": "C38",
   "status": "proved",
   "theorems": [
    "ISD.C38_dynamic_lookup",
    "ISD.C38_registered_pairs"
   ],
   "note": ""
  },
  {
   "property": "C39",
   "status": "partial",
   "theorems": [
    "ISD.C39_copies_partial",
    "ISD.C39_exactly",
    "ISD.C39_false_nan",
    "ISD.C39_false_self",
    "ISD.C39_false_uninitialised"
   ],
   "note": "False for uninitialised objects (the copy does not compare equal), for self copies (the object is emptied) and for NaN: C39_false_*. Proved for initialised objects copied from another object, all 324 types; C39_exactly says exactly when the copy compares equal, for every source and destination."
  },
  {
   "property": "C40",
   "status": "proved",
   "theorems": [
    "ISD.C40_uninitialised_refused",
    "ISD.C40_varying_round_trip"
   ],
   "note": ""
  },
  {
   "property": "C41",
   "status": "proved",
   "theorems": [
    "ISD.C41_AttributeLayer",
    "ISD.C41_Mesh",
    "ISD.C41_Node",
    "ISD.C41_NodeGeometry",
    "ISD.C41_Scene",
    "ISD.C41_SceneLayer",
    "ISD.C41_TestEntity",
    "ISD.C41_classes_round_trip",
    "ISD.C41_new_object_is_a_destination",
    "ISD.C41_same_contents_equivalence"
   ],
   "note": ""
  },
  {
   "property": "C42",
   "status": "partial",
   "theorems": [
    "ISD.C42_false_for_the_last_section",
    "ISD.C42_record_changes_nothing",
    "ISD.C42_sections_end_partial"
   ],
   "note": "False for the section of the last managed variable: EndReadSection's result is ignored there (C42_false_for_the_last_section). Proved: every other section ends exactly where recorded, the last one iff no section is left open (C42_sections_end_partial); the recording does not change the run (C42_record_changes_nothing)."
  },
  {
   "property": "C43",
   "status": "partial",
   "theorems": [
    "ISD.C43_false_for_refs",
    "ISD.C43_read_replaces_partial",
    "ISD.C43_which_types"
   ],
   "note": "False for vectors of entity_ref and package_ref, which append to the destination (C43_false_for_refs). Proved for exactly the other types (C43_which_types)."
  },
  {
   "property": "C44",
   "status": "proved",
   "theorems": [
    "ISD.C44_validation"
   ],
   "note": ""
  },
  {
   "property": "C45",
   "status": "partial",
   "theorems": [
    "ISD.C45_count",
    "ISD.C45_count_wraps",
    "ISD.C45_count_zero",
    "ISD.C45_false_ids_survive_clear",
    "ISD.C45_ids_partial"
   ],
   "note": "False for the ids: ClearErrorCount keeps them (C45_false_ids_survive_clear). Proved: the count is the number of reports since the last clear mod 2^32; the ids are the union of all reported since construction."
  },
  {
   "property": "C46",
   "status": "proved",
   "theorems": [
    "ISD.C46_same_data",
    "ISD.C46_split_independent"
   ],
   "note": "librock_sha256 is not in the repository; it is a parameter assumed to hash the concatenation of pieces of 1..INT_MAX bytes."
  },
  {
   "property": "C47",
   "status": "proved",
   "theorems": [
    "ISD.C47_cant_open",
    "ISD.C47_file_names",
    "ISD.C47_good_file_loads",
    "ISD.C47_handle_leaks",
    "ISD.C47_loads",
    "ISD.C47_ok_iff",
    "ISD.C47_zero_reads_never_end"
   ],
   "note": "OS calls are nondeterministic inputs. When memory runs out the code throws instead of returning ECantAllocate; handle leaks and endless 0-byte reads are stated as findings."
  },
  {
   "property": "C48",
   "status": "partial",
   "theorems": [
    "ISD.C48_accepts_partial",
    "ISD.C48_false_short_stream",
    "ISD.C48_false_size_wraps",
    "ISD.C48_false_stays_flipped",
    "ISD.C48_header"
   ],
   "note": "False: position + size wraps (C48_false_size_wraps), a flipping stream stays flipped (C48_false_stays_flipped), short streams compare uninitialised magic (C48_false_short_stream). Proved for whole headers with sizes below 2^64 - 2^60 on a stream in initial byte order; C48_header gives the exact behaviour for every whole header."
  },
  {
   "property": "C49",
   "status": "proved",
   "theorems": [
    "ISD.C49_entity_ref",
    "ISD.C49_hash",
    "ISD.C49_package_ref",
    "ISD.C49_self_move_loses",
    "ISD.C49_uuid"
   ],
   "note": ""
  },
  {
   "property": "C50",
   "status": "partial",
   "theorems": [
    "ISD.C50_clear_gives_default",
    "ISD.C50_copy_partial",
    "ISD.C50_equals_is_equality_of_contents",
    "ISD.C50_exact_base",
    "ISD.C50_false_for_varying",
    "ISD.C50_never_fails",
    "ISD.C50_plain_classes",
    "ISD.C50_plain_entities",
    "ISD.C50_pointers",
    "ISD.C50_reflexive_iff",
    "ISD.C50_repository_entities_clear",
    "ISD.C50_self_copy_kept",
    "ISD.C50_self_copy_of_scene_loses_layers",
    "ISD.C50_self_equal_base",
    "ISD.C50_symmetric",
    "ISD.C50_transitive"
   ],
   "note": "Proved: Equals is defined, symmetric, transitive and holds exactly when contents are C++-equal; reflexive iff no NaN and no uninitialised Varying (C50_reflexive_iff); exact for classes without floats and Varying (C50_plain_classes); copies have the same contents; copy from null and Clear give a default object for all repository entities. False for a Varying: Clear keeps the type (C50_false_for_varying), and with NaN."
  },
  {
   "property": "C51",
   "status": "partial",
   "theorems": [
    "ISD.C51_array_closed_by_section_end",
    "ISD.C51_array_stays_open_partial"
   ],
   "note": "False: EndWriteSection with the array's own pointer closes it (C51_array_closed_by_section_end). Proved for every history of calls on the writer and its subsection without that call (C51_array_stays_open_partial)."
  },
  {
   "property": "C52",
   "status": "proved",
   "theorems": [
    "ISD.C52_accepted_bytes_are_a_block"
   ],
   "note": ""
  },
  {
   "property": "C53",
   "status": "proved",
   "theorems": [
    "ISD.C53_index",
    "ISD.C53_insert"
   ],
   "note": ""
  },
  {
   "property": "C54",
   "status": "proved",
   "theorems": [
    "ISD.C54_validation"
   ],
   "note": ""
  },
  {
   "property": "C55",
   "status": "proved",
   "theorems": [
    "ISD.C55_at_most_once",
    "ISD.C55_initialize"
   ],
   "note": ""
  },
  {
   "property": "C56",
   "status": "proved",
   "theorems": [
    "ISD.C56_self_assignment_empties",
    "ISD.C56_varying_variables_are_values"
   ],
   "note": ""
  },
  {
   "property": "C57",
   "status": "proved",
   "theorems": [
    "ISD.C57_clean_exit",
    "ISD.C57_move_assignment_leaks",
    "ISD.C57_ownership"
   ],
   "note": ""
  },
  {
   "property": "C58",
   "status": "partial",
   "theorems": [
    "ISD.C58_Mesh_partial",
    "ISD.C58_false_for_Mesh",
    "ISD.C58_hostile_objects_partial",
    "ISD.C58_named_arrays_partial",
    "ISD.C58_repository_entities"
   ],
   "note": "False for classes with arrays of vectors (Mesh: C58_false_for_Mesh, the overrun of finding 4 reached through a whole file). Proved for every class whose base values are single values or arrays of one scalar per element (all other entities of the repository), and for the rest on all bytes whose declared counts are multiples (C58_named_arrays_partial, C58_Mesh_partial)."
  },
  {
   "property": "C59",
   "status": "proved",
   "theorems": [
    "ISD.C59_accepted_can_be_stored",
    "ISD.C59_accepted_is_well_formed"
   ],
   "note": "For every class the generator can produce and all bytes; no condition on the counts."
  },
  {
   "property": "C60",
   "status": "partial",
   "theorems": [
    "ISD.C60_accepted_object_needs_little_memory_partial",
    "ISD.C60_accepted_value_needs_little_memory_partial",
    "ISD.C60_false_for_refused_reads",
    "ISD.C60_reading_back_needs_little_memory"
   ],
   "note": "False for reads that end up refused (C60_false_for_refused_reads: 29 bytes make the reader ask for 2^62 bytes, finding 18). Proved for every read that is accepted, for values and for every class. Only the resize calls of the reader are modelled as allocations; nodes of sets and tables and small temporaries are not."
  },
  {
   "property": "C61",
   "status": "proved",
   "theorems": [
    "ISD.C61_block_exists",
    "ISD.C61_different_contents_different_bytes",
    "ISD.C61_values"
   ],
   "note": ""
  },
  {
   "property": "C62",
   "status": "partial",
   "theorems": [
    "ISD.C62_false_for_tables",
    "ISD.C62_read_and_write_again_partial",
    "ISD.C62_same_contents_same_bytes_partial",
    "ISD.C62_same_contents_same_size"
   ],
   "note": "False for tables, which are written in the iteration order of the map (C62_false_for_tables). Proved for every class without tables inside (graphs, indexed vectors, Varying, entities of these), both for equal contents and for reading back and writing again; for all classes the number of bytes is the same (C62_same_contents_same_size)."
  },
  {
   "property": "C63",
   "status": "partial",
   "theorems": [
    "ISD.C63_clear_and_read_again",
    "ISD.C63_failed_reads_leave_valid_objects",
    "ISD.C63_false_for_reference_vectors",
    "ISD.C63_read_again_partial",
    "ISD.C63_same_read",
    "ISD.C63_still_usable"
   ],
   "note": "Validity of the object, usability, and Clear followed by reading proved for every class and every history. Reading again without Clear is proved for classes without a vector or indexed vector of references among the variables and is false for the others (C63_false_for_reference_vectors, finding 20). What a failed read of a base value leaves in its variable is arbitrary in the model."
  },
  {
   "property": "C64",
   "status": "proved",
   "theorems": [
    "ISD.C64_true_means_stored",
    "ISD.C64_write_accepts_exactly_storable_objects"
   ],
   "note": ""
  },
  {
   "property": "C65",
   "status": "proved",
   "theorems": [
    "ISD.C65_same_contents_same_verdict",
    "ISD.C65_validated_objects_survive_storage"
   ],
   "note": ""
  },
  {
   "property": "C66",
   "status": "partial",
   "theorems": [
    "ISD.C66_earlier_bytes_stay_partial",
    "ISD.C66_false_for_last_index",
    "ISD.C66_finished_bytes_stay_partial"
   ],
   "note": "Proved for every history except ones with EndWriteSectionInArray called with the index 2^64-1, which a writer without an open array accepts and which overwrites the first eight bytes of the stream (C66_false_for_last_index, finding 21). Arguments are assumed to fit in memory and allocations of 2^63 bytes or more to fail. Histories that go on after a thrown exception are not covered (C03)."
  },
  {
   "property": "C67",
   "status": "partial",
   "theorems": [
    "ISD.C67_element_without_array",
    "ISD.C67_false_for_null",
    "ISD.C67_reader_histories_partial"
   ],
   "note": "False for End calls with a null pointer and no open section (C67_false_for_null, C24) and for arrays of several scalars per element with a declared count that is not a multiple (C19). Proved for every other history, with keys up to EntityMaxKeyLength."
  },
  {
   "property": "C68",
   "status": "proved",
   "theorems": [
    "ISD.C68_ended_array_was_consumed",
    "ISD.C68_ended_section_was_consumed"
   ],
   "note": "For arrays the elements are counted when the caller passes dest_section_has_data; without it BeginReadSectionInArray returns false for an empty element although it has begun it. Whether elements were ended is not required by EndReadSectionsArray."
  },
  {
   "property": "C69",
   "status": "proved",
   "theorems": [
    "ISD.C69_AttributeLayer",
    "ISD.C69_Mesh",
    "ISD.C69_Node",
    "ISD.C69_NodeGeometry",
    "ISD.C69_Scene",
    "ISD.C69_SceneLayer",
    "ISD.C69_TestEntity",
    "ISD.C69_entity",
    "ISD.C69_graph",
    "ISD.C69_indexed_vector",
    "ISD.C69_table",
    "ISD.C69_varying"
   ],
   "note": ""
  },
  {
   "property": "C70",
   "status": "proved",
   "theorems": [
    "ISD.C70_blocks_exist",
    "ISD.C70_sequences_round_trip"
   ],
   "note": ""
  },
  {
   "property": "C71",
   "status": "proved",
   "theorems": [
    "ISD.C71_size_and_iteration",
    "ISD.C71_steps_have_one_outcome",
    "ISD.C71_table_is_a_finite_map"
   ],
   "note": ""
  },
  {
   "property": "C72",
   "status": "proved",
   "theorems": [
    "ISD.C72_null_array",
    "ISD.C72_null_array_block",
    "ISD.C72_null_block",
    "ISD.C72_null_element",
    "ISD.C72_null_section"
   ],
   "note": ""
  },
  {
   "property": "C73",
   "status": "proved",
   "theorems": [
    "ISD.C73_documented_types",
    "ISD.C73_other_type_refused",
    "ISD.C73_told_apart",
    "ISD.C73_value_on_disk",
    "ISD.C73_vector_on_disk"
   ],
   "note": ""
  },
  {
   "property": "C74",
   "status": "proved",
   "theorems": [
    "ISD.C74_changed_files",
    "ISD.C74_stored_file_loads"
   ],
   "note": ""
  },
  {
   "property": "C75",
   "status": "proved",
   "theorems": [
    "ISD.C75_packets"
   ],
   "note": ""
  },
  {
   "property": "C76",
   "status": "proved",
   "theorems": [
    "ISD.C76_equal_means_same_sets",
    "ISD.C76_graph_is_two_sets",
    "ISD.C76_new_graph",
    "ISD.C76_order_does_not_matter"
   ],
   "note": ""
  },
  {
   "property": "C77",
   "status": "proved",
   "theorems": [
    "ISD.C77_loads_do_not_interfere",
    "ISD.C77_loads_do_not_wait",
    "ISD.C77_nothing_is_ever_loaded",
    "ISD.C77_one_thread_per_load",
    "ISD.C77_path_is_final"
   ],
   "note": ""
  },
  {
   "property": "C78",
   "status": "proved",
   "theorems": [
    "ISD.C78_calls",
    "ISD.C78_demo",
    "ISD.C78_make_ref",
    "ISD.C78_moves_keep_one_holder",
    "ISD.C78_no_forgery",
    "ISD.C78_sup_can_be_lost",
    "ISD.C78_untouched"
   ],
   "note": ""
  },
  {
   "property": "C79",
   "status": "proved",
   "theorems": [
    "ISD.C79_always_owned",
    "ISD.C79_append_other",
    "ISD.C79_append_self",
    "ISD.C79_append_self_fails",
    "ISD.C79_construct",
    "ISD.C79_copy_dangles",
    "ISD.C79_copy_frees_another",
    "ISD.C79_demo",
    "ISD.C79_destroy",
    "ISD.C79_nothing_left",
    "ISD.C79_one_call",
    "ISD.C79_streams_are_files"
   ],
   "note": ""
  },
  {
   "property": "C80",
   "status": "proved",
   "theorems": [
    "ISD.C80_accepted_exactly",
    "ISD.C80_demo",
    "ISD.C80_every_block_is_read",
    "ISD.C80_unambiguous"
   ],
   "note": ""
  },
  {
   "property": "C81",
   "status": "proved",
   "theorems": [
    "ISD.C81_accepted_objects_stand",
    "ISD.C81_every_stored_object_is_read",
    "ISD.C81_last_section_size_not_checked",
    "ISD.C81_stored_by_another_program",
    "ISD.C81_unambiguous",
    "ISD.C81_what_is_written_stands"
   ],
   "note": ""
  },
  {
   "property": "C82",
   "status": "proved",
   "theorems": [
    "ISD.C82_demo",
    "ISD.C82_moved_buffer_is_gone",
    "ISD.C82_room",
    "ISD.C82_view_histories",
    "ISD.C82_view_shows_the_stream"
   ],
   "note": ""
  },
  {
   "property": "C83",
   "status": "partial",
   "theorems": [
    "ISD.C83_definite_classes",
    "ISD.C83_false_for_optionals",
    "ISD.C83_false_for_sections",
    "ISD.C83_objects_partial",
    "ISD.C83_repository_entities",
    "ISD.C83_sections_partial",
    "ISD.C83_values_partial"
   ],
   "note": "False in general: begin_read_large_block compares the key with an array that is not initialised and does not check how many bytes of it were read, so a block cut off in front of its key at the end of the stream is accepted or not depending on the stack (C83_false_for_optionals: a TestEntity; C83_false_for_sections). Proved: every read that ends in front of the end of the stream is independent of the uninitialised memory (also when it fails or throws); two reads that both succeed agree; reads of values that must be there, and of classes without optional strings, vectors or indexed vectors and without Varying (C83_definite_classes; five of the repository's entities), accept the same bytes whatever the memory. Missing: exactly the files that end inside the key of such an optional."
  },
  {
   "property": "C84",
   "status": "partial",
   "theorems": [
    "ISD.C84_false_in_general",
    "ISD.C84_graphs",
    "ISD.C84_long_names",
    "ISD.C84_objects",
    "ISD.C84_reading_partial",
    "ISD.C84_release_overruns",
    "ISD.C84_tables",
    "ISD.C84_values_partial",
    "ISD.C84_writing"
   ],
   "note": "False in general for reading: the check in read_array_metadata_and_index fails on an indexed array that ends inside its own header, and the check at the end of read_single_item on an optional value without a name at the end of the stream: the debug build throws where the release build returns false (or lets BeginReadSectionsArray succeed), C84_false_in_general. Proved: writing programs are identical in both builds; reading programs are identical unless they read an index or an optional value without a name, and otherwise identical or the debug build throws; typed reads and whole objects of all classes are accepted by one build exactly if by the other, with the same value. Not modelled: the checks of optional_value::value() and the vector() accessors (the library itself calls them only after has_value()), and the loop counts of ISD_EntityTable.h 188, ISD_DirectedGraph.h 198."
  },
  {
   "property": "C85",
   "status": "proved",
   "theorems": [
    "ISD.C85_demo",
    "ISD.C85_false_elsewhere",
    "ISD.C85_false_with_carriage_return",
    "ISD.C85_file_holds_text",
    "ISD.C85_file_is_missing_for_a_moment",
    "ISD.C85_inlined_lines_are_clean",
    "ISD.C85_interrupted_run_is_repaired",
    "ISD.C85_project",
    "ISD.C85_run_writes_all",
    "ISD.C85_second_run_touches_nothing",
    "ISD.C85_unchanged_file_is_left_alone"
   ],
   "note": ""
  },
  {
   "property": "C86",
   "status": "proved",
   "theorems": [
    "ISD.C86_assignment_leaks",
    "ISD.C86_copies_free_twice",
    "ISD.C86_copies_share",
    "ISD.C86_demo",
    "ISD.C86_failed_malloc",
    "ISD.C86_no_leaks",
    "ISD.C86_objects_are_independent"
   ],
   "note": ""
  },
  {
   "property": "C87",
   "status": "partial",
   "theorems": [
    "ISD.C87_entity_in_order",
    "ISD.C87_false_Mesh",
    "ISD.C87_false_atomic",
    "ISD.C87_false_rules",
    "ISD.C87_false_terminated",
    "ISD.C87_graph_halves",
    "ISD.C87_no_indexed_tables",
    "ISD.C87_not_terminated",
    "ISD.C87_table_entries",
    "ISD.C87_usable_partial"
   ],
   "note": "False for tables of IndexedVector objects, and so for Mesh: the copy constructor of idx_vector is noexcept, so running out of memory there terminates the program (C87_false_terminated, C87_false_Mesh). Proved for all classes and all allocations that fail: when the exception reaches the caller, the destination is well formed, can be cleared, compared and validated, and copied to again with the result of a first copy (C87_usable_partial), and what it holds for entities, tables and graphs; no class without such a table terminates (C87_not_terminated, C87_no_indexed_tables). The destination is neither old nor new in general and may break the rules of its class (C87_false_atomic, C87_false_rules). std::vector assignment is taken to leave any vector. The memory leaked by a copy constructor of Varying that throws is not modelled."
  },
  {
   "property": "C88",
   "status": "proved",
   "theorems": [
    "ISD.C88_call",
    "ISD.C88_copy",
    "ISD.C88_dangling",
    "ISD.C88_history",
    "ISD.C88_move",
    "ISD.C88_nothing_leaks",
    "ISD.C88_references_stay"
   ],
   "note": ""
  },
  {
   "property": "C89",
   "status": "proved",
   "theorems": [
    "ISD.C89_false_for_stray_flags",
    "ISD.C89_generated_class",
    "ISD.C89_generated_is_class",
    "ISD.C89_generated_round_trip",
    "ISD.C89_repository"
   ],
   "note": ""
  },
  {
   "property": "C90",
   "status": "proved",
   "theorems": [
    "ISD.C90_counts_are_those_of_the_search",
    "ISD.C90_cycle_search",
    "ISD.C90_false_linear",
    "ISD.C90_reach_search"
   ],
   "note": ""
  },
  {
   "property": "C91",
   "status": "proved",
   "theorems": [
    "ISD.C91_AttributeLayer_reads_a_Node",
    "ISD.C91_Node_refuses_a_TestEntity",
    "ISD.C91_TestEntity_refuses_a_Node",
    "ISD.C91_accepted_only_if_the_classes_agree",
    "ISD.C91_compatible_classes_read",
    "ISD.C91_core",
    "ISD.C91_demo"
   ],
   "note": ""
  },
  {
   "property": "C92",
   "status": "proved",
   "theorems": [
    "ISD.C92_one_overload_for_each_type",
    "ISD.C92_read_text",
    "ISD.C92_text_round_trip",
    "ISD.C92_write_text"
   ],
   "note": ""
  },
  {
   "property": "C93",
   "status": "proved",
   "theorems": [
    "ISD.C93_inf_is_least",
    "ISD.C93_no_greatest_string",
    "ISD.C93_one_row_for_each_type",
    "ISD.C93_sup_is_greatest",
    "ISD.C93_zero_is_zero"
   ],
   "note": ""
  },
  {
   "property": "C94",
   "status": "proved",
   "theorems": [
    "ISD.C94_as_varying_uses_it",
    "ISD.C94_clear",
    "ISD.C94_copy",
    "ISD.C94_delete_type",
    "ISD.C94_equals",
    "ISD.C94_new_type",
    "ISD.C94_read",
    "ISD.C94_the_text_parses",
    "ISD.C94_write"
   ],
   "note": ""
  },
  {
   "property": "C95",
   "status": "proved",
   "theorems": [
    "ISD.C95_as_clear_uses_it",
    "ISD.C95_as_type_uses_it",
    "ISD.C95_clear",
    "ISD.C95_clear_is_new",
    "ISD.C95_information",
    "ISD.C95_nothing_else",
    "ISD.C95_one_cleared",
    "ISD.C95_set_type",
    "ISD.C95_told_apart"
   ],
   "note": ""
  },
  {
   "property": "C96",
   "status": "proved",
   "theorems": [
    "ISD.C96_declared_iff_defined",
    "ISD.C96_new_objects",
    "ISD.C96_other_types_do_not_compile",
    "ISD.C96_read",
    "ISD.C96_write"
   ],
   "note": ""
  },
  {
   "property": "C97",
   "status": "partial",
   "theorems": [
    "ISD.C97_clean_exit_partial",
    "ISD.C97_copy_constructor_leaks",
    "ISD.C97_ownership",
    "ISD.C97_values"
   ],
   "note": "False as stated for the copy constructor: when the contents cannot be copied after memory for the object was had, the constructor throws, no destructor runs and the object stays on the heap (C97_copy_constructor_leaks). Proved for all programs with any number of such failures: values and exceptions (C97_values), ownership with the exact number of lost objects (C97_ownership: one per such construction, one per move assignment to an initialised variable), and no loss in programs without these two (C97_clean_exit_partial)."
  }
 ]
}