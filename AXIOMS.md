# Axioms of the claimed theorems

Printed by `#print axioms` (tools/gen_axioms.py). `propext`, `Classical.choice` and `Quot.sound` are the axioms of Lean itself.

| theorem | axioms |
|---|---|
| `ISD.C01_from_any_state` | propext, Classical.choice, Quot.sound |
| `ISD.C01_write_stream_is_byte_file` | propext, Classical.choice, Quot.sound |
| `ISD.C02_growth_invisible` | propext, Classical.choice, Quot.sound |
| `ISD.C03_after_failures_partial` | propext, Classical.choice, Quot.sound |
| `ISD.C03_bad_alloc_partial` | propext, Classical.choice, Quot.sound |
| `ISD.C03_created` | propext, Classical.choice, Quot.sound |
| `ISD.C03_histories_partial` | propext, Classical.choice, Quot.sound |
| `ISD.C03_until_first_failure_partial` | propext, Classical.choice, Quot.sound |
| `ISD.C03_within_the_size_partial` | propext, Classical.choice, Quot.sound |
| `ISD.C03_write_after_bad_alloc_is_ub` | none |
| `ISD.C04_peek_eof` | propext |
| `ISD.C04_read_stream_bounds` | propext, Classical.choice, Quot.sound |
| `ISD.C05_scalar_round_trip` | propext, Classical.choice, Quot.sound |
| `ISD.C06_cross_flip` | propext, Classical.choice, Quot.sound |
| `ISD.C06_wire_order` | propext, Quot.sound |
| `ISD.C07_any_flip` | propext, Classical.choice, Quot.sound |
| `ISD.C07_stored_in_printed_order` | propext, Classical.choice, Quot.sound |
| `ISD.C08_from_to` | propext, Classical.choice, Quot.sound |
| `ISD.C08_msb_first` | propext, Classical.choice, Quot.sound |
| `ISD.C08_swap_involutive` | propext, Quot.sound |
| `ISD.C08_swap_reverses` | propext |
| `ISD.C08_to_from` | propext, Classical.choice, Quot.sound |
| `ISD.C09_bytes` | propext, Classical.choice, Quot.sound |
| `ISD.C09_uuid` | propext, Classical.choice, Quot.sound |
| `ISD.C09_uuid_hash_injective` | propext, Classical.choice, Quot.sound |
| `ISD.C09_values` | propext, Classical.choice, Quot.sound |
| `ISD.C09_values_injective` | propext, Classical.choice, Quot.sound |
| `ISD.C10_single_values_round_trip` | propext, Classical.choice, Quot.sound |
| `ISD.C11_optional_values` | propext, Classical.choice, Quot.sound |
| `ISD.C11_present_reads_as_mandatory` | propext, Classical.choice, Quot.sound |
| `ISD.C12_vectors_round_trip` | propext, Classical.choice, Quot.sound |
| `ISD.C13_indexed_vectors` | propext, Classical.choice, Quot.sound |
| `ISD.C14_strings_binary_safe` | propext, Classical.choice, Quot.sound |
| `ISD.C15_bool_packing` | propext, Classical.choice, Quot.sound |
| `ISD.C16_blocks_self_delimiting` | propext, Classical.choice, Quot.sound |
| `ISD.C16_sections` | propext, Classical.choice, Quot.sound |
| `ISD.C17_core` | propext, Classical.choice, Quot.sound |
| `ISD.C17_false_absent` | propext, Classical.choice, Quot.sound |
| `ISD.C17_false_present` | propext, Classical.choice, Quot.sound |
| `ISD.C17_false_width` | propext, Classical.choice, Quot.sound |
| `ISD.C17_large_exact` | propext, Classical.choice, Quot.sound |
| `ISD.C17_small_exact` | propext, Classical.choice, Quot.sound |
| `ISD.C17_wrong_type_or_key_refused_partial` | propext, Classical.choice, Quot.sound |
| `ISD.C18_exact` | propext, Classical.choice, Quot.sound |
| `ISD.C18_false_for_empty_key` | propext, Classical.choice, Quot.sound |
| `ISD.C18_truncated_read_fails_safely_partial` | propext, Classical.choice, Quot.sound |
| `ISD.C18_truncation_refused_partial` | propext, Classical.choice, Quot.sound |
| `ISD.C19_false_for_multi_scalar_arrays` | propext, Classical.choice, Quot.sound |
| `ISD.C19_hostile_bytes_partial` | propext, Classical.choice, Quot.sound |
| `ISD.C19_multi_scalar_partial` | propext, Classical.choice, Quot.sound |
| `ISD.C20_success_consumes_declared_block` | propext, Classical.choice, Quot.sound |
| `ISD.C21_section_trees_round_trip` | propext, Classical.choice, Quot.sound |
| `ISD.C22_counters` | propext, Classical.choice, Quot.sound |
| `ISD.C22_writer_refuses` | propext, Quot.sound |
| `ISD.C23_reader_refuses` | propext, Quot.sound |
| `ISD.C24_end_without_begin_is_ub` | propext, Quot.sound |
| `ISD.C24_end_without_begin_partial` | propext, Quot.sound |
| `ISD.C24_null_exact` | propext, Quot.sound |
| `ISD.C25_all_return` | propext |
| `ISD.C25_linearizable` | propext, Quot.sound |
| `ISD.C25_no_deadlock` | propext, Quot.sound |
| `ISD.C25_no_overlap` | propext, Quot.sound |
| `ISD.C25_steps_bounded` | propext, Quot.sound |
| `ISD.C26_idx_vector` | propext, Quot.sound |
| `ISD.C26_optional_idx_vector` | propext, Classical.choice, Quot.sound |
| `ISD.C26_optional_value` | propext, Quot.sound |
| `ISD.C26_optional_vector` | propext, Quot.sound |
| `ISD.C26_reset_discards` | propext, Quot.sound |
| `ISD.C27_edges_are_a_set` | propext, Quot.sound |
| `ISD.C28_false` | propext, Classical.choice, Quot.sound |
| `ISD.C28_successors_partial` | propext, Classical.choice, Quot.sound |
| `ISD.C29_copying` | propext, Quot.sound |
| `ISD.C29_equality` | propext, Classical.choice, Quot.sound |
| `ISD.C30_acyclic_validation` | propext, Classical.choice, Quot.sound |
| `ISD.C30_cycle_search` | propext, Classical.choice, Quot.sound |
| `ISD.C31_rooted_validation` | propext, Classical.choice, Quot.sound |
| `ISD.C32_validates_iff_meets_flags` | propext, Classical.choice, Quot.sound |
| `ISD.C32_validation_reports` | propext, Classical.choice, Quot.sound |
| `ISD.C33_graphs_round_trip` | propext, Classical.choice, Quot.sound |
| `ISD.C33_reference_nodes` | propext |
| `ISD.C34_order_does_not_matter` | propext, Classical.choice, Quot.sound |
| `ISD.C34_tables_compare_as_maps` | propext, Classical.choice, Quot.sound |
| `ISD.C35_copies_partial` | propext, Classical.choice, Quot.sound |
| `ISD.C35_self_copy_empties` | propext, Classical.choice, Quot.sound |
| `ISD.C36_same_contents` | propext, Classical.choice, Quot.sound |
| `ISD.C36_tables_round_trip` | propext, Classical.choice, Quot.sound |
| `ISD.C37_error_count` | propext, Classical.choice, Quot.sound |
| `ISD.C37_table_validation` | propext, Classical.choice, Quot.sound |
| `ISD.C38_dynamic_lookup` | propext, Classical.choice, Quot.sound |
| `ISD.C38_registered_pairs` | propext, Quot.sound |
| `ISD.C39_copies_partial` | propext, Classical.choice, Quot.sound |
| `ISD.C39_exactly` | propext, Classical.choice, Quot.sound |
| `ISD.C39_false_nan` | propext |
| `ISD.C39_false_self` | propext, Classical.choice, Quot.sound |
| `ISD.C39_false_uninitialised` | propext, Classical.choice, Quot.sound |
| `ISD.C40_uninitialised_refused` | propext, Classical.choice, Quot.sound |
| `ISD.C40_varying_round_trip` | propext, Classical.choice, Quot.sound |
| `ISD.C41_AttributeLayer` | propext, Classical.choice, Quot.sound |
| `ISD.C41_Mesh` | propext, Classical.choice, Quot.sound |
| `ISD.C41_Node` | propext, Classical.choice, Quot.sound |
| `ISD.C41_NodeGeometry` | propext, Classical.choice, Quot.sound |
| `ISD.C41_Scene` | propext, Classical.choice, Quot.sound |
| `ISD.C41_SceneLayer` | propext, Classical.choice, Quot.sound |
| `ISD.C41_TestEntity` | propext, Classical.choice, Quot.sound |
| `ISD.C41_classes_round_trip` | propext, Classical.choice, Quot.sound |
| `ISD.C41_new_object_is_a_destination` | propext, Classical.choice, Quot.sound |
| `ISD.C41_same_contents_equivalence` | propext, Classical.choice, Quot.sound |
| `ISD.C42_false_for_the_last_section` | propext, Classical.choice, Quot.sound |
| `ISD.C42_record_changes_nothing` | propext, Quot.sound |
| `ISD.C42_sections_end_partial` | propext, Classical.choice, Quot.sound |
| `ISD.C43_false_for_refs` | propext, Classical.choice, Quot.sound |
| `ISD.C43_read_replaces_partial` | propext, Classical.choice, Quot.sound |
| `ISD.C43_which_types` | propext |
| `ISD.C44_validation` | propext, Classical.choice, Quot.sound |
| `ISD.C45_count` | propext, Quot.sound |
| `ISD.C45_count_wraps` | propext, Quot.sound |
| `ISD.C45_count_zero` | propext, Quot.sound |
| `ISD.C45_false_ids_survive_clear` | propext |
| `ISD.C45_ids_partial` | propext, Quot.sound |
| `ISD.C46_same_data` | propext, Classical.choice, Quot.sound |
| `ISD.C46_split_independent` | propext, Classical.choice, Quot.sound |
| `ISD.C47_cant_open` | propext, Quot.sound |
| `ISD.C47_file_names` | propext, Classical.choice, Quot.sound |
| `ISD.C47_good_file_loads` | propext, Classical.choice, Quot.sound |
| `ISD.C47_handle_leaks` | propext, Classical.choice, Quot.sound |
| `ISD.C47_loads` | propext, Classical.choice, Quot.sound |
| `ISD.C47_ok_iff` | propext, Classical.choice, Quot.sound |
| `ISD.C47_zero_reads_never_end` | propext, Classical.choice, Quot.sound |
| `ISD.C48_accepts_partial` | propext, Classical.choice, Quot.sound |
| `ISD.C48_false_short_stream` | propext, Quot.sound |
| `ISD.C48_false_size_wraps` | propext, Quot.sound |
| `ISD.C48_false_stays_flipped` | propext, Quot.sound |
| `ISD.C48_header` | propext, Classical.choice, Quot.sound |
| `ISD.C49_entity_ref` | propext, Classical.choice, Quot.sound |
| `ISD.C49_hash` | propext, Classical.choice, Quot.sound |
| `ISD.C49_package_ref` | propext, Classical.choice, Quot.sound |
| `ISD.C49_self_move_loses` | propext |
| `ISD.C49_uuid` | propext, Classical.choice, Quot.sound |
| `ISD.C50_clear_gives_default` | propext, Classical.choice, Quot.sound |
| `ISD.C50_copy_partial` | propext, Classical.choice, Quot.sound |
| `ISD.C50_equals_is_equality_of_contents` | propext, Classical.choice, Quot.sound |
| `ISD.C50_exact_base` | propext, Classical.choice, Quot.sound |
| `ISD.C50_false_for_varying` | propext, Classical.choice, Quot.sound |
| `ISD.C50_never_fails` | propext, Classical.choice, Quot.sound |
| `ISD.C50_plain_classes` | propext, Classical.choice, Quot.sound |
| `ISD.C50_plain_entities` | propext, Classical.choice, Quot.sound |
| `ISD.C50_pointers` | propext, Classical.choice, Quot.sound |
| `ISD.C50_reflexive_iff` | propext, Classical.choice, Quot.sound |
| `ISD.C50_repository_entities_clear` | propext, Classical.choice, Quot.sound |
| `ISD.C50_self_copy_kept` | propext, Quot.sound |
| `ISD.C50_self_copy_of_scene_loses_layers` | propext, Classical.choice, Quot.sound |
| `ISD.C50_self_equal_base` | propext, Classical.choice, Quot.sound |
| `ISD.C50_symmetric` | propext, Classical.choice, Quot.sound |
| `ISD.C50_transitive` | propext, Classical.choice, Quot.sound |
| `ISD.C51_array_closed_by_section_end` | propext, Classical.choice, Quot.sound |
| `ISD.C51_array_stays_open_partial` | propext, Classical.choice, Quot.sound |
| `ISD.C52_accepted_bytes_are_a_block` | propext, Classical.choice, Quot.sound |
| `ISD.C53_index` | propext, Classical.choice, Quot.sound |
| `ISD.C53_insert` | propext, Classical.choice, Quot.sound |
| `ISD.C54_validation` | propext, Classical.choice, Quot.sound |
| `ISD.C55_at_most_once` | propext, Classical.choice, Quot.sound |
| `ISD.C55_initialize` | propext |
| `ISD.C56_self_assignment_empties` | propext |
| `ISD.C56_varying_variables_are_values` | propext, Classical.choice, Quot.sound |
| `ISD.C57_clean_exit` | propext, Classical.choice, Quot.sound |
| `ISD.C57_move_assignment_leaks` | propext, Classical.choice, Quot.sound |
| `ISD.C57_ownership` | propext, Classical.choice, Quot.sound |
| `ISD.C58_Mesh_partial` | propext, Classical.choice, Quot.sound |
| `ISD.C58_false_for_Mesh` | propext, Classical.choice, Quot.sound |
| `ISD.C58_hostile_objects_partial` | propext, Classical.choice, Quot.sound |
| `ISD.C58_named_arrays_partial` | propext, Classical.choice, Quot.sound |
| `ISD.C58_repository_entities` | propext, Classical.choice, Quot.sound |
| `ISD.C59_accepted_can_be_stored` | propext, Classical.choice, Quot.sound |
| `ISD.C59_accepted_is_well_formed` | propext, Classical.choice, Quot.sound |
| `ISD.C60_accepted_object_needs_little_memory_partial` | propext, Classical.choice, Quot.sound |
| `ISD.C60_accepted_value_needs_little_memory_partial` | propext, Classical.choice, Quot.sound |
| `ISD.C60_false_for_refused_reads` | propext, Quot.sound |
| `ISD.C60_reading_back_needs_little_memory` | propext, Classical.choice, Quot.sound |
| `ISD.C61_block_exists` | propext, Classical.choice, Quot.sound |
| `ISD.C61_different_contents_different_bytes` | propext, Classical.choice, Quot.sound |
| `ISD.C61_values` | propext, Classical.choice, Quot.sound |
| `ISD.C62_false_for_tables` | propext, Classical.choice, Quot.sound |
| `ISD.C62_read_and_write_again_partial` | propext, Classical.choice, Quot.sound |
| `ISD.C62_same_contents_same_bytes_partial` | propext, Classical.choice, Quot.sound |
| `ISD.C62_same_contents_same_size` | propext, Classical.choice, Quot.sound |
| `ISD.C63_clear_and_read_again` | propext, Classical.choice, Quot.sound |
| `ISD.C63_failed_reads_leave_valid_objects` | propext, Classical.choice, Quot.sound |
| `ISD.C63_false_for_reference_vectors` | propext, Classical.choice, Quot.sound |
| `ISD.C63_read_again_partial` | propext, Classical.choice, Quot.sound |
| `ISD.C63_same_read` | propext, Classical.choice, Quot.sound |
| `ISD.C63_still_usable` | propext, Classical.choice, Quot.sound |
| `ISD.C64_true_means_stored` | propext, Classical.choice, Quot.sound |
| `ISD.C64_write_accepts_exactly_storable_objects` | propext, Classical.choice, Quot.sound |
| `ISD.C65_same_contents_same_verdict` | propext, Classical.choice, Quot.sound |
| `ISD.C65_validated_objects_survive_storage` | propext, Classical.choice, Quot.sound |
| `ISD.C66_earlier_bytes_stay_partial` | propext, Classical.choice, Quot.sound |
| `ISD.C66_false_for_last_index` | propext, Quot.sound |
| `ISD.C66_finished_bytes_stay_partial` | propext, Classical.choice, Quot.sound |
| `ISD.C67_element_without_array` | propext, Quot.sound |
| `ISD.C67_false_for_null` | propext, Quot.sound |
| `ISD.C67_reader_histories_partial` | propext, Classical.choice, Quot.sound |
| `ISD.C68_ended_array_was_consumed` | propext, Classical.choice, Quot.sound |
| `ISD.C68_ended_section_was_consumed` | propext, Classical.choice, Quot.sound |
| `ISD.C69_AttributeLayer` | propext, Classical.choice, Quot.sound |
| `ISD.C69_Mesh` | propext, Classical.choice, Quot.sound |
| `ISD.C69_Node` | propext, Classical.choice, Quot.sound |
| `ISD.C69_NodeGeometry` | propext, Classical.choice, Quot.sound |
| `ISD.C69_Scene` | propext, Classical.choice, Quot.sound |
| `ISD.C69_SceneLayer` | propext, Classical.choice, Quot.sound |
| `ISD.C69_TestEntity` | propext, Classical.choice, Quot.sound |
| `ISD.C69_entity` | propext, Classical.choice, Quot.sound |
| `ISD.C69_graph` | propext, Classical.choice, Quot.sound |
| `ISD.C69_indexed_vector` | propext, Classical.choice, Quot.sound |
| `ISD.C69_table` | propext, Classical.choice, Quot.sound |
| `ISD.C69_varying` | propext, Classical.choice, Quot.sound |
| `ISD.C70_blocks_exist` | propext, Classical.choice, Quot.sound |
| `ISD.C70_sequences_round_trip` | propext, Classical.choice, Quot.sound |
| `ISD.C71_size_and_iteration` | propext, Quot.sound |
| `ISD.C71_steps_have_one_outcome` | propext, Quot.sound |
| `ISD.C71_table_is_a_finite_map` | propext, Classical.choice, Quot.sound |
| `ISD.C72_null_array` | propext, Classical.choice, Quot.sound |
| `ISD.C72_null_array_block` | propext, Classical.choice, Quot.sound |
| `ISD.C72_null_block` | propext, Classical.choice, Quot.sound |
| `ISD.C72_null_element` | propext, Classical.choice, Quot.sound |
| `ISD.C72_null_section` | propext, Classical.choice, Quot.sound |
| `ISD.C73_documented_types` | propext |
| `ISD.C73_other_type_refused` | propext, Classical.choice, Quot.sound |
| `ISD.C73_told_apart` | none |
| `ISD.C73_value_on_disk` | propext, Classical.choice, Quot.sound |
| `ISD.C73_vector_on_disk` | propext, Classical.choice, Quot.sound |
| `ISD.C74_changed_files` | propext, Classical.choice, Quot.sound |
| `ISD.C74_stored_file_loads` | propext, Classical.choice, Quot.sound |
| `ISD.C75_packets` | propext, Classical.choice, Quot.sound |
| `ISD.C76_equal_means_same_sets` | propext, Classical.choice, Quot.sound |
| `ISD.C76_graph_is_two_sets` | propext, Quot.sound |
| `ISD.C76_new_graph` | propext, Classical.choice, Quot.sound |
| `ISD.C76_order_does_not_matter` | propext, Classical.choice, Quot.sound |
| `ISD.C77_loads_do_not_interfere` | propext, Classical.choice, Quot.sound |
| `ISD.C77_loads_do_not_wait` | propext, Quot.sound |
| `ISD.C77_nothing_is_ever_loaded` | propext, Quot.sound |
| `ISD.C77_one_thread_per_load` | propext, Quot.sound |
| `ISD.C77_path_is_final` | propext, Quot.sound |
| `ISD.C78_calls` | propext, Classical.choice, Quot.sound |
| `ISD.C78_demo` | propext, Quot.sound |
| `ISD.C78_make_ref` | propext, Classical.choice, Quot.sound |
| `ISD.C78_moves_keep_one_holder` | propext, Classical.choice, Quot.sound |
| `ISD.C78_no_forgery` | propext, Classical.choice, Quot.sound |
| `ISD.C78_sup_can_be_lost` | propext, Quot.sound |
| `ISD.C78_untouched` | propext, Classical.choice, Quot.sound |
| `ISD.C79_always_owned` | propext, Quot.sound |
| `ISD.C79_append_other` | propext, Quot.sound |
| `ISD.C79_append_self` | propext, Quot.sound |
| `ISD.C79_append_self_fails` | propext, Classical.choice, Quot.sound |
| `ISD.C79_construct` | propext, Quot.sound |
| `ISD.C79_copy_dangles` | propext, Quot.sound |
| `ISD.C79_copy_frees_another` | propext, Classical.choice, Quot.sound |
| `ISD.C79_demo` | propext |
| `ISD.C79_destroy` | propext, Quot.sound |
| `ISD.C79_nothing_left` | propext, Quot.sound |
| `ISD.C79_one_call` | propext, Quot.sound |
| `ISD.C79_streams_are_files` | propext, Classical.choice, Quot.sound |
| `ISD.C80_accepted_exactly` | propext, Classical.choice, Quot.sound |
| `ISD.C80_demo` | propext, Classical.choice, Quot.sound |
| `ISD.C80_every_block_is_read` | propext, Classical.choice, Quot.sound |
| `ISD.C80_unambiguous` | propext, Classical.choice, Quot.sound |
| `ISD.C81_accepted_objects_stand` | propext, Classical.choice, Quot.sound |
| `ISD.C81_every_stored_object_is_read` | propext, Classical.choice, Quot.sound |
| `ISD.C81_last_section_size_not_checked` | propext, Classical.choice, Quot.sound |
| `ISD.C81_stored_by_another_program` | propext, Classical.choice, Quot.sound |
| `ISD.C81_unambiguous` | propext, Classical.choice, Quot.sound |
| `ISD.C81_what_is_written_stands` | propext, Classical.choice, Quot.sound |
| `ISD.C82_demo` | propext, Classical.choice, Quot.sound |
| `ISD.C82_moved_buffer_is_gone` | propext, Quot.sound |
| `ISD.C82_room` | propext, Classical.choice, Quot.sound |
| `ISD.C82_view_histories` | propext, Classical.choice, Quot.sound |
| `ISD.C82_view_shows_the_stream` | propext, Classical.choice, Quot.sound |
| `ISD.C83_definite_classes` | propext, Classical.choice, Quot.sound |
| `ISD.C83_false_for_optionals` | propext, Classical.choice, Quot.sound |
| `ISD.C83_false_for_sections` | propext, Quot.sound |
| `ISD.C83_objects_partial` | propext, Classical.choice, Quot.sound |
| `ISD.C83_repository_entities` | propext, Classical.choice, Quot.sound |
| `ISD.C83_sections_partial` | propext, Classical.choice, Quot.sound |
| `ISD.C83_values_partial` | propext, Classical.choice, Quot.sound |
| `ISD.C84_false_in_general` | propext, Quot.sound |
| `ISD.C84_graphs` | propext, Classical.choice, Quot.sound |
| `ISD.C84_long_names` | propext, Classical.choice, Quot.sound |
| `ISD.C84_objects` | propext, Classical.choice, Quot.sound |
| `ISD.C84_reading_partial` | propext, Classical.choice, Quot.sound |
| `ISD.C84_release_overruns` | propext, Quot.sound |
| `ISD.C84_tables` | propext, Quot.sound |
| `ISD.C84_values_partial` | propext, Classical.choice, Quot.sound |
| `ISD.C84_writing` | propext, Classical.choice, Quot.sound |
| `ISD.C85_demo` | propext, Classical.choice, Quot.sound |
| `ISD.C85_false_elsewhere` | propext |
| `ISD.C85_false_with_carriage_return` | propext, Quot.sound |
| `ISD.C85_file_holds_text` | propext, Quot.sound |
| `ISD.C85_file_is_missing_for_a_moment` | propext |
| `ISD.C85_inlined_lines_are_clean` | propext, Quot.sound |
| `ISD.C85_interrupted_run_is_repaired` | propext, Quot.sound |
| `ISD.C85_project` | propext, Quot.sound |
| `ISD.C85_run_writes_all` | propext, Quot.sound |
| `ISD.C85_second_run_touches_nothing` | propext, Quot.sound |
| `ISD.C85_unchanged_file_is_left_alone` | propext, Quot.sound |
| `ISD.C86_assignment_leaks` | propext, Classical.choice, Quot.sound |
| `ISD.C86_copies_free_twice` | propext, Quot.sound |
| `ISD.C86_copies_share` | propext, Classical.choice, Quot.sound |
| `ISD.C86_demo` | propext, Classical.choice, Quot.sound |
| `ISD.C86_failed_malloc` | propext, Quot.sound |
| `ISD.C86_no_leaks` | propext, Classical.choice, Quot.sound |
| `ISD.C86_objects_are_independent` | propext, Classical.choice, Quot.sound |
| `ISD.C87_entity_in_order` | propext, Classical.choice, Quot.sound |
| `ISD.C87_false_Mesh` | propext, Classical.choice, Quot.sound |
| `ISD.C87_false_atomic` | propext, Classical.choice, Quot.sound |
| `ISD.C87_false_rules` | propext, Classical.choice, Quot.sound |
| `ISD.C87_false_terminated` | propext, Classical.choice, Quot.sound |
| `ISD.C87_graph_halves` | propext, Classical.choice, Quot.sound |
| `ISD.C87_no_indexed_tables` | propext, Classical.choice, Quot.sound |
| `ISD.C87_not_terminated` | propext, Classical.choice, Quot.sound |
| `ISD.C87_table_entries` | propext, Classical.choice, Quot.sound |
| `ISD.C87_usable_partial` | propext, Classical.choice, Quot.sound |
| `ISD.C88_call` | propext, Classical.choice, Quot.sound |
| `ISD.C88_copy` | propext, Classical.choice, Quot.sound |
| `ISD.C88_dangling` | propext, Classical.choice, Quot.sound |
| `ISD.C88_history` | propext, Classical.choice, Quot.sound |
| `ISD.C88_move` | propext, Classical.choice, Quot.sound |
| `ISD.C88_nothing_leaks` | propext, Classical.choice, Quot.sound |
| `ISD.C88_references_stay` | propext, Classical.choice, Quot.sound |
| `ISD.C89_false_for_stray_flags` | propext, Classical.choice, Quot.sound |
| `ISD.C89_generated_class` | propext, Classical.choice, Quot.sound |
| `ISD.C89_generated_is_class` | propext, Classical.choice, Quot.sound |
| `ISD.C89_generated_round_trip` | propext, Classical.choice, Quot.sound |
| `ISD.C89_repository` | propext, Classical.choice, Quot.sound |
| `ISD.C90_counts_are_those_of_the_search` | none |
| `ISD.C90_cycle_search` | propext, Classical.choice, Quot.sound |
| `ISD.C90_false_linear` | propext, Classical.choice, Quot.sound |
| `ISD.C90_reach_search` | propext, Classical.choice, Quot.sound |
| `ISD.C91_AttributeLayer_reads_a_Node` | propext, Classical.choice, Quot.sound |
| `ISD.C91_Node_refuses_a_TestEntity` | propext, Classical.choice, Quot.sound |
| `ISD.C91_TestEntity_refuses_a_Node` | propext, Classical.choice, Quot.sound |
| `ISD.C91_accepted_only_if_the_classes_agree` | propext, Classical.choice, Quot.sound |
| `ISD.C91_compatible_classes_read` | propext, Classical.choice, Quot.sound |
| `ISD.C91_core` | propext, Classical.choice, Quot.sound |
| `ISD.C91_demo` | propext, Classical.choice, Quot.sound |
| `ISD.C92_one_overload_for_each_type` | propext, Classical.choice, Quot.sound |
| `ISD.C92_read_text` | propext, Classical.choice, Quot.sound |
| `ISD.C92_text_round_trip` | propext, Classical.choice, Quot.sound |
| `ISD.C92_write_text` | propext, Classical.choice, Quot.sound |
| `ISD.C93_inf_is_least` | propext, Classical.choice, Quot.sound |
| `ISD.C93_no_greatest_string` | propext |
| `ISD.C93_one_row_for_each_type` | propext, Classical.choice, Quot.sound |
| `ISD.C93_sup_is_greatest` | propext, Classical.choice, Quot.sound |
| `ISD.C93_zero_is_zero` | propext, Quot.sound |
| `ISD.C94_as_varying_uses_it` | propext, Classical.choice, Quot.sound |
| `ISD.C94_clear` | propext, Classical.choice, Quot.sound |
| `ISD.C94_copy` | propext, Classical.choice, Quot.sound |
| `ISD.C94_delete_type` | propext, Classical.choice, Quot.sound |
| `ISD.C94_equals` | propext, Classical.choice, Quot.sound |
| `ISD.C94_new_type` | propext, Classical.choice, Quot.sound |
| `ISD.C94_read` | propext, Classical.choice, Quot.sound |
| `ISD.C94_the_text_parses` | propext, Classical.choice, Quot.sound |
| `ISD.C94_write` | propext, Classical.choice, Quot.sound |
| `ISD.C95_as_clear_uses_it` | propext, Classical.choice, Quot.sound |
| `ISD.C95_as_type_uses_it` | propext, Classical.choice, Quot.sound |
| `ISD.C95_clear` | propext, Classical.choice, Quot.sound |
| `ISD.C95_clear_is_new` | propext, Classical.choice, Quot.sound |
| `ISD.C95_information` | propext, Classical.choice, Quot.sound |
| `ISD.C95_nothing_else` | propext, Classical.choice, Quot.sound |
| `ISD.C95_one_cleared` | propext |
| `ISD.C95_set_type` | propext, Classical.choice, Quot.sound |
| `ISD.C95_told_apart` | propext, Classical.choice, Quot.sound |
| `ISD.C96_declared_iff_defined` | propext, Classical.choice, Quot.sound |
| `ISD.C96_new_objects` | propext, Classical.choice, Quot.sound |
| `ISD.C96_other_types_do_not_compile` | propext, Classical.choice, Quot.sound |
| `ISD.C96_read` | propext, Classical.choice, Quot.sound |
| `ISD.C96_write` | propext, Classical.choice, Quot.sound |
| `ISD.C97_clean_exit_partial` | propext, Classical.choice, Quot.sound |
| `ISD.C97_copy_constructor_leaks` | propext, Classical.choice, Quot.sound |
| `ISD.C97_ownership` | propext, Classical.choice, Quot.sound |
| `ISD.C97_values` | propext, Classical.choice, Quot.sound |
