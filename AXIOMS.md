# Axioms of every theorem in MANIFEST.json

Output of `#print axioms`, grouped (`tools/axioms.py`). The three names that occur are the standard axioms of Lean.

## Classical.choice, Quot.sound, propext

`S2.C01_value`, `S2.C01_unsigned`, `S2.C02_int`, `S2.C02_bit_array`, `S2.C02_bool`, `S2.C03_aligned`, `S2.C03_unaligned`, `S2.C04_refuted`, `S2.C04_zero_blob_is_one_zero`, `S2.C04_partial`, `S2.C05_excess`, `S2.C06_partial`, `S2.C06_panics_iff`, `S2.C06_release_int64`, `S2.C07_roundtrip`, `S2.C07_encoder`, `S2.C08_consumes`, `S2.C08_release`, `S2.C08_exact`, `S2.C08_debug`, `S2.C09_partial`, `S2.C10_truncated`, `S2.C10_prefix`, `S2.C11_own_tag`, `S2.C11_exclusive`, `S2.C12_blob`, `S2.C12_int`, `S2.C12_bitarray`, `S2.C13_rejected`, `S2.C13_whole`, `S2.C14_grammar`, `S2.C14_roundtrip`, `S2.C14_unambiguous`, `S2.C15_field_order`, `S2.C16_partial`, `S2.C16_exactly`, `S2.C16_optional_some`, `S2.C17_complete`, `S2.C17_missing`, `S2.C17_missing_error`, `S2.C17_unknown`, `S2.C17_unknown_field`, `S2.C18_none`, `S2.C18_explicit`, `S2.C19_exact`, `S2.C20_local`, `S2.C20_prefix`, `S2.C21_total`, `S2.C22_grammar`, `S2.C23_partial`, `S2.C24_partial`, `S2.C25_forward`, `S2.C25_debug`, `S2.C26_local`, `S2.C27_known`, `S2.C28_bounded`, `S2.C29_tracker_stream`, `S2.C29_tracker_only_streams`, `S2.C29_tracker_terminates`, `S2.C29_tracker_malformed`, `S2.C29_tracker_skips_only_bad_utf8`, `S2.C30_game_stream`, `S2.C30_game_only_streams`, `S2.C30_game_terminates`, `S2.C30_game_malformed`, `S2.C30_game_skips_only_unsupported`, `S2.C30_message_stream`, `S2.C30_message_only_streams`, `S2.C30_message_terminates`, `S2.C30_message_skips`, `S2.C31_tracker_exactly`, `S2.C31_game_exactly`, `S2.C31_never_late`, `S2.C31_game_never_late`, `S2.C31_tracker_list_partial`, `S2.C31_game_list_partial`, `S2.C31_tracker_list_refuted`, `S2.C31_game_list_refuted`, `S2.C32_tracker_loops`, `S2.C32_game_loops`, `S2.C32_tracker_monotone`, `S2.C32_game_monotone`, `S2.C32_loop_bound`, `S2.C32_game_loop_bound`, `S2.C33_tracker_call_terminates`, `S2.C33_game_call_terminates`, `S2.C33_game_exact`, `S2.C33_tracker_exact`, `S2.C33_tracker_ends`, `S2.C33_game_ends`, `S2.C34_tracker_answers`, `S2.C34_tracker_exactly`, `S2.C34_game_fused`, `S2.C34_tracker_fused_partial`, `S2.C34_tracker_fused_refuted`, `S2.C35_merged`, `S2.C35_any_bytes`, `S2.C36_bad_name_refuted`, `S2.C36_ordered_partial`, `S2.C36_ordered_refuted`, `S2.C36_rounded_order`, `S2.C36_nearly_ordered`, `S2.C37_exactly`, `S2.C37_max_events_partial`, `S2.C37_max_events_refuted`, `S2.C38_tracker_window_partial`, `S2.C38_game_window_refuted`, `S2.C39_filters_only_hide`, `S2.C39_hides_rejected`, `S2.C40_player_filter`, `S2.C41_tag_parts`, `S2.C41_tag_rebuild`, `S2.C41_tag_injective`, `S2.C42_present_from`, `S2.C42_present`, `S2.C42_other_units`, `S2.C42_born_fields`, `S2.C43_death_groups_partial`, `S2.C43_dead_unit_in_group_refuted`, `S2.C43_stale_tag_selects_new_unit_refuted`, `S2.C44_reachable_wf`, `S2.C44_group_step`, `S2.C44_other_game_events`, `S2.C44_tracker_events`, `S2.C45_exactly`, `S2.C45_steal_partial`, `S2.C45_steal_refuted`, `S2.C46_panic_iff_partial`, `S2.C46_group_id_refuted`, `S2.C47_select`, `S2.C47_recall`, `S2.C47_select_deselect`, `S2.C47_base_preserved`, `S2.C47_never_compounds`, `S2.C48_positions`, `S2.C49_tracker_id_refuted`, `S2.Files.C50_discovery`, `S2.Files.C50_limits`, `S2.Time.C51_exact`, `S2.Time.C51_transform`, `S2.C52_game_events`, `S2.C52_other_readers`, `S2.C52_iterator_agrees`, `S2.C52_needs_header`, `S2.C53_parallel`, `S2.C53_stats`, `S2.C53_ordered`, `S2.C53_directory`, `S2.C54_join`, `S2.C54_distinct`, `S2.C54_total`, `S2.C55_handle_parts`, `S2.Cache.C56_bounds_partial`, `S2.Cache.C56_negative_left_refuted`, `S2.Cache.C56_playable_dims_partial`, `S2.Cache.C57_levels_and_dims_partial`, `S2.Cache.C57_cell_count_partial`, `S2.Cache.C57_negative_size_refuted`, `S2.Cache.C57_negative_size_panics_refuted`, `S2.Cache.C58_tail_refuted`, `S2.Cache.C58_tail_partial`, `S2.C59_total_counts_written_rows`, `S2.C59_whole_batches`, `S2.C59_complete`, `S2.C59_parallel_is_serial`, `S2.C59_no_deadlock`, `S2.C60_selection`, `S2.C60_total`, `S2.C61_precedence`, `S2.C61_own_first`, `S2.C62_path_round_trip`, `S2.C62_assets_round_trip`, `S2.C63_listing`, `S2.C65_partial`, `S2.C66_game_events_keep_units`, `S2.C66_unselected_untouched`, `S2.C67_units_keyed_by_index`, `S2.C68_owner_change_partial`, `S2.C68_harmless_partial`, `S2.C68_owner_change_refuted`, `S2.C69_selection_replaced_partial`, `S2.C69_remove_mask_partial`, `S2.C69_remove_mask_refuted`, `S2.C70_marks_refuted`, `S2.C70_marks_partial`, `S2.C70_history_partial`, `S2.C71_radius_refuted`, `S2.C71_radius_partial`, `S2.C71_history_partial`, `S2.C72_hints_partial`, `S2.C72_death_hint`, `S2.C72_hints_refuted`, `S2.C73_tag_and_type_ignored`, `S2.C73_tag_filter_refuted`, `S2.C74_needs_distinct`, `S2.C75_exactly`, `S2.C75_in_range_partial`, `S2.C75_release_partial`, `S2.C75_debug_partial`, `S2.C76_time_stamps`, `S2.C77_groups_only_selected`, `S2.C78_users_isolated`, `S2.C79_camera`, `S2.C80_type_owner_flag`, `S2.C81_exactly`, `S2.C81_birth_partial`, `S2.C81_birth_refuted`, `S2.C82_one_person_partial`, `S2.C82_one_person_refuted`, `S2.C83_names_and_stats`, `S2.C84_every_call_returns`, `S2.C84_bounded_events`, `S2.C84_fetches_return`, `S2.C85_release_total`, `S2.Cache.C86_map_info_iff`, `S2.Cache.C86_map_info_no_panic`, `S2.Cache.C87_height_map_iff`, `S2.Cache.C88_document_header_iff`, `S2.Cache.C88_document_header_no_panic`, `S2.Time.C89_monotone`, `S2.Time.C89_negative`, `S2.Time.C89_accurate`, `S2.Time.C89_tracker_agrees`, `S2.C90_details_faithful`, `S2.C90_details_total`, `S2.C90_details_no_panic`, `S2.C91_flat_row_partial`, `S2.C91_panics_exactly`, `S2.C91_short_handle_panics_refuted`, `S2.C92_init_faithful`, `S2.C92_init_total`, `S2.C92_init_no_panic`, `S2.C93_write_read_partial`, `S2.C93_empty_text_refuted`, `S2.C94_panics_partial`, `S2.C94_not_a_replay_refuted`, `S2.C95_exactly`, `S2.C95_user_name_partial`, `S2.C95_user_name_refuted`, `S2.C96_initial_state`, `S2.C96_is_initial`, `S2.C97_balance_version`, `S2.C97_order`, `S2.C98_exactly`, `S2.C98_deterministic_partial`, `S2.C98_frequent_listed_partial`, `S2.C98_order_refuted`, `S2.C99_errors_skipped_partial`, `S2.C99_panics_refuted`, `S2.C100_empty_partial`, `S2.C100_empty_refuted`, `S2.C101_tracker_fields`, `S2.C101_only_bad_text_missing`, `S2.C101_bytes_as_text`, `S2.C101_tracker_list`, `S2.C102_game_fields`, `S2.C102_game_list`, `S2.C103_chat_fields`, `S2.C103_chat_list`, `S2.C104_stats_rows_partial`, `S2.C104_upgrade_rows_partial`, `S2.C104_stats_rows_refuted`, `S2.C104_stats_rows_any_bytes_partial`, `S2.C104_upgrade_rows_any_bytes_partial`, `S2.C105_born_rows`, `S2.C105_born_rows_any_bytes`, `S2.C106_died_rows`, `S2.C106_died_rows_any_bytes`, `S2.C107_point_rows`, `S2.C107_unit_rows`, `S2.C107_point_rows_any_bytes`, `S2.C107_unit_rows_any_bytes`, `S2.C108_own_ability_partial`, `S2.C108_own_ability_refuted`, `S2.C108_own_ability_unit_rows_partial`, `S2.C109_exact_rows_partial`, `S2.C109_target_name_partial`, `S2.C109_target_name_refuted`, `S2.C110_collectors_return`, `S2.C110_release_total`, `S2.C112_lost_with_failed_writes`, `S2.C112_exactly`, `S2.C112_export_holds_all_rows_partial`, `S2.C113_result`, `S2.C113_errors_are_skipped_partial`, `S2.C113_one_bad_source_refuted`, `S2.C114_details_table`, `S2.C115_round_trip_partial`, `S2.C115_round_trip_refuted`, `S2.C115_exactly`, `S2.C116_listing_order_refuted`, `S2.C117_xml_units`, `S2.C117_last_wins`, `S2.C117_xml_reads_iff`, `S2.C117_version_names`, `S2.C118_colour_partial`, `S2.C118_colour_refuted`, `S2.C119_commands_recorded`, `S2.C119_last_command`, `S2.C119_never_commanded`, `S2.C120_point_exact`, `S2.C120_points_of_any_file`, `S2.C121_position`, `S2.Generator.C122_exactly`, `S2.Generator.C122_partial`, `S2.Generator.C122_refuted`, `S2.Generator.C122_shipped`, `S2.Generator.C123_exactly`, `S2.Generator.C123_partial`, `S2.Generator.C123_refuted`, `S2.Generator.C124_arrays`, `S2.Generator.C124_strings`, `S2.C125_exactly`, `S2.Generator.C125_refuted`, `S2.Generator.C125_partial`, `S2.Coords.C126_cell_centre`, `S2.Coords.C126_partial`, `S2.Coords.C126_negative_refuted`, `S2.Coords.C127_partial`, `S2.Coords.C127_negative_refuted`, `S2.Coords.C127_nearest_partial`, `S2.Coords.C128_cells`, `S2.Coords.C128_playable`, `S2.Coords.C128_terrain_exactly`, `S2.Coords.C128_terrain_partial`, `S2.Coords.C128_terrain_refuted`, `S2.C129_every_crash_point`, `S2.C129_one_file_at_risk`, `S2.C130_success`, `S2.C130_rerun_succeeds`, `S2.C130_result`, `S2.C130_ends`, `S2.C131_one_run_partial`, `S2.C131_one_run_refuted`, `S2.C132_failure_keeps_old_refuted`, `S2.C133_snapshot_contents`, `S2.C133_source_blocks`, `S2.C134_names_partial`, `S2.C134_names_refuted`, `S2.Cli.C135_events`, `S2.Cli.C135_documents`, `S2.Cli.C136_json_partial`, `S2.Cli.C136_json_refuted`, `S2.Cli.C137_bad_files_partial`, `S2.Cli.C137_bad_files_refuted`, `S2.Cli.C137_section_fails`, `S2.Cli.C137_exactly`, `S2.Cli.C138_sources_partial`, `S2.Cli.C138_sources_refuted`, `S2.Cli.C138_exactly`, `S2.Cli.C139_filter_options_partial`, `S2.Cli.C139_filter_options_refuted`, `S2.Cli.C140_quiet_partial`, `S2.Cli.C140_quiet_refuted`, `S2.C140_exactly`, `S2.Cli.C141_export`, `S2.Generator.C142_generated_partial`, `S2.C143_exactly`, `S2.C143_agree`, `S2.C143_complete_partial`, `S2.Tui.C144_calls`, `S2.Tui.C144_shown`, `S2.Tui.C144_returns`, `S2.Tui.C145_panels_refuted`, `S2.Tui.C146_colours_partial`, `S2.Tui.C146_colours_refuted`, `S2.C147_target_partial`, `S2.C147_target_refuted`, `S2.C148_units_partial`, `S2.C148_units_refuted`, `S2.Generator.C149_total`, `S2.Generator.C149_first`, `S2.Generator.C149_payload_partial`, `S2.Generator.C149_only_declared`, `S2.Generator.C149_duplicate_refuted`, `S2.Generator.C149_names_refuted`, `S2.Generator.C149_other_module_refuted`, `S2.Json.C150_round_trip_partial`, `S2.Json.C150_exactly`, `S2.Json.C150_reread`, `S2.Json.C150_assets_partial`, `S2.Json.C150_version_lost`, `S2.Json.C150_version_refuted`, `S2.Json.C150_nonfinite_refuted`, `S2.Json.C151_order`, `S2.Json.C151_unknown_ignored`, `S2.Json.C151_absent_is_null`, `S2.Json.C151_twice_rejected`, `S2.Json.C151_missing_rejected`, `S2.Json.C151_absent_default`, `S2.Json.C152_round_trip_partial`, `S2.Json.C152_distinct_partial`, `S2.Json.C152_exactly`, `S2.Json.C152_events_round_trip`, `S2.Json.C152_refuted`, `S2.Json.C153_round_trip_partial`, `S2.Json.C153_exactly`, `S2.Json.C153_reread`, `S2.Json.C153_version_refuted`, `S2.C154_ids`, `S2.C154_same_replay`, `S2.C154_details_present_partial`, `S2.C154_details_present_refuted`, `S2.C155_tracker_list`, `S2.C155_game_list`, `S2.C155_message_list`, `S2.C155_tracker_iter`, `S2.C155_game_iter`, `S2.C155_tracker_iter_complete`, `S2.C155_game_iter_complete`, `S2.C156_unit_table_partial`, `S2.C156_death_table_partial`, `S2.C156_stats_table_partial`, `S2.C156_upgrade_table_partial`, `S2.C156_unit_table_refuted`, `S2.C156_no_table_refuted`, `S2.C157_delivered_partial`, `S2.C157_unit_table_partial`, `S2.C157_death_table_partial`, `S2.C157_point_table_partial`, `S2.C157_target_table_partial`, `S2.C157_same_events`, `S2.C157_point_table_refuted`, `S2.C157_any_loops`, `S2.C158_event_lists`, `S2.C158_metadata`, `S2.C158_iterators`, `S2.C158_state`, `S2.C158_tables`, `S2.C158_directories`, `S2.C158_get`, `S2.C158_tui`, `S2.C158_map_files`, `S2.C158_header`, `S2.C158_both_occur`, `S2.C159_tracker_tables`, `S2.C159_command_tables`, `S2.C159_items`, `S2.C159_state`, `S2.C159_unknown_version`, `S2.C159_unknown_version_rows`, `S2.C159_unknown_version_units`, `S2.JsonDir.C160_completes`, `S2.JsonDir.C160_completed`, `S2.JsonDir.C160_crash_points`, `S2.JsonDir.C161_overlay_partial`, `S2.JsonDir.C161_empty_partial`, `S2.JsonDir.C161_refuted`, `S2.JsonDir.C162_missing_destination`, `S2.JsonDir.C162_unreadable`, `S2.JsonDir.C162_cut_off`, `S2.JsonDir.C162_repeat_partial`, `S2.JsonDir.C162_refuted`, `S2.Main.C162_options`, `S2.Main.C163_unreadable_directory`, `S2.Main.C163_built_in`, `S2.Main.C163_no_fallback`, `S2.Main.C164_unused_partial`, `S2.Main.C164_util`, `S2.Main.C164_refuted`, `S2.Main.C165_listing_order`, `S2.Main.C166_balance_partial`, `S2.Main.C166_balance_convert`, `S2.Main.C166_output_crash`, `S2.Main.C166_refuted`, `S2.Generator.C167_generated_partial`, `S2.Generator.C167_bundled`, `S2.Generator.C167_generated_refuted`, `S2.Generator.C167_text_agrees`, `S2.Generator.C168_balanced`, `S2.Generator.C168_each_item`, `S2.Generator.C169_tag_loop`, `S2.Generator.C169_constant_only`, `S2.Generator.C169_untagged_only`, `S2.Generator.C169_members_partial`, `S2.Generator.C169_names_refuted`, `S2.C170_one_mark_partial`, `S2.C170_exactly`, `S2.C170_refuted`, `S2.C170_transparent_partial`, `S2.Generator.C171_byte_aligned_partial`, `S2.Generator.C171_same_text_partial`, `S2.Generator.C171_byte_closed_partial`, `S2.Generator.C171_bit_packed_partial`, `S2.Generator.C171_bit_packed_exactly`, `S2.Generator.C171_once_partial`, `S2.Generator.C171_refuted`, `S2.Generator.C172_refuted`, `S2.Generator.C173_number_partial`, `S2.Generator.C173_exactly`, `S2.Generator.C173_refuted`, `S2.Generator.C175_balanced`, `S2.Generator.C175_each_item`, `S2.Generator.C176_written_partial`, `S2.Generator.C176_same`, `S2.Generator.C176_exists`, `S2.Generator.C176_written_refuted`, `S2.C177_tracker`, `S2.C177_unambiguous`, `S2.C178_exactly`, `S2.C178_iff`, `S2.C178_unchanged`, `S2.C178_number`, `S2.C178_derails`, `S2.C178_game_partial`, `S2.C178_unambiguous_partial`, `S2.C178_refuted`, `S2.C178_unplain`, `S2.C179_exactly`, `S2.C179_chat_partial`, `S2.C179_refuted`, `S2.C180_number_partial`, `S2.C181_details`, `S2.C182_exactly`, `S2.C182_init_data_partial`, `S2.C182_iff`, `S2.C182_refuted`, `S2.C183_header`, `S2.C183_build`, `S2.C183_quick`, `S2.C184_readers`, `S2.C184_unambiguous`, `S2.C185_iterator`, `S2.C185_opened`, `S2.C185_ordered`, `S2.C185_returns`, `S2.C186_statistics`, `S2.C186_upgrades`, `S2.C186_tables`, `S2.C186_made`, `S2.C187_opens`, `S2.C187_made`, `S2.C188_export`, `S2.C188_upgrades`, `S2.C188_statistics`, `S2.C189_documents`, `S2.C189_events`, `S2.Generator.C190_member_text`

## Quot.sound, propext

`S2.C02_align`, `S2.C12_fourcc`, `S2.C16_refuted`, `S2.C19_out_of_range`, `S2.C49_last_match_partial`, `S2.Time.C51_monotone`, `S2.Time.C51_floor`, `S2.C55_hex_text`, `S2.C55_either_case`, `S2.C59_schedules_end`, `S2.C64_partial`, `S2.C74_name_lookup`, `S2.C111_user_rows`, `S2.C116_listing_order_partial`, `S2.C116_exactly`, `S2.Generator.C122_fewest_bits`, `S2.Generator.C123_width_partial`, `S2.Generator.C123_width_refuted`, `S2.Generator.C124_width_exactly`, `S2.Generator.C124_width_partial`, `S2.Generator.C124_width_refuted`, `S2.Coords.C126_map_to_cell`, `S2.Tui.C145_panels_partial`, `S2.C157_only_order`, `S2.C157_only_rounded_order`, `S2.Generator.C172_files_partial`, `S2.Generator.C172_exactly`, `S2.C174_columns_partial`

## none

`S2.C12_bool`, `S2.Coords.C127_nearest_refuted`

## propext

`S2.C01_more_than_64`, `S2.C06_refuted`, `S2.C09_refuted`, `S2.C09_refuted_negation`, `S2.C23_refuted`, `S2.C24_extent`, `S2.C24_refuted`, `S2.C27_bit_packed`, `S2.C27_versioned`, `S2.C48_index_plain`, `S2.C63_complete`, `S2.C64_refuted`, `S2.C65_refuted`, `S2.C65_witness`, `S2.C75_overflow_refuted`, `S2.C80_only_own_events`, `S2.C90_player_names`, `S2.C112_export_holds_all_rows_refuted`, `S2.Generator.C122_shipped_widths`, `S2.C132_failure_keeps_old_partial`, `S2.Generator.C142_generated_refuted`, `S2.C143_complete_refuted`, `S2.Generator.C172_same_file_refuted`, `S2.C174_exactly`, `S2.C174_refuted`, `S2.C180_refuted`
