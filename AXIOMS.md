# Axioms of each claimed theorem

Generated by `tools/gen_axioms.py` from `#print axioms`. `choice` is `Classical.choice`; all three are axioms of Lean itself.

| property | theorem | axioms |
|---|---|---|
| C01 | `Verif.Props.C01_insert_get_frame` | choice, Quot.sound, propext |
| C02 | `Verif.Props.C02_removed_handle_stays_dead` | choice, Quot.sound, propext |
| C03 | `Verif.Props.C03_handles_never_reissued` | choice, Quot.sound, propext |
| C04 | `Verif.Props.C04_refines_finite_map` | choice, Quot.sound, propext |
| C04 | `Verif.Props.C04_from_iter_into_iter` | choice, Quot.sound, propext |
| C05 | `Verif.Props.C05_capacity` | choice, Quot.sound, propext |
| C05 | `Verif.Props.C05_reserve_zero_negation` | Quot.sound, propext |
| C06 | `Verif.Props.C06_one_contract_per_id` | choice, Quot.sound, propext |
| C07 | `Verif.Props.C07_errors_change_nothing` | choice, Quot.sound, propext |
| C08 | `Verif.Props.C08_create_accepts_exactly` | choice, Quot.sound, propext |
| C09 | `Verif.Props.C09_create_reads_back` | choice, Quot.sound, propext |
| C10 | `Verif.Props.C10_create_frame` | choice, Quot.sound, propext |
| C11 | `Verif.Props.C11_every_field_reads` | choice, Quot.sound, propext |
| C12 | `Verif.Props.C12_fields_never_alias` | choice, Quot.sound, propext |
| C13 | `Verif.Props.C13_state_write` | propext |
| C13 | `Verif.Props.C13_channel_write` | propext |
| C14 | `Verif.Props.C14_foreign_ids` | Quot.sound, propext |
| C14 | `Verif.Props.C14_no_object` | propext |
| C15 | `Verif.Props.C15_removed_handles_stay_dead` | choice, Quot.sound, propext |
| C16 | `Verif.Props.C16_negation` | propext |
| C16 | `Verif.Props.C16_object_remove_partial` | choice, Quot.sound, propext |
| C17 | `Verif.Props.C17_negation` | propext |
| C17 | `Verif.Props.C17_object_set_partial` | choice, Quot.sound, propext |
| C18 | `Verif.Props.C18_negation` | propext |
| C18 | `Verif.Props.C18_unregister_partial` | choice, Quot.sound, propext |
| C19 | `Verif.Props.C19_unregister_rejects` | choice, Quot.sound, propext |
| C20 | `Verif.Props.C20_iter_objects` | Quot.sound, propext |
| C21 | `Verif.Props.C21_baselines_isolated` | choice, Quot.sound, propext |
| C21 | `Verif.Props.C21_kind_constant` | choice, Quot.sound, propext |
| C22 | `Verif.Props.C22_negation` | propext |
| C22 | `Verif.Props.C22_only_issued_handles_resolve_partial` | choice, Quot.sound, propext |
| C23 | `Verif.Props.C23_negation` | propext |
| C23 | `Verif.Props.C23_declared_type_reads_own_field_partial` | choice, Quot.sound, propext |
| C24 | `Verif.Props.C24_assertions` | choice, Quot.sound, propext |
| C25 | `Verif.Props.C25_rejected_is_atomic` | Quot.sound, propext |
| C25 | `Verif.Props.C25_engine_frame` | Quot.sound, propext |
| C26 | `Verif.Props.C26_negation_every_write_panics` | Quot.sound, propext |
| C26 | `Verif.Props.C26_negation_witness` | Quot.sound, propext |
| C27 | `Verif.Props.C27_negation_dead_write_panics` | Quot.sound, propext |
| C27 | `Verif.Props.C27_outcomes_partial` | choice, Quot.sound, propext |
| C27 | `Verif.Props.C27_dead_assert_rejected_partial` | choice, Quot.sound, propext |
| C28 | `Verif.Props.C28_fifo` | Quot.sound, propext |
| C28 | `Verif.Props.C28_send` | Quot.sound, propext |
| C29 | `Verif.Props.C29_empty` | Quot.sound, propext |
| C29 | `Verif.Props.C29_pending_wins` | Quot.sound, propext |
| C29 | `Verif.Props.C29_disconnected` | Quot.sound, propext |
| C30 | `Verif.Props.C30_tick` | choice, Quot.sound, propext |
| C30 | `Verif.Props.C30_only_tick_changes_time` | Quot.sound, propext |
| C30 | `Verif.Props.C30_total` | choice, Quot.sound, propext |
| C31 | `Verif.Props.C31_f32` | choice, Quot.sound, propext |
| C31 | `Verif.Props.C31_f64` | choice, Quot.sound, propext |
| C31 | `Verif.Props.C31_assert_current` | choice, Quot.sound, propext |
| C31 | `Verif.Props.C31_numbers` | choice, Quot.sound, propext |
| C32 | `Verif.Props.C32_add_sub_saturate` | choice, Quot.sound, propext |
| C32 | `Verif.Props.C32_exact_iff_fits` | choice, Quot.sound, propext |
| C32 | `Verif.Props.C32_add_comm_zero` | choice, Quot.sound, propext |
| C33 | `Verif.Props.C33_default_warp_identity` | choice, Quot.sound, propext |
| C34 | `Verif.Props.C34_negation_wraps` | propext |
| C34 | `Verif.Props.C34_negation_presaturated` | propext |
| C34 | `Verif.Props.C34_warp_exact_partial` | choice, Quot.sound, propext |
| C34 | `Verif.Props.C34_warp_total_partial` | choice, Quot.sound, propext |
| C35 | `Verif.Props.C35_negation_runs_backwards` | propext |
| C35 | `Verif.Props.C35_order_partial` | choice, Quot.sound, propext |
| C35 | `Verif.Props.C35_order_slow_scales_partial` | choice, Quot.sound, propext |
| C35 | `Verif.Props.C35_order_exact_partial` | choice, Quot.sound, propext |
| C36 | `Verif.Props.C36_negation_not_seconds` | propext |
| C36 | `Verif.Props.C36_negation_negative` | propext |
| C36 | `Verif.Props.C36_negation_every_large` | choice, Quot.sound, propext |
| C36 | `Verif.Props.C36_as_secs_partial` | choice, Quot.sound, propext |
| C36 | `Verif.Props.C36_exact_partial` | choice, Quot.sound, propext |
| C37 | `Verif.Props.C37_sorted_permutation` | choice, Quot.sound, propext |
| C37 | `Verif.Props.C37_permutation_partial` | Quot.sound, propext |
| C37 | `Verif.Props.C37_negation_nan_may_panic` | choice, Quot.sound, propext |
| C37 | `Verif.Props.C37_times_are_numbers` | choice, Quot.sound, propext |
| C37 | `Verif.Props.C37_sorted_by_number` | choice, Quot.sound, propext |
| C38 | `Verif.Props.C38_ascending_partial` | choice, Quot.sound, propext |
| C38 | `Verif.Props.C38_ranges_partial` | choice, Quot.sound, propext |
| C38 | `Verif.Props.C38_negation_descending_stuck` | choice, Quot.sound, propext |
| C38 | `Verif.Props.C38_negation_unsigned_descending` | choice, Quot.sound, propext |
| C38 | `Verif.Props.C38_negation_long_distance` | choice, Quot.sound, propext |
| C38 | `Verif.Props.C38_exact_partial` | choice, Quot.sound, propext |
| C38 | `Verif.Props.C38_binary32_numbers` | choice, Quot.sound, propext |
| C39 | `Verif.Props.C39_jump` | choice, Quot.sound, propext |
| C39 | `Verif.Props.C39_jump_outside` | choice, Quot.sound, propext |
| C39 | `Verif.Props.C39_jump_bits` | choice, Quot.sound, propext |
| C40 | `Verif.Props.C40_kth_next_is_kth_field` | Quot.sound, propext |
| C40 | `Verif.Props.C40_size_hint_exact` | choice, Quot.sound, propext |
| C40 | `Verif.Props.C40_collected` | choice, Quot.sound, propext |
| C40 | `Verif.Props.C40_contract_iterators` | choice, Quot.sound, propext |
| C41 | `Verif.Props.C41_negation_every_hit_is_wrong` | Quot.sound, propext |
| C41 | `Verif.Props.C41_nth_agrees_iff_exhausted_partial` | choice, Quot.sound, propext |
| C42 | `Verif.Props.C42_state_id` | choice, Quot.sound, propext |
| C42 | `Verif.Props.C42_chan_id` | choice, Quot.sound, propext |
| C43 | `Verif.Props.C43_wrap_roundtrip` | propext |
| C43 | `Verif.Props.C43_unwrap_unique` | propext |
| C43 | `Verif.Props.C43_borrow` | propext |
| C43 | `Verif.Props.C43_dispatch` | none |
| C44 | `Verif.Props.C44_numbers` | choice, Quot.sound, propext |
| C44 | `Verif.Props.C44_dyn_eq_iff` | choice, Quot.sound, propext |
| C44 | `Verif.Props.C44_concrete_eq_iff` | choice, Quot.sound, propext |
| C44 | `Verif.Props.C44_concrete_agrees` | choice, Quot.sound, propext |
| C44 | `Verif.Props.C44_symm` | choice, Quot.sound, propext |
| C44 | `Verif.Props.C44_refl_iff` | choice, Quot.sound, propext |
| C45 | `Verif.Props.C45_kind_bijective` | none |
| C45 | `Verif.Props.C45_kind_eq_iff` | Quot.sound, propext |
| C45 | `Verif.Props.C45_tag_eq_iff` | Quot.sound, propext |
| C46 | `Verif.Props.C46_negation` | propext |
| C46 | `Verif.Props.C46_agree_iff_partial` | propext |
| C47 | `Verif.Props.C47_fields_numbered` | choice, Quot.sound, propext |
| C48 | `Verif.Props.C48_round_trip` | choice, Quot.sound, propext |
| C49 | `Verif.Props.C49_serialize_rejects` | Quot.sound, propext |
| C50 | `Verif.Props.C50_finish_iff_closed_partial` | choice, Quot.sound, propext |
| C50 | `Verif.Props.C50_negation` | Quot.sound, propext |
| C51 | `Verif.Props.C51_files_partial` | choice, Quot.sound, propext |
| C51 | `Verif.Props.C51_exact_partial` | choice, Quot.sound, propext |
| C51 | `Verif.Props.C51_repeats_without_handles_partial` | choice, Quot.sound, propext |
| C51 | `Verif.Props.C51_repeated_handles_break` | choice, Quot.sound, propext |
| C51 | `Verif.Props.C51_negation` | choice, Quot.sound, propext |
| C52 | `Verif.Props.C52_register_iff` | choice, Quot.sound, propext |
| C52 | `Verif.Props.C52_handles` | choice, Quot.sound, propext |
| C53 | `Verif.Props.C53_no_placeholder` | choice, Quot.sound, propext |
| C54 | `Verif.Props.C54_dangling_is_err` | choice, Quot.sound, propext |
| C54 | `Verif.Props.C54_finish_ok_iff` | choice, Quot.sound, propext |
| C55 | `Verif.Props.C55_negation` | choice, Quot.sound, propext |
| C55 | `Verif.Props.C55_no_panic_partial` | choice, Quot.sound, propext |
| C55 | `Verif.Props.C55_damage_panics_partial` | choice, Quot.sound, propext |
| C55 | `Verif.Props.C55_missing_string_panics_partial` | choice, Quot.sound, propext |
| C55 | `Verif.Props.C55_restore_no_panic_partial` | choice, Quot.sound, propext |
| C56 | `Verif.Props.C56_only_valid_objects` | choice, Quot.sound, propext |
| C57 | `Verif.Props.C57_first_call_decides` | Quot.sound, propext |
| C57 | `Verif.Props.C57_with_assignments` | Quot.sound, propext |
| C57 | `Verif.Props.C57_freed_once` | choice, Quot.sound, propext |
| C58 | `Verif.Props.C58_stolen_once_partial` | Quot.sound, propext |
| C58 | `Verif.Props.C58_negation` | propext |
| C59 | `Verif.Props.C59_mangling_injective_partial` | Quot.sound, propext |
| C59 | `Verif.Props.C59_negation` | choice, Quot.sound, propext |
| C60 | `Verif.Props.C60_faithful` | choice, Quot.sound, propext |
| C61 | `Verif.Props.C61_reachable` | choice, Quot.sound, propext |
| C62 | `Verif.Props.C62_complete_buffers_restore` | choice, Quot.sound, propext |
| C62 | `Verif.Props.C62_restore_iff` | choice, Quot.sound, propext |
| C63 | `Verif.Props.C63_copy_utf8_accepts_exactly_utf8` | choice, Quot.sound, propext |
| C63 | `Verif.Props.C63_copy_utf16_transcodes` | choice, Quot.sound, propext |
| C63 | `Verif.Props.C63_native_strings_are_utf8` | choice, Quot.sound, propext |
| C64 | `Verif.Props.C64_string_round_trip_partial` | choice, Quot.sound, propext |
| C64 | `Verif.Props.C64_round_trip_exact_iff_partial` | choice, Quot.sound, propext |
| C64 | `Verif.Props.C64_distinct_strings_distinct_bytes` | choice, Quot.sound, propext |
| C64 | `Verif.Props.C64_empty_string_negation` | propext |
| C64 | `Verif.Props.C64_lone_surrogate_negation` | Quot.sound, propext |
| C65 | `Verif.Props.C65_dynamic_handles_are_typed_handles` | propext |
| C65 | `Verif.Props.C65_dynamic_reads_agree` | propext |
| C65 | `Verif.Props.C65_dynamic_state_write` | Quot.sound, propext |
| C65 | `Verif.Props.C65_dynamic_channel_write` | Quot.sound, propext |
| C66 | `Verif.Props.C66_index_agrees` | Quot.sound, propext |
| C67 | `Verif.Props.C67_example_contract` | choice, Quot.sound, propext |
| C67 | `Verif.Props.C67_ball_contract` | choice, Quot.sound, propext |
| C67 | `Verif.Props.C67_register` | choice, Quot.sound, propext |
| C68 | `Verif.Props.C68_negation_object_remove_always_panics` | choice, Quot.sound, propext |
| C68 | `Verif.Props.C68_unregister_partial` | choice, Quot.sound, propext |
| C69 | `Verif.Props.C69_c_api_agrees` | propext |
| C70 | `Verif.Props.C70_circle_game` | choice, Quot.sound, propext |
| C71 | `Verif.Props.C71_negation` | choice, Quot.sound, propext |
| C71 | `Verif.Props.C71_color_word_partial` | choice, Quot.sound, propext |
| C72 | `Verif.Props.C72_disciplined_partial` | choice, Quot.sound, propext |
| C72 | `Verif.Props.C72_negation` | propext |
| C72 | `Verif.Props.C72_exact_partial` | choice, Quot.sound, propext |
| C72 | `Verif.Props.C72_vector_negation` | Quot.sound, propext |
| C72 | `Verif.Props.C72_stale_negation` | propext |
| C72 | `Verif.Props.C72_broken_methods_partial` | Quot.sound, propext |
| C72 | `Verif.Props.C72_double_free_partial` | choice, Quot.sound, propext |
| C72 | `Verif.Props.C72_shared_write_partial` | Quot.sound, propext |
| C73 | `Verif.Props.C73_no_leaks_partial` | choice, Quot.sound, propext |
| C73 | `Verif.Props.C73_negation` | Quot.sound, propext |
| C74 | `Verif.Props.C74_binary64_numbers` | choice, Quot.sound, propext |
| C74 | `Verif.Props.C74_as_f64_exact` | choice, Quot.sound, propext |
| C74 | `Verif.Props.C74_as_f64_order` | choice, Quot.sound, propext |
| C74 | `Verif.Props.C74_as_f32_nearest` | choice, Quot.sound, propext |
| C74 | `Verif.Props.C74_default` | choice, Quot.sound, propext |
| C74 | `Verif.Props.C74_widening` | choice, Quot.sound, propext |
| C75 | `Verif.Props.C75_negation_not_seconds` | choice, Quot.sound, propext |
| C75 | `Verif.Props.C75_as_secs_f32_partial` | choice, Quot.sound, propext |
| C76 | `Verif.Props.C76_replaces_partial` | choice, Quot.sound, propext |
| C76 | `Verif.Props.C76_diverges_negation` | choice, Quot.sound, propext |
| C76 | `Verif.Props.C76_negation` | choice, Quot.sound, propext |
| C77 | `Verif.Props.C77_refines_database` | choice, Quot.sound, propext |
| C77 | `Verif.Props.C77_refines_from_any_point` | choice, Quot.sound, propext |
| C77 | `Verif.Props.C77_database_decides` | Quot.sound, propext |
| C78 | `Verif.Props.C78_savable_again` | choice, Quot.sound, propext |
| C78 | `Verif.Props.C78_forever` | choice, Quot.sound, propext |
| C79 | `Verif.Props.C79_never_written_partial` | Quot.sound, propext |
| C79 | `Verif.Props.C79_negation_demo_setter` | choice, Quot.sound, propext |
| C79 | `Verif.Props.C79_demo_getter_partial` | choice, Quot.sound, propext |
| C80 | `Verif.Props.C80_keep_alive_partial` | choice, Quot.sound, propext |
| C80 | `Verif.Props.C80_exact_partial` | choice, Quot.sound, propext |
| C80 | `Verif.Props.C80_keep_all_partial` | choice, Quot.sound, propext |
| C80 | `Verif.Props.C80_dispose_all_partial` | choice, Quot.sound, propext |
| C80 | `Verif.Props.C80_negation` | Quot.sound, propext |
| C80 | `Verif.Props.C80_unkept_negation` | Quot.sound, propext |
| C81 | `Verif.Props.C81_not_lost_partial` | choice, Quot.sound, propext |
| C81 | `Verif.Props.C81_exact_negation` | choice, Quot.sound, propext |
| C81 | `Verif.Props.C81_double_free_negation` | propext |
| C81 | `Verif.Props.C81_serial_partial` | choice, Quot.sound, propext |
| C81 | `Verif.Props.C81_borrower_partial` | Quot.sound, propext |
| C82 | `Verif.Props.C82_values` | choice, Quot.sound, propext |
| C82 | `Verif.Props.C82_returns_or_panics` | choice, Quot.sound, propext |
| C82 | `Verif.Props.C82_all_return` | choice, Quot.sound, propext |
| C82 | `Verif.Props.C82_state_readback` | choice, Quot.sound, propext |
| C82 | `Verif.Props.C82_state_initial` | choice, Quot.sound, propext |
| C82 | `Verif.Props.C82_keyframe_immutable` | choice, Quot.sound, propext |
| C82 | `Verif.Props.C82_vector_bounds` | choice, Quot.sound, propext |
| C82 | `Verif.Props.C82_vector_element` | choice, Quot.sound, propext |
| C82 | `Verif.Props.C82_is_main` | choice, Quot.sound, propext |
| C82 | `Verif.Props.C82_example_id` | choice, Quot.sound, propext |
| C82 | `Verif.Props.C82_ball_id` | choice, Quot.sound, propext |
| C82 | `Verif.Props.C82_example_field_id` | choice, Quot.sound, propext |
| C82 | `Verif.Props.C82_ball_field_id` | choice, Quot.sound, propext |
| C83 | `Verif.Props.C83_bind_state_negation` | choice, Quot.sound, propext |
| C83 | `Verif.Props.C83_state_access_negation` | choice, Quot.sound, propext |
| C84 | `Verif.Props.C84_wrapped_refuses` | choice, Quot.sound, propext |
| C84 | `Verif.Props.C84_rbox_refuses` | choice, Quot.sound, propext |
| C84 | `Verif.Props.C84_wrapped_frame` | choice, Quot.sound, propext |
| C84 | `Verif.Props.C84_rbox_frame` | choice, Quot.sound, propext |
| C84 | `Verif.Props.C84_failures` | choice, Quot.sound, propext |
| C84 | `Verif.Props.C84_wrapped_complete` | choice, Quot.sound, propext |
| C84 | `Verif.Props.C84_rbox_complete` | choice, Quot.sound, propext |
| C84 | `Verif.Props.C84_wrapped_exact` | choice, Quot.sound, propext |
| C84 | `Verif.Props.C84_wrapped_succeeds` | choice, Quot.sound, propext |
| C85 | `Verif.Props.C85_copied_partial` | choice, Quot.sound, propext |
| C85 | `Verif.Props.C85_own_library_partial` | choice, Quot.sound, propext |
| C85 | `Verif.Props.C85_default_negation` | choice, Quot.sound, propext |
| C85 | `Verif.Props.C85_dot_negation` | choice, Quot.sound, propext |
| C85 | `Verif.Props.C85_dot_main_negation` | choice, Quot.sound, propext |
| C85 | `Verif.Props.C85_project_dir_partial` | choice, Quot.sound, propext |
| C85 | `Verif.Props.C85_publish_negation` | choice, Quot.sound, propext |
| C86 | `Verif.Props.C86_iter_both_ends` | choice, Quot.sound, propext |
| C86 | `Verif.Props.C86_iter_mut` | choice, Quot.sound, propext |
| C87 | `Verif.Props.C87_nested_error` | choice, Quot.sound, propext |
| C87 | `Verif.Props.C87_nested_error_slow` | choice, Quot.sound, propext |
| C87 | `Verif.Props.C87_nested_never_ahead` | choice, Quot.sound, propext |
| C87 | `Verif.Props.C87_nested_offsets_add` | choice, Quot.sound, propext |
| C87 | `Verif.Props.C87_nested_order` | choice, Quot.sound, propext |
| C88 | `Verif.Props.C88_state_last_write` | choice, Quot.sound, propext |
| C88 | `Verif.Props.C88_channel_last_write` | choice, Quot.sound, propext |
| C89 | `Verif.Props.C89_frames_partial` | Quot.sound, propext |
| C89 | `Verif.Props.C89_whole_frames_partial` | Quot.sound, propext |
| C89 | `Verif.Props.C89_not_ready_partial` | Quot.sound, propext |
| C89 | `Verif.Props.C89_negation` | Quot.sound, propext |
| C90 | `Verif.Props.C90_in_order_partial` | choice, Quot.sound, propext |
| C90 | `Verif.Props.C90_negation` | choice, Quot.sound, propext |
| C91 | `Verif.Props.C91_swap_breaks_fields_negation` | propext |
| C91 | `Verif.Props.C91_swap_exact` | propext |
| C91 | `Verif.Props.C91_swaps_unseen_by_calls` | choice, Quot.sound, propext |
| C91 | `Verif.Props.C91_swaps_only_permute_partial` | choice, Quot.sound, propext |
| C91 | `Verif.Props.C91_without_swaps` | propext |
| C91 | `Verif.Props.C91_realm_kind_negation` | none |
| C91 | `Verif.Props.C91_realm_kind_partial` | choice, Quot.sound, propext |
| C92 | `Verif.Props.C92_debug_is_the_model` | choice, Quot.sound, propext |
| C92 | `Verif.Props.C92_release_agrees_partial` | choice, Quot.sound, propext |
| C92 | `Verif.Props.C92_release_tween_partial` | choice, Quot.sound, propext |
| C92 | `Verif.Props.C92_release_nth_partial` | choice, Quot.sound, propext |
| C92 | `Verif.Props.C92_release_serializer_partial` | choice, Quot.sound, propext |
| C92 | `Verif.Props.C92_negation` | choice, Quot.sound, propext |
| C93 | `Verif.Props.C93_seed_invisible_partial` | Quot.sound, propext |
| C93 | `Verif.Props.C93_same_up_to_renaming_partial` | choice, Quot.sound, propext |
| C93 | `Verif.Props.C93_seed_visible_negation` | Quot.sound, propext |
| C93 | `Verif.Props.C93_opaque_programs_partial` | choice, Quot.sound, propext |
| C94 | `Verif.Props.C94_word_arena_agrees` | choice, Quot.sound, propext |
| C94 | `Verif.Props.C94_bound_is_sharp` | choice, Quot.sound, propext |
| C94 | `Verif.Props.C94_baseline_generations` | choice, Quot.sound, propext |
| C95 | `Verif.Props.C95_each_send_answered_once` | Quot.sound, propext |
| C95 | `Verif.Props.C95_order` | Quot.sound, propext |
| C95 | `Verif.Props.C95_everything_is_delivered` | choice, Quot.sound, propext |
| C95 | `Verif.Props.C95_bounded` | Quot.sound, propext |
| C95 | `Verif.Props.C95_shared_engine_is_the_engine` | choice, Quot.sound, propext |
| C95 | `Verif.Props.C95_after_the_engine` | Quot.sound, propext |
| C96 | `Verif.Props.C96_isolation_partial` | choice, Quot.sound, propext |
| C96 | `Verif.Props.C96_verdict_partial` | choice, Quot.sound, propext |
| C96 | `Verif.Props.C96_negation` | Quot.sound, propext |
| C97 | `Verif.Props.C97_enough_room_partial` | choice, Quot.sound, propext |
| C97 | `Verif.Props.C97_negation_waits_for_ever` | Quot.sound, propext |
| C97 | `Verif.Props.C97_negation` | Quot.sound, propext |
| C98 | `Verif.Props.C98_storage_partial` | choice, Quot.sound, propext |
| C98 | `Verif.Props.C98_negation` | choice, Quot.sound, propext |
| C99 | `Verif.Props.C99_looks_no_further` | choice, Quot.sound, propext |
| C99 | `Verif.Props.C99_depends_on_the_items` | Quot.sound, propext |
| C99 | `Verif.Props.C99_all_or_nothing` | choice, Quot.sound, propext |
| C100 | `Verif.Props.C100_negation` | Quot.sound, propext |
| C100 | `Verif.Props.C100_panics_exactly_partial` | choice, Quot.sound, propext |
| C100 | `Verif.Props.C100_returns_partial` | choice, Quot.sound, propext |
| C101 | `Verif.Props.C101_reader_limit_partial` | choice, Quot.sound, propext |
| C101 | `Verif.Props.C101_exactly_partial` | choice, Quot.sound, propext |
| C101 | `Verif.Props.C101_thresholds_partial` | choice, Quot.sound, propext |
| C101 | `Verif.Props.C101_negation` | choice, Quot.sound, propext |
| C102 | `Verif.Props.C102_restore_deterministic` | choice, Quot.sound, propext |
| C102 | `Verif.Props.C102_finish_deterministic` | choice, Quot.sound, propext |
| C102 | `Verif.Props.C102_saves_agree` | choice, Quot.sound, propext |
| C102 | `Verif.Props.C102_orders_agree` | choice, Quot.sound, propext |
| C102 | `Verif.Props.C102_any_order` | choice, Quot.sound, propext |
| C103 | `Verif.Props.C103_serialize_iff_partial` | choice, Quot.sound, propext |
| C103 | `Verif.Props.C103_stuck_partial` | choice, Quot.sound, propext |
| C103 | `Verif.Props.C103_negation` | choice, Quot.sound, propext |
| C104 | `Verif.Props.C104_only_live_saved_partial` | choice, Quot.sound, propext |
| C104 | `Verif.Props.C104_ghosts_partial` | choice, Quot.sound, propext |
| C104 | `Verif.Props.C104_negation` | choice, Quot.sound, propext |
| C105 | `Verif.Props.C105_leftovers_partial` | choice, Quot.sound, propext |
| C105 | `Verif.Props.C105_negation` | Quot.sound, propext |
| C106 | `Verif.Props.C106_reset_partial` | choice, Quot.sound, propext |
| C106 | `Verif.Props.C106_only_default_partial` | choice, Quot.sound, propext |
| C106 | `Verif.Props.C106_negation` | choice, Quot.sound, propext |
| C107 | `Verif.Props.C107_buffer_iff_partial` | choice, Quot.sound, propext |
| C107 | `Verif.Props.C107_saved_not_restored_partial` | choice, Quot.sound, propext |
| C107 | `Verif.Props.C107_negation` | choice, Quot.sound, propext |
| C108 | `Verif.Props.C108_no_garbage` | choice, Quot.sound, propext |
| C108 | `Verif.Props.C108_exactly_the_fields` | choice, Quot.sound, propext |
| C109 | `Verif.Props.C109_handles_partial` | choice, Quot.sound, propext |
| C109 | `Verif.Props.C109_negation` | choice, Quot.sound, propext |
| C109 | `Verif.Props.C109_negation_confused` | Quot.sound, propext |
| C110 | `Verif.Props.C110_start_partial` | choice, Quot.sound, propext |
| C110 | `Verif.Props.C110_past_the_end_partial` | choice, Quot.sound, propext |
| C110 | `Verif.Props.C110_negation` | choice, Quot.sound, propext |
| C111 | `Verif.Props.C111_whole` | choice, Quot.sound, propext |
| C111 | `Verif.Props.C111_transparent` | choice, Quot.sound, propext |
| C111 | `Verif.Props.C111_all_stand` | propext |
| C111 | `Verif.Props.C111_life` | choice, Quot.sound, propext |
| C111 | `Verif.Props.C111_warps_show` | choice, Quot.sound, propext |
| C112 | `Verif.Props.C112_independent_calls_commute` | choice, Quot.sound, propext |
| C112 | `Verif.Props.C112_overwrites_in_any_order` | choice, Quot.sound, propext |
| C112 | `Verif.Props.C112_collision_register` | choice, Quot.sound, propext |
| C112 | `Verif.Props.C112_collision_write` | propext |
| C112 | `Verif.Props.C112_collision_remove` | choice, Quot.sound, propext |
| C113 | `Verif.Props.C113_separate_parts` | choice, Quot.sound, propext |
| C113 | `Verif.Props.C113_programs_do_not_interfere` | choice, Quot.sound, propext |
| C113 | `Verif.Props.C113_any_schedule` | choice, Quot.sound, propext |
| C113 | `Verif.Props.C113_conditions_needed` | propext |
| C114 | `Verif.Props.C114_part_transparent` | choice, Quot.sound, propext |
| C114 | `Verif.Props.C114_left_out_shows` | choice, Quot.sound, propext |
| C115 | `Verif.Props.C115_split` | choice, Quot.sound, propext |
| C116 | `Verif.Props.C116_exactly` | choice, Quot.sound, propext |
| C116 | `Verif.Props.C116_choices_do_not_matter` | choice, Quot.sound, propext |
| C117 | `Verif.Props.C117_run_again_partial` | Quot.sound, propext |
| C117 | `Verif.Props.C117_negation` | Quot.sound, propext |
| C118 | `Verif.Props.C118_no_damage` | Quot.sound, propext |
| C118 | `Verif.Props.C118_completed` | Quot.sound, propext |
| C119 | `Verif.Props.C119_links_partial` | Quot.sound, propext |
| C119 | `Verif.Props.C119_negation` | propext |
| C120 | `Verif.Props.C120_round_trip_test` | choice, Quot.sound, propext |
| C120 | `Verif.Props.C120_every_bit` | choice, Quot.sound, propext |
| C121 | `Verif.Props.C121_exact_partial` | choice, Quot.sound, propext |
| C121 | `Verif.Props.C121_unshared_partial` | choice, Quot.sound, propext |
| C121 | `Verif.Props.C121_bound_partial` | choice, Quot.sound, propext |
| C121 | `Verif.Props.C121_multiplied_partial` | choice, Quot.sound, propext |
| C121 | `Verif.Props.C121_tight_partial` | choice, Quot.sound, propext |
| C121 | `Verif.Props.C121_negation` | choice, Quot.sound, propext |
| C121 | `Verif.Props.C121_saved_partial` | choice, Quot.sound, propext |
| C122 | `Verif.Props.C122_links_replaced` | choice, Quot.sound, propext |
| C122 | `Verif.Props.C122_completes_iff` | choice, Quot.sound, propext |
| C123 | `Verif.Props.C123_only_listed_partial` | choice, Quot.sound, propext |
| C123 | `Verif.Props.C123_in_general_partial` | choice, Quot.sound, propext |
| C123 | `Verif.Props.C123_empty_entry_partial` | choice, Quot.sound, propext |
| C123 | `Verif.Props.C123_negation` | choice, Quot.sound, propext |
| C124 | `Verif.Props.C124_run_again` | choice, Quot.sound, propext |
| C125 | `Verif.Props.C125_shipped_partial` | choice, Quot.sound, propext |
| C125 | `Verif.Props.C125_negation` | choice, Quot.sound, propext |
| C126 | `Verif.Props.C126_exact_partial` | choice, Quot.sound, propext |
| C126 | `Verif.Props.C126_once_partial` | choice, Quot.sound, propext |
| C126 | `Verif.Props.C126_number_partial` | choice, Quot.sound, propext |
| C126 | `Verif.Props.C126_negation` | choice, Quot.sound, propext |
| C127 | `Verif.Props.C127_files_are_faithful` | choice, Quot.sound, propext |
| C127 | `Verif.Props.C127_failures_are_faithful` | choice, Quot.sound, propext |
| C127 | `Verif.Props.C127_file_restores` | choice, Quot.sound, propext |
| C127 | `Verif.Props.C127_exactly` | choice, Quot.sound, propext |
| C128 | `Verif.Props.C128_cut_files` | choice, Quot.sound, propext |
| C128 | `Verif.Props.C128_trailing_bytes` | choice, Quot.sound, propext |
| C128 | `Verif.Props.C128_open_never_panics` | choice, Quot.sound, propext |
| C128 | `Verif.Props.C128_missing_end` | choice, Quot.sound, propext |
| C128 | `Verif.Props.C128_missing_words` | choice, Quot.sound, propext |
| C129 | `Verif.Props.C129_identifier_partial` | choice, Quot.sound, propext |
| C129 | `Verif.Props.C129_negation` | choice, Quot.sound, propext |
| C130 | `Verif.Props.C130_file_size` | choice, Quot.sound, propext |
| C131 | `Verif.Props.C131_any_file_partial` | choice, Quot.sound, propext |
| C131 | `Verif.Props.C131_negation` | choice, Quot.sound, propext |
| C132 | `Verif.Props.C132_never_panics` | choice, Quot.sound, propext |
| C132 | `Verif.Props.C132_same_schema` | choice, Quot.sound, propext |
| C133 | `Verif.Props.C133_read_in_part` | choice, Quot.sound, propext |
| C134 | `Verif.Props.C134_reads_inside` | choice, Quot.sound, propext |
| C134 | `Verif.Props.C134_restored_reads_inside` | choice, Quot.sound, propext |
| C135 | `Verif.Props.C135_file_bounds_contents` | choice, Quot.sound, propext |
| C136 | `Verif.Props.C136_restart` | choice, Quot.sound, propext |
| C136 | `Verif.Props.C136_life` | choice, Quot.sound, propext |
| C137 | `Verif.Props.C137_setup_again_partial` | choice, Quot.sound, propext |
| C137 | `Verif.Props.C137_negation` | propext |
| C138 | `Verif.Props.C138_equal_files` | choice, Quot.sound, propext |
| C138 | `Verif.Props.C138_equal_files_exactly` | choice, Quot.sound, propext |
| C138 | `Verif.Props.C138_same_files` | choice, Quot.sound, propext |
| C139 | `Verif.Props.C139_no_drift` | choice, Quot.sound, propext |
| C139 | `Verif.Props.C139_same_file_again` | choice, Quot.sound, propext |
| C140 | `Verif.Props.C140_seeds` | choice, Quot.sound, propext |
| C140 | `Verif.Props.C140_restarts` | choice, Quot.sound, propext |
| C141 | `Verif.Props.C141_built_savable` | choice, Quot.sound, propext |
| C141 | `Verif.Props.C141_built_restores` | choice, Quot.sound, propext |
