# Axioms of the property theorems

Generated by `tools/axioms.py` from the output of `#print axioms`. No theorem depends on anything
but Lean's three standard axioms.

## none

* `Uecho.C12_fresh`
* `Uecho.C12_named`
* `Uecho.C67_builders`
* `Uecho.Closing.C123_send_false`
* `Uecho.Closing.C123_stop_false`

## propext

* `Uecho.Adding.C124_lost_false`
* `Uecho.Adding.C124_raises_false`
* `Uecho.Adding.C124_torn_false`
* `Uecho.C06_only_parser_error_false`
* `Uecho.C08_depends_on_bytes_false`
* `Uecho.C112_profile`
* `Uecho.C115_late_false`
* `Uecho.C11_builder`
* `Uecho.C120_distinct_partial`
* `Uecho.C129_unchanged_partial`
* `Uecho.C130_shared_false`
* `Uecho.C134_unknown_false`
* `Uecho.C142_handler_false`
* `Uecho.C17_write_esv_false`
* `Uecho.C19_never_raises_false`
* `Uecho.C20_notification_request_false`
* `Uecho.C21_acknowledge_false`
* `Uecho.C25_predicates`
* `Uecho.C32_refused`
* `Uecho.C33_set_code_object_false`
* `Uecho.C33_set_code_object_partial`
* `Uecho.C34_setters_false`
* `Uecho.C35_built_message`
* `Uecho.C35_datagram_false`
* `Uecho.C55_dead_partial`
* `Uecho.C55_receiver_survives_false`
* `Uecho.C70_atomic_false`
* `Uecho.C70_reads_own_writes_false`
* `Uecho.C71_start_cleans_up_false`
* `Uecho.C73_announce_result_false`
* `Uecho.C73_announce_result_refused_false`
* `Uecho.C89_malformed`
* `Uecho.Closing.C123_uninterrupted_partial`
* `Uecho.Mapping.C135_lost_false`
* `Uecho.Mapping.C135_raises_false`

## propext, Classical.choice, Quot.sound

* `Uecho.Adding.C124_alone_partial`
* `Uecho.Adding.C124_lists_partial`
* `Uecho.Adding.C124_table_partial`
* `Uecho.C01_from_int`
* `Uecho.C02_to_int`
* `Uecho.C03_round_trip`
* `Uecho.C03_round_trip_identity`
* `Uecho.C04_to_bytes_total`
* `Uecho.C05_parser_complete`
* `Uecho.C05_parser_sound`
* `Uecho.C06_outcomes_partial`
* `Uecho.C07_no_prefix`
* `Uecho.C08_depends_on_bytes_partial`
* `Uecho.C09_hex`
* `Uecho.C100_reports`
* `Uecho.C101_obeys_partial`
* `Uecho.C101_stuck_false`
* `Uecho.C102_refuses_false`
* `Uecho.C103_empty_false`
* `Uecho.C103_survives_partial`
* `Uecho.C103_unknown_false`
* `Uecho.C104_checked`
* `Uecho.C104_object_false`
* `Uecho.C104_sections_false`
* `Uecho.C104_sends_partial`
* `Uecho.C105_numbers_partial`
* `Uecho.C105_odd_false`
* `Uecho.C106_line_partial`
* `Uecho.C106_sections_false`
* `Uecho.C107_reads`
* `Uecho.C108_lists`
* `Uecho.C108_search`
* `Uecho.C109_only`
* `Uecho.C109_session`
* `Uecho.C10_copy`
* `Uecho.C10_eq`
* `Uecho.C10_equivalence`
* `Uecho.C110_own_partial`
* `Uecho.C110_wrap_false`
* `Uecho.C111_again_false`
* `Uecho.C111_reset_partial`
* `Uecho.C112_names_partial`
* `Uecho.C112_unknown_false`
* `Uecho.C113_new_code_partial`
* `Uecho.C113_rest_false`
* `Uecho.C114_bench`
* `Uecho.C114_search`
* `Uecho.C115_controller_partial`
* `Uecho.C115_late_partial`
* `Uecho.C115_node_partial`
* `Uecho.C115_object_partial`
* `Uecho.C115_told_partial`
* `Uecho.C116_answer`
* `Uecho.C116_answered`
* `Uecho.C116_order`
* `Uecho.C116_state`
* `Uecho.C117_answers`
* `Uecho.C117_dies_out`
* `Uecho.C117_no_new_requests`
* `Uecho.C117_rest`
* `Uecho.C117_silent`
* `Uecho.C118_only`
* `Uecho.C118_shared`
* `Uecho.C120_identity_partial`
* `Uecho.C120_manufacturer_false`
* `Uecho.C121_all_false`
* `Uecho.C121_each_partial`
* `Uecho.C122_heard_partial`
* `Uecho.C122_never_false`
* `Uecho.C122_program_partial`
* `Uecho.C122_quiet_false`
* `Uecho.C125_invariant`
* `Uecho.C125_profile`
* `Uecho.C125_rest`
* `Uecho.C125_shape`
* `Uecho.C127_itself_false`
* `Uecho.C127_unheard_partial`
* `Uecho.C129_empty_false`
* `Uecho.C129_map_false`
* `Uecho.C129_node_partial`
* `Uecho.C12_classification`
* `Uecho.C12_relations`
* `Uecho.C131_again`
* `Uecho.C131_fresh`
* `Uecho.C131_mail`
* `Uecho.C132_device`
* `Uecho.C132_network`
* `Uecho.C133_controller`
* `Uecho.C133_device`
* `Uecho.C133_grows`
* `Uecho.C133_never_forgets`
* `Uecho.C134_transcript`
* `Uecho.C136_controller`
* `Uecho.C136_node`
* `Uecho.C137_long_false`
* `Uecho.C137_port_false`
* `Uecho.C137_port_partial`
* `Uecho.C137_received_partial`
* `Uecho.C138_announce_false`
* `Uecho.C138_answered`
* `Uecho.C138_calls_partial`
* `Uecho.C138_none`
* `Uecho.C138_others`
* `Uecho.C138_sends`
* `Uecho.C138_unfit`
* `Uecho.C139_calls`
* `Uecho.C139_life`
* `Uecho.C139_nodes`
* `Uecho.C139_state`
* `Uecho.C140_again_false`
* `Uecho.C140_counted_partial`
* `Uecho.C140_storm_false`
* `Uecho.C141_both`
* `Uecho.C141_calls`
* `Uecho.C141_reachable`
* `Uecho.C142_life`
* `Uecho.C142_outcome`
* `Uecho.C142_secret`
* `Uecho.C142_silent`
* `Uecho.C143_answer`
* `Uecho.C143_state`
* `Uecho.C144_bound_partial`
* `Uecho.C144_three_partial`
* `Uecho.C144_version_false`
* `Uecho.C145_lamp_false`
* `Uecho.C145_moved_false`
* `Uecho.C145_reachable_partial`
* `Uecho.C145_shared_false`
* `Uecho.C146_collected_partial`
* `Uecho.C146_exit_false`
* `Uecho.C146_failed_partial`
* `Uecho.C146_forgotten_false`
* `Uecho.C146_gone_partial`
* `Uecho.C146_stopped_partial`
* `Uecho.C147_controller_false`
* `Uecho.C147_machine_partial`
* `Uecho.C147_same_partial`
* `Uecho.C147_standard_false`
* `Uecho.C147_standard_partial`
* `Uecho.C148_forgets_false`
* `Uecho.C148_intended_partial`
* `Uecho.C148_machine_partial`
* `Uecho.C148_value_false`
* `Uecho.C149_erased_false`
* `Uecho.C149_exists_partial`
* `Uecho.C149_phantom_false`
* `Uecho.C149_reading_false`
* `Uecho.C150_device`
* `Uecho.C150_network`
* `Uecho.C150_same`
* `Uecho.C151_standard_false`
* `Uecho.C151_standard_partial`
* `Uecho.C152_only_writers`
* `Uecho.C152_sent`
* `Uecho.C153_no_invention`
* `Uecho.C154_polite_partial`
* `Uecho.C154_use_false`
* `Uecho.C155_fresh`
* `Uecho.C156_nothing_learned_false`
* `Uecho.C156_was_so_partial`
* `Uecho.C156_wrong_object_false`
* `Uecho.C157_answered_partial`
* `Uecho.C157_unheard_false`
* `Uecho.C158_found_partial`
* `Uecho.C158_not_found_false`
* `Uecho.C159_done_partial`
* `Uecho.C159_request_partial`
* `Uecho.C160_kept`
* `Uecho.C160_others_partial`
* `Uecho.C160_own_writes_partial`
* `Uecho.C160_repeated_false`
* `Uecho.C161_snapshot_partial`
* `Uecho.C161_step_partial`
* `Uecho.C162_refused_partial`
* `Uecho.C163_order_partial`
* `Uecho.C164_one_changing`
* `Uecho.C164_one_property`
* `Uecho.C165_undisturbed`
* `Uecho.C166_numbers_needed`
* `Uecho.C166_one_at_a_time`
* `Uecho.C166_one_needed`
* `Uecho.C167_done`
* `Uecho.C167_one_at_a_time`
* `Uecho.C167_order`
* `Uecho.C167_refused`
* `Uecho.C167_snapshot`
* `Uecho.C167_step`
* `Uecho.C168_done`
* `Uecho.C168_goes_on`
* `Uecho.C169_answer`
* `Uecho.C169_read`
* `Uecho.C169_steady`
* `Uecho.C16_write`
* `Uecho.C170_open_needed`
* `Uecho.C170_read_back`
* `Uecho.C171_open_needed`
* `Uecho.C171_program_sets`
* `Uecho.C172_alone`
* `Uecho.C172_confirmed`
* `Uecho.C173_open_needed`
* `Uecho.C173_same_again`
* `Uecho.C18_write_read`
* `Uecho.C19_never_raises_partial`
* `Uecho.C23_write_protection`
* `Uecho.C24_refines_map`
* `Uecho.C25_named`
* `Uecho.C25_set_get`
* `Uecho.C26_total`
* `Uecho.C27_short_maps`
* `Uecho.C28_long_maps_false`
* `Uecho.C28_long_maps_partial`
* `Uecho.C29_peer_maps_partial`
* `Uecho.C30_maps_follow`
* `Uecho.C30_maps_survive_requests`
* `Uecho.C31_readers`
* `Uecho.C31_refines`
* `Uecho.C32_components`
* `Uecho.C32_is_code`
* `Uecho.C32_set_code`
* `Uecho.C33_device_of_object_false`
* `Uecho.C33_get_object_false`
* `Uecho.C33_set_code_false`
* `Uecho.C34_setters_iff_partial`
* `Uecho.C34_setters_partial`
* `Uecho.C35_datagram_partial`
* `Uecho.C36_get_object`
* `Uecho.C37_manufacturers`
* `Uecho.C38_tables`
* `Uecho.C39_device_properties`
* `Uecho.C40_get_map_false`
* `Uecho.C40_get_map_partial`
* `Uecho.C41_conditional_rules_false`
* `Uecho.C41_rules_partial`
* `Uecho.C42_has_object`
* `Uecho.C42_int_tuple`
* `Uecho.C42_local`
* `Uecho.C43_any_number_partial`
* `Uecho.C43_instances_false`
* `Uecho.C43_instances_partial`
* `Uecho.C44_class_list_false`
* `Uecho.C44_class_number_false`
* `Uecho.C44_classes_partial`
* `Uecho.C45_discovery`
* `Uecho.C46_answered_false`
* `Uecho.C46_answered_partial`
* `Uecho.C47_parse_false`
* `Uecho.C47_parse_partial`
* `Uecho.C48_dispatch`
* `Uecho.C48_sent`
* `Uecho.C48_unknown`
* `Uecho.C49_no_effect`
* `Uecho.C49_no_effect_partial`
* `Uecho.C49_self_message_false`
* `Uecho.C50_is_enabled`
* `Uecho.C50_last`
* `Uecho.C50_only`
* `Uecho.C51_distinct`
* `Uecho.C51_kept`
* `Uecho.C51_kth_tid`
* `Uecho.C51_range`
* `Uecho.C53_history`
* `Uecho.C54_announce`
* `Uecho.C54_announce_unfit`
* `Uecho.C54_send`
* `Uecho.C54_send_unfit`
* `Uecho.C54_works`
* `Uecho.C55_in_order_partial`
* `Uecho.C55_long_message_false`
* `Uecho.C55_observer_false`
* `Uecho.C55_receiver_survives_partial`
* `Uecho.C56_delivered`
* `Uecho.C56_every_observer`
* `Uecho.C56_long_not_delivered`
* `Uecho.C56_one_meaning`
* `Uecho.C59_get_node`
* `Uecho.C59_nodes`
* `Uecho.C60_addition_partial`
* `Uecho.C60_twice_false`
* `Uecho.C60_updates_false`
* `Uecho.C61_device_false`
* `Uecho.C61_profile_partial`
* `Uecho.C62_raises_false`
* `Uecho.C62_raises_partial`
* `Uecho.C63_answers_false`
* `Uecho.C63_answers_partial`
* `Uecho.C67_search`
* `Uecho.C68_read`
* `Uecho.C68_write`
* `Uecho.C68_write_then_read`
* `Uecho.C69_exactly_partial`
* `Uecho.C69_goes_on_partial`
* `Uecho.C69_one_byte_false`
* `Uecho.C69_write_read_false`
* `Uecho.C70_answers`
* `Uecho.C70_reads_own_writes_partial`
* `Uecho.C73_announce_result_partial`
* `Uecho.C74_other_interfaces_false`
* `Uecho.C74_other_interfaces_partial`
* `Uecho.C75_same_tid_false`
* `Uecho.C75_same_tid_partial`
* `Uecho.C76_interfaces_false`
* `Uecho.C77_told`
* `Uecho.C78_get_node_false`
* `Uecho.C79_afterwards_partial`
* `Uecho.C79_not_yet_false`
* `Uecho.C80_before_partial`
* `Uecho.C80_raising_false`
* `Uecho.C81_kept_partial`
* `Uecho.C81_rediscovery_false`
* `Uecho.C82_lists_partial`
* `Uecho.C82_source_false`
* `Uecho.C83_registered`
* `Uecho.C83_remove`
* `Uecho.C83_silent`
* `Uecho.C84_calls`
* `Uecho.C84_isolated`
* `Uecho.C87_read_false`
* `Uecho.C87_write_partial`
* `Uecho.C88_search`
* `Uecho.C89_post_read`
* `Uecho.C89_post_write`
* `Uecho.C89_send`
* `Uecho.C89_send_property`
* `Uecho.C90_property_partial`
* `Uecho.C90_result_false`
* `Uecho.C90_result_partial`
* `Uecho.C91_found_false`
* `Uecho.C92_properties_partial`
* `Uecho.C92_reported_false`
* `Uecho.C93_called_partial`
* `Uecho.C93_lost_false`
* `Uecho.C98_anyone_false`
* `Uecho.C98_first_partial`
* `Uecho.C98_taken_partial`
* `Uecho.C99_confirmed_false`
* `Uecho.C99_plain_partial`
* `Uecho.Conc.C52_exclusive_partial`
* `Uecho.Conc.C64_own_partial`
* `Uecho.Conc.C65_returns`
* `Uecho.Conc.C66_survive_partial`
* `Uecho.Conc.C85_first_partial`
* `Uecho.Conc.C86_notified_partial`
* `Uecho.Conc.C86_woken_partial`
* `Uecho.Conc.C94_other_thread_partial`
* `Uecho.Conc.C94_own_thread_false`
* `Uecho.Finding.C128_alone_partial`
* `Uecho.Finding.C128_known_partial`
* `Uecho.Finding.C128_raises_false`
* `Uecho.Finding.C128_stored_partial`
* `Uecho.Finding.C128_table_partial`
* `Uecho.Iter.C95_alone_partial`
* `Uecho.Iter.C95_get_node_false`
* `Uecho.Iter.C95_get_node_partial`
* `Uecho.Iter.C95_nodes_false`
* `Uecho.Iter.C95_nodes_partial`
* `Uecho.Listen.C96_alone_partial`
* `Uecho.Listen.C96_called_partial`
* `Uecho.Listen.C96_endless_false`
* `Uecho.Listen.C96_skipped_false`
* `Uecho.Mapping.C135_alone`
* `Uecho.Mapping.C135_few`
* `Uecho.Mapping.C135_kept_partial`
* `Uecho.Mapping.C135_maps_partial`
* `Uecho.Shared.C97_copied_partial`
* `Uecho.Shared.C97_data_false`
* `Uecho.Shared.C97_raises_false`

## propext, Quot.sound

* `Uecho.C102_others_partial`
* `Uecho.C102_set_partial`
* `Uecho.C109_last_write`
* `Uecho.C112_copy`
* `Uecho.C112_user_false`
* `Uecho.C118_data`
* `Uecho.C118_last`
* `Uecho.C119_maps_false`
* `Uecho.C119_rest_partial`
* `Uecho.C119_status_partial`
* `Uecho.C126_address`
* `Uecho.C126_address_kept`
* `Uecho.C126_again`
* `Uecho.C126_as_new`
* `Uecho.C126_controller`
* `Uecho.C126_kept`
* `Uecho.C129_read_partial`
* `Uecho.C129_refused_partial`
* `Uecho.C130_apart_partial`
* `Uecho.C130_owner_false`
* `Uecho.C131_answered`
* `Uecho.C131_source`
* `Uecho.C134_asked_all`
* `Uecho.C134_asked_partial`
* `Uecho.C134_not_asked`
* `Uecho.C13_addressing`
* `Uecho.C142_handler`
* `Uecho.C145_alone_partial`
* `Uecho.C145_others_partial`
* `Uecho.C145_outcome_partial`
* `Uecho.C146_started`
* `Uecho.C14_mirror`
* `Uecho.C159_torn_false`
* `Uecho.C15_read`
* `Uecho.C15_read_policy`
* `Uecho.C161_torn_false`
* `Uecho.C162_torn_false`
* `Uecho.C163_torn_false`
* `Uecho.C165_object`
* `Uecho.C17_write_esv_partial`
* `Uecho.C20_notification_request_partial`
* `Uecho.C21_acknowledge_partial`
* `Uecho.C22_only_requests`
* `Uecho.C29_peer_maps_false`
* `Uecho.C42_address`
* `Uecho.C42_get_object`
* `Uecho.C42_objects`
* `Uecho.C51_every_message`
* `Uecho.C53_no_accumulation`
* `Uecho.C53_start_false`
* `Uecho.C53_start_false_servers`
* `Uecho.C53_start_true`
* `Uecho.C53_start_works`
* `Uecho.C53_stop`
* `Uecho.C53_stop_outside`
* `Uecho.C53_stopped`
* `Uecho.C54_send_nowhere`
* `Uecho.C57_all_addresses`
* `Uecho.C57_reported`
* `Uecho.C58_add_observer`
* `Uecho.C58_notify`
* `Uecho.C59_by_address`
* `Uecho.C59_by_name`
* `Uecho.C70_ends_only`
* `Uecho.C70_protected`
* `Uecho.C70_uninterrupted`
* `Uecho.C71_start_cleans_up_partial`
* `Uecho.C72_stop_in_callback_false`
* `Uecho.C72_stop_in_callback_partial`
* `Uecho.C76_interfaces_partial`
* `Uecho.C78_get_node_partial`
* `Uecho.C91_copy_partial`
* `Uecho.C91_handler_false`
* `Uecho.C93_forgotten_false`
* `Uecho.Closing.C123_after_partial`
* `Uecho.Closing.C123_finishes_partial`
* `Uecho.Closing.C123_one_wins_partial`
* `Uecho.Closing.C123_send_partial`
* `Uecho.Closing.C123_stop_partial`
* `Uecho.Closing.C123_undisturbed_partial`
* `Uecho.Conc.C52_overflow_false`
* `Uecho.Conc.C52_same_false`
* `Uecho.Conc.C52_sequence_partial`
* `Uecho.Conc.C64_late_false`
* `Uecho.Conc.C64_two_posters_false`
* `Uecho.Conc.C64_zero_false`
* `Uecho.Conc.C66_crash_false`
* `Uecho.Conc.C85_overwritten_false`
* `Uecho.Conc.C86_lost_false`
