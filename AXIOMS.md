# Axioms

Output of `#print axioms` for every theorem named in MANIFEST.json, written by tools/axioms.py.

## propext

* Verif.Event.C03_zero_delay_is_a_call
* Verif.Event.C03_zero_delay_leaves_queue
* Verif.Device.C08_violated_channel_six
* Verif.Xlat.C10_check_accepts_odd
* Verif.Xlat.C11_violated_seven_track
* Verif.Xlat.C12_violated_bracket
* Verif.Xlat.C12_round_trip_partial
* Verif.Card.C61_violated_plus
* Verif.Card.C61_high_bytes_out_of_table
* Verif.Tape.C30_write_refused
* Verif.Dev1442.C75_violated_save_second
* Verif.Dev1442.C79_violated_stacked
* Verif.Cons.C82_violated_status_survives
* Verif.Cons.C87_address_in_falls
* Verif.Cons.C87_stacked_asks
* Verif.Dev1442.C87_address_in_falls
* Verif.Dev1442.C87_stacked_asks
* Verif.Dasd.C89_violated_unmarked
* Verif.Lpr.C99_silent_partial
* Verif.Lpr.C99_reachable
* Verif.Mt.C107_reset_partial
* Verif.Cons.Race.C159_violated_line_feed
* Verif.Cons.Race.C159_prints_partial

## no axioms

* Verif.Device.C09_null_drive_faults
* Verif.Conf.C35_rejects_empty
* Verif.Conf.C68_violated_no_value
* Verif.Cons.Race.C50_violated_race
* Verif.Cpu50.C130_words

## propext, Quot.sound

* Verif.Event.C05_violated_cancel_behind_head
* Verif.Xlat.C10_parity_bit_makes_total_odd
* Verif.Xlat.C11_seven_track_always_even_partial
* Verif.Xlat.C11_bcd_injective
* Verif.Card.C13_ebcdic_round_trip
* Verif.Card.C13_ebcdic_injective
* Verif.Card.C14_invalid_columns
* Verif.Card.C14_table_bound
* Verif.Card.C15_printable_have_columns
* Verif.Card.C61_ascii_column_round_trip_partial
* Verif.Card.C20_violated_empty_with_file
* Verif.Tape.C31_violated_append
* Verif.Conf.C34_no_address
* Verif.Conf.C35_integer_partial
* Verif.Conf.C35_rejects
* Verif.Conf.C35_violated_overflow
* Verif.Conf.C37_violated_long_name
* Verif.Conf.C37_violated_open_quote
* Verif.Conf.C38_options_end_partial
* Verif.Conf.C69_name_partial
* Verif.Cpu30.C73_violated_interleaved
* Verif.Dev1442.C43_rejected_partial
* Verif.Dev1442.C43_violated_test_io
* Verif.Dev1442.C43_violated_select
* Verif.Dev1442.C44_disciplined
* Verif.Dev1442.C44_violated_write_byte
* Verif.Dev1442.C45_violated_busy
* Verif.Dev1442.C75_select_stacker_partial
* Verif.Dev1442.C75_violated_stacker_bit
* Verif.Dev1442.C78_sense
* Verif.Cons.C50_violated_full
* Verif.Cons.C50_violated_slow_channel
* Verif.Cons.C51_violated_command
* Verif.Cons.C80_disciplined
* Verif.Cons.C81_invalid_command_rejected
* Verif.Cons.C81_valid_command_accepted
* Verif.Cons.C82_reset_partial
* Verif.Cons.C83_read_line
* Verif.Cons.keys_printing
* Verif.Cons.C85_violated_count
* Verif.Cons.C86_violated_sense_never_answers
* Verif.Cons.C87_status_in_falls
* Verif.Cons.C87_service_in_falls
* Verif.Cons.C87_free_again
* Verif.Cons.C87_stacked_kept
* Verif.Dev1442.C87_status_in_falls
* Verif.Dev1442.C87_service_in_falls
* Verif.Dev1442.C87_free_again
* Verif.Dev1442.C87_stacked_kept
* Verif.Dasd.C40_violated_non_ascii
* Verif.Dasd.C41_seek_partial
* Verif.Dasd.C41_violated_unmarked
* Verif.Dasd.C41_violated_past_end
* Verif.Dasd.seek_keeps
* Verif.Dasd.C89_detach_partial
* Verif.Dasd.C90_reading_partial
* Verif.Lpr.C46_violated_stale_parity
* Verif.Lpr.C94_violated_top_of_form
* Verif.Lpr.C94_violated_one_line_short
* Verif.Lpr.C97_sense_partial
* Verif.Lpr.C97_violated_ending
* Verif.Lpr.C97_violated_not_ready
* Verif.Lpr.C98_space_partial
* Verif.Lpr.C99_violated_owner
* Verif.Lpr.C100_violated_event
* Verif.Mt.C49_violated_unit67
* Verif.Mt.C49_violated_absent
* Verif.Mt.C105_busy
* Verif.Mt.C105_violated_address
* Verif.Mt.C106_violated_rewind_lost
* Verif.Mt.C109_violated_not_ready
* Verif.Cpu50.C112_unmasked_request_seen
* Verif.Ctl2844.C118_control_storage
* Verif.Ctl2844.C118_next_word
* Verif.Ctl2844.C119_violated_write
* Verif.Ctl2844.C119_no_gate_partial
* Verif.Ctl2844.C121_reset_cycle_partial
* Verif.Cpu50.C125_words
* Verif.Sel50.C139_example
* Verif.Sel50.C139_example_end
* Verif.Sel50.ccw2c_begins
* Verif.Sel50.C140_example
* Verif.Sel50.C140_violated_cut
* Verif.Sel50.C140_violated_twice
* Verif.Sel50.C141_stop
* Verif.Sel50.C141_example
* Verif.Sel50.C142_hold
* Verif.Sel50.C142_fall
* Verif.Sel50.C142_once
* Verif.Sel50.C142_example
* Verif.Sel50.C143_alone_partial
* Verif.Sel50.C143_violated_release
* Verif.Sel50.C143_violated_write
* Verif.Sel50.C143_example
* Verif.Sel50.C144_violated_lost
* Verif.Sel50.C145_lines_partial
* Verif.Sel50.C145_status_partial
* Verif.Sel50.C145_example
* Verif.Sel50.C145_violated_late
* Verif.Sel50.C145_violated_late_example
* Verif.Sel50.C145_violated_tio
* Verif.Sel50.C146_violated
* Verif.Sel50.C146_wrong_partial
* Verif.Sel50.C146_example
* Verif.Sel50.C147_instruction_partial
* Verif.Sel50.C147_violated_chain
* Verif.Sel50.C147_example
* Verif.Ctl2841.C148_control_storage
* Verif.Ctl2841.C148_next_word
* Verif.Ctl2841.C154_cleared_partial
* Verif.Sel50.C155_violated_code
* Verif.Sel50.C155_violated_status
* Verif.Sel50.C155_ends_partial
* Verif.Sel50.C155_example
* Verif.Sel50.C156_violated_never_ends
* Verif.Sel50.C156_start
* Verif.Ctl2841.C157_parity
* Verif.Ctl2841.C157_history
* Verif.Ctl2844.C157_parity
* Verif.Ctl2844.C157_history
* Verif.S360.step_perform

## propext, Classical.choice, Quot.sound

* Verif.Event.C01_fires_exactly_once_when_due
* Verif.Event.C01_only_scheduled_events_fire
* Verif.Event.C02_firing_order
* Verif.Event.C04_no_use_after_free
* Verif.Event.C04_well_linked
* Verif.Event.C04_times_in_range
* Verif.Event.C04_terminates
* Verif.Event.C05_cancel_first_partial
* Verif.Event.C05_cancel_absent
* Verif.Event.C05_cancelled_never_fire_others_do_partial
* Verif.Event.C05_safe_set_no_use_after_free_partial
* Verif.Device.C06_history_matches_registry
* Verif.Device.C06_lookup_is_first_match
* Verif.Device.C06_registered_is_found
* Verif.Device.C07_removal
* Verif.Device.C07_removed_is_not_found
* Verif.Device.C08_channel_table_bounds_partial
* Verif.Device.C09_disk_steps
* Verif.Card.C15_text_character_round_trip
* Verif.Card.C16_binary_round_trip_partial
* Verif.Card.C16_violated_empty_deck
* Verif.Card.C17_ebcdic_round_trip_partial
* Verif.Card.C17_violated_empty_deck
* Verif.Card.C18_text_round_trip_partial
* Verif.Card.C18_violated_tilde
* Verif.Card.C19_octal_round_trip_partial
* Verif.Card.C19_violated_single_column
* Verif.Card.C20_hopper_is_fifo
* Verif.Card.C21_stacker_keeps_all
* Verif.Card.C21_stacked_cards_are_written
* Verif.Card.C22_blank_deck
* Verif.Card.C23_load_terminates_partial
* Verif.Card.C23_violated_short_binary
* Verif.Card.C24_load_in_bounds_partial
* Verif.Card.C24_violated_high_byte
* Verif.Tape.C25_tap_round_trip
* Verif.Tape.C26_e11_round_trip
* Verif.Tape.C27_p7b_round_trip_partial
* Verif.Tape.C27_violated_last_record
* Verif.Tape.C27_violated_first_frame
* Verif.Tape.C28_backward_then_forward_partial
* Verif.Tape.C29_marks_separate
* Verif.Tape.C30_file_protected
* Verif.Tape.C31_buffer_invisible_partial
* Verif.Tape.C32_rewind_to_first_partial
* Verif.Tape.C32_violated_after_eot
* Verif.Tape.C33_calls_in_bounds
* Verif.Tape.C33_load_point_reported
* Verif.Tape.C65_calls_return_partial
* Verif.Tape.tape_shows_items
* Verif.Card.C62_auto_round_trip_partial
* Verif.Card.C62_violated_blank_cards
* Verif.Card.C63_loaded_cards_readable_partial
* Verif.Card.C63_violated_raw_continuation
* Verif.Card.C64_binary_recognised_partial
* Verif.Conf.C34_address_partial
* Verif.Conf.C34_violated_long
* Verif.Conf.C36_options_partial
* Verif.Conf.C36_violated_doubled_quote
* Verif.Conf.C36_violated_every_doubled_quote
* Verif.Conf.C37_in_bounds_partial
* Verif.Conf.C37_violated_second_dash
* Verif.Conf.C38_violated_log_level
* Verif.Conf.C67_log_level
* Verif.Conf.C67_levels_distinct
* Verif.Conf.C68_index_partial
* Verif.Conf.C69_violated_stale_model
* Verif.Conf.C70_device_name_partial
* Verif.Cpu30.C53_binary_sum
* Verif.Cpu30.C53_logical
* Verif.Cpu30.C53_multi_byte
* Verif.Cpu30.C54_decimal_sum
* Verif.Cpu30.C54_multi_byte
* Verif.Cpu30.C54_violated_invalid_digit
* Verif.Cpu30.C55_registers_odd
* Verif.Cpu30.C55_even_parity_reported
* Verif.Cpu30.C56_address_in_range_partial
* Verif.Cpu30.C56_violated_branch_uv
* Verif.Cpu30.C57_store_blocked
* Verif.Cpu30.C57_read_write_blocked
* Verif.Cpu30.C57_store_allowed
* Verif.Cpu30.C57_channel_blocked
* Verif.Cpu30.C57_violated_location_cleared
* Verif.Cpu30.C58_reads_inside
* Verif.Cpu30.C58_full_size_partial
* Verif.Cpu30.C58_in_range_partial
* Verif.Cpu30.C58_violated_write_back
* Verif.Cpu30.C59_read_regenerates
* Verif.Cpu30.C59_request
* Verif.Cpu30.C71_only_destination
* Verif.Cpu30.C72_b_bus_checked
* Verif.Cpu30.C73_input_partial
* Verif.Cpu30.C73_output_partial
* Verif.Cpu30.C73_violated_count_zero
* Verif.Cpu30.C73_violated_last_address
* Verif.Cpu30.C73_violated_direction
* Verif.Cpu30.C74_successors
* Verif.Dev1442.C42_cards_conserved
* Verif.Dev1442.feed_spec
* Verif.Dev1442.step_spec
* Verif.Dev1442.C44_only_data_register_partial
* Verif.Dev1442.C44_violated_status_without_operational
* Verif.Dev1442.C45_reset_partial
* Verif.Dev1442.C76_read_card
* Verif.Dev1442.C76_read_last
* Verif.Dev1442.C76_read_deck
* Verif.Dev1442.C77_violated_last_card_stays
* Verif.Dev1442.C79_violated_feed_after_reset
* Verif.Cons.C50_fifo_partial
* Verif.Cons.C50_read_delivers_partial
* Verif.Cons.C51_filter_partial
* Verif.Cons.C51_violated_subnegotiation
* Verif.Cons.C52_only_high_characters_partial
* Verif.Cons.C52_violated
* Verif.Cons.C80_only_data_register_partial
* Verif.Cons.C84_violated_parity_bit
* Verif.Cons.C84_write_line_partial
* Verif.Dasd.C39_fresh_format
* Verif.Dasd.C40_label_partial
* Verif.Dasd.C40_violated_bracket
* Verif.Dasd.C41_violated_reached
* Verif.Dasd.C88_default_partial
* Verif.Dasd.C88_violated_named
* Verif.Dasd.C91_reading_track
* Verif.Dasd.C91_fresh_drive
* Verif.Dasd.C92_write_data
* Verif.Dasd.C92_violated_long_gap
* Verif.Dasd.C93_rewrite
* Verif.Dasd.C93_fresh_drive
* Verif.Lpr.C46_only_motion_partial
* Verif.Lpr.C46_motion_exact
* Verif.Lpr.C46_violated_line_67
* Verif.Lpr.C46_violated_space_key
* Verif.Lpr.C46_violated_no_paper
* Verif.Lpr.C46_violated_restore
* Verif.Lpr.C47_print_line_partial
* Verif.Lpr.C47_violated_blank_line
* Verif.Lpr.C96_decode_partial
* Verif.Lpr.C96_violated_hang
* Verif.Lpr.C98_write_partial
* Verif.Lpr.C98_job_partial
* Verif.Lpr.C99_lines_partial
* Verif.Lpr.C100_reset_partial
* Verif.Disasm.C60_text_partial
* Verif.Disasm.C60_reads
* Verif.Disasm.C60_complete
* Verif.Disasm.C60_unassigned
* Verif.Disasm.C60_violated_direct
* Verif.Disasm.C101_trace_partial
* Verif.Disasm.C101_injective
* Verif.Disasm.C101_violated_direct
* Verif.Mt.C48_no_ring_no_write
* Verif.Mt.C48_write_rejected
* Verif.Mt.C49_in_range_partial
* Verif.Mt.C102_violated_write
* Verif.Mt.C103_programs_partial
* Verif.Mt.sees
* Verif.Mt.C104_violated_blank
* Verif.Mt.C105_disciplined
* Verif.Mt.C105_history
* Verif.Mt.C107_violated_pending
* Verif.Mt.C108_sense
* Verif.Mt.perform_sense
* Verif.Cpu50.C110_instruction
* Verif.Cpu50.C110_instruction_quiet
* Verif.Cpu50.C111_program
* Verif.Cpu50.C111_example
* Verif.Cpu50.C112_precise
* Verif.Cpu50.C112_masked_requests_wait
* Verif.Cpu50.C113_violated_stale_instruction
* Verif.Cpu50.C113_violated_example
* Verif.Cpu50.C113_stored_instruction_partial
* Verif.Cpu50.C114_protected
* Verif.Cpu50.C115_own_word_partial
* Verif.Cpu50.C115_violated_512K
* Verif.Ctl2844.C116_violated_answers_others
* Verif.Ctl2844.C116_violated_swallows_select
* Verif.Ctl2844.C116_passes_partial
* Verif.Ctl2844.C117_violated_null
* Verif.Ctl2844.C117_attached_partial
* Verif.Ctl2844.C120_selection
* Verif.Ctl2844.C120_no_other_address
* Verif.Ctl2844.C121_violated_operational_in
* Verif.Ctl2844.C121_violated_after_selection
* Verif.Ctl2844.C122_transparent
* Verif.Ctl2844.C123_stays
* Verif.Ctl2844.C123_power_on
* Verif.Ctl2844.C124_violated_takes_poll
* Verif.Ctl2844.C124_violated_drops_address_in
* Verif.Ctl2844.C124_cleared_partial
* Verif.Cpu50.C125_supervisor_call
* Verif.Cpu50.C126_program_interruption
* Verif.Cpu50.C127_load_psw
* Verif.Cpu50.C128_system
* Verif.Cpu50.C128_call_returns
* Verif.Cpu50.C128_example
* Verif.Cpu50.C129_confined
* Verif.Cpu50.C130_timer_step
* Verif.Cpu50.C130_example
* Verif.Cpu50.C131_external
* Verif.Cpu50.C131_example
* Verif.Cpu50.C132_interleaving
* Verif.Cpu50.C132_example
* Verif.Cpu50.C133_control_storage
* Verif.Cpu50.C134_example
* Verif.Cpu50.C134_problem_program
* Verif.Cpu50.C135_protection
* Verif.Cpu50.C135_example
* Verif.Cpu50.C136_requests
* Verif.Cpu50.C136_example
* Verif.Cpu50.C137_set_key_partial
* Verif.Cpu50.C137_insert_key_partial
* Verif.Cpu50.C137_specification
* Verif.Cpu50.C137_violated_out_of_bounds
* Verif.Cpu50.C137_violated_example
* Verif.Cpu50.C137_example_set
* Verif.Cpu50.C137_example_insert
* Verif.Cpu50.C137_example_specification
* Verif.Cpu50.C138_in_bounds_partial
* Verif.Cpu50.C138_problem_program_partial
* Verif.Cpu50.C138_example
* Verif.Cpu50.C138_example_problem
* Verif.Sel50.C139_read_partial
* Verif.Sel50.C139_prefix_partial
* Verif.Sel50.C139_complete_partial
* Verif.Sel50.C140_prefix_partial
* Verif.Sel50.C140_write_partial
* Verif.Sel50.C140_exact_partial
* Verif.Sel50.C140_parity_partial
* Verif.Sel50.C141_count_partial
* Verif.Sel50.C141_atmost_partial
* Verif.Sel50.C141_exact_partial
* Verif.Sel50.C141_tested_partial
* Verif.Ctl2841.C149_power_on
* Verif.Ctl2841.C149_stays
* Verif.Ctl2841.example_idle
* Verif.Ctl2841.C150_selection
* Verif.Ctl2841.C150_no_other_address
* Verif.Ctl2841.C151_violated_drops_address_in
* Verif.Ctl2841.C151_violated_behind
* Verif.Ctl2841.C151_passes_partial
* Verif.Ctl2841.C152_violated_never_answers
* Verif.Ctl2841.C152_answers_partial
* Verif.Ctl2841.C153_violated_operational_in
* Verif.Ctl2841.C153_violated_after_selection
* Verif.Ctl2841.C153_reset_cycle_partial
* Verif.Ctl2841.C154_violated_takes_poll
* Verif.Ctl2841.C154_violated_drops_lines
* Verif.Cons.C158_violated_merged
* Verif.Cpu50.C160_execute_partial
* Verif.Cpu50.C160_execute_rr_partial
* Verif.Cpu50.C160_execute_balr_partial
* Verif.Cpu50.C160_violated_base_zero
* Verif.Cpu50.C161_load_multiple
* Verif.Cpu50.C161_store_multiple
* Verif.Cpu50.C162_operand_check
* Verif.Cpu50.C162_execute_odd
* Verif.Cpu50.C163_test_and_set
* Verif.Cpu50.C163_protected
* Verif.Cpu50.C164_set_system_mask
* Verif.Cpu50.C164_kept
* Verif.Ctl2844.C165_adder
* Verif.Ctl2844.C165_count
* Verif.Ctl2841.C165_adder
* Verif.Ctl2841.C165_count
* Verif.Cpu50.C166_execute_execute_partial
* Verif.Cpu50.C166_violated_addressing
* Verif.Cpu50.C167_shift_left
* Verif.Cpu50.C167_overflow
* Verif.Cpu50.C168_overflow
* Verif.Cpu50.C169_float_load
* Verif.Cpu50.C169_specification
* Verif.Cpu50.C170_load_short
* Verif.Cpu50.C170_specification
* Verif.Cpu50.C170_boundary
* Verif.Cpu50.C171_store_short
* Verif.Cpu50.C171_specification
* Verif.Cpu50.C171_protection
