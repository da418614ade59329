{
 "claims": [
  {
   "property": "C01",
   "status": "proved",
   "theorems": [
    "Verif.Event.C01_fires_exactly_once_when_due",
    "Verif.Event.C01_only_scheduled_events_fire"
   ],
   "note": "Pointer-level model; callbacks arbitrary. Negative delays excluded (they block the queue)."
  },
  {
   "property": "C02",
   "status": "proved",
   "theorems": [
    "Verif.Event.C02_firing_order"
   ],
   "note": ""
  },
  {
   "property": "C03",
   "status": "proved",
   "theorems": [
    "Verif.Event.C03_zero_delay_is_a_call",
    "Verif.Event.C03_zero_delay_leaves_queue"
   ],
   "note": ""
  },
  {
   "property": "C04",
   "status": "proved",
   "theorems": [
    "Verif.Event.C04_no_use_after_free",
    "Verif.Event.C04_well_linked",
    "Verif.Event.C04_times_in_range",
    "Verif.Event.C04_terminates"
   ],
   "note": ""
  },
  {
   "property": "C05",
   "status": "partial",
   "theorems": [
    "Verif.Event.C05_violated_cancel_behind_head",
    "Verif.Event.C05_cancel_first_partial",
    "Verif.Event.C05_cancel_absent",
    "Verif.Event.C05_cancelled_never_fire_others_do_partial",
    "Verif.Event.C05_safe_set_no_use_after_free_partial"
   ],
   "note": "The code violates the property when the match is not the first record (event.c line 125 does not unlink); negation proved with a witness, the rest proved for matches at the head and misses."
  },
  {
   "property": "C06",
   "status": "proved",
   "theorems": [
    "Verif.Device.C06_history_matches_registry",
    "Verif.Device.C06_lookup_is_first_match",
    "Verif.Device.C06_registered_is_found"
   ],
   "note": "For histories on channels 0-5 in which a device is not registered twice at once (the C code would make a cycle otherwise)."
  },
  {
   "property": "C07",
   "status": "proved",
   "theorems": [
    "Verif.Device.C07_removal",
    "Verif.Device.C07_removed_is_not_found",
    "Verif.Device.C06_history_matches_registry"
   ],
   "note": "Same histories as C06."
  },
  {
   "property": "C08",
   "status": "partial",
   "theorems": [
    "Verif.Device.C08_violated_channel_six",
    "Verif.Device.C08_channel_table_bounds_partial"
   ],
   "note": "Violated: addresses 0x600-0x7ff index past chan[6]; proved that exactly those do."
  },
  {
   "property": "C09",
   "status": "proved",
   "theorems": [
    "Verif.Device.C09_disk_steps",
    "Verif.Device.C09_null_drive_faults"
   ],
   "note": "For non-NULL drives; deleting NULL from an empty list faults (proved)."
  },
  {
   "property": "C10",
   "status": "proved",
   "theorems": [
    "Verif.Xlat.C10_parity_bit_makes_total_odd",
    "Verif.Xlat.C10_check_accepts_odd"
   ],
   "note": "Over all 256 byte values; tables are generated from the source."
  },
  {
   "property": "C11",
   "status": "partial",
   "theorems": [
    "Verif.Xlat.C11_violated_seven_track",
    "Verif.Xlat.C11_seven_track_always_even_partial",
    "Verif.Xlat.C11_bcd_injective"
   ],
   "note": "The code violates the property: the parity selector 0x100 is stored in a uint8_t, so both modes write even parity and the read check flags every frame. Negation and exact behaviour proved; the BCD table is injective."
  },
  {
   "property": "C12",
   "status": "partial",
   "theorems": [
    "Verif.Xlat.C12_violated_bracket",
    "Verif.Xlat.C12_round_trip_partial"
   ],
   "note": "Exactly the characters [ ] | do not survive; all others proved."
  },
  {
   "property": "C13",
   "status": "proved",
   "theorems": [
    "Verif.Card.C13_ebcdic_round_trip",
    "Verif.Card.C13_ebcdic_injective"
   ],
   "note": ""
  },
  {
   "property": "C14",
   "status": "proved",
   "theorems": [
    "Verif.Card.C14_invalid_columns",
    "Verif.Card.C14_table_bound"
   ],
   "note": ""
  },
  {
   "property": "C15",
   "status": "proved",
   "theorems": [
    "Verif.Card.C15_text_character_round_trip",
    "Verif.Card.C15_printable_have_columns"
   ],
   "note": ""
  },
  {
   "property": "C61",
   "status": "partial",
   "theorems": [
    "Verif.Card.C61_violated_plus",
    "Verif.Card.C61_ascii_column_round_trip_partial",
    "Verif.Card.C61_high_bytes_out_of_table"
   ],
   "note": "Violated for + [ \\ ] ^ { } and for bytes 0x80 and above (read past the table); all other printable characters proved."
  },
  {
   "property": "C16",
   "status": "partial",
   "theorems": [
    "Verif.Card.C16_binary_round_trip_partial",
    "Verif.Card.C16_violated_empty_deck"
   ],
   "note": "All non-empty decks; the empty deck comes back as one card (proved), so the property fails there."
  },
  {
   "property": "C17",
   "status": "partial",
   "theorems": [
    "Verif.Card.C17_ebcdic_round_trip_partial",
    "Verif.Card.C17_violated_empty_deck"
   ],
   "note": "All non-empty decks of EBCDIC columns; the empty deck comes back as one card (proved)."
  },
  {
   "property": "C18",
   "status": "partial",
   "theorems": [
    "Verif.Card.C18_text_round_trip_partial",
    "Verif.Card.C18_violated_tilde"
   ],
   "note": "All non-empty decks without control lines; a card ~ loses itself and the following card (proved)."
  },
  {
   "property": "C19",
   "status": "partial",
   "theorems": [
    "Verif.Card.C19_octal_round_trip_partial",
    "Verif.Card.C19_violated_single_column"
   ],
   "note": "All non-empty decks without cards punched in column 1 only; such cards come back as the 7/8/9 card (proved for all of them)."
  },
  {
   "property": "C20",
   "status": "proved",
   "theorems": [
    "Verif.Card.C20_hopper_is_fifo",
    "Verif.Card.C20_violated_empty_with_file"
   ],
   "note": "All histories of eight library calls. Emptying the hopper while an output file is open is excluded; that call reads past the storage (proved)."
  },
  {
   "property": "C21",
   "status": "proved",
   "theorems": [
    "Verif.Card.C21_stacker_keeps_all",
    "Verif.Card.C21_stacked_cards_are_written"
   ],
   "note": ""
  },
  {
   "property": "C22",
   "status": "proved",
   "theorems": [
    "Verif.Card.C22_blank_deck"
   ],
   "note": ""
  },
  {
   "property": "C23",
   "status": "partial",
   "theorems": [
    "Verif.Card.C23_load_terminates_partial",
    "Verif.Card.C23_violated_short_binary"
   ],
   "note": "Violated in binary format for every file of 1 to 159 bytes (proved). Terminates for all other files, except that automatic format with exactly 159 bytes is not covered."
  },
  {
   "property": "C24",
   "status": "partial",
   "theorems": [
    "Verif.Card.C24_load_in_bounds_partial",
    "Verif.Card.C24_violated_high_byte"
   ],
   "note": "Violated by any byte above 127 in text (proved). Otherwise proved, given that the never written last buffer byte is not a carriage return."
  },
  {
   "property": "C25",
   "status": "proved",
   "theorems": [
    "Verif.Tape.C25_tap_round_trip"
   ],
   "note": ""
  },
  {
   "property": "C26",
   "status": "proved",
   "theorems": [
    "Verif.Tape.C26_e11_round_trip"
   ],
   "note": ""
  },
  {
   "property": "C27",
   "status": "partial",
   "theorems": [
    "Verif.Tape.C27_p7b_round_trip_partial",
    "Verif.Tape.C27_violated_last_record",
    "Verif.Tape.C27_violated_first_frame"
   ],
   "note": "Violated: a record at the physical end of the file is never finished (proved for every record), a record of the single frame 017 reads back as a mark. Proved for tapes that end with a mark and records that do not begin with 017."
  },
  {
   "property": "C28",
   "status": "partial",
   "theorems": [
    "Verif.Tape.C28_backward_then_forward_partial"
   ],
   "note": "After any history, all formats. Missing: in P7B the forward read of a record with nothing behind it, which hangs (C27_violated_last_record)."
  },
  {
   "property": "C29",
   "status": "proved",
   "theorems": [
    "Verif.Tape.C29_marks_separate"
   ],
   "note": "After any history that does not end with a forward read (see C31_violated_append)."
  },
  {
   "property": "C30",
   "status": "proved",
   "theorems": [
    "Verif.Tape.C30_file_protected",
    "Verif.Tape.C30_write_refused"
   ],
   "note": ""
  },
  {
   "property": "C31",
   "status": "partial",
   "theorems": [
    "Verif.Tape.C31_buffer_invisible_partial",
    "Verif.Tape.C31_violated_append"
   ],
   "note": "Violated: a write directly after a read goes to the wrong place at a window boundary (proved for every record of 32760 bytes). Proved for all sequences without such a write."
  },
  {
   "property": "C32",
   "status": "partial",
   "theorems": [
    "Verif.Tape.C32_rewind_to_first_partial",
    "Verif.Tape.C32_violated_after_eot"
   ],
   "note": "Violated: after a reported end of tape reading forward reports end of tape again although rewound (proved). Proved for all other histories."
  },
  {
   "property": "C33",
   "status": "proved",
   "theorems": [
    "Verif.Tape.C33_calls_in_bounds",
    "Verif.Tape.C33_load_point_reported"
   ],
   "note": ""
  },
  {
   "property": "C65",
   "status": "partial",
   "theorems": [
    "Verif.Tape.C65_calls_return_partial",
    "Verif.Tape.C27_violated_last_record"
   ],
   "note": "TAP and E11: all call sequences. Violated in P7B."
  },
  {
   "property": "C66",
   "status": "partial",
   "theorems": [
    "Verif.Tape.tape_shows_items"
   ],
   "note": "All histories with OpsPre: no write directly after a read, no rewind after end of tape, and in P7B no forward read of a record with nothing behind it; each exclusion has a proved violation."
  },
  {
   "property": "C62",
   "status": "partial",
   "theorems": [
    "Verif.Card.C62_auto_round_trip_partial",
    "Verif.Card.C62_violated_blank_cards"
   ],
   "note": "Violated: 80 blank cards come back as one binary card. Proved for recognisable text cards and non-text cards."
  },
  {
   "property": "C63",
   "status": "partial",
   "theorems": [
    "Verif.Card.C63_loaded_cards_readable_partial",
    "Verif.Card.C63_violated_raw_continuation"
   ],
   "note": "Violated by a ~raw card continued on the next line. Proved for binary, EBCDIC and text without ~."
  },
  {
   "property": "C64",
   "status": "partial",
   "theorems": [
    "Verif.Card.C64_binary_recognised_partial"
   ],
   "note": "All non-empty decks."
  },
  {
   "property": "C34",
   "status": "partial",
   "theorems": [
    "Verif.Conf.C34_address_partial",
    "Verif.Conf.C34_no_address",
    "Verif.Conf.C34_violated_long"
   ],
   "note": "Numerals of up to 19 digits, reduced to the 16 bit address. Violated (array overrun) for every longer numeral."
  },
  {
   "property": "C35",
   "status": "partial",
   "theorems": [
    "Verif.Conf.C35_integer_partial",
    "Verif.Conf.C35_rejects",
    "Verif.Conf.C35_rejects_empty",
    "Verif.Conf.C35_violated_overflow"
   ],
   "note": "Up to 2147483647. Violated (signed overflow) for every larger numeral."
  },
  {
   "property": "C36",
   "status": "partial",
   "theorems": [
    "Verif.Conf.C36_options_partial",
    "Verif.Conf.C36_violated_doubled_quote",
    "Verif.Conf.C36_violated_every_doubled_quote"
   ],
   "note": "Whole lines of options with bare and quoted values. Violated: every doubled quote disappears."
  },
  {
   "property": "C37",
   "status": "partial",
   "theorems": [
    "Verif.Conf.C37_in_bounds_partial",
    "Verif.Conf.C34_violated_long",
    "Verif.Conf.C37_violated_long_name",
    "Verif.Conf.C37_violated_open_quote",
    "Verif.Conf.C37_violated_second_dash"
   ],
   "note": "Any sequence of parser calls on lines without quotes and without words of 20 characters. Violated for every long name, every long address, every open quote, and by a second dash (free of a stack record)."
  },
  {
   "property": "C38",
   "status": "partial",
   "theorems": [
    "Verif.Conf.C38_options_end_partial",
    "Verif.Conf.C38_violated_log_level"
   ],
   "note": "All option loops that reject an empty option. Violated: a comma on a log level line loops forever."
  },
  {
   "property": "C67",
   "status": "proved",
   "theorems": [
    "Verif.Conf.C67_log_level",
    "Verif.Conf.C67_levels_distinct"
   ],
   "note": ""
  },
  {
   "property": "C68",
   "status": "partial",
   "theorems": [
    "Verif.Conf.C68_index_partial",
    "Verif.Conf.C68_violated_no_value"
   ],
   "note": "Violated: a missing value selects entry 0 (for every list)."
  },
  {
   "property": "C69",
   "status": "partial",
   "theorems": [
    "Verif.Conf.C69_name_partial",
    "Verif.Conf.C69_violated_stale_model"
   ],
   "note": "Name and flags are independent of the previous line. Violated for the model letter."
  },
  {
   "property": "C70",
   "status": "partial",
   "theorems": [
    "Verif.Conf.C70_device_name_partial"
   ],
   "note": "Names and suffixes of up to 19 characters, each suffix at most once, dash before slash."
  },
  {
   "property": "C53",
   "status": "proved",
   "theorems": [
    "Verif.Cpu30.C53_binary_sum",
    "Verif.Cpu30.C53_logical",
    "Verif.Cpu30.C53_multi_byte"
   ],
   "note": ""
  },
  {
   "property": "C54",
   "status": "proved",
   "theorems": [
    "Verif.Cpu30.C54_decimal_sum",
    "Verif.Cpu30.C54_multi_byte",
    "Verif.Cpu30.C54_violated_invalid_digit"
   ],
   "note": "Proved for valid packed digits, as the property says. Beyond it: an invalid digit makes the simulator read outside its parity table."
  },
  {
   "property": "C55",
   "status": "proved",
   "theorems": [
    "Verif.Cpu30.C55_registers_odd",
    "Verif.Cpu30.C55_even_parity_reported"
   ],
   "note": "Odd parity of all results unless the microprogram forces even parity (diagnostic function), which is reported."
  },
  {
   "property": "C56",
   "status": "partial",
   "theorems": [
    "Verif.Cpu30.C56_address_in_range_partial",
    "Verif.Cpu30.C56_violated_branch_uv"
   ],
   "note": "All microprograms without the branch through U and V. Violated: that branch takes all eight bits of U."
  },
  {
   "property": "C57",
   "status": "partial",
   "theorems": [
    "Verif.Cpu30.C57_store_blocked",
    "Verif.Cpu30.C57_read_write_blocked",
    "Verif.Cpu30.C57_store_allowed",
    "Verif.Cpu30.C57_channel_blocked",
    "Verif.Cpu30.C57_violated_location_cleared"
   ],
   "note": "Stores, read-modify-write sequences and channel input. Violated: a protected location that was read and is then the target of a store microinstruction is left zero."
  },
  {
   "property": "C58",
   "status": "partial",
   "theorems": [
    "Verif.Cpu30.C58_reads_inside",
    "Verif.Cpu30.C58_full_size_partial",
    "Verif.Cpu30.C58_in_range_partial",
    "Verif.Cpu30.C58_violated_write_back"
   ],
   "note": "Reads always; everything on a 64K machine. Violated on every smaller machine by the write back."
  },
  {
   "property": "C59",
   "status": "proved",
   "theorems": [
    "Verif.Cpu30.C59_read_regenerates",
    "Verif.Cpu30.C59_request"
   ],
   "note": ""
  },
  {
   "property": "C71",
   "status": "proved",
   "theorems": [
    "Verif.Cpu30.C71_only_destination"
   ],
   "note": ""
  },
  {
   "property": "C72",
   "status": "proved",
   "theorems": [
    "Verif.Cpu30.C72_b_bus_checked"
   ],
   "note": ""
  },
  {
   "property": "C73",
   "status": "partial",
   "theorems": [
    "Verif.Cpu30.C73_input_partial",
    "Verif.Cpu30.C73_output_partial",
    "Verif.Cpu30.C73_violated_count_zero",
    "Verif.Cpu30.C73_violated_last_address",
    "Verif.Cpu30.C73_violated_direction",
    "Verif.Cpu30.C73_violated_interleaved"
   ],
   "note": "Uninterrupted transfers of the selected channel. Violated at count 0, at address FFFF, when another channel reads backward and when channel 0 splits a cycle of channel 1."
  },
  {
   "property": "C74",
   "status": "proved",
   "theorems": [
    "Verif.Cpu30.C74_successors"
   ],
   "note": ""
  },
  {
   "property": "C42",
   "status": "proved",
   "theorems": [
    "Verif.Dev1442.C42_cards_conserved",
    "Verif.Dev1442.feed_spec",
    "Verif.Dev1442.step_spec"
   ],
   "note": "For every history of bus calls, events and operator keys: the cards sent to each stacker, in order, followed by those still on their way are the cards there were, in order, with only holes added. The card at the punch may get holes (that is what punching is)."
  },
  {
   "property": "C43",
   "status": "partial",
   "theorems": [
    "Verif.Dev1442.C43_rejected_partial",
    "Verif.Dev1442.C43_violated_test_io",
    "Verif.Dev1442.C43_violated_select"
   ],
   "note": "Proved through the whole initial selection for all reserved bytes except those with low bits 000, which the code answers as test I/O, and select with bit 0x20, which it executes; both failures are proved for every state at rest."
  },
  {
   "property": "C44",
   "status": "partial",
   "theorems": [
    "Verif.Dev1442.C44_disciplined",
    "Verif.Dev1442.C44_only_data_register_partial",
    "Verif.Dev1442.C44_violated_write_byte",
    "Verif.Dev1442.C44_violated_status_without_operational"
   ],
   "note": "C44_disciplined covers every state, tag and bus value. Violations: a written byte whose parity bit is on is kept as a nine bit value and then indexes the 256 entry parity table; with hold out kept up after a read the device raises status in without operational in."
  },
  {
   "property": "C45",
   "status": "partial",
   "theorems": [
    "Verif.Dev1442.C45_reset_partial",
    "Verif.Dev1442.C45_violated_busy"
   ],
   "note": "Holds after every history unless the device was answering busy: then status in stays up."
  },
  {
   "property": "C75",
   "status": "partial",
   "theorems": [
    "Verif.Dev1442.C75_select_stacker_partial",
    "Verif.Dev1442.C75_violated_stacker_bit",
    "Verif.Dev1442.C75_violated_save_second"
   ],
   "note": "The code rejects the documented bit 0x40 and uses 0x20; the panel saves stacker 1 for both keys."
  },
  {
   "property": "C76",
   "status": "proved",
   "theorems": [
    "Verif.Dev1442.C76_read_card",
    "Verif.Dev1442.C76_read_last",
    "Verif.Dev1442.C76_read_deck"
   ],
   "note": "Selector channel (hold out up during the command). The delays of events are abstracted: each event fires when the channel has taken the previous byte."
  },
  {
   "property": "C77",
   "status": "partial",
   "theorems": [
    "Verif.Dev1442.C77_violated_last_card_stays",
    "Verif.Dev1442.feed_spec"
   ],
   "note": "Violated: the end of file flag is cleared before the feed, which then does nothing."
  },
  {
   "property": "C78",
   "status": "proved",
   "theorems": [
    "Verif.Dev1442.C78_sense"
   ],
   "note": ""
  },
  {
   "property": "C79",
   "status": "partial",
   "theorems": [
    "Verif.Dev1442.C79_violated_feed_after_reset",
    "Verif.Dev1442.C79_violated_stacked",
    "Verif.Dev1442.C45_reset_partial"
   ],
   "note": "The state itself is cleared (C45_reset_partial), but pending events and stacked status survive the reset."
  },
  {
   "property": "C50",
   "status": "partial",
   "theorems": [
    "Verif.Cons.C50_fifo_partial",
    "Verif.Cons.C50_read_delivers_partial",
    "Verif.Cons.C50_violated_full",
    "Verif.Cons.Race.C50_violated_race",
    "Verif.Cons.C50_violated_slow_channel"
   ],
   "note": "First in first out for every history while the buffer has room and socket and CPU take turns. Violated: a full buffer drops the rest of a packet; the shared counter is updated without a lock; a byte the channel has not fetched is overwritten by the next."
  },
  {
   "property": "C51",
   "status": "partial",
   "theorems": [
    "Verif.Cons.C51_filter_partial",
    "Verif.Cons.C51_violated_command",
    "Verif.Cons.C51_violated_subnegotiation"
   ],
   "note": "Proved for streams of characters, doubled escapes, breaks and negotiations, in any split into packets. Violated: a single command swallows the next character; subnegotiation data reaches the CPU."
  },
  {
   "property": "C52",
   "status": "partial",
   "theorems": [
    "Verif.Cons.C52_only_high_characters_partial",
    "Verif.Cons.C52_violated"
   ],
   "note": "Violated by every typed byte of 128 or more; no other byte does it."
  },
  {
   "property": "C80",
   "status": "partial",
   "theorems": [
    "Verif.Cons.C80_disciplined",
    "Verif.Cons.C80_only_data_register_partial",
    "Verif.Cons.C84_violated_parity_bit"
   ],
   "note": "The rules hold for every state, tag and bus value. Memory: only the nine bit data register and typed bytes of 128 or more can leave a table, and the first does for every written byte with its parity bit on."
  },
  {
   "property": "C81",
   "status": "proved",
   "theorems": [
    "Verif.Cons.C81_invalid_command_rejected",
    "Verif.Cons.C81_valid_command_accepted"
   ],
   "note": ""
  },
  {
   "property": "C82",
   "status": "partial",
   "theorems": [
    "Verif.Cons.C82_reset_partial",
    "Verif.Cons.C82_violated_status_survives"
   ],
   "note": "Violated: status and stacked flag survive the reset and are presented afterwards; answering busy keeps status in up."
  },
  {
   "property": "C83",
   "status": "proved",
   "theorems": [
    "Verif.Cons.C83_read_line",
    "Verif.Cons.keys_printing"
   ],
   "note": "Byte multiplexor channel that serves each request before the next key; seven bit characters other than the control characters the terminal handles itself."
  },
  {
   "property": "C84",
   "status": "partial",
   "theorems": [
    "Verif.Cons.C84_write_line_partial",
    "Verif.Cons.C84_violated_parity_bit"
   ],
   "note": "Proved for bytes of odd weight; every other byte makes the code index its parity table outside."
  },
  {
   "property": "C85",
   "status": "partial",
   "theorems": [
    "Verif.Cons.C85_violated_count",
    "Verif.Cons.C83_read_line",
    "Verif.Cons.C84_write_line_partial"
   ],
   "note": "Locked after a read ended at the keyboard and after a write. Violated: a read ended by the channel enables the keyboard again."
  },
  {
   "property": "C86",
   "status": "partial",
   "theorems": [
    "Verif.Cons.C86_violated_sense_never_answers"
   ],
   "note": "Violated for every state at rest and every continuation without reset: no byte is ever offered and the console stays busy."
  },
  {
   "property": "C87",
   "status": "proved",
   "theorems": [
    "Verif.Cons.C87_status_in_falls",
    "Verif.Cons.C87_service_in_falls",
    "Verif.Cons.C87_address_in_falls",
    "Verif.Cons.C87_free_again",
    "Verif.Cons.C87_stacked_kept",
    "Verif.Cons.C87_stacked_asks",
    "Verif.Dev1442.C87_status_in_falls",
    "Verif.Dev1442.C87_service_in_falls",
    "Verif.Dev1442.C87_address_in_falls",
    "Verif.Dev1442.C87_free_again",
    "Verif.Dev1442.C87_stacked_kept",
    "Verif.Dev1442.C87_stacked_asks"
   ],
   "note": "Single calls of the bus function in any state."
  },
  {
   "property": "C39",
   "status": "proved",
   "theorems": [
    "Verif.Dasd.C39_fresh_format"
   ],
   "note": "All four drive types, labels of up to eight seven bit characters, with and without IPL records."
  },
  {
   "property": "C40",
   "status": "partial",
   "theorems": [
    "Verif.Dasd.C40_label_partial",
    "Verif.Dasd.C40_violated_bracket",
    "Verif.Dasd.C40_violated_non_ascii"
   ],
   "note": "Proved for the printing characters that survive the translation tables; violated for [ and for characters above 127."
  },
  {
   "property": "C41",
   "status": "partial",
   "theorems": [
    "Verif.Dasd.C41_seek_partial",
    "Verif.Dasd.C41_violated_unmarked",
    "Verif.Dasd.C41_violated_reached",
    "Verif.Dasd.C41_violated_past_end",
    "Verif.Dasd.seek_keeps"
   ],
   "note": "Writing never marks the buffer as changed, so bytes written on a cylinder not read from since the last seek are lost; proved for every history that writes only into marked buffers and seeks to cylinders the pack has."
  },
  {
   "property": "C88",
   "status": "partial",
   "theorems": [
    "Verif.Dasd.C88_default_partial",
    "Verif.Dasd.C88_violated_named"
   ],
   "note": "Holds without a label; with a label of at most seven characters the pointer names cylinder 16384."
  },
  {
   "property": "C89",
   "status": "partial",
   "theorems": [
    "Verif.Dasd.C89_detach_partial",
    "Verif.Dasd.C89_violated_unmarked"
   ],
   "note": "As C41: bytes written into an unmarked buffer are not saved."
  },
  {
   "property": "C90",
   "status": "partial",
   "theorems": [
    "Verif.Dasd.C90_reading_partial",
    "Verif.Dasd.C41_violated_past_end"
   ],
   "note": "Seeks to cylinders of the pack; past the last cylinder the buffer of the previous cylinder is shown and later appended to the file."
  },
  {
   "property": "C91",
   "status": "proved",
   "theorems": [
    "Verif.Dasd.C91_reading_track",
    "Verif.Dasd.C91_fresh_drive"
   ],
   "note": "All drive types and all tracks whose records fit in a revolution; the drive is read from the index on, one byte time per rate+1 calls."
  },
  {
   "property": "C92",
   "status": "partial",
   "theorems": [
    "Verif.Dasd.C92_write_data",
    "Verif.Dasd.C92_violated_long_gap"
   ],
   "note": "Proved when the gap written ahead of the data is shorter than the drive's own. A gap of the drive's own length wipes the count field of record zero instead."
  },
  {
   "property": "C93",
   "status": "proved",
   "theorems": [
    "Verif.Dasd.C93_rewrite",
    "Verif.Dasd.C93_fresh_drive"
   ],
   "note": "As C91, with the gap before the data shorter than the drive's own (see C92)."
  },
  {
   "property": "C46",
   "status": "partial",
   "theorems": [
    "Verif.Lpr.C46_only_motion_partial",
    "Verif.Lpr.C46_motion_exact",
    "Verif.Lpr.C46_violated_line_67",
    "Verif.Lpr.C46_violated_space_key",
    "Verif.Lpr.C46_violated_no_paper",
    "Verif.Lpr.C46_violated_restore",
    "Verif.Lpr.C46_violated_stale_parity"
   ],
   "note": "Over all histories the print line and the translation table are never left, and the three ways to leave the carriage tape or a table are named and each shown to happen: motion past line 66 or to a channel not below, motion without a file, a data register that still has a parity bit."
  },
  {
   "property": "C47",
   "status": "partial",
   "theorems": [
    "Verif.Lpr.C47_print_line_partial",
    "Verif.Lpr.C47_violated_blank_line"
   ],
   "note": "For spacing that stays on the form. A blank line leaves one blank on the paper."
  },
  {
   "property": "C94",
   "status": "partial",
   "theorems": [
    "Verif.Lpr.C94_violated_top_of_form",
    "Verif.Lpr.C94_violated_one_line_short",
    "Verif.Lpr.C46_motion_exact"
   ],
   "note": "Fails: a skip to channel 1 always leaves the tape, and any other skip stops on the line above the channel, so that repeating it does not move the paper. Proved is exactly which skips stay on the tape and where they stop."
  },
  {
   "property": "C95",
   "status": "partial",
   "theorems": [
    "Verif.Lpr.C46_violated_line_67",
    "Verif.Lpr.C46_violated_space_key"
   ],
   "note": "Fails: the page has 67 lines and the 67th space reads behind the tape before a form feed is written. Proved is the paper up to there."
  },
  {
   "property": "C96",
   "status": "partial",
   "theorems": [
    "Verif.Lpr.C96_decode_partial",
    "Verif.Lpr.C96_violated_hang"
   ],
   "note": "All 256 bytes except the 31 other bytes ending in 000, which are accepted and hang the printer for ever, and motion off the tape (C46)."
  },
  {
   "property": "C97",
   "status": "partial",
   "theorems": [
    "Verif.Lpr.C97_sense_partial",
    "Verif.Lpr.C97_violated_ending",
    "Verif.Lpr.C97_violated_not_ready"
   ],
   "note": "The sense byte of a ready printer is delivered. The ending status changes to unit check while status in is up, and a printer that is not ready refuses sense."
  },
  {
   "property": "C98",
   "status": "partial",
   "theorems": [
    "Verif.Lpr.C98_write_partial",
    "Verif.Lpr.C98_space_partial",
    "Verif.Lpr.C98_job_partial"
   ],
   "note": "For spacing that stays on the form, see C46 and C94; the channel drops hold out after selection."
  },
  {
   "property": "C99",
   "status": "partial",
   "theorems": [
    "Verif.Lpr.C99_lines_partial",
    "Verif.Lpr.C99_silent_partial",
    "Verif.Lpr.C99_violated_owner",
    "Verif.Lpr.C99_reachable"
   ],
   "note": "The lines of the channel, parity and silence at rest hold; a printer that answered busy between two groups of bytes later raises operational in without being selected."
  },
  {
   "property": "C100",
   "status": "partial",
   "theorems": [
    "Verif.Lpr.C100_reset_partial",
    "Verif.Lpr.C100_violated_event"
   ],
   "note": "The event of a motion going on survives the reset, so that the next command gets device end early."
  },
  {
   "property": "C60",
   "status": "partial",
   "theorems": [
    "Verif.Disasm.C60_text_partial",
    "Verif.Disasm.C60_reads",
    "Verif.Disasm.C60_complete",
    "Verif.Disasm.C60_unassigned",
    "Verif.Disasm.C60_violated_direct"
   ],
   "note": "Every opcode but write direct and read direct, which are shown as unassigned. The reads hold for every byte sequence."
  },
  {
   "property": "C101",
   "status": "partial",
   "theorems": [
    "Verif.Disasm.C101_trace_partial",
    "Verif.Disasm.C101_injective",
    "Verif.Disasm.C101_violated_direct"
   ],
   "note": "Except write direct and read direct, which are shown without their fields."
  },
  {
   "property": "C48",
   "status": "proved",
   "theorems": [
    "Verif.Mt.C48_no_ring_no_write",
    "Verif.Mt.C48_write_rejected"
   ],
   "note": "The file of a reel without the ring never changes, for every interface activity, event order and operator action that does not remount the reel; and a control at rest answers write, erase gap and write tape mark with unit check and shows command reject in sense."
  },
  {
   "property": "C49",
   "status": "partial",
   "theorems": [
    "Verif.Mt.C49_in_range_partial",
    "Verif.Mt.C49_violated_unit67",
    "Verif.Mt.C49_violated_absent"
   ],
   "note": "Holds over all histories for units 0-5 with all six drives present. Any command for unit 6 or 7 leaves the table, and a read, write or control command for a drive that is not configured follows a null pointer."
  },
  {
   "property": "C102",
   "status": "partial",
   "theorems": [
    "Verif.Mt.C102_violated_write"
   ],
   "note": "Fails for every reel, position and write command: the result of starting the write is compared with the wrong constants, so the channel gets unit check at once, no byte is taken, and a tape mark replaces the rest of the reel."
  },
  {
   "property": "C103",
   "status": "partial",
   "theorems": [
    "Verif.Mt.C103_programs_partial",
    "Verif.Mt.sees"
   ],
   "note": "Nine track drives with SIMH or E11 files, programs that find what they ask for, one command at a time (see C106), tape marks not directly behind a forward read. Any timing."
  },
  {
   "property": "C104",
   "status": "partial",
   "theorems": [
    "Verif.Mt.C104_violated_blank"
   ],
   "note": "Fails: a read of a blank reel ends with channel end and device end and no data."
  },
  {
   "property": "C105",
   "status": "partial",
   "theorems": [
    "Verif.Mt.C105_disciplined",
    "Verif.Mt.C105_history",
    "Verif.Mt.C105_busy",
    "Verif.Mt.C105_violated_address"
   ],
   "note": "The lines, ownership and parity hold for every call that stays in the table of drives (C49). One call after address in came up bus in shows the address of the control instead of the unit's."
  },
  {
   "property": "C106",
   "status": "partial",
   "theorems": [
    "Verif.Mt.C106_violated_rewind_lost",
    "Verif.Mt.C103_programs_partial"
   ],
   "note": "Fails for a test I/O, which is accepted with status zero while a rewind is starting: the tape then never moves and device end never comes. Holds when the channel waits for device end (C103)."
  },
  {
   "property": "C107",
   "status": "partial",
   "theorems": [
    "Verif.Mt.C107_reset_partial",
    "Verif.Mt.C107_violated_pending"
   ],
   "note": "The control is idle and its lines are down; a device end waiting for the channel and request in survive."
  },
  {
   "property": "C108",
   "status": "proved",
   "theorems": [
    "Verif.Mt.C108_sense",
    "Verif.Mt.perform_sense"
   ],
   "note": "For a control at rest, every unit 0-5, configured or not, and every timing."
  },
  {
   "property": "C109",
   "status": "partial",
   "theorems": [
    "Verif.Mt.C109_violated_not_ready"
   ],
   "note": "Fails for every such command: the answer is busy with device end, and sense byte 0 stays zero."
  },
  {
   "property": "C110",
   "status": "partial",
   "theorems": [
    "Verif.Cpu50.C110_instruction",
    "Verif.Cpu50.C110_instruction_quiet"
   ],
   "note": "Machines up to 256K (C115). Instructions: SPM BALR BCTR BCR LPR LNR LTR LCR NR CLR OR XR LR CR AR SR ALR SLR STH LA STC IC BAL BCT BC LH CH AH SH ST N CL O X L C A S AL SL TM MVI NI CLI OI XI BXH BXLE SRL SLL SRA SRDL SLDL SRDA, in all cases without a program interruption. ST over the next instruction is excluded (C113). Missing: the other instructions; program interruptions are C126."
  },
  {
   "property": "C111",
   "status": "partial",
   "theorems": [
    "Verif.Cpu50.C111_program",
    "Verif.Cpu50.C111_example"
   ],
   "note": "For programs of the instructions of C110."
  },
  {
   "property": "C112",
   "status": "partial",
   "theorems": [
    "Verif.Cpu50.C112_precise",
    "Verif.Cpu50.C112_masked_requests_wait",
    "Verif.Cpu50.C112_unmasked_request_seen"
   ],
   "note": "Timer interruptions, for programs of the instructions of C110, up to the entry of the interruption routine."
  },
  {
   "property": "C113",
   "status": "partial",
   "theorems": [
    "Verif.Cpu50.C113_violated_stale_instruction",
    "Verif.Cpu50.C113_violated_example",
    "Verif.Cpu50.C113_stored_instruction_partial"
   ],
   "note": "Fails for every ST at an odd halfword that stores into the word behind it: the RR instruction which was there before is executed. Holds for all other stores."
  },
  {
   "property": "C114",
   "status": "partial",
   "theorems": [
    "Verif.Cpu50.C114_protected",
    "Verif.Cpu50.C110_instruction"
   ],
   "note": "ST, STH, STC, MVI, NI, OI and XI with operands inside storage; up to the entry of the interruption routine, from there C126. Permitted stores are part of C110."
  },
  {
   "property": "C115",
   "status": "partial",
   "theorems": [
    "Verif.Cpu50.C115_own_word_partial",
    "Verif.Cpu50.C115_violated_512K"
   ],
   "note": "Fails on the model with 512K, where the upper half is the lower half again."
  },
  {
   "property": "C116",
   "status": "partial",
   "theorems": [
    "Verif.Ctl2844.C116_violated_answers_others",
    "Verif.Ctl2844.C116_violated_swallows_select",
    "Verif.Ctl2844.C116_passes_partial"
   ],
   "note": "Fails for every address of good parity: the comparison is joined with the parity check by or."
  },
  {
   "property": "C117",
   "status": "partial",
   "theorems": [
    "Verif.Ctl2844.C117_violated_null",
    "Verif.Ctl2844.C117_attached_partial"
   ],
   "note": "Fails for every address whose last digit names no attached drive, also for other devices' addresses. Attached drives are proved up to address in."
  },
  {
   "property": "C118",
   "status": "proved",
   "theorems": [
    "Verif.Ctl2844.C118_control_storage",
    "Verif.Ctl2844.C118_next_word"
   ],
   "note": "Every schedule, every drive, from power on."
  },
  {
   "property": "C119",
   "status": "partial",
   "theorems": [
    "Verif.Ctl2844.C119_violated_write",
    "Verif.Ctl2844.C119_no_gate_partial"
   ],
   "note": "Fails for every byte written with the check bytes on: address mark flag not initialised."
  },
  {
   "property": "C120",
   "status": "proved",
   "theorems": [
    "Verif.Ctl2844.C120_selection",
    "Verif.Ctl2844.C120_no_other_address"
   ],
   "note": "From the idle state with no drive asking for attention (reached from power on by C123); up to address in."
  },
  {
   "property": "C121",
   "status": "partial",
   "theorems": [
    "Verif.Ctl2844.C121_violated_operational_in",
    "Verif.Ctl2844.C121_violated_after_selection",
    "Verif.Ctl2844.C121_reset_cycle_partial"
   ],
   "note": "The reset cycle takes the lines down, but operational in comes back."
  },
  {
   "property": "C122",
   "status": "proved",
   "theorems": [
    "Verif.Ctl2844.C122_transparent",
    "Verif.Ctl2844.C123_stays"
   ],
   "note": "Idle as reached by C123; without an address left over (C124)."
  },
  {
   "property": "C123",
   "status": "proved",
   "theorems": [
    "Verif.Ctl2844.C123_power_on",
    "Verif.Ctl2844.C123_stays"
   ],
   "note": "Drives that do not ask for attention; the channel does not select or reset (selection: C120, C116; reset: C121)."
  },
  {
   "property": "C124",
   "status": "partial",
   "theorems": [
    "Verif.Ctl2844.C124_violated_takes_poll",
    "Verif.Ctl2844.C124_violated_drops_address_in",
    "Verif.Ctl2844.C124_cleared_partial"
   ],
   "note": "Fails after an address was offered without select out, for every schedule between."
  },
  {
   "property": "C125",
   "status": "proved",
   "theorems": [
    "Verif.Cpu50.C125_supervisor_call",
    "Verif.Cpu50.C125_words"
   ],
   "note": "Machines up to 256K; the copy of the PSW in local storage is up to date (invariant, stepI_kept); the new instruction address is even and inside storage. Without timer ticks the next state is Ready if the new PSW neither waits nor enables more (Quiet)."
  },
  {
   "property": "C126",
   "status": "partial",
   "theorems": [
    "Verif.Cpu50.C126_program_interruption",
    "Verif.Cpu50.C125_words"
   ],
   "note": "Operation, privileged operation and protection. An instruction with a second cause (operand missing or off its boundary) is left out. Missing: addressing, specification, execute, overflow and divide interruptions, operation codes from C0."
  },
  {
   "property": "C127",
   "status": "proved",
   "theorems": [
    "Verif.Cpu50.C127_load_psw"
   ],
   "note": "Machines up to 256K; doubleword on its boundary inside storage; next instruction address even and inside storage."
  },
  {
   "property": "C128",
   "status": "partial",
   "theorems": [
    "Verif.Cpu50.C128_system",
    "Verif.Cpu50.C128_call_returns",
    "Verif.Cpu50.C128_example"
   ],
   "note": "Instructions of C110, SVC, LPSW and the interruptions of C126. Missing: the other instructions."
  },
  {
   "property": "C129",
   "status": "proved",
   "theorems": [
    "Verif.Cpu50.C129_confined"
   ],
   "note": "Programs of the instructions of C110, machines up to 256K."
  },
  {
   "property": "C130",
   "status": "proved",
   "theorems": [
    "Verif.Cpu50.C130_timer_step",
    "Verif.Cpu50.C130_words",
    "Verif.Cpu50.C130_example"
   ],
   "note": "Machines up to 256K. A step takes 600 hexadecimal off the word. From a state where the processor has found the exceptional condition (Pend) and the tick is the cause; that it finds it is C112."
  },
  {
   "property": "C131",
   "status": "proved",
   "theorems": [
    "Verif.Cpu50.C131_external",
    "Verif.Cpu50.C131_example"
   ],
   "note": "Machines up to 256K. A tick in the entry of the routine is served first and leaves the requests."
  },
  {
   "property": "C132",
   "status": "proved",
   "theorems": [
    "Verif.Cpu50.C132_interleaving",
    "Verif.Cpu50.C132_example"
   ],
   "note": "Instructions of C110, SVC, LPSW and program interruptions of C126. Ends early only at a condition other than timer and external (channel, operator, wait)."
  },
  {
   "property": "C133",
   "status": "proved",
   "theorems": [
    "Verif.Cpu50.C133_control_storage",
    "Verif.Cpu50.C134_example"
   ],
   "note": "From every state between two instructions, machines up to 256K, up to the first word that works on a channel (outcome chan of the model)."
  },
  {
   "property": "C134",
   "status": "proved",
   "theorems": [
    "Verif.Cpu50.C134_problem_program",
    "Verif.Cpu50.C134_example"
   ],
   "note": "All operation codes, also those the specification of C110 does not contain. Machines up to 256K; storage keys beyond 256K are zero. The beginning of an interruption is the set of words `gate`."
  },
  {
   "property": "C135",
   "status": "proved",
   "theorems": [
    "Verif.Cpu50.C135_protection",
    "Verif.Cpu50.C135_example"
   ],
   "note": "Up to channel operations; storage keys of blocks beyond 256K are zero along the run (the code compares the key before it checks the address, and SSK can set such keys, C137)."
  },
  {
   "property": "C136",
   "status": "proved",
   "theorems": [
    "Verif.Cpu50.C136_requests",
    "Verif.Cpu50.C136_example"
   ],
   "note": "The load key (which withdraws timer requests) is not pressed. Up to channel operations."
  },
  {
   "property": "C137",
   "status": "partial",
   "theorems": [
    "Verif.Cpu50.C137_set_key_partial",
    "Verif.Cpu50.C137_insert_key_partial",
    "Verif.Cpu50.C137_specification",
    "Verif.Cpu50.C137_violated_out_of_bounds",
    "Verif.Cpu50.C137_violated_example",
    "Verif.Cpu50.C137_example_set",
    "Verif.Cpu50.C137_example_insert",
    "Verif.Cpu50.C137_example_specification"
   ],
   "note": "Violated: with an address of 512K or more SSK and ISK use MP[256] out of bounds (cpu2050.c, store and fetch of the key come before the address check). Proved for addresses in storage; SSK with an unaligned address is proved. Missing: ISK with an unaligned address; addresses between the end of storage and 512K (keys of missing blocks are changed before the addressing interruption)."
  },
  {
   "property": "C138",
   "status": "partial",
   "theorems": [
    "Verif.Cpu50.C138_in_bounds_partial",
    "Verif.Cpu50.C138_problem_program_partial",
    "Verif.Cpu50.C138_example",
    "Verif.Cpu50.C138_example_problem"
   ],
   "note": "Along runs which do not come to the words of SSK/ISK that use a key (violated there, C137) or of the operator's store and display, up to channel operations, machines up to 256K. One word (327, end of floating-point instructions) is assumed not to be carried out with both low bits of the mover output on; this is not excluded by the proof."
  },
  {
   "property": "C139",
   "status": "partial",
   "theorems": [
    "Verif.Sel50.C139_read_partial",
    "Verif.Sel50.C139_prefix_partial",
    "Verif.Sel50.C139_complete_partial",
    "Verif.Sel50.C139_example",
    "Verif.Sel50.C139_example_end"
   ],
   "note": "Missing: data chaining (violated, C144) and last cycles of another channel's routine while this one waits for its own (violated, C143). The microprogram enters through events: it stores the marked bytes once and before the last cycle of its routine, and the count it computes agrees with the byte position. The device does not present data and status at once."
  },
  {
   "property": "C140",
   "status": "partial",
   "theorems": [
    "Verif.Sel50.C140_prefix_partial",
    "Verif.Sel50.C140_write_partial",
    "Verif.Sel50.C140_exact_partial",
    "Verif.Sel50.C140_parity_partial",
    "Verif.Sel50.ccw2c_begins",
    "Verif.Sel50.C140_example",
    "Verif.Sel50.C140_violated_cut",
    "Verif.Sel50.C140_violated_twice"
   ],
   "note": "Violated: the count is tested one cycle before the last word arrives; a device which asks for a byte in that cycle while the word before the last stands in C makes the channel take that word for the last one. The transfer is cut short by a word, or the word is sent twice (cpu2050.c 6191-6212 with LSWDTEST). Proved when the device does not ask in that cycle; missing besides: data chaining. The microprogram enters through events: it counts each word before it gives it, gives one word in a routine, and brings back from local storage what it put there."
  },
  {
   "property": "C141",
   "status": "partial",
   "theorems": [
    "Verif.Sel50.C141_count_partial",
    "Verif.Sel50.C141_atmost_partial",
    "Verif.Sel50.C141_exact_partial",
    "Verif.Sel50.C141_tested_partial",
    "Verif.Sel50.C141_stop",
    "Verif.Sel50.C141_example"
   ],
   "note": "From the moment the channel has been told that at most three words are left, as long as the microprogram does not test the count anew; C141_tested_partial starts from the test itself, reading forward: what it leaves makes the channel accept exactly the bytes left; missing: that the microprogram computes the count from the CCW. C141_stop is complete."
  },
  {
   "property": "C142",
   "status": "proved",
   "theorems": [
    "Verif.Sel50.C142_hold",
    "Verif.Sel50.C142_fall",
    "Verif.Sel50.C142_once",
    "Verif.Sel50.C142_example"
   ],
   "note": "Reads without data chaining, in every state and position of the channel during the transfer."
  },
  {
   "property": "C143",
   "status": "partial",
   "theorems": [
    "Verif.Sel50.C143_alone_partial",
    "Verif.Sel50.C143_violated_release",
    "Verif.Sel50.C143_violated_write",
    "Verif.Sel50.C143_example"
   ],
   "note": "Violated: the last cycle of one channel's routine ends the routines of all channels which wait for theirs (cpu2050.c 5743, 5781 ff. do not look at CH), so a word waiting to be stored is given up; and a channel waiting to fetch a word takes the signals of another channel's fetch and writes over its B register (B_REG[CH], lines 5776-5778). Proved: as long as no channel fetches a word to write, channels influence each other through the shared signals only."
  },
  {
   "property": "C144",
   "status": "partial",
   "theorems": [
    "Verif.Sel50.C144_violated_lost"
   ],
   "note": "Violated: at the end of the store of a word the channel asks for the next CCW although a further word waits in the B register, and the first signal of the fetch overwrites it (cpu2050.c 5751-5757 and 5310-5322). Without data chaining see C139."
  },
  {
   "property": "C145",
   "status": "partial",
   "theorems": [
    "Verif.Sel50.C145_lines_partial",
    "Verif.Sel50.C145_status_partial",
    "Verif.Sel50.C145_example",
    "Verif.Sel50.C145_violated_late",
    "Verif.Sel50.C145_violated_late_example",
    "Verif.Sel50.C145_violated_tio"
   ],
   "note": "Violated: the channel waits a single cycle for operational in. For every unit which raises it later (the 2841 does, model2841.c 804-807) address out stays up while the command takes the place of the address on the bus, and command out comes together with address out (cpu2050.c 5524-5530, 5572-5600). TEST I/O after an operation stopped by the count: command out falls while address in is up (5456, 6076). Proved for units which answer select out at once, with IF_STOP off. HALT I/O and status bytes with wrong parity are not part of the theorems."
  },
  {
   "property": "C146",
   "status": "partial",
   "theorems": [
    "Verif.Sel50.C146_violated",
    "Verif.Sel50.C146_wrong_partial",
    "Verif.Sel50.C146_example"
   ],
   "note": "Violated: the address is compared only if it comes in the very cycle of operational in (cpu2050.c 5532-5549); in the usual sequence any address is accepted (for all addresses and commands). Proved for a unit which shows its address in that cycle."
  },
  {
   "property": "C147",
   "status": "partial",
   "theorems": [
    "Verif.Sel50.C147_instruction_partial",
    "Verif.Sel50.C147_violated_chain",
    "Verif.Sel50.C147_example"
   ],
   "note": "Violated in a chain: select in is only looked at for an instruction (cpu2050.c 5491-5493), and the channel stays in selection for ever. Proved for START I/O and TEST I/O."
  },
  {
   "property": "C148",
   "status": "proved",
   "theorems": [
    "Verif.Ctl2841.C148_control_storage",
    "Verif.Ctl2841.C148_next_word"
   ],
   "note": "From power on, for every schedule. Accesses of the drive model outside of its track buffer are a separate outcome (see C90-C92)."
  },
  {
   "property": "C149",
   "status": "proved",
   "theorems": [
    "Verif.Ctl2841.C149_power_on",
    "Verif.Ctl2841.C149_stays",
    "Verif.Ctl2841.example_idle"
   ],
   "note": "Address in of other control units is taken down, see C151."
  },
  {
   "property": "C150",
   "status": "proved",
   "theorems": [
    "Verif.Ctl2841.C150_selection",
    "Verif.Ctl2841.C150_no_other_address"
   ],
   "note": "After two channel cycles and then six microinstructions at the latest, for all interleavings. The address itself is answered even if there is no such drive."
  },
  {
   "property": "C151",
   "status": "partial",
   "theorems": [
    "Verif.Ctl2841.C151_violated_drops_address_in",
    "Verif.Ctl2841.C151_violated_behind",
    "Verif.Ctl2841.C151_passes_partial"
   ],
   "note": "Violated: an idle 2841 takes address in down in every cycle (model2841.c 803-812, the else branch is not conditional on being selected), so address in of a control unit before it never reaches the channel. Proved: all other lines and the bus pass."
  },
  {
   "property": "C152",
   "status": "partial",
   "theorems": [
    "Verif.Ctl2841.C152_violated_never_answers",
    "Verif.Ctl2841.C152_answers_partial"
   ],
   "note": "Violated: model2841_create keeps all eight bits of the address (line 1049) and model2841_dev compares it with the high digit of the bus only (line 831), so a control at an address with last digit not zero never answers. With last digit zero all sixteen addresses are answered."
  },
  {
   "property": "C153",
   "status": "partial",
   "theorems": [
    "Verif.Ctl2841.C153_violated_operational_in",
    "Verif.Ctl2841.C153_violated_after_selection",
    "Verif.Ctl2841.C153_reset_cycle_partial"
   ],
   "note": "Violated: the reset (model2841.c 782-792) clears neither opr_in nor the interface register, so operational in comes back with the next cycle. Proved for the reset cycle itself."
  },
  {
   "property": "C154",
   "status": "partial",
   "theorems": [
    "Verif.Ctl2841.C154_violated_takes_poll",
    "Verif.Ctl2841.C154_violated_drops_lines",
    "Verif.Ctl2841.C154_cleared_partial"
   ],
   "note": "Violated: `addressed` is only cleared by the address of another control unit (model2841.c 829-858); until then the control takes select out of every poll (923-925) and takes address in, status in and service in of the others down. Proved: another address clears it."
  },
  {
   "property": "C155",
   "status": "partial",
   "theorems": [
    "Verif.Sel50.C155_violated_code",
    "Verif.Sel50.C155_violated_status",
    "Verif.Sel50.C155_ends_partial",
    "Verif.Sel50.C155_example"
   ],
   "note": "Violated: the condition code is 2, as for a busy channel, and the status byte is dropped (cpu2050.c 5507-5525); the resulting state does not depend on the status. Proved: the selection ends with the lines down, and a command of a chain asks for the end routine."
  },
  {
   "property": "C156",
   "status": "partial",
   "theorems": [
    "Verif.Sel50.C156_violated_never_ends",
    "Verif.Sel50.C156_start"
   ],
   "note": "Violated: for a 2841 at rest with address 90 and the 28 single-track control, write, read and search commands, the channel waits for ever. It does not wait for operational in before it replaces the address by the command (C145); the control takes the command under address out for the address of another control unit, and never raises status in (model2841.c 829-858, microword 548). A concrete control, drive and address; unbounded runs. Missing: a general theorem for all states at rest and all commands whose first digit is not that of the control."
  },
  {
   "property": "C157",
   "status": "proved",
   "theorems": [
    "Verif.Ctl2841.C157_parity",
    "Verif.Ctl2841.C157_history",
    "Verif.Ctl2844.C157_parity",
    "Verif.Ctl2844.C157_history"
   ],
   "note": "For every state and every history of both controls."
  },
  {
   "property": "C158",
   "status": "partial",
   "theorems": [
    "Verif.Cons.C158_violated_merged",
    "Verif.Cons.C83_read_line"
   ],
   "note": "Violated for all texts (up to 256 characters together): return only sets a flag which is looked at when the buffer is empty, and does not lock the keyboard (model1052.c 865-877, 928-936), so the CPU gets both lines as one. C83_read_line is the case where nothing follows return."
  },
  {
   "property": "C159",
   "status": "partial",
   "theorems": [
    "Verif.Cons.Race.C159_violated_line_feed",
    "Verif.Cons.Race.C159_prints_partial"
   ],
   "note": "Violated by interleavings: the thread clears out_flg before it tests out_buf for a carriage return (model1052.c 998-1004). Proved for all other interleavings, any length. Memory is taken to be sequentially consistent."
  },
  {
   "property": "C160",
   "status": "partial",
   "theorems": [
    "Verif.Cpu50.C160_execute_partial",
    "Verif.Cpu50.C160_execute_rr_partial",
    "Verif.Cpu50.C160_execute_balr_partial",
    "Verif.Cpu50.C160_violated_base_zero",
    "Verif.S360.step_perform"
   ],
   "note": "Violated: the microorder X0,B0,1SYL (cpu2050.c 3300-3312) tests bits 0-3 of the word instead of bits 16-19 for base digit zero, so the subject instruction at a word boundary takes general register 0 as its base; proved for every LOAD ADDRESS. Proved to be right for the RX, RS and SI instructions of the specification at a halfword boundary, and at a word boundary with another base digit, and for the RR instructions at both. Not covered: SS subject instructions, a full-word store into the word of the next instruction, and an EXECUTE fetched from the right half of a buffered word with S7 on."
  },
  {
   "property": "C161",
   "status": "proved",
   "theorems": [
    "Verif.Cpu50.C161_load_multiple",
    "Verif.Cpu50.C161_store_multiple"
   ],
   "note": "Operands on a word boundary, inside storage and not protected; see C162 for other addresses of the first word."
  },
  {
   "property": "C162",
   "status": "proved",
   "theorems": [
    "Verif.Cpu50.C162_operand_check",
    "Verif.Cpu50.C162_execute_odd"
   ],
   "note": "A halfword operand which is odd and also outside of storage gives the addressing exception. For LM and STM the address of the first word is checked. SSM and LPSW in the problem state give these interruptions too. For EX of an odd address the state bit S7 is assumed to be off, as for C160."
  },
  {
   "property": "C163",
   "status": "proved",
   "theorems": [
    "Verif.Cpu50.C163_test_and_set",
    "Verif.Cpu50.C163_protected"
   ],
   "note": "When the byte is protected the condition code is set nevertheless, which the architecture allows for a terminated instruction."
  },
  {
   "property": "C164",
   "status": "proved",
   "theorems": [
    "Verif.Cpu50.C164_set_system_mask",
    "Verif.Cpu50.C164_kept"
   ],
   "note": "With tk = true (any timer ticks) there is no restriction on the mask."
  },
  {
   "property": "C165",
   "status": "proved",
   "theorems": [
    "Verif.Ctl2844.C165_adder",
    "Verif.Ctl2844.C165_count",
    "Verif.Ctl2841.C165_adder",
    "Verif.Ctl2841.C165_count"
   ],
   "note": "For the 2841 the result goes to the destination unless the word bypasses the adder; the zero test is that of the adder in both cases."
  },
  {
   "property": "C166",
   "status": "partial",
   "theorems": [
    "Verif.Cpu50.C166_execute_execute_partial",
    "Verif.Cpu50.C166_violated_addressing"
   ],
   "note": "If the operand address of the second EXECUTE is outside of storage the code is 5 (proved for all such cases), although that EXECUTE is not to be carried out. As for C160, an EXECUTE in the right half of a word while S7 is on is left out."
  },
  {
   "property": "C167",
   "status": "proved",
   "theorems": [
    "Verif.Cpu50.C167_shift_left",
    "Verif.Cpu50.C167_overflow"
   ],
   "note": "Machines up to 256K (C115)."
  },
  {
   "property": "C168",
   "status": "proved",
   "theorems": [
    "Verif.Cpu50.C168_overflow"
   ],
   "note": "With the mask off, or a result which fits, the same instructions are covered by C110. SHIFT LEFT SINGLE is C167. Machines up to 256K (C115)."
  },
  {
   "property": "C169",
   "status": "proved",
   "theorems": [
    "Verif.Cpu50.C169_float_load",
    "Verif.Cpu50.C169_specification"
   ],
   "note": "Machines up to 256K (C115). HDR and HER, the storage forms and the arithmetic are not covered."
  },
  {
   "property": "C170",
   "status": "proved",
   "theorems": [
    "Verif.Cpu50.C170_load_short",
    "Verif.Cpu50.C170_specification",
    "Verif.Cpu50.C170_boundary"
   ],
   "note": "Machines up to 256K (C115)."
  },
  {
   "property": "C171",
   "status": "proved",
   "theorems": [
    "Verif.Cpu50.C171_store_short",
    "Verif.Cpu50.C171_specification",
    "Verif.Cpu50.C171_protection",
    "Verif.Cpu50.C170_boundary"
   ],
   "note": "Machines up to 256K (C115)."
  }
 ]
}