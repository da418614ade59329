{"id": "C01", "title": "Exact event timing", "statement": "An event scheduled with delay t>0 fires during exactly the t-th clock advance after it was scheduled, and on no other advance, whatever other events are scheduled before, after or by callbacks.", "quantifier": "every history of schedule/advance calls, every set of callbacks (which may themselves schedule events), every positive delay", "why_tests_cant": "the pending-event queue stores relative times, so each event's firing time depends on the whole history of the queue; only finitely many histories can be tried", "anchors": ["src/event.c:add_event", "src/event.c:advance"]}
{"id": "C02", "title": "Order of events", "statement": "Events due on different ticks fire in order of their due tick; events due on the same tick fire in reverse order of scheduling.", "quantifier": "every pair of events in every history of schedule calls", "why_tests_cant": "order depends on all interleavings of schedule calls with arbitrary delays", "anchors": ["src/event.c:add_event", "src/event.c:advance"]}
{"id": "C03", "title": "Zero delay is immediate", "statement": "Scheduling with delay 0 runs the callback exactly once before the call returns and leaves the set of pending events unchanged.", "quantifier": "every queue state", "why_tests_cant": "holds for every queue contents", "anchors": ["src/event.c:add_event"]}
{"id": "C04", "title": "Queue memory safety without cancel", "statement": "No sequence of schedule and advance calls reads or writes a freed or never allocated event record, and the forward and backward links always describe the same list.", "quantifier": "every history of init/schedule/advance with arbitrary callbacks that schedule", "why_tests_cant": "heap shape invariant over unbounded histories", "anchors": ["src/event.c:init_event", "src/event.c:add_event", "src/event.c:advance"]}
{"id": "C05", "title": "Cancel removes only the cancelled event", "statement": "After cancelling (device, callback) the first matching pending event never fires and every other pending event still fires at its own time; no freed record is touched.", "quantifier": "every queue state, every (device, callback)", "why_tests_cant": "queue position of the cancelled event is arbitrary", "anchors": ["src/event.c:cancel_event"]}
{"id": "C06", "title": "Channel registration and lookup", "statement": "A device registered at an address is found by a lookup at that address; when several match under the mask, lookup returns the first registered; lookup never returns a device of another channel or one whose masked address differs.", "quantifier": "every sequence of registrations/removals, every address and mask", "why_tests_cant": "device lists have arbitrary length and history", "anchors": ["src/device/device.c:add_chan", "src/device/device.c:find_chan"]}
{"id": "C07", "title": "Channel removal", "statement": "Removing a device makes it unreachable by lookup, and leaves all other devices and their order unchanged; removing an absent device changes nothing.", "quantifier": "every registration history", "why_tests_cant": "arbitrary lists", "anchors": ["src/device/device.c:del_chan"]}
{"id": "C08", "title": "Channel table bounds", "statement": "Registering or looking up a device at any 16 bit address stays inside the channel table.", "quantifier": "all 65536 addresses", "why_tests_cant": "needs a bound for every address and the size of the table", "anchors": ["src/device/device.c:add_chan", "src/device/device.c:find_chan", "src/device/device.c:chan"]}
{"id": "C09", "title": "Disk step list", "statement": "Each step call runs the step routine of every registered disk exactly once, newest first; removal stops exactly that disk from being stepped.", "quantifier": "every sequence of add/remove", "why_tests_cant": "arbitrary histories", "anchors": ["src/device/device.c:add_disk", "src/device/device.c:del_disk", "src/device/device.c:step_disk"]}
{"id": "C10", "title": "Bus parity table", "statement": "The parity bit supplied with any byte makes the 9-bit total odd, and a received 9-bit value passes the parity check exactly when its number of one bits is odd.", "quantifier": "all bytes and all 9-bit bus values", "why_tests_cant": "claim about a 256-entry hand-typed table and every 9-bit value", "anchors": ["src/device/xlat.c:odd_parity"]}
{"id": "C11", "title": "Seven track parity and BCD table", "statement": "A seven track tape frame written in either parity mode carries that parity and is accepted by the parity check when read back in the same mode, and the BCD to EBCDIC table maps distinct codes to distinct EBCDIC codes.", "quantifier": "all 64 codes and both parity modes", "why_tests_cant": "hand-typed table combined with mode bits", "anchors": ["src/device/xlat.c:parity_table", "src/device/xlat.c:bcd_to_ebcdic", "src/model2415/model2415.c:device_cmd"]}
{"id": "C12", "title": "ASCII/EBCDIC round trip", "statement": "Every printable ASCII character survives conversion to EBCDIC and back.", "quantifier": "all printable ASCII characters", "why_tests_cant": "hand-typed pair of tables must be mutually inverse", "anchors": ["src/device/xlat.c:ascii_to_ebcdic", "src/device/xlat.c:ebcdic_to_ascii"]}
{"id": "C13", "title": "EBCDIC/Hollerith round trip", "statement": "Converting any EBCDIC byte to a card column and back returns the same byte; no two bytes share a column code.", "quantifier": "all 256 bytes", "why_tests_cant": "hand-typed 256-entry table and a table built at run time by a loop", "anchors": ["src/device/card.c:ebcdic_to_hol", "src/device/card.c:hol_to_ebcdic", "src/device/card.c:init_card_context"]}
{"id": "C14", "title": "Invalid column detection", "statement": "A 12-bit column converts to EBCDIC exactly when it is the code of some byte; all other columns are reported invalid.", "quantifier": "all 4096 column patterns", "why_tests_cant": "table inverse completeness", "anchors": ["src/device/card.c:hol_to_ebcdic", "src/device/card.c:init_card_context"]}
{"id": "C15", "title": "Text character round trip", "statement": "Every column produced from a text character converts back to a character that has the same column code.", "quantifier": "all 128 characters", "why_tests_cant": "two hand-typed tables, reverse table built by loop", "anchors": ["src/device/card.c:ascii_to_hol_029", "src/device/card.c:hol_to_ascii"]}
{"id": "C16", "title": "Binary deck round trip", "statement": "Saving a deck in binary format and loading it back gives the identical cards.", "quantifier": "decks of every length and every column content", "why_tests_cant": "file and buffer refill behaviour for all sizes", "anchors": ["src/device/card.c:_punch_card", "src/device/card.c:_parse_card", "src/device/card.c:read_deck", "src/device/card.c:save_deck"]}
{"id": "C17", "title": "EBCDIC deck round trip", "statement": "Saving a deck whose columns are all EBCDIC characters in EBCDIC format and loading it back gives the identical cards.", "quantifier": "decks of every length", "why_tests_cant": "unbounded decks", "anchors": ["src/device/card.c:_punch_card", "src/device/card.c:_parse_card", "src/device/card.c:read_deck", "src/device/card.c:save_deck"]}
{"id": "C18", "title": "Text deck round trip", "statement": "Saving a deck of printable columns as text and loading it back gives the identical cards.", "quantifier": "decks of every length", "why_tests_cant": "trailing-blank trimming, escapes and line structure for all contents", "anchors": ["src/device/card.c:_punch_card", "src/device/card.c:_parse_card", "src/device/card.c:read_deck", "src/device/card.c:save_deck"]}
{"id": "C19", "title": "Octal deck round trip", "statement": "Saving any deck in octal format and loading it back gives the identical cards.", "quantifier": "decks of every length and every column content", "why_tests_cant": "escape forms ~raw ~eor ~eof ~eoi must not be confused for any column content", "anchors": ["src/device/card.c:_punch_card", "src/device/card.c:_parse_card"]}
{"id": "C20", "title": "Hopper is first in first out", "statement": "Cards come out of the hopper in the order loaded, each exactly once, after which the hopper reports empty.", "quantifier": "decks of any length and any interleaving of loads and reads", "why_tests_cant": "unbounded history", "anchors": ["src/device/card.c:read_card", "src/device/card.c:read_deck", "src/device/card.c:hopper_size"]}
{"id": "C21", "title": "Stacker keeps every card", "statement": "Every card stacked is retained in order with its contents, for any number of cards, across storage growth.", "quantifier": "any number of stacked cards", "why_tests_cant": "growth in blocks of 1000 for any count", "anchors": ["src/device/card.c:stack_card", "src/device/card.c:stack_size"]}
{"id": "C22", "title": "Blank deck", "statement": "Adding n blank cards increases the hopper by n blank cards after those already present.", "quantifier": "every n and hopper state", "why_tests_cant": "unbounded", "anchors": ["src/device/card.c:blank_deck"]}
{"id": "C23", "title": "Deck load terminates", "statement": "Loading any file terminates.", "quantifier": "every file content, every format", "why_tests_cant": "needs a termination argument over all inputs", "anchors": ["src/device/card.c:read_deck", "src/device/card.c:_parse_card"]}
{"id": "C24", "title": "Card parser stays in bounds", "statement": "Loading any file never reads outside the conversion tables or the card image.", "quantifier": "every byte sequence", "why_tests_cant": "all inputs", "anchors": ["src/device/card.c:_parse_card"]}
{"id": "C25", "title": "TAP record round trip", "statement": "Records written in TAP format, then rewound, are read back byte for byte with the same boundaries, in order, followed by end of tape.", "quantifier": "any number of non-empty records (shorter than 2^32-1 bytes) and tape marks, any bytes, any old file content no longer than what is written", "why_tests_cant": "record framing and buffer refill for all sizes", "anchors": ["src/device/tape.c:tape_write_start", "src/device/tape.c:tape_write_frame", "src/device/tape.c:tape_finish_rec", "src/device/tape.c:tape_read_forw", "src/device/tape.c:tape_read_frame", "src/device/tape.c:tape_start_rewind"]}
{"id": "C26", "title": "E11 record round trip", "statement": "As TAP but for the E11 format, which has no padding byte for odd lengths.", "quantifier": "any records", "why_tests_cant": "the framing must match between write and read for every length", "anchors": ["src/device/tape.c:tape_write_start", "src/device/tape.c:tape_finish_rec", "src/device/tape.c:tape_read_forw"]}
{"id": "C27", "title": "P7B record round trip", "statement": "As TAP but for P7B format with record marks in bit 7.", "quantifier": "any records of 7 bit frames", "why_tests_cant": "look-ahead and record marks for all contents", "anchors": ["src/device/tape.c:tape_write_frame", "src/device/tape.c:tape_read_frame", "src/device/tape.c:tape_read_forw"]}
{"id": "C28", "title": "Backward read", "statement": "Reading a record backward delivers its bytes in reverse and leaves the tape where the record starts, so a following forward read returns the same record.", "quantifier": "any record at any position", "why_tests_cant": "position arithmetic for every length and alignment", "anchors": ["src/device/tape.c:tape_read_back", "src/device/tape.c:tape_read_frame", "src/device/tape.c:tape_finish_rec"]}
{"id": "C29", "title": "Tape marks", "statement": "A written tape mark is reported as a mark, forward and backward, and separates the surrounding records.", "quantifier": "any tape", "why_tests_cant": "history dependent", "anchors": ["src/device/tape.c:tape_write_mark", "src/device/tape.c:tape_read_forw", "src/device/tape.c:tape_read_back"]}
{"id": "C30", "title": "File protection", "statement": "With the write ring absent no operation changes the file contents.", "quantifier": "every sequence of operations", "why_tests_cant": "all histories", "anchors": ["src/device/tape.c:tape_write_start", "src/device/tape.c:tape_write_mark", "src/device/tape.c:tape_attach"]}
{"id": "C31", "title": "Buffering is invisible", "statement": "The windowed buffer behaves exactly like direct access to the file: every byte read is the byte last written there.", "quantifier": "every sequence of byte reads, writes and backward reads on files of any size", "why_tests_cant": "window refill/flush at every boundary", "anchors": ["src/device/tape.c:tape_read_byte", "src/device/tape.c:tape_write_byte", "src/device/tape.c:tape_readbk_byte", "src/device/tape.c:tape_write_prev"]}
{"id": "C32", "title": "Rewind", "statement": "After rewind completes the tape is at load point and forward reading starts at the first record.", "quantifier": "any tape and position", "why_tests_cant": "history", "anchors": ["src/device/tape.c:tape_start_rewind", "src/device/tape.c:tape_rewind_frames"]}
{"id": "C33", "title": "Load point is never passed", "statement": "No sequence of backward operations moves before the load point.", "quantifier": "every history", "why_tests_cant": "all histories", "anchors": ["src/device/tape.c:tape_readbk_byte", "src/device/tape.c:tape_read_back"]}
{"id": "C34", "title": "Device address parsing", "statement": "A hexadecimal address token parses to its value and the parser stops after it.", "quantifier": "every hex string", "why_tests_cant": "all strings", "anchors": ["src/conf.c:get_addr"]}
{"id": "C35", "title": "Integer option parsing", "statement": "A decimal option value parses to its numeric value, anything else is rejected.", "quantifier": "every string", "why_tests_cant": "all strings", "anchors": ["src/conf.c:get_integer"]}
{"id": "C36", "title": "Quoted string options", "statement": "A quoted option value is returned with doubled quotes reduced to one quote.", "quantifier": "every string", "why_tests_cant": "all strings", "anchors": ["src/conf.c:get_string"]}
{"id": "C37", "title": "Config parser stays in bounds", "statement": "Parsing any configuration line never writes outside the option record.", "quantifier": "every line", "why_tests_cant": "all inputs", "anchors": ["src/conf.c:get_model", "src/conf.c:get_addr", "src/conf.c:get_string", "src/conf.c:get_option"]}
{"id": "C38", "title": "Config parsing terminates", "statement": "Parsing the options of any configuration line terminates.", "quantifier": "every line", "why_tests_cant": "termination over all inputs", "anchors": ["src/conf.c:get_option", "src/conf.c:load_line"]}
{"id": "C39", "title": "Fresh disk format", "statement": "Every track of a freshly formatted disk starts with a home address naming its own cylinder and head, followed by record zero, for every supported drive type.", "quantifier": "every drive type, cylinder and head", "why_tests_cant": "all geometry", "anchors": ["src/device/dasd.c:dasd_format"]}
{"id": "C40", "title": "Volume label", "statement": "The volume label given at format time is returned when the disk is attached, blank padded.", "quantifier": "every label of up to 6 characters", "why_tests_cant": "all strings", "anchors": ["src/device/dasd.c:dasd_setvolid"]}
{"id": "C41", "title": "Seek preserves data", "statement": "Data written on a cylinder is still there after seeking away and back.", "quantifier": "every sequence of writes and seeks", "why_tests_cant": "histories; dirty-flag handling", "anchors": ["src/device/dasd.c:seek_callback", "src/device/dasd.c:dasd_write_byte", "src/device/dasd.c:dasd_read_byte"]}
{"id": "C42", "title": "Card reader loses no card", "statement": "Every card loaded in the 1442 hopper ends in exactly one place: hopper, read station, punch station or a stacker, in order.", "quantifier": "every sequence of feeds", "why_tests_cant": "histories", "anchors": ["src/model1442/model1442.c:model1442_feed"]}
{"id": "C43", "title": "Reader command decode", "statement": "A 1442 command byte with any reserved bit set is rejected with command reject, channel end, device end and unit check and moves no card.", "quantifier": "all 256 commands and all device states", "why_tests_cant": "exhaustive over commands and states", "anchors": ["src/model1442/model1442.c:device_cmd"]}
{"id": "C44", "title": "Reader bus discipline", "statement": "The 1442 raises in-tags only while it owns the interface, every byte it puts on bus-in has odd parity, and it never changes a channel's out-tags other than select out.", "quantifier": "every state, tag and bus value", "why_tests_cant": "state space is product of tags, bus and device state", "anchors": ["src/model1442/model1442.c:model1442_dev"]}
{"id": "C45", "title": "Reader reset", "statement": "Dropping operational out and suppress out from any state returns the 1442 to idle with all in-tags dropped.", "quantifier": "every state", "why_tests_cant": "all states", "anchors": ["src/model1442/model1442.c:model1442_dev"]}
{"id": "C46", "title": "Printer stays in bounds", "statement": "Printing and skipping never index outside the carriage control tape or the print line.", "quantifier": "every line length, row, command and carriage tape", "why_tests_cant": "all states", "anchors": ["src/model1443/model1443.c:print_line"]}
{"id": "C47", "title": "Printer line content", "statement": "The characters of a print command appear on the page in order, trailing blanks trimmed, followed by the commanded spacing.", "quantifier": "every data sequence and command", "why_tests_cant": "all inputs", "anchors": ["src/model1443/model1443.c:print_line"]}
{"id": "C48", "title": "Tape controller rejects writes without ring", "statement": "A write or write-tape-mark command to a tape without write ring ends with command reject and unit check and does not change the tape.", "quantifier": "all command bytes and states", "why_tests_cant": "exhaustive", "anchors": ["src/model2415/model2415.c:device_cmd"]}
{"id": "C49", "title": "Tape controller unit range", "statement": "Addressing any unit on the tape controller never accesses outside its unit table.", "quantifier": "all 8 unit numbers", "why_tests_cant": "all addresses", "anchors": ["src/model2415/model2415.c:model2415_dev", "src/model2415/model2415.c:device_cmd"]}
{"id": "C50", "title": "Console input is first in first out", "statement": "Characters typed on the console while input is enabled are delivered to the CPU in order, none lost or repeated.", "quantifier": "every interleaving of typing and reading", "why_tests_cant": "histories and interleavings", "anchors": ["src/model1052/model1052.c:push_char", "src/model1052/model1052.c:model1052_in"]}
{"id": "C51", "title": "Telnet filtering", "statement": "Telnet negotiation sequences never reach the CPU, all other characters do, and a doubled escape yields one character.", "quantifier": "every byte stream and every split of it into packets", "why_tests_cant": "all streams", "anchors": ["src/model1052/model1052.c:model1052_thrd"]}
{"id": "C52", "title": "Console table bounds", "statement": "No typed byte can index outside the translation table.", "quantifier": "all bytes", "why_tests_cant": "all inputs", "anchors": ["src/model1052/model1052.c:model1052_in"]}
{"id": "C53", "title": "2030 binary arithmetic", "statement": "The 2030 ALU add yields the 8-bit sum of the gated operands and carry, with the carry out and each bit carry correct; complement add is subtraction.", "quantifier": "all operands, gatings and carries", "why_tests_cant": "exhaustive claim against arithmetic", "anchors": ["src/model2030/cpu2030.c:cycle_2030"]}
{"id": "C54", "title": "2030 decimal arithmetic", "statement": "For valid packed digits decimal add and subtract yield the decimal digits and carry.", "quantifier": "all pairs of valid digit bytes", "why_tests_cant": "exhaustive claim against decimal arithmetic", "anchors": ["src/model2030/cpu2030.c:cycle_2030"]}
{"id": "C55", "title": "2030 results have good parity", "statement": "Every register loaded from the ALU carries odd parity unless even parity was requested.", "quantifier": "all operands and functions", "why_tests_cant": "exhaustive", "anchors": ["src/model2030/cpu2030.c:cycle_2030"]}
{"id": "C56", "title": "2030 microinstruction address in range", "statement": "The next microinstruction address always lies in the 4096 word control store.", "quantifier": "all microinstructions and machine states", "why_tests_cant": "all states", "anchors": ["src/model2030/cpu2030.c:cycle_2030"]}
{"id": "C57", "title": "2030 storage protection", "statement": "A store to main storage whose key mismatches a non-zero protect key leaves storage unchanged.", "quantifier": "all states", "why_tests_cant": "all states", "anchors": ["src/model2030/cpu2030.c:cycle_2030"]}
{"id": "C58", "title": "2030 memory bounds", "statement": "No sequence of microinstructions reads or writes main storage beyond the configured size.", "quantifier": "every microprogram and history", "why_tests_cant": "unbounded histories", "anchors": ["src/model2030/cpu2030.c:cycle_2030"]}
{"id": "C59", "title": "Read regenerates", "statement": "A read cycle followed by a write cycle without changing the data register leaves storage as it was and delivers the addressed byte.", "quantifier": "every address and storage contents", "why_tests_cant": "all states", "anchors": ["src/model2030/cpu2030.c:cycle_2030"]}
{"id": "C60", "title": "Disassembler lengths and fields", "statement": "The disassembler reads exactly the bytes of the instruction whose length is given by the two high opcode bits and shows its fields.", "quantifier": "all instruction byte sequences", "why_tests_cant": "all inputs", "anchors": ["src/device/disassem.c:print_inst"]}
{"id": "C61", "title": "Column to character conversion", "statement": "Converting a printable character to a card column and back through the public conversion functions gives the same character, and no byte value makes the conversion read outside its table.", "quantifier": "all 256 byte values", "why_tests_cant": "two hand-typed tables", "anchors": ["src/device/card.c:ascii_to_hol", "src/device/card.c:hol_to_ascii"]}
{"id": "C62", "title": "Automatic format round trip", "statement": "A deck saved in automatic format and loaded in automatic format comes back unchanged.", "quantifier": "all decks of punched cards", "why_tests_cant": "format detection depends on neighbouring cards in the file", "anchors": ["src/device/card.c:_parse_card", "src/device/card.c:_punch_card", "src/device/card.c:read_deck", "src/device/card.c:save_deck"]}
{"id": "C63", "title": "Loaded cards can be read", "statement": "Every card loaded from any file can be taken from the hopper without reading outside the conversion table.", "quantifier": "every file content, every format", "why_tests_cant": "needs an unusual continuation line", "anchors": ["src/device/card.c:read_card", "src/device/card.c:_parse_card"]}
{"id": "C64", "title": "Binary decks are recognised", "statement": "A deck saved in binary format loads identically in automatic format.", "quantifier": "all decks", "why_tests_cant": "format detection over arbitrary data", "anchors": ["src/device/card.c:_parse_card", "src/device/card.c:read_deck"]}
{"id": "C65", "title": "Tape calls return", "statement": "Every call of the tape interface returns, whatever the file contains and whatever was called before.", "quantifier": "every sequence of calls, every file content", "why_tests_cant": "non-termination on particular images", "anchors": ["src/device/tape.c:tape_finish_rec", "src/device/tape.c:tape_read_frame"]}
{"id": "C66", "title": "Tape shows a row of records", "statement": "After any history of record reads, backward reads, writes, marks and rewinds, every operation reports exactly what a row of records and marks with a head position would, and the file holds that row in the published layout.", "quantifier": "every history, every format", "why_tests_cant": "all histories", "anchors": ["src/device/tape.c:tape_read_forw", "src/device/tape.c:tape_read_back", "src/device/tape.c:tape_write_start", "src/device/tape.c:tape_write_mark", "src/device/tape.c:tape_finish_rec", "src/device/tape.c:tape_start_rewind", "src/device/tape.c:tape_detach"]}
{"id": "C67", "title": "Log level lines", "statement": "A LOGLEVEL line made of known level names turns on exactly the levels named and is accepted, and different names stand for different levels.", "quantifier": "every line of known names", "why_tests_cant": "all combinations", "anchors": ["src/logger.c:logLEVEL_create", "src/logger.c:log_type"]}
{"id": "C68", "title": "Values chosen from a list", "statement": "An option whose value must come from a list is resolved to the position of that value, and any other or missing value is refused.", "quantifier": "every value, every list", "why_tests_cant": "all strings", "anchors": ["src/conf.c:get_index"]}
{"id": "C69", "title": "Lines are independent", "statement": "What a configuration line means does not depend on the lines read before it.", "quantifier": "every line, every previous state", "why_tests_cant": "all histories", "anchors": ["src/conf.c:get_model", "src/conf.c:load_line"]}
{"id": "C70", "title": "Device name parsing", "statement": "A device name with optional model letter, dash number and slash number is split into exactly these parts.", "quantifier": "every name", "why_tests_cant": "all strings", "anchors": ["src/conf.c:get_model"]}
{"id": "C71", "title": "A microinstruction of the 2030 changes only the register its destination field names", "statement": "Of the registers D, L, G, T, V, U, J, I and H of the 2030, a microinstruction changes at most the one its destination field selects, whatever else it does (storage access, branch, special function).", "quantifier": "all microinstructions, machine states and external inputs", "why_tests_cant": "2^60 microwords and an unbounded state space; tests only run the microprogram supplied.", "anchors": ["src/model2030/cpu2030.c:cycle_2030"]}
{"id": "C72", "title": "Bad parity of a register used as B operand of the 2030 is reported", "statement": "When a register with wrong parity is gated to the B bus and no second error is pending, the machine check register records a B bus check at the end of the microinstruction.", "quantifier": "all microinstructions, machine states and external inputs", "why_tests_cant": "The report must not be lost in any combination of the other functions of the microinstruction.", "anchors": ["src/model2030/cpu2030.c:cycle_2030"]}
{"id": "C73", "title": "A selector channel transfer of the 2030 moves one byte, steps the address and counts down", "statement": "A storage cycle of a selector channel stores the received byte at the channel's data address (or fetches the byte to send from there), moves the address by one in the direction of the channel's own command, lowers the count by one, and does not touch the other channel's registers or other storage locations.", "quantifier": "all register contents, both channels, all interleavings of the channels' storage cycles", "why_tests_cant": "Addresses, counts and interleavings are unbounded; boundary values (address FFFF, count 0) and interleavings are hit only by luck.", "anchors": ["src/model2030/cpu2030.c:cycle_2030 lines 761-869"]}
{"id": "C74", "title": "Successors of a 2030 microinstruction", "statement": "A 2030 microinstruction without a special branch function continues in the group of four words its address fields name, whatever data, interrupts or errors it meets; only the choice among the four depends on them.", "quantifier": "all microinstructions without special branch, all machine states and inputs", "why_tests_cant": "2^60 microwords times the machine states", "anchors": ["src/model2030/cpu2030.c:cycle_2030"]}
{"id": "C75", "title": "Reader stacker selection", "statement": "The documented stacker bit of a 1442 command selects the stacker its cards go to, and saving a stacker saves that stacker.", "quantifier": "all commands and device states", "why_tests_cant": "all states", "anchors": ["src/model1442/model1442.c:device_cmd", "src/model1442/panel1442.c:model1442_update"]}
{"id": "C76", "title": "Reading a deck over the channel", "statement": "Read commands from a selector channel deliver the 80 translated columns of each card of the deck in hopper order, with good parity, channel end after the data and device end after the feed; an invalid column gives unit check, and only the last card with end of file pressed gives unit exception.", "quantifier": "every deck, of any number of cards with any columns, and every device at rest", "why_tests_cant": "histories of unbounded length through the whole state machine", "anchors": ["src/model1442/model1442.c:model1442_dev", "src/model1442/model1442.c:read_callback", "src/model1442/model1442.c:feed_callback", "src/model1442/model1442.c:model1442_feed"]}
{"id": "C77", "title": "Last card runs out", "statement": "After the last card of a deck was read with end of file pressed it can be run out of the reader to a stacker.", "quantifier": "every card and device state", "why_tests_cant": "histories", "anchors": ["src/model1442/model1442.c:feed_callback", "src/model1442/model1442.c:model1442_feed", "src/model1442/panel1442.c:model1442_update"]}
{"id": "C78", "title": "Reader sense", "statement": "A sense command to a 1442 at rest delivers the sense byte with good parity and then channel end and device end, moves no card and leaves the device at rest.", "quantifier": "every state at rest and every sense byte", "why_tests_cant": "all states", "anchors": ["src/model1442/model1442.c:model1442_dev", "src/model1442/model1442.c:device_cmd"]}
{"id": "C79", "title": "Reset ends everything", "statement": "After a reset the 1442 moves no card and presents no status on account of earlier operations.", "quantifier": "every state before the reset", "why_tests_cant": "all states", "anchors": ["src/model1442/model1442.c:model1442_dev"]}
{"id": "C80", "title": "Console interface discipline", "statement": "The console never drives the interface without owning it, answers only its own address, puts only good parity on the bus and never reads outside its tables, whatever the channel does.", "quantifier": "every device state, tag and bus value; every history", "why_tests_cant": "all states and histories", "anchors": ["src/model1052/model1052.c:model1052_dev"]}
{"id": "C81", "title": "Console command decoding", "statement": "A command code the 1052 does not have is refused at once with unit check and command reject and has no effect on the terminal; the commands it has are accepted.", "quantifier": "all 256 command bytes and every state at rest", "why_tests_cant": "all states", "anchors": ["src/model1052/model1052.c:device_cmd", "src/model1052/model1052.c:model1052_dev"]}
{"id": "C82", "title": "Console reset", "statement": "A system reset stops whatever the console does: afterwards it is idle, owns no line, and presents nothing on account of earlier operations.", "quantifier": "every history before the reset", "why_tests_cant": "all histories", "anchors": ["src/model1052/model1052.c:model1052_dev"]}
{"id": "C83", "title": "Reading a line", "statement": "A read command delivers to the channel the EBCDIC code of every character of the typed line in order, echoes the line, ends with channel end and device end on return (and unit exception on cancel), and leaves the keyboard locked.", "quantifier": "every line of any length, every console at rest", "why_tests_cant": "unbounded histories through terminal, events and channel", "anchors": ["src/model1052/model1052.c:model1052_dev", "src/model1052/model1052.c:poll_callback", "src/model1052/model1052.c:model1052_in", "src/model1052/model1052.c:push_char"]}
{"id": "C84", "title": "Writing a line", "statement": "A write command prints exactly the bytes the channel gives, in order, with a carrier return exactly for the command that asks for it, and ends with channel end and device end.", "quantifier": "every sequence of bytes, every console at rest", "why_tests_cant": "unbounded histories", "anchors": ["src/model1052/model1052.c:model1052_dev", "src/model1052/model1052.c:send_callback", "src/model1052/model1052.c:model1052_out"]}
{"id": "C85", "title": "Keyboard locked", "statement": "While no read command is active the keyboard is locked: what is typed is neither echoed nor kept.", "quantifier": "every history", "why_tests_cant": "all histories", "anchors": ["src/model1052/model1052.c:model1052_dev", "src/model1052/model1052.c:model1052_func", "src/model1052/model1052.c:push_char"]}
{"id": "C86", "title": "Console sense", "statement": "A sense command delivers the sense byte and ends.", "quantifier": "every state at rest, every behaviour of the channel", "why_tests_cant": "all continuations", "anchors": ["src/model1052/model1052.c:device_cmd", "src/model1052/model1052.c:model1052_dev"]}
{"id": "C87", "title": "Interlock with the channel", "statement": "Every tag the 1442 or the 1052 raises falls when the channel answers it; an accepted ending status frees the device; a stacked status is kept and offered again.", "quantifier": "every device state, tag and bus value", "why_tests_cant": "all states", "anchors": ["src/model1052/model1052.c:model1052_dev", "src/model1442/model1442.c:model1442_dev"]}
{"id": "C88", "title": "Volume record of a formatted disk", "statement": "The volume record written by formatting points to a table of contents on a cylinder the drive has, whatever the label.", "quantifier": "every drive type and label", "why_tests_cant": "all labels", "anchors": ["src/device/dasd.c:dasd_format"]}
{"id": "C89", "title": "Detach saves the pack", "statement": "After a disk is detached its image file holds, for every cylinder, the bytes last recorded on it.", "quantifier": "every mounted pack, every history before the detach", "why_tests_cant": "histories; dirty-flag handling", "anchors": ["src/device/dasd.c:dasd_detach", "src/device/dasd.c:dasd_write_byte"]}
{"id": "C90", "title": "Reading does not alter the image", "statement": "Reading, seeking, selecting heads and letting the disk turn never change the image file, although buffers are written back.", "quantifier": "every history without a write", "why_tests_cant": "unbounded histories", "anchors": ["src/device/dasd.c:dasd_read_byte", "src/device/dasd.c:seek_callback", "src/device/dasd.c:dasd_settags", "src/device/dasd.c:dasd_step", "src/device/dasd.c:dasd_detach"]}
{"id": "C91", "title": "A revolution delivers the track", "statement": "A drive that is read from the index on delivers, in every revolution, the home address and then every record of the selected track in order with its count, key and data fields, sync and check bytes, and nothing else.", "quantifier": "every drive type, every track whose records fit, every number of revolutions, any junk on the bus", "why_tests_cant": "unbounded revolutions and arbitrary records", "anchors": ["src/device/dasd.c:dasd_read_byte"]}
{"id": "C92", "title": "Writing a record's data", "statement": "Writing a gap, a sync byte, as many data bytes as the record has and two check bytes behind a record's count and key changes exactly the record's data bytes in the image buffer and leaves the drive at the next record.", "quantifier": "every drive type, record, position, gap and data", "why_tests_cant": "all records and data", "anchors": ["src/device/dasd.c:dasd_write_byte"]}
{"id": "C93", "title": "Rewriting a record", "statement": "A channel program that reads up to any record of a track, writes its data and reads on sees the rest of the track unchanged, and every later revolution delivers the track with exactly that record's data replaced.", "quantifier": "every track, record, data and number of revolutions", "why_tests_cant": "unbounded", "anchors": ["src/device/dasd.c:dasd_read_byte", "src/device/dasd.c:dasd_write_byte"]}
{"id": "C94", "title": "Skipping stops at the channel's line", "statement": "A skip to a channel of the carriage control tape that is punched moves the paper to the next line with that channel, on the next page if there is none left on this one.", "quantifier": "every channel, line and file", "why_tests_cant": "all lines and channels", "anchors": ["src/model1443/model1443.c:print_line"]}
{"id": "C95", "title": "Pages have the length of the form", "statement": "Spacing over the last line of the form writes a form feed and starts the next page at line one, so that a page has as many lines as the form.", "quantifier": "every number of lines spaced", "why_tests_cant": "unbounded", "anchors": ["src/model1443/model1443.c:print_line"]}
{"id": "C96", "title": "Printer command set", "statement": "A ready printer accepts exactly the commands of its manual, refuses every other command with unit check and command reject without moving the paper, and every accepted command ends.", "quantifier": "every command byte, state of the paper and later history", "why_tests_cant": "all 256 bytes, all continuations", "anchors": ["src/model1443/model1443.c:model1443_dev"]}
{"id": "C97", "title": "Printer sense", "statement": "After a unit check a sense command delivers the sense byte of the printer and ends with channel end and device end.", "quantifier": "every sense byte and printer state", "why_tests_cant": "all states", "anchors": ["src/model1443/model1443.c:model1443_dev"]}
{"id": "C98", "title": "Printing over the channel", "statement": "A channel that writes lines to a ready printer, byte by byte on the multiplexor channel, gets status zero, channel end and device end for each of them, and the paper then has the lines one below the other with their spacing.", "quantifier": "every sequence of lines, bytes and spacings", "why_tests_cant": "unbounded sequences", "anchors": ["src/model1443/model1443.c:model1443_dev", "src/model1443/model1443.c:print_line"]}
{"id": "C99", "title": "Printer on the interface", "statement": "The printer never changes the channel's lines except by taking select out, puts only bytes of odd parity on bus in, does nothing when another device is selected and drives its lines only when it has been selected.", "quantifier": "every history of bus calls, events and keys", "why_tests_cant": "all histories", "anchors": ["src/model1443/model1443.c:model1443_dev"]}
{"id": "C100", "title": "Printer reset", "statement": "A system reset at any moment leaves the printer idle with its lines down, without status, sense or pending work, and the paper unchanged.", "quantifier": "every history before the reset and after it", "why_tests_cant": "all histories", "anchors": ["src/model1443/model1443.c:model1443_dev"]}
{"id": "C101", "title": "A trace line tells the instruction", "statement": "Two different instructions, apart from fields without meaning, never give the same line in the instruction trace.", "quantifier": "every pair of instructions and what follows them in storage", "why_tests_cant": "all pairs of up to six byte sequences", "anchors": ["src/device/disassem.c:print_inst"]}
{"id": "C102", "title": "Writing a tape", "statement": "A write command for a reel with the ring takes the bytes from the channel and records them as one block behind the head.", "quantifier": "every reel, position, command and data", "why_tests_cant": "all reels and data", "anchors": ["src/model2415/model2415.c:device_cmd", "src/model2415/model2415.c:tape_callback"]}
{"id": "C103", "title": "Channel programs see the tape", "statement": "A channel program of reads, backward reads, spacing over blocks and files, tape marks and rewinds over any of the drives gets exactly the blocks and marks recorded on the reels, in the order of motion and under the right unit address, with channel end, device end and unit exception where they belong.", "quantifier": "every program, every content of the reels, every timing of events, bus calls and hold out", "why_tests_cant": "unbounded programs and interleavings", "anchors": ["src/model2415/model2415.c:model2415_dev", "src/model2415/model2415.c:device_cmd", "src/model2415/model2415.c:tape_callback", "src/model2415/model2415.c:rewind_callback", "src/device/tape.c:tape_read_frame"]}
{"id": "C104", "title": "Reading past the recorded data", "statement": "A read past the end of what is recorded is reported to the program by unit check or unit exception and never looks like a block.", "quantifier": "every reel and position", "why_tests_cant": "all reels", "anchors": ["src/model2415/model2415.c:tape_callback", "src/device/tape.c:tape_read_forw"]}
{"id": "C105", "title": "Tape control on the interface", "statement": "The tape control never changes the channel's lines except by taking select out, raises its lines only when it was selected or owns the interface, shows the address of the unit with address in, answers a selection while it is working by busy and status modifier with status in alone, and puts only bytes of odd parity on bus in.", "quantifier": "every state, tag and bus value; every history", "why_tests_cant": "all histories", "anchors": ["src/model2415/model2415.c:model2415_dev"]}
{"id": "C106", "title": "Operations are not forgotten", "statement": "An operation for which the channel got channel end is carried out and its device end is presented, whatever commands the channel gives in the meantime.", "quantifier": "every operation, unit and command in between", "why_tests_cant": "all interleavings", "anchors": ["src/model2415/model2415.c:model2415_dev", "src/model2415/model2415.c:device_cmd", "src/model2415/model2415.c:tape_callback"]}
{"id": "C107", "title": "Tape control reset", "statement": "After a system reset the control is idle with its lines down and presents no status on account of earlier operations.", "quantifier": "every history before the reset", "why_tests_cant": "all histories", "anchors": ["src/model2415/model2415.c:model2415_dev"]}
{"id": "C108", "title": "Tape sense", "statement": "A sense command delivers the six sense bytes of the unit, as many as the channel takes, and ends with channel end and device end, and changes nothing.", "quantifier": "every unit, drive state, sense content, number of bytes and timing", "why_tests_cant": "all states", "anchors": ["src/model2415/model2415.c:device_cmd", "src/model2415/model2415.c:model2415_dev"]}
{"id": "C109", "title": "Drive not ready", "statement": "A read, write or control command for a drive that is not ready ends with unit check, and sense shows intervention required.", "quantifier": "every command and every drive that is not ready", "why_tests_cant": "all commands and states", "anchors": ["src/model2415/model2415.c:device_cmd"]}
{"id": "C110", "title": "Model 50 instructions", "statement": "On the Model 50 every supported instruction leaves registers, condition code, program mask, storage and instruction address exactly as the System/360 architecture prescribes, whenever the interval timer ticks.", "quantifier": "every instruction of the supported set, every register and storage content, every state between two instructions, every timing of the timer", "why_tests_cant": "the instruction passes through many microinstructions and storage cycles; all operands and timings", "anchors": ["src/model2050/cpu2050.c:cycle_2050", "src/model2050/ros.txt"]}
{"id": "C111", "title": "Model 50 programs", "statement": "A program of supported instructions of any length, with branches, leaves the registers and storage the architecture prescribes.", "quantifier": "every program, storage content and number of instructions", "why_tests_cant": "unbounded programs", "anchors": ["src/model2050/cpu2050.c:cycle_2050", "src/model2050/ros.txt"]}
{"id": "C112", "title": "Precise interruptions", "statement": "When an interruption is requested at any moment while a program runs it is taken between two instructions, all instructions before it completed and none after it begun, with the address of the next instruction.", "quantifier": "every program and every cycle at which the timer ticks", "why_tests_cant": "all interleavings", "anchors": ["src/model2050/cpu2050.c:cycle_2050", "src/model2050/ros.txt"]}
{"id": "C113", "title": "Stored instructions are executed", "statement": "An instruction that has just been stored is executed as stored, even when it is the next one.", "quantifier": "every store and every following instruction", "why_tests_cant": "all programs that modify themselves", "anchors": ["src/model2050/cpu2050.c:cycle_2050", "src/model2050/ros.txt"]}
{"id": "C114", "title": "Storage protection on the Model 50", "statement": "A store into a block whose storage key differs from a nonzero protection key changes nothing and leads to a protection interruption; with matching keys it is carried out.", "quantifier": "every store, address, key and timing", "why_tests_cant": "all keys and addresses", "anchors": ["src/model2050/cpu2050.c:cycle_2050", "src/model2050/ros.txt"]}
{"id": "C115", "title": "Every address its own word", "statement": "On every configurable storage size each address in storage designates its own word.", "quantifier": "every address, state and storage size", "why_tests_cant": "all addresses", "anchors": ["src/model2050/cpu2050.c:cycle_2050", "src/model2050/cpu2050.c:model2050_create"]}
{"id": "C116", "title": "Disk control answers its own addresses only", "statement": "The 2844 disk control takes a selection, and answers with address in, only for addresses of its own; selections of other devices pass it by unchanged.", "quantifier": "every address, drive configuration and interleaving of channel and microprogram", "why_tests_cant": "all interleavings", "anchors": ["src/model2844/model2844.c:model2844_dev", "src/model2844/model2844.c:step_2844"]}
{"id": "C117", "title": "Starting I/O never ends the simulator", "statement": "Whatever address the channel selects, the simulator goes on, also when no drive is attached at this address.", "quantifier": "every address, drive configuration and interleaving", "why_tests_cant": "all interleavings", "anchors": ["src/model2844/model2844.c:model2844_dev", "src/model2844/model2844.c:step_2844", "src/device/dasd.c:dasd_settags"]}
{"id": "C118", "title": "Disk control stays in its microprogram", "statement": "Whatever the channel and the drives do, the microprogram of the 2844 never leaves its control storage.", "quantifier": "every history of channel cycles and microinstructions, every drive", "why_tests_cant": "unbounded histories", "anchors": ["src/model2844/model2844.c:step_2844", "src/model2844/model2844.c:model2844_init"]}
{"id": "C119", "title": "Writing on a drive is determined", "statement": "What a byte written by the disk control does to the drive and to the check bytes depends on the commands and the data only.", "quantifier": "every state of control and drive", "why_tests_cant": "uninitialised values differ from run to run", "anchors": ["src/model2844/model2844.c:step_2844", "src/device/dasd.c:dasd_write_byte"]}
{"id": "C120", "title": "Initial selection of a drive", "statement": "When the channel selects a drive which is attached, the disk control becomes operational and shows exactly this address, with odd parity, within a fixed number of microinstructions, and never shows any other.", "quantifier": "every attached drive and every interleaving of the channel's cycles with the microinstructions", "why_tests_cant": "all interleavings", "anchors": ["src/model2844/model2844.c:model2844_dev", "src/model2844/model2844.c:step_2844", "src/model2844/model2844_ros.txt"]}
{"id": "C121", "title": "Disk control reset", "statement": "A system reset leaves the disk control deselected with all its lines down, and they stay down until it is selected again.", "quantifier": "every history before the reset", "why_tests_cant": "all histories", "anchors": ["src/model2844/model2844.c:model2844_dev"]}
{"id": "C122", "title": "Idle disk control is transparent", "statement": "A disk control which is idle changes none of the interface lines while the channel works with other control units.", "quantifier": "every idle state and every cycle without address out", "why_tests_cant": "all states", "anchors": ["src/model2844/model2844.c:model2844_dev"]}
{"id": "C123", "title": "Disk control after power on", "statement": "From power on the disk control comes to rest waiting for the channel within eleven microinstructions, drives no line on the way, and rests until it is selected.", "quantifier": "every set of drives, every schedule of cycles and microinstructions of any length", "why_tests_cant": "unbounded schedules", "anchors": ["src/model2844/model2844.c:step_2844", "src/model2844/model2844.c:model2844_dev", "src/model2844/model2844_ros.txt"]}
{"id": "C124", "title": "Polls pass a control with nothing to report", "statement": "When the channel polls the control units, a disk control that has nothing to report lets select out pass.", "quantifier": "every history", "why_tests_cant": "all histories", "anchors": ["src/model2844/model2844.c:model2844_dev"]}
{"id": "C125", "title": "Supervisor call on the Model 50", "statement": "SUPERVISOR CALL stores the old PSW at 20 (hexadecimal) with the number of the call as interruption code, the instruction length and the address of the next instruction, loads the new PSW from 60, and changes no register and no other word.", "quantifier": "every call number, PSW, register and storage content, every timing of the timer", "why_tests_cant": "the exchange takes some thirty microinstructions and six storage cycles; all PSWs and timings", "anchors": ["src/model2050/cpu2050.c:cycle_2050", "src/model2050/ros.txt"]}
{"id": "C126", "title": "Program interruptions on the Model 50", "statement": "An operation code without instruction, a privileged instruction in the problem state and a store into a protected block have no effect but a program interruption: old PSW with the right code at 28, new PSW from 68.", "quantifier": "every instruction, PSW, key, register and storage content, every timing", "why_tests_cant": "all states; the cases are spread over the microprogram", "anchors": ["src/model2050/cpu2050.c:cycle_2050", "src/model2050/ros.txt"]}
{"id": "C127", "title": "Load PSW on the Model 50", "statement": "LOAD PSW in the supervisor state replaces system mask, key, AMWP bits, condition code, program mask and instruction address by those of the doubleword addressed, and changes nothing else.", "quantifier": "every PSW, address and storage content, every timing", "why_tests_cant": "all states", "anchors": ["src/model2050/cpu2050.c:cycle_2050", "src/model2050/ros.txt"]}
{"id": "C128", "title": "Programs under a supervisor", "statement": "A program and the supervisor it calls, with the interruptions its instructions cause, are carried out as the architecture prescribes over any number of instructions; a call which the supervisor answers with LOAD PSW of the old PSW continues the program as if nothing had happened.", "quantifier": "every program and supervisor of the supported instructions, any number of instructions, every timing", "why_tests_cant": "unbounded programs", "anchors": ["src/model2050/cpu2050.c:cycle_2050", "src/model2050/ros.txt"]}
{"id": "C129", "title": "Confinement of programs", "statement": "A program of the supported instructions changes neither protection key, problem state, system mask nor storage keys, nor any storage in blocks whose key is not its own, however long it runs and whenever the timer ticks.", "quantifier": "every program, number of instructions, storage content, key assignment and timing", "why_tests_cant": "unbounded programs, all interleavings", "anchors": ["src/model2050/cpu2050.c:cycle_2050", "src/model2050/ros.txt"]}
{"id": "C130", "title": "Interval timer of the Model 50", "statement": "When the timer has ticked, the processor steps the timer word at 80 between two instructions: no register, condition code, PSW, key or other word changes, the program goes on with the instruction that was next, and a timer interruption is requested exactly when the value goes from not negative to negative.", "quantifier": "every timer value, PSW, register and storage content, every timing of further ticks", "why_tests_cant": "the update takes many microinstructions and two storage cycles between any two instructions", "anchors": ["src/model2050/cpu2050.c:cycle_2050", "src/model2050/ros.txt"]}
{"id": "C131", "title": "External interruptions on the Model 50", "statement": "A requested external interruption which the mask allows is taken between two instructions: old PSW with code 80 for the timer or 40 for the key at 24, new PSW from 88; the request that was served is withdrawn and the other one stays.", "quantifier": "every PSW, request, register and storage content, every timing", "why_tests_cant": "all states and timings", "anchors": ["src/model2050/cpu2050.c:cycle_2050", "src/model2050/ros.txt"]}
{"id": "C132", "title": "Programs, timer and interruptions interleave", "statement": "Whatever ticks come, a run of the Model 50 is a sequence of whole instructions as the architecture prescribes, steps of the timer, and external interruptions allowed by the mask, of any length.", "quantifier": "every program of the supported instructions, every tick schedule, any number of events", "why_tests_cant": "all interleavings, unbounded", "anchors": ["src/model2050/cpu2050.c:cycle_2050", "src/model2050/ros.txt"]}
{"id": "C133", "title": "Model 50 stays in its microprogram", "statement": "Whatever program, data and operands the Model 50 meets, the microprogram never leaves the control storage of the machine: every microinstruction carried out is one of the microprogram.", "quantifier": "every state between two instructions, every program, every length of run, every tick schedule, up to a channel operation", "why_tests_cant": "unbounded runs over all programs; a branch into an unused control word is found only by the operands that cause it", "anchors": ["src/model2050/cpu2050.c:cycle_2050", "src/model2050/ros.txt"]}
{"id": "C134", "title": "Any problem program is confined", "statement": "A program in the problem state, whatever bytes it consists of, addresses no channel, keeps protection key, system mask, problem state and all storage keys, and changes no word in a block whose storage key is not its own, until an interruption gives control to the supervisor.", "quantifier": "every program (all instructions and invalid codes), storage content, key assignment, length of run and tick schedule", "why_tests_cant": "unbounded programs over the whole instruction set", "anchors": ["src/model2050/cpu2050.c:cycle_2050", "src/model2050/ros.txt"]}
{"id": "C135", "title": "Storage protection in every cycle", "statement": "In every machine cycle of every run, with any instructions, states and interruptions, a word of storage changes only if the protection key is zero or equals the storage key of the block.", "quantifier": "every run of any length from every state between two instructions, every word of storage", "why_tests_cant": "all programs and cycles", "anchors": ["src/model2050/cpu2050.c:cycle_2050", "src/model2050/ros.txt"]}
{"id": "C136", "title": "Requests for interruption are not lost", "statement": "A timer tick, a timer interruption request, the interruption key and channel requests stay pending, however long they are masked and whatever is executed, until the processor takes them; a request that is taken appears in the interruption code.", "quantifier": "every run of any length, every program, every moment of a request", "why_tests_cant": "all interleavings, unbounded", "anchors": ["src/model2050/cpu2050.c:cycle_2050", "src/model2050/ros.txt"]}
{"id": "C137", "title": "Storage keys are set and inserted as the architecture says", "statement": "SET STORAGE KEY in the supervisor state makes bits 24-27 of the first register the key of the addressed 2048-byte block and changes nothing else; INSERT STORAGE KEY brings the key of the block into the first register. An address which is not a multiple of 16 causes a specification interruption, and an address outside of storage an addressing interruption; no key outside of the installed ones is used.", "quantifier": "every supervisor state between two instructions, every pair of register values, every schedule of timer ticks", "why_tests_cant": "2^24 addresses, all key arrays, all microprogram interleavings", "anchors": ["src/model2050/cpu2050.c:cycle_2050", "src/model2050/model2050.h:MP", "src/model2050/ros.txt"]}
{"id": "C138", "title": "The 2050 processor stays inside its arrays", "statement": "Whatever program and operands are in storage, the simulated processor reads and writes only inside main storage, bump storage, local storage and the storage-key array.", "quantifier": "every run of any length from every state between two instructions, every program and operand, every schedule of timer ticks", "why_tests_cant": "all programs, unbounded runs", "anchors": ["src/model2050/cpu2050.c:cycle_2050", "src/model2050/model2050.h", "src/model2050/ros.txt"]}
{"id": "C139", "title": "Selector channel reads arrive complete and in order", "statement": "While a selector channel of the Model 50 reads, the bytes accepted from the device are at every moment exactly those which have gone to main storage followed by those the channel holds, in the order sent; when the channel goes on to end the operation all of them are in storage.", "quantifier": "every device, every sequence of bytes, every timing of device, microprogram and other channels, reading forward and backward, from every byte position", "why_tests_cant": "three registers and two routines work at once; all interleavings, unbounded transfers", "anchors": ["src/model2050/cpu2050.c:cycle_2050"]}
{"id": "C140", "title": "Selector channel writes send exactly the bytes of the CCW", "statement": "A write on a selector channel of the Model 50 sends the device the bytes of main storage from the data address on, in order, each once and with odd parity, and exactly as many as the count says.", "quantifier": "every count and data address, every device, every timing of device, microprogram and other channels", "why_tests_cant": "three registers and two routines work at once; all interleavings, unbounded transfers", "anchors": ["src/model2050/cpu2050.c:cycle_2050"]}
{"id": "C141", "title": "The count ends a read exactly", "statement": "A read on a selector channel accepts exactly as many bytes as the count of the CCW has left, and no more: a device which offers another one gets command out, the byte is not taken, and incorrect length is indicated unless it is suppressed.", "quantifier": "every position and remaining count within the last three words, every timing of device and microprogram, forward and backward", "why_tests_cant": "all interleavings and counts", "anchors": ["src/model2050/cpu2050.c:cycle_2050"]}
{"id": "C142", "title": "Service out follows the interface protocol", "statement": "While a selector channel reads, service out stays up as long as the device holds service in or status in and falls when both are down; a byte is accepted once however long the device holds it.", "quantifier": "every state of the channel during a read, every timing of device and microprogram", "why_tests_cant": "all interleavings, unbounded waiting", "anchors": ["src/model2050/cpu2050.c:cycle_2050"]}
{"id": "C143", "title": "Selector channels do not disturb each other", "statement": "What happens to a transfer on one selector channel does not depend on what the other channels do, except for when its routines are run.", "quantifier": "every state of the three channels, every interface, every schedule", "why_tests_cant": "all interleavings of three channels", "anchors": ["src/model2050/cpu2050.c:cycle_2050"]}
{"id": "C144", "title": "Data chaining loses no byte", "statement": "When a read goes on with the next CCW by data chaining, the bytes accepted under the first one still reach storage.", "quantifier": "every transfer with data chaining, every timing", "why_tests_cant": "all interleavings", "anchors": ["src/model2050/cpu2050.c:cycle_2050"]}
{"id": "C145", "title": "Initial selection by a selector channel", "statement": "Selecting a unit for START I/O, TEST I/O or the next command of a chain, a selector channel of the Model 50 shows the address of the unit with address out, then the command (zero for TEST I/O) with command out as long as the unit holds address in up, all bytes with odd parity, never two of these at once, and takes the status of the unit once; the status decides the condition code, whether data follow, whether the next command is fetched and whether the status is stored.", "quantifier": "every unit address, command and status byte, every number of cycles the unit takes for each step, every activity of processor and other channels meanwhile", "why_tests_cant": "all interleavings, unbounded waiting, 2^24 byte combinations", "anchors": ["src/model2050/cpu2050.c:cycle_2050", "src/model2841/model2841.c:model2841_dev"]}
{"id": "C146", "title": "A unit with the wrong address gets no command", "statement": "When the address a unit returns in initial selection is not the one addressed, the selector channel does not give it the command and notes an interface control check.", "quantifier": "every pair of addresses, every timing of the unit", "why_tests_cant": "all timings and addresses", "anchors": ["src/model2050/cpu2050.c:cycle_2050"]}
{"id": "C147", "title": "Selection of a missing unit ends", "statement": "When no unit takes select out, the selection by a selector channel ends: an instruction with condition code 3, a command of a chain with an interruption.", "quantifier": "every state at the start of a selection, any number of further cycles", "why_tests_cant": "absence of an endless wait is a statement about all lengths of runs", "anchors": ["src/model2050/cpu2050.c:cycle_2050"]}
{"id": "C148", "title": "2841 control stays in its control storage", "statement": "Whatever the channel and the drives do, the microprogram of the 2841 disk control never leaves its control storage, never uses a drive which is not attached and never depends on a value nobody has set.", "quantifier": "every address and set of drives, every schedule of channel cycles and microinstructions of any length from power on", "why_tests_cant": "unbounded schedules over all line and bus values", "anchors": ["src/model2841/model2841.c:step_2841", "src/model2841/model2841.c:model2841_dev", "src/model2841/ros.txt"]}
{"id": "C149", "title": "2841 control after power on", "statement": "From power on the 2841 comes to rest waiting for the channel within eighteen microinstructions, raises no line and puts nothing on the bus on the way, and rests until it is selected.", "quantifier": "every set of drives without attention, every schedule of cycles for other units and of microinstructions, of any length", "why_tests_cant": "unbounded schedules", "anchors": ["src/model2841/model2841.c:step_2841", "src/model2841/model2841.c:model2841_dev"]}
{"id": "C150", "title": "Initial selection of a 2841", "statement": "When the channel selects an address of an idle 2841, the control becomes operational and shows exactly this address with good parity, however channel cycles and microinstructions interleave, and at no time another one.", "quantifier": "every idle state, every address of the control, every interleaving of any length", "why_tests_cant": "all interleavings", "anchors": ["src/model2841/model2841.c:step_2841", "src/model2841/model2841.c:model2841_dev"]}
{"id": "C151", "title": "An idle 2841 leaves the others alone", "statement": "An idle 2841 changes none of the interface lines while the channel works with other control units on the same channel.", "quantifier": "every idle state, all line and bus values", "why_tests_cant": "all line values, any other control unit", "anchors": ["src/model2841/model2841.c:model2841_dev"]}
{"id": "C152", "title": "A configured 2841 can be addressed", "statement": "A 2841 configured at an address answers when the channel selects that address.", "quantifier": "every configured address and every schedule", "why_tests_cant": "all addresses and schedules", "anchors": ["src/model2841/model2841.c:model2841_create", "src/model2841/model2841.c:model2841_dev"]}
{"id": "C153", "title": "2841 reset", "statement": "A system reset leaves the 2841 deselected with all its lines down, and they stay down until it is selected again.", "quantifier": "every history before the reset", "why_tests_cant": "all histories", "anchors": ["src/model2841/model2841.c:model2841_dev"]}
{"id": "C154", "title": "A withdrawn selection of a 2841 is forgotten", "statement": "When the channel takes an address off again without having raised select out, the 2841 forgets it: it lets the next poll pass and leaves the lines of the other control units alone.", "quantifier": "every idle state, every length of time in between", "why_tests_cant": "all histories", "anchors": ["src/model2841/model2841.c:model2841_dev"]}
{"id": "C155", "title": "A busy control unit is reported", "statement": "When a control unit answers the selection by START I/O or TEST I/O with status instead of its address (control unit busy), the instruction ends with condition code 1 and the status of the control unit is kept for the channel status word.", "quantifier": "every status byte, every unit address and command, every activity of processor and other channels meanwhile", "why_tests_cant": "all states and bytes", "anchors": ["src/model2050/cpu2050.c:cycle_2050"]}
{"id": "C156", "title": "START I/O to a disk control ends", "statement": "START I/O on a selector channel of the Model 50 to a 2841 disk control ends: after finitely many passes of the simulator's main loop the condition code is set and the processor goes on.", "quantifier": "every command, any number of passes of the main loop (two machine cycles, then two microinstructions of the control)", "why_tests_cant": "that an instruction never ends is a statement about all lengths of runs of two microprogrammed machines together", "anchors": ["src/model2050/cpu2050.c:cycle_2050", "src/model2841/model2841.c:model2841_dev", "src/panel/panel.c:process"]}
{"id": "C157", "title": "Disk controls give good parity", "statement": "A 2841 or 2844 disk control never puts a byte of wrong parity on bus in: after every step bus in is what it was before or has an odd number of bits.", "quantifier": "every state of the control, every value on bus out and every history of the interface and of microinstructions", "why_tests_cant": "all states, bytes and histories", "anchors": ["src/model2844/model2844.c:model2844_dev", "src/model2841/model2841.c:model2841_dev"]}
{"id": "C158", "title": "Return ends the line", "statement": "What the operator types after return is not part of the line: the CPU gets the characters before return, then the end of the block is signalled.", "quantifier": "every two texts typed without a pause, every console waiting for input", "why_tests_cant": "all texts and states", "anchors": ["src/model1052/model1052.c:push_char", "src/model1052/model1052.c:model1052_func", "src/model1052/model1052.c:model1052_in"]}
{"id": "C159", "title": "Printing keeps characters and line feeds", "statement": "Each character printed by the CPU is sent to the terminal once and in order, and a line feed is sent after each carriage return and nowhere else, however the CPU and the thread of the terminal are interleaved.", "quantifier": "every sequence of printed characters and every interleaving of the two threads", "why_tests_cant": "all interleavings of two threads", "anchors": ["src/model1052/model1052.c:model1052_out", "src/model1052/model1052.c:model1052_thrd", "src/model1052/model1052.c:send_callback"]}
{"id": "C160", "title": "EXECUTE carries out the instruction at its operand address", "statement": "EXECUTE on the Model 50 carries out the one instruction at its operand address, exactly as if it stood there in the program but with the low byte of the first register combined by OR into its second byte (unless that register is 0), and continues after the EXECUTE.", "quantifier": "every machine state, every subject instruction and modifier, every storage timing and timer tick", "why_tests_cant": "all instructions, operands and alignments", "anchors": ["src/model2050/cpu2050.c:cycle_2050", "src/model2050/ros.txt"]}
{"id": "C161", "title": "LOAD MULTIPLE and STORE MULTIPLE", "statement": "On the Model 50 LOAD MULTIPLE loads the registers from the first to the last one named, register 0 following register 15, from consecutive words, and STORE MULTIPLE stores them; nothing else is changed, and the instructions which follow are fetched as they are after the store.", "quantifier": "every pair of registers, every word-aligned operand in storage the program may access, every state between two instructions, every storage timing and timer tick", "why_tests_cant": "256 register pairs times all addresses and contents, loops of up to 16 words", "anchors": ["src/model2050/cpu2050.c:cycle_2050", "src/model2050/ros.txt"]}
{"id": "C162", "title": "Wrong operand addresses cause exactly the prescribed interruption", "statement": "When the operand address of an instruction of the Model 50 with a doubleword, word, halfword or byte operand in storage is not a multiple of the operand's length, there is a program interruption for specification (code 6); when it is outside of storage, one for addressing (code 5). Registers, condition code and storage keep their values; only the old PSW is stored and the new one loaded.", "quantifier": "every such instruction (STH, STC, IC, EX, LH, CH, AH, SH, MH, ST, N, CL, O, X, L, C, A, S, M, D, AL, SL, SSM, LPSW, STM, TM, MVI, TS, NI, CLI, OI, XI, LM), every operand address, every state between two instructions, every timer tick", "why_tests_cant": "2^24 addresses, all sizes of storage, all states", "anchors": ["src/model2050/cpu2050.c:cycle_2050", "src/model2050/ros.txt"]}
{"id": "C163", "title": "TEST AND SET", "statement": "TEST AND SET on the Model 50 makes the addressed byte all ones and its leftmost bit before that the condition code, and changes nothing else; a protected byte is not changed and causes a protection interruption.", "quantifier": "every byte address in storage, every content, protection key and state between two instructions, every storage timing and timer tick", "why_tests_cant": "all addresses and contents", "anchors": ["src/model2050/cpu2050.c:cycle_2050", "src/model2050/ros.txt"]}
{"id": "C164", "title": "SET SYSTEM MASK", "statement": "SET SYSTEM MASK on the Model 50 in the supervisor state makes the addressed byte the system mask and changes nothing else; the mask stored by the next interruption is the one in use.", "quantifier": "every byte address in storage, every content and supervisor state between two instructions, every storage timing and timer tick", "why_tests_cant": "all addresses, masks and states", "anchors": ["src/model2050/cpu2050.c:cycle_2050", "src/model2050/ros.txt"]}
{"id": "C165", "title": "Arithmetic of the disk controls", "statement": "The adder of the 2841 and of the 2844 gives for every microinstruction that ends the sum of its two inputs and the chosen carry as a number of nine bits, or their AND, OR or exclusive OR without a carry; the zero test and the kept carry agree with it. Two microinstructions which add to the low byte and then, with the kept carry, to the high byte of a count of two bytes add to the count as one number, whatever the drives do meanwhile.", "quantifier": "every control storage, microinstruction, pair of inputs, register state and activity of the eight drives", "why_tests_cant": "all inputs, carries and histories", "anchors": ["src/model2841/model2841.c:step_2841", "src/model2844/model2844.c:step_2844"]}
{"id": "C166", "title": "EXECUTE of EXECUTE", "statement": "When the subject of an EXECUTE on the Model 50 is itself an EXECUTE, there is a program interruption for execute (code 3); registers, condition code and storage keep their values and the old PSW points behind the first EXECUTE.", "quantifier": "every EXECUTE and every EXECUTE at an even address in storage as its subject, every state between two instructions, every timer tick", "why_tests_cant": "all addresses, registers and states", "anchors": ["src/model2050/cpu2050.c:cycle_2050", "src/model2050/ros.txt"]}
{"id": "C167", "title": "SHIFT LEFT SINGLE", "statement": "SHIFT LEFT SINGLE on the Model 50 multiplies the signed number in its register by the power of two given by the low six bits of the operand address and sets the condition code by the sign of the product. If the product does not fit into 32 bits the sign stays, the other 31 bits are those of the product, the condition code is 3, and with the overflow mask on a program interruption with code 8 follows.", "quantifier": "every value, every shift amount, every state of the processor, every storage timing and timer tick", "why_tests_cant": "all 2^32 values times 64 amounts in every machine state", "anchors": ["src/model2050/cpu2050.c:cycle_2050", "src/model2050/ros.txt"]}
{"id": "C168", "title": "Fixed-point overflow interrupts", "statement": "If the exact result of LOAD POSITIVE, LOAD COMPLEMENT, ADD, SUBTRACT or ADD/SUBTRACT HALFWORD on the Model 50 is not a signed number of 32 bits and the program mask allows it, the register gets the low 32 bits of the result, the condition code becomes 3, and a program interruption with code 8 follows: old PSW with the address of the next instruction and the length of this one, new PSW loaded.", "quantifier": "every pair of operands whose result does not fit, every state of the processor, every storage timing and timer tick", "why_tests_cant": "2^64 pairs of operands in every machine state", "anchors": ["src/model2050/cpu2050.c:cycle_2050", "src/model2050/ros.txt"]}
{"id": "C169", "title": "Floating-point loads between registers", "statement": "LOAD, LOAD POSITIVE, LOAD NEGATIVE, LOAD AND TEST and LOAD COMPLEMENT of short and long floating-point numbers between the registers 0, 2, 4 and 6 of the Model 50 copy the number with the sign prescribed; the short forms leave the second word alone; all but LOAD set the condition code to 0 for a fraction of zero and otherwise by the sign. With any other register nothing is changed and a program interruption with code 6 follows.", "quantifier": "every pair of numbers and registers, every state of the processor, every storage timing and timer tick", "why_tests_cant": "2^64 numbers times 256 pairs of registers times ten instructions in every machine state", "anchors": ["src/model2050/cpu2050.c:cycle_2050", "src/model2050/ros.txt"]}
{"id": "C170", "title": "Short floating-point load from storage", "statement": "LOAD (short) of the Model 50 gives the floating-point register 0, 2, 4 or 6 the word of storage which base, index and displacement address, and changes nothing else but the instruction address. With any other register, or with an address which is not on a word boundary, nothing is loaded and a program interruption with code 6 follows; the latter holds for every short floating-point instruction with a storage operand.", "quantifier": "every address, register and content of storage, every state of the processor, every storage timing and timer tick", "why_tests_cant": "2^24 addresses in every combination of base, index and displacement, times every content of storage and every machine state", "anchors": ["src/model2050/cpu2050.c:cycle_2050", "src/model2050/ros.txt"]}
{"id": "C171", "title": "Short floating-point store", "statement": "STORE (short) of the Model 50 replaces the word of storage which base, index and displacement address by the first word of the floating-point register 0, 2, 4 or 6, if the storage key allows it, and changes nothing else but the instruction address; if that word holds the next instruction, the new one is what is fetched. With any other register nothing is stored and a program interruption with code 6 follows; if the storage key does not allow the store, one with code 4.", "quantifier": "every address, register and content of storage, every state of the processor, every storage timing and timer tick", "why_tests_cant": "2^24 addresses in every combination of base, index and displacement, times every content of the register and every machine state", "anchors": ["src/model2050/cpu2050.c:cycle_2050", "src/model2050/ros.txt"]}
