# Formal model of microsim360 in Lean 4

## Trusted base

* Lean 4.33.0's kernel.
* Axioms: at most `propext`, `Classical.choice` and `Quot.sound`. AXIOMS.md lists them theorem by theorem (written from
  `#print axioms` by tools/axioms.py). No axioms of our own, no `sorry`, no `native_decide`, no `bv_decide`.
* The reading of the C source: the theorems are about the Lean model. Each definition cites the C file and lines it models.
* The translation tables of `xlat.c`, `card.c` and the opcode table of `disassem.c` are copied from the C source.
* C library calls (`fread`, `fwrite`, `lseek`, `malloc`) behave as documented; failing calls are modelled only where said.

## Modelling conventions

* Undefined behaviour (index outside an array, NULL or freed pointer, signed overflow, endless loop) is a distinct outcome
  (`oob`, `badptr`, `uaf`, `ovf`, `hang`/`fuel`), never a default value.
* C integers wrap where the code lets them wrap (`% 256`, `% 65536`, ...); elsewhere they are `Nat`.
* When the shipped code violates a property the negation is proved (`Cnn_violated_...`, for every input of the failing class
  where that is possible), and what is true is proved under the exact guard (`..._partial`). MANIFEST status is then `partial`.
* Histories: for each device an inductive set of steps (bus call with arbitrary tags and bus values, firing of a pending event,
  operator key); invariants are proved by induction over all lists of steps. Event delays are dropped in the device models, so
  an event may fire at any moment after it was requested: the theorems hold for every timing.
* Sessions: the channel's side of the interface is an independent specification (raise select out with address out, ...), and
  the theorems say what the channel observes.

## Layout

`lean/Verif/<Area>/Model.lean` holds the definitions, `Spec.lean` (or `namespace Spec`) the small independent specification, the
other files the lemmas, the property theorems (`Cnn_...`) and, beside them, the non-vacuity examples.

## What is modelled

| area | code | modelled | left out |
|------|------|----------|----------|
| Event | event.c | all of `add_event`, `cancel_event`, `advance`, at pointer level; callbacks are arbitrary programs that may call the scheduler | failing `malloc`, logging |
| Device | device/device.c | `add_chan`, `find_chan`, `del_chan`, `add_disk`, `del_disk`, `step_disk` at pointer level | `print_tags`, start-up and shutdown |
| Xlat, Tables | device/xlat.c | all tables | - |
| Card | device/card.c | column tables, `_parse_card`, `_punch_card`, `read_deck`, `save_deck`, hopper and stacker calls | allocation failure, logging |
| Tape | device/tape.c | buffer window, TAP, E11 and P7B records, marks, erase, backspace, rewind, detach | failing host calls, logging, reel picture |
| Conf | conf.c, logger.c 40-65, 219-244 | option scanner, addresses, integers, strings, device names, log level lines | opening the file, the table of models (its callbacks are arbitrary) |
| Cpu30 | model2030/cpu2030.c 764-869, 1040-2408 | one microinstruction: storage cycle, ALU, destination, branch; selector channel share cycle | tag lines and latches of the channels (inputs), panel, hard stop, trace output, the contents of the control store (arbitrary) |
| Bus | device/device.h | tag lines, parity of the bus, an abstract channel | - |
| Dev1442 | model1442/model1442.c, panel1442.c keys | bus function, card path, events, keys | delays, drawing |
| Cons | model1052/model1052.c | bus function, key buffer, telnet filter, output, the unlocked counter shared by two threads | socket calls (packets in, bytes out), delays |
| Dasd | device/dasd.c | formatting, attach, detach, seek, `dasd_read_byte`, `dasd_write_byte` (data field), resynchronisation, `dasd_settags` | logging |
| Lpr | model1443/model1443.c, panel1443.c keys | bus function, print line, carriage, events, keys | delays, picture of the paper |
| Disasm | device/disassem.c | `print_inst` | - |
| Cpu50 | model2050/cpu2050.c 596-1356, 1600-4173, ros.txt | one cycle in CPU mode: storage cycle, branch conditions, adder, mover, all destinations, local storage; the whole control storage (`Ros.lean`, copied from `ros.txt` by a script) | channel mode and channel microinstructions (distinct outcome `chan`), panel keys, address compare, trace output |
| Sel50 | model2050/cpu2050.c 2803-2813, 2997-3001, 3072-3076, 3177-3214, 5182-6229 | the three selector channels, one machine cycle: requests, all positions, polling, automatic functions, service; what microinstructions do to their registers | the channel microprogram itself (events), the multiplexor channel, logging |
| Ctl2844 | model2844/model2844.c, model2844_ros.txt | one microinstruction with all fields, the loop over the drives (on the Dasd model), the bus function, the whole control storage (`Ros.lean`, written by tools/gen_ros44.py); cycles of the channel and microinstructions in any order | panel, logging; the static `last_tags` used only for logging |
| Ctl2841 | model2841/model2841.c, ros.txt | one microinstruction with all fields, the loop over the drives (on the Dasd model), the bus function, the whole control storage (`Ros.lean`, written by tools/gen_ros41.py); cycles of the channel and microinstructions in any order; `model2841_create` only as far as the address it keeps | panel, logging; the static `last_tags` used only for logging |
| Mt | model2415/model2415.c, panel2415.c keys | bus function, three callbacks, six drives on the tape model, keys | delays, lamps, pictures |

Not modelled: model 2065, the multiplexor channel of model 2050, the 1050 control, the SDL
panels, sockets and threads as such, logging.

## Plan per property

| id | model | proof |
|----|-------|-------|
| C01 C02 C03 C04 C05 | event queue at pointer level: heap of nodes, head and tail; reading a missing node is an error | representation invariant (doubly linked list = abstract list), refinement to a list of (due tick, event); C05 violated when the match is not the head |
| C06 C07 C08 C09 | channel lists and disk list, pointer level `next` links | list representation, induction over histories; C08 violated for channels 6 and 7 |
| C10 C11 C12 | tables | whole-table `decide +kernel`, lifted to all bytes |
| C13 C14 C15 C61 | tables plus the loop building reverse tables | whole-table evaluation of the loop, lifted |
| C16-C19 C62 C63 C64 | `_parse_card`, `_punch_card`, `read_deck`, `save_deck` over byte lists with buffer refill | round trip by induction over the deck; violations by witness or for the whole failing class |
| C20 C21 C22 | hopper operations | refinement to a queue over all histories of calls |
| C23 C24 | deck loading with explicit buffer and step bound | measure on the file position; index invariant |
| C25-C29 C66 | tape buffer layer over a byte file; record layer for TAP, E11, P7B | refinement of the buffer to direct file access, then induction over the records |
| C30 C31 C32 C33 C65 | histories of tape calls | invariant; refinement; violations at window boundaries by general witness |
| C34-C38 C67-C70 | option-line scanner over a NUL-terminated list with fixed-size destination buffers | induction over the line; violations for every long name, number, quote |
| C39 C40 C88 | format loop, label record | induction over tracks and cylinders |
| C41 C89 C90 | cylinder buffer with dirty flag over a byte file | invariant over histories of seeks, reads, writes |
| C91 | `dasd_read_byte` as a machine with one step per byte time | symbolic run over one revolution, induction over the records and the revolutions |
| C92 C93 | `dasd_write_byte` in a data field | symbolic run; composition with C91 |
| C42 C75 C77 | 1442 card path | conservation law over all histories |
| C43 C44 C45 C78 C79 | 1442 bus function | case analysis over the whole step function; symbolic selection sequences |
| C76 | 1442 with a selector channel | symbolic session, induction over columns and cards |
| C46 C94 C95 | 1443 carriage | invariant over histories; exact set of motions that leave the tape |
| C47 C98 | 1443 print line with a channel | symbolic session, induction over the bytes of a line and the lines of a job |
| C96 C97 C99 C100 | 1443 bus function | case analysis over commands and states, histories |
| C48 C102-C104 C108 C109 | 2415 with a channel on the tape model | history invariant (file of a reel without ring); sessions by symbolic run, induction over bytes, records and commands |
| C49 C105 C106 C107 | 2415 bus function | history invariant; single call analysis; witnesses |
| C50 C51 C52 | key buffer and telnet machine of the 1052 | refinement to a queue; induction over the stream; interleaving model for the race |
| C80-C87 | 1052 bus function with a channel; C87 also for the 1442 | case analysis over all states and tags; symbolic sessions |
| C53 C54 | 2030 ALU | whole-domain evaluation per digit, lifted; induction over bytes |
| C55 C56 C57 C58 C59 C71 C72 C74 | 2030 microinstruction with arbitrary control word | case analysis over the fields, invariant over sequences of microinstructions |
| C73 | 2030 share cycle | symbolic execution; violations by witness |
| C125 C126 C127 C128 | the words of the PSW exchange, with the storage cycles, after every entry | symbolic execution from the instruction to the first instruction under the new PSW; specification `Isa2.lean`; induction over programs with the invariant that the copy of the PSW is up to date |
| C156 | channel and 2841 together, in the order of the main loop of `panel.c` (`Sel50/Disk41.lean`) | evaluation by the kernel of the first nineteen passes, then an invariant of the pair and induction over the passes |
| C157 | the `dev` functions of both disk controls | case analysis of each phase of the interface, induction over the history (`Ctl2841/Parity.lean`, `Ctl2844/Parity.lean`) |
| C158 | `push_char`, `model1052_in`, `model1052_func` (`Cons/Line.lean`) | content of the buffer as a list, induction over the characters read |
| C159 | lines 998-1004 of model1052.c as four atomic steps of a thread, beside `model1052_out` (`Cons/Lines.lean`, `Race`) | invariant: what was sent and what is still to be sent is what was printed |
| C160 | words 710-756 and 784-796 of the microprogram and 703, 793 (`Cpu50/Words9.lean`, `Cpu50/Words14.lean`, `Cpu50/Execute.lean`, `Cpu50/ExecuteRr.lean`) | symbolic execution of the words up to the first word of the subject instruction, then the theorems of C110 |
| C161 | words 922-92d, 902, 94c, 954 (`Cpu50/Words10.lean`, `Cpu50/Multiple.lean`) | induction on the number of registers left, symbolic execution of one turn of the loop |
| C162 | words 1c0, 1c2, 707, 747, 74b and the first words of the instructions (`Cpu50/OpCheck.lean`) | symbolic execution up to the rejected reference, then the theorems on program interruptions of C126 |
| C163 | words 90e, 904, 905, 907 (`Cpu50/Words12.lean`, `Cpu50/TestSet.lean`) | symbolic execution |
| C164 | words 702, 750, 72d, 72f, 92f (`Cpu50/Words13.lean`, `Cpu50/Ssm.lean`) | symbolic execution |
| C165 | adder, carry and destination of the disk controls, and the turn of the drives (`Ctl2844/Alu.lean`, `Ctl2841/Alu.lean`; specification `Adds`, `keptAfter`, `count` at the head of the former) | sum and carry as numbers by arithmetic on the high bits; what each stage leaves alone; two steps composed |
| C166 | words 710 and 743 after those of EXECUTE (`Cpu50/ExEx.lean`) | symbolic execution; the state bit S7 is carried through the words of C160 |
| C167 | words 72e, 881-88d and 8ac-8af of the microprogram (`Cpu50/Words15.lean`, `Cpu50/Sla.lean`) | symbolic execution; loop invariant: the number shifted so far, and whether bits have been lost is what F and the digit in M say |
| C168 | words 21b, 21d, 21e, 220, 221 and 248 with the overflow branch taken, and the program interruption (`Cpu50/Overflow.lean`) | symbolic execution of each of the eight instructions; the instruction length code is carried along |
| C169 | words 108-10d, 1bd, 1bf, 300-30c, 320, 340-34f, 9d1 and 9d3 of the microprogram (`Cpu50/Words16.lean`, `Cpu50/FloatLoad.lean`) | symbolic execution; the two carries of the zero test are shown to say that 24 and 32 bits are zero |
| C170 | words 11c-11f, 341, 9c5, 9c7 and 322 of the microprogram (`Cpu50/Words17.lean`, `Cpu50/FloatMem.lean`) | symbolic execution from the fetch to the next instruction |
| C171 | words 11c-11f, 341, 9c5, 9c7 and 302 of the microprogram (`Cpu50/Words18.lean`, `Cpu50/FloatStore.lean`) | symbolic execution; the store is written back together with the last word, which sees whether the next instruction must be fetched again |
| C145 C146 C147 C155 | unit selection of the selector channels (`posSel` of `Sel50/Model.lean`); the specification of lines and outcome is at the head of `Sel50/Select.lean` (`Play.lines`) and in `Sel50/SelectProps.lean` (`Ends`) | an invariant for each clock position, induction over the waiting cycles of each step of the unit; the violations for all addresses and any length of run |
| C139 C140 C141 C142 C143 C144 | the three selector channels of the 2050: acceptance of requests, all positions, automatic functions, service, and the register transfers of the microprogram (`Sel50/Model.lean`); the microprogram itself enters as events | an invariant over runs of events of device, machine cycles and microprogram: bytes taken are bytes stored followed by the bytes of LS, B and C, and for writing bytes sent followed by those of C, B and LS are the bytes fetched; count of the bytes left; a lemma that a cycle of three channels is a cycle of each; concrete runs for the violations |
| C137 C138 | the words of SSK and ISK with their storage cycles; for C138 no further code (`Bound.lean`, `Safe.lean`) | symbolic execution word by word; general violation for addresses of 512K or more; for C138 an invariant on address register, storage cycle and pending references, with a table of words checked to be closed under succession, induction over cycles |
| C133 C134 C135 C136 | no further code: the whole microprogram of the processor and its machine cycle (`Flow.lean`, `Frame.lean`, `Guard.lean`) | the possible successors of every microinstruction (proved for all states) and a table of addresses checked word by word to be closed under them; which stage of a cycle can change key, masks, storage keys, requests and storage; an invariant tying pending stores to the key; induction over cycles |
| C130 C131 C132 | the words of the timer update and of the external interruption with their storage cycles | symbolic execution from the exceptional condition; specification of ticks and events in `Isa2.lean`; induction over the number of events |
| C129 | the specification, lifted to the processor by C112 | no instruction of the specification changes the left half of the PSW, a key or a foreign block; induction over programs |
| C110 C111 C112 C114 | 2050 cycle with the shipped microprogram, against an instruction set specification written from the architecture (`Isa.lean`) | symbolic execution word by word for arbitrary operands and timer ticks; induction over programs |
| C113 C115 | same | general violation and guarded theorem |
| C148-C154 | 2841 with its shipped microprogram and an arbitrary schedule of channel cycles and microinstructions | as for the 2844: invariants for rest, start and each position in the selection routine, preserved by both kinds of events, induction over schedules; the next word and the current drive as an invariant of every microinstruction and cycle |
| C116 C117 C120-C124 | 2844 with its shipped microprogram and an arbitrary schedule of channel cycles and microinstructions | invariants (idle, position in the selection routine) preserved by both kinds of events, induction over schedules |
| C118 | same | the next address is in the table for every control word (whole-table evaluation) and every branch |
| C119 | transfer loop over the drives; a value that depends on an unset variable is the outcome `undef` | general violation |
| C60 C101 | instruction printer | case analysis over the opcode table, injectivity of the text |

## Findings

Where the shipped code does not do what its user relies on. Those with a theorem are marked with its property.

* Scheduler: `cancel_event` does not unlink a record behind the head (C05).
* Device lists: channel numbers 6 and 7 index behind the table (C08).
* Tables: seven-track parity selector lost in a `uint8_t` (C11); `[ ] |` do not survive the translation (C12); conversion of
  `+ [ \ ] ^ { }` and of bytes from 128 on (C61).
* Cards: empty decks come back as one card (C16, C17); `~` cards (C18, C63); cards punched in column 1 only (C19); short binary
  files loop for ever (C23); bytes above 127 index outside a table (C24); 80 blank cards read as binary (C62).
* Tape: P7B record at the physical end never ends (C27, C65); write after read at a window boundary (C31); rewind after end of
  tape (C32).
* Configuration: long numerals, names, open quotes, second dash (C34, C37), overflow (C35), doubled quotes (C36), endless loop on a
  log level line (C38), missing value selects entry 0 (C68), model letter kept from the previous line (C69).
* Disk: label and VTOC pointer (C40, C88), writing never marks the buffer dirty while reading does (C41, C89), seek past the end
  shows the previous cylinder (C90), a gap of the drive's own length wipes record zero (C92). Without theorem: an index that
  arrives inside a field loses a revolution; `model2302_create` tests the wrong pointer; the resynchronisation uses `==` where the
  reader uses `>`; attaching a file of another type keeps the wrong type.
* 1442: accepts reserved commands, rejects the documented stacker bit (C43, C75); nine-bit data register indexes the parity table
  (C44); status in without operational in (C44); reset from busy leaves status in up (C45), events and stacked status survive (C79);
  the last card stays at the read station (C77); the panel saves stacker 1 for both keys (C75).
* 1443: every skip to channel 1 and the 67th line leave the carriage tape (C46, C94, C95); 31 commands hang it (C96); sense refused
  when not ready, ending status changes while status in is up (C97); a busy answer is later followed by an unselected operational in
  (C99); motion survives reset (C100). Without theorem: a skip returns `l` instead of a time; the FCB selection on the panel
  changes nothing; parity is not checked when not ready.
* 1052: buffer overrun drops the rest of a packet, counter race, unread byte overwritten (C50); telnet commands and
  subnegotiation (C51); typed bytes from 128 (C52); status survives reset (C82); bytes written with parity bit (C84); keyboard
  enabled again (C85); sense hangs (C86).
* 2030: invalid decimal digits (C54), branch through U and V (C56), protected location cleared (C57), write back behind the
  storage of machines below 64K (C58), share cycle at count 0, at FFFF, with another channel's direction, interrupted by channel 0 (C73).
* 2050: ST over the word behind it executes the old instruction (C113); 512K machines address 256K (C115). Without theorem: the
  instruction address is not cut to 24 bits when it is loaded or advanced; words 81a and e86 shift F without cutting it.
* 2050 selector channels: the last word of a write is cut off or sent twice (C140), a fetch overwrites the word of another channel
  (C143), data chaining on a read loses a word (C144), address out is taken for granted after one cycle and the command shown under
  it (C145), a wrong address in is accepted (C146), a chained command to a missing unit waits for ever (C147), a busy control unit is
  reported as a busy channel (C155), START I/O to a 2841 never ends (C156). Keys are read and written outside their array by SSK and ISK (C137).
* 1052: two lines typed ahead are read as one (C158); a line feed is lost or sent after the wrong character when the CPU prints
  between two statements of the thread (C159).
* 2050: EXECUTE of an RX, RS or SI instruction at a word boundary with base digit 0 uses general register 0
  as the base: microorder X0,B0,1SYL tests bits 0-3 (C160).
* 2841: takes address in of other control units down (C151), never answers at an address with a last digit other than zero (C152),
  operational in comes back after a reset (C153), an address which was withdrawn is kept (C154).
* 2844: answers every address of good parity (C116), null pointer for a drive which is not attached (C117), address mark flag not
  initialised (C119), operational in comes back after reset (C121), an address offered without select out captures polls (C124).
  Without theorem: with another drive's attention pending a selection is answered with that drive's address.
* Disassembler: write direct and read direct are missing (C60, C101).
* 2415: unit 6 and 7 and missing drives (C49); every write ends at once with unit check and destroys the rest of the reel (C102);
  blank reel (C104); bus in shows the control's address (C105); an operation is forgotten when a test I/O comes while it starts (C106);
  pending status survives reset (C107); not ready answered as busy (C109). Without theorem: low-nibble-8 commands are accepted as
  no-operations; erase gap writes nothing; forward space file at end of tape ends with plain device end; a read at a file error
  never ends.
