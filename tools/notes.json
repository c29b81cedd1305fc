{
"C01": {"status": "proved", "note": "All integers and all suffixes."},
"C02": {"status": "proved", "note": "Includes unique decodability of sequences of length fields of any length."},
"C03": {"status": "proved", "note": "All integers."},
"C04": {"status": "proved", "note": "All exponents, mantissas and bytes."},
"C05": {"status": "partial", "note": "The 'largest representable value' part is false (refuted by C05_floor_not_largest, at 125); C05_floor_largest_partial gives the exact condition; the bounds part holds in full."},
"C06": {"status": "proved", "note": "Acceptance, sizes and round trips of all four classes."},
"C07": {"status": "partial", "note": "False in general (C07_refuted: the LoRa class is written with the letter of the low rate class; C07_ambiguous: two accepted channels print alike). C07_reread gives the result of re-reading the notation of every accepted channel, C07_survives_iff says exactly which channels survive, C07_round_trip_partial proves them; C07_reads says what a notation is read as."},
"C08": {"status": "proved", "note": "Acceptance, sizes, round trips and injectivity."},
"C09": {"status": "partial", "note": "False for NBID ids with exponent > 0 (C09_nbid_not_preserved); C09_addressee_round_trip_iff is the exact characterisation."},
"C10": {"status": "partial", "note": "QoS in full; a Configuration survives iff its addressee does (exact characterisation)."},
"C11": {"status": "partial", "note": "False for rx_level >= 128 (C11_status_high_rx_level: parse raises ValueError); exact characterisation in C11_status_round_trip_iff."},
"C12": {"status": "proved", "note": "Data of every length up to 2^30-1."},
"C13": {"status": "partial", "note": "False for query types the parser does not implement and for inconsistent length fields; exact characterisation in C13_query_round_trip_iff."},
"C14": {"status": "proved", "note": "Serialisation succeeds iff the unvalidated numbers are in range. Reading an InterfaceConfiguration back is part of C19."},
"C15": {"status": "partial", "note": "UID, VID, DLL status and engineering mode files round trip for every accepted object. Firmware version, DLL configuration, PHY status and access profile files do not (refuted with witnesses): the _partial theorems cover the objects that survive and the companion theorems say exactly what happens to the others (padded names, cut lists, lost specifier, ReadError, ValueError)."},
"C16": {"status": "proved", "note": "For every accepted object of every class the serialised size is computed (C16_size), equals the declared length for the fixed-size classes, and for the others exactly under the stated condition (C16_declared_iff); for the LoRaWAN interface configurations that condition never holds (C16_lorawan_refuted)."},
"C17": {"status": "partial", "note": "Bytes and injectivity below 2^128 proved. The claim is false at two points: 2^128 is accepted and collides with 0 (C17_collision), and no byte string parses as a key file (C17_parse)."},
"C18": {"status": "partial", "note": "False for every accepted file (C18_refuted). Proved instead: exactly which files serialise, 56 bytes, and exactly what parsing them gives. The logarithm is exact in the model, which agrees with double precision for all bytes."},
"C19": {"status": "partial", "note": "False for forwarded actions (ForwardAction cannot be serialised), empty data, NBID exponents > 0 and operations the parser does not know; C19_action_iff is the exact characterisation for iterable actions."},
"C20": {"status": "partial", "note": "Holds for commands of any length whose actions survive (C19); interface status actions are lost (C20_interface_status_lost)."},
"C21": {"status": "proved", "note": "All action lists, induction over the list."},
"C22": {"status": "proved", "note": "All commands; add_* by induction on the list of calls."},
"C23": {"status": "partial", "note": "All factories and arguments; writing or returning empty data is refuted by C23_write_file_empty. The two system-file factories are covered by a separate property."},
"C24": {"status": "proved", "note": "All byte strings and lengths. Alignment is claimed for successful parses only; C24_unaligned_after_exception shows an exception can leave the stream inside a byte."},
"C25": {"status": "partial", "note": "False (C25_overrun). C25_exact_iff_partial: it stays within the length iff the first n bytes alone parse."},
"C26": {"status": "proved", "note": "All byte strings, lengths and extensions."},
"C27": {"status": "partial", "note": "False in five ways (C27_refuted). Holds up to minimal length fields without tag, interface status and forwards; byte-exact for bytes that are the serialisation of such a command."},
"C28": {"status": "proved", "note": "Builder output and counter, errors of the builder, and the round trip through the parser with any incomplete following frame. C28_round_trip covers every command whose serialised bytes parse back; C28_commands instantiates it with the commands of C20."},
"C29": {"status": "proved", "note": "Any chunking, any starting buffer, including which exception is raised. C29_errors_and_counters_vary records that the error list and the counter of counter errors do depend on the chunking."},
"C30": {"status": "proved", "note": "Any list of well-formed frames in any chunking, also when the first frame is already partly in the buffer; C30_link composes builder and parser."},
"C31": {"status": "proved", "note": "Noise without a sync byte has no effect; arbitrary noise in which no position begins a CRC-valid frame loses nothing once 261 bytes follow. C31_held_back shows that the bound is needed."},
"C32": {"status": "proved", "note": "The input is decomposed into gaps and CRC-valid frames of exactly the delivered messages. C32_takes_payload says how many bytes a message takes. Finding (C32_reboot_overlap): the payload of a reboot frame longer than one byte is read again as frames."},
"C33": {"status": "proved", "note": "Bursts up to 16 bits and odd numbers of flips in payloads of any length, two flips in payloads up to 255 bytes; C33_rejected and C33_skipped carry this to the serial parser."},
"C34": {"status": "proved", "note": "Builder counters over any use of the object; receiver counts exactly zero or one error for a run in order. Finding (C34_fresh_mismatch): a fresh builder starts at 0 and a fresh parser expects 1, so the first frame is always counted as an error."},
"C35": {"status": "proved", "note": "Conservation of bytes, alignment of the parsed bits, value of info[buffer] and shape of the remaining buffer for each returning call."},
"C36": {"status": "partial", "note": "The property is false (C36_refuted: a CRC-valid frame with a forward action to HOST makes parse raise IndexError from its own error handler; C36_stuck: the parser then raises for ever). C36_raises_partial: the only exception is IndexError and only for such frames."},
"C37": {"status": "partial", "note": "The property is false (C37_refuted: one frame announcing 2^30-1 data bytes makes the parser hold back everything that follows). C37_bounded_partial: at most 261 bytes are held back unless the buffer starts with a complete frame whose ALP parser asks for more bytes."},
"C38": {"status": "proved", "note": "No exception, at most 261 bytes held back, and every delivered message other than a reboot is the payload of a CRC-valid frame; all well-formed frames are delivered verbatim in any chunking."},
"C39": {"status": "proved", "note": "All accepted foreground/background control objects and all 128 D7ATP control objects; byte layout and RFU bit included."},
"C40": {"status": "proved", "note": "Foreground frames in the supported feature set with length and subnet bytes below 128 (the rest is C41) and an ALP part that the ALP parser reads completely; C40_command instantiates it with the commands of C20. Background frames likewise."},
"C41": {"status": "partial", "note": "False of the code: C41_refuted. C41_exact_partial: a supported frame is delivered iff both bytes are below 128, else ValueError and the bytes stay. C41_returned holds for every input."},
"C42": {"status": "proved", "note": "Waiting, completion under every chunking and whole sequences of frames (one frame per call)."},
"C43": {"status": "partial", "note": "False of the code: C43_refuted (every checksum is accepted for every frame). C43_crc_is_last_partial: crc16 is exactly the last two bytes of the frame."},
"C44": {"status": "proved", "note": "For all interleavings of the two threads (each step one source line of modem/modem.py): every message the parser delivered and that is not still waiting went to exactly one sink, right for its type, in order of arrival; sinks got nothing else (C44_one_sink, C44_between, C44_order). What is received is what the parser makes of the bytes (C44_received, C44_frames), and running the reading thread drains what waits (C44_drains)."},
"C45": {"status": "partial", "note": "False as stated: an untagged message is compared with the initial tag None and swallowed (C45_refuted, C45_untagged_lost), and so is a repeated final response after its command was answered (C45_late_response). Proved: everything else reaches callback or unsolicited list (C45_partial), the exact lost case (C45_swallowed), and the full claim with skip_alp_parsing (C45_skip_mode)."},
"C46": {"status": "partial", "note": "False in general, three concrete races (C46_refuted_late, C46_refuted_untagged, C46_refuted_completed). Proved: the full claim when no ALP message is being handed over during the preparation lines 152-157 (C46_result_partial), what can be in the list in every interleaving (C46_tags_partial), the asynchronous case (C46_async) and that the call can always end (C46_ends). Missing: nothing more is true of the code."},
"C47": {"status": "partial", "note": "False in general (C47_refuted, C47_poisoned); proved for every history without a default-list call of more than 255 channels. Serialisations of existing objects are stable under every history."},
"C48": {"status": "proved", "note": "Never raises; the attached file is characterised for all ids and contents by the independent relation Interprets."},
"C49": {"status": "proved", "note": "For all importable enum classes, aliases included (C49_round_trip, C49_injective, C49_unknown_name) and hence for the complete table of the library's 18 enums (C49_library, C49_no_alias). jsonpickle itself is trusted to pass the module and class name."},
"C50": {"status": "partial", "note": "False for a second attempt (C50_refuted_second) and for an answer split over two messages (C50_refuted_two_messages). Proved: the exact result of the first connect for interleavings as in C46 (C50_result_partial); in every interleaving: when a modem counts as connected (C50_connected), where UID and firmware version come from (C50_sources), the callback before connect (C50_callback), connect when connected (C50_again)."},
"C51": {"status": "proved", "note": "Wire layouts as bit field tables, independent of the parser."},
"C52": {"status": "partial", "note": "False of the code: C52_refuted. Proved instead: the exact set of exceptions, that the parser is stuck afterwards (C52_stuck), and byte accounting of the calls that return."},
"C53": {"status": "partial", "note": "False of the code for foreground, background and D7ANP frames and for D7ATP frames with timing fields or acknowledgements (refuted theorems); C53_d7atp_partial proves the round trip for the remaining D7ATP frames."},
"C54": {"status": "partial", "note": "C54_read for all objects with an integer id; C54_write_partial for all objects with content (C54_write_empty: without content only the opcode is sent). C54_enum_id and C54_table: 20 entries of the system file table carry an enum member as id, both factories raise ValueError for them; C54_table says exactly which entries can be read."},
"C55": {"status": "partial", "note": "False as stated: a CRC-valid frame with payload 32 00 ends the thread (C55_refuted), and so does any serial error, whose handler calls a method that does not exist (C55_serial_error); nothing is received afterwards (C55_dead_forever). Proved: the only other cause is an ALP payload failing an assertion without message (C55_partial), and none with skip_alp_parsing (C55_skip_mode)."},
"C56": {"status": "proved", "note": "For all object trees (C56_entries, C56_plain, C56_injective); objects in a list in a list stay objects (C56_nested_list_kept), which no class of the library has."},
"C57": {"status": "proved", "note": "Cerberus 1.1 is modelled as far as the schemas use it (nullable, type, min, max, allowed, isinstance, allowedmembers, minlength, maxlength, list schema, oneof_schema, allow_unknown); the flag bi covers both readings of bool as integer. C57_x gives the exact acceptance condition of class x, C57_x_typed shows that the constructors used everywhere else in the model have the same outcome, so the conditions written there are not an assumption. C57_unchecked lists the attributes that no key names. Not represented: floats, bytearrays, subclasses defined by the user."},
"C58": {"status": "partial", "note": "Full statement: every ALP or ping message received after connect() returned is published once, in order, unchanged. False of the code: the callback is active from connect on, but self.mq and self.mqtt_topic_incoming are set afterwards, so a message handed over in between is dropped by the bare except (C58_refuted; C58_window: nothing at all is published before the end of the set-up). Proved: after the set-up, if publish does not raise, the messages that leave the queue are published exactly once, in order, unchanged (C58_published_partial, C58_frames_partial for streams of frames in any chunks); nothing else is ever published (C58_sound); the reading thread survives whatever arrives and whatever publish raises (C58_survives; serial errors excepted, C55). Assumed: the modem model of C44-C46; what the client does with a payload is not modelled."},
"C59": {"status": "partial", "note": "Proved: for each of the five classes == holds exactly when the serialised bytes agree; the exact meaning of == for all pairs of values; reflexive, symmetric; the exact conditions for transitivity and for != being the negation of ==. Refuted: transitivity (Length(5) == 5 == 5L, but Length(5) != 5L) and the negation (a channel header is neither == nor != 5). Strings, floats, user classes and hashing are not modelled."},
"C60": {"status": "partial", "note": "Proved for the reading of the text and for the types alp, serial and systemfile; C60_printed: whatever is parsed is printed, as the text of the object. Refuted for fg and bg: the tool always raises there."},
"C61": {"status": "partial", "note": "Proved for operations, actions, commands and parsed system files; for system files made by a caller the exact condition is C61_system_file_iff. Refuted for firmware versions with a name that is not ASCII: accepted, but printing raises."},
"C62": {"status": "partial", "note": "Exact characterisation of the operations, addressees, statuses and system files with the same text; commands up to the texts of their actions. Refuted as stated: permissions, NLS method, DLL noise floor parameters, action flags and the class of key files are not printed. The texts of configuration dictionaries are not modelled."},
"C63": {"status": "proved", "note": "All 14 system files, all operations and all three kinds of action: the bits are those of a table written down in Spec/Tables.lean. Which of them serialise at all is the subject of C04 and C54."},
"C64": {"status": "proved", "note": "Exact acceptance (if and only if) for every parser of a part, an operand and a system file; the tables include the recorded oddities: longer lengths than needed are accepted, factory settings turn the smoothing into a logarithm, an access profile gets specifier 0. Key files are never read (C17_parse)."},
"C65": {"status": "proved", "note": "Exact acceptance of the action parser and, by induction over the loop, of the command parser; the remaining condition is the one of the Command constructor (C22)."},
"C66": {"status": "partial", "note": "All fixed-format parts and seven system files. Missing because the code does otherwise: factory settings (smoothing), engineering mode (writes two bytes more than it reads, exact theorem given), key files (cannot be read)."},
"C67": {"status": "partial", "note": "Proved for every system file and for every command without file data and interface status. For all other commands C67_text proves that the claim fails: ValueError."},
"C68": {"status": "partial", "note": "Everything but two points, which the code refutes: the progress is at least 100 % (C68_progress; 23900 % for one byte) and files over 1073741916 bytes end in ValueError (C68_outcome_partial)."},
"C69": {"status": "partial", "note": "Exact condition for OK, exact condition for an exception, the closed form of the waiting loop. The full claim is refuted: writes of the payload count as well (C69_type_refuted), messages of the last interval do not (C69_stale_refuted)."},
"C70": {"status": "partial", "note": "Exact bytes of the three programs for all option values, and ValueError for everything else. Refuted only for the default of one of the two factory options when just the other is given (C70_gaussian_refuted, C70_paramp_refuted)."},
"C71": {"status": "proved", "note": "For all interleavings; restarts must follow an orderly end (after an exception the waiting messages are lost, C71_lost)."},
"C72": {"status": "proved", "note": "Exact set of sendable messages and their bytes. A message with an empty payload is sent but does not parse (C19)."},
"C73": {"status": "proved", "note": "All interleavings of one application thread and the reading thread; several application threads are C74. The other end delivers the commands of the kind that survives a round trip (C20)."},
"C74": {"status": "partial", "note": "Frames: proved for all interleavings (C74_frames). The rest holds when calls do not overlap: then every run corresponds to one of a single thread (C74_alone_partial), to which C44-C51 and C73 apply. With overlapping calls it is refuted (wrong response, lost response, assertion, equal counters, ValueError), and inside a callback for every run (C74_refuted_callback)."},
"C75": {"status": "proved", "note": "Assumes that calls do not time out, the line does not fail and the device sends only answers to requests; these cases are covered by C44-C51 and C71. Several application threads are C74."},
"C76": {"status": "proved", "note": "Assumes that calls do not time out, the line does not fail and ALP messages are answers to requests; unsolicited ALP messages are covered by C44-C46. That the device answers correctly is the hypothesis Conforms."},
"C77": {"status": "partial", "note": "False for key files, factory settings, versions with short names, PHY status of more than 10 channels (the declared length is 45 bytes, so the rest is not read), access profiles other than the first and the classes without a parser (C77_refuted); the theorem says for every object whether it survives. The write has to fit in a frame."},
"C78": {"status": "partial", "note": "For receive levels up to 127 and answering nodes with a unique, a virtual or no identifier; false for receive levels from 128 on, whose messages are dropped (C78_lost, C78_refuted). Same assumptions as C76; that the gateway passes on the answers is the hypothesis Forwards."},
"C79": {"status": "proved", "note": "Same assumptions as C76 (the device answers every command that has a tag with messages that have it); the callback does not raise."},
"C80": {"status": "proved", "note": "Same assumptions as C75: the device answers every command (no timeouts, the line does not fail). Opening and reading the file and printing are not modelled. That a file may be at most 1073741916 bytes long is a limit of the format (offsets have 30 bits); the theorem says what happens beyond it."},
"C81": {"status": "partial", "note": "For nodes heard at receive levels up to 127 and without an NBID addressee, as C78; beyond it the answer is lost (C78_lost, C78_refuted). Assumptions of C76 and C79: a connected modem with a callback, a gateway that conforms, no other call while the answers arrive. C81_end says at which message os._exit in the callback ends the program; C104 is about the whole program."},
"C82": {"status": "proved", "note": "Assumptions of C79: skip_alp_parsing is off, the device conforms, no call times out, the line does not fail. connect is not called in between (before, it may be)."},
"C83": {"status": "partial", "note": "Full for what arrives (C83_delivered, C83_settled, C83_origin) and for coming to rest (C83_settles). What a call returns holds for a tag that was not used before and interleavings in which no ALP message is handed over while execute_command makes its list and sets its tag (modem/modem.py 152-157): C83_fresh_partial, C83_answered_partial, and for connect C83_connect_partial, C83_connect_answered_partial. Both conditions are needed: C83_refuted_tag and C83_refuted_overlap are runs in which a call returns answers to an earlier call that timed out."},
"C84": {"status": "partial", "note": "Full for the command of the program (C84_engineering), a failed line (C84_dead) and which exceptions there are (C84_exception). That the loop raises only if the command does not fit in a frame (C84_raises_partial) needs a device whose answers all say whether there was an error; C84_raises_refuted is one that repeats the tag request. What the end of the loop means (C84_confirmed_partial, C84_effect_partial) and why it goes on (C84_again_partial) holds in interleavings in which no ALP message is handed over while execute_command makes its list and sets its tag, after calls with other tags. Without that it is false: C84_refuted is a loop ended by the late answer to connect although the device refused the command."},
"C85": {"status": "partial", "note": "C85_off_partial holds when nobody holds the lock and the frame counter is at most 255 when the handler is started; C85_deadlock and C85_overflow show that in all other states it fails, by a deadlock or by ValueError. C85_command is full: for all accepted options the command of the handler fits in a frame and writes the file with mode off."},
"C86": {"status": "proved", "note": "bridge with a device that sends any frames at any time: C86_asks (all that is ever written), C86_sound (sublist of what was sent, thread survives), C86_all_but_first (at rest: sent = lost ++ published, lost sent before the end of the set-up), C86_all, C86_settles (progress). That the first messages can be lost is C58_refuted."},
"C87": {"status": "partial", "note": "From a connected modem that has written something: C87_unasked_partial (messages whose tag no call compares with), C87_pushes_partial (frames without a tag, all commands executed with a tag and waiting), both for calm interleavings, in which no ALP message is handed over while execute_command makes its list and sets its tag. C87_listening is full: for programs that after their calls only listen, in every interleaving. C87_connect_suffices: a successful connect is enough. C87_settles: everything gets dealt with. The conditions are needed: C87_async_refuted, C87_reset_refuted."},
"C88": {"status": "proved", "note": "C88_logged and C88_frames (every interleaving), C88_reboots (every run of any modem with a reboot callback), C88_silent_before and C88_silent (nothing is ever logged if connect fails). The text that is logged is not modelled."},
"C89": {"status": "partial", "note": "False of messages that arrive during the set-up (C89_refuted; for every message with a status and every interleaving C89_early with C89_deaf) and after the status of an interface other than D7A (C89_status_refuted). C89_counted_partial, C89_frames_partial and C89_ok_partial hold from the moment the program waits for messages. For the transmitting modem see C90."},
"C90": {"status": "partial", "note": "An OK does not mean that the messages of this run arrived, and a late message of the run before spoils a perfect run (C90_late_refuted, C90_extra_refuted); with nothing to send the program may end with an exception (C90_nothing_refuted). C90_ok_partial and C90_radio_partial give the OK for a run in which exactly the announced messages arrive, C90_means_partial says what an OK means. Radio is a hypothesis about the bytes that arrive; for the modes with one device only see C96."},
"C91": {"status": "proved", "note": "C91_identified tells which devices connect accepts; C91_profile, C91_factory, C91_engineering and C91_phy what each program leaves on the device and how it ends, for all options; C91_ends that such an end exists; C91_factory_forwarded and C91_engineering_forwarded what one call with -f makes the gateway send. The device answers in time here (see C83, C84 for one that does not)."},
"C92": {"status": "proved", "note": "the texts the library writes stand for the bytes, so the tool shows what was written: whole sessions, single printed frames, the six messages of generate_messages.py; the exceptions for whole log lines and for lines joined by line ends are proved too."},
"C93": {"status": "proved", "note": "exact count of the jumps for every pattern of lost frames; detection of fewer than 256 lost frames; the two exceptions (256 frames in a row, damaged frames) by witnesses."},
"C94": {"status": "proved", "note": "from the round trips: a parser that gets the bytes delivers one command (sequence), which is the same as both."},
"C95": {"status": "partial", "note": "The layout of every text is proved exactly (C95_status, C95_operation_partial, C95_system_file_partial, C95_action_partial, C95_command_partial, C95_describe_actions_partial). Refuted for the LoRa settings (swapped), two values of the DLL configuration and the permissions of a file (not shown): C95_lora_refuted, C95_dll_config_refuted, C95_permissions_refuted."},
"C96": {"status": "partial", "note": "Proved: the arguments, the accepted addresses, what the transmitter gets in every interleaving (by kind of address), what a good end means, that the program can always end, when the receiver says OK and what it means. Refuted: a silent transmitter is noticed (C96_silent_refuted), and the receiver says OK whenever nothing is lost (C96_four_runs_refuted). int(s, 16) is modelled for ASCII text."},
"C97": {"status": "partial", "note": "Proved for the sync bytes, the CRC, the payload and the counter, and an exact case distinction for the length. The full claim is refuted of the message type, for every ALP frame (C97_type_refuted), and of the length (C97_length_refuted)."},
"C98": {"status": "partial", "note": "C98_refused_partial and C98_skipped_partial for up to three flipped bits, C98_odd for an odd number, C98_line for sequences of frames, C98_received and C98_answers for the modem; false of four bits (C98_four_refuted) and of bursts over the boundary of CRC and payload (C98_burst_refuted). Message type and length are not protected by the CRC (C97)."},
"C99": {"status": "proved", "note": "Model/ModemFaults adds the event \"the write raises after n bytes have left\". C99_written: the bytes on the port. C99_one_sink, C99_next_call: receiving goes on and the next call is answered as usual. C99_connect gives the exact state after a failed connect, including the exception with skip_alp_parsing. C99_late_answer: the answer to a frame whose flush failed is swallowed."},
"C100": {"status": "partial", "note": "False in general: C100_mixed_refuted gives, for every frame, a cut log message that swallows it. C100_line_partial: the claim under the condition that the cuts show (a condition on the bytes, Spec/Cut.lean); C100_received_partial the same for the modem with its threads, C100_peer_partial for the other end of a port with failing writes. C100_beginning and C100_end: cuts that always or exactly sometimes show. C100_waits: while fewer bytes have come than are missing nothing happens."},
"C101": {"status": "partial", "note": "False of a clock that is set while a call waits: C101_forward_refuted, C101_back_refuted. The others hold for clocks that are not set forward (C101_not_early_partial, C101_gives_up_partial, C101_before_timeout_partial) or not set back (C101_ends_partial, C101_steps_partial); C101_answered, C101_noticed and C101_goes_on for all clocks. C101_refines: the modem with time (Model/Clock) does what Model/Modem does, so that all theorems about the latter hold of it."},
"C102": {"status": "partial", "note": "C102_last_seconds_refuted: for every timeout messages that come in the last two seconds are not counted. C102_forward_refuted, C102_back_refuted: clocks that are set. C102_counted_partial, C102_ends_partial and C102_rounds_partial: the claim for the other messages and clocks. C102_wait: the numbers counted are those of the loop of C69."},
"C103": {"status": "partial", "note": "C103_silent_refuted: the program never calls keep_stats and logs nothing. The others are about the methods and the main loop. `+=` is one step; nobody calls it in another thread."},
"C104": {"status": "partial", "note": "C104_always_refuted: after a connect that times out the program runs for ever and logs nothing; C104_silent says so for every run. C104_stops holds for all devices and events. C104_logged_partial and C104_ends_partial are for receive levels up to 127 (C78) and runs without timeouts and line failures, with the assumptions of C79 about the gateway."},
"C105": {"status": "partial", "note": "False in general: C105_taken_refuted (every log message whose CRC fits with the next sync byte) and C105_command_refuted (commands, a lost and an added byte). C105_line_partial: any damage to any of the frames, under the condition that it shows in the bytes (Spec/Slip.lean); C105_one_partial one damaged frame; C105_lost_partial and C105_added_partial single bytes; C105_lost_end and C105_added_end: the CRC always shows the last two bytes. C105_between and C105_same: additional bytes that do no harm. C105_received_partial: the same for the modem with its threads. C105_waits: nothing happens until bytes follow."},
"C106": {"status": "partial", "note": "Proved for all devices that answer properly, all files, tags, earlier calls, timeouts, late answers and callbacks that raise: what each end of the program means (C106_outcome_partial, C106_file_partial), the order of what the device does in every interleaving (C106_order), and that a reading thread that has ended gives \"write failed\" at once (C106_exit). Missing because false: \"write failed\" does not mean that the piece is not on the device (C106_failed_refuted); with equal tags (C106_done_refuted_tag) or in an overlapping interleaving (C106_done_refuted_overlap) the program ends normally although the device refused the piece."},
"C107": {"status": "partial", "note": "Proved for all devices, commands, earlier calls, timeouts and failures, in interleavings in which no hand-over of an ALP message overlaps with the start of a call, if the tag of each command differs from those of the commands since the last call that returned something (C107_series_partial, C107_giving_up_partial). At most 256 successive commands that are not answered in time can meet this condition (C107_limit). Missing because false: without the condition on the tags a late answer is returned as the answer to a later command (C107_refuted); for interleavings that overlap see C84_refuted and C106_done_refuted_overlap. For programs that start when nothing is going on see C108, which has neither condition."},
"C108": {"status": "proved", "note": "In every interleaving, with any tags: C108_calls for any series of commands, C108_update and C108_file for the update program, whose first command must be answered in time (its result is ignored; C106_done_refuted_tag shows what happens otherwise), C108_connect for `connect`."},
"C109": {"status": "proved", "note": "C109_calls for any series of commands, C109_update and C109_file for the update program, whose first command must be answered in time. The program in examples/write_update.py does not look at the result of connect either; that it returned True is a hypothesis here. If it did not, C106 applies."},
"C110": {"status": "proved", "note": "C110_content gives every answer and the files at the end, C110_read_back what was written by one command and read by a later one, C110_system_file which system file objects come back (those that do not are in C77_refuted)."},
"C111": {"status": "proved", "note": "for the programs without -f; the device keeps a byte for each file and offset and does a command as a whole or refuses it (Gateway.Keeps); a call that returns nothing says nothing about which of the two it is (C111_*_safe)"},
"C112": {"status": "proved", "note": "for the program without -f and a device of C110; with the condition on the tags (C112_same_tag_refuted: it cannot be left out) and for calls that do not begin in the moment of a hand-over; C112_safe is without conditions"},
"C113": {"status": "proved", "note": "C113_answered, C113_dead, C113_dead_connect and C113_dead_update are about every interleaving (C113_answered without a timeout); C113_rest, C113_returns, C113_connect, C113_series, C113_program, C113_update and C113_loop say that a run exists; a call that begins before everything is at rest can get a late answer to an earlier call (C83, C84)"}
}
