{
 "claims": [
  {
   "property": "C01",
   "status": "proved",
   "theorems": [
    "Verif.C01_length_accepts",
    "Verif.C01_length_round_trip"
   ],
   "note": "All integers and all suffixes."
  },
  {
   "property": "C02",
   "status": "proved",
   "theorems": [
    "Verif.C02_length_size",
    "Verif.C02_length_shortest",
    "Verif.C02_length_prefix_free",
    "Verif.C02_length_sequence_unique"
   ],
   "note": "Includes unique decodability of sequences of length fields of any length."
  },
  {
   "property": "C03",
   "status": "proved",
   "theorems": [
    "Verif.C03_compress_tightest",
    "Verif.C03_compress_none",
    "Verif.C03_compress_negative",
    "Verif.C03_compress_lossless",
    "Verif.C03_compress_monotone"
   ],
   "note": "All integers."
  },
  {
   "property": "C04",
   "status": "proved",
   "theorems": [
    "Verif.C04_ct_accepts",
    "Verif.C04_ct_round_trip",
    "Verif.C04_ct_every_byte"
   ],
   "note": "All exponents, mantissas and bytes."
  },
  {
   "property": "C05",
   "status": "partial",
   "theorems": [
    "Verif.C05_compress_floor_bounds",
    "Verif.C05_floor_not_largest",
    "Verif.C05_floor_largest_partial"
   ],
   "note": "The 'largest representable value' part is false (refuted by C05_floor_not_largest, at 125); C05_floor_largest_partial gives the exact condition; the bounds part holds in full."
  },
  {
   "property": "C06",
   "status": "proved",
   "theorems": [
    "Verif.C06_channel_header",
    "Verif.C06_channel_id_accepts",
    "Verif.C06_channel_id",
    "Verif.C06_subband_accepts",
    "Verif.C06_subband",
    "Verif.C06_channel_status_identifier_accepts",
    "Verif.C06_channel_status_identifier"
   ],
   "note": "Acceptance, sizes and round trips of all four classes."
  },
  {
   "property": "C07",
   "status": "partial",
   "theorems": [
    "Verif.C07_reread",
    "Verif.C07_round_trip_partial",
    "Verif.C07_survives_iff",
    "Verif.C07_refuted",
    "Verif.C07_ambiguous",
    "Verif.C07_reads_iff",
    "Verif.C07_reads"
   ],
   "note": "False in general (C07_refuted: the LoRa class is written with the letter of the low rate class; C07_ambiguous: two accepted channels print alike). C07_reread gives the result of re-reading the notation of every accepted channel, C07_survives_iff says exactly which channels survive, C07_round_trip_partial proves them; C07_reads says what a notation is read as."
  },
  {
   "property": "C08",
   "status": "proved",
   "theorems": [
    "Verif.C08_file_permissions",
    "Verif.C08_file_permissions_injective",
    "Verif.C08_file_properties",
    "Verif.C08_file_header_accepts",
    "Verif.C08_file_header",
    "Verif.C08_file_header_operand",
    "Verif.C08_file_header_operand_accepts"
   ],
   "note": "Acceptance, sizes, round trips and injectivity."
  },
  {
   "property": "C09",
   "status": "partial",
   "theorems": [
    "Verif.C09_addressee_accepts",
    "Verif.C09_addressee_round_trip_partial",
    "Verif.C09_addressee_reread",
    "Verif.C09_addressee_round_trip_iff",
    "Verif.C09_nbid_not_preserved"
   ],
   "note": "False for NBID ids with exponent > 0 (C09_nbid_not_preserved); C09_addressee_round_trip_iff is the exact characterisation."
  },
  {
   "property": "C10",
   "status": "partial",
   "theorems": [
    "Verif.C10_qos",
    "Verif.C10_configuration_round_trip_partial",
    "Verif.C10_configuration_round_trip_iff"
   ],
   "note": "QoS in full; a Configuration survives iff its addressee does (exact characterisation)."
  },
  {
   "property": "C11",
   "status": "partial",
   "theorems": [
    "Verif.C11_status_accepts",
    "Verif.C11_status_round_trip_partial",
    "Verif.C11_status_high_rx_level",
    "Verif.C11_status_round_trip_iff"
   ],
   "note": "False for rx_level >= 128 (C11_status_high_rx_level: parse raises ValueError); exact characterisation in C11_status_round_trip_iff."
  },
  {
   "property": "C12",
   "status": "proved",
   "theorems": [
    "Verif.C12_offset_accepts",
    "Verif.C12_offset",
    "Verif.C12_data_request_accepts",
    "Verif.C12_data_request",
    "Verif.C12_data_accepts",
    "Verif.C12_data"
   ],
   "note": "Data of every length up to 2^30-1."
  },
  {
   "property": "C13",
   "status": "partial",
   "theorems": [
    "Verif.C13_query_partial",
    "Verif.C13_query_round_trip_iff",
    "Verif.C13_query_serialises",
    "Verif.C13_query_accepts"
   ],
   "note": "False for query types the parser does not implement and for inconsistent length fields; exact characterisation in C13_query_round_trip_iff."
  },
  {
   "property": "C14",
   "status": "proved",
   "theorems": [
    "Verif.C14_abp",
    "Verif.C14_otaa",
    "Verif.C14_interface_configuration"
   ],
   "note": "Serialisation succeeds iff the unvalidated numbers are in range. Reading an InterfaceConfiguration back is part of C19."
  },
  {
   "property": "C15",
   "status": "partial",
   "theorems": [
    "Verif.C15_uid_accepts",
    "Verif.C15_uid",
    "Verif.C15_vid",
    "Verif.C15_vid_accepts",
    "Verif.C15_dll_status",
    "Verif.C15_dll_status_accepts",
    "Verif.C15_engineering_mode",
    "Verif.C15_engineering_mode_accepts",
    "Verif.C15_engineering_mode_names",
    "Verif.C15_dll_config_partial",
    "Verif.C15_dll_config_serialises",
    "Verif.C15_dll_config_accepts",
    "Verif.C15_dll_config_refuted",
    "Verif.C15_firmware_padded",
    "Verif.C15_firmware_partial",
    "Verif.C15_firmware_only_full",
    "Verif.C15_firmware_serialises",
    "Verif.C15_firmware_accepts",
    "Verif.C15_firmware_refuted",
    "Verif.C15_phy_status_cut",
    "Verif.C15_phy_status_partial",
    "Verif.C15_phy_status_serialises",
    "Verif.C15_phy_status_refuted",
    "Verif.C15_access_profile_reread",
    "Verif.C15_access_profile_partial",
    "Verif.C15_access_profile_size",
    "Verif.C15_access_profile_short",
    "Verif.C15_access_profile_none",
    "Verif.C15_access_profile_refuted"
   ],
   "note": "UID, VID, DLL status and engineering mode files round trip for every accepted object. Firmware version, DLL configuration, PHY status and access profile files do not (refuted with witnesses): the _partial theorems cover the objects that survive and the companion theorems say exactly what happens to the others (padded names, cut lists, lost specifier, ReadError, ValueError)."
  },
  {
   "property": "C16",
   "status": "proved",
   "theorems": [
    "Verif.C16_size",
    "Verif.C16_declared",
    "Verif.C16_declared_iff",
    "Verif.C16_lorawan_refuted"
   ],
   "note": "For every accepted object of every class the serialised size is computed (C16_size), equals the declared length for the fixed-size classes, and for the others exactly under the stated condition (C16_declared_iff); for the LoRaWAN interface configurations that condition never holds (C16_lorawan_refuted)."
  },
  {
   "property": "C17",
   "status": "partial",
   "theorems": [
    "Verif.C17_accepts",
    "Verif.C17_bytes",
    "Verif.C17_injective_partial",
    "Verif.C17_collision",
    "Verif.C17_parse"
   ],
   "note": "Bytes and injectivity below 2^128 proved. The claim is false at two points: 2^128 is accepted and collides with 0 (C17_collision), and no byte string parses as a key file (C17_parse)."
  },
  {
   "property": "C18",
   "status": "partial",
   "theorems": [
    "Verif.C18_serialises",
    "Verif.C18_reread_partial",
    "Verif.C18_small_exponent",
    "Verif.C18_refuted",
    "Verif.C18_smoothing"
   ],
   "note": "False for every accepted file (C18_refuted). Proved instead: exactly which files serialise, 56 bytes, and exactly what parsing them gives. The logarithm is exact in the model, which agrees with double precision for all bytes."
  },
  {
   "property": "C19",
   "status": "partial",
   "theorems": [
    "Verif.C19_action_round_trip_partial",
    "Verif.C19_action_iff",
    "Verif.C19_forward_action_unserialisable",
    "Verif.C19_unparseable"
   ],
   "note": "False for forwarded actions (ForwardAction cannot be serialised), empty data, NBID exponents > 0 and operations the parser does not know; C19_action_iff is the exact characterisation for iterable actions."
  },
  {
   "property": "C20",
   "status": "partial",
   "theorems": [
    "Verif.C20_command_round_trip_partial",
    "Verif.C20_interface_status_lost"
   ],
   "note": "Holds for commands of any length whose actions survive (C19); interface status actions are lost (C20_interface_status_lost)."
  },
  {
   "property": "C21",
   "status": "proved",
   "theorems": [
    "Verif.C21_refuses",
    "Verif.C21_accepts",
    "Verif.C21_d7asp_status",
    "Verif.C21_none"
   ],
   "note": "All action lists, induction over the list."
  },
  {
   "property": "C22",
   "status": "proved",
   "theorems": [
    "Verif.C22_bytes",
    "Verif.C22_auto_tag",
    "Verif.C22_add_only_appends",
    "Verif.C22_add_action"
   ],
   "note": "All commands; add_* by induction on the list of calls."
  },
  {
   "property": "C23",
   "status": "partial",
   "theorems": [
    "Verif.C23_read_file",
    "Verif.C23_write_file_partial",
    "Verif.C23_write_file_empty",
    "Verif.C23_return_file_partial",
    "Verif.C23_read_file_header",
    "Verif.C23_write_file_header",
    "Verif.C23_create_new_file",
    "Verif.C23_host_configuration",
    "Verif.C23_indirect_forward"
   ],
   "note": "All factories and arguments; writing or returning empty data is refuted by C23_write_file_empty. The two system-file factories are covered by a separate property."
  },
  {
   "property": "C24",
   "status": "proved",
   "theorems": [
    "Verif.C24_success",
    "Verif.C24_terminates",
    "Verif.C24_nonpositive",
    "Verif.C24_unaligned_after_exception"
   ],
   "note": "All byte strings and lengths. Alignment is claimed for successful parses only; C24_unaligned_after_exception shows an exception can leave the stream inside a byte."
  },
  {
   "property": "C25",
   "status": "partial",
   "theorems": [
    "Verif.C25_overrun",
    "Verif.C25_exact_iff_partial"
   ],
   "note": "False (C25_overrun). C25_exact_iff_partial: it stays within the length iff the first n bytes alone parse."
  },
  {
   "property": "C26",
   "status": "proved",
   "theorems": [
    "Verif.C26_errors",
    "Verif.C26_success_stable",
    "Verif.C26_error_stable"
   ],
   "note": "All byte strings, lengths and extensions."
  },
  {
   "property": "C27",
   "status": "partial",
   "theorems": [
    "Verif.C27_refuted",
    "Verif.C27_reserialise_partial",
    "Verif.C27_same_bytes_partial"
   ],
   "note": "False in five ways (C27_refuted). Holds up to minimal length fields without tag, interface status and forwards; byte-exact for bytes that are the serialisation of such a command."
  },
  {
   "property": "C28",
   "status": "proved",
   "theorems": [
    "Verif.Serial.C28_builder",
    "Verif.Serial.C28_round_trip",
    "Verif.Serial.C28_commands"
   ],
   "note": "Builder output and counter, errors of the builder, and the round trip through the parser with any incomplete following frame. C28_round_trip covers every command whose serialised bytes parse back; C28_commands instantiates it with the commands of C20."
  },
  {
   "property": "C29",
   "status": "proved",
   "theorems": [
    "Verif.Serial.C29_chunking",
    "Verif.Serial.C29_errors_and_counters_vary"
   ],
   "note": "Any chunking, any starting buffer, including which exception is raised. C29_errors_and_counters_vary records that the error list and the counter of counter errors do depend on the chunking."
  },
  {
   "property": "C30",
   "status": "proved",
   "theorems": [
    "Verif.Serial.C30_frames",
    "Verif.Serial.C30_link"
   ],
   "note": "Any list of well-formed frames in any chunking, also when the first frame is already partly in the buffer; C30_link composes builder and parser."
  },
  {
   "property": "C31",
   "status": "proved",
   "theorems": [
    "Verif.Serial.C31_noise_without_sync",
    "Verif.Serial.C31_resync",
    "Verif.Serial.C31_held_back"
   ],
   "note": "Noise without a sync byte has no effect; arbitrary noise in which no position begins a CRC-valid frame loses nothing once 261 bytes follow. C31_held_back shows that the bound is needed."
  },
  {
   "property": "C32",
   "status": "proved",
   "theorems": [
    "Verif.Serial.C32_sound",
    "Verif.Serial.C32_takes_payload",
    "Verif.Serial.C32_reboot_overlap"
   ],
   "note": "The input is decomposed into gaps and CRC-valid frames of exactly the delivered messages. C32_takes_payload says how many bytes a message takes. Finding (C32_reboot_overlap): the payload of a reboot frame longer than one byte is read again as frames."
  },
  {
   "property": "C33",
   "status": "proved",
   "theorems": [
    "Verif.Serial.C33_burst",
    "Verif.Serial.C33_single_bit",
    "Verif.Serial.C33_odd",
    "Verif.Serial.C33_two_bits",
    "Verif.Serial.C33_rejected",
    "Verif.Serial.C33_skipped"
   ],
   "note": "Bursts up to 16 bits and odd numbers of flips in payloads of any length, two flips in payloads up to 255 bytes; C33_rejected and C33_skipped carry this to the serial parser."
  },
  {
   "property": "C34",
   "status": "proved",
   "theorems": [
    "Verif.Serial.C34_receiver",
    "Verif.Serial.C34_fresh_mismatch",
    "Verif.Serial.C34_builder"
   ],
   "note": "Builder counters over any use of the object; receiver counts exactly zero or one error for a run in order. Finding (C34_fresh_mismatch): a fresh builder starts at 0 and a fresh parser expects 1, so the first frame is always counted as an error."
  },
  {
   "property": "C35",
   "status": "proved",
   "theorems": [
    "Verif.Serial.C35_accounting"
   ],
   "note": "Conservation of bytes, alignment of the parsed bits, value of info[buffer] and shape of the remaining buffer for each returning call."
  },
  {
   "property": "C36",
   "status": "partial",
   "theorems": [
    "Verif.Serial.C36_refuted",
    "Verif.Serial.C36_raises_partial",
    "Verif.Serial.C36_stuck"
   ],
   "note": "The property is false (C36_refuted: a CRC-valid frame with a forward action to HOST makes parse raise IndexError from its own error handler; C36_stuck: the parser then raises for ever). C36_raises_partial: the only exception is IndexError and only for such frames."
  },
  {
   "property": "C37",
   "status": "partial",
   "theorems": [
    "Verif.Serial.C37_refuted",
    "Verif.Serial.C37_bounded_partial"
   ],
   "note": "The property is false (C37_refuted: one frame announcing 2^30-1 data bytes makes the parser hold back everything that follows). C37_bounded_partial: at most 261 bytes are held back unless the buffer starts with a complete frame whose ALP parser asks for more bytes."
  },
  {
   "property": "C38",
   "status": "proved",
   "theorems": [
    "Verif.Serial.C38_skip_mode",
    "Verif.Serial.C38_frames"
   ],
   "note": "No exception, at most 261 bytes held back, and every delivered message other than a reboot is the payload of a CRC-valid frame; all well-formed frames are delivered verbatim in any chunking."
  },
  {
   "property": "C39",
   "status": "proved",
   "theorems": [
    "Verif.Dll.C39_foreground_accepts",
    "Verif.Dll.C39_background_accepts",
    "Verif.Dll.C39_foreground",
    "Verif.Dll.C39_background",
    "Verif.Dll.C39_d7atp",
    "Verif.Dll.C39_d7atp_rfu"
   ],
   "note": "All accepted foreground/background control objects and all 128 D7ATP control objects; byte layout and RFU bit included."
  },
  {
   "property": "C40",
   "status": "proved",
   "theorems": [
    "Verif.Dll.C40_foreground",
    "Verif.Dll.C40_command",
    "Verif.Dll.C40_background"
   ],
   "note": "Foreground frames in the supported feature set with length and subnet bytes below 128 (the rest is C41) and an ALP part that the ALP parser reads completely; C40_command instantiates it with the commands of C20. Background frames likewise."
  },
  {
   "property": "C41",
   "status": "partial",
   "theorems": [
    "Verif.Dll.C41_refuted",
    "Verif.Dll.C41_exact_partial",
    "Verif.Dll.C41_returned"
   ],
   "note": "False of the code: C41_refuted. C41_exact_partial: a supported frame is delivered iff both bytes are below 128, else ValueError and the bytes stay. C41_returned holds for every input."
  },
  {
   "property": "C42",
   "status": "proved",
   "theorems": [
    "Verif.Dll.C42_waits",
    "Verif.Dll.C42_completes",
    "Verif.Dll.C42_sequence"
   ],
   "note": "Waiting, completion under every chunking and whole sequences of frames (one frame per call)."
  },
  {
   "property": "C43",
   "status": "partial",
   "theorems": [
    "Verif.Dll.C43_refuted",
    "Verif.Dll.C43_crc_is_last_partial"
   ],
   "note": "False of the code: C43_refuted (every checksum is accepted for every frame). C43_crc_is_last_partial: crc16 is exactly the last two bytes of the frame."
  },
  {
   "property": "C44",
   "status": "proved",
   "theorems": [
    "Verif.Modem.C44_one_sink",
    "Verif.Modem.C44_between",
    "Verif.Modem.C44_order",
    "Verif.Modem.C44_received",
    "Verif.Modem.C44_frames",
    "Verif.Modem.C44_drains"
   ],
   "note": "For all interleavings of the two threads (each step one source line of modem/modem.py): every message the parser delivered and that is not still waiting went to exactly one sink, right for its type, in order of arrival; sinks got nothing else (C44_one_sink, C44_between, C44_order). What is received is what the parser makes of the bytes (C44_received, C44_frames), and running the reading thread drains what waits (C44_drains)."
  },
  {
   "property": "C45",
   "status": "partial",
   "theorems": [
    "Verif.Modem.C45_refuted",
    "Verif.Modem.C45_untagged_lost",
    "Verif.Modem.C45_partial",
    "Verif.Modem.C45_swallowed",
    "Verif.Modem.C45_late_response",
    "Verif.Modem.C45_skip_mode"
   ],
   "note": "False as stated: an untagged message is compared with the initial tag None and swallowed (C45_refuted, C45_untagged_lost), and so is a repeated final response after its command was answered (C45_late_response). Proved: everything else reaches callback or unsolicited list (C45_partial), the exact lost case (C45_swallowed), and the full claim with skip_alp_parsing (C45_skip_mode)."
  },
  {
   "property": "C46",
   "status": "partial",
   "theorems": [
    "Verif.Modem.C46_result_partial",
    "Verif.Modem.C46_tags_partial",
    "Verif.Modem.C46_refuted_late",
    "Verif.Modem.C46_refuted_untagged",
    "Verif.Modem.C46_refuted_completed",
    "Verif.Modem.C46_async",
    "Verif.Modem.C46_ends"
   ],
   "note": "False in general, three concrete races (C46_refuted_late, C46_refuted_untagged, C46_refuted_completed). Proved: the full claim when no ALP message is being handed over during the preparation lines 152-157 (C46_result_partial), what can be in the list in every interleaving (C46_tags_partial), the asynchronous case (C46_async) and that the call can always end (C46_ends). Missing: nothing more is true of the code."
  },
  {
   "property": "C47",
   "status": "partial",
   "theorems": [
    "Verif.C47_independent_partial",
    "Verif.C47_poisoned",
    "Verif.C47_serialisation_stable",
    "Verif.C47_refuted",
    "Verif.C47_attributes_change"
   ],
   "note": "False in general (C47_refuted, C47_poisoned); proved for every history without a default-list call of more than 255 channels. Serialisations of existing objects are stable under every history."
  },
  {
   "property": "C48",
   "status": "proved",
   "theorems": [
    "Verif.C48_never_raises",
    "Verif.C48_attached_iff",
    "Verif.C48_type_iff",
    "Verif.C48_no_keys",
    "Verif.C48_sizes"
   ],
   "note": "Never raises; the attached file is characterised for all ids and contents by the independent relation Interprets."
  },
  {
   "property": "C49",
   "status": "proved",
   "theorems": [
    "Verif.Json.C49_round_trip",
    "Verif.Json.C49_library",
    "Verif.Json.C49_no_alias",
    "Verif.Json.C49_injective",
    "Verif.Json.C49_unknown_name"
   ],
   "note": "For all importable enum classes, aliases included (C49_round_trip, C49_injective, C49_unknown_name) and hence for the complete table of the library's 18 enums (C49_library, C49_no_alias). jsonpickle itself is trusted to pass the module and class name."
  },
  {
   "property": "C50",
   "status": "partial",
   "theorems": [
    "Verif.Modem.C50_result_partial",
    "Verif.Modem.C50_refuted_second",
    "Verif.Modem.C50_refuted_two_messages",
    "Verif.Modem.C50_again",
    "Verif.Modem.C50_connected",
    "Verif.Modem.C50_sources",
    "Verif.Modem.C50_callback"
   ],
   "note": "False for a second attempt (C50_refuted_second) and for an answer split over two messages (C50_refuted_two_messages). Proved: the exact result of the first connect for interleavings as in C46 (C50_result_partial); in every interleaving: when a modem counts as connected (C50_connected), where UID and firmware version come from (C50_sources), the callback before connect (C50_callback), connect when connected (C50_again)."
  },
  {
   "property": "C51",
   "status": "proved",
   "theorems": [
    "Verif.C51_ct",
    "Verif.C51_channel_header",
    "Verif.C51_channel_id",
    "Verif.C51_channel_status_identifier",
    "Verif.C51_subband",
    "Verif.C51_file_permissions",
    "Verif.C51_file_properties",
    "Verif.C51_file_header",
    "Verif.C51_file_header_operand",
    "Verif.C51_addressee",
    "Verif.C51_qos",
    "Verif.C51_configuration",
    "Verif.C51_status",
    "Verif.C51_length",
    "Verif.C51_offset",
    "Verif.C51_data_request",
    "Verif.C51_data",
    "Verif.C51_query",
    "Verif.C51_abp",
    "Verif.C51_otaa"
   ],
   "note": "Wire layouts as bit field tables, independent of the parser."
  },
  {
   "property": "C52",
   "status": "partial",
   "theorems": [
    "Verif.Dll.C52_refuted",
    "Verif.Dll.C52_errors_partial",
    "Verif.Dll.C52_stuck",
    "Verif.Dll.C52_accounting"
   ],
   "note": "False of the code: C52_refuted. Proved instead: the exact set of exceptions, that the parser is stuck afterwards (C52_stuck), and byte accounting of the calls that return."
  },
  {
   "property": "C53",
   "status": "partial",
   "theorems": [
    "Verif.Dll.C53_d7anp_refuted",
    "Verif.Dll.C53_foreground_refuted",
    "Verif.Dll.C53_background_refuted",
    "Verif.Dll.C53_d7atp_partial",
    "Verif.Dll.C53_d7atp_timing_refuted",
    "Verif.Dll.C53_d7atp_no_template_refuted",
    "Verif.Dll.C53_d7atp_ack_refuted",
    "Verif.Dll.C53_d7atp_tc_refuted"
   ],
   "note": "False of the code for foreground, background and D7ANP frames and for D7ATP frames with timing fields or acknowledgements (refuted theorems); C53_d7atp_partial proves the round trip for the remaining D7ATP frames."
  },
  {
   "property": "C54",
   "status": "partial",
   "theorems": [
    "Verif.C54_read",
    "Verif.C54_write_partial",
    "Verif.C54_write_error",
    "Verif.C54_write_empty",
    "Verif.C54_enum_id",
    "Verif.C54_table"
   ],
   "note": "C54_read for all objects with an integer id; C54_write_partial for all objects with content (C54_write_empty: without content only the opcode is sent). C54_enum_id and C54_table: 20 entries of the system file table carry an enum member as id, both factories raise ValueError for them; C54_table says exactly which entries can be read."
  },
  {
   "property": "C55",
   "status": "partial",
   "theorems": [
    "Verif.Modem.C55_refuted",
    "Verif.Modem.C55_serial_error",
    "Verif.Modem.C55_dead_forever",
    "Verif.Modem.C55_partial",
    "Verif.Modem.C55_skip_mode"
   ],
   "note": "False as stated: a CRC-valid frame with payload 32 00 ends the thread (C55_refuted), and so does any serial error, whose handler calls a method that does not exist (C55_serial_error); nothing is received afterwards (C55_dead_forever). Proved: the only other cause is an ALP payload failing an assertion without message (C55_partial), and none with skip_alp_parsing (C55_skip_mode)."
  },
  {
   "property": "C56",
   "status": "proved",
   "theorems": [
    "Verif.Json.C56_entries",
    "Verif.Json.C56_plain",
    "Verif.Json.C56_nested_list_kept",
    "Verif.Json.C56_injective"
   ],
   "note": "For all object trees (C56_entries, C56_plain, C56_injective); objects in a list in a list stay objects (C56_nested_list_kept), which no class of the library has."
  },
  {
   "property": "C57",
   "status": "proved",
   "theorems": [
    "Verif.Schema.C57_outcome",
    "Verif.Schema.C57_ct",
    "Verif.Schema.C57_ct_typed",
    "Verif.Schema.C57_channel_header",
    "Verif.Schema.C57_channel_header_typed",
    "Verif.Schema.C57_subband",
    "Verif.Schema.C57_subband_typed",
    "Verif.Schema.C57_channel_id",
    "Verif.Schema.C57_channel_id_typed",
    "Verif.Schema.C57_channel_status_identifier",
    "Verif.Schema.C57_channel_status_identifier_typed",
    "Verif.Schema.C57_sub_profile",
    "Verif.Schema.C57_sub_profile_typed",
    "Verif.Schema.C57_access_profile",
    "Verif.Schema.C57_access_profile_typed",
    "Verif.Schema.C57_background_frame_control",
    "Verif.Schema.C57_background_frame_control_typed",
    "Verif.Schema.C57_foreground_frame_control",
    "Verif.Schema.C57_foreground_frame_control_typed",
    "Verif.Schema.C57_foreground_frame",
    "Verif.Schema.C57_foreground_frame_typed",
    "Verif.Schema.C57_background_frame",
    "Verif.Schema.C57_background_frame_typed",
    "Verif.Schema.C57_qos",
    "Verif.Schema.C57_qos_typed",
    "Verif.Schema.C57_configuration",
    "Verif.Schema.C57_configuration_typed",
    "Verif.Schema.C57_status",
    "Verif.Schema.C57_status_typed",
    "Verif.Schema.C57_interface_configuration",
    "Verif.Schema.C57_data",
    "Verif.Schema.C57_data_request",
    "Verif.Schema.C57_data_request_typed",
    "Verif.Schema.C57_file_id_operand",
    "Verif.Schema.C57_file_id_operand_typed",
    "Verif.Schema.C57_arith_query_params",
    "Verif.Schema.C57_arith_query_params_typed",
    "Verif.Schema.C57_query_operand",
    "Verif.Schema.C57_query_operand_typed",
    "Verif.Schema.C57_file_header_operand",
    "Verif.Schema.C57_file_header_operand_typed",
    "Verif.Schema.C57_interface_status_operand",
    "Verif.Schema.C57_interface_status_operand_typed",
    "Verif.Schema.C57_tag_id",
    "Verif.Schema.C57_tag_id_typed",
    "Verif.Schema.C57_length",
    "Verif.Schema.C57_length_typed",
    "Verif.Schema.C57_indirect_interface_operand",
    "Verif.Schema.C57_indirect_interface_operand_typed",
    "Verif.Schema.C57_offset",
    "Verif.Schema.C57_offset_typed",
    "Verif.Schema.C57_lorawan_otaa",
    "Verif.Schema.C57_lorawan_abp",
    "Verif.Schema.C57_action",
    "Verif.Schema.C57_regular_action",
    "Verif.Schema.C57_forward_action",
    "Verif.Schema.C57_indirect_forward_action",
    "Verif.Schema.C57_status_action",
    "Verif.Schema.C57_tag_request_action",
    "Verif.Schema.C57_tag_response_action",
    "Verif.Schema.C57_command",
    "Verif.Schema.C57_d7anp_control",
    "Verif.Schema.C57_d7anp_control_typed",
    "Verif.Schema.C57_d7anp_frame",
    "Verif.Schema.C57_d7anp_frame_typed",
    "Verif.Schema.C57_d7atp_control",
    "Verif.Schema.C57_d7atp_control_typed",
    "Verif.Schema.C57_d7atp_frame",
    "Verif.Schema.C57_d7atp_frame_typed",
    "Verif.Schema.C57_file_header",
    "Verif.Schema.C57_file_header_typed",
    "Verif.Schema.C57_file_permissions",
    "Verif.Schema.C57_file_permissions_typed",
    "Verif.Schema.C57_file_properties",
    "Verif.Schema.C57_file_properties_typed",
    "Verif.Schema.C57_access_profile_file",
    "Verif.Schema.C57_access_profile_file_typed",
    "Verif.Schema.C57_dll_config_file",
    "Verif.Schema.C57_dll_config_file_typed",
    "Verif.Schema.C57_dll_status_file",
    "Verif.Schema.C57_dll_status_file_typed",
    "Verif.Schema.C57_engineering_mode_file",
    "Verif.Schema.C57_engineering_mode_file_typed",
    "Verif.Schema.C57_factory_settings_file",
    "Verif.Schema.C57_factory_settings_file_typed",
    "Verif.Schema.C57_firmware_version_file",
    "Verif.Schema.C57_firmware_version_file_typed",
    "Verif.Schema.C57_interface_configuration_file",
    "Verif.Schema.C57_interface_configuration_file_typed",
    "Verif.Schema.C57_phy_status_file",
    "Verif.Schema.C57_phy_status_file_typed",
    "Verif.Schema.C57_security_key_file",
    "Verif.Schema.C57_security_key_file_typed",
    "Verif.Schema.C57_root_authentication_key_file",
    "Verif.Schema.C57_root_authentication_key_file_typed",
    "Verif.Schema.C57_user_authentication_key_file",
    "Verif.Schema.C57_user_authentication_key_file_typed",
    "Verif.Schema.C57_uid_file",
    "Verif.Schema.C57_uid_file_typed",
    "Verif.Schema.C57_vid_file",
    "Verif.Schema.C57_vid_file_typed",
    "Verif.Schema.C57_addressee",
    "Verif.Schema.C57_addressee_typed",
    "Verif.Schema.C57_data_typed",
    "Verif.Schema.C57_interface_configuration_typed",
    "Verif.Schema.C57_actions_typed",
    "Verif.Schema.C57_forward_action_typed",
    "Verif.Schema.C57_indirect_forward_action_typed",
    "Verif.Schema.C57_status_action_typed",
    "Verif.Schema.C57_command_typed",
    "Verif.Schema.C57_operation",
    "Verif.Schema.C57_operation_refused",
    "Verif.Schema.C57_unchecked",
    "Verif.Schema.C57_no_alternative",
    "Verif.Schema.C57_key_string"
   ],
   "note": "Cerberus 1.1 is modelled as far as the schemas use it (nullable, type, min, max, allowed, isinstance, allowedmembers, minlength, maxlength, list schema, oneof_schema, allow_unknown); the flag bi covers both readings of bool as integer. C57_x gives the exact acceptance condition of class x, C57_x_typed shows that the constructors used everywhere else in the model have the same outcome, so the conditions written there are not an assumption. C57_unchecked lists the attributes that no key names. Not represented: floats, bytearrays, subclasses defined by the user."
  },
  {
   "property": "C58",
   "status": "partial",
   "theorems": [
    "Verif.Mqtt.C58_survives",
    "Verif.Mqtt.C58_sound",
    "Verif.Mqtt.C58_published_partial",
    "Verif.Mqtt.C58_frames_partial",
    "Verif.Mqtt.C58_refuted",
    "Verif.Mqtt.C58_window"
   ],
   "note": "Full statement: every ALP or ping message received after connect() returned is published once, in order, unchanged. False of the code: the callback is active from connect on, but self.mq and self.mqtt_topic_incoming are set afterwards, so a message handed over in between is dropped by the bare except (C58_refuted; C58_window: nothing at all is published before the end of the set-up). Proved: after the set-up, if publish does not raise, the messages that leave the queue are published exactly once, in order, unchanged (C58_published_partial, C58_frames_partial for streams of frames in any chunks); nothing else is ever published (C58_sound); the reading thread survives whatever arrives and whatever publish raises (C58_survives; serial errors excepted, C55). Assumed: the modem model of C44-C46; what the client does with a payload is not modelled."
  },
  {
   "property": "C59",
   "status": "partial",
   "theorems": [
    "Verif.Equality.C59_length",
    "Verif.Equality.C59_permissions",
    "Verif.Equality.C59_properties",
    "Verif.Equality.C59_header",
    "Verif.Equality.C59_channel",
    "Verif.Equality.C59_iff",
    "Verif.Equality.C59_refl",
    "Verif.Equality.C59_symm",
    "Verif.Equality.C59_trans_partial",
    "Verif.Equality.C59_trans_refuted",
    "Verif.Equality.C59_ne_partial",
    "Verif.Equality.C59_ne_refuted",
    "Verif.Equality.C59_not_both"
   ],
   "note": "Proved: for each of the five classes == holds exactly when the serialised bytes agree; the exact meaning of == for all pairs of values; reflexive, symmetric; the exact conditions for transitivity and for != being the negation of ==. Refuted: transitivity (Length(5) == 5 == 5L, but Length(5) != 5L) and the negation (a channel header is neither == nor != 5). Strings, floats, user classes and hashing are not modelled."
  },
  {
   "property": "C60",
   "status": "partial",
   "theorems": [
    "Verif.HexTool.C60_bytes",
    "Verif.HexTool.C60_unique",
    "Verif.HexTool.C60_spelling",
    "Verif.HexTool.C60_alp",
    "Verif.HexTool.C60_serial",
    "Verif.HexTool.C60_systemfile",
    "Verif.HexTool.C60_systemfile_only",
    "Verif.HexTool.C60_frames_refuted",
    "Verif.HexTool.C60_printed"
   ],
   "note": "Proved for the reading of the text and for the types alp, serial and systemfile; C60_printed: whatever is parsed is printed, as the text of the object. Refuted for fg and bg: the tool always raises there."
  },
  {
   "property": "C61",
   "status": "partial",
   "theorems": [
    "Verif.Print.C61_system_file_iff",
    "Verif.Print.C61_system_file_parsed",
    "Verif.Print.C61_phy_status",
    "Verif.Print.C61_firmware_refuted",
    "Verif.Print.C61_operation",
    "Verif.Print.C61_action",
    "Verif.Print.C61_command_iff",
    "Verif.Print.C61_command",
    "Verif.Print.C61_command_parsed",
    "Verif.Print.C61_command_add_action",
    "Verif.Print.C61_describe_actions"
   ],
   "note": "Proved for operations, actions, commands and parsed system files; for system files made by a caller the exact condition is C61_system_file_iff. Refuted for firmware versions with a name that is not ASCII: accepted, but printing raises."
  },
  {
   "property": "C62",
   "status": "partial",
   "theorems": [
    "Verif.Print.C62_ct",
    "Verif.Print.C62_sub_band",
    "Verif.Print.C62_channel_status_identifier",
    "Verif.Print.C62_addressee_iff_partial",
    "Verif.Print.C62_status_iff_partial",
    "Verif.Print.C62_operation_iff_partial",
    "Verif.Print.C62_system_file_iff_partial",
    "Verif.Print.C62_system_file_parsed",
    "Verif.Print.C62_action_partial",
    "Verif.Print.C62_status_action_partial",
    "Verif.Print.C62_command_partial",
    "Verif.Print.C62_permissions_refuted",
    "Verif.Print.C62_nls_refuted",
    "Verif.Print.C62_dll_config_refuted",
    "Verif.Print.C62_keys_refuted",
    "Verif.Print.C62_flags_refuted"
   ],
   "note": "Exact characterisation of the operations, addressees, statuses and system files with the same text; commands up to the texts of their actions. Refuted as stated: permissions, NLS method, DLL noise floor parameters, action flags and the class of key files are not printed. The texts of configuration dictionaries are not modelled."
  },
  {
   "property": "C63",
   "status": "proved",
   "theorems": [
    "Verif.C63_system_file",
    "Verif.C63_action",
    "Verif.C63_access_profile",
    "Verif.C63_sub_profile"
   ],
   "note": "All 14 system files, all operations and all three kinds of action: the bits are those of a table written down in Spec/Tables.lean. Which of them serialise at all is the subject of C04 and C54."
  },
  {
   "property": "C64",
   "status": "proved",
   "theorems": [
    "Verif.C64_phy",
    "Verif.C64_file_header",
    "Verif.C64_session",
    "Verif.C64_operands",
    "Verif.C64_system_files",
    "Verif.C64_long_length"
   ],
   "note": "Exact acceptance (if and only if) for every parser of a part, an operand and a system file; the tables include the recorded oddities: longer lengths than needed are accepted, factory settings turn the smoothing into a logarithm, an access profile gets specifier 0. Key files are never read (C17_parse)."
  },
  {
   "property": "C65",
   "status": "proved",
   "theorems": [
    "Verif.C65_action",
    "Verif.C65_command"
   ],
   "note": "Exact acceptance of the action parser and, by induction over the loop, of the command parser; the remaining condition is the one of the Command constructor (C22)."
  },
  {
   "property": "C66",
   "status": "partial",
   "theorems": [
    "Verif.C66_parts",
    "Verif.C66_files_partial",
    "Verif.C66_engineering_mode"
   ],
   "note": "All fixed-format parts and seven system files. Missing because the code does otherwise: factory settings (smoothing), engineering mode (writes two bytes more than it reads, exact theorem given), key files (cannot be read)."
  },
  {
   "property": "C67",
   "status": "partial",
   "theorems": [
    "Verif.Examples.C67_system_file_partial",
    "Verif.Examples.C67_command_partial",
    "Verif.Examples.C67_text"
   ],
   "note": "Proved for every system file and for every command without file data and interface status. For all other commands C67_text proves that the claim fails: ValueError."
  },
  {
   "property": "C68",
   "status": "partial",
   "theorems": [
    "Verif.Update.C68_image",
    "Verif.Update.C68_confirmed",
    "Verif.Update.C68_failed",
    "Verif.Update.C68_outcome_partial",
    "Verif.Update.C68_frame",
    "Verif.Update.C68_progress",
    "Verif.Update.C68_progress_refuted"
   ],
   "note": "Everything but two points, which the code refutes: the progress is at least 100 % (C68_progress; 23900 % for one byte) and files over 1073741916 bytes end in ValueError (C68_outcome_partial)."
  },
  {
   "property": "C69",
   "status": "partial",
   "theorems": [
    "Verif.Examples.C69_verdict_partial",
    "Verif.Examples.C69_wait",
    "Verif.Examples.C69_raises",
    "Verif.Examples.C69_received",
    "Verif.Examples.C69_type_refuted",
    "Verif.Examples.C69_stale_refuted"
   ],
   "note": "Exact condition for OK, exact condition for an exception, the closed form of the waiting loop. The full claim is refuted: writes of the payload count as well (C69_type_refuted), messages of the last interval do not (C69_stale_refuted)."
  },
  {
   "property": "C70",
   "status": "partial",
   "theorems": [
    "Verif.Examples.C70_engineering_partial",
    "Verif.Examples.C70_gaussian_refuted",
    "Verif.Examples.C70_paramp_refuted",
    "Verif.Examples.C70_cleanup",
    "Verif.Examples.C70_factory",
    "Verif.Examples.C70_profile"
   ],
   "note": "Exact bytes of the three programs for all option values, and ValueError for everything else. Refuted only for the default of one of the two factory options when just the other is given (C70_gaussian_refuted, C70_paramp_refuted)."
  },
  {
   "property": "C71",
   "status": "proved",
   "theorems": [
    "Verif.Modem.C71_transparent",
    "Verif.Modem.C71_delivered",
    "Verif.Modem.C71_silent",
    "Verif.Modem.C71_after_stop",
    "Verif.Modem.C71_one_read",
    "Verif.Modem.C71_stop_returns",
    "Verif.Modem.C71_lost"
   ],
   "note": "For all interleavings; restarts must follow an orderly end (after an exception the waiting messages are lost, C71_lost)."
  },
  {
   "property": "C72",
   "status": "proved",
   "theorems": [
    "Verif.Examples.C72_sends",
    "Verif.Examples.C72_all_runs",
    "Verif.Examples.C72_arrives"
   ],
   "note": "Exact set of sendable messages and their bytes. A message with an empty payload is sent but does not parse (C19)."
  },
  {
   "property": "C73",
   "status": "proved",
   "theorems": [
    "Verif.Modem.C73_written",
    "Verif.Modem.C73_refused",
    "Verif.Modem.C73_sent",
    "Verif.Modem.C73_peer"
   ],
   "note": "All interleavings of one application thread and the reading thread; several application threads are C74. The other end delivers the commands of the kind that survives a round trip (C20)."
  },
  {
   "property": "C74",
   "status": "partial",
   "theorems": [
    "Verif.Modem.C74_frames",
    "Verif.Modem.C74_alone_partial",
    "Verif.Modem.C74_refuted_callback",
    "Verif.Modem.C74_refuted_response",
    "Verif.Modem.C74_refuted_lost",
    "Verif.Modem.C74_refuted_assertion",
    "Verif.Modem.C74_refuted_counter",
    "Verif.Modem.C74_refuted_overflow"
   ],
   "note": "Frames: proved for all interleavings (C74_frames). The rest holds when calls do not overlap: then every run corresponds to one of a single thread (C74_alone_partial), to which C44-C51 and C73 apply. With overlapping calls it is refuted (wrong response, lost response, assertion, equal counters, ValueError), and inside a callback for every run (C74_refuted_callback)."
  },
  {
   "property": "C75",
   "status": "proved",
   "theorems": [
    "Verif.Modem.C75_execute",
    "Verif.Modem.C75_too_long",
    "Verif.Modem.C75_connect",
    "Verif.Modem.C75_data",
    "Verif.Modem.C75_read_back",
    "Verif.Modem.C75_quiet",
    "Verif.Modem.C75_returns",
    "Verif.Modem.C75_answer_too_long",
    "Verif.Modem.C75_factory"
   ],
   "note": "Assumes that calls do not time out, the line does not fail and the device sends only answers to requests; these cases are covered by C44-C51 and C71. Several application threads are C74."
  },
  {
   "property": "C76",
   "status": "proved",
   "theorems": [
    "Verif.Modem.C76_execute",
    "Verif.Modem.C76_unique",
    "Verif.Modem.C76_refused",
    "Verif.Modem.C76_returns",
    "Verif.Modem.C76_quiet",
    "Verif.Modem.C76_handled"
   ],
   "note": "Assumes that calls do not time out, the line does not fail and ALP messages are answers to requests; unsolicited ALP messages are covered by C44-C46. That the device answers correctly is the hypothesis Conforms."
  },
  {
   "property": "C77",
   "status": "partial",
   "theorems": [
    "Verif.Modem.C77_content",
    "Verif.Modem.C77_same_partial",
    "Verif.Modem.C77_refuted",
    "Verif.Modem.C77_connect"
   ],
   "note": "False for key files, factory settings, versions with short names, PHY status of more than 10 channels (the declared length is 45 bytes, so the rest is not read), access profiles other than the first and the classes without a parser (C77_refuted); the theorem says for every object whether it survives. The write has to fit in a frame."
  },
  {
   "property": "C78",
   "status": "partial",
   "theorems": [
    "Verif.Modem.C78_sent",
    "Verif.Modem.C78_describes",
    "Verif.Modem.C78_read_command",
    "Verif.Modem.C78_write_command",
    "Verif.Modem.C78_query_partial",
    "Verif.Modem.C78_status",
    "Verif.Modem.C78_unique",
    "Verif.Modem.C78_lost",
    "Verif.Modem.C78_refuted"
   ],
   "note": "For receive levels up to 127 and answering nodes with a unique, a virtual or no identifier; false for receive levels from 128 on, whose messages are dropped (C78_lost, C78_refuted). Same assumptions as C76; that the gateway passes on the answers is the hypothesis Forwards."
  },
  {
   "property": "C79",
   "status": "proved",
   "theorems": [
    "Verif.Modem.C79_called",
    "Verif.Modem.C79_settled",
    "Verif.Modem.C79_nowhere_else",
    "Verif.Modem.C79_settles"
   ],
   "note": "Same assumptions as C76 (the device answers every command that has a tag with messages that have it); the callback does not raise."
  },
  {
   "property": "C80",
   "status": "proved",
   "theorems": [
    "Verif.Modem.C80_update",
    "Verif.Modem.C80_completes"
   ],
   "note": "Same assumptions as C75: the device answers every command (no timeouts, the line does not fail). Opening and reading the file and printing are not modelled. That a file may be at most 1073741916 bytes long is a limit of the format (offsets have 30 bits); the theorem says what happens beyond it."
  },
  {
   "property": "C81",
   "status": "partial",
   "theorems": [
    "Verif.Modem.C81_command",
    "Verif.Modem.C81_query_partial",
    "Verif.Modem.C81_end"
   ],
   "note": "For nodes heard at receive levels up to 127 and without an NBID addressee, as C78; beyond it the answer is lost (C78_lost, C78_refuted). Assumptions of C76 and C79: a connected modem with a callback, a gateway that conforms, no other call while the answers arrive. C81_end says at which message os._exit in the callback ends the program; C104 is about the whole program."
  },
  {
   "property": "C82",
   "status": "proved",
   "theorems": [
    "Verif.Modem.C82_kept",
    "Verif.Modem.C82_settled",
    "Verif.Modem.C82_current",
    "Verif.Modem.C82_nowhere_else",
    "Verif.Modem.C82_settles"
   ],
   "note": "Assumptions of C79: skip_alp_parsing is off, the device conforms, no call times out, the line does not fail. connect is not called in between (before, it may be)."
  },
  {
   "property": "C83",
   "status": "partial",
   "theorems": [
    "Verif.Modem.C83_delivered",
    "Verif.Modem.C83_settled",
    "Verif.Modem.C83_origin",
    "Verif.Modem.C83_fresh_partial",
    "Verif.Modem.C83_answered_partial",
    "Verif.Modem.C83_settles",
    "Verif.Modem.C83_refuted_tag",
    "Verif.Modem.C83_refuted_overlap",
    "Verif.Modem.C83_connect_partial",
    "Verif.Modem.C83_connect_answered_partial"
   ],
   "note": "Full for what arrives (C83_delivered, C83_settled, C83_origin) and for coming to rest (C83_settles). What a call returns holds for a tag that was not used before and interleavings in which no ALP message is handed over while execute_command makes its list and sets its tag (modem/modem.py 152-157): C83_fresh_partial, C83_answered_partial, and for connect C83_connect_partial, C83_connect_answered_partial. Both conditions are needed: C83_refuted_tag and C83_refuted_overlap are runs in which a call returns answers to an earlier call that timed out."
  },
  {
   "property": "C84",
   "status": "partial",
   "theorems": [
    "Verif.Modem.C84_confirmed_partial",
    "Verif.Modem.C84_effect_partial",
    "Verif.Modem.C84_again_partial",
    "Verif.Modem.C84_raises_partial",
    "Verif.Modem.C84_raises_refuted",
    "Verif.Modem.C84_exception",
    "Verif.Modem.C84_dead",
    "Verif.Modem.C84_engineering",
    "Verif.Modem.C84_refuted"
   ],
   "note": "Full for the command of the program (C84_engineering), a failed line (C84_dead) and which exceptions there are (C84_exception). That the loop raises only if the command does not fit in a frame (C84_raises_partial) needs a device whose answers all say whether there was an error; C84_raises_refuted is one that repeats the tag request. What the end of the loop means (C84_confirmed_partial, C84_effect_partial) and why it goes on (C84_again_partial) holds in interleavings in which no ALP message is handed over while execute_command makes its list and sets its tag, after calls with other tags. Without that it is false: C84_refuted is a loop ended by the late answer to connect although the device refused the command."
  },
  {
   "property": "C85",
   "status": "partial",
   "theorems": [
    "Verif.Modem.C85_off_partial",
    "Verif.Modem.C85_deadlock",
    "Verif.Modem.C85_overflow",
    "Verif.Modem.C85_command"
   ],
   "note": "C85_off_partial holds when nobody holds the lock and the frame counter is at most 255 when the handler is started; C85_deadlock and C85_overflow show that in all other states it fails, by a deadlock or by ValueError. C85_command is full: for all accepted options the command of the handler fits in a frame and writes the file with mode off."
  },
  {
   "property": "C86",
   "status": "proved",
   "theorems": [
    "Verif.Mqtt.C86_asks",
    "Verif.Mqtt.C86_sound",
    "Verif.Mqtt.C86_all_but_first",
    "Verif.Mqtt.C86_all",
    "Verif.Mqtt.C86_settles"
   ],
   "note": "bridge with a device that sends any frames at any time: C86_asks (all that is ever written), C86_sound (sublist of what was sent, thread survives), C86_all_but_first (at rest: sent = lost ++ published, lost sent before the end of the set-up), C86_all, C86_settles (progress). That the first messages can be lost is C58_refuted."
  },
  {
   "property": "C87",
   "status": "partial",
   "theorems": [
    "Verif.Modem.C87_unasked_partial",
    "Verif.Modem.C87_pushes_partial",
    "Verif.Modem.C87_connect_suffices",
    "Verif.Modem.C87_listening",
    "Verif.Modem.C87_settles",
    "Verif.Modem.C87_async_refuted",
    "Verif.Modem.C87_reset_refuted"
   ],
   "note": "From a connected modem that has written something: C87_unasked_partial (messages whose tag no call compares with), C87_pushes_partial (frames without a tag, all commands executed with a tag and waiting), both for calm interleavings, in which no ALP message is handed over while execute_command makes its list and sets its tag. C87_listening is full: for programs that after their calls only listen, in every interleaving. C87_connect_suffices: a successful connect is enough. C87_settles: everything gets dealt with. The conditions are needed: C87_async_refuted, C87_reset_refuted."
  },
  {
   "property": "C88",
   "status": "proved",
   "theorems": [
    "Verif.Modem.C88_logged",
    "Verif.Modem.C88_frames",
    "Verif.Modem.C88_reboots",
    "Verif.Modem.C88_silent_before",
    "Verif.Modem.C88_silent"
   ],
   "note": "C88_logged and C88_frames (every interleaving), C88_reboots (every run of any modem with a reboot callback), C88_silent_before and C88_silent (nothing is ever logged if connect fails). The text that is logged is not modelled."
  },
  {
   "property": "C89",
   "status": "partial",
   "theorems": [
    "Verif.Throughput.C89_setup",
    "Verif.Throughput.C89_counted_partial",
    "Verif.Throughput.C89_frames_partial",
    "Verif.Throughput.C89_ok_partial",
    "Verif.Throughput.C89_deaf",
    "Verif.Throughput.C89_refuted",
    "Verif.Throughput.C89_early",
    "Verif.Throughput.C89_status_refuted",
    "Verif.Throughput.C89_unconnected",
    "Verif.Throughput.C89_no_answer",
    "Verif.Throughput.C89_ends"
   ],
   "note": "False of messages that arrive during the set-up (C89_refuted; for every message with a status and every interleaving C89_early with C89_deaf) and after the status of an interface other than D7A (C89_status_refuted). C89_counted_partial, C89_frames_partial and C89_ok_partial hold from the moment the program waits for messages. For the transmitting modem see C90."
  },
  {
   "property": "C90",
   "status": "partial",
   "theorems": [
    "Verif.Throughput.C90_ends",
    "Verif.Throughput.C90_written",
    "Verif.Throughput.C90_done",
    "Verif.Throughput.C90_arrival",
    "Verif.Throughput.C90_ok_partial",
    "Verif.Throughput.C90_radio_partial",
    "Verif.Throughput.C90_means_partial",
    "Verif.Throughput.C90_late_refuted",
    "Verif.Throughput.C90_extra_refuted",
    "Verif.Throughput.C90_nothing_refuted"
   ],
   "note": "An OK does not mean that the messages of this run arrived, and a late message of the run before spoils a perfect run (C90_late_refuted, C90_extra_refuted); with nothing to send the program may end with an exception (C90_nothing_refuted). C90_ok_partial and C90_radio_partial give the OK for a run in which exactly the announced messages arrive, C90_means_partial says what an OK means. Radio is a hypothesis about the bytes that arrive; for the modes with one device only see C96."
  },
  {
   "property": "C91",
   "status": "proved",
   "theorems": [
    "Verif.Modem.C91_identified",
    "Verif.Modem.C91_profile",
    "Verif.Modem.C91_factory",
    "Verif.Modem.C91_engineering",
    "Verif.Modem.C91_phy",
    "Verif.Modem.C91_ends",
    "Verif.Modem.C91_factory_forwarded",
    "Verif.Modem.C91_engineering_forwarded"
   ],
   "note": "C91_identified tells which devices connect accepts; C91_profile, C91_factory, C91_engineering and C91_phy what each program leaves on the device and how it ends, for all options; C91_ends that such an end exists; C91_factory_forwarded and C91_engineering_forwarded what one call with -f makes the gateway send. The device answers in time here (see C83, C84 for one that does not)."
  },
  {
   "property": "C92",
   "status": "proved",
   "theorems": [
    "Verif.HexText.C92_spells",
    "Verif.HexText.C92_line_unique",
    "Verif.HexText.C92_session",
    "Verif.HexText.C92_whole_line_refuted",
    "Verif.HexText.C92_line_end_refuted",
    "Verif.HexText.C92_generated",
    "Verif.HexText.C92_messages"
   ],
   "note": "the texts the library writes stand for the bytes, so the tool shows what was written: whole sessions, single printed frames, the six messages of generate_messages.py; the exceptions for whole log lines and for lines joined by line ends are proved too."
  },
  {
   "property": "C93",
   "status": "proved",
   "theorems": [
    "Verif.Serial.C93_numbers",
    "Verif.Serial.C93_lost",
    "Verif.Serial.C93_detects",
    "Verif.Serial.C93_wraps_refuted",
    "Verif.Serial.C93_damaged_refuted"
   ],
   "note": "exact count of the jumps for every pattern of lost frames; detection of fewer than 256 lost frames; the two exceptions (256 frames in a row, damaged frames) by witnesses."
  },
  {
   "property": "C94",
   "status": "proved",
   "theorems": [
    "Verif.Serial.C94_command",
    "Verif.Serial.C94_sequence"
   ],
   "note": "from the round trips: a parser that gets the bytes delivers one command (sequence), which is the same as both."
  },
  {
   "property": "C95",
   "status": "partial",
   "theorems": [
    "Verif.Labels.C95_decimal",
    "Verif.Labels.C95_hexadecimal",
    "Verif.Labels.C95_channel",
    "Verif.Labels.C95_status",
    "Verif.Labels.C95_operation_partial",
    "Verif.Labels.C95_system_file_partial",
    "Verif.Labels.C95_lora_refuted",
    "Verif.Labels.C95_dll_config_refuted",
    "Verif.Labels.C95_permissions_refuted",
    "Verif.Labels.C95_action_partial",
    "Verif.Labels.C95_command_partial",
    "Verif.Labels.C95_describe_actions_partial"
   ],
   "note": "The layout of every text is proved exactly (C95_status, C95_operation_partial, C95_system_file_partial, C95_action_partial, C95_command_partial, C95_describe_actions_partial). Refuted for the LoRa settings (swapped), two values of the DLL configuration and the permissions of a file (not shown): C95_lora_refuted, C95_dll_config_refuted, C95_permissions_refuted."
  },
  {
   "property": "C96",
   "status": "partial",
   "theorems": [
    "Verif.Throughput.C96_listen_alone",
    "Verif.Throughput.C96_options",
    "Verif.Throughput.C96_address",
    "Verif.Throughput.C96_written",
    "Verif.Throughput.C96_done",
    "Verif.Throughput.C96_no_number",
    "Verif.Throughput.C96_far",
    "Verif.Throughput.C96_ends",
    "Verif.Throughput.C96_silent_refuted",
    "Verif.Throughput.C96_listen_partial",
    "Verif.Throughput.C96_means_partial",
    "Verif.Throughput.C96_listen_ends",
    "Verif.Throughput.C96_four_runs_refuted"
   ],
   "note": "Proved: the arguments, the accepted addresses, what the transmitter gets in every interleaving (by kind of address), what a good end means, that the program can always end, when the receiver says OK and what it means. Refuted: a silent transmitter is noticed (C96_silent_refuted), and the receiver says OK whenever nothing is lost (C96_four_runs_refuted). int(s, 16) is modelled for ASCII text."
  },
  {
   "property": "C97",
   "status": "partial",
   "theorems": [
    "Verif.Serial.C97_refused_partial",
    "Verif.Serial.C97_skipped_partial",
    "Verif.Serial.C97_counter",
    "Verif.Serial.C97_counter_shows",
    "Verif.Serial.C97_type_refuted",
    "Verif.Serial.C97_length",
    "Verif.Serial.C97_length_refuted"
   ],
   "note": "Proved for the sync bytes, the CRC, the payload and the counter, and an exact case distinction for the length. The full claim is refuted of the message type, for every ALP frame (C97_type_refuted), and of the length (C97_length_refuted)."
  },
  {
   "property": "C98",
   "status": "partial",
   "theorems": [
    "Verif.Serial.C98_refused_partial",
    "Verif.Serial.C98_odd",
    "Verif.Serial.C98_skipped_partial",
    "Verif.Serial.C98_line",
    "Verif.Serial.C98_four_refuted",
    "Verif.Serial.C98_burst_refuted",
    "Verif.Modem.C98_received",
    "Verif.Modem.C98_answers"
   ],
   "note": "C98_refused_partial and C98_skipped_partial for up to three flipped bits, C98_odd for an odd number, C98_line for sequences of frames, C98_received and C98_answers for the modem; false of four bits (C98_four_refuted) and of bursts over the boundary of CRC and payload (C98_burst_refuted). Message type and length are not protected by the CRC (C97)."
  },
  {
   "property": "C99",
   "status": "proved",
   "theorems": [
    "Verif.Modem.C99_one_sink",
    "Verif.Modem.C99_written",
    "Verif.Modem.C99_next_call",
    "Verif.Modem.C99_connect",
    "Verif.Modem.C99_late_answer"
   ],
   "note": "Model/ModemFaults adds the event \"the write raises after n bytes have left\". C99_written: the bytes on the port. C99_one_sink, C99_next_call: receiving goes on and the next call is answered as usual. C99_connect gives the exact state after a failed connect, including the exception with skip_alp_parsing. C99_late_answer: the answer to a frame whose flush failed is swallowed."
  },
  {
   "property": "C100",
   "status": "partial",
   "theorems": [
    "Verif.Serial.C100_line_partial",
    "Verif.Serial.C100_waits",
    "Verif.Serial.C100_beginning",
    "Verif.Serial.C100_end",
    "Verif.Serial.C100_mixed_refuted",
    "Verif.Modem.C100_received_partial",
    "Verif.Modem.C100_peer_partial"
   ],
   "note": "False in general: C100_mixed_refuted gives, for every frame, a cut log message that swallows it. C100_line_partial: the claim under the condition that the cuts show (a condition on the bytes, Spec/Cut.lean); C100_received_partial the same for the modem with its threads, C100_peer_partial for the other end of a port with failing writes. C100_beginning and C100_end: cuts that always or exactly sometimes show. C100_waits: while fewer bytes have come than are missing nothing happens."
  },
  {
   "property": "C101",
   "status": "partial",
   "theorems": [
    "Verif.Modem.C101_refines",
    "Verif.Modem.C101_not_early_partial",
    "Verif.Modem.C101_gives_up_partial",
    "Verif.Modem.C101_before_timeout_partial",
    "Verif.Modem.C101_answered",
    "Verif.Modem.C101_ends_partial",
    "Verif.Modem.C101_noticed",
    "Verif.Modem.C101_steps_partial",
    "Verif.Modem.C101_goes_on",
    "Verif.Modem.C101_forward_refuted",
    "Verif.Modem.C101_back_refuted"
   ],
   "note": "False of a clock that is set while a call waits: C101_forward_refuted, C101_back_refuted. The others hold for clocks that are not set forward (C101_not_early_partial, C101_gives_up_partial, C101_before_timeout_partial) or not set back (C101_ends_partial, C101_steps_partial); C101_answered, C101_noticed and C101_goes_on for all clocks. C101_refines: the modem with time (Model/Clock) does what Model/Modem does, so that all theorems about the latter hold of it."
  },
  {
   "property": "C102",
   "status": "partial",
   "theorems": [
    "Verif.Examples.C102_wait",
    "Verif.Examples.C102_counted_partial",
    "Verif.Examples.C102_last_seconds_refuted",
    "Verif.Examples.C102_ends_partial",
    "Verif.Examples.C102_rounds_partial",
    "Verif.Examples.C102_goes_on",
    "Verif.Examples.C102_noticed",
    "Verif.Examples.C102_forward_refuted",
    "Verif.Examples.C102_back_refuted"
   ],
   "note": "C102_last_seconds_refuted: for every timeout messages that come in the last two seconds are not counted. C102_forward_refuted, C102_back_refuted: clocks that are set. C102_counted_partial, C102_ends_partial and C102_rounds_partial: the claim for the other messages and clocks. C102_wait: the numbers counted are those of the loop of C69."
  },
  {
   "property": "C103",
   "status": "partial",
   "theorems": [
    "Verif.Stats.C103_sum",
    "Verif.Stats.C103_spacing",
    "Verif.Stats.C103_reported",
    "Verif.Stats.C103_loop",
    "Verif.Stats.C103_silent_refuted"
   ],
   "note": "C103_silent_refuted: the program never calls keep_stats and logs nothing. The others are about the methods and the main loop. `+=` is one step; nobody calls it in another thread."
  },
  {
   "property": "C104",
   "status": "partial",
   "theorems": [
    "Verif.Modem.Query.C104_stops",
    "Verif.Modem.Query.C104_silent",
    "Verif.Modem.Query.C104_always_refuted",
    "Verif.Modem.Query.C104_logged_partial",
    "Verif.Modem.Query.C104_ends_partial"
   ],
   "note": "C104_always_refuted: after a connect that times out the program runs for ever and logs nothing; C104_silent says so for every run. C104_stops holds for all devices and events. C104_logged_partial and C104_ends_partial are for receive levels up to 127 (C78) and runs without timeouts and line failures, with the assumptions of C79 about the gateway."
  },
  {
   "property": "C105",
   "status": "partial",
   "theorems": [
    "Verif.Serial.C105_line_partial",
    "Verif.Serial.C105_one_partial",
    "Verif.Serial.C105_lost_end",
    "Verif.Serial.C105_lost_partial",
    "Verif.Serial.C105_taken_refuted",
    "Verif.Serial.C105_command_refuted",
    "Verif.Serial.C105_between",
    "Verif.Serial.C105_added_partial",
    "Verif.Serial.C105_added_end",
    "Verif.Serial.C105_same",
    "Verif.Serial.C105_waits",
    "Verif.Modem.C105_received_partial"
   ],
   "note": "False in general: C105_taken_refuted (every log message whose CRC fits with the next sync byte) and C105_command_refuted (commands, a lost and an added byte). C105_line_partial: any damage to any of the frames, under the condition that it shows in the bytes (Spec/Slip.lean); C105_one_partial one damaged frame; C105_lost_partial and C105_added_partial single bytes; C105_lost_end and C105_added_end: the CRC always shows the last two bytes. C105_between and C105_same: additional bytes that do no harm. C105_received_partial: the same for the modem with its threads. C105_waits: nothing happens until bytes follow."
  },
  {
   "property": "C106",
   "status": "partial",
   "theorems": [
    "Verif.Modem.C106_outcome_partial",
    "Verif.Modem.C106_file_partial",
    "Verif.Modem.C106_exit",
    "Verif.Modem.C106_failed_refuted",
    "Verif.Modem.C106_done_refuted_tag",
    "Verif.Modem.C106_done_refuted_overlap",
    "Verif.Modem.C106_order"
   ],
   "note": "Proved for all devices that answer properly, all files, tags, earlier calls, timeouts, late answers and callbacks that raise: what each end of the program means (C106_outcome_partial, C106_file_partial), the order of what the device does in every interleaving (C106_order), and that a reading thread that has ended gives \"write failed\" at once (C106_exit). Missing because false: \"write failed\" does not mean that the piece is not on the device (C106_failed_refuted); with equal tags (C106_done_refuted_tag) or in an overlapping interleaving (C106_done_refuted_overlap) the program ends normally although the device refused the piece."
  },
  {
   "property": "C107",
   "status": "partial",
   "theorems": [
    "Verif.Modem.C107_series_partial",
    "Verif.Modem.C107_giving_up_partial",
    "Verif.Modem.C107_limit",
    "Verif.Modem.C107_refuted"
   ],
   "note": "Proved for all devices, commands, earlier calls, timeouts and failures, in interleavings in which no hand-over of an ALP message overlaps with the start of a call, if the tag of each command differs from those of the commands since the last call that returned something (C107_series_partial, C107_giving_up_partial). At most 256 successive commands that are not answered in time can meet this condition (C107_limit). Missing because false: without the condition on the tags a late answer is returned as the answer to a later command (C107_refuted); for interleavings that overlap see C84_refuted and C106_done_refuted_overlap. For programs that start when nothing is going on see C108, which has neither condition."
  },
  {
   "property": "C108",
   "status": "proved",
   "theorems": [
    "Verif.Modem.C108_calls",
    "Verif.Modem.C108_update",
    "Verif.Modem.C108_file",
    "Verif.Modem.C108_connect"
   ],
   "note": "In every interleaving, with any tags: C108_calls for any series of commands, C108_update and C108_file for the update program, whose first command must be answered in time (its result is ignored; C106_done_refuted_tag shows what happens otherwise), C108_connect for `connect`."
  },
  {
   "property": "C109",
   "status": "proved",
   "theorems": [
    "Verif.Modem.C109_calls",
    "Verif.Modem.C109_update",
    "Verif.Modem.C109_file"
   ],
   "note": "C109_calls for any series of commands, C109_update and C109_file for the update program, whose first command must be answered in time. The program in examples/write_update.py does not look at the result of connect either; that it returned True is a hypothesis here. If it did not, C106 applies."
  },
  {
   "property": "C110",
   "status": "proved",
   "theorems": [
    "Verif.Modem.C110_content",
    "Verif.Modem.C110_read_back",
    "Verif.Modem.C110_system_file"
   ],
   "note": "C110_content gives every answer and the files at the end, C110_read_back what was written by one command and read by a later one, C110_system_file which system file objects come back (those that do not are in C77_refuted)."
  },
  {
   "property": "C111",
   "status": "proved",
   "theorems": [
    "Verif.Modem.C111_profile_safe",
    "Verif.Modem.C111_factory_safe",
    "Verif.Modem.C111_phy_safe",
    "Verif.Modem.C111_engineering_safe",
    "Verif.Modem.C111_profile",
    "Verif.Modem.C111_factory",
    "Verif.Modem.C111_phy",
    "Verif.Modem.C111_engineering",
    "Verif.Modem.C111_endless",
    "Verif.Modem.C111_ends_refuted"
   ],
   "note": "for the programs without -f; the device keeps a byte for each file and offset and does a command as a whole or refuses it (Gateway.Keeps); a call that returns nothing says nothing about which of the two it is (C111_*_safe)"
  },
  {
   "property": "C112",
   "status": "proved",
   "theorems": [
    "Verif.Modem.C112_off",
    "Verif.Modem.C112_same_tag_refuted",
    "Verif.Modem.C112_safe"
   ],
   "note": "for the program without -f and a device of C110; with the condition on the tags (C112_same_tag_refuted: it cannot be left out) and for calls that do not begin in the moment of a hand-over; C112_safe is without conditions"
  },
  {
   "property": "C113",
   "status": "proved",
   "theorems": [
    "Verif.Modem.C113_rest",
    "Verif.Modem.C113_answered",
    "Verif.Modem.C113_returns",
    "Verif.Modem.C113_loop",
    "Verif.Modem.C113_connect",
    "Verif.Modem.C113_series",
    "Verif.Modem.C113_program",
    "Verif.Modem.C113_update",
    "Verif.Modem.C113_dead",
    "Verif.Modem.C113_dead_connect",
    "Verif.Modem.C113_dead_update"
   ],
   "note": "C113_answered, C113_dead, C113_dead_connect and C113_dead_update are about every interleaving (C113_answered without a timeout); C113_rest, C113_returns, C113_connect, C113_series, C113_program, C113_update and C113_loop say that a run exists; a call that begins before everything is at rest can get a late answer to an earlier call (C83, C84)"
  }
 ]
}
