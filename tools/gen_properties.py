#!/usr/bin/env python3
"""Writes properties.jsonl (one JSON object per line)."""
import json, os
P = []
def p(id, title, statement, quantifier, why, anchors):
    P.append(dict(id=id, title=title, statement=statement, quantifier=quantifier,
                  why_tests_cant=why, anchors=anchors))

p("C01", "Length field: encode/parse round trip",
  "For every integer v, Length(v) is accepted iff 0 <= v <= 0x3FFFFFFF (otherwise ValueError); for every accepted v, bytearray(Length(v)) succeeds and Length.parse on those bytes followed by any other bytes returns Length(v) and leaves exactly the other bytes unread.",
  "all integers v, all following byte strings",
  "2^30 values and unbounded suffixes; tests sample a handful of lengths around the size boundaries",
  ["d7a/alp/operands/length.py: Length.__init__, Length.parse, Length.__iter__"])
p("C02", "Length field: shortest encoding and unique decodability",
  "The encoding of an accepted length is 1, 2, 3 or 4 bytes, is the shortest one the format allows (1 byte iff v<2^6, 2 iff v<2^14, 3 iff v<2^22), any bytes the parser accepts re-encode to something no longer than what was read, and no encoding is a prefix of another, so concatenated length fields decode in exactly one way.",
  "all pairs of accepted lengths; all byte strings accepted by the parser",
  "a statement about all pairs of values and all non-canonical wire forms",
  ["d7a/alp/operands/length.py: Length.__iter__, Length.parse"])
p("C03", "Compressed time: compress() is the tightest upper approximation",
  "For 0 <= v <= 507904 CT.compress(v) returns a CT whose decompressed value is >= v and is <= every representable value (mant*4^exp, 0<=exp<=7, 0<=mant<=31) that is >= v; for v > 507904 it returns None; for v < 0 it raises ValueError. In particular compressing a representable value is lossless and compress is monotone.",
  "all integers v",
  "optimality quantifies over every value and every representable alternative",
  ["d7a/types/ct.py: CT.compress, CT.decompress"])
p("C04", "Compressed time: byte round trip and value",
  "Every CT(exp, mant) is accepted iff 0<=exp<=7 and 0<=mant<=31, serialises to the single byte exp*32+mant, every byte parses to exactly one CT and re-serialises to itself, and int(ct) == ct.decompress() == 4^exp*mant.",
  "all (exp, mant) integers; all bytes with any following bytes",
  "inverse-function claim over the whole domain in both directions",
  ["d7a/types/ct.py: CT.__init__, CT.parse, CT.compressed_value, CT.__int__, CT.decompress"])
p("C05", "Compressed time: compress(ceil=False) rounds down",
  "CT.compress(v, ceil=False) yields a value <= v, never more than one resolution step below v, and (as a caller would expect) is the largest representable value <= v.",
  "all integers 0 <= v <= 507904",
  "optimality over all alternatives; the last clause fails only at a few boundary values that a sample misses",
  ["d7a/types/ct.py: CT.compress"])
p("C06", "PHY objects: byte round trip",
  "ChannelHeader, ChannelID, SubBand and ChannelStatusIdentifier objects accepted by their constructors always serialise, to 1, 3, 7 and 2 bytes, and parse back to equal objects leaving the following bytes unread.",
  "all accepted constructor arguments (incl. negative eirp), all following bytes",
  "full cross product of enum members and 16-bit indices; signed/unsigned boundary",
  ["d7a/phy/channel_header.py", "d7a/phy/channel_id.py", "d7a/phy/subband.py", "d7a/phy/channel_status_identifier.py"])
p("C07", "Channel string notation round trip",
  "ChannelID.from_string(str(channel_id)) == channel_id for every ChannelID.",
  "all bands, classes, codings, and indices 0..65535",
  "tests check two strings; the law fails on LORA class, RFU coding, the NOT_IMPL band and indices above 999",
  ["d7a/phy/channel_header.py: ChannelHeader.__str__, from_string, ChannelClass.to_char", "d7a/phy/channel_id.py: ChannelID.__str__, from_string"])
p("C08", "File system metadata: byte round trip",
  "FilePermissions, FileProperties, FileHeader and FileHeaderOperand objects accepted by their constructors serialise to 1, 1, 12 and 13 bytes and parse back to equal objects leaving the following bytes unread; distinct permission sets have distinct bytes.",
  "all accepted arguments, all following bytes",
  "256 permission sets x 2^32 sizes; injectivity over all pairs",
  ["d7a/fs/file_permissions.py", "d7a/fs/file_properties.py", "d7a/fs/file_header.py", "d7a/alp/operands/file_header.py"])
p("C09", "Addressee: constructor acceptance and byte round trip",
  "Addressee accepts exactly: NOID with id None, VID with 0..0xFFFF, UID with 0..2^64-1, NBID with a CT, access_class 0..255. Every accepted addressee serialises to 2 + id_length bytes and Addressee.parse returns an equal addressee leaving following bytes unread.",
  "all id types, ids, access classes, nls methods, following bytes",
  "2^64 ids and a cross product of four shapes; fails for NBID ids whose byte is above 31",
  ["d7a/d7anp/addressee.py: Addressee.__init__, parse, __iter__, length_for"])
p("C10", "QoS and D7ASP configuration: byte round trip",
  "Every QoS and every Configuration built from accepted parts serialises and parses back to an equal object leaving following bytes unread.",
  "all QoS values, dormant timeouts and addressees",
  "cross product with 2^64 addressees",
  ["d7a/sp/qos.py", "d7a/sp/configuration.py"])
p("C11", "D7ASP interface status: byte round trip",
  "Every Status accepted by its constructor serialises to 10 + addressee bytes and Status.parse on these bytes returns an equal Status.",
  "all accepted field values",
  "rx_level is validated as unsigned but parsed as signed, so the law breaks only for rx_level >= 128",
  ["d7a/sp/status.py: Status.SCHEMA, parse, __iter__"])
p("C12", "ALP file operands: byte round trip",
  "Offset, DataRequest and Data operands accepted by their constructors serialise and parse back to equal objects, for every data length up to 2^30-1, and leave following bytes unread.",
  "all ids, offsets, lengths, byte strings of every length, following bytes",
  "unbounded payload sizes crossing three length-field size boundaries",
  ["d7a/alp/operands/offset.py", "d7a/alp/operands/file.py", "d7a/alp/parser.py: parse_alp_return_file_data_operand, parse_alp_file_data_request_operand"])
p("C13", "Query operand: byte round trip",
  "Every QueryOperand accepted by its constructor serialises and parses back to an equal operand.",
  "all query types, mask flags, comparison types, compare values, file offsets",
  "the constructor accepts unsupported types, masks and inconsistent compare lengths that the parser cannot read back",
  ["d7a/alp/operands/query.py"])
p("C14", "LoRaWAN and interface configuration operands: byte round trip",
  "LoRaWAN ABP and OTAA configurations serialise (iff their unvalidated numeric fields are in range) to 11 and 3 bytes and parse back to equal objects; an InterfaceConfiguration operand for any interface serialises as the interface id followed by the configuration bytes.",
  "all flag combinations and all integers in each numeric field",
  "no schema exists for these classes, so out-of-range behaviour is only visible at serialisation",
  ["d7a/alp/operands/lorawan_interface_configuration_abp.py", "d7a/alp/operands/lorawan_interface_configuration_otaa.py", "d7a/alp/operands/interface_configuration.py"])
p("C15", "System files: byte round trip",
  "For every system file class with a parser (UID, firmware version, engineering mode, VID, PHY status, DLL config, DLL status, access profile) parsing the bytes of an accepted object yields an equal object.",
  "all accepted field values, any number of PHY channels",
  "cross product of 16/32/64-bit fields and variable-length lists",
  ["d7a/system_files/*.py", "d7a/dll/access_profile.py", "d7a/dll/sub_profile.py"])
p("C16", "System files: serialised size equals the declared length",
  "For every fixed-size system file object its byte serialisation, when it succeeds, has exactly the length the object declares (the number create_with_read_file_action_system_file asks the node for).",
  "all accepted field values of every system file class",
  "must hold for every value; fails for PHY status and interface configuration files",
  ["d7a/system_files/*.py", "d7a/alp/command.py: create_with_read_file_action_system_file"])
p("C17", "Key files: the key survives serialisation",
  "For SecurityKeyFile, RootAuthenticationKeyFile and UserAuthenticationKeyFile every accepted key serialises to 16 (40) bytes, distinct accepted keys give distinct bytes, and parsing these bytes gives the key back.",
  "all accepted keys (0..2^128)",
  "the schema bound is the float 2^128, so exactly one out-of-range key is accepted; parse hands a byte string to an integer schema",
  ["d7a/system_files/security_key.py", "d7a/system_files/root_authentication_key.py", "d7a/system_files/user_authentication_key.py", "d7a/support/schema.py: Types.BITS"])
p("C18", "Factory settings: byte round trip",
  "Every FactorySettingsFile accepted by its constructor serialises to 56 bytes and parses back to an equal file.",
  "all accepted field values",
  "rssi_smoothing is re-transformed on every parse and negative gain/rssi_offset cannot be emitted; only a whole-domain statement shows which files survive",
  ["d7a/system_files/factory_settings.py"])
p("C19", "ALP action round trip",
  "For every action of a kind the ALP parser implements, built through the public constructors, parsing its serialisation followed by any bytes returns the same operation, operand and flag bits and consumes exactly the serialised bytes.",
  "all actions of the 11 parseable opcodes with all operands, all following bytes",
  "unbounded operands; the law silently fails for zero-length file data and interface status actions",
  ["d7a/alp/parser.py: parse_alp_action", "d7a/alp/operations/operation.py: Operation.__iter__", "d7a/alp/regular_action.py", "d7a/alp/forward_action.py", "d7a/alp/indirect_forward_action.py", "d7a/alp/tag_request_action.py", "d7a/alp/tag_response_action.py", "d7a/alp/status_action.py"])
p("C20", "ALP command round trip",
  "Serialising a Command made of any list of such actions, with or without tag, and parsing it with cmd_length = number of bytes yields a command with the same tag id, the same response-when-completed flag and the same actions in the same order.",
  "all lists of actions of any length, all tags",
  "inductive over arbitrarily long action lists",
  ["d7a/alp/command.py: Command.__init__, __iter__", "d7a/alp/parser.py: Parser.parse"])
p("C21", "Command construction: at most one tag and one interface status",
  "Command(actions) raises ParseError if the actions contain two interface status actions or two tag actions (or one tag action plus an explicit tag_id); otherwise the command holds exactly the remaining actions in their original order, the interface status action separately, and the tag of the tag action. get_d7asp_interface_status returns the status of that action if its interface is D7ASP, else None.",
  "all action lists, all explicit tag ids",
  "a claim about every list and every position in it",
  ["d7a/alp/command.py: Command.__init__"])
p("C22", "Command serialisation order and tag bytes",
  "Command bytes are: [0x34 or 0xB4, tag_id] if tag requests are generated, then the interface status action, then the actions in insertion order; every auto-generated tag is a byte, and add_action/add_forward_action/add_indirect_forward_action only append to the byte string.",
  "all sequences of add_* calls and constructor arguments, all random tags",
  "quantifies over all histories of builder calls",
  ["d7a/alp/command.py: Command.__iter__, add_action, add_forward_action, add_indirect_forward_action"])
p("C23", "Command factories emit the documented wire bytes",
  "Each Command.create_with_* factory, for all arguments in range, yields the exact wire format (optional forward header, opcode, file id, offset field, length field, data/header); out-of-range file ids, offsets and lengths raise ValueError and HOST with a configuration raises ValueError.",
  "all file ids, offsets, lengths, data, headers, interfaces",
  "cross product of unbounded arguments; empty data yields a truncated action",
  ["d7a/alp/command.py: create_with_read_file_action, create_with_write_file_action, create_with_return_file_data_action, create_with_read_file_header, create_with_write_file_header, create_with_create_new_file, create_with_*_system_file"])
p("C24", "ALP parser: termination, alignment, exact consumption",
  "AlpParser.parse(s, n) terminates on every input and every n (also negative), never reads backwards, and when it returns a command the stream is byte aligned (not so after an exception) and it has consumed at least n bytes, and exactly the bytes of the actions it returned.",
  "all byte strings, all cmd_length values",
  "termination and alignment over every malformed input",
  ["d7a/alp/parser.py: Parser.parse, parse_alp_action"])
p("C25", "ALP parser stays within the declared command length",
  "A successful parse of a command of declared length n consumes exactly n bytes of the stream.",
  "all byte strings, all cmd_length values",
  "only malformed inner lengths break it",
  ["d7a/alp/parser.py: Parser.parse"])
p("C26", "ALP parser: failures are the documented ones and extension-stable",
  "On every input AlpParser.parse either returns a command or raises ReadError, ParseError, ValueError, AttributeError or AssertionError; and any outcome other than ReadError is unchanged when more bytes are appended to the stream.",
  "all byte strings, all extensions",
  "a closed-world claim about error kinds over all inputs",
  ["d7a/alp/parser.py", "d7a/alp/command.py: Command.__init__"])
p("C27", "Re-serialising a parsed command reproduces the bytes",
  "For a byte string that AlpParser.parse accepts, bytearray(parsed command) succeeds and gives the same bytes back.",
  "all accepted byte strings",
  "fails for forward actions (AttributeError), tagged commands (tag dropped), interface status (length byte dropped), empty data and non-canonical lengths; holds on the rest",
  ["d7a/alp/forward_action.py: ForwardAction.__iter__", "d7a/alp/command.py: Command.__iter__", "d7a/alp/operands/interface_status.py"])
p("C28", "Serial framing round trip",
  "A frame made by build_serial_frame for a command whose ALP bytes parse back, fed to a parser with an empty buffer and followed by any partial next frame, yields exactly that command, message type ALP_DATA, no errors, and leaves only the following bytes in the buffer; the frame is C0 00 counter 01 length crc16(payload) payload; commands over 255 bytes raise ValueError and do not advance the counter.",
  "all commands up to 255 bytes, all parser counter states, all following bytes",
  "all payloads and all builder/parser states",
  ["d7a/serial_modem_interface/parser.py: build_serial_frame, parse, parse_buffer, parse_one_command_from_buffer, parse_serial_interface_header"])
p("C29", "Serial parser: delivery does not depend on how the byte stream is chunked",
  "Splitting a byte stream into arbitrary chunks and calling parse on each delivers the same sequence of (message type, command) and leaves the same buffer as one call on the whole stream, provided the one-call run does not raise.",
  "all byte streams, all ways to split them, all starting buffers",
  "exponentially many splits of unboundedly many streams",
  ["d7a/serial_modem_interface/parser.py: Parser.parse, parse_buffer"])
p("C30", "Serial parser: a sequence of valid frames is delivered completely and in order",
  "Feeding any number of concatenated well-formed frames, in any chunking, delivers every command exactly once in order, with no errors and an empty buffer.",
  "all lists of frames, all chunkings",
  "induction over frame lists and chunkings",
  ["d7a/serial_modem_interface/parser.py"])
p("C31", "Serial parser: resynchronisation after noise",
  "Noise containing no 0xC0 byte before a valid frame never loses the frame; and arbitrary noise none of whose 0xC0 positions begins a CRC-valid frame loses no following valid frame once enough bytes have arrived.",
  "all noise strings, all following frames",
  "quantifies over all corruptions",
  ["d7a/serial_modem_interface/parser.py: skip_bad_buffer_content, parse_one_command_from_buffer"])
p("C32", "Serial parser: only CRC-valid frames are delivered",
  "Every delivered command corresponds to a contiguous segment of the input that starts with C0 00, carries the message type, a length and the CRC-16/CCITT-FALSE of the following length bytes; the commands appear in the order of these segments, and the bytes taken by different commands do not overlap (a command takes header and payload; a reboot message takes the header and one byte, whatever the length byte says).",
  "all input streams",
  "soundness over all (also adversarial) inputs",
  ["d7a/serial_modem_interface/parser.py: parse_serial_interface_header"])
p("C33", "CRC detects bit errors and short bursts",
  "Two payloads of equal length that differ only inside a window of at most 16 bits (in particular in one bit) have different CRCs, and so do payloads that differ in an odd number of bits, or in exactly two bits of at most 255 bytes; the serial parser never delivers a frame whose payload was corrupted that way.",
  "all payloads of every length, all burst positions and patterns up to 16 bits",
  "infinitely many payloads x bursts",
  ["d7a/support/Crc.py: calculate_crc", "d7a/serial_modem_interface/parser.py: parse_serial_interface_header"])
p("C34", "Frame counters",
  "The k-th successfully built frame carries counter k mod 256 (starting at 0) and always fits a byte; a parser with any history that receives an in-order run of frames from one builder counts at most one counter error for the whole run.",
  "all numbers of frames (also past the wrap), all parser states",
  "wrap-around and arbitrary histories",
  ["d7a/serial_modem_interface/parser.py: build_serial_frame, parse_serial_interface_header"])
p("C35", "Serial parser: byte accounting",
  "For each parse call that returns: bytes in buffer before + bytes received = parsed bits/8 + sum of the skipped counts of all reported errors + bytes left in buffer; the remaining buffer is empty or starts with 0xC0 and info[buffer] is its size in bits.",
  "all buffers and inputs",
  "conservation law over all inputs and error mixes",
  ["d7a/serial_modem_interface/parser.py: parse_buffer, skip_bad_buffer_content"])
p("C36", "Serial parser: parse() never raises",
  "Parser.parse returns normally for every input and leaves the parser usable.",
  "all buffers and inputs",
  "violated only by payloads reaching a message-less assert (forward to HOST, unsupported query): then the error handler itself raises IndexError and the offending frame stays in the buffer for ever",
  ["d7a/serial_modem_interface/parser.py: parse_one_command_from_buffer", "d7a/alp/parser.py: parse_forward_action", "d7a/alp/operands/query.py: QueryOperand.parse"])
p("C37", "Serial parser: bounded buffering",
  "The parser never holds back more than one maximal frame (262 bytes) waiting for more input.",
  "all inputs",
  "violated by a CRC-valid frame with an inner data length larger than the frame: every later frame is swallowed until up to 2^30 bytes arrived",
  ["d7a/serial_modem_interface/parser.py", "d7a/alp/parser.py: parse_alp_return_file_data_operand"])
p("C38", "Serial parser in skip_alp_parsing mode delivers payloads verbatim",
  "With skip_alp_parsing, every valid frame of a type other than REBOOTED is delivered as exactly its payload bytes, and parse never raises.",
  "all inputs and chunkings",
  "all payloads, including ones that are not ALP",
  ["d7a/serial_modem_interface/parser.py: parse_one_command_from_buffer"])
p("C39", "DLL control bytes: round trip",
  "ForegroundFrameControl, BackgroundFrameControl and D7ATP Control accepted by their constructors serialise to one byte that parses back to an equal object.",
  "all field values",
  "inverse law on the whole domain",
  ["d7a/dll/foreground_frame_control.py", "d7a/dll/background_frame_control.py", "d7a/d7atp/control.py"])
p("C40", "DLL foreground frame dissection",
  "For every foreground frame laid out per the D7A frame format (length, subnet, control, target, D7ANP, D7ATP, ALP, CRC) within the supported feature set, the DLL parser returns one frame with exactly those fields and the embedded ALP command, and removes exactly those bytes from its buffer.",
  "all subnets, targets, origins, dialogs, timing fields and ALP commands in the supported set",
  "cross product of layers",
  ["d7a/dll/foreground_frame.py", "d7a/d7anp/frame.py", "d7a/d7atp/frame.py", "d7a/dll/parser.py"])
p("C41", "DLL parser accepts every legal subnet and length byte",
  "The DLL parser handles every subnet byte and every length byte.",
  "all subnet and length bytes",
  "both bytes are read as signed and validated as unsigned, so exactly the values >= 128 raise ValueError and block the buffer",
  ["d7a/dll/foreground_frame.py: ForegroundFrame.parse", "d7a/dll/background_frame.py: BackgroundFrame.parse"])
p("C42", "DLL parser: incomplete frames wait, completion delivers",
  "When the buffer holds only a proper prefix of a supported frame, parse returns no frame and keeps every byte; delivering the rest later, in any chunking, yields the same frame as delivering it at once.",
  "all frames, all split points",
  "all split positions",
  ["d7a/dll/parser.py: Parser.parse, parse_one_frame_from_buffer"])
p("C43", "DLL parser rejects corrupted frames",
  "The DLL parser only returns frames whose CRC16 matches.",
  "all frames",
  "the CRC is stored but never checked: every CRC value is accepted",
  ["d7a/dll/foreground_frame.py", "d7a/dll/background_frame.py"])
p("C44", "Modem: each received message reaches exactly one sink",
  "For every message the read thread parses: an ALP/ping message goes to exactly one of the pending synchronous execution, the callback, or the unsolicited list; REBOOTED goes to exactly the reboot callback or the rebooted list; logging and unknown types go to none; sinks keep arrival order.",
  "all sequences of received messages and API calls",
  "all histories of modem operations",
  ["modem/modem.py: _read_async, get_unsolicited_responses_received, clear_unsolicited_responses_received"])
p("C45", "Modem: unsolicited messages reach the application",
  "A message that is not a response to a pending synchronous command is handed to the callback (when connected) or stored in the unsolicited list.",
  "all histories",
  "None == None: an untagged message matches the absent pending tag and is swallowed; only certain histories show it",
  ["modem/modem.py: _read_async, execute_command"])
p("C46", "Modem: execute_command returns only responses to that command",
  "The list returned by execute_command contains only commands carrying its tag, received after it was issued, and is non-empty only if a response with the end-of-processing flag arrived.",
  "all interleavings of the reading thread with execute_command",
  "thread interleavings; late responses to an earlier command can leak in",
  ["modem/modem.py: execute_command, _read_async"])
p("C47", "PHY status file construction is history independent",
  "PhyStatusFile(...) accepts or rejects and serialises the same way regardless of which PhyStatusFile objects were constructed before.",
  "all histories of constructor calls",
  "mutable default arguments are extended in place, so a single rejected call can make all later default constructions fail",
  ["d7a/system_files/phy_status.py: PhyStatusFile.__init__"])
p("C48", "Returned system file data is interpreted when possible and never breaks parsing",
  "Constructing ReturnFileData never raises because of the file content; the parsed system file is attached iff the file id is a known system file with a parser, the data is not longer than its declared length and the parser accepts it, and then it is the parse of exactly that data.",
  "all file ids, all data",
  "all byte contents",
  ["d7a/alp/operations/responses.py: ReturnFileData.try_parse_system_file", "d7a/system_files/system_files.py"])
p("C49", "Enum JSON serialisation round trip",
  "For every enum member used by the library, restoring the flattened form gives the same member.",
  "all members of all enums",
  "a test would need every member of every enum; whether it survives aliases and equal class names in different modules is a fact about all possible tables",
  ["d7a/support/serialization/enum_handler.py", "d7a/__init__.py"])
p("C50", "Modem: connect outcome",
  "connect() reports success (True) exactly when the node answered with an 8-byte UID and a parseable firmware version before the timeout; after that the modem is connected, and responses received before are not handed to the callback.",
  "all response contents",
  "all contents and orders of the returned actions",
  ["modem/modem.py: connect"])

p("C51", "Wire layouts follow the D7A/ALP field tables",
  "The bytes of every accepted compressed time, channel header/id/status identifier, subband, file permissions/properties/header, addressee, QoS, configuration, status, length, offset, data request, data, query and LoRaWAN configuration object are exactly the big-endian bit fields of the format tables, with RFU bits zero and every value fitting its field.",
  "all accepted objects",
  "round-trip tests cannot see an error made consistently in both directions; examples only fix a few bytes",
  ["d7a/types/ct.py, d7a/phy/*.py, d7a/fs/*.py, d7a/d7anp/addressee.py, d7a/sp/*.py, d7a/alp/operands/*.py: __iter__"])

p("C52", "DLL parser never raises",
  "Whatever bytes are received, Parser.parse of the DLL layer returns instead of raising, so that one bad frame cannot stop reception; every call accounts for every byte.",
  "all byte streams, all chunkings, both frame types",
  "the except clause names a ParseError class that nothing raises; only a statement over all inputs shows which exceptions escape and that the parser is then stuck for ever",
  ["d7a/dll/parser.py: parse, parse_one_frame_from_buffer", "d7a/dll/foreground_frame.py", "d7a/dll/background_frame.py"])
p("C53", "DLL, D7ANP and D7ATP frames: serialisation round trip",
  "Every accepted frame object of the three layers serialises, and parsing the bytes gives an equal frame.",
  "all accepted frames",
  "no test serialises a frame; the serialisers refer to missing attributes and yield objects instead of bytes",
  ["d7a/dll/foreground_frame.py: __iter__", "d7a/dll/background_frame.py: __iter__", "d7a/d7anp/control.py: __iter__", "d7a/d7anp/frame.py: __iter__", "d7a/d7atp/frame.py: __iter__"])

p("C54", "Reading and writing a system file object",
  "create_with_read_file_action_system_file asks for the declared number of bytes at the start of the file's own id; create_with_write_file_action_system_file carries exactly the bytes of the file object's serialisation; no command comes out of an object that cannot be serialised.",
  "all system file objects of all 14 classes, all interfaces",
  "the factory mixes the id, length and serialisation of 14 classes; a table entry whose id is an enum member, a file without content or an access profile without a profile behave differently from the tested ones",
  ["d7a/alp/command.py: create_with_read_file_action_system_file, create_with_write_file_action_system_file", "d7a/system_files/*.py"])

p("C55", "Modem: the reading thread keeps going",
  "Whatever bytes arrive and whatever serial errors occur, the reading thread stays alive: after any input it still hands over the messages that arrive next, and after a serial error it reconnects.",
  "all byte streams, chunkings, serial errors and interleavings with the application thread",
  "the thread dies on any exception that escapes the parser or the error handler; which byte string makes one escape cannot be found by replaying good frames",
  ["modem/modem.py: _read_async", "d7a/serial_modem_interface/parser.py: parse"])

p("C56", "as_dict shows everything",
  "as_dict of an object gives its class name and every attribute that is not a class, with objects (also in lists) replaced by their dictionaries at every depth; the result is plain data and objects with the same dictionary are equal.",
  "all object graphs of Validatable instances, lists and other values",
  "the recursion has to be followed to any depth and width; the tests only print it",
  ["d7a/support/schema.py: Validatable.as_dict"])

p("C57", "What the constructors accept, for arguments of any type",
  "For each of the 47 schema-checked classes and any Python values as attributes, the constructor succeeds if and only if every attribute that its SCHEMA names has the declared type, class and range, and raises ValueError otherwise; for the addressee exactly one of the four alternatives must hold. Attributes that no schema key names (misspelt or commented-out keys) are not checked at all. Operations accept exactly an operand of their operand class.",
  "all attribute values: None, bools, ints, strings, lists and tuples, enum members, objects of every class",
  "tests construct objects with a few good and bad values; a misspelt key silently checks nothing, a bool passes as an integer, a float bound is off by one, and only a statement over all values shows it",
  ["d7a/support/schema.py: Validatable.validate, Types, ObjectValidator", "SCHEMA of the classes in d7a/*/*.py", "d7a/alp/operations/operation.py: __init__"])

p("C58", "MQTT bridge: every received message is published",
  "Once modem.connect() has returned, the payload of every ALP or ping message that is received is published exactly once, in order of arrival and unchanged; nothing else is ever published, and neither the received bytes nor an exception of the MQTT client stops the reading thread.",
  "all byte streams, chunkings and interleavings of the reading thread with the constructor, all exceptions of publish",
  "the callback runs in the reading thread while the constructor is still at work, and its bare except hides every failure; a message lost that way leaves no trace in any result a test could compare",
  ["tools/modem2mqtt.py: __init__, connect_to_mqtt, publish_to_mqtt, on_command_received", "modem/modem.py: connect, _read_async"])

p("C59", "Equality of library objects",
  "For the classes with a comparison of their own (Length, FilePermissions, FileProperties, FileHeader, ChannelHeader): two accepted objects are equal exactly when they serialise to the same bytes. Equality is an equivalence relation over all values, also between a length and a number, and != is its negation.",
  "all objects of the five classes, ints, longs, bools and other objects, in both operand positions",
  "Python picks between the methods of both operands and their fallbacks; transitivity and the agreement of == with != involve triples and mixed types that tests never enumerate",
  ["d7a/alp/operands/length.py, d7a/fs/file_permissions.py, d7a/fs/file_properties.py, d7a/fs/file_header.py, d7a/phy/channel_header.py: __eq__, __ne__"])

p("C60", "parse_hexstring prints what the text encodes",
  "The tool reads exactly the bytes that the hexadecimal text spells (either case, spaces anywhere) and refuses every other text. For the types alp, serial, systemfile, fg and bg it prints the command, messages, file or frame that these bytes encode.",
  "all texts, all five types, all file ids",
  "a helper script without tests; whether a type works at all depends on the shape of the value that the parser returns",
  ["tools/parse_hexstring.py"])

p("C61", "Everything accepted can be printed",
  "str() of a system file, operation, action or command that its constructor accepts or a parser returns never raises, nor does describe_actions; in particular whatever file data an action carries, and whatever actions have been added to a command.",
  "all objects of the 14 system file classes, all operations, actions and commands, all parsed inputs",
  "printing indexes lists by announced counts, formats with positional templates and asserts on the execution state; an exception inside a log statement shows only for the one object that triggers it",
  ["d7a/system_files/*.py, d7a/alp/operands/*.py, d7a/alp/operations/operation.py, d7a/alp/action.py, d7a/alp/command.py: __str__", "d7a/alp/command.py: describe_actions"])

p("C62", "Printed text identifies the object",
  "Two operations, system files, actions or commands with the same text are equal: a log line determines the class of the object and every attribute, and the text of a command determines its tag, its state and the texts of its actions in their order.",
  "all pairs of objects",
  "whether two texts can collide is a question about all pairs of objects; tests compare single texts, and a placeholder that is missing in a template goes unnoticed",
  ["d7a/system_files/*.py, d7a/alp/operands/*.py, d7a/sp/status.py, d7a/d7anp/addressee.py, d7a/fs/*.py, d7a/alp/operations/operation.py, d7a/alp/action.py, d7a/alp/command.py: __str__"])

p("C63", "The written bytes follow the published tables",
  "Every system file and every ALP action that an accepted object serialises to has exactly the bits of its table: each field at its position, with its width, most significant bit first, and the announced padding; an action is two flag bits, the six bits of the operation code, and the fields of the operand. Every field value fits its width, so nothing is cut off.",
  "all accepted system files, operations and actions that serialise",
  "round trips cannot see two fields swapped in both directions; only a table that does not mention the code fixes the position of each bit for all values",
  ["d7a/system_files/*.py, d7a/alp/operands/*.py, d7a/alp/operations/*.py, d7a/alp/action.py, d7a/phy/*.py, d7a/fs/*.py: __iter__"])

p("C64", "Parsers read exactly the published tables",
  "The parser of each part, operand and system file accepts a bit string if and only if it starts with bits that match the table of some valid object; it returns that object and leaves exactly the rest. Everything else is refused.",
  "all bit strings, from any position in the input",
  "the acceptance of a parser is a statement about all inputs, also the malformed ones; tests read a few well-formed ones",
  ["d7a/phy/*.py, d7a/fs/*.py, d7a/sp/*.py, d7a/d7anp/addressee.py, d7a/alp/operands/*.py, d7a/system_files/*.py: parse"])

p("C65", "The grammar of ALP actions and commands",
  "The action parser accepts exactly the bit strings of the action tables (operation code, flags, operand, optional addressee) and returns the action they describe. A command of a declared length is read exactly if the bytes split into such actions, the last of which starts before the declared end and none after, and it consists of these actions in their order.",
  "all byte strings and declared lengths",
  "needs the set of all accepted inputs, for any number of actions of any kind; tests parse single commands",
  ["d7a/alp/parser.py"])

p("C66", "Reading and writing again keeps the bytes",
  "What is read from bytes and then serialised gives the same bytes again, except that the bits the table does not use are cleared.",
  "all byte strings that the parsers of the fixed-format parts and system files accept",
  "the tests go from an object to bytes and back; the other direction needs every accepted input, including those with unused bits set",
  ["d7a/phy/*.py, d7a/fs/*.py, d7a/sp/qos.py, d7a/alp/operands/*.py, d7a/system_files/*.py: parse, __iter__"])

p("C67", "Objects can be stored as file content",
  "Passing list(obj) as the data of a write stores exactly the bytes that obj serialises to, for every system file and every command (an action file holds such a command), provided id and length are in range.",
  "all system files and commands that serialise, all file ids",
  "bytearray() hides whether a generator yields numbers or characters, list() does not; which of the nested serialisers yields which shows only for the right content",
  ["d7a/alp/command.py, d7a/system_files/*.py: __iter__", "examples/engineering_mode.py", "examples/switch_to_push_notification.py", "examples/write_factory_settings.py"])

p("C68", "Firmware update writes the image",
  "Whatever the modem answers, the pieces that are sent are the file from its start without gap or overlap, each one only after the one before is confirmed, each in one serial frame. If all are confirmed, the whole file is sent, and the progress ends at 100 %.",
  "all file contents and sizes, all answers of the modem",
  "offsets and piece sizes depend on the file size and on the three encodings of a length; the failure paths need a modem that refuses at any one point",
  ["examples/write_update.py"])

p("C69", "Verdict of the throughput test",
  "OK is printed exactly if the announced number of messages has arrived before the time is over, and each of them returns the payload; otherwise NOK.",
  "all received commands, all moments of their arrival",
  "the received list grows in another thread while it is counted; no test drives the interleavings or sends the messages that ought to be refused",
  ["examples/throughput_test.py: wait_for_receiver, receiver_cmd_callback"])

p("C70", "Configuration programs send the requested settings",
  "The engineering mode, factory settings and access profile programs send one command that writes exactly the bytes of the file with the requested settings, options that are not given having their default, behind the forward header if it is asked for; values out of range raise ValueError and nothing is sent.",
  "all option values",
  "scripts without tests whose result goes to a device; option combinations are too many to try and the effect is visible only in the bytes",
  ["examples/engineering_mode.py", "examples/write_factory_settings.py", "examples/change_access_profile.py"])

p("C71", "Stopping and restarting the reading thread",
  "stop_reading returns, whatever the thread is doing: at most one more read is parsed, and everything received is handed over before. Until start_reading nothing is received, called or stored. A stop and a restart are invisible otherwise: no message is lost, repeated or reordered.",
  "all interleavings of both threads, all bytes, any number of stops and restarts after an orderly end",
  "the flag is tested by one thread and set by another, with the device's read in between; a test sees one schedule",
  ["modem/modem.py: start_reading, stop_reading, _read_async"])

p("C72", "Which messages the throughput test can send",
  "A run of the throughput test sends its message exactly if the address (where it is used) is a 64-bit number and the payload has at most 241 (broadcast with QoS), 242 (broadcast) or 234 (unicast) bytes; else ValueError is raised and nothing is written. The bytes written are the tag request, the forward header of the run and the payload 0, 1, 2, ... for file 0x40, and a parser at the other end of the serial line delivers exactly these.",
  "all payload sizes, addresses, tags and parser states",
  "the limit comes from the frame length, the length field and the header of each run together; tests send one size",
  ["examples/throughput_test.py: start, start_transmitting", "d7a/serial_modem_interface/parser.py: build_serial_frame"])

p("C73", "Modem: what is written to the serial port",
  "The bytes written are one frame for each command that the application executes (or connect asks with) and that serialises to at most 255 bytes, in the order of the calls, with consecutive counters; whatever arrives meanwhile. Any other command raises and nothing is written or changed. A parser at the other end of the line delivers exactly these commands.",
  "all interleavings of both threads, all calls and commands, all received bytes, all ways to cut the written bytes",
  "the parser object that numbers the frames is shared with the reading thread; only a device at the other end would show a lost, doubled or misnumbered frame",
  ["modem/modem.py: execute_command, connect", "d7a/serial_modem_interface/parser.py: build_serial_frame"])

p("C74", "Modem: several threads and callbacks execute commands",
  "Any number of application threads, and the callbacks in the reading thread, may execute commands at the same time: the serial port gets whole frames, which carry each command that did not raise once, for each thread in the order of its calls; every call gets the responses to its own command; a command that can be sent does not raise; frames are numbered consecutively.",
  "all interleavings of any number of threads and of the callbacks, down to single writes of bytes; all commands, timeouts and received bytes",
  "the outcome depends on the points at which the interpreter switches threads; the class has a lock around the write only, and a test sees one schedule",
  ["modem/modem.py: execute_command, _read_async", "d7a/serial_modem_interface/parser.py: build_serial_frame"])

p("C75", "Modem and device: reading and writing files from end to end",
  "Connected to a device that keeps files and answers each command once, and as long as no call times out: a call that executes a command of file reads and writes returns one message with exactly what the device holds, and the device has executed the operations once and in order; what was written is read back later; connect succeeds exactly if the device's UID and version files have the right form, and then knows both; a command that does not fit in a frame raises ValueError and reaches nobody; a call whose request and answer fit always returns; nothing is taken for an unsolicited message.",
  "all devices and contents, all sequences of calls, all interleavings of both threads and the device, all ways the answers are cut",
  "commands, serialisation, framing, the two threads, the parser and the matching of the answer work together; a test would need a device, and sees one schedule",
  ["modem/modem.py: connect, execute_command, _read_async", "d7a/serial_modem_interface/parser.py: parse, build_serial_frame", "d7a/alp/command.py: create_with_read_file_action, create_with_write_file_action"])

p("C76", "Modem and gateway: a command with several answers",
  "Connected to a device that answers every command with one or more messages carrying the command's tag, the last one (only) marked as completed, sends them in its own time and mixes log texts and reboot messages in, and as long as no call times out: execute_command returns the list of exactly these messages, in order, and none goes to the callback or the unsolicited list; the device handles every command that fits in a frame once and in order; a command that cannot be sent raises and changes nothing; every call returns.",
  "all devices (functions from state and payload to state and answers), all commands with a tag, all sequences of calls, all interleavings, all ways the bytes are cut",
  "answers can be cut, delayed and mixed with other messages in unlimited ways while the other thread waits; a test sees one schedule",
  ["modem/modem.py: execute_command, _read_async", "d7a/serial_modem_interface/parser.py: parse, build_serial_frame", "d7a/alp/command.py: __iter__"])

p("C77", "System files: what is written to a device is the file read from it",
  "A system file object that is written to a device with create_with_write_file_action_system_file and, after any other calls that do not touch it, read with create_with_read_file_action_system_file comes back: the returned data are its serialisation, and its class parses them to an equal object. A device holding a UID file and a version file is known to the modem by exactly these after connect.",
  "all system file objects, all contents of the device before, all calls in between, all interleavings of both threads and the device, all ways the answers are cut",
  "whether the object survives depends on its serialiser, its declared length, both factories, the transport, the device's earlier content and its parser together",
  ["d7a/alp/command.py: create_with_read_file_action_system_file, create_with_write_file_action_system_file", "d7a/system_files/*.py", "modem/modem.py: connect, execute_command"])

p("C78", "Querying other nodes through a gateway",
  "A command of file operations with a D7ASP configuration, executed on a modem whose gateway sends it to the nodes addressed and passes on one message per answer: the bytes sent are the tag request, the forward action with the configuration and the operations; the call returns, for exactly the nodes that answered and in order, a message with the status of that node (get_d7asp_interface_status) and the data it returned, then the message that the execution is completed.",
  "all configurations, operations, gateways, sets of answering nodes and their answers; all sequences of calls, all interleavings of both threads and the gateway, all ways the bytes are cut",
  "the number and content of the answers depend on the nodes in reach; a test with hardware sees one set of answers and one schedule",
  ["d7a/alp/command.py: create_with_read_file_action, create_with_write_file_action, get_d7asp_interface_status", "d7a/alp/parser.py: parse_alp_return_status_action", "d7a/sp/status.py, d7a/sp/configuration.py", "modem/modem.py: execute_command, _read_async"])
p("C79", "Commands executed without waiting reach the callback",
  "With a callback and a connected modem, commands with a tag that are executed with timeout 0 one after the other (after any number for which the application waited): the device processes each once and in order; the callback is called with exactly its answers, each once and in order, and at any time with a first part of them; nothing ends up in a list of responses or of unsolicited messages; without further calls everything comes to rest.",
  "all commands with a tag, devices, numbers of answers, sequences of calls, interleavings of both threads and the device, ways the bytes are cut, log and reboot messages in between",
  "answers to one command arrive while later ones are being prepared and written; a test sees one schedule",
  ["modem/modem.py: execute_command_async, execute_command, _read_async", "examples/query_nodes.py"])
p("C80", "The update program leaves the file on the device",
  "examples/write_update.py with a modem and a device that keeps files: when the program has run, the device holds the whole file in file 200 from offset 0 and a zero at the start of file 199, and nothing else has changed; the program ends normally. A file of more than 1073741916 bytes ends in ValueError after that many bytes. From every idle state the program can be run to its end.",
  "all files, contents of the device, tags, earlier calls, interleavings of both threads and the device, ways the bytes of the answers are cut",
  "a test runs one file with one schedule; the loop, the splitting, the framing, the answers and both threads have to fit together",
  ["examples/write_update.py: 76-117", "modem/modem.py: execute_command, _read_async", "d7a/alp/command.py: create_with_write_file_action"])

p("C81", "A query to other nodes without waiting gives the callback the answers of those nodes",
  "examples/query_nodes.py: with a callback and a connected modem, a command for other nodes is executed without waiting. When nothing is going on any more, the callback was called with the answers of exactly the nodes that answered, in order, each with the status and the data of that node, and then once with the message that the execution is completed, at which the program ends.",
  "all interface configurations, operations, node answers, tags, earlier calls, interleavings of both threads and the gateway, ways the bytes are cut",
  "a test hears one set of nodes in one schedule; it cannot show that no answer is lost or comes after the message at which the program ends",
  ["examples/query_nodes.py: 34-68", "modem/modem.py: execute_command_async, _read_async", "d7a/alp/command.py: create_with_read_file_action"])

p("C82", "Without a callback, the answers to commands that are not waited for are in the list of unsolicited messages",
  "Without a callback (or before the modem is connected), commands executed without waiting are processed by the device once each, in order, and its answers are in the lists of unsolicited messages, each once, in order, even if the list is cleared while the reading thread is adding to it; without clearing, all are in the current list. They go nowhere else, and everything comes to rest.",
  "all commands with a tag, devices that conform, earlier calls, interleavings of both threads and the device, ways the bytes are cut",
  "a test polls the list at one moment of one schedule; losing a message between loading the list and appending to it shows only in some interleavings",
  ["modem/modem.py: 145-199, 201-242"])

p("C83", "Answers that come too late do not spoil later calls",
  "Calls may time out, callbacks may raise and the line may fail. Still every command reaches the device once, in order, and the messages handed over are the device's answers, in order, each once; every message in any list is an answer to a command that was asked for and has its tag. A call with a tag that was not used before returns exactly the device's answers to its own command or nothing, even if answers to earlier calls arrive during it; unless the time is over it does get its answers; and `connect` goes by the device's answer to its own question. Every call returns, and everything comes to rest.",
  "all commands with a tag, timeouts, devices that conform, interleavings of both threads and the device, moments of timeouts, exceptions and line failures, ways the bytes are cut",
  "a late answer has to arrive at one particular moment of a later call; tests with a fast device never see one",
  ["modem/modem.py: 89-175, 201-242"])

p("C84", "Executing a command until it is confirmed",
  "examples/engineering_mode.py executes its command again and again until a call returns a completed response without error. When this loop ends, the device has executed and confirmed the command, at most once per call, and has done nothing else meanwhile, although calls may have timed out, been refused, or returned late answers to earlier rounds. If the device confirms every execution, the loop goes on only after a timeout. If every answer of the device says whether there was an error, no accepted options make it raise; an answer with the tag in a tag request, which does not say so, ends the loop with AttributeError even if the device has confirmed the command. If the line has failed it never ends.",
  "all options, commands with a tag, earlier calls with other tags, numbers of rounds, devices that conform, interleavings, timeouts, ways the bytes are cut",
  "the rounds reuse one tag, so answers of different rounds are mixed up; a test sees one pattern of timeouts and refusals",
  ["examples/engineering_mode.py: 125-175", "modem/modem.py: 145-175, 201-242"])

p("C85", "An interrupt switches the engineering mode off",
  "examples/engineering_mode.py installs a handler that, on Ctrl-C, executes a command that writes the engineering mode file with mode off, and then ends the program. Whenever the interrupt comes, the command is written as a whole frame behind whole frames, nothing follows it, and the handler ends. This is false at two places: while a frame is being written the handler waits forever for the lock that the interrupted code holds, and while the frame counter is being reset it raises ValueError.",
  "all options, moments of the interrupt, earlier calls, interleavings with the reading thread, answers, timeouts, also interrupts during the handler",
  "the moment of a signal cannot be chosen in a test; the places where it goes wrong are a few instructions long",
  ["examples/engineering_mode.py: 63-78, 107", "modem/modem.py: 145-175", "d7a/serial_modem_interface/parser.py: 64-74"])

p("C86", "The MQTT bridge publishes what its device sends",
  "tools/modem2mqtt.py with a device on its serial line: all the bridge ever writes is one command that reads the UID and the firmware version. What it publishes is, in order and unchanged, ALP messages the device sent, none twice, and its reading thread never ends, whatever is sent and whatever the MQTT client raises. If the client accepts everything, then once everything is dealt with, every message is published but for a first part, which was all sent before the set-up was done; if nothing was sent before, everything is published. From every state on the bridge gets there by itself.",
  "all frames a device may send (any type, payload, counter, at any time), interleavings of both threads, ways the bytes are cut, exceptions of the MQTT client",
  "what is lost depends on how the end of the set-up and the reading thread interleave, and the device decides what is sent when",
  ["tools/modem2mqtt.py: 57-120", "modem/modem.py: 89-175, 201-242", "d7a/serial_modem_interface/parser.py: 53-154"])

p("C87", "What nodes send on their own reaches the callback",
  "Once a modem with a callback is connected and has written something, the callback gets every ALP or ping message that no call compares its tag with, each once and in the order of arrival: messages without a tag if all commands are executed with a tag and waiting, and messages with tags never used. A successful `connect` with its check is enough to get there. This is false after a command executed without waiting or without a tag, and for messages that are looked at while `execute_command` sets its tag.",
  "all calls, interleavings, timeouts, exceptions, ways the bytes are cut, messages of all kinds in between",
  "whether a message is lost depends on the calls made long before and on the moment the reading thread looks at it",
  ["modem/modem.py: 145-175, 201-242"])

p("C88", "The logger of unsolicited responses",
  "examples/unsolicited_response_logger.py connects once and then only logs. In every interleaving, once it is connected it logs every ALP or ping message that arrives, in order, each once, but for messages with the tag its `connect` used; between two quiet moments exactly those of the frames that arrived. It logs every reboot. If `connect` does not succeed, it keeps running and never logs an ALP message.",
  "all tags, interleavings, frames, ways the bytes are cut, timeouts and exceptions",
  "an endless program; the messages and the moments at which they arrive are not under the control of a test",
  ["examples/unsolicited_response_logger.py: 48-72", "modem/modem.py: 89-175, 201-242"])

p("C89", "The receiver of the throughput test counts the messages of the nodes",
  "examples/throughput_test.py sets up its receiver with three frames (identification, access profile, access class) and then counts. In every interleaving, while it waits for messages and its receiver is connected, the list of received commands grows by exactly the ALP messages that come from nodes and do not have the tag of the last command of the set-up, in order and each once; between two quiet moments exactly by those of the frames that arrived, and if as many arrive as announced with the payload, the verdict is OK. This is false of messages that arrive during the set-up, and after the status of an interface other than D7A: the reading thread ends and nothing is counted any more. If the receiver is not connected, nothing is counted. From every reachable state the set-up can come to its end or to an exception without anything more from the device.",
  "all tags, interleavings, frames, ways the bytes are cut, timeouts and exceptions, texts in what is printed",
  "the test itself is the program; whether a message is counted depends on when it arrives relative to the set-up and on what arrived before",
  ["examples/throughput_test.py: 101-130, 192-252", "modem/modem.py: 89-175, 201-242"])

p("C90", "The throughput test as a whole",
  "examples/throughput_test.py with a transmitter and a receiver: in every interleaving of the main thread, the two reading threads, the bytes that arrive, timeouts and failures, what has been written to the transmitter is a beginning of one sequence of frames: identification, access profile, access class, the messages of the first run, access class, the messages of the other three runs, unicast ones with the identifier that the receiver has told; if the program ends without an exception it is the whole sequence and there are four verdicts. If in a run as many messages as announced arrive in time, as the radio link makes them of what was sent, the verdict is OK; an OK means that at least so many messages with the payload have been received since the list was reset. It does not mean that the messages of this run arrived: a message of the run before that comes late is counted, in place of a lost one or as one too many. From every reachable state the program can come to an end without anything more from the devices.",
  "all message counts and payload sizes, tags, interleavings, bytes that arrive at both devices and ways they are cut, timeouts and failures",
  "two devices, three threads and the clock are involved; a test with real radios sees one interleaving, and that the verdict of a run may be about messages of the run before does not show",
  ["examples/throughput_test.py: 55-56, 79-187, 192-252", "modem/modem.py: 89-175, 201-242"])

p("C91", "The configuration programs as a whole",
  "examples/change_access_profile.py, write_factory_settings.py and engineering_mode.py (both without -f) and read_phy_status.py, with a modem and a device that keeps files: if the options are accepted and the device tells its version, the program ends normally (engineering_mode.py: begins to wait after one call) and the device holds exactly the requested settings, bit by bit, in the right file, and nothing else has changed; read_phy_status.py shows the first 45 bytes of file 9, which are parsed as the status that the device holds if it has at most 10 channels. In all other cases the program ends by an exception, and the device is as it was. Each of the programs can be run to this end with every device and all options. With -f, each call makes the gateway send exactly these writes to every node, if the answers of the nodes can be read (C78).",
  "all options, random tags and device contents, all interleavings of the threads and the device, all ways the bytes of the answers are split",
  "needs a device and two threads; a test sees some options with one device and cannot tell that nothing else on the device changes",
  ["examples/change_access_profile.py: 64-86", "examples/write_factory_settings.py: 62-110", "examples/engineering_mode.py: 96-172", "examples/read_phy_status.py: 51-58", "modem/modem.py: 89-175, 201-242"])

p("C92", "Hexadecimal text that the library writes can be read back by the tool",
  "The debug log of the modem shows each written frame as hexadecimal text, and generate_messages.py prints the frames of its commands. The text after the leading '> ' of any number of log lines, with spaces or nothing in between, given to tools/parse_hexstring.py as type serial, shows exactly the commands that were written, in order and without an error, for all commands that survive (C20); different frames never give the same line. The same holds of the text printed for one command, and of each of the six messages of generate_messages.py: made and printed whatever its tag is, and shown with this tag, the interface configuration and the operation in its description. It is false of whole log lines and of several lines with their line ends: these raise TypeError.",
  "all commands of the round trip, numbers of commands, states of the parser, spaces between the lines, tags",
  "all frames and sessions; a test sees some of them",
  ["modem/modem.py: 151-162, 216-218", "d7a/serial_modem_interface/examples/generate_messages.py: 35-141", "tools/parse_hexstring.py: 34-61"])

p("C93", "Lost frames show in the error counter of the serial parser",
  "A line between a sender and a receiver that are in step loses whole frames. The commands of the frames that arrive are delivered, in order and without an error, and the error counter of the receiver grows by exactly the number of frames that arrive just after a loss of a number of frames that is not a multiple of 256. So if fewer than 256 frames are lost, the counter is unchanged exactly if only frames at the end are lost, and it never grows by more than the number of lost frames. For frames with any numbers it grows by the number of those that do not follow the one before. A loss of 256 frames in a row leaves no trace, and neither does a damaged frame: its number is counted although its message is lost.",
  "all commands of the round trip, numbers of frames, patterns of loss, ways the bytes are cut, states of both parsers",
  "the pattern of losses and the wrap-around of the counter range over unboundedly many frames",
  ["d7a/serial_modem_interface/parser.py: 63-74, 153-179"])

p("C94", "Different commands never have the same bytes",
  "Two commands that survive (C20) and are written as the same bytes are the same: the same operations, operands and flag bits in the same order, and the same tag request. Two sequences of such commands, written to the serial line by any two builders, give the same bytes only if they have the same length and the same commands in the same order.",
  "all pairs of commands of the round trip, all pairs of sequences of them, all states of the builders",
  "quantifies over pairs of unboundedly many commands and sequences",
  ["d7a/alp/command.py: 310-327", "d7a/alp/parser.py: 68-101", "d7a/serial_modem_interface/parser.py: 63-74"])

p("C95", "Printed texts show every value behind its label",
  "What print shows for a status, an operation, a system file, an action or a command is a fixed sequence of labels, each followed by a word for the attribute the label names: numbers in decimal without superfluous zeros, UID, VID and flags in hexadecimal (with the L of Python 2 from 2^63 on), the names of enumeration members, channels in their notation, nested objects in their own text; a command shows its tag, the state of the execution, each action on its line in order and the interface status; the description of the actions is the list of their texts. A decimal or hexadecimal word stands for one number only. Not true of the code: the factory settings show the LoRa bandwidth behind the label of the spreading factor and the spreading factor behind that of the bandwidth, the last two values of a DLL configuration and the permissions of a file are not shown.",
  "all objects of these classes, with any attribute values (system files: as the parsers return them)",
  "the values are unbounded; a wrong label or a swapped pair shows only with values that differ, and for a few of many attributes",
  ["d7a/sp/status.py: 126-141", "d7a/d7anp/addressee.py: 148-149", "d7a/alp/operations/operation.py: 52-55", "d7a/alp/action.py: 57-64", "d7a/alp/status_action.py: 61-62", "d7a/alp/command.py: 329-362", "d7a/system_files/factory_settings.py: 181-190", "d7a/system_files/dll_config.py: 71-72", "d7a/system_files/dll_status.py: 88-89", "d7a/system_files/phy_status.py: 92-98", "d7a/system_files/uid.py: 52-53", "d7a/fs/file_header.py: 84-87"])

p("C96", "The throughput test with one device",
  "Which device throughput_test.py uses follows from its arguments: without a receiver it needs a transmitter and an address, with a receiver the address is ignored. The address is accepted exactly if it is a hexadecimal number as int(s, 16) defines it. With a transmitter only and an address of 64 bits, the device gets, in every interleaving and whatever arrives or fails, a beginning of one fixed sequence of frames (identification, access profile, access class, four runs of messages, the last two to this address), and all of it if the program ends without an exception; with a text that is no number it gets the identification and the access profile only, with a number outside 64 bits nothing of the unicast runs. The program cannot hang: from every state it can end without anything from the device. It does not notice that the device never answers. With a receiver only, if the announced number of messages with the payload arrives, some steps lead to the verdict OK, and OK means that at least so many were received, all with the payload; but a transmitter that runs the same test sends four times as many, and the verdict can be NOK although nothing is lost.",
  "all arguments, texts of the address, interleavings of the two threads with the serial line, cuts of the stream, failures and timeouts",
  "needs devices and two threads; the interleavings, texts and numbers of messages are unbounded",
  ["examples/throughput_test.py: 50-240", "modem/modem.py: 89-175, 201-242"])

p("C97", "A damaged byte in a serial frame",
  "A frame with one damaged byte never delivers another message than the one sent. True of the sync bytes, the CRC and the payload: such a frame is reported as an error, messages are only found after its first byte, and if nothing in it looks like the beginning of a frame, what is delivered is what is delivered without it. A damaged counter changes nothing but the error counter, which grows by two (by one in the last frame) if the numbers of the frames sent follow each other. False of the message type (every ALP frame is delivered with any other type, also one that does not exist) and of the length (one flipped bit can cut a command); what a damaged length byte does is determined by the bytes that follow.",
  "all frames, positions and values of the damaged byte, following bytes, parser states with an empty buffer; for the counter also all sequences of frames and chunkings",
  "all positions and values for all payloads; a test sees a few of them",
  ["d7a/serial_modem_interface/parser.py: 96-179", "d7a/support/Crc.py: 28-31"])

p("C98", "Flipped bits anywhere in a serial frame",
  "A frame with flipped bits is never taken for another frame. True of up to three flipped bits anywhere in the sync bytes, the counter, the CRC and the payload, not all of them in the counter, and of any odd number of flipped bits in CRC and payload: the frame is reported as an error, messages are only found after its first byte, and if nothing in it looks like the beginning of a frame, what is delivered is what is delivered without it. Of a sequence of frames some of which are spoiled like that, exactly the messages of the others are delivered, in order and however the bytes are cut; for the modem a spoiled answer is a missing answer and never a wrong one. False of four bits: in every frame, at every place with three bytes of payload, four bits can be flipped so that the result is the valid frame of another payload. False of short bursts too: 15 bits in a row over the end of the CRC and the beginning of the payload can change without being noticed, while bursts of up to 16 bits inside the payload are always noticed (C33).",
  "all frames, sequences of frames and chunks, all sets of flipped bits outside message type and length, following bytes, parser states with an empty buffer, all interleavings of the threads of the modem",
  "there are more than a billion ways to flip three bits of one frame, for each of 2^2040 payloads",
  ["d7a/serial_modem_interface/parser.py: 96-179", "d7a/support/Crc.py: 28-31"])

p("C99", "A write that fails",
  "If writing to the serial port raises, the call raises and the modem can be used on: the frames of all commands asked for reach the port in order and with consecutive frame counters, each whole or, if its write failed, only a beginning of it, and there are exactly as many cut ones as failures, so that the receiver can see the loss by the counter. Received messages are handed over once, in order, to the right sink, also during and after the failure, and a later call gives exactly the responses to its command, as after successful calls. A connect that fails leaves uid, firmware version and connected as they were and can be repeated; not so with skip_alp_parsing: there the modem counts as connected although nothing may have been sent, and repeating connect does nothing. If the frame has left and only the flush fails, the answer to it reaches neither the callback nor the list of unsolicited messages until the next call.",
  "all configurations, commands and histories, any number of failing writes at any place, all numbers of bytes that leave before the failure, all interleavings of application thread and reading thread",
  "the serial port of a test does not fail, and the number of interleavings of failure and received bytes is unbounded",
  ["modem/modem.py: 89-175", "d7a/serial_modem_interface/parser.py: 63-74"])

p("C100", "A frame that is cut short",
  "If the device stops in the middle of frames (a reset, a write that fails) and goes on with whole ones, the messages of exactly the whole frames are delivered, once and in order, and the reading thread goes on. This holds whenever the cut can be seen from the bytes, that is, at no place of what is left of a frame there is, together with the bytes after it, a frame with the right sync bytes, length and CRC; always for a cut after the first byte, or after the counter if the next frame is not of type 0xFF and the counter not 0xC0; and, if there is no 0xC0 inside the frames concerned, for the last one or two bytes of the payload exactly if these are not the sync bytes of the next frame: otherwise the cut message is delivered and the next one is lost. It does not hold in general: for every frame of at most 255 bytes there is a log message that, cut after its header, takes the bytes of the frame after it as its own text, so that the frame is lost and a text is delivered that nobody sent. And as long as fewer bytes have come after a cut than are missing, nothing is delivered, reported or counted.",
  "all sequences of frames of all kinds, each whole or cut at any place, all ways of reading them in pieces; for the modem all interleavings; for the other end of the port all histories of commands and failing writes",
  "the number of cuts, contents and ways of reading in pieces is unbounded; the test-suite has one incomplete frame",
  ["d7a/serial_modem_interface/parser.py: 76-179", "modem/modem.py: 89-175", "modem/modem.py: 201-242"])

p("C101", "How long a call waits",
  "execute_command with a timeout waits that long for the answer and not much longer. With a clock that is not set forward, an empty list is never returned before the timeout has passed since the write; until then the call waits or has returned the responses. Whatever the clock says, once the last response is there the list of the responses is returned, also if it comes after the last look at the clock, and at most 0.05 s plus four scheduling delays later. With a clock that is not set back, every call ends at most 0.05 s plus five scheduling delays after its timeout, and its loop has at most 60 steps per second of the timeout and 3 more. A call that waits can always go on. The loop uses the time of day, so that this is false if the clock is set: forward, and a call of ten seconds gives up at once; back, and a call of one second can wait for any time.",
  "all configurations, histories, interleavings of the threads, moments of the steps, clocks and delays",
  "a test would have to set the clock of the machine and to try all moments at which an answer can arrive, the one between the last look at the clock and the end of the loop among them",
  ["modem/modem.py: 144-175"])

p("C102", "How long the throughput test waits for the receiver",
  "wait_for_receiver counts the messages that arrive before the receiver timeout is over and then ends. With a clock that is not set forward, all messages that have come two seconds (and one scheduling delay) before the end of the timeout are counted; with a clock that is not set back, the loop ends at most two seconds and two delays after the timeout, after at most half as many rounds as the timeout has seconds, rounded up; once all messages have come it ends at most four seconds and two delays later. It never gets stuck. It is false that all messages that come in time are counted: for every timeout there is a run in which the last message comes in the last two seconds and \"OK\" is not printed. With a clock that is set forward messages that come at once are not counted, with one that is set back the loop can go on for any time.",
  "all numbers of messages, timeouts, moments of arrival, clocks and delays",
  "a test cannot try all moments at which messages arrive between two counts two seconds apart",
  ["examples/throughput_test.py: 218-240"])

p("C103", "The statistics of the MQTT bridge",
  "The statistics of modem2mqtt lose no message and count none twice: the numbers logged and the number not yet logged add up to the number of messages kept. Two lines of the log are more than 15 seconds apart, no line says zero, and a call more than 15 seconds after all earlier ones reports everything kept so far. The main loop ends with the first Ctrl-C and not before. It is false that the bridge reports the number of messages it has bridged: keep_stats is never called, so that nothing is ever logged.",
  "all sequences of calls and signals, all readings of the clock",
  "the number of orders of messages, signals and readings of the clock is unbounded; a test would have to wait for minutes",
  ["tools/modem2mqtt.py: 59-60", "tools/modem2mqtt.py: 109-145"])

p("C104", "The program that queries other nodes, from start to end",
  "examples/query_nodes.py connects, asks every node for two bytes of file 0x40, logs what comes in and ends. It ends after the first message that says that the execution is completed and not before. When it has ended it has logged the answers of exactly the nodes that answered, in order, and then that message. If connect has returned True it does end. It is false that it always ends: if connect returns False, which the program does not look at, it still asks, and whatever arrives, it logs nothing and never ends.",
  "all gateways that conform, node answers, tags, interleavings of both threads and the gateway, ways the bytes are cut, moments of timeouts and line failures",
  "the number of interleavings and answers is unbounded; that a program waits for ever cannot be observed by a test",
  ["examples/query_nodes.py: 46-81", "modem/modem.py: 89-139", "modem/modem.py: 201-242"])

p("C105", "A byte that is lost or added",
  "If a byte of a serial frame is lost on the way, or one comes in that nobody sent, all other messages are delivered, once and in order, and nothing else. For any damage to any of the frames this holds whenever it shows in the bytes: at no place of what arrives of a frame there is, together with the bytes after it, a frame with the right sync bytes, length and CRC. For frames without 0xC0 behind the first byte: always if the first byte is lost, the version (unless the number of the frame is 0), or one of the last two bytes of a payload with a frame behind it; if another byte of the payload is lost or one is added in it, unless the CRC happens to fit. A byte between frames does no harm at all, nor does one more of the equal bytes at the end of a payload. It does not hold in general: if the CRC fits, a text that nobody sent is delivered and the next message is lost; a command that writes four bytes can become one that writes others. As long as nothing follows a frame with a lost byte, nothing is delivered or reported.",
  "all sequences of frames of all kinds, all damages to any of them, all ways of reading them in pieces; for single bytes all frames, places and values",
  "the number of contents, places and ways of reading in pieces is unbounded; the test-suite loses no bytes",
  ["d7a/serial_modem_interface/parser.py: 76-179"])

p("C106", "The update program when answers come late",
  "The update program with timeouts, late answers, refused commands, a failing line and its callback that calls sys.exit in the reading thread: if it ends normally, the device has confirmed every piece of the file, in order and each of them once, and nothing else happened in the device; if the device confirms a write only when it has done it, the whole file is in file 200. It says 'write failed' only at a piece that the device does not confirm or for which the call returned nothing, and raises ValueError only for a file of more than 1073741916 bytes. For this the random tag of the first piece must differ from those of the commands before it (all later tags may be equal), and no hand-over of an ALP message may overlap with the start of a call. In every interleaving and whatever the end, the device has processed the commands of the program in order, each at most once, and nothing else. Once the reading thread has ended, every file that is not empty gives 'write failed' at its first piece, whatever the device does. It does not hold that 'write failed' means that the piece was not written: the callback ends the reading thread at the late answer to the first command, whose result the program ignores. With equal tags, or in an interleaving that overlaps, a late answer to the first command is taken for the confirmation of a piece that the device refuses.",
  "all devices that answer properly, all files, all random tags, all earlier calls, all interleavings of threads, device and line, all timeouts and failures",
  "the interleavings, late answers and file contents are unbounded; the test-suite has no test of the program, and the timing of threads cannot be chosen in a test",
  ["examples/write_update.py: 51-54, 71-117", "modem/modem.py: execute_command, _read_async", "d7a/alp/command.py: create_with_write_file_action"])

p("C107", "Tags that are used again",
  "A program executes commands one after the other, with timeouts, late answers, a failing line and callbacks that raise. There are only 256 tags, so it uses some again. If the tag of each command differs from those of the commands since the last call that returned something, then every call returns exactly the answers of the device to its own command, given in the state in which the commands before it left the device, or nothing; in particular a program that gives up at the first call that returns nothing can use any tags, if only the first one is new. This is for interleavings in which no hand-over of an ALP message overlaps with the start of a call. It does not hold without the condition on the tags: a late answer to a call that returned nothing is returned as the answer to a later command with the same tag, which the device refuses. And it cannot be met for ever: of commands that are not answered in time at most 256 can meet it.",
  "all devices that answer properly, all sequences of commands and tags, all earlier calls, all interleavings in which no hand-over of an ALP message overlaps with the start of a call, all timeouts and failures",
  "the number of commands and the timing of threads and device are unbounded; tags are random in the code, and the test-suite has no device",
  ["modem/modem.py: execute_command 145-175, _read_async", "d7a/alp/command.py: __init__, tag_id"])

p("C108", "Programs that give up at the first timeout",
  "A program starts when nothing is going on in the modem, on the line or in the device, executes commands one after the other, with any tags, and gives up at the first call that returns nothing. Then in every interleaving of the threads, the device and the line, with timeouts, late answers, log texts and reboot messages at any moment, a failing line and callbacks that raise, every call returns exactly the answers of the device to its own command, given in the state in which the commands before it left the device; only the last call can return nothing. If the last call returns something, the device has processed all the commands, and nothing else. The update program gives up in this way, except that it ignores the result of its first command: if this is answered in time, the program ends normally only if the device has confirmed every piece, in order and each of them once, and then, if the device confirms a write only when it has done it, the whole file is in file 200; it says 'write failed' only at a piece that the device does not confirm or for which the call returned nothing. A `connect` that starts when nothing is going on, with any tag, goes by the first answer of the device to its own question or returns False and learns nothing.",
  "all devices that answer properly, all sequences of commands and tags, all files, all earlier calls, all interleavings of threads, device and line, all timeouts and failures",
  "the number of commands and the timing of threads and device are unbounded; the test-suite has no device, and the timing of threads cannot be chosen in a test",
  ["modem/modem.py: connect, execute_command 145-175, _read_async", "examples/write_update.py: 71-117"])

p("C109", "Programs from the first connect to the end",
  "A program makes a Modem object and calls connect, which returns True; then it executes commands one after the other, with any tags, and gives up at the first call that returns nothing. Messages of the device may arrive before connect is called. Then in every interleaving of the threads, the device and the line, with timeouts, late answers, log texts and reboot messages at any moment, a failing line and callbacks that raise, every call returns exactly the answers of the device to its own command, given in the state in which the question of connect and the commands before it left the device; only the last call can return nothing. The update program, if its first command is answered in time, ends normally only if the device has confirmed every piece, in order and each of them once, and then, if the device confirms a write only when it has done it, the whole file is in file 200.",
  "all devices that answer properly, all sequences of commands and tags, all files, all interleavings of threads, device and line, all timeouts and failures, everything that arrives before connect",
  "the number of commands and the timing of threads and device are unbounded; the test-suite has no device, and the timing of threads cannot be chosen in a test",
  ["modem/modem.py: __init__, connect, execute_command 145-175, _read_async", "examples/write_update.py: 71-117"])

p("C110", "Reading and writing files from the first connect to the end",
  "A program makes a Modem object and calls connect, which returns True; then it executes commands that read and write files, one after the other, with any tags, and gives up at the first call that returns nothing. The device keeps its files and does each command as a whole or refuses it. Then in every interleaving, with timeouts, late answers, log texts and reboot messages at any moment, a failing line and callbacks that raise, every call returns nothing and is the last one, or one message with exactly the content that the files had at the start, changed by the commands that were confirmed before it, or messages none of which confirms the command. If the last call returned something, the files are at the end what the confirmed commands make of them. In particular what one command wrote is what a later one reads, and a system file object that was written and is read again is parsed as the same object exactly if it is one of those of C77 that survive.",
  "all devices that keep files, all programs of reads and writes, all tags, all system file objects, all interleavings of threads, device and line, all timeouts and failures",
  "the number of commands, the contents and the timing of threads and device are unbounded; the test-suite has no device, and the timing of threads cannot be chosen in a test",
  ["modem/modem.py: __init__, connect, execute_command 145-175, _read_async", "d7a/alp/command.py: create_with_read_file_action_system_file, create_with_write_file_action_system_file", "d7a/system_files/*.py: parse, __iter__"])

p("C111", "The configuration programs when answers come late",
  "The programs that write an access profile or the factory settings, switch the engineering mode on or read the PHY status are started with any options and run to their end. In every interleaving, whether connect succeeds, fails or raises, whether answers are lost, late, refused or cut off by a failing line, the files of the device are at the end as they were, or the options were accepted and exactly the file of the program holds exactly the requested settings; the PHY status program changes nothing. If connect returned True, then a call that returned a confirmation means that the settings are on the device (for the PHY status: that the data is that of file 9), and a call whose messages all deny means that nothing has changed. The loop of the engineering mode program ends by a confirmation only if the settings are on the device, even if the confirmation is the late answer to an earlier call that was given up. But once the callback of the program has ended the reading thread, which the late answer itself can cause, the loop never ends, although the device holds the settings.",
  "all options, all devices that keep files, all tags, all numbers of calls, all interleavings of threads, device and line, all timeouts and failures",
  "options, file contents, the number of repetitions and the timing of threads and device are unbounded; the examples have no tests and the timing of threads cannot be chosen in one",
  ["examples/change_access_profile.py 64-86", "examples/write_factory_settings.py 62-110", "examples/engineering_mode.py 96-172", "examples/read_phy_status.py 51-58", "modem/modem.py: __init__, connect, execute_command 145-175, _read_async 201-242"])

p("C112", "Ctrl-C while the engineering mode program waits switches the mode off",
  "The engineering mode program connects, its loop ends by a confirmation, in any interleaving and after any number of calls that were given up, and it waits. Then comes Ctrl-C, and the handler executes a command that writes the file of the engineering mode with the mode OFF. If the tag of this command differs from that of the program's first command and no answer is handed over in the very moment in which the call begins, then the call returns nothing, or one message, which confirms, and the device holds exactly the file that the program wrote, but with the mode OFF, or only messages that deny, and the device holds what the program wrote; nothing else has changed. With any tags and in every interleaving the files at the end are those of the start or those that were asked for, and after that perhaps the file with OFF. With equal tags a confirmation can be the late answer to an earlier command although the mode is still on.",
  "all options, all devices that keep files, all tags, all numbers of calls, all interleavings of threads, device and line, all timeouts and failures",
  "the number of calls, the files and the timing of threads, device and signal are unbounded; the examples have no tests, and a test cannot choose when an answer comes",
  ["examples/engineering_mode.py 63-77, 111, 160-177", "modem/modem.py: execute_command 145-175, _read_async 201-242"])

p("C113", "After calls that were given up the connection recovers",
  "Whatever has happened before, calls with any tags that were answered or given up and answers that came late: if no call is in progress and the reading thread is alive, then steps of the thread and the device alone bring everything to rest, and the device has then processed every command that was sent, once and in order. A call that begins then, also with a tag that was used before, returns in every interleaving without a timeout exactly the answers to its own command, given in the state in which the earlier commands left the device; until then, as long as the thread is alive, something other than the timeout can happen next. There is always a run in which the call is answered and everything is at rest again. So connect can always still succeed if the device tells its UID and firmware version, every program that decides from the answers so far which command it executes next can get each of its next calls answered by the device, the update program can run without a call being given up and ends normally if the device confirms every piece, and the loop of the engineering mode program can end if the device confirms. Once the reading thread has ended there is no recovery: every call returns nothing, connect can only return False, and the update program says 'write failed' at the first piece, although the device gets the commands.",
  "all histories of calls, timeouts and late answers, all tags, all devices, all interleavings",
  "the histories and the interleavings are unbounded; a test follows one of them and cannot show that from every state a good continuation exists",
  ["modem/modem.py: execute_command 145-175, _read_async 201-242", "examples/engineering_mode.py 160-172"])

with open(os.path.join(os.path.dirname(__file__), "..", "properties.jsonl"), "w") as f:
    for x in P: f.write(json.dumps(x) + "\n")
print(len(P))
