# Formal model of pyd7a in Lean 4

The properties are in `properties.jsonl`, their status and theorem names in `MANIFEST.json`,
the wrong-program experiments in `seeded/LOG.jsonl`. The Lean project is `lean/`.
`tools/gen_properties.py` and `tools/gen_manifest.py` (with `tools/notes.json`) regenerate
`properties.jsonl`, `MANIFEST.json`, `lean/Verif.lean` and `lean/Verif/Audit.lean`.

## Trusted base

* Lean's kernel (4.33.0) and Mathlib as installed. No axioms of our own, no `sorry`, no
  `native_decide`, no `bv_decide`. Every property theorem depends only on (a subset of)
  `propext`, `Classical.choice`, `Quot.sound`; `lean/Verif/Audit.lean` prints the axioms of every
  theorem named in `MANIFEST.json` during the build.
* The faithfulness of the hand-written model to the Python 2.7 text in `/repo`, and our reading of
  the libraries it uses (below). Each definition cites the file and lines it mirrors and says where
  it simplifies.

## How Python is modelled (`Verif/Py.lean`)

* Integers are Lean `Int`, bytes are `UInt8`. Exceptions are values: `PyErr`.
* `bitstring.ConstBitStream` is a state `{pos, rest}`: the read position and the unread bits, most
  significant bit first. `read("uint:n")`, `"int:n"`, `"bool"`, `"bytes:n"`, `"pad:n"`, `"bits:n"`
  raise `ReadError` exactly when fewer bits remain, without moving the position. A parser keeps the
  stream state when it raises, because `parse_one_command_from_buffer` reports `s.pos`.
* A generator (`__iter__`) is a `Gen`: the items it yields and the exception that ends it, if any.
  `bytearray(x)` consumes a generator: int 0..255 and 1-character strings are accepted, other ints
  are `ValueError`, other objects `TypeError`; items before a raise are still checked first.
* `struct.pack(">H")`, `(">I")`, `("b")` raise `struct.error` out of range.
* Loops that could run on get a step budget; an exhausted budget is the value `nonTermination`,
  which is proved never to occur.
* Constructors are functions `X.new : args -> Except PyErr X` on typed arguments. Their conditions
  are not an assumption: `Model/Schema.lean` models the validator and every SCHEMA, and C57 proves
  that the two agree. Property theorems quantify over objects obtained through those constructors.
* Arguments of the wrong dynamic type are covered by C57 (acceptance) and by C15-C18 and C20 where
  the code itself produces them (key files, `None` actions). Mutation of attributes after
  construction is not modelled, except `Command.add_*`, the modem's attributes and the shared default
  lists of PhyStatusFile.

## Modules

| model file | code |
| --- | --- |
| `Py` | Python runtime, `bitstring`, `bytearray`, `struct` |
| `Model/CT`, `Phy`, `PhyStr`, `Fs`, `Addressee`, `Sp` | d7a/types, d7a/phy, d7a/fs, d7a/d7anp/addressee.py, d7a/sp |
| `Model/Operands`, `Alp`, `AlpParser` | d7a/alp/operands, operations, actions, command.py, parser.py |
| `Model/SystemFiles`, `SystemTable`, `SystemCommands` | d7a/system_files, ReturnFileData, system file factories of command.py |
| `Model/Crc`, `Serial` | d7a/support/Crc.py, d7a/serial_modem_interface/parser.py |
| `Model/D7atp`, `D7anp`, `Dll` | d7a/d7atp, d7a/d7anp, d7a/dll |
| `Model/Modem` | modem/modem.py, both threads |
| `Model/ModemFaults` | modem/modem.py 158-160 when `dev.write` or `dev.flush` raises, around Model/Modem |
| `Model/Clock` | the wait loop of modem/modem.py 166-175 in its single steps, with moments and a clock, around Model/Modem |
| `Model/ModemThread` | `start_reading`, `stop_reading` and the loop test of modem/modem.py, around Model/Modem |
| `Model/ModemCallers` | `execute_command` called by several threads and from callbacks, with its lock, around Model/Modem |
| `Model/Update` | examples/write_update.py |
| `Model/Examples` | engineering_mode.py (with its retry loop), change_access_profile.py, write_factory_settings.py and the verdict of throughput_test.py in examples |
| `Model/Throughput` | examples/throughput_test.py: set-up of the receiver and its callback, on top of `Model/Modem` |
| `Model/ThroughputRun` | examples/throughput_test.py: the main thread with transmitter and receiver, the four runs and their verdicts |
| `Model/ThroughputOne` | examples/throughput_test.py: the arguments, `int(s, 16)`, the main thread with a transmitter only and with a receiver only |
| `Model/ReceiverWait` | the loop of `wait_for_receiver` in examples/throughput_test.py with moments and a clock |
| `Model/QueryRun` | examples/query_nodes.py from its first call until `os._exit`, around the modem and a gateway |
| `Model/Programs` | examples/change_access_profile.py, write_factory_settings.py, read_phy_status.py, engineering_mode.py: the programs from their options to their end (or to the waiting for an interrupt) |
| `Model/Senders` | the messages of throughput_test.py, up to the serial frame |
| `Model/Equality` | `__eq__`/`__ne__` of the five classes that define them, and Python 2's choice between the operands' methods |
| `Model/HexText` | the hexadecimal text of modem/modem.py 162, 217 and d7a/serial_modem_interface/examples/generate_messages.py (its commands and the line with the frame; the dictionary it prints is left out) |
| `Model/HexTool` | tools/parse_hexstring.py, with the text it prints (the dictionary `info` as a parameter) |
| `Model/Print` | `__str__` of operands, operations, actions, commands, system files; `describe_actions` |
| `Model/Mqtt` | tools/modem2mqtt.py: constructor and callback, on top of `Model/Modem` |
| `Model/Stats` | tools/modem2mqtt.py: the statistics and the main loop |
| `Model/Json`, `Schema` | d7a/support: enum JSON handler, `as_dict`, validation |

`Verif/Lemmas/*` proof machinery; `Verif/Spec/*` small independent specifications;
`Verif/Props/*` the property theorems with a non-vacuity example beside each.

## Properties: what is modelled and how it is proved

A property that the code does not satisfy keeps its full statement in `properties.jsonl`; the Lean
side then has a refutation with a concrete witness, and theorems (suffix `_partial`) giving the
exact domain on which it holds.

* C01, C02 Length: round trip by case analysis on the four sizes; prefix freedom and unique
  decodability from determinism of the parser.
* C03-C05 CT: the compress loop; optimality over the eight exponents by linear arithmetic, for all
  integers. C05's last clause is false.
* C06, C08, C10, C12, C14, C39 codecs: compositional `Reads`/`Emits` lemmas, closed under bind.
* C07 strings: model of `str`/`from_string`, exact set of channels that survive and of strings that are read.
* C09, C11, C13, C17, C18 codecs that fail on part of the domain: exact characterisation of the good
  domain, refutation outside.
* C15, C16 system files: one theorem per class, plus what happens to the objects that do not survive.
* C19-C23 ALP actions, commands and factories: induction over action lists.
* C24-C26 ALP parser: a predicate on parsers (monotone, aligned, extension stable, closed error set)
  closed under bind and proved for every sub-parser; loop by well-founded induction.
* C27 re-serialisation: refutations; exact partial statement.
* C28-C32, C34-C38 serial parser: the state machine of the code; chunking by extension stability of
  one step; noise by induction on the skipped prefix; the specification in `Spec/Serial` is a
  decomposition of the input into gaps and frames.
* C33 CRC: CRC-16 as a linear map on bit strings; bursts by injectivity of the 16-bit state update,
  two flips by linearity and an evaluation in the kernel of all 2040 distances that fit into a payload
  of 255 bytes (`noReturn_2040`); odd numbers of flips by a parity invariant of the register.
* C40-C43, C52, C53 DLL: frame model; specification encoder written from the frame format.
* C44-C46, C50, C55 modem: transition system of the two threads, steps as described below; invariants by
  induction over all executions.
* C47: constructor with the shared default lists as explicit state, all histories.
* C48: table lookup and swallowing of exceptions, against an independent relation.
* C49, C56: enum JSON handler over all enum classes; `as_dict` over all object trees.
* C51 wire layouts: bit field tables written from the formats, independent of the parsers.
* C54 system file factories over all objects of the 14 classes and all 256 ids.
* C57 validator: evaluator of the rules; acceptance condition of each class for values of any type.
* C58 MQTT bridge: invariants of the modem's transition system with the bridge's callback in it; the
  published payloads against the received messages.
* C59 equality: exact characterisation of `==` over all pairs of values, against the serialised bytes.
* C60 parse_hexstring: relation between texts and bytes; each type reduced to its parser's theorem. With C61,
  whatever is parsed is also printed (`C60_printed`).
* C61 printing never raises: `str.format` as a function of template and arguments; exact condition for each
  system file class, and an invariant of `Command.__init__` for the execution state.
* C62 printing identifies: unique reading of each template (a field ends where its alphabet ends), then exact
  characterisation of the pairs with the same text. Texts of dictionaries, the pretty printer and objects
  without `__str__` are arbitrary functions (`Env`); for commands they must not contain tabs.
* C63 written tables: the bit tables of Spec/Tables.lean (width and value per field, in order) against the
  serialisers; composed part by part.
* C64 read tables: the same tables with unused fields left open; `Decodes` is an if-and-only-if for every bit
  string and position, composed along the monadic structure of the parsers.
* C65 grammar: C64 for each operation code, then induction over the loop of the command parser.
* C66 read and write again: consequence of C63 and C64 for tables without a choice of length.
* C67 stored objects: which generators yield only ints (`Ints`), for every operation, action and command; then
  the layout of the write action.
* C68 update: the modem is an arbitrary function from commands to answers; induction over the loop, invariant
  that the image so far is a prefix of the file.
* C69 verdict: the arrival of messages and the clock are arbitrary functions of the check number; `Wait` is the
  loop as a relation, characterised in closed form.
* C70 configuration programs: layout of the command (as in C23) for all option values; argparse is not modelled,
  its results are the arguments.
* C71 stop and restart: a transition system around that of Model/Modem; the erasure of its events is a run of the
  inner system (refinement), the loop has a measure.
* C72 throughput test: closed form of the bytes of each run; the limit of a frame is compared with their number.
* C73 written bytes: invariant over all interleavings relating the frame counter, the bytes written and the calls so far;
  the other end by C30.
* C74 concurrent callers: a finer transition system (Model/ModemCallers) with any number of threads, the lock and single
  bytes; invariant for the bytes on the line; invariant that nothing sets the flag while the reading thread is in a
  callback; runs without overlapping calls refine runs of Model/Modem (simulation relation `Abs`).
* C75 end to end: the modem (Model/Modem) and a device as one transition system (`Loop` in Spec/Device); the phases of a
  call as an invariant (`Phase`), a measure for termination. The device is a specification, written from the ALP format,
  with arbitrary contents (`Device`); frames and ALP bytes by C28, C30 and the codec lemmas.
* C76 several answers: the same with a device that is any function from payloads to answers (`Gateway` in Spec/Gateway),
  sends them when it likes and log texts and reboot messages in between; the invariant splits the answers into those in
  the list, in the reading thread's hands, queued, on the line and not yet sent.
* C77 system files: C75 for the requests that the two factories make, with a device that keeps a byte for each offset
  (`memory`); which objects survive is the predicate `Survives` (Spec/DeviceFiles), shown to be exact for every class
  from C15, C17 and C18 and, for PHY status and access profiles, from what their parsers return (C52).
* C78 nodes: the gateway of C76 with the further assumption (`Gateway.Forwards`) that a command with a D7ASP
  configuration goes to nodes (`air`, an arbitrary function) and every answer comes back as a message with tag, D7ASP
  status and data (Spec/Nodes.lean, bytes from the format tables). Proved with C76 and the parse of such a message.
* C79 without waiting: the modem and gateway of C76 with calls of timeout 0 (`Background`). An invariant (`Flow`) says
  how the payloads of the calls divide into processed, written and not yet written ones, and that the messages given to
  the callback, those on the way and those not yet sent are together the answers to the processed ones. A measure
  bounds the number of steps without calls.
* C80 update: C68's program (an arbitrary function `exec` gives what `execute_command` returns) is tied to the modem and
  device of C75 by `Executed` (Spec/UpdateDevice): each call is a run of modem and device, and `exec` is what it
  returned. Induction over the pieces with C75's invariant. Existence of such runs from C75's measure.
* C81 query without waiting: C78's nodes behind C79's callback. `C79_settled` gives the messages as the meaning of the
  payloads, `meaning_unique` says payloads have one meaning, and `message_answers` (C78) says which. Partial as C78: for
  receive levels up to 127 (`C78_lost`, `C78_refuted` beyond).
* C82 list of unsolicited messages: the modem without a callback is compared with one that has one (`Kept.image`: what is
  in the lists is what the callback was called with). Every step of one is a step of the other or leaves it as it is, so
  C79's invariant and measure carry over.
* C83 late answers: modem and device with three more events (timeout, callback raises, `dev.read` raises). Invariant
  `Lt.Stream`: bytes written are the frames of the payloads asked for; messages received, frames on the line and answers
  not sent are, in this order, what the device answers to the payloads it has processed. With C46 (what a call collects) and
  a new tag this gives the result of a call; `connect` is compared step by step with executing its question
  (Lemmas/LateConnect). `_partial`: with the tag of an earlier call (`C83_refuted_tag`), or if the
  reading thread hands over a late answer while the next call resets the list and the tag (`C83_refuted_overlap`), a call
  returns answers that are not its own. A number that decreases with every step shows that everything ends.
* C84 retrying: the loop is an inductive relation over calls of C83's modem (`Examples.Repeat`); induction over its rounds
  with the invariant of C83 shows that every list a round returns consists of answers to the command of the loop. `_partial`
  for the same interleavings as C83; `C84_refuted` is a loop ended by the late answer to `connect`. Exceptions: `_partial` for
  devices whose answers all have a tag response (`Gateway.Reports`); `C84_raises_refuted` is one without, `C84_exception` says
  that this is the only exception.
* C85 interrupt: in the model of many threads (C74) the handler is one more thread, and the interrupted ones do not move.
  Invariant over the places of the handler with a rank that decreases. `_partial`: without the lock and with a counter up
  to 255; `C85_deadlock` and `C85_overflow` tell for every other state what happens. A signal before `modem` is assigned
  (NameError) is not modelled; `connect` counts as one more `execute_command`.
* C86 bridge and device: C58's bridge with a line on which any device sends frames (Spec/Site). Invariants: how far the
  constructor is and what it has written (`Doing`); the messages received are those lost, published and waiting, in this
  order (`Split`), with the lost ones bounded by what was received when the set-up was done. What is received comes from
  C44 and the parser lemma for frames in pieces. A number that decreases shows that everything ends.
* C87 messages nobody asked for: over `Model/Modem`, from a state that is connected and has written something. Invariant
  (Lemmas/Pushes): outside of modem/modem.py 152-157 the current tag belongs to a call made, so a message with another tag
  takes the branch of the callback; history equation over steps. `_partial`: calm interleavings (no ALP message is handed over during modem.py 152-157), and messages whose tag no
  call compares with; `C87_async_refuted`, `C87_reset_refuted` show that both are needed.
* C88 unsolicited_response_logger.py: one `connect`, then no calls, so that every interleaving is calm once it is connected.
  The text that is logged is not modelled (C60, C62 say what a command prints).
* C89 throughput_test.py, receiving: the set-up as a sequence of calls of the modem, the callback with the list it appends
  to; invariant of the set-up (`Doing`) and of the list (`Grown`). The transmitter is another device; of it only
  the resetting of the list is modelled here. Partial because messages during the set-up and the status of another
  interface end the reading thread.
* C90 throughput_test.py with both devices: the main thread as a sequence of places (`Place`), around the modem of the
  transmitter and the receiver of C89. Invariant of what the transmitter gets (`Cond`); a run does not reset
  the list (`inside_run`), so that C89 applies to it; numbers counted are not larger than the list (`Bound`). Radio
  is a hypothesis about the bytes that arrive (`arrival`). Partial because late messages of the run before are counted.
  For the modes with one device see C96; what is printed during a run is not modelled.
* C91 the configuration programs as a whole: `Once`, `ProfileProgram`, `EngineeringProgram` are relations over an abstract
  modem, used with `connect` and `execute_command` of the modem model and the device that keeps files (`Connected`,
  `Returned`). The commands are shown to be requests of the device loop (`request tag ops`), their bytes by the layouts
  (C70); then as C75 and C80. The end of each program is shown to exist for all options and devices, so that the
  hypotheses are not restrictive. The device neither loses nor delays anything here; for that see C83 and C84. With `-f` the
  commands are those of C78 (`asking`), about one call. The loop and the handler of engineering_mode.py after the command are in C85.
* C92 hexadecimal text: the texts are functions of the bytes (`Model/HexText`); they are shown to stand for the bytes in the sense of
  C60 (`Spells`), and C30 (frames built one after the other) and C60 give what the tool shows. The six messages are computed for
  every tag.
* C93 lost frames: by induction over the pattern of losses (`arrived`, `lostBefore`), from C30 (what the builder makes) and the
  trace of the counter.
* C94 different commands: from the round trips of C20 and C30.
* C95 labels: a text is specified as a list of literal labels, each followed by a word with a meaning (`Labelled`, `IsInt`,
  `IsHex`, `Named`; Spec/Labels.lean); the templates are evaluated with the model of `str.format`. Texts of dictionaries and of
  objects without `__str__` remain parameters.
* C96 throughput_test.py with one device: the same places as in C90 without the receiver (`Sender`) and without the
  transmitter (`Listener`). `int(s, 16)` is a function on characters (`hexInt`), specified by `Hexadecimal` (blanks, sign,
  blanks, prefix, digits, blanks; ASCII only). Frames written: an invariant that joins the place of the main thread with
  what is written and what is about to be (as in C90). Termination: a rank on the places, and for every place a run of main
  steps and timeouts to one of smaller rank. The silent device: a run is built place by place. Receiver: the runs are
  projected to those of C89.
  The same rank argument gives `C89_ends` and `C90_ends` (Lemmas/ThroughputEnds.lean): the set-up of the receiver can
  always be ended by the main thread and the timeout, and with it the whole program.
* C97 a damaged byte: position by position from the header check (`view`), C33 for the payload, C30 for counter and type; the
  length is decided by the bytes that follow. Full claim refuted of the type (all ALP frames) and of the length (witness).
* C98 flipped bits: a payload followed by its CRC is a word that leaves the register empty (`Crc.word_zero`), so the
  lemmas of C33 about single, two and odd numbers of flipped bits apply to CRC and payload together
  (Lemmas/CrcWord.lean); the order of the two on the wire does not matter for counts of bits. Four bits: the pattern of the
  polynomial itself (`Crc.crc_unseen`). Sequences of frames by induction over the trace of the parser, the modem by C44.
* C99 failing writes: Model/ModemFaults adds one event to Model/Modem, a write that raises after some bytes have left. What
  is handed over: the event changes nothing the reading thread uses (`Same`). What is written: an invariant over the run
  that pairs each payload asked for with the number of bytes that left (`Inv` in Lemmas/ModemFaults.lean). The next call:
  `calm_call` as for C46, from any reachable state. The late answer: the tag stays set, then C45_swallowed.
* C100 frames cut short: `CutsShow` (Spec/Cut.lean) says of the bytes alone that no frame can be seen inside what is left of a
  cut one; by induction over the trace of the parser. The two families for which this can be decided from the cut (beginning,
  end) are separate theorems. The modem by C44, the other end of a port with failing writes by C99. Partial because the full
  claim is false: a message can be built whose header takes the next frame as its payload (`Crc.crc_unseen`).
* C101 time: Model/Clock splits the wait loop into its steps (reading the flag, reading the clock, sleeping, reading the flag
  again), each at a moment; the clock is any function of the moment. `C101_refines`: leaving these steps out gives a run of
  Model/Modem. The bounds by induction over the steps of one call (`call_induction`), with an invariant for each place in the
  loop. Clocks that are set refute the full claim, by a run of any length (`rounds`).
* C102 the loop of the throughput test with time: the state after `k` rounds as an inductive relation, the bounds by induction
  over the rounds. `C102_wait` connects it with `Wait` of C69.
* C103 statistics: induction over the calls of the two methods.
* C104 the whole program query_nodes: its steps are steps of the modem and the gateway (`run_net`), so that C79, C81 and C88 apply; `Stops` is the invariant that it has ended exactly if a completed message was logged, `Told` that the modem is connected exactly if `connect` has returned True.
* C105 lost and added bytes: `DamageShows` (Spec/Slip.lean) says of the bytes alone that no frame can be seen in what arrives of a damaged one; induction over the line with `trace_noFrame`. For single bytes the condition follows from the header, or from C33 (windows of 16 bits) for the last two bytes of the payload.
* C106 the update program with late answers: `Net.Series` (Spec/UpdateLate.lean) says that its commands are executed one after the other by calls as in C84; `Caught` (Lemmas/Caught.lean) is the invariant that every answer to the commands so far has been handed over, which a confirmed piece restores, so that only the tag of the first piece must be new (`loop_late`, induction over the pieces). The order is C83's stream with the commands of the program appended.
* C107 tags that are used again: `TagsNew` (Spec/Series.lean) is the condition on the tags, read off what the calls returned; induction over the commands with `Caught` as the invariant, which every call that returns something restores for all commands so far (`Ct.called`).
* C108 programs that give up: when `Caught` holds for all commands so far and the reading thread is not in the middle of an answer, no ALP message can arrive before the frame of the next call is written, so its preparation is calm in every interleaving (`Ev.calm_start`); a call that returns something restores both (`Ev.every_call`; `Exact` says that the flag speaks of a message before the one that is being handed over). A system at rest (`Net.AtRest`) has both. So the `calm` hypothesis of C83, C106 and C107 goes away, and with it the condition on the tags.
* C109 whole programs: a `connect` that returned True is compared with executing its question (`Lt.connect_run`, `Lt.net_step`), so `Ev.every_call` applies to it and everything has been answered again when it returns (`Ev.every_connect`), although the reading thread may be in the middle of something; before the first call nothing that is an ALP message can arrive (`Ev.connected_ready`). The rest is as for C108 (`Ev.calls_ready`, `Ev.update_ready`).
* C110 files over whole programs: `Gateway.Keeps` (Spec/FileProgram.lean) says that the device does a command of file operations as a whole or refuses it; an assumption about devices, which the device `storing` of the examples meets. C109 gives every answer in terms of the bytes sent before; `Fp.files_after` (induction over the commands) turns that into the files after the confirmed commands. Reading back is then `memory_kept` and `reread_iff` of C75 and C77.
* C111 configuration programs with late answers: the programs of C91 with `connect` and `execute_command` of the late layer (Spec/ConfigLate.lean; `Net.ConnectEnds` is any end of `connect`, `Net.ConnectSucceeds` the one with True). What reached the device is the question of `connect` and copies of one command, and that command twice is that command once (`Cl.write_again`, `Cl.writes_again`), which gives the safety theorems. What a call after a successful `connect` returns is an answer to one of the copies (`Cl.caught_origin`), so a confirmation means that one of them was done. Without `-f`; the device is one of C110. The options `-x` and `-f` of the programs are not in it.
* C112 Ctrl-C after the loop: the handler as one more call after the program of C111 (a signal in the middle of a call is C85). `Cl.repeat_all`: when everything that the loop sent is processed, the files are as asked for, because one of the copies was confirmed and the copies after it change nothing; `Sr.series` of C107 then gives the answer to the command of the handler. `C112_same_tag_refuted` runs the case of equal tags. That the reboot callback can end the waiting (`stop`) is not in it.
* C113 recovery: the layer of C83 (`Net.runLate`). `Rc.settle` makes steps by induction on the measure `Lt.left` of C83, choosing steps that leave the reading thread alive (`Rc.alive_step`); `Rc.not_waiting` shows that a call that began at rest cannot still wait when everything is delivered, because the last answer of a conforming device completes it. `Rc.connects` is the same for `connect`. `C113_series` is an induction over the commands (the specification `Net.Series` of C106), `C113_program` one over the number of calls of a program that chooses its commands (`Net.Talks`), and `C113_update` chooses the answers of the calls as the answers of the device and uses `C113_series`. `C113_dead`, `C113_dead_update` and `C113_dead_connect` are the other side: `Rt.dead_call` of C84 and the invariant `Rc.Unheard` of a `connect` after the end of the reading thread. That such runs exist does not say that they happen: for that the threads and the device have to be scheduled (`C83_settles` bounds the number of steps), and the answers have to come before the timeout.

### Assumptions of the modem model

* One application thread calls the modem; callbacks do not call back into the modem (both are allowed in
  Model/ModemCallers). A callback may raise (event `callbackRaises`), which ends the reading thread.
* Granularity: lines 152, 153 and 154 are one step each, 155-157 one step, 158-163 one step, the wait
  loop ends in one step. In the reading thread the tests of lines 221 and 230-239 are one step each, and
  the appends of lines 223, 236 and 241 are two steps (loading the list object, appending to it).
  The interpreter can switch threads inside the steps that are merged; that is not modelled.
* `connect` evaluates lines 117-139 in the step in which `execute_command` returns.
* Parsing the received bytes (line 215) is one step; the application thread uses the same parser object
  only to build frames.
* Writing to the port does not fail (it may in Model/ModemFaults); `stop_reading` and `start_reading` are added in Model/ModemThread, a second
  `start_reading` while the thread runs is not; timeouts are integers, and the end
  of the wait is an event that can happen at any moment. Model/Clock adds time: there the wait loop has its single steps, the
  clock is any function, the difference of two readings is compared exactly, and `time.sleep` does not end early.

## Findings: where the code disagrees with the property

* C05 `CT.compress` with floor does not give the largest representable value below (at 125).
* C07 the LoRa channel class prints with the letter of the low rate class: two channels print alike.
* C09, C10 an addressee with id type NBID and a CT exponent > 0 is read back with another CT.
* C11 `Status.parse` reads rx_level signed, the schema wants 0..255: values from 128 on raise.
* C13 query types other than arithmetic comparison with value, and a mask, are accepted but cannot be
  parsed; the length field is not checked against the value.
* C15 firmware version names come back padded with spaces (non-ASCII names do not serialise); four
  attributes of the DLL configuration are not checked, so objects are accepted that do not serialise;
  access profile files come back with specifier 0, and those with fewer than 8 sub bands do not parse;
  PHY status lists longer than the channel count are cut.
* C17 2^128 is accepted as a key (float bound) and collides with 0; key files never parse.
* C18 factory settings never survive: the constructor takes the logarithm of the smoothing value, so
  parsing takes it again. A negative gain or RSSI offset is accepted but does not serialise.
* C19, C20, C23 the ForwardAction class cannot be serialised (`self.group` does not exist), operations
  with empty data are sent as the opcode only, and interface status actions are sent without their length
  byte, so they do not come back.
* C25, C37 a data operand announcing more bytes than its frame holds reads into the next frames; the
  serial parser holds back everything that follows.
* C32 the payload of a reboot frame longer than one byte is read again as frames.
* C34 a fresh builder starts at counter 0 and a fresh parser expects 1.
* C36, C55 a CRC-valid frame with a forward action to HOST makes `parse` raise IndexError from its own
  error handler for ever; in the modem this ends the reading thread, as does any serial error (the
  handler calls `_connect_serial_modem`, which does not exist).
* C41 length and subnet bytes from 128 on are read as negative and rejected.
* C43 the CRC of DLL frames is not checked.
* C45 while no synchronous command has set a tag, messages without a tag are swallowed.
* C46 three races between lines 152-157 of `execute_command` and the reading thread: a late response of an
  earlier command, a message without tag, or an earlier completion is taken for the new command.
* C50 a second `connect` combines the UID of one answer with the firmware version of another; of an answer
  in two messages only the first is looked at.
* C47 PhyStatusFile's default lists are shared: after one call with more than 255 channels, all
  later calls that use the same default list are rejected.
* C52 the DLL parser catches a ParseError class nothing raises; afterwards it is stuck.
* C53 the round trip fails for foreground, background and D7ANP frames and for D7ATP frames with timing
  fields.
* C54 20 entries of the system file table have an enum member as id, so the factories raise.
* C57 misspelt or commented-out schema keys leave 23 attributes of seven classes unchecked.
* C58 the modem calls the callback from `connect` on, but the MQTT client and topic are set later
  (lines 73 and 76): messages handed over in between are dropped by the bare `except`.
* C59 a length equals an int but not the long of the same value, so equality is not transitive;
  `ChannelHeader.__ne__` (channel_header.py) returns False for other types, so `header != 5` and
  `header == 5` are both False.
* C60 the tool always raises for the types fg and bg: the DLL parser returns a pair (d7a/dll/parser.py 62)
  and line 57 unpacks three values.
* C61 a firmware version with a name or hash that is not ASCII is accepted, but printing it raises
  UnicodeEncodeError.
* C62 not printed: the permissions of a file header (`FilePermissions.__str__` returns ""), the NLS method of an
  addressee, the last two fields of a DLL configuration (placeholders missing, dll_config.py 72), the flags of an
  action; the three key files print alike. The factory settings text labels the LoRa bandwidth as `lora sf` and
  the spreading factor as `bw` (factory_settings.py 181-190). `lstrip("BAND_")` turns NOT_IMPL into OT_IMPL.
* C64 lengths and offsets in more bytes than needed are accepted; an access profile is always read with
  specifier 0; engineering mode does not read its last two bytes; the length byte of an interface status is read
  but ignored, and the serialiser does not write it (C19).
* C66 factory settings are not written as they were read (the smoothing is turned into its logarithm).
* C67 commands with file data or an interface status (their serialisers yield characters, not numbers) cannot be
  stored: `list(command)` is rejected with ValueError.
* C68 the progress counts whole pieces: a file of one byte ends at 23900 %. Files over 1073741916 bytes raise.
* C69 `type(cmd.actions[0].op) != ReturnFileData` (throughput_test.py 233) compares a number with a class, so a
  write of the payload counts as well; a message without data raises instead of NOK; messages of the last two
  seconds are not counted.
* C70 engineering_mode.py 132 repeats the condition of line 131: with only `-fg` the ramp is set to 255 instead
  of 40, with only `-fp` the filter is 255 and the constructor raises. A negative gain, a negative RSSI offset and
  tolerances that are no bytes are accepted by the factory settings and refused only as file data.
* C71 messages that wait behind one whose callback raised are lost, also after a restart (`C71_lost`); the
  examples whose callback calls `sys.exit` end only the reading thread in this way.
* C72 the test accepts every payload size, but above 234 bytes it ends with ValueError at the unicast runs, after
  the broadcasts; with size 0 the operand of the return action is left out (C19), so the message does not parse.
* C74 the lock protects only the write: a call takes away the tag, the list and the flag of a call of another
  thread, which then returns the other one's responses or an empty list, or fails with the assertion of line 156; frames
  can get equal counters or ValueError (counter 256). A command executed inside a callback never gets its response: the
  thread that should read it is the one that waits.
* C75 the device sends no answer longer than a frame (255 bytes): a call that asks for more waits for its timeout
  (`C75_answer_too_long`). Writing no data at all is not among the operations: the operand is then left out (C19).
* C77 a PHY status file declares 45 bytes, enough for 10 channels, but accepts 255: of a longer one the read command
  asks only for the beginning, which does not parse. Access profiles other than the first come back as the first.
* C78 the answer of a node received at level 128 or more is dropped (C11: its status does not parse), so a query
  returns without it, and nothing tells the application (`C78_lost`, `C78_refuted`).
* C84 a late answer to an earlier call (`connect`) can end the loop although the device refuses the command
  (`C84_refuted`); once the reading thread has ended, the loop never ends (`C84_dead`): each call waits for its timeout, and
  nothing reports the failed line. An answer without a tag response, whose tag is in a tag request, has no attribute
  `completed_with_error`: the loop ends with AttributeError (engineering_mode.py 169 and, for the log text, 172) although the
  device may have confirmed the command (`C84_raises_refuted`).
* C85 the handler calls `execute_command` in the middle of `execute_command`: if the signal comes while the frame is
  being written, the handler waits for a lock of its own thread, forever (Ctrl-C does not help any more), and the device is left with part of a
  frame; at every 256th command there is a moment where it raises ValueError instead. The answer to the interrupted command
  can end the wait of the handler before its own command is confirmed.
* C87 executing one command without waiting (`timeout_seconds=0`) or without a tag makes the modem lose what nodes send on
  their own until the next command that is waited for (`C87_async_refuted`).
* C88 the logger ignores what `connect` returns: if the device does not answer in time, it runs on and logs nothing but
  reboots (`C88_silent`).
* C89 `received_commands` is made by `start` (126), but the callback that uses it (250) is registered before (102): a message
  of a node that arrives while the receiver is being set up raises AttributeError in the reading thread, which ends. The
  program goes on and waits in vain (`C89_refuted`, `C89_early`, `C89_deaf`).
* C89 a message with the status of an interface that is not D7A has no addressee; 249 raises and the reading thread ends
  (`C89_status_refuted`). If the receiver did not tell its identifier, `int(None, 16)` (130) ends the program
  (`C89_no_answer`).
* C90 the list is reset at the beginning of a run (196), and nothing in a message tells to which run it belongs: a message of
  the run before that arrives after the reset is counted. An OK may be due to it although the message of this run was lost
  (`C90_late_refuted`), and if that arrives too, the verdict is NOK (`C90_extra_refuted`).
* C90 with no messages to send, 215 divides by zero if the clock has not advanced (`C90_nothing_refuted`). With payloads of
  235 bytes and more the two broadcast runs may work and the first unicast message ends the program (`C90_done`, C72).
* C92 the tool raises TypeError for a whole line of the debug log (`"> "` is not hexadecimal, `C92_whole_line_refuted`) and for
  several lines (only spaces are removed, not line ends, `C92_line_end_refuted`). modem/modem.py 217 logs the bytes of the last
  read as the buffer of a parser error; `dev.read()` (206) reads one byte, so this is the last byte of the frame only.
* C93 the error counter of the parser is no measure of damage: a frame with a wrong checksum advances the expected number before
  the checksum is looked at (parser.py 169-177), so it is not counted (`C93_damaged_refuted`); 256 lost frames in a row are not
  noticed either (`C93_wraps_refuted`).
* C95 FactorySettingsFile.__str__ (factory_settings.py 189) passes `lora_bw, lora_SF` to "lora sf set to {}, bw to {}"
  (`C95_lora_refuted`); DllConfigFile.__str__ has no placeholders for two of its five arguments (`C95_dll_config_refuted`).
* C96 a receiver on its own waits for the messages of one run (224) while a transmitter on its own sends four runs (155-186):
  a message of the second run that arrives before the first are counted makes the verdict NOK (`C96_four_runs_refuted`).
  A transmitter that does not answer (or is not there) is not noticed, a throughput is printed (`C96_silent_refuted`). An
  address of more than 64 bits is noticed only after two runs (`C96_far`), one that is no number after the access profile has
  been written (`C96_no_number`).
* C97 counter, message type and length of a frame are not covered by the CRC, and the message type is not checked: a frame with
  a damaged type is delivered with it (`C97_type_refuted`); one flipped bit in the length can turn a command into another one
  (`C97_length_refuted`).
* C98 the CRC stands before the payload on the wire: a burst over the end of the CRC and the beginning of the payload is not
  one in the sense of the polynomial, 15 bits in a row can change without being noticed (`C98_burst_refuted`). Four flipped
  bits can go unnoticed in every frame (`C98_four_refuted`).
* C99 with `skip_alp_parsing`, `connect` sets `connected` before it sends (modem/modem.py 111-112): if the write raises,
  the modem counts as connected and a second `connect` returns `None` at once. A write that raises leaves the tag of its
  command set: an answer that still comes is swallowed.
* C100 a device that is reset while it sends leaves the header of a frame behind: what comes after it, the reboot message
  included, is kept back until the announced length is there (`C100_waits`; there is no timeout), and may be delivered as part of
  the cut message (`C100_mixed_refuted`).
* C101 the wait loop measures with `datetime.now()`, the local time of day: if it is set while a call waits (NTP, daylight saving
  time), the call gives up too early or hangs for as long (`C101_forward_refuted`, `C101_back_refuted`).
* C102 `wait_for_receiver` counts and then sleeps, so that what arrives in the last two seconds is not counted
  (`C102_last_seconds_refuted`), and even with all messages there it sleeps on for up to four seconds.
* C103 modem2mqtt never calls `keep_stats`; the report of bridged messages never comes (`C103_silent_refuted`).
* C104 query_nodes.py ignores what `connect` returns; after a failed `connect` it asks, logs nothing and never ends (`C104_always_refuted`, `C104_silent`).
* C105 a lost byte of the payload makes the parser take the sync byte of the next frame for the end of this one; usually the CRC shows it, but if it fits, another message is delivered and the next one is lost (`C105_taken_refuted`, `C105_command_refuted`).
* C106 write_update.py gives a callback to the modem that calls `sys.exit` at a completed message. It runs in the reading thread and ends only this thread; from then on every call times out and the program says "write failed" although the device has stored the piece (`C106_failed_refuted`, `C106_exit`). It also ignores the result of its first command; if that call times out, its late answer can be taken for the confirmation of the first piece (`C106_done_refuted_tag`, `C106_done_refuted_overlap`).
* C111 engineering_mode.py has the same callback as write_update.py. If the answer to a call that was given up comes while the next call starts, when no tag is set, the callback gets it and ends the reading thread; the device holds the settings, but the loop of the program never ends (`C111_ends_refuted`, `C111_endless`).
* C112 the handler of Ctrl-C in engineering_mode.py draws a new tag out of 256; if it is that of the first command, a late answer to that command is taken for the confirmation, although the mode is still on (`C112_same_tag_refuted`).
* Examples that cannot work, found while reading (not modelled): switch_to_push_notification.py 88-91 passes
  `Length(2)` where an int is wanted; interface_configuration.py gives a CT as the id of a UID addressee;
  generate_msg.py calls `ReturnFileData.send_command`, which does not exist; partial.py and minimal.py use a former
  interface of the parser; send_lorawan.py passes arguments that the constructors of the LoRaWAN configurations do not
  have, so that it always ends with TypeError.

## Not modelled

Serial port I/O and thread scheduling primitives (the modem model takes received bytes as events),
logging, the MQTT client, the command line tools and examples other than those above, `__str__` of dictionaries and DLL frames,
jsonpickle itself, wall-clock time except in Model/Clock, ReceiverWait and Stats, floating point except the bounds of `Types.BITS` and the
logarithm of the factory settings. That logarithm is exact in the model; double precision agrees for
the bytes `parse` passes, but gives one more at some powers of two from 2^29 on, which matters only for
constructor arguments of that size.
