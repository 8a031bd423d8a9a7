# Formal model of ElectroUnion/egts-gate in Lean 4

Generated by `tools/mkdesign.py` from `tools/design_head.md`, `tools/plan.py`, `MANIFEST.json`, `properties.jsonl` and `tools/axioms.txt`
(the first version, written before the proofs, is in the history of this repository).

## 1. Architecture

| Layer | Lean modules | Go source |
|---|---|---|
| Go run-time pieces | `Verif/Go/*`: byte slices with capacity, little-endian, `bytes.Reader/Buffer` (short reads keep the stale tail of the buffer), `strconv`, `fmt.Sprintf("%0Nb")`, float64, time, protobuf wire format | standard library, `golang/protobuf` |
| Codec | `Verif/Model/*`: crc, fourteen subrecords, `StorageRecord`, RecordDataSet, ServiceDataSet, PtResponse, Package, `PackageJson` (ToBytes), `Work` (how many records and subrecords are read) | `libs/egts/*.go` |
| Gate | `Model/Server` (handler of a connection), `Gate` (many connections, Run, Stop), `Timer` (clock), `Stall` (clients that do not read), `Storage`, `StorageCalls`, `Json`, `JsonText`, `JsonIndent`, `Main`, `Config` | `cli/receiver/**` |
| Client | `Model/PacketGen`, `Model/CmdLine`, `Model/TimeParse` | `cli/packet-gen/main.go`, with `flag.Parse`, `strconv.ParseInt`, `strconv.ParseFloat` and `time.Parse` of the Go library |
| Script | `Model/SendEgts` | `tools/send_egts.py` with Python's text mode, `readlines` and `bytes.fromhex`; ASCII files; the receiver at the other end is `Model/Server` |
| Specifications | `Verif/Spec/*`, `Props/StorageWire`: independent of the code (polynomial CRC, wire offsets, grammar of bodies, JSON reader, calendar, connection strings, expected answers, ...) | - |
| Properties | `Verif/Props/*`: the theorems of MANIFEST.json, with examples that meet their hypotheses | - |
| Lemmas | `Verif/Lemmas/*` | - |
| Tests | `Verif/Tests/GoVectors`: the test vectors of the Go test suite evaluated on the model; `Verif/Tests/Recorded`: the 126 recorded packets of the repository, decoded by the model and compared with the output of an independent decoder (tests of the transcription, not proofs) | `libs/egts/*_test.go`, `test/egts_packages.csv` |

A method that mutates its receiver becomes a function returning the new value. Decoders run in a small monad `Dec σ` = receiver state + unread
bytes, with outcomes `ok | err | panic | diverge`; the receiver state is kept on errors, because the server reads `pkg.PacketIdentifier` after a
failed `Decode`. Strings are byte lists, as in Go. Fixed-width integers are `UInt8/16/32/64` (wrap-around is modelled). A slice is its bytes plus
its spare capacity where the code reslices (`Package.Decode`). A connection is a list of chunks (what each `Read` may return) and a tail (end of
file, error or silence); a run is a list of effects (`write`, `save`) and the way it ends. Many connections are an interleaving semantics whose
steps are single storage calls, writes, packet reads, arrivals, accepts and `Stop`.

## 2. Trusted base

- **Lean's kernel** (4.33.0) and the theorems of Mathlib it re-checks. No `native_decide`, no `bv_decide`, no axioms of our own; no unproved goal.
- **Axioms** of the theorems named in MANIFEST.json (full table in AXIOMS.md): 477 theorems: {Classical.choice, Quot.sound, propext}; 39 theorems: {Quot.sound, propext}; 17 theorems: {propext}; 5 theorems: no axiom. `propext`, `Classical.choice` and `Quot.sound` are the
  three standard axioms of Lean.
- **The transcription**: that the definitions in `Verif/Model` and `Verif/Go` say what the Go code does. Each carries the file and the lines it
  models; `Tests/GoVectors` evaluates it on the vectors of the Go tests and `Tests/Recorded` on the packets recorded in the repository.
- **The specifications** in `Verif/Spec`, `Props/StorageWire` and the statements of the theorems.
- Examples and counterexamples are evaluated in the kernel (`decide`, `decide +kernel`, `kernel_rfl`); universally quantified statements are not
  proved that way, except over one byte or a few flags as a finite lemma inside a proof (all 256 values or all combinations, i.e. exhaustively).

### What is modelled

- `libs/egts`: all functions of `crc.go`, `egts_pkg.go`, `egts_pt_response.go`, `service_data_records.go`, `record_data.go`, all fourteen
  `egts_sr_*.go` including the `StorageRecord` messages of `egts_sr_egtsplus_data.go` (fields, tags, Encode/Decode/Length, getters, names of the reasons; not the
  descriptor, the registration and `CompactTextString`); the result codes of
  `const_types.go`. Error values are modelled as their classes, not their texts (`errors.go`, `fmt.Errorf`); the two
  errors whose text quotes the input (`record_data.go:58, 77`) carry the quoted type, length and content.
- `cli/receiver/server`: `handleConn` with its reading loop, the response builders, `Run`, `Stop`, the connection timer.
- `cli/receiver/storage`: `Repository` (AddStore, Save, LoadStorages), `packet.go`, `default.go`, and for the six connectors `Init`, `Save`,
  the connection strings and calls they make.
- `cli/receiver/config`, `cli/receiver/main.go` (configuration, storages, start), `cli/packet-gen/main.go`.

### What is not modelled, or simplified

- The client libraries of the storages (amqp, pq, nats, nsq, tarantool, redis): arbitrary functions from the history of calls (or a world state)
  to success or failure. Their documented parsing of connection strings is specified in Spec/ConnString.
- `golang/protobuf`: modelled in Go/Protobuf from its documented behaviour (proto2, struct tags); the codec theorems outside C80-C82, C108, C124, C126 and C127 (telematic_text) hold for any
  protobuf implementation (class `Platform`). nil elements of repeated messages are not modelled.
- `encoding/json`: tree and text of the records are modelled, the text of floats in Model/FloatText (C84, C98, C102, C104 and C105 are stated for
  any formatting with the properties C109 proves of it). The indented form printed by `LogConnector` is in
  Model/JsonIndent, `Package.ToBytes` in Model/PackageJson (simplifications at the head of that file).
- `gopkg.in/yaml`: the parser is not modelled; C118 assumes of it only that files of a narrow, precisely specified form (Spec/Yaml: the form of the
  shipped file) are read as YAML defines them; what is done with the result is modelled (Model/Config). Command lines are modelled
  (Model/CmdLine, Model/TimeParse; a 64-bit platform); `ParseFloat` is modelled as exact value followed by correct rounding, not by its algorithms.
- Floats: NaN, infinities, signed zeros, subnormals are not modelled (they cannot come from the wire; for values in the stated ranges they do not
  occur). Conversion of floats outside the range of uint32 is implementation-dependent in Go and arbitrary here (`Platform.f2u32OutOfRange`).
- TCP: chunks in order, then end, error or silence. `conn.Write` is assumed to return (the code ignores its result), except in Model/Stall, where
  it blocks when the client does not read. Scheduling is arbitrary interleaving at the granularity of section 1; the Go memory model is not (the code has no data
  shared between connections except the storages).
- Real time: Model/Timer has a clock with arbitrary arrival times; processing takes no time.
- Memory: allocation never fails; `int` is 64 bits.
- `SrTermIdentity.Decode`: the field NetworkIdentifier after a failed decode (never read) is simplified. `LogConnector`'s nil check and the server
  address of packet-gen's `Dial` are simplified; logging is not modelled, except where a property speaks about it (C49, C54) and the messages of handleConn (Model/Log, C119).

## 3. Properties that the code violates

For each, a theorem with a counterexample and the strongest true variant (suffix `_partial`), in most cases with the exact behaviour.

- C05 Decoding never panics: False of the code (HL inconsistent with the header, decode_panics_header); exact panic conditions in decode_panic_iff, and absence of panics for consistent length fields.
- C06 Acceptance implies both checksums were verified over the bytes that were decoded: False of the code when HL differs from the real header length (decode_crc_wrong); proved for packets whose HL is the real header length, and exactly what is accepted for all inputs (decode_accept_iff).
- C07 A single corrupted byte is always noticed: False of the code for the HL byte (decode_hl_change_accepted; exactly when: hl_change_iff) and for the RTE flag of packets with routing fields (rte_cleared_accepted). Proved for every other byte and bit, and for packets without routing fields that are given alone for every byte but HL (single_byte_alone_partial).
- C08 A truncated packet is never accepted: False of the code when the last checksum byte is cut off and is zero (truncated_by_one); proved for all other truncations, as an equivalence in truncated_iff.
- C09 Bytes after the frame do not influence decoding: False of the code for frames whose second checksum byte is missing (trailing_matters); proved for all complete frames, as an equivalence in trailing_iff.
- C10 Result-code contract of Package.Decode: A body checksum mismatch yields 137, never 138 (decode_never_138); all other parts proved.
- C12 Decoding into a reused Package is equivalent to decoding into a fresh one: False of the code for the routing fields (decode_reuse_stale); proved that they are the only difference.
- C15 Encode never silently drops data: False of the code for bodies of 65536 bytes and more (encode_drops_body); proved below, and what happens above in encode_overflow.
- C18 Omitted subrecord type code is inferred consistently: False of the code for dispatcher identity (dispatcher_type_not_inferred); proved for the thirteen other kinds.
- C22 Re-encoding a decoded coordinate gives back the same wire value: False of the code: re-encoding can lose one unit (coord_reencode_wrong); proved that it never loses more than one.
- C23 Position subrecord round trip: False of the code for the direction when the high course bit is set and bit 7 of Direction is clear (pos_direction_wrong); everything else proved, exact behaviour in pos_behaviour.
- C24 Course over ground is DIRH*256+DIR: False of the code for every course of 256 and more (direction_wrong); proved for courses below 256, and what is reported for the others.
- C25 Altitude is the 24-bit wire value: False of the code when source data follows the altitude (altitude_wrong); proved when the altitude ends the subrecord, and what is reported otherwise.
- C27 Analog/digital sensor subrecord round trip: False of the code for asymmetric analog flags (counterexample adsensors_wrong); proved for all flag combinations equal to their reversal, the digital half for all.
- C28 Counter subrecord: counter i is delivered as counter i: False of the code for counter 2 (counterexample counters_decode_wrong); proved for every subrecord without counter 2.
- C34 The server consumes exactly one frame per packet: False of the code for headers that announce less than 10 or more than 65535 bytes (consumed_wrong, 16-bit arithmetic); proved for all others, and the exact number of bytes taken for every header in consumed_exact.
- C41 Record number assembled from counters 110 and 111: False of the code (record_number_wrong): counters 110 and 111 are combined as big-endian bytes, so the number is right only in the cases of record_number_right_iff.
- C42 Exported coordinates are signed by hemisphere: False of the code: the hemisphere flags are not applied (hemisphere_ignored); proved for north-eastern positions.
- C43 A positive acknowledgement means the data was stored: False of the code when a storage refuses the record (acked_not_stored); proved for storages that accept, and for all storages that saving is tried before acknowledging.
- C44 Authorisation result is delivered in a decodable packet: False of the code: the result is sent in a packet whose type is RESPONSE, which every decoder rejects (auth_result_rejected); proved that the packet is sent, is well framed and carries the right record bytes.
- C46 No byte stream can crash the server: crash_iff gives exactly the streams that crash it (with decode_panic_iff). False of the code for header length 0 (crash_header_length_zero) and for frames of 65536 bytes and more (crash_long_frame); crash_cause gives every possible cause of a crash, no_crash_partial the streams that cannot crash it.
- C48 Idle connections are closed after conn_ttl: False of the code: a silent client is never disconnected (idle_never_closed); proved when the peer closes between two packets, with the exact moment.
- C49 Stop ends the server: False of the code: Run never returns and logs an error per iteration (stop_does_not_end_run); proved that no connection is accepted after Stop.
- C52 Redis database number defaults to 0: False of the code: a missing db parameter makes Init fail (redis_db_default_wrong); proved for a db parameter that is present.
- C53 A failing storage only produces an error: False of the code for redis, which panics (redis_save_panics); proved for the six other storages.
- C56 packet-gen sends the requested time: False of the code: the time in the packet is a constant (gen_time_ignored); proved exactly for which -time it is the requested one.
- C57 Shape of the exported JSON: False of the code: sensor lists of a record without sensors are null, not arrays (json_sensors_null); keys and the other members proved.
- C60 The documented configuration file sets the connection ttl: False of the code and its documentation: the documented key con_live_sec is not read (sample_config_ttl); proved for the key conn_ttl.
- C62 packet-gen's exit status tells success from failure: False of the code: the exit status is 1 also after success (gen_exit_status, gen_success_status); proved for failures, and that the program ends.
- C63 packet-gen waits for the answer as documented: False of the code: without -timeout the deadline has already passed (gen_default_timeout); proved for a given timeout.
- C64 packet-gen reports success only for a confirmed record: False of the code: an answer without confirmations is reported as success (gen_unconfirmed_success) and an answer without record section makes it panic (gen_panics_bare); proved everything else that success implies.
- C65 packet-gen accepts the answer however it is segmented: False of the code, which reads once (gen_split_answer); proved for answers that arrive at once.
- C67 The exported JSON document determines the record: False of the code for IMEIs that are not UTF-8 (json_imei_lost); proved for all others.
- C72 Only complete bodies are accepted: False of the code: contents and record data cut off by the end of the body are accepted (body_cut_accepted, body_bare_accepted); proved for bodies as long as announced, and by body_decode_iff that only the last subrecord of a record or the last record can be incomplete.
- C75 PostgreSQL is contacted with the configured parameters: False of the code: an empty password swallows the TLS mode, blanks break or override settings (three _wrong theorems); proved exactly for which values the text is read as the six settings (pg_settings_iff: not empty, no white space or backslash, no quote at the beginning; the TLS mode may be empty). The driver's reading of the text is a specification (Spec/ConnString).
- C76 RabbitMQ is contacted with the configured parameters: False of the code for passwords with reserved characters (slash, percent); for host names as hosts, amqp_settings_iff gives exactly the users, passwords and ports that arrive.
- C78 Documented storage options are honoured: False of the code: a nats user without password is ignored, nsq reads `server` where `servers` is documented, tarantool numbers overflow; proved otherwise.
- C79 A record saved to redis can be consumed later: False of the code: it uses PUBLISH, so without a connected consumer a saved record is lost.
- C83 Identifiers of terminals survive encoding and decoding: False of the code: short IMEIs and IMSIs come back with NUL bytes, an IMEI of 16 characters damages the fields after it; exact lengths are C30 (term_roundtrip).
- C87 A packet passed on is unchanged: False of the code. Proved for packets whose subrecords are all canonical (Spec/PassOn), identically; with positions, up to LAT/LONG one less (C22). Counterexamples: subrecord with a trailing byte (lengths become wrong), reserved bits lost, empty body.
- C88 A decoded package can be changed and encoded again: False of the code: lengths of decoded records are kept by Encode, so a record with an added subrecord is cut and a record nobody sent appears (edit_wrong). Proved: new identifier (renumber_partial); any new body of well-formed records if stale lengths are reset (edit_partial).
- C91 packet-gen sends the position it is given, in all hemispheres: False of the code: the flags LAHS and LOHS are constants of the program, so no southern or western position is sent as such. Proved for northern and eastern ones.
- C92 Positions are exported under their own object: False of the code: all positions of a packet are saved in one record under the object of the packet's last record. Proved exactly for the packets whose records with positions name that object; false for all others.
- C93 Acknowledged sensor readings are stored: False of the code: a packet without a position is acknowledged but nothing of it is saved. Proved for packets with a position.
- C94 Packets sent by the server have different identifiers: False of the code for every login: acknowledgement and authorisation result have the same identifier. Proved for streams without logins whose packets have different identifiers.
- C95 A packet that is sent again is not stored twice: False of the code: a packet sent n times is stored n times; the theorem gives the exact behaviour (the copies differ only in the time of receipt).
- C96 Positions without a valid fix are not exported as positions: False of the code: the flag VLD has no influence on what is saved. Proved for packets whose positions are all valid.
- C97 A client that does not read its answers is released: False of the code: there is no write deadline, so a client that reads nothing and sends enough packets holds its handler for ever. Proved: what happens before (a prefix of the normal behaviour), and exactly when a handler is held.
- C100 The server listens at the configured host and port: False of the code for IPv6 hosts: the address is built without brackets and net.Listen refuses it. The theorem gives the exact condition.
- C101 The storages in use do not depend on the order in which a map is iterated: False of the code when a storage cannot be initialised: those initialised before it stay registered. Proved when all can be initialised in every order.
- C103 Values that do not fit their wire field are refused by Encode: False of the code: nothing is refused, the value is cut. Proved: each field arrives unchanged exactly if it fits.
- C106 Every decoded package can be written as JSON: False of the code: a packet with an EGTS+ message whose fuel level is NaN or infinite is accepted by Decode, ToBytes returns an error. Exact condition proved; holds for packages without such values.
- C107 Encode writes the flags it is given, or fails: Proved for all encoders but SrTermIdentity: exactly the texts that together spell a byte are accepted, that byte is written, and if the texts have 8 digits its bits are these digits. False of the code: SrTermIdentity accepts anything; widths of single flags are not checked, so digits may slip into the next flag, and Encode may write bytes Decode refuses.
- C112 Time stamps on the command line are RFC 3339: time.Parse with the layout RFC3339 is modelled (Model/TimeParse) for Go before and since 1.20, and the texts it takes are characterised exactly. False of the code: leap seconds and small letters t and z, which RFC 3339 allows, are refused; one-digit hours, a comma, offsets up to 24:60 (before Go 1.20 any two digits) are taken. What the command then does with the instant: nothing (C56).
- C115 One subrecord that is not understood does not cost the rest of the packet: False of the code: a single subrecord that is not understood makes the gate reject the whole packet with code 129, save nothing and confirm no record (one_bad_loses_all, for every such packet; line 17 of the recorded packets is one). Proved: the packet is accepted exactly if every subrecord is understood (raw_accept_iff), and then the contents are found one for one, in order (all_understood_partial). Missing: the rest of a packet with an unsupported subrecord.
- C116 The work for a packet is proportional to its length: False of the code: a record that announces more data than are sent is filled up with zeros, record responses hold nested service data that are decoded and thrown away, and seven zeros are a record. A packet of 39 bytes makes the decoder read 9363 records and subrecords, one of 65533 bytes 11.8 million (small_packet_large_work, exact count for every k). Proved: at most 65533 per nonzero byte plus one per byte, for every body (work_bounded_partial), and at most one per byte if the length fields tell the truth (work_truthful_partial). The count follows the loops of the model (Model/Work).
- C121 Encode returns, and writes exactly what can be written: False of the code: Encode panics on a subrecord with a type code and no content (nil); encode_panic_iff says exactly when. Everything else proved. Bodies and contents of types outside the library (the interface is open) and typed nil pointers are not modelled.
- C122 What a device has seen confirmed is not lost: False of the code if a storage may refuse a record (confirmed_but_lost): the confirmation is sent all the same. Proved for storages that accept; without that assumption: the record has been offered before the confirmation (confirmed_was_saved).
- C128 What a connection holds: False of the code: every packet leaves a timer behind that is never stopped and runs for conn_ttl (timers_pile_up: n packets at once, n + 1 timers). Proved: the buffer is at most 65545 bytes; never more timers than one per ten bytes sent plus one; their exact number; none after ttl of silence.
- C129 All storages hold the same records: False of the code in two ways: two storages may hold the records of different connections in different orders (order_differs), and a storage that refuses a record keeps it from the storages behind it in the configuration (refusal_differs, refusal_starves). Proved: the first sentence (storages_hold, for any answers of the storages and at any moment); with storages that accept everything, the same records, each the same number of times (storages_same_partial, storages_perm_partial); for any answers, a later storage has nothing that an earlier one has not (later_in_earlier).
- C132 Decoding a part of a packet into a used value is equivalent to decoding it into a fresh one: False of the code for every type with optional fields and for sets (reused_wrong). Proved: true for the seven types without optional fields; for the others outcome and error are the same, and the exact difference: fields that are not announced keep the old value, sets grow. Telematic messages: Decode is proto.Unmarshal, which resets the message; the model has no receiver there.
- C133 Fields added by later editions are stepped over: False of the code in two places: the byte behind an altitude is read as a part of it (longer_altitude_wrong), and state data under type code 20 is refused if it has more than five bytes (longer_state_wrong). Proved: all other types with a layout of their own (1, 9, 16 without the case above, 17, 18, 19, 21, 24, 25, 27); for the server all of these, including altitudes, as the altitude is not stored.
- C137 A position passed on again and again stays where it is: False of the code: the position with latitude 3054279064 is one step further south after each of 1433 programs (wander_wrong). Proved: at most n steps after n programs, only towards zero; the time is exact; after finitely many programs it does not move any more, and once one program leaves it unchanged all do. at most 2914 steps (7 m of latitude, 14 m of longitude) however long the chain (wander_bound_partial), because there is a value that every program leaves alone in every 2914. Not proved: the best such bound (by computation over all 2^32 values outside Lean, 1433 is the longest drift).
- C139 What is stored tells what was sent: False of the code: a position in the south-west is stored as the same position in the north-east (tells_wrong). Proved: the stored places tell latitude, longitude (without sign), speed and time, to the last bit, and everything in the north-east; stored levels tell sensor, module, error flag, unit and level of the known units, stored readings all readings, provided every packet has a position (readings of others are lost, C135).
- C141 Bytes in the wrong order are noticed: False of the code for the header: exchanging the bytes of the packet identifier 239 gives the identifier 61184 with the same checksum (swap_unnoticed). Proved: exchanged bytes of the body are always noticed; the checksum of the header misses the exchange of two different bytes exactly if they differ by EF (crc8_swap_iff).

## 4. Properties, plan and method

**C01 Header checksum is CRC-8 with polynomial x^8+x^5+x^4+1** (proved). Loop of `crc8` (Model/Crc) against the remainder in `Polynomial (ZMod 2)` (Spec/CrcSpec): one lemma for a bit step, induction over the bits of a byte and over the bytes; `wordPoly_injective` shows that the polynomial determines the word.

**C02 Body checksum is CRC-16/CCITT-FALSE** (proved). As C01 for `crc16`: initial value 0xFFFF, most significant bit first.

**C03 Checksums detect every short burst of errors** (proved). A burst of at most 16 (8) bits is `X^k * q` with `deg q` below the degree of the generator; X is invertible modulo the generator; induction over the suffix.

**C04 Decoding always terminates** (proved). Nested decoding is modelled with fuel; `diverge` is the outcome when it runs out. The number of non-zero length bytes left decreases with each nesting level; proved that `diverge` is unreachable and that the recursion equations without fuel hold. *The decoders are modelled with fuel; diverge is the result when fuel runs out. Proved unreachable, and the fuel-free recursion equations hold.*

**C05 Decoding never panics** (partial). Slices carry length and capacity; the panics of Go's slicing are an outcome. Case analysis of `Package.decode` gives every panic (`decode_panic_only`). *False of the code (HL inconsistent with the header, decode_panics_header); exact panic conditions in decode_panic_iff, and absence of panics for consistent length fields.*

**C06 Acceptance implies both checksums were verified over the bytes that were decoded** (partial). Case analysis of `Package.decode`; the checksums are taken over the bytes located by Spec/Frame, not by the model. *False of the code when HL differs from the real header length (decode_crc_wrong); proved for packets whose HL is the real header length, and exactly what is accepted for all inputs (decode_accept_iff).*

**C07 A single corrupted byte is always noticed** (partial). C06 and the burst detection of C03. *False of the code for the HL byte (decode_hl_change_accepted; exactly when: hl_change_iff) and for the RTE flag of packets with routing fields (rte_cleared_accepted). Proved for every other byte and bit, and for packets without routing fields that are given alone for every byte but HL (single_byte_alone_partial).*

**C08 A truncated packet is never accepted** (partial). Exact behaviour of the short reads (`bytes.Reader`), C06. *False of the code when the last checksum byte is cut off and is zero (truncated_by_one); proved for all other truncations, as an equivalence in truncated_iff.*

**C09 Bytes after the frame do not influence decoding** (partial). `Package.decode` of `frame ++ rest` reads only the frame; the spare capacity of the slice is universally quantified. *False of the code for frames whose second checksum byte is missing (trailing_matters); proved for all complete frames, as an equivalence in trailing_iff.*

**C10 Result-code contract of Package.Decode** (partial). Case analysis; which code is chosen by which defect. *A body checksum mismatch yields 137, never 138 (decode_never_138); all other parts proved.*

**C11 Header fields come from their specified offsets** (proved). Symbolic execution of the header part; offsets in Spec/Frame.

**C12 Decoding into a reused Package is equivalent to decoding into a fresh one** (partial). Symbolic execution from an arbitrary receiver value; only the fields that are not assigned remain. *False of the code for the routing fields (decode_reuse_stale); proved that they are the only difference.*

**C13 Package round trip** (proved). Composition of encode and decode, `sds_composes`, C01/C02 for the checksums. *Well-formedness excludes the values with defects recorded under C23, C27 and C28; package_composes is the statement for arbitrary bodies.*

**C14 Encoded frame layout** (proved). Unfold `Package.encode`; layout in Spec/Package.

**C15 Encode never silently drops data** (partial). 16-bit arithmetic of the lengths made explicit. *False of the code for bodies of 65536 bytes and more (encode_drops_body); proved below, and what happens above in encode_overflow.*

**C16 Service data set round trip** (proved). Induction over the records; generic lemma: lists of items with a header and a length prefix.

**C17 Record data set round trip** (proved). Induction over the subrecords.

**C18 Omitted subrecord type code is inferred consistently** (partial). Case analysis over the fourteen kinds. *False of the code for dispatcher identity (dispatcher_type_not_inferred); proved for the thirteen other kinds.*

**C19 Length() is the encoded length** (proved). Unfold.

**C20 Navigation time is exact** (proved). float64 as rationals rounded to 53 bits to nearest even (Go/Float); integers below 2^53 are exact; relative error lemma for the fractions of a second.

**C21 Coordinates survive encoding up to the wire resolution** (proved). Two roundings with relative error 2^-53 each; monotonicity of rounding.

**C22 Re-encoding a decoded coordinate gives back the same wire value** (partial). Error analysis: the truncated result is at most one unit below; the witness is evaluated in the kernel. *False of the code: re-encoding can lose one unit (coord_reencode_wrong); proved that it never loses more than one.*

**C23 Position subrecord round trip** (partial). Symbolic execution with bit lemmas for the flag byte and the speed word. *False of the code for the direction when the high course bit is set and bit 7 of Direction is clear (pos_direction_wrong); everything else proved, exact behaviour in pos_behaviour.*

**C24 Course over ground is DIRH*256+DIR** (partial). Wire formula (Spec/Pos) against the decoder; witnesses. *False of the code for every course of 256 and more (direction_wrong); proved for courses below 256, and what is reported for the others.*

**C25 Altitude is the 24-bit wire value** (partial). Four-byte read of a three-byte field: exact value by the bytes that follow. *False of the code when source data follows the altitude (altitude_wrong); proved when the altitude ends the subrecord, and what is reported otherwise.*

**C26 Extended position round trip** (proved). Symbolic execution over all combinations of the presence flags.

**C27 Analog/digital sensor subrecord round trip** (partial). Symbolic execution over the 2^16 flag combinations done symbolically, not by enumeration. *False of the code for asymmetric analog flags (counterexample adsensors_wrong); proved for all flag combinations equal to their reversal, the digital half for all.*

**C28 Counter subrecord: counter i is delivered as counter i** (partial). As C27. *False of the code for counter 2 (counterexample counters_decode_wrong); proved for every subrecord without counter 2.*

**C29 State, absolute counter, absolute analog and liquid-level round trips** (proved). Symbolic execution.

**C30 Identification subrecords round trip** (proved). Symbolic execution; NUL-terminated strings by induction over `ReadBytes`.

**C31 Response sections round trip** (proved). Symbolic execution, C16. *A present but empty record section is indistinguishable on the wire from an absent one (ptresponse_empty_sdr).*

**C32 Server behaviour does not depend on TCP segmentation** (proved). The reading loop over a list of chunks equals a function of the concatenated stream (`handleConn_serve`); induction over fuel and stream.

**C33 Packets on a connection are processed independently and in order** (proved). Invariant: the loop variables that survive a packet do not influence the next one; induction over the frames. *any_packets_independent: for every stream of bytes, cut the way the server cuts it (cut_unique).*

**C34 The server consumes exactly one frame per packet** (partial). Number of bytes read as a function of HL and FDL with 16-bit arithmetic. *False of the code for headers that announce less than 10 or more than 65535 bytes (consumed_wrong, 16-bit arithmetic); proved for all others, and the exact number of bytes taken for every header in consumed_exact.*

**C35 Every accepted data packet gets exactly one positive acknowledgement** (proved). Symbolic execution of the handler, C31/C13 for the decodability of the answer.

**C36 Every rejected packet is answered with its identifier and the decode result code** (proved). As C35 for the error branch; all results of `Package.decode`.

**C37 Acknowledgements are never acknowledged** (proved). Every packet the server writes is decoded by the server itself without an answer. *no_echo: for arbitrary streams, everything one gate sends delivered to another one.*

**C38 All positions of a packet are exported exactly once, in order** (proved). Invariant of the double loop over records and subrecords (induction).

**C39 Exported identity fields** (proved). As C38; the specification (Spec/Server) speaks about the list of all subrecords.

**C40 Exported sensor readings** (proved). As C38.

**C41 Record number assembled from counters 110 and 111** (partial). As C38 for the counters 110 and 111; exact number produced; when it is the right one. *False of the code (record_number_wrong): counters 110 and 111 are combined as big-endian bytes, so the number is right only in the cases of record_number_right_iff.*

**C42 Exported coordinates are signed by hemisphere** (partial). C38 and C21. *False of the code: the hemisphere flags are not applied (hemisphere_ignored); proved for north-eastern positions.*

**C43 A positive acknowledgement means the data was stored** (partial). Interleaving of effects: position of save and acknowledgement in the trace; storages are arbitrary functions of a world state. *False of the code when a storage refuses the record (acked_not_stored); proved for storages that accept, and for all storages that saving is tried before acknowledging.*

**C44 Authorisation result is delivered in a decodable packet** (partial). Symbolic execution of the result packet; decoded with Package.decode. *False of the code: the result is sent in a packet whose type is RESPONSE, which every decoder rejects (auth_result_rejected); proved that the packet is sent, is well framed and carries the right record bytes.*

**C45 Non-EGTS traffic is dropped without reply** (proved). First branch of the reading loop; C33 for later packets.

**C46 No byte stream can crash the server** (partial). `handlePacket` panics only when C05 says so (or in the assertions); all causes enumerated. *crash_iff gives exactly the streams that crash it (with decode_panic_iff). False of the code for header length 0 (crash_header_length_zero) and for frames of 65536 bytes and more (crash_long_frame); crash_cause gives every possible cause of a crash, no_crash_partial the streams that cannot crash it.*

**C47 Connections are isolated** (proved). Interleaving semantics of many connections over a shared store (Model/Gate): invariant that the local state of each connection is that of the connection alone. *For every interleaving at the granularity of single storage calls, writes and packet reads; a panic (C46, C53) ends all connections, crash_has_cause gives its only causes.*

**C48 Idle connections are closed after conn_ttl** (partial). Model with a clock (Model/Timer) over arbitrary arrival times; exact moment of closing. *False of the code: a silent client is never disconnected (idle_never_closed); proved when the peer closes between two packets, with the exact moment.*

**C49 Stop ends the server** (partial). Interleaving semantics with the accept loop and `Stop`. *False of the code: Run never returns and logs an error per iteration (stop_does_not_end_run); proved that no connection is accepted after Stop.*

**C50 Fan-out to storages** (proved). Induction over the list of storages.

**C51 Loading storages from the configuration** (proved). Induction over the configured sections; permutations because Go maps have no order.

**C52 Redis database number defaults to 0** (partial). Unfold `redisInit`; decimal numbers specified by Spec/Numeral. *False of the code: a missing db parameter makes Init fail (redis_db_default_wrong); proved for a db parameter that is present.*

**C53 A failing storage only produces an error** (partial). Unfold each `Save`; drivers are arbitrary functions of a world state. *False of the code for redis, which panics (redis_save_panics); proved for the six other storages.*

**C54 Configuration accessors** (proved). 64-bit arithmetic of durations made explicit; text of host:port.

**C55 packet-gen and the server agree end to end** (proved). Composition of the packet-gen model with the server model.

**C56 packet-gen sends the requested time** (partial). As C55. *False of the code: the time in the packet is a constant (gen_time_ignored); proved exactly for which -time it is the requested one.*

**C57 Shape of the exported JSON** (partial). JSON tree of a record (Model/Json); members. *False of the code: sensor lists of a record without sensors are null, not arrays (json_sensors_null); keys and the other members proved.*

**C58 Checksums detect every odd number of bit errors** (proved). x+1 divides the generators: evaluation at 1.

**C59 Checksums detect every double bit error within their period** (proved). Order of X modulo the generators, by kernel evaluation of the powers at the divisors of the period.

**C60 The documented configuration file sets the connection ttl** (partial). YAML keys as a function from key to value; unmarshalling of the struct by its tags. *False of the code and its documentation: the documented key con_live_sec is not read (sample_config_ttl); proved for the key conn_ttl.*

**C61 From the library to the storage** (proved). C13 with C35, C38.

**C62 packet-gen's exit status tells success from failure** (partial). Model of `main` of packet-gen as a function of its arguments and the network. *False of the code: the exit status is 1 also after success (gen_exit_status, gen_success_status); proved for failures, and that the program ends.*

**C63 packet-gen waits for the answer as documented** (partial). As C62. *False of the code: without -timeout the deadline has already passed (gen_default_timeout); proved for a given timeout.*

**C64 packet-gen reports success only for a confirmed record** (partial). As C62. *False of the code: an answer without confirmations is reported as success (gen_unconfirmed_success) and an answer without record section makes it panic (gen_panics_bare); proved everything else that success implies.*

**C65 packet-gen accepts the answer however it is segmented** (partial). As C62. *False of the code, which reads once (gen_split_answer); proved for answers that arrive at once.*

**C66 Nothing is invented** (proved). Induction over the trace: each action is that of one received packet.

**C67 The exported JSON document determines the record** (partial). Injectivity of the JSON tree and of its text. *False of the code for IMEIs that are not UTF-8 (json_imei_lost); proved for all others.*

**C68 Saved records are well-formed** (proved). C66, calendar arithmetic (Spec/Time gives the meaning of an RFC 3339 text).

**C69 Fields of subrecords are read from their specified offsets** (proved). Symbolic execution; offsets in Spec/SubRecord, Spec/SubWire. *For complete subrecords; the position subrecord is C20-C24, the counters C28.*

**C70 The bytes of every answer** (proved). Symbolic execution; the expected bytes in Spec/Answer. *For packets received alone on a fresh connection; packets_independent gives the same answers at any later point of the stream.*

**C71 Wire grammar of the body** (proved). Grammar of bodies (Spec/Body) as an inductive relation; soundness by induction, uniqueness by parsing.

**C72 Only complete bodies are accepted** (partial). Exact set of accepted bodies by induction. *False of the code: contents and record data cut off by the end of the body are accepted (body_cut_accepted, body_bare_accepted); proved for bodies as long as announced, and by body_decode_iff that only the last subrecord of a record or the last record can be incomplete.*

**C73 Packets that conform to the standard are accepted and served** (proved). C71 for conforming packets (Spec/Conform).

**C74 Exactly the right packets are accepted** (proved). Both directions of acceptance: C06, C10, C71, C72 combined. *Wire forms include the incomplete ones recorded under C72 (Records); frames whose header length field is wrong are C05, C06.*

**C75 PostgreSQL is contacted with the configured parameters** (partial). Connection strings parsed back with the documented libpq grammar (Spec/ConnString). *False of the code: an empty password swallows the TLS mode, blanks break or override settings (three _wrong theorems); proved exactly for which values the text is read as the six settings (pg_settings_iff: not empty, no white space or backslash, no quote at the beginning; the TLS mode may be empty). The driver's reading of the text is a specification (Spec/ConnString).*

**C76 RabbitMQ is contacted with the configured parameters** (partial). As C75 with URIs. *False of the code for passwords with reserved characters (slash, percent); for host names as hosts, amqp_settings_iff gives exactly the users, passwords and ports that arrive.*

**C77 Storages get the records and nothing but the records** (proved). Client libraries that record the calls; induction over the storages. *Client libraries are an arbitrary function from the history of calls to success or failure.*

**C78 Documented storage options are honoured** (partial). Unfold; decimal numbers by Spec/Numeral; 64-bit durations. *False of the code: a nats user without password is ignored, nsq reads `server` where `servers` is documented, tarantool numbers overflow; proved otherwise.*

**C79 A record saved to redis can be consumed later** (partial). Semantics of PUBLISH (Model/StorageCalls). *False of the code: it uses PUBLISH, so without a connected consumer a saved record is lost.*

**C80 Telematic messages are encoded as their schema says** (proved). Generated model of the struct tags (Model/StorageRecord) against a wire relation written from the .proto file (Props/StorageWire), for the protobuf encoder of Go/Protobuf. *StorageRecord.wire is written from the .proto file; the model from the struct tags of the Go code. The protobuf library is modelled (Go/Protobuf).*

**C81 Telematic messages survive encoding and decoding** (proved). Parser inversion for the protobuf wire format: induction over the fields. *For messages without unknown fields; those with unknown fields that came from the wire are C82. nil elements of repeated messages are not modelled.*

**C82 Accepted telematic messages are complete and can be passed on** (proved). As C81, for messages with unknown fields; required fields. *The length bound 2^64 is that of the length varint.*

**C83 Identifiers of terminals survive encoding and decoding** (partial). Symbolic execution; padding. *False of the code: short IMEIs and IMSIs come back with NUL bytes, an IMEI of 16 characters damages the fields after it; exact lengths are C30 (term_roundtrip).*

**C84 Storages get JSON text** (proved). Reader for RFC 8259 (Spec/JsonParse) applied to the produced text; induction over the text. *The reader (Spec/JsonParse) is written against RFC 8259. Assumed of strconv: float64 values are written as JSON numbers (hF) in ASCII that round to the same value (FloatsOk).*

**C85 The whole behaviour of a connection** (proved). Every stream has exactly one cut into packets (strong induction); induction over the packets; `react` in Spec/Stream is stated from Decode's verdict. *react (Spec/Stream) says what one packet causes in terms of what Decode says about it; decode_accept_iff and decode_panic_iff characterise Decode.*

**C86 A client cannot make the server send or store more than it sends itself** (proved). Induction over the packets with the lengths of the answers.

**C87 A packet passed on is unchanged** (partial). Encoder after decoder for each kind, then induction over subrecords and records (relation `SubsBecome`). Content by content the condition is exact (`content_unchanged_iff`): flags are kept, the length of the encoding follows from the flags. *False of the code. Proved for packets whose subrecords are all canonical (Spec/PassOn), identically; with positions, up to LAT/LONG one less (C22). Counterexamples: subrecord with a trailing byte (lengths become wrong), reserved bits lost, empty body.*

**C88 A decoded package can be changed and encoded again** (partial). From C87 and C13; counterexample evaluated. *False of the code: lengths of decoded records are kept by Encode, so a record with an added subrecord is cut and a record nobody sent appears (edit_wrong). Proved: new identifier (renumber_partial); any new body of well-formed records if stale lengths are reset (edit_partial).*

**C89 Encoding a package again gives the same bytes** (proved). Case analysis of Package.Encode, whose model returns the updated receiver.

**C90 The packet of packet-gen, byte by byte** (proved). The encoders run on the package that main builds, with the arguments as variables; the scaled coordinates by the float64 error bounds of C22.

**C91 packet-gen sends the position it is given, in all hemispheres** (partial). Counterexample for every negative coordinate from the bytes of C90; the positive half from the scaled coordinates. *False of the code: the flags LAHS and LOHS are constants of the program, so no southern or western position is sent as such. Proved for northern and eastern ones.*

**C92 Positions are exported under their own object** (partial). From C38 and C39: one record with the object of the last record; exact condition and counterexample. *False of the code: all positions of a packet are saved in one record under the object of the packet's last record. Proved exactly for the packets whose records with positions name that object; false for all others.*

**C93 Acknowledged sensor readings are stored** (partial). From C35, C38 and C40; counterexample with one liquid level. *False of the code: a packet without a position is acknowledged but nothing of it is saved. Proved for packets with a position.*

**C94 Packets sent by the server have different identifiers** (partial). Every answer has the identifier of its packet plus one (bytes of C70), induction over the packets of the stream (C85). *False of the code for every login: acknowledgement and authorisation result have the same identifier. Proved for streams without logins whose packets have different identifiers.*

**C95 A packet that is sent again is not stored twice** (partial). Induction over the copies with the step function of C85. *False of the code: a packet sent n times is stored n times; the theorem gives the exact behaviour (the copies differ only in the time of receipt).*

**C96 Positions without a valid fix are not exported as positions** (partial). The exported record is a function of fields other than VLD: equality of the records for a packet and its invalidated copy. *False of the code: the flag VLD has no influence on what is saved. Proved for packets whose positions are all valid.*

**C97 A client that does not read its answers is released** (partial). Model/Stall: writes succeed while there is room; prefix lemma and the bound of C86; counterexample for every buffer size by induction over the copies of a packet. *False of the code: there is no write deadline, so a client that reads nothing and sends enough packets holds its handler for ever. Proved: what happens before (a prefix of the normal behaviour), and exactly when a handler is held.*

**C98 A client cannot put line breaks or markup into the stored text** (proved). Induction over the escaped text and the structure of the record; result stated as the UTF-8 encoding of harmless characters. *Assumed of strconv: the text of a float64 consists of digits, sign, point and exponent.*

**C99 The receiver starts exactly as configured** (proved). Model/Main: main as a function of file system, environment of the storages and the result of listening; case analysis.

**C100 The server listens at the configured host and port** (partial). Spec/NetAddr: net.SplitHostPort from its documentation; exact condition; counterexample for every host with a colon and without brackets. *False of the code for IPv6 hosts: the address is built without brackets and net.Listen refuses it. The theorem gives the exact condition.*

**C101 The storages in use do not depend on the order in which a map is iterated** (partial). Two orders of one map as permutations; counterexample with one broken storage. *False of the code when a storage cannot be initialised: those initialised before it stay registered. Proved when all can be initialised in every order.*

**C102 From configuration file and bytes to calls of the storages** (proved). Composition of C99, C85 and C83.

**C103 Values that do not fit their wire field are refused by Encode** (partial). From the exact behaviour of C21/C23 (pos_behaviour): equivalence per field; counterexamples for all values out of range. *False of the code: nothing is refused, the value is cut. Proved: each field arrives unchanged exactly if it fits.*

**C104 The log storage prints the record that the other storages get** (proved). Model/JsonIndent: the loop of encoding/json's indent over the compact text; induction over the structure of the text with the reader of C84. *Assumed of strconv: the text of a float64 is a JSON number. Not modelled: how logrus quotes the field of the log line.*

**C105 The JSON form of a package contains the package** (partial). Model/PackageJson: Go values as json.Marshal distinguishes them, and their text. Induction over the values with the reader of C84; document compared with Spec/PackageJson; injectivity of the document type by type. *Proved: the text is JSON and reads as the document (Spec/PackageJson); lossless for packages whose texts are UTF-8 and whose EGTS+ messages are numbered and shown completely (no unknown fields, present byte strings not empty, no negative zero). False in general: bytes that are not UTF-8 are replaced (counterexample). The formatting of floats is that of C109.*

**C106 Every decoded package can be written as JSON** (partial). Exact condition by induction over the values; times of decoded positions are in range; counterexample packet with a NaN. *False of the code: a packet with an EGTS+ message whose fuel level is NaN or infinite is accepted by Decode, ToBytes returns an error. Exact condition proved; holds for packages without such values.*

**C107 Encode writes the flags it is given, or fails** (partial). Spec/Flags: value of binary digits; strconv.ParseUint accepts exactly those; exact condition for each encoder; counterexamples for whole families of values. *Proved for all encoders but SrTermIdentity: exactly the texts that together spell a byte are accepted, that byte is written, and if the texts have 8 digits its bits are these digits. False of the code: SrTermIdentity accepts anything; widths of single flags are not checked, so digits may slip into the next flag, and Encode may write bytes Decode refuses.*

**C108 Telematic messages are read whatever the order of their fields** (proved). Spec/StorageOrder: what a sequence of fields says, with the merge rule of the protobuf documentation. Reading a ++ b is reading a, then b, by induction over the loop; then induction over the sequence. *Rests on the model of the protobuf library (Go/Protobuf), which is not code of the repository.*

**C109 Coordinates and levels are stored exactly** (proved). Model/FloatText: roundShortest of strconv and the two formats of floatEncoder. Spec/FloatText: shortest and closest decimal. The rounding is monotone, values within half a unit of the 17th digit round back, so the loop ends; every decimal with fewer digits misses the interval. *strconv's shortest formatting and floatEncoder of encoding/json are modelled (Model/FloatText) and proved to give the shortest decimal, closest to the value, that rounds back; with this the assumptions on the formatting of floats of C84, C98, C102, C104 and C105 are theorems. The IMEI is read back only if it is UTF-8 (C67).*

**C110 Telematic messages appear in the JSON form under the names of the .proto file** (proved). Spec/StorageJson: one table per message, made from the .proto file, gives number, name and kind of each field; document and wire form are both read off it. Equality of documents by cases over the kinds and induction over repeated fields. *The JSON names and wire numbers are checked against one table made from the .proto file (Spec/StorageJson). Rests on the model of the struct tags of the generated code and of encoding/json (Model/PackageJson).*

**C111 The commands do what is typed** (proved). Model/CmdLine: flag.Parse, ParseInt, ParseFloat; Spec/CmdLine: grammars of integer and floating point literals and of command lines, correct rounding. Equivalence of the loops and the grammars by induction over the text; rounding on the grid of the binade; then C55. *flag.Parse, strconv.ParseInt and strconv.ParseFloat of the Go library are modelled (Model/CmdLine); spelling of numbers, correct rounding (nearest, ties to even, uniquely determined) and command lines are specified independently (Spec/CmdLine). Exponents of floating point literals are restricted to five digits (ParseFloat does not count further, parseFloat_exponent). A surprise that follows the documentation of the flag package: 010 is 8 (leading_zero). Infinity and NaN are accepted as positions; they have no counterpart in the model of float64 and are replaced by arbitrary numbers there.*

**C112 Time stamps on the command line are RFC 3339** (partial). Model/TimeParse: time.Parse for the one layout; Spec/TimeStamp: grammar with parameters for the tolerated deviations, instants by closed formulas of the calendar. Equivalence part by part; counterexamples for the rest. *time.Parse with the layout RFC3339 is modelled (Model/TimeParse) for Go before and since 1.20, and the texts it takes are characterised exactly. False of the code: leap seconds and small letters t and z, which RFC 3339 allows, are refused; one-digit hours, a comma, offsets up to 24:60 (before Go 1.20 any two digits) are taken. What the command then does with the instant: nothing (C56).*

**C113 A storage starts exactly if its options are there and its server lets it connect** (proved). connectorInit over Net.drivers; equivalence with an inductive table of required options (HasNumber through Spec/Numeral), by cases on the kind. *InitSays lists, per kind, the options needed and the call of the client library; init_ok_iff is an equivalence for every Net. tarantool_documented is the section documented in the connector's comment. The defects found about options (redis db default, nsq server/servers, nats user) are C52 and C78.*

**C114 send_egts.py plays a file of packets completely** (partial). Model/SendEgts: universal newlines, readlines, bytes.fromhex, the send/recv loop against handleConn over a stream that is cut by an oracle; Spec/SendEgts: grammar of hexadecimal files. Induction over the packets with the total of the answers (stream_behaviour) as invariant. *Proved for files whose lines are all terminated and whose packets are all answered: everything is sent, the pieces printed are the answers from the beginning (and one answer each on a network that does not cut). False of the script: it waits for ever at a packet the server does not answer (send_hangs, e.g. RESPONSE packets); a last line without line end loses a digit and ends in an exception (send_unterminated); after a login the answers printed may be one behind (send_lags).*

**C115 One subrecord that is not understood does not cost the rest of the packet** (partial). Spec/RawBody: layout of a body without looking at contents. Uniqueness of the layout against the grammar Records by induction over records and subrecords; code 129 through decode_code_choice; connection level by stream_behaviour. *False of the code: a single subrecord that is not understood makes the gate reject the whole packet with code 129, save nothing and confirm no record (one_bad_loses_all, for every such packet; line 17 of the recorded packets is one). Proved: the packet is accepted exactly if every subrecord is understood (raw_accept_iff), and then the contents are found one for one, in order (all_understood_partial). Missing: the rest of a packet with an unsupported subrecord.*

**C116 The work for a packet is proportional to its length** (partial). Model/Work: cost of the iterations the loops of the model actually make. Upper bounds by a potential (nonzero bytes, length) with induction over the depth; lower bound by a family of packets built recursively, its decoding by the grammar Records. *False of the code: a record that announces more data than are sent is filled up with zeros, record responses hold nested service data that are decoded and thrown away, and seven zeros are a record. A packet of 39 bytes makes the decoder read 9363 records and subrecords, one of 65533 bytes 11.8 million (small_packet_large_work, exact count for every k). Proved: at most 65533 per nonzero byte plus one per byte, for every body (work_bounded_partial), and at most one per byte if the length fields tell the truth (work_truthful_partial). The count follows the loops of the model (Model/Work).*

**C117 Every client is served in the end** (proved). Gate model over an infinite schedule Nat -> Event. Well-founded induction over (unread bytes known at time n, actions begun), with a lemma that events of others leave the handler's state alone; ended handlers through every_client_served. *FairTo is the only assumption on the schedule (handler i gets infinitely many turns); everything else, in particular the data and turns of the other connections, is arbitrary. Hypothesis: the process does not die of a panic (the causes are C05, C12, C18; crash_has_cause lists them). A write that blocks because the peer reads nothing is C97.*

**C118 The text of the configuration file** (proved). Spec/Yaml: an inductive grammar of the text of the file with its meaning. Lemmas/YamlRead: a reader, proved equivalent to the grammar, from which uniqueness and the concrete files follow. Props/YamlConfig: the fold of Settings.ofYaml over a document with distinct keys in any order, then receiverMain with the file system and the YAML library as parameters. *The YAML library is a parameter with one hypothesis (Yaml.Conforms): it reads the files of the form of Spec/Yaml as written there. That form is a narrow subset of YAML; a reader that satisfies the hypothesis exists (conforms_exists).*

**C119 What the log tells** (partial). Model/Log: handleConn once more with its log calls; log_harmless ties it to Model/Server. Spec/Log: the log as a function of the packets. Induction over the packets, with the state of the storages; size by counting the subrecords of the grammar Records. *Everything but the last sentence is proved, for any stream, with its cutting into packets given by CutInto. The last sentence is false of the code: readings without a position are acknowledged, dropped and not reported (loss_unreported).*

**C120 Credentials decide, and stay secret** (partial). Spec/Credentials: packets alike up to the contents of logins. The record loops (Model/Server, Model/Log) give equal results on alike records, by induction; then over the packets. Counterexamples: packets with any user name and password, built from the grammar of the standard. *The second sentence is proved as noninterference (credentials_unused: same actions, same end, same log for any two streams whose packets are pairwise equal or alike up to the contents of the logins; login_alike shows that logins with any texts are alike). The first is false of the code: every login is granted, and records are stored with any password and without login.*

**C121 Encode returns, and writes exactly what can be written** (partial). Per kind from C107; induction over subrecords and records for success and for the first panic; invariants of the decoders (flags are set once, from one byte) for the second part. *False of the code: Encode panics on a subrecord with a type code and no content (nil); encode_panic_iff says exactly when. Everything else proved. Bodies and contents of types outside the library (the interface is open) and typed nil pointers are not modelled.*

**C122 What a device has seen confirmed is not lost** (partial). On Model/Gate (all interleavings): Spec/History says what a confirmation is, what a storage keeps and how runs of the process follow each other. Invariants of phases and log under any call of a storage (gate_rule); per connection by isolation (C47) and the behaviour of a stream (C85). *False of the code if a storage may refuse a record (confirmed_but_lost): the confirmation is sent all the same. Proved for storages that accept; without that assumption: the record has been offered before the confirmation (confirmed_was_saved).*

**C123 A bounded number of turns serves a client** (proved). On Model/Gate: a weight of a connection (bytes unread, actions and storages left) that every turn of its handler lowers and no other event raises; then isolation (C47). *A turn is one step of Model/Gate: reading and handling one packet, beginning or ending an action, or one call of a storage. A call of a storage is one turn however long it takes: its duration is not modelled.*

**C124 The getters of a telematic message tell what was sent** (proved). Model/Getters: all getters, written by a script that accepts only the text it models. Spec/Getters: the table of the .proto file, the parts of a message on the wire, the last value of a field. Per message a lawful correspondence of fields, merging and getters; induction over the parts, on top of C108. *getters_tell compares the complete tables of getters (names and values) with what the .proto file and the bytes sent say. The other messages have their own X.getters_nil. Unknown fields are varints, as in C108. The protobuf library is modelled (Go/Protobuf).*

**C125 Reasons of telematic messages by name and number** (partial). Model/Reason: the three tables of the code, EnumName and UnmarshalJSONEnum; json.Unmarshal as a parameter with a specification against the reader of RFC 8259. The tables are compared with that of the .proto file; the rest for all numbers and texts. *The last sentence is false of the code: any whole number is accepted, null makes 0 of the reason, and no data at all lets UnmarshalJSON panic (reason_not_refused); everything else is proved. reason_read_partial says exactly what is read from JSON in ASCII. json.Unmarshal is a parameter with a specification that exReader_reads shows to be satisfiable.*

**C126 Which bytes are a telematic message** (proved). Spec/ProtoGrammar: an inductive grammar of varints, tags, groups, fields and messages, and the meaning of a list of fields. The reader of Go/Protobuf is shown to accept a text exactly if the grammar has it, function by function (varint, tag, skip, loop over the fields, inner messages, packed reasons). *The grammar (Spec/ProtoGrammar) is independent of the model of the protobuf library (Go/Protobuf), which is not code of the repository; the field numbers and types are those of the .proto file (Spec/StorageJson), the model has those of the struct tags. Not modelled: the limit of the library on the nesting of unknown groups.*

**C127 Which bytes are accepted** (proved). Spec/Readable: a mutually inductive grammar of contents, subrecords and records on bytes. Each subrecord decoder is shown to succeed exactly on its contents (Lemmas/Readable, one lemma per kind of read); both inclusions by induction, on the number of non-zero bytes (which bounds the nesting) and on the derivation. Packets by the exact conditions of C06 and C74. *Spec/Readable uses nothing of the model; the telematic contents are those of Spec/ProtoGrammar by telematic_text. packet_readable is for all slices, frame_readable for complete frames with a right header length field.*

**C128 What a connection holds** (partial). Model/Timers: the stretches of time during which a timer of the connection is armed, next to the loop with time; induction over packets. *False of the code: every packet leaves a timer behind that is never stopped and runs for conn_ttl (timers_pile_up: n packets at once, n + 1 timers). Proved: the buffer is at most 65545 bytes; never more timers than one per ten bytes sent plus one; their exact number; none after ttl of silence.*

**C129 All storages hold the same records** (partial). Spec/Agree: storages that write down what they accept and may answer anything; merging of lists. Invariant of Model/Gate over all histories: what storage k has from connection i is what was reported as saved, plus records cut off by a refusal, plus the record in hand as far as storage k has been asked. Counterexamples: a schedule in which two handlers cross between two storages; a refusing storage. *False of the code in two ways: two storages may hold the records of different connections in different orders (order_differs), and a storage that refuses a record keeps it from the storages behind it in the configuration (refusal_differs, refusal_starves). Proved: the first sentence (storages_hold, for any answers of the storages and at any moment); with storages that accept everything, the same records, each the same number of times (storages_same_partial, storages_perm_partial); for any answers, a later storage has nothing that an earlier one has not (later_in_earlier).*

**C130 A stored position can be sent again** (proved). Every JSON number (reader of Spec/JsonParse) is a floating-point literal of Go (grammar of Spec/CmdLine) with the same value; for the texts of Model/FloatText the exponent is bounded by the size of the number; then the shortest decimal is rounded back to the number (C109, C111). End to end with the model of packet-gen and of the server. *replay_documented meets the hypotheses of replay for every stored position. The step of the wire format is lost because Encode truncates (C22); the southern and western hemispheres are not in the records (C42).*

**C131 The error names the fault** (proved). Spec/Fault: inductive grammar of the first fault of a body, Spec/Rejected: of a packet. Errors of the straight-line decoders are all `eof` (a property closed under sequencing); induction on the number of nonzero bytes (depth) and on the length, both directions, as for C127. *The faults are a grammar on the bytes (Spec/Fault, Spec/Rejected), both directions. The remaining outcome of Package.Decode, a panic, is C05. Texts of errors are modelled as classes; the two that quote the input carry what is quoted.*

**C132 Decoding a part of a packet into a used value is equivalent to decoding it into a fresh one** (partial). Spec/Reuse: `SameBut keep used fresh` and, per type, the fields that stay. Two runs of a decoder in lockstep, the receiver of one a function of the other, which is carried through the program (LS). *False of the code for every type with optional fields and for sets (reused_wrong). Proved: true for the seven types without optional fields; for the others outcome and error are the same, and the exact difference: fields that are not announced keep the old value, sets grow. Telematic messages: Decode is proto.Unmarshal, which resets the message; the model has no receiver there.*

**C133 Fields added by later editions are stepped over** (partial). Spec/Longer: the length of the known fields per type, and two bodies side by side that differ in what follows them. A decoder that finds all announced bytes does the same with more bytes behind them (Ext, carried through the programs); records by induction; the answers of the server depend on the data alone. *False of the code in two places: the byte behind an altitude is read as a part of it (longer_altitude_wrong), and state data under type code 20 is refused if it has more than five bytes (longer_state_wrong). Proved: all other types with a layout of their own (1, 9, 16 without the case above, 17, 18, 19, 21, 24, 25, 27); for the server all of these, including altitudes, as the altitude is not stored.*

**C134 Nothing else in a packet matters** (proved). Spec/Influence: records that are alike. The reaction to a packet (C85) as a function of identifier and records; equal on alike records, component by component. *Relational: two streams that agree packet by packet in what matters (Spec/Influence) give equal saves, answers and endings. alike_example meets the hypothesis.*

**C135 How a device batches its records does not matter** (partial). Spec/Batch: data packets with their records, packet by packet. The closed form of a connection (C85, C90) folded over the packets; places and confirmations depend on the concatenation of the records only; counterexample for readings outside a packet with a position (C93). *Proved: the same places in the same order and the same confirmed record numbers, for every distribution of the records over packets; the same liquid levels and analog readings if every packet has a position. False in general: a liquid level in a packet of its own is confirmed and lost (batching_wrong), see C93.*

**C136 A packet is answered when its last byte is there, not before, and nothing is taken back** (proved). Two runs of Model/Server over streams of which one continues the other, with different ends and environments; packets as in Spec/Stream (C85). The cut of the longer stream begins with that of the shorter one; induction on it. *The order of actions, not their time on a clock: the model has no duration of a step. Packets are those the server cuts out of a stream (Taken, Spec/Stream), among them all complete frames of 10 to 65535 bytes. The reaction ends early if the process crashes (C46). last_byte meets the hypotheses. That the actions come before the next read returns is the loop of Model/Server and, for several connections, Model/Gate (C117, C123).*

**C137 A position passed on again and again stays where it is** (partial). Spec/Wander: the inductive relation `c` is `b` after n programs. The coordinates after n programs are n iterations of one function on wire values (Model/SrPosData, IEEE rounding of Go/Float), which never increases and decreases by at most one (C22). Counterexample: 1433 values in a row that all lose one, evaluated by the kernel. Bound independent of n (Props/WanderBound): values floor(k*(2^32-1)/1474560) are fixed, because 90*w/(2^32-1) then lies just below a representable number (error analysis of the three roundings); below 3000000 the multiples of 2048, by evaluation; the chain moves by one at a time and cannot pass a fixed value. *False of the code: the position with latitude 3054279064 is one step further south after each of 1433 programs (wander_wrong). Proved: at most n steps after n programs, only towards zero; the time is exact; after finitely many programs it does not move any more, and once one program leaves it unchanged all do. at most 2914 steps (7 m of latitude, 14 m of longitude) however long the chain (wander_bound_partial), because there is a value that every program leaves alone in every 2914. Not proved: the best such bound (by computation over all 2^32 values outside Lean, 1433 is the longest drift).*

**C138 The outcome depends on the received bytes alone** (partial). Two runs of Model/Server with different environments (clock, bytes between length and capacity). The slices that Package.Decode takes stay inside the packet if it is as long as it announces; the reaction (C85) uses the clock in ReceivedDt only. *The clock: proved. Memory: proved for streams in which no packet announces a header of no bytes or more than 65535 bytes in all; false for others (memory_matters): Decode slices up to the capacity, so such a packet crashes the process or is answered. Go does not say what the capacity of an appended slice is; that the present runtime clears the bytes behind it is not used.*

**C139 What is stored tells what was sent** (partial). Converse of C134, over the same runs as C135 (Spec/Batch: packets that carry records): the maps from decoded data to stored data (Model/Server) are injective: RFC 3339 texts (Model/TimeParse, C68) are different for different instants, tenths of litres (IEEE division) for different levels. Counterexample: the hemisphere flags are not stored. *False of the code: a position in the south-west is stored as the same position in the north-east (tells_wrong). Proved: the stored places tell latitude, longitude (without sign), speed and time, to the last bit, and everything in the north-east; stored levels tell sensor, module, error flag, unit and level of the known units, stored readings all readings, provided every packet has a position (readings of others are lost, C135).*

**C140 A device can continue after a break** (proved). Two connections (Model/Server) of which the first gets a prefix of the stream: such a prefix is a number of complete packets and an incomplete one (broken_at); answers confirm the records of the complete packets in order (as in C135), so the packet continued with is not behind the last complete one, by counting record numbers. Any number of breaks: the inductive relation Continued (Spec/Resume), by induction over it. *Stored means handed to the storages (what they do with it is C43, C53). Data packets without record responses; levels and readings as in C135.*

**C141 Bytes in the wrong order are noticed** (partial). Body: two neighbouring bytes are a window of 16 bits, C03, and Decode compares the checksum of the bytes it has decoded (C06). Header: CRC-8 is linear over GF(2) in the register; one step is a linear bijection T, and the exchange is missed iff T d = d for the difference d, which holds for 0 and EF only. Counterexample: packets 239 and 61184. *False of the code for the header: exchanging the bytes of the packet identifier 239 gives the identifier 61184 with the same checksum (swap_unnoticed). Proved: exchanged bytes of the body are always noticed; the checksum of the header misses the exchange of two different bytes exactly if they differ by EF (crc8_swap_iff).*

## 5. Tests of the theorems

`seeded/LOG.jsonl`: one line per wrong program. Each edit was made in a scratch copy, the whole project rebuilt. A theorem counts as failing only
if its statement is false of the edit (`claim_theorems_false_of_edit`, judged by hand), not merely because a proof broke; where no statement was
false, theorems were added or tightened (`theorems_tightened`). Edits that survive because no claim is false of them say so. Lines with an id `aNNNN` are
mutations made by a script (an operator, a constant, a comparison, a branch or a string of a model definition replaced; the modules rebuilt up to
the first failure): they name the first theorem that failed, and were judged one by one only if nothing failed. Every survivor is either rejected
by now (`theorems_tightened`) or does not change the observable behaviour (`note`).
