plan.update({
'C01': "Loop of `crc8` (Model/Crc) against the remainder in `Polynomial (ZMod 2)` (Spec/CrcSpec): one lemma for a bit step, induction over the bits of a byte and over the bytes; `wordPoly_injective` shows that the polynomial determines the word.",
'C02': "As C01 for `crc16`: initial value 0xFFFF, most significant bit first.",
'C03': "A burst of at most 16 (8) bits is `X^k * q` with `deg q` below the degree of the generator; X is invertible modulo the generator; induction over the suffix.",
'C04': "Nested decoding is modelled with fuel; `diverge` is the outcome when it runs out. The number of non-zero length bytes left decreases with each nesting level; proved that `diverge` is unreachable and that the recursion equations without fuel hold.",
'C05': "Slices carry length and capacity; the panics of Go's slicing are an outcome. Case analysis of `Package.decode` gives every panic (`decode_panic_only`).",
'C06': "Case analysis of `Package.decode`; the checksums are taken over the bytes located by Spec/Frame, not by the model.",
'C07': "C06 and the burst detection of C03.",
'C08': "Exact behaviour of the short reads (`bytes.Reader`), C06.",
'C09': "`Package.decode` of `frame ++ rest` reads only the frame; the spare capacity of the slice is universally quantified.",
'C10': "Case analysis; which code is chosen by which defect.",
'C11': "Symbolic execution of the header part; offsets in Spec/Frame.",
'C12': "Symbolic execution from an arbitrary receiver value; only the fields that are not assigned remain.",
'C13': "Composition of encode and decode, `sds_composes`, C01/C02 for the checksums.",
'C14': "Unfold `Package.encode`; layout in Spec/Package.",
'C15': "16-bit arithmetic of the lengths made explicit.",
'C16': "Induction over the records; generic lemma: lists of items with a header and a length prefix.",
'C17': "Induction over the subrecords.",
'C18': "Case analysis over the fourteen kinds.",
'C19': "Unfold.",
'C20': "float64 as rationals rounded to 53 bits to nearest even (Go/Float); integers below 2^53 are exact; relative error lemma for the fractions of a second.",
'C21': "Two roundings with relative error 2^-53 each; monotonicity of rounding.",
'C22': "Error analysis: the truncated result is at most one unit below; the witness is evaluated in the kernel.",
'C23': "Symbolic execution with bit lemmas for the flag byte and the speed word.",
'C24': "Wire formula (Spec/Pos) against the decoder; witnesses.",
'C25': "Four-byte read of a three-byte field: exact value by the bytes that follow.",
'C26': "Symbolic execution over all combinations of the presence flags.",
'C27': "Symbolic execution over the 2^16 flag combinations done symbolically, not by enumeration.",
'C28': "As C27.",
'C29': "Symbolic execution.",
'C30': "Symbolic execution; NUL-terminated strings by induction over `ReadBytes`.",
'C31': "Symbolic execution, C16.",
'C32': "The reading loop over a list of chunks equals a function of the concatenated stream (`handleConn_serve`); induction over fuel and stream.",
'C33': "Invariant: the loop variables that survive a packet do not influence the next one; induction over the frames.",
'C34': "Number of bytes read as a function of HL and FDL with 16-bit arithmetic.",
'C35': "Symbolic execution of the handler, C31/C13 for the decodability of the answer.",
'C36': "As C35 for the error branch; all results of `Package.decode`.",
'C37': "Every packet the server writes is decoded by the server itself without an answer.",
'C38': "Invariant of the double loop over records and subrecords (induction).",
'C39': "As C38; the specification (Spec/Server) speaks about the list of all subrecords.",
'C40': "As C38.",
'C41': "As C38 for the counters 110 and 111; exact number produced; when it is the right one.",
'C42': "C38 and C21.",
'C43': "Interleaving of effects: position of save and acknowledgement in the trace; storages are arbitrary functions of a world state.",
'C44': "Symbolic execution of the result packet; decoded with Package.decode.",
'C45': "First branch of the reading loop; C33 for later packets.",
'C46': "`handlePacket` panics only when C05 says so (or in the assertions); all causes enumerated.",
'C47': "Interleaving semantics of many connections over a shared store (Model/Gate): invariant that the local state of each connection is that of the connection alone.",
'C48': "Model with a clock (Model/Timer) over arbitrary arrival times; exact moment of closing.",
'C49': "Interleaving semantics with the accept loop and `Stop`.",
'C50': "Induction over the list of storages.",
'C51': "Induction over the configured sections; permutations because Go maps have no order.",
'C52': "Unfold `redisInit`; decimal numbers specified by Spec/Numeral.",
'C53': "Unfold each `Save`; drivers are arbitrary functions of a world state.",
'C54': "64-bit arithmetic of durations made explicit; text of host:port.",
'C55': "Composition of the packet-gen model with the server model.",
'C56': "As C55.",
'C57': "JSON tree of a record (Model/Json); members.",
'C58': "x+1 divides the generators: evaluation at 1.",
'C59': "Order of X modulo the generators, by kernel evaluation of the powers at the divisors of the period.",
'C60': "YAML keys as a function from key to value; unmarshalling of the struct by its tags.",
'C61': "C13 with C35, C38.",
'C62': "Model of `main` of packet-gen as a function of its arguments and the network.",
'C63': "As C62.",
'C64': "As C62.",
'C65': "As C62.",
'C66': "Induction over the trace: each action is that of one received packet.",
'C67': "Injectivity of the JSON tree and of its text.",
'C68': "C66, calendar arithmetic (Spec/Time gives the meaning of an RFC 3339 text).",
'C69': "Symbolic execution; offsets in Spec/SubRecord, Spec/SubWire.",
'C70': "Symbolic execution; the expected bytes in Spec/Answer.",
'C71': "Grammar of bodies (Spec/Body) as an inductive relation; soundness by induction, uniqueness by parsing.",
'C72': "Exact set of accepted bodies by induction.",
'C73': "C71 for conforming packets (Spec/Conform).",
'C74': "Both directions of acceptance: C06, C10, C71, C72 combined.",
'C75': "Connection strings parsed back with the documented libpq grammar (Spec/ConnString).",
'C76': "As C75 with URIs.",
'C77': "Client libraries that record the calls; induction over the storages.",
'C78': "Unfold; decimal numbers by Spec/Numeral; 64-bit durations.",
'C79': "Semantics of PUBLISH (Model/StorageCalls).",
'C80': "Generated model of the struct tags (Model/StorageRecord) against a wire relation written from the .proto file (Props/StorageWire), for the protobuf encoder of Go/Protobuf.",
'C81': "Parser inversion for the protobuf wire format: induction over the fields.",
'C82': "As C81, for messages with unknown fields; required fields.",
'C83': "Symbolic execution; padding.",
'C84': "Reader for RFC 8259 (Spec/JsonParse) applied to the produced text; induction over the text.",
'C85': "Every stream has exactly one cut into packets (strong induction); induction over the packets; `react` in Spec/Stream is stated from Decode's verdict.",
'C86': "Induction over the packets with the lengths of the answers.",
'C87': "Encoder after decoder for each kind, then induction over subrecords and records (relation `SubsBecome`). Content by content the condition is exact (`content_unchanged_iff`): flags are kept, the length of the encoding follows from the flags.",
'C88': "From C87 and C13; counterexample evaluated.",
'C89': "Case analysis of Package.Encode, whose model returns the updated receiver.",
'C90': "The encoders run on the package that main builds, with the arguments as variables; the scaled coordinates by the float64 error bounds of C22.",
'C91': "Counterexample for every negative coordinate from the bytes of C90; the positive half from the scaled coordinates.",
'C92': "From C38 and C39: one record with the object of the last record; exact condition and counterexample.",
'C93': "From C35, C38 and C40; counterexample with one liquid level.",
'C94': "Every answer has the identifier of its packet plus one (bytes of C70), induction over the packets of the stream (C85).",
'C95': "Induction over the copies with the step function of C85.",
'C96': "The exported record is a function of fields other than VLD: equality of the records for a packet and its invalidated copy.",
'C97': "Model/Stall: writes succeed while there is room; prefix lemma and the bound of C86; counterexample for every buffer size by induction over the copies of a packet.",
'C98': "Induction over the escaped text and the structure of the record; result stated as the UTF-8 encoding of harmless characters.",
'C99': "Model/Main: main as a function of file system, environment of the storages and the result of listening; case analysis.",
'C100': "Spec/NetAddr: net.SplitHostPort from its documentation; exact condition; counterexample for every host with a colon and without brackets.",
'C101': "Two orders of one map as permutations; counterexample with one broken storage.",
'C102': "Composition of C99, C85 and C83.",
'C103': "From the exact behaviour of C21/C23 (pos_behaviour): equivalence per field; counterexamples for all values out of range.",
'C104': "Model/JsonIndent: the loop of encoding/json's indent over the compact text; induction over the structure of the text with the reader of C84.",
 'C105': "Model/PackageJson: Go values as json.Marshal distinguishes them, and their text. Induction over the values with the reader of C84; document compared with Spec/PackageJson; injectivity of the document type by type.",
'C106': "Exact condition by induction over the values; times of decoded positions are in range; counterexample packet with a NaN.",
'C107': "Spec/Flags: value of binary digits; strconv.ParseUint accepts exactly those; exact condition for each encoder; counterexamples for whole families of values.",
'C108': "Spec/StorageOrder: what a sequence of fields says, with the merge rule of the protobuf documentation. Reading a ++ b is reading a, then b, by induction over the loop; then induction over the sequence.",
'C109': "Model/FloatText: roundShortest of strconv and the two formats of floatEncoder. Spec/FloatText: shortest and closest decimal. The rounding is monotone, values within half a unit of the 17th digit round back, so the loop ends; every decimal with fewer digits misses the interval.",
'C110': "Spec/StorageJson: one table per message, made from the .proto file, gives number, name and kind of each field; document and wire form are both read off it. Equality of documents by cases over the kinds and induction over repeated fields.",
'C111': "Model/CmdLine: flag.Parse, ParseInt, ParseFloat; Spec/CmdLine: grammars of integer and floating point literals and of command lines, correct rounding. Equivalence of the loops and the grammars by induction over the text; rounding on the grid of the binade; then C55.",
'C112': "Model/TimeParse: time.Parse for the one layout; Spec/TimeStamp: grammar with parameters for the tolerated deviations, instants by closed formulas of the calendar. Equivalence part by part; counterexamples for the rest.",
    'C113': "connectorInit over Net.drivers; equivalence with an inductive table of required options (HasNumber through Spec/Numeral), by cases on the kind.",
    'C114': "Model/SendEgts: universal newlines, readlines, bytes.fromhex, the send/recv loop against handleConn over a stream that is cut by an oracle; Spec/SendEgts: grammar of hexadecimal files. Induction over the packets with the total of the answers (stream_behaviour) as invariant.",
    'C115': "Spec/RawBody: layout of a body without looking at contents. Uniqueness of the layout against the grammar Records by induction over records and subrecords; code 129 through decode_code_choice; connection level by stream_behaviour.",
    'C116': "Model/Work: cost of the iterations the loops of the model actually make. Upper bounds by a potential (nonzero bytes, length) with induction over the depth; lower bound by a family of packets built recursively, its decoding by the grammar Records.",
    'C117': "Gate model over an infinite schedule Nat -> Event. Well-founded induction over (unread bytes known at time n, actions begun), with a lemma that events of others leave the handler's state alone; ended handlers through every_client_served.",
'C118': "Spec/Yaml: an inductive grammar of the text of the file with its meaning. Lemmas/YamlRead: a reader, proved equivalent to the grammar, from which uniqueness and the concrete files follow. Props/YamlConfig: the fold of Settings.ofYaml over a document with distinct keys in any order, then receiverMain with the file system and the YAML library as parameters.",
'C119': "Model/Log: handleConn once more with its log calls; log_harmless ties it to Model/Server. Spec/Log: the log as a function of the packets. Induction over the packets, with the state of the storages; size by counting the subrecords of the grammar Records.",
'C120': "Spec/Credentials: packets alike up to the contents of logins. The record loops (Model/Server, Model/Log) give equal results on alike records, by induction; then over the packets. Counterexamples: packets with any user name and password, built from the grammar of the standard.",
 'C121': "Per kind from C107; induction over subrecords and records for success and for the first panic; invariants of the decoders (flags are set once, from one byte) for the second part.",
 'C122': "On Model/Gate (all interleavings): Spec/History says what a confirmation is, what a storage keeps and how runs of the process follow each other. Invariants of phases and log under any call of a storage (gate_rule); per connection by isolation (C47) and the behaviour of a stream (C85).",
 'C123': "On Model/Gate: a weight of a connection (bytes unread, actions and storages left) that every turn of its handler lowers and no other event raises; then isolation (C47).",
 'C124': "Model/Getters: all getters, written by a script that accepts only the text it models. Spec/Getters: the table of the .proto file, the parts of a message on the wire, the last value of a field. Per message a lawful correspondence of fields, merging and getters; induction over the parts, on top of C108.",
 'C125': "Model/Reason: the three tables of the code, EnumName and UnmarshalJSONEnum; json.Unmarshal as a parameter with a specification against the reader of RFC 8259. The tables are compared with that of the .proto file; the rest for all numbers and texts.",
 'C126': "Spec/ProtoGrammar: an inductive grammar of varints, tags, groups, fields and messages, and the meaning of a list of fields. The reader of Go/Protobuf is shown to accept a text exactly if the grammar has it, function by function (varint, tag, skip, loop over the fields, inner messages, packed reasons).",
 'C127': "Spec/Readable: a mutually inductive grammar of contents, subrecords and records on bytes. Each subrecord decoder is shown to succeed exactly on its contents (Lemmas/Readable, one lemma per kind of read); both inclusions by induction, on the number of non-zero bytes (which bounds the nesting) and on the derivation. Packets by the exact conditions of C06 and C74.",
'C128': "Model/Timers: the stretches of time during which a timer of the connection is armed, next to the loop with time; induction over packets.",
 'C129': "Spec/Agree: storages that write down what they accept and may answer anything; merging of lists. Invariant of Model/Gate over all histories: what storage k has from connection i is what was reported as saved, plus records cut off by a refusal, plus the record in hand as far as storage k has been asked. Counterexamples: a schedule in which two handlers cross between two storages; a refusing storage.",
 'C130': "Every JSON number (reader of Spec/JsonParse) is a floating-point literal of Go (grammar of Spec/CmdLine) with the same value; for the texts of Model/FloatText the exponent is bounded by the size of the number; then the shortest decimal is rounded back to the number (C109, C111). End to end with the model of packet-gen and of the server.",
 'C131': "Spec/Fault: inductive grammar of the first fault of a body, Spec/Rejected: of a packet. Errors of the straight-line decoders are all `eof` (a property closed under sequencing); induction on the number of nonzero bytes (depth) and on the length, both directions, as for C127.",
 'C132': "Spec/Reuse: `SameBut keep used fresh` and, per type, the fields that stay. Two runs of a decoder in lockstep, the receiver of one a function of the other, which is carried through the program (LS).",
 'C133': "Spec/Longer: the length of the known fields per type, and two bodies side by side that differ in what follows them. A decoder that finds all announced bytes does the same with more bytes behind them (Ext, carried through the programs); records by induction; the answers of the server depend on the data alone.",
 'C134': "Spec/Influence: records that are alike. The reaction to a packet (C85) as a function of identifier and records; equal on alike records, component by component.",
 'C135': "Spec/Batch: data packets with their records, packet by packet. The closed form of a connection (C85, C90) folded over the packets; places and confirmations depend on the concatenation of the records only; counterexample for readings outside a packet with a position (C93).",
 'C136': "Two runs of Model/Server over streams of which one continues the other, with different ends and environments; packets as in Spec/Stream (C85). The cut of the longer stream begins with that of the shorter one; induction on it.",
 'C137': "Spec/Wander: the inductive relation `c` is `b` after n programs. The coordinates after n programs are n iterations of one function on wire values (Model/SrPosData, IEEE rounding of Go/Float), which never increases and decreases by at most one (C22). Counterexample: 1433 values in a row that all lose one, evaluated by the kernel. Bound independent of n (Props/WanderBound): values floor(k*(2^32-1)/1474560) are fixed, because 90*w/(2^32-1) then lies just below a representable number (error analysis of the three roundings); below 3000000 the multiples of 2048, by evaluation; the chain moves by one at a time and cannot pass a fixed value.",
 'C138': "Two runs of Model/Server with different environments (clock, bytes between length and capacity). The slices that Package.Decode takes stay inside the packet if it is as long as it announces; the reaction (C85) uses the clock in ReceivedDt only.",
 'C139': "Converse of C134, over the same runs as C135 (Spec/Batch: packets that carry records): the maps from decoded data to stored data (Model/Server) are injective: RFC 3339 texts (Model/TimeParse, C68) are different for different instants, tenths of litres (IEEE division) for different levels. Counterexample: the hemisphere flags are not stored.",
 'C140': "Two connections (Model/Server) of which the first gets a prefix of the stream: such a prefix is a number of complete packets and an incomplete one (broken_at); answers confirm the records of the complete packets in order (as in C135), so the packet continued with is not behind the last complete one, by counting record numbers. Any number of breaks: the inductive relation Continued (Spec/Resume), by induction over it.",
 'C141': "Body: two neighbouring bytes are a window of 16 bits, C03, and Decode compares the checksum of the bytes it has decoded (C06). Header: CRC-8 is linear over GF(2) in the register; one step is a linear bijection T, and the exchange is missed iff T d = d for the difference d, which holds for 0 and EF only. Counterexample: packets 239 and 61184.",
})
