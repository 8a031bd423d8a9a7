import json
P=[]
def p(title, statement, quantifier, why, anchors):
    P.append(dict(id="C%02d"%(len(P)+1),title=title,statement=statement,quantifier=quantifier,why_tests_cant=why,anchors=anchors))
E="libs/egts/"
S="cli/receiver/server/server.go"
p("Header checksum is CRC-8 with polynomial x^8+x^5+x^4+1",
  "For every byte string, the header checksum the library computes is the remainder of (message * x^8, with the first 8 bits complemented) on division by x^8+x^5+x^4+1 over GF(2).",
  "all byte strings of all lengths","tests check one 9-byte vector; the claim is about every string of every length",
  [E+"crc.go:crc8"])
p("Body checksum is CRC-16/CCITT-FALSE",
  "For every byte string, the body checksum the library computes is the remainder of (message * x^16, with the first 16 bits complemented) on division by x^16+x^12+x^5+1 over GF(2).",
  "all byte strings of all lengths","tests check one 9-byte vector",
  [E+"crc.go:crc16"])
p("Checksums detect every short burst of errors",
  "Two byte strings of equal length that differ only inside one window of at most 16 consecutive bits never have the same body checksum; likewise a window of at most 8 bits and the header checksum.",
  "all pairs of byte strings, all windows","the pairs and window positions are unbounded in number",
  [E+"crc.go:crc8",E+"crc.go:crc16"])
p("Decoding always terminates",
  "Package.Decode (and the decoders of every section, including record responses that themselves contain nested service data) returns after finitely many steps for every byte string.",
  "all byte strings","record-response decoding recurses into its own tail and declared lengths may exceed the available bytes, so termination needs an argument over every input",
  [E+"egts_sr_response.go:Decode",E+"service_data_records.go:Decode",E+"record_data.go:Decode",E+"egts_pkg.go:Decode"])
p("Decoding never panics",
  "For every byte string Package.Decode returns a result code and never raises a run-time panic.",
  "all byte strings (and all spare capacities of the slice passed in)","requires all header length / data length combinations",
  [E+"egts_pkg.go:Decode"])
p("Acceptance implies both checksums were verified over the bytes that were decoded",
  "If Package.Decode succeeds then the header checksum byte of the packet equals CRC-8 of the header bytes before it, and the trailing two bytes equal CRC-16 of exactly the bytes that were decoded as the body.",
  "all byte strings accepted by Decode","quantifies over all accepted inputs, not the handful in the test-suite",
  [E+"egts_pkg.go:Decode"])
p("A single corrupted byte is always noticed",
  "If a packet is accepted by Package.Decode, then the same packet with any one byte changed (anywhere in the frame) is not accepted.",
  "all accepted packets, all positions, all replacement bytes","needs all packets times all positions times 255 values",
  [E+"egts_pkg.go:Decode",E+"crc.go"])
p("A truncated packet is never accepted",
  "If Package.Decode accepts a frame, it accepts no proper prefix of this frame (and does not panic on one).",
  "all accepted frames, all cut points","needs all packets and all cut points",
  [E+"egts_pkg.go:Decode"])
p("Bytes after the frame do not influence decoding",
  "If Package.Decode accepts a byte string, then appending any bytes leaves the decoded package and the result unchanged.",
  "all accepted packets, all suffixes","unbounded suffixes",
  [E+"egts_pkg.go:Decode"])
p("Result-code contract of Package.Decode",
  "Decode returns code 0 exactly when it returns no error; a failing Decode returns 131 for an incomplete header, 137 for a header-checksum mismatch, 132 for a missing body, 133 for a packet type other than APPDATA/RESPONSE, 129 for an undecodable body, and 138 for a body-checksum mismatch; no other code is ever returned.",
  "all byte strings","must hold for all inputs on every error path",
  [E+"egts_pkg.go:Decode",E+"errors.go"])
p("Header fields come from their specified offsets",
  "For every byte string whose header is complete, the decoded package reports PRV, SKID, the PRF/RTE/ENA/CMP/PR bit groups, HL, HE, FDL, PID, PT and (when RTE=1) PRA, RCA, TTL from their wire offsets, multi-byte values little-endian.",
  "all accepted byte strings, with and without routing fields","all header values",
  [E+"egts_pkg.go:Decode"])
p("Decoding into a reused Package is equivalent to decoding into a fresh one",
  "Decoding a packet into a Package that was already used for another packet gives the same package as decoding into an empty Package; in particular records never accumulate and no stale field of the earlier packet is visible.",
  "all previous package states and all accepted packets","all histories of reuse",
  [E+"egts_pkg.go:Decode",E+"service_data_records.go:Decode",E+"record_data.go:Decode"])
p("Package round trip",
  "For every well-formed package (flag fields of their specified width, consistent lengths, APPDATA with at least one record or RESPONSE, any number of records, any number of subrecords of every supported kind each of which survives its own Encode and Decode), Decode(Encode(p)) succeeds with code 0 and yields p with its derived fields (lengths, type codes, checksums) filled in.",
  "all well-formed packages of all sizes","unbounded nesting and sizes; tests use four fixed packets",
  [E+"egts_pkg.go:Encode",E+"egts_pkg.go:Decode"])
p("Encoded frame layout",
  "Whenever Package.Encode succeeds with a body shorter than 65536 bytes, the output is header | HCS | body | SFRCS where FDL is the body length, HCS is CRC-8 of the preceding header bytes, SFRCS is CRC-16 of the body (little-endian), and no SFRCS is present when the body is empty.",
  "all packages for which Encode succeeds","all packages",
  [E+"egts_pkg.go:Encode"])
p("Encode never silently drops data",
  "Whenever Package.Encode succeeds, every byte of the encoded body is in the output and is covered by the declared frame length.",
  "all packages, including bodies of 64 KiB and more","size-dependent; needs unbounded sizes",
  [E+"egts_pkg.go:Encode"])
p("Service data set round trip",
  "For every list of well-formed service data records (any number, every combination of optional object id / event id / time fields, subrecords that survive their own Encode and Decode), decoding its encoding yields the same records with record lengths filled in.",
  "all lists of well-formed records","unbounded lists and all flag combinations",
  [E+"service_data_records.go:Encode",E+"service_data_records.go:Decode"])
p("Record data set round trip",
  "For every list of subrecords each of which survives when encoded and decoded alone, decoding the encoding of the list yields the same subrecords in order with type codes and lengths filled in; the subrecords that survive alone include every kind with all values that fit the wire format, up to the defects listed under the property of that kind.",
  "all lists of well-formed subrecords of every supported type","unbounded lists",
  [E+"record_data.go:Encode",E+"record_data.go:Decode"])
p("Omitted subrecord type code is inferred consistently",
  "For every supported subrecord kind, encoding a subrecord whose type code is left 0 writes the type code under which Decode reconstructs the same kind.",
  "all supported subrecord kinds and all their values","must hold for every value of every kind",
  [E+"record_data.go:Encode",E+"const_types.go"])
p("Length() is the encoded length",
  "For every section value, Length() equals the number of bytes Encode() produces when that is below 65536, and 0 when Encode() fails.",
  "all section values of all kinds","all values",
  [E+"binary_data.go",E+"record_data.go:Length",E+"service_data_records.go:Length",E+"egts_pt_response.go:Length"])
p("Navigation time is exact",
  "For every 32-bit navigation time n, a decoded position reports the instant 2010-01-01T00:00:00Z + n seconds, and encoding that instant writes n again; an instant between two seconds is written as the second before it (up to half a microsecond of rounding).",
  "all 2^32 time values","2^32 values and floating-point seconds conversion",
  [E+"egts_sr_pos_data.go:Decode",E+"egts_sr_pos_data.go:Encode"])
p("Coordinates survive encoding up to the wire resolution",
  "For every latitude in [0,90] (longitude in [0,180]) the decoded coordinate differs from the encoded one by at most one wire unit plus floating-point error, decoded coordinates always lie in [0,90] / [0,180], and larger raw values never decode to smaller coordinates.",
  "all coordinates","continuum of values; floating-point rounding",
  [E+"egts_sr_pos_data.go:Encode",E+"egts_sr_pos_data.go:Decode"])
p("Re-encoding a decoded coordinate gives back the same wire value",
  "For every 32-bit raw latitude/longitude v, Encode of the decoded coordinate writes v.",
  "all 2^32 raw values","depends on double rounding for each value; tests try a handful",
  [E+"egts_sr_pos_data.go:Encode",E+"egts_sr_pos_data.go:Decode"])
p("Position subrecord round trip",
  "For every position whose fields fit the wire format (speed*10 < 2^14, odometer < 2^24, altitude < 2^24, one-bit flags), decoding the encoding reproduces flags, speed, direction, odometer, digital inputs, source and altitude.",
  "all well-formed positions","all combinations",
  [E+"egts_sr_pos_data.go"])
p("Course over ground is DIRH*256+DIR",
  "The decoded Direction of a position is the 9-bit course whose top bit is DIRH, for every wire value.",
  "all direction bytes and high bits","all values; the only test value hides the difference",
  [E+"egts_sr_pos_data.go:Decode"])
p("Altitude is the 24-bit wire value",
  "When the altitude field exists, the decoded Altitude is the 3-byte little-endian altitude, whatever follows it in the subrecord.",
  "all positions with altitude, all trailing source-data bytes","all trailing bytes",
  [E+"egts_sr_pos_data.go:Decode"])
p("Extended position round trip",
  "For every combination of the five existence flags and all values, decoding the encoding of an extended-position subrecord reproduces every field marked as existing.",
  "all flag combinations and values","32 combinations times all values",
  [E+"egts_sr_ext_pos_data.go"])
p("Analog/digital sensor subrecord round trip",
  "For every combination of the sixteen existence flags and all values below their field width, decoding the encoding of a sensor subrecord reproduces flags and values.",
  "all 65536 flag combinations and all values","65536 combinations times all values; the test uses a symmetric one",
  [E+"egts_sr_ad_sensors_data.go"])
p("Counter subrecord: counter i is delivered as counter i",
  "For every combination of the eight existence flags and all 24-bit values, decoding delivers the i-th transmitted counter in field Counter_i.",
  "all flag combinations and values","256 combinations times all values",
  [E+"egts_sr_counters_data.go"])
p("State, absolute counter, absolute analog and liquid-level round trips",
  "For all field values within their wire width, decoding the encoding reproduces the subrecord.",
  "all values","all values",
  [E+"egts_sr_state_data.go",E+"egts_sr_abs_cntr_data.go",E+"egts_sr_abs_an_sensors_data.go",E+"egts_sr_liquid_level_sensor.go"])
p("Identification subrecords round trip",
  "Login/password (no NUL bytes), dispatcher identity and terminal identity (fields of their fixed widths, every combination of the optional fields) survive Encode then Decode.",
  "all strings of any length, all flag combinations","unbounded strings, 256 flag combinations",
  [E+"egts_sr_auth_info.go",E+"egts_sr_dispatcher_identity.go",E+"egts_sr_term_identity.go"])
p("Response sections round trip",
  "Packet responses (with or without nested record responses), record responses and result codes survive Encode then Decode.",
  "all values; all lists of nested records","unbounded lists",
  [E+"egts_pt_response.go",E+"egts_sr_response.go",E+"egts_sr_result_code.go"])
p("Server behaviour does not depend on TCP segmentation",
  "The replies sent, records saved and close/crash outcome of a connection depend only on the concatenation of the received bytes, not on how they are split into reads.",
  "all byte streams and all their segmentations","exponentially many segmentations",
  [S+":handleConn"])
p("Packets on a connection are processed independently and in order",
  "The effects of a stream that starts with a complete packet are the effects of that packet alone followed by the effects of the rest; no state leaks from one packet to the next.",
  "all packet sequences of any length","all histories",
  [S+":handleConn"])
p("The server consumes exactly one frame per packet",
  "For every header the server reads exactly HL bytes plus, if FDL>0, FDL+2 more, so that it stays in step with the sender.",
  "all headers","all HL/FDL combinations including 16-bit overflow",
  [S+":handleConn"])
p("Every accepted data packet gets exactly one positive acknowledgement",
  "For every accepted APPDATA packet without record responses the server sends exactly one RESPONSE packet; decoding it succeeds and gives the packet identifier of the request, result 0, and one record confirmation per received record, in order, with that record's number and status OK.",
  "all accepted packets with any number of records","unbounded record counts; length fields could overflow",
  [S+":handleConn",S+":createPtResponse"])
p("Every rejected packet is answered with its identifier and the decode result code",
  "For every framed packet that Decode rejects, the server sends exactly one RESPONSE packet that carries the identifier found in bytes 7-8 of the packet and the result code of Decode, saves nothing and keeps the connection.",
  "all rejected packets","all malformed inputs",
  [S+":handleConn",S+":createPtResponse"])
p("Acknowledgements are never acknowledged",
  "The server sends nothing and saves nothing for accepted RESPONSE packets and for accepted APPDATA packets that contain a record response, and it answers the answers of another gate to its own packets with silence after at most two rounds, so two gates cannot ping-pong for ever.",
  "all packets","all packets",
  [S+":handleConn"])
p("All positions of a packet are exported exactly once, in order",
  "For an accepted APPDATA packet (without record responses), if it contains at least one position then exactly one record is saved; its location list is exactly the positions of the packet in order of appearance and its count equals the list length; with no position nothing is saved.",
  "all packets with any number of records and subrecords","unbounded structure",
  [S+":handleConn","cli/receiver/storage/packet.go"])
p("Exported identity fields",
  "The saved record carries the server id, the object identifier of the last record, the IMEI of the last terminal-identity subrecord (empty if none), and the time stamp of the last position.",
  "all accepted packets","unbounded structure",
  [S+":handleConn","cli/receiver/storage/packet.go"])
p("Exported sensor readings",
  "The saved analog sensors are, in order of appearance, exactly the readings present in sensor subrecords (numbers 1-8 with their values) and absolute analog subrecords; each liquid-level subrecord is exported once with its value in millimetres for units 00/01 and in litres (value/10) for unit 10.",
  "all accepted packets","unbounded structure",
  [S+":handleConn","cli/receiver/storage/packet.go"])
p("Record number assembled from counters 110 and 111",
  "If a record carries absolute counter 110 (three low bytes) followed by 111 (high byte), the exported packet id is value110 + 2^24 * value111.",
  "all counter values","2^32 values",
  [S+":handleConn"])
p("Exported coordinates are signed by hemisphere",
  "A position flagged southern (LAHS=1) is exported with negative latitude and one flagged western (LOHS=1) with negative longitude.",
  "all positions","all positions",
  [S+":handleConn",E+"egts_sr_pos_data.go"])
p("A positive acknowledgement means the data was stored",
  "At every point of every run, every position packet that has been acknowledged positively has been successfully saved to the storage.",
  "all packet sequences, all storage failure patterns, all crash points","all fault patterns and crash points",
  [S+":handleConn","cli/receiver/storage/store.go:Save"])
p("Authorisation result is delivered in a decodable packet",
  "After a packet with login or terminal identity the server sends, after the acknowledgement, a packet from which an EGTS decoder obtains the result code OK.",
  "all packet identifiers and all accepted packets","all packets",
  [S+":createSrResultCode",S+":handleConn"])
p("Non-EGTS traffic is dropped without reply",
  "If the first byte of a packet is not 1 the server, once ten bytes of it have arrived or the peer has closed, closes the connection without sending or saving anything for it, whatever follows.",
  "all streams","all streams",
  [S+":handleConn"])
p("No byte stream can crash the server",
  "Whatever a client sends, the server process does not panic.",
  "all byte streams","all malformed headers",
  [S+":handleConn",E+"egts_pkg.go:Decode"])
p("Connections are isolated",
  "For every interleaving of any number of connections, each connection receives exactly the replies it would receive alone, and the saved records of each connection are those it would produce alone, in order.",
  "all interleavings of any number of connections","all schedules",
  [S+":Run",S+":handleConn","cli/receiver/storage/store.go"])
p("Idle connections are closed after conn_ttl",
  "If a client sends nothing for longer than conn_ttl the server closes the connection.",
  "all arrival schedules and ttl values","time-dependent; all schedules",
  [S+":handleConn","README.md"])
p("Stop ends the server",
  "After Stop() the accept loop of Run() terminates.",
  "all histories of accepted connections before Stop","all schedules",
  [S+":Run",S+":Stop"])
p("Fan-out to storages",
  "Repository.Save offers the record to the registered storages in registration order, stops at the first failure and returns that failure, and returns nil exactly when every storage accepted the record.",
  "all lists of storages and all failure patterns","unbounded lists",
  ["cli/receiver/storage/store.go:Save"])
p("Loading storages from the configuration",
  "LoadStorages fails on an empty section and on any unknown name, succeeds only if every configured storage is known and initialised, and then exactly the configured storages are registered, whatever the iteration order; a failed load leaves main with a working (logging) storage.",
  "all configurations and all map iteration orders","map iteration order is random",
  ["cli/receiver/storage/store.go:LoadStorages","cli/receiver/main.go"])
p("Redis database number defaults to 0",
  "Initialising the redis storage without a db parameter selects database 0.",
  "all configurations without db","all configurations",
  ["cli/receiver/storage/store/redis/connector.go:Init"])
p("A failing storage only produces an error",
  "Storage.Save reports a failed publication as an error value and never panics.",
  "all storages and all backend failures","all fault patterns",
  ["cli/receiver/storage/store/redis/connector.go:Save","cli/receiver/storage/store/nats/connector.go:Save","cli/receiver/storage/store/rabbitmq/connector.go:Save","cli/receiver/storage/store/postgresql/connector.go:Save","cli/receiver/storage/store/nsq/connector.go:Save","cli/receiver/storage/store/tarantool_queue/connector.go:Save"])
p("Configuration accessors",
  "The listen address is host:port, the log level follows the named level and is INFO for every other string, and the connection ttl is conn_ttl seconds for every conn_ttl whose nanosecond value fits 63 bits.",
  "all settings","all strings and integers",
  ["cli/receiver/config/config.go"])
p("packet-gen and the server agree end to end",
  "For every packet id 1..65535, object id 1..2^32-1, liquid level 0..2^32-1, latitude 0..90 and longitude 0..180 given to packet-gen, the server accepts the packet however it is split into reads, saves exactly one record with that object id, packet id, liquid level and those coordinates up to the wire resolution, and sends one answer; packet-gen, if it reads this answer within its timeout, reports success.",
  "all argument values","all argument values",
  ["cli/packet-gen/main.go",S,E+"egts_pkg.go"])
p("packet-gen sends the requested time",
  "The navigation time in the generated packet is the one given by -time.",
  "all valid timestamps","all timestamps",
  ["cli/packet-gen/main.go"])
p("Shape of the exported JSON",
  "The JSON document given to every storage has exactly the documented keys, and its list-valued members are arrays.",
  "all exported records","all records",
  ["cli/receiver/storage/packet.go","cli/receiver/storage/default.go"])
p("Checksums detect every odd number of bit errors",
  "Two byte strings of equal length that differ in an odd number of bits never have the same header checksum nor the same body checksum.",
  "all pairs of byte strings of equal length","unbounded pairs",
  [E+"crc.go:crc8",E+"crc.go:crc16"])
p("Checksums detect every double bit error within their period",
  "Two byte strings of equal length that differ in exactly two bits less than 32767 positions apart never have the same body checksum; less than 127 positions apart, never the same header checksum.",
  "all pairs of byte strings and all two positions","unbounded pairs",
  [E+"crc.go:crc8",E+"crc.go:crc16"])
p("The documented configuration file sets the connection ttl",
  "A configuration file with the keys of the shipped configs/receiver.yaml and of the README yields settings with the values written in the file, in particular a connection ttl of the given number of seconds.",
  "all values of the keys of the shipped configuration","all values; the shipped file is not covered by a test",
  ["cli/receiver/config/config.go:New","configs/receiver.yaml","README.md"])
p("From the library to the storage",
  "Every well-formed APPDATA package built with the library (protocol version 1, no record responses, total length below 65536) is encoded; the server, however the bytes are split into reads, answers it with one positive acknowledgement that confirms every record, keeps the connection, and saves, exactly if the package has a position, one record that reports all its positions (up to the wire resolution), sensors, identifiers and times.",
  "all well-formed packages of all sizes and all segmentations","unbounded packages; composition of encoder, decoder and server",
  [E+"egts_pkg.go:Encode",E+"egts_pkg.go:Decode",S+":handleConn"])
p("packet-gen's exit status tells success from failure",
  "packet-gen ends with exit status 0 after the packet was sent and confirmed, and with another status otherwise.",
  "all arguments, network conditions and answers","all answers of a peer",
  ["cli/packet-gen/main.go"])
p("packet-gen waits for the answer as documented",
  "packet-gen waits for the answer for the number of seconds given by -timeout, 5 if the option is absent.",
  "all timeouts and all delays of the answer","time-dependent; all delays",
  ["cli/packet-gen/main.go","README.md"])
p("packet-gen reports success only for a confirmed record",
  "packet-gen reports success only if it has read a RESPONSE packet for its packet with result 0 that confirms its record with status 0, and no answer makes it panic.",
  "all answers","all byte strings as answers",
  ["cli/packet-gen/main.go"])
p("packet-gen accepts the answer however it is segmented",
  "A correct answer that arrives within the timeout is accepted, whether it arrives at once or in pieces.",
  "all answers and all their segmentations","exponentially many segmentations",
  ["cli/packet-gen/main.go"])
p("Nothing is invented",
  "In every run, every saved record is the report of an accepted data packet contained in the received bytes, and every packet sent is one complete frame that answers, with its identifier, a packet contained in the received bytes.",
  "all byte streams, segmentations and endings of a connection","all streams",
  [S+":handleConn"])
p("The exported JSON document determines the record",
  "Two saved records with the same JSON document have the same identifiers, times, positions and IMEI.",
  "all pairs of saved records","all pairs",
  ["cli/receiver/storage/packet.go:ToBytes"])
p("Saved records are well-formed",
  "Every saved record has at least one location; every location has a latitude from 0 to 90, a longitude from 0 to 180, a speed below 1639 km/h and a time written as an RFC 3339 text that denotes 2010-01-01T00:00:00Z plus the number of seconds sent by the terminal; the record's time is the instant denoted by the text of its last location; numbers, error flags and units of liquid sensors are in range. Different instants have different texts.",
  "all byte streams received by the server, all instants","all streams; all 2^32 instants",
  [S+":handleConn","cli/receiver/storage/packet.go:NavRecord"])
p("Fields of subrecords are read from their specified offsets",
  "For every complete subrecord (state, liquid sensor, absolute counter, absolute sensor, result code, dispatcher identity, record response, extended position, sensors, terminal identity, authentication), whatever its bytes, every field of the decoded subrecord is the little-endian number, bit or text at the offset of the specification, where the offset of an optional field depends on which optional fields before it are announced by the flags.",
  "all byte strings and all combinations of flags","2^16 flag combinations times all field values",
  [E+"egts_sr_term_identity.go:Decode",E+"egts_sr_ad_sensors_data.go:Decode",E+"egts_sr_ext_pos_data.go:Decode",E+"egts_sr_auth_info.go:Decode",E+"egts_sr_state_data.go:Decode",E+"egts_sr_liquid_level_sensor.go:Decode"])
p("The bytes of every answer",
  "The answer to a packet is, byte for byte, the packet of the standard: protocol version 1, empty prefix, plain flags, header length 11, frame length, packet identifier one more than that of the answered packet, packet type 0, header checksum; then the identifier and result of the answered packet and, for an acknowledged data packet with records, one record numbered 1 that confirms all received record numbers in order, with the source service of the last received record as source and recipient service; then the body checksum. Two answers are equal only if identifier, result and confirmations are.",
  "all received packets","all packets; all bytes of the answers",
  [S+":handleConn",S+":createPtResponse",S+":createSrResultCode"])
p("Wire grammar of the body",
  "Every body that is the concatenation of the wire forms of records (header with the optional fields announced by its flags, then subrecords of the announced type and length whose contents decode by the specified layout) decodes to exactly those records in that order; no body has two such readings.",
  "all byte strings and all lists of records","unbounded bodies",
  [E+"service_data_records.go:Decode",E+"record_data.go:Decode"])
p("Only complete bodies are accepted",
  "A body is accepted only if every record has all the subrecord bytes that it announces and every subrecord has all the content bytes that it announces.",
  "all byte strings","unbounded bodies",
  [E+"service_data_records.go:Decode",E+"record_data.go:Decode"])
p("Packets that conform to the standard are accepted and served",
  "Every packet with a header and checksums as specified, whose body is a sequence of complete records and subrecords as specified, is accepted with result 0 and decoded to those records; the server answers it, if it is a data packet without record responses, with a positive acknowledgement of all its records.",
  "all conforming byte strings","unbounded packets; written against the wire format, not against the encoder",
  [E+"egts_pkg.go:Decode",S+":handleConn"])
p("Exactly the right packets are accepted",
  "A complete frame whose header length field is right is accepted with given contents exactly if its header checksum, body checksum, lengths and type are right and its body is, byte for byte, a wire form of these contents; in particular a RESPONSE body with stray bytes is rejected.",
  "all frames, all contents","all frames; an equivalence",
  [E+"egts_pkg.go:Decode",E+"egts_pt_response.go:Decode"])
ST="cli/receiver/storage/store/"
p("PostgreSQL is contacted with the configured parameters",
  "For every configuration of the PostgreSQL storage, the database, host, port, user, password and TLS mode used for the connection are the configured values.",
  "all configured values","all texts, including empty ones and ones with blanks",
  [ST+"postgresql/connector.go:Init"])
p("RabbitMQ is contacted with the configured parameters",
  "For every configuration of the RabbitMQ storage, the user, password, host and port used for the connection are the configured values.",
  "all configured values","all texts, including reserved characters of URIs",
  [ST+"rabbitmq/connector.go:Init"])
p("Storages get the records and nothing but the records",
  "Whatever the storages answer, the messages sent to them are, in order and without repetition, taken from one message per saved record and configured storage, and all of these if no storage fails. The message body or query argument is the serialised record; query text, exchange, topic and queue come from the configuration alone, so data of a client cannot change them.",
  "all records, all storages, all histories of failures","all interleavings of successes and failures",
  ["cli/receiver/storage/store.go:Save",ST+"postgresql/connector.go:Save",ST+"rabbitmq/connector.go:Save",ST+"nats/connector.go:Save",ST+"nsq/connector.go:Save",ST+"tarantool_queue/connector.go:Save",ST+"redis/connector.go:Save"])
p("Documented storage options are honoured",
  "For all values of the options documented for the nats, nsq and tarantool storages, the connection uses these values: server addresses, topic, credentials, and numbers as seconds and counts.",
  "all option values","all values, including numbers that overflow",
  [ST+"nats/connector.go:Init",ST+"nsq/connector.go:Init",ST+"tarantool_queue/connector.go:Init"])
p("A record saved to redis can be consumed later",
  "Redis is documented as a queue: a record saved successfully is available to a consumer that connects afterwards.",
  "all records, all server states","all states of the server",
  [ST+"redis/connector.go:Save"])
p("Telematic messages are encoded as their schema says",
  "Encode of an EGTS_SR_EGTSPLUS_DATA message succeeds exactly if the required fields are set, and its bytes are those docs/egts_sr_egtsplus_data.proto prescribes: every field that is set, with its number, wire type and value encoding, in ascending order of the numbers, then the unknown fields.",
  "all messages","unbounded lists of sensors, 18 nested message types, every combination of optional fields",
  [E+"egts_sr_egtsplus_data.go:StorageRecord",E+"egts_sr_egtsplus_data.go:Encode"])
p("Telematic messages survive encoding and decoding",
  "Any list of EGTS_SR_EGTSPLUS_DATA messages with their required fields, encoded as subrecords, is decoded to the same messages.",
  "all lists of messages","unbounded lists and byte fields, every combination of optional fields",
  [E+"egts_sr_egtsplus_data.go:Encode",E+"egts_sr_egtsplus_data.go:Decode",E+"record_data.go:Decode"])
p("Accepted telematic messages are complete and can be passed on",
  "Every EGTS_SR_EGTSPLUS_DATA message accepted from the wire has its required fields, can be encoded again, and decoding the result gives the same message, including fields unknown to this version.",
  "all byte strings","all byte strings, including fields in any order, repeated and unknown fields and groups",
  [E+"egts_sr_egtsplus_data.go:Decode",E+"egts_sr_egtsplus_data.go:Encode"])
p("Identifiers of terminals survive encoding and decoding",
  "A terminal identity with an IMEI or IMSI of any length is decoded with the same IMEI and IMSI, and its other fields unharmed.",
  "all identities, all lengths","all lengths and contents",
  [E+"egts_sr_term_identity.go:Encode",E+"egts_sr_term_identity.go:Decode"])
p("Storages get JSON text",
  "Whatever a record contains (an IMEI is 15 arbitrary bytes from the network), ToBytes gives UTF-8 text that is JSON by RFC 8259 and is read as the document of the record: same keys, numbers and texts (invalid UTF-8 replaced by U+FFFD).",
  "all records","arbitrary bytes in texts, unbounded lists",
  ["cli/receiver/storage/packet.go:ToBytes","cli/receiver/storage/packet.go:NavRecord"])
p("The whole behaviour of a connection",
  "For every stream of bytes a client sends, in every segmentation and with every end, the connection does exactly this: the stream is cut into packets in the only possible way, and each packet in turn is rejected with an answer, acknowledged (and stored if it holds a position, and answered with an authorisation result if it holds a login), or ignored, until the stream ends or a packet crashes the process; nothing else is sent or stored.",
  "all byte streams, segmentations, ends, clocks and buffer capacities","the streams are arbitrary and unbounded",
  [S+":handleConn"])
p("A client cannot make the server send or store more than it sends itself",
  "For every stream of bytes, the server stores at most one record and sends at most two packets for each packet received; on a connection it sends at most 4.4 times the bytes received and stores at most one record per ten bytes.",
  "all byte streams","unbounded streams, worst case over all contents",
  [S+":handleConn",E+"egts_pkg.go:Decode"])
p("A packet passed on is unchanged",
  "Decoding a packet and encoding the decoded package gives back the same packet, byte for byte: for every packet that conforms to the standard, whatever records and subrecords it holds.",
  "all packets, records and subrecords","unbounded bodies; every combination of flags, lengths and contents",
  [E+"egts_pkg.go:Decode",E+"egts_pkg.go:Encode",E+"record_data.go:Encode",E+"service_data_records.go:Encode"])
p("A decoded package can be changed and encoded again",
  "If records or subrecords of a decoded package are added, replaced or removed, or its identifier is changed, Encode gives a packet that is decoded to the changed package, and to nothing else.",
  "all accepted packets, all changes","unbounded bodies and arbitrary changes",
  [E+"egts_pkg.go:Encode",E+"record_data.go:Encode",E+"service_data_records.go:Encode"])
p("Encoding a package again gives the same bytes",
  "Encode changes nothing of a package but its header length (if it was 0) and its body length; encoding it again gives the same bytes and changes nothing.",
  "all packages that can be encoded","arbitrary packages, including malformed ones",
  [E+"egts_pkg.go:Encode"])
p("The packet of packet-gen, byte by byte",
  "packet-gen sends one packet with correct checksums: priority 2, the packet identifier, one record (number 1, priority 2, object, event 3436, services 2 and 2) with one position (the given coordinates, speed 34 km/h, direction 172, odometer 19.1 km, inputs 0x90, altitude 30 m) and one liquid level (the given one, sensor 1, module 1); nothing is sent without a packet identifier, an object identifier and a time.",
  "all arguments","arguments are arbitrary 64-bit integers, floating-point numbers and strings",
  ["cli/packet-gen/main.go:main",E+"egts_pkg.go:Encode",E+"egts_sr_pos_data.go:Encode"])
p("packet-gen sends the position it is given, in all hemispheres",
  "The position in the packet is the one given by -lat and -lon, with the hemisphere flags set for negative values.",
  "all coordinates","continuous domain",
  ["cli/packet-gen/main.go:main",E+"egts_sr_pos_data.go:Encode"])
p("Positions are exported under their own object",
  "Every position of an accepted data packet is saved in a record that carries the object identifier of the position's own record, and every saved location is a position of the object named with it.",
  "all accepted data packets, with any number of records of any objects","unbounded number of records and objects",
  [S+":handleConn"])
p("Acknowledged sensor readings are stored",
  "Every analog reading and every liquid level of a data packet that is acknowledged is in a saved record.",
  "all accepted data packets","arbitrary combinations of subrecords",
  [S+":handleConn"])
p("Packets sent by the server have different identifiers",
  "If the packets of a client have pairwise different identifiers, so have the packets the server sends on that connection.",
  "all streams, all segmentations","unbounded streams",
  [S+":createPtResponse",S+":createSrResultCode",S+":handleConn"])
p("A packet that is sent again is not stored twice",
  "A terminal that gets no acknowledgement sends its packet again; the data is then stored once.",
  "all data packets, any number of repetitions","unbounded number of repetitions",
  [S+":handleConn"])
p("Positions without a valid fix are not exported as positions",
  "Every exported location is that of a position flagged valid (VLD = 1).",
  "all accepted data packets","arbitrary combinations of subrecords",
  [S+":handleConn",E+"egts_sr_pos_data.go:SrPosData","cli/receiver/storage/packet.go:LocState"])
p("A client that does not read its answers is released",
  "A client that sends packets and stops reading the answers does not hold its connection handler for ever; until then it is served like any other client.",
  "all streams, all buffer sizes","buffer sizes and streams are unbounded",
  [S+":handleConn"])
p("A client cannot put line breaks or markup into the stored text",
  "The text stored for a record is UTF-8 on a single line without control characters and without <, >, &, U+2028 and U+2029, whatever bytes the client sent as its texts.",
  "all records, with arbitrary bytes in the texts","the texts are arbitrary byte strings chosen by the client",
  ["cli/receiver/storage/packet.go:ToBytes"])
p("The receiver starts exactly as configured",
  "The receiver serves if and only if it is given a configuration file that can be read and the configured address can be listened at; it then listens at host:port, uses the configured silence limit and log level, and the configured storages if all of them can be initialised, otherwise also the log storage; it never serves without a storage.",
  "all configuration files, all behaviours of the storages","arbitrary configurations and environments",
  ["cli/receiver/main.go:main","cli/receiver/config/config.go:New",S+":Run"])
p("The server listens at the configured host and port",
  "The address the server listens at consists of the configured host and port.",
  "all hosts and ports","hosts and ports are arbitrary texts, among them IPv6 addresses",
  ["cli/receiver/config/config.go:GetListenAddress",S+":Run"])
p("The storages in use do not depend on the order in which a map is iterated",
  "For one configuration and one environment, the set of storages the receiver uses is the same for every order in which Go iterates over the map of storages.",
  "all configurations, all iteration orders","iteration order is random in Go",
  ["cli/receiver/storage/store.go:LoadStorages","cli/receiver/main.go:main"])
p("From configuration file and bytes to calls of the storages",
  "A receiver started with a configuration whose storages can be initialised, that gets any segmentation of a stream of data packets, makes for every record due one save call for every configured storage, in order, and no others.",
  "all configurations, streams and segmentations","unbounded streams, arbitrary segmentation, arbitrary configurations",
  ["cli/receiver/main.go:main",S+":handleConn","cli/receiver/storage/store.go:Save"])
p("Values that do not fit their wire field are refused by Encode",
  "Encode of a position or of an absolute counter or sensor fails if a field does not fit the wire format, and otherwise the field arrives unchanged.",
  "all values of all fields","the fields have 2^32 and more values",
  [E+"egts_sr_pos_data.go:Encode",E+"egts_sr_abs_cntr_data.go:Encode",E+"egts_sr_abs_an_sensors_data.go:Encode"])
p("The log storage prints the record that the other storages get",
  "What the log storage prints for a record is a JSON text that reads as the document of the record and differs from the text given to the other storages only in white space between tokens.",
  "all records, with arbitrary bytes in the texts","the texts are arbitrary byte strings, which may contain quotes, braces and backslashes",
  ["cli/receiver/storage/default.go:Save"])
p("The JSON form of a package contains the package",
  "The text Package.ToBytes returns is JSON; it is read as an object with every field of the package, its records and subrecords under the abbreviations of the protocol, times in RFC 3339, byte strings in base64; different packages have different texts.",
  "all packages, with arbitrary bytes in their texts","packages are unbounded trees with arbitrary texts",
  [E+"egts_pkg.go:ToBytes"])
p("Every decoded package can be written as JSON",
  "Package.ToBytes returns a text for every package that Decode accepts.",
  "all byte strings accepted by Decode","all byte strings",
  [E+"egts_pkg.go:ToBytes",E+"egts_pkg.go:Decode",E+"egts_sr_egtsplus_data.go:SensFuelLevel"])
p("Encode writes the flags it is given, or fails",
  "The flags of packages, records and subrecords are given to Encode as texts. Encode fails if they are not binary digits or do not fit their byte, and otherwise writes each flag into its bit.",
  "all texts as flags, all other fields","flags are arbitrary strings",
  [E+"egts_pkg.go:Encode",E+"service_data_records.go:Encode",E+"egts_sr_pos_data.go:Encode",E+"egts_sr_term_identity.go:Encode",E+"egts_sr_ad_sensors_data.go:Encode",E+"egts_sr_counters_data.go:Encode",E+"egts_sr_ext_pos_data.go:Encode",E+"egts_sr_state_data.go:Encode",E+"egts_sr_liquid_level_sensor.go:Encode"])
p("Telematic messages are read whatever the order of their fields",
  "StorageRecord.Decode accepts a message whose fields, and the fields of its submessages, come in any order, repeatedly, with reasons packed or single and unknown fields between them, exactly if the required fields are among them; of a field that occurs several times the last value counts, repeated fields are put together, unknown fields are kept; two messages put together are read as both merged.",
  "all sequences of fields, all pairs of accepted messages","unbounded sequences of fields",
  [E+"egts_sr_egtsplus_data.go:Decode","docs/egts_sr_egtsplus_data.proto"])
p("Coordinates and levels are stored exactly",
  "Whatever is received, the latitude, longitude and litres of every record that is given to a storage are written in its text as JSON numbers that a reader of float64 numbers reads as exactly the same values, with as few digits as possible; so the whole record is read back, up to the replacement of malformed UTF-8 in the IMEI. The same holds for the numbers in the JSON form of packages.",
  "all float64 and float32 values, all byte streams","2^64 values; the shortest decimal depends on the neighbours of a float",
  ["cli/receiver/storage/packet.go:ToBytes",E+"egts_pkg.go:ToBytes",S+":handleConn"])
p("Telematic messages appear in the JSON form under the names of the .proto file",
  "In the JSON form of a package a telematic message is an object whose members are exactly the fields the message has, in the order and under the names of the .proto file, with the values sent under the field's number; repeated fields are arrays. Two messages have the same JSON form exactly if they agree in all fields of the .proto file, up to empty byte strings and the sign of zero; unknown fields are not shown.",
  "all messages, all packages with messages","18 kinds of submessages with optional fields and unbounded repetition",
  [E+"egts_sr_egtsplus_data.go:StorageRecord","docs/egts_sr_egtsplus_data.proto",E+"egts_pkg.go:ToBytes"])
p("The commands do what is typed",
  "packet-gen takes exactly the command lines that consist of its documented flags, each with a value that fits it (integers as Go integer literals in the range of int64, numbers as Go floating point literals, in the range of float64, correctly rounded), up to the first other argument; of a flag given several times the last value counts; otherwise it prints the usage and sends nothing. For values in the ranges of the wire format the record the server saves has the object and packet identifiers, the position and the liquid level that were typed; in particular for the example of the documentation. The receiver takes exactly the flag -c.",
  "all argument lists, all texts of numbers","texts of numbers are unbounded, with prefixes, underscores, exponents; rounding of every rational number",
  ["cli/packet-gen/main.go:main","cli/receiver/main.go:main"])
p("Time stamps on the command line are RFC 3339",
  "packet-gen takes every time stamp in RFC 3339 format, with fractions of a second and offsets, as the instant it denotes, and refuses everything else.",
  "all texts","unbounded texts, all dates of the calendar, all offsets",
  ["cli/packet-gen/main.go:main"])
p("A storage starts exactly if its options are there and its server lets it connect",
  "Initialising a storage with a configuration section succeeds exactly if: for rabbitmq, postgresql, nats and nsq the client library connects with the parameters of the section; for tarantool_queue max_recons, timeout and reconnect are decimal 64 bit numbers and then the client library connects; for redis server and queue are present and db is a decimal 64 bit number, and nobody is contacted. A missing section is always an error. Initialisation never panics, and nobody is contacted if the section is missing or a number of tarantool_queue is.",
  "all kinds of storages, all configuration sections, all behaviours of the servers",
  "the sections are arbitrary maps of strings, and the outcome depends on every server behaviour",
  ["cli/receiver/storage/store/tarantool_queue/connector.go: Init", "cli/receiver/storage/store/redis/connector.go: Init", "cli/receiver/storage/store/nats/connector.go: Init", "cli/receiver/storage/store/nsq/connector.go: Init", "cli/receiver/storage/store/postgresql/connector.go: Init", "cli/receiver/storage/store/rabbitmq/connector.go: Init"])
p("send_egts.py plays a file of packets completely",
  "tools/send_egts.py, given a file with one packet in hexadecimal per line, sends all packets of the file to the receiver, in order and unchanged, prints after each the receiver's answer to it, and ends.",
  "all files of packets, with LF or CR LF, letters of either case and white space; all receivers' environments; all ways in which the network cuts the answers",
  "files, answers and segmentations are unbounded; the interplay of script and server depends on every packet",
  ["tools/send_egts.py", S+": handleConn"])
p("One subrecord that is not understood does not cost the rest of the packet",
  "If a correctly framed data packet with right checksums and truthful record and subrecord lengths holds subrecords that the gate understands and one that it does not (an unsupported type, or content its decoder refuses), the data of the others are still stored and their records confirmed.",
  "all packets with any number of records and subrecords, all type codes and contents, all cuttings of the stream",
  "packets are unbounded; the outcome depends on every subrecord",
  [E+"record_data.go: RecordDataSet.Decode", E+"service_data_records.go: ServiceDataSet.Decode", E+"egts_pkg.go: Package.Decode", S+": handleConn"])
p("The work for a packet is proportional to its length",
  "When a packet is decoded, the number of records and subrecords read (those nested in record responses included) is at most its length in bytes: a client cannot make the gate work much with a small packet.",
  "all packets of all lengths, accepted or not, all values of the length fields, all depths of nesting",
  "the bound must hold for every packet; the worst case is a crafted nesting no test generator finds",
  [E+"service_data_records.go: ServiceDataSet.Decode", E+"record_data.go: RecordDataSet.Decode", E+"egts_sr_response.go: SrResponse.Decode"])
p("Every client is served in the end",
  "As long as the process lives and the scheduler lets every handler run again and again, whatever a client has sent by some moment is answered completely from some later moment on: all the confirmations due for it have been written and all its records given to the storages. If the client closes its connection, its handler returns in the end, having done exactly what is due for the whole stream. No other client can prevent this, however much it sends.",
  "all infinite fair schedules, all numbers of connections, all data of all clients, all storages and their states",
  "a liveness property of infinite executions: no finite test can show it",
  [S+": Run, handleConn", "cli/receiver/storage/store.go: Save"])
p("The text of the configuration file",
  "A configuration file in the form of the shipped one (lines key: value, sections by indentation; comments, empty lines, CR LF or LF, any consistent indentation, values in quotation marks, in apostrophes or plain, keys in any order, unknown keys) has exactly one meaning and is never refused; each setting is the value under its key or empty if the key is missing; the receiver then listens at host:port, logs at the level, has a timer of conn_ttl seconds and the storages of the file, or the log if there are none. The shipped file and that of the unit test are of this form.",
  "all files of the form, all paths, all storages, all orders of map iteration, every YAML library that reads these files as YAML defines them", "all texts; the unit test has one",
  ["cli/receiver/config/config.go:New", "cli/receiver/main.go:main", "configs/receiver.yaml", "cli/receiver/config/config_test.go:TestConfigLoad"])
p("What the log tells",
  "The log of a connection tells the truth: at level INFO it consists, in the order of the stream, of the opening of the connection, one error for each rejected packet, the service of each record that is looked at, one error for each record a storage refuses, and the reason why the connection has ended; at WARN and ERROR nothing else than the errors and that reason. No level that can be configured hides an error; if every packet is accepted and stored there is none; a client cannot fill the log with more than one message per byte; logging does not change what is done. Data that is acknowledged but not stored is reported.",
  "all streams and cuttings, all ends of a stream, all storages that do not panic, all levels", "the log is a function of the whole stream and of the storages' answers",
  [S+": handleConn", "cli/receiver/config/config.go: GetLogLevel", "cli/receiver/main.go: main"])
p("Credentials decide, and stay secret",
  "Only a client that has logged in with the right user name and password can store records; other logins are refused. User names and passwords never show up in answers, stored records or the log: two clients whose streams differ only in them are treated exactly alike.",
  "all streams and cuttings, all user names and passwords of all lengths, all storages and environments", "a statement about pairs of streams, for all contents of the logins",
  [S+": handleConn", E+"egts_sr_auth_info.go: SrAuthInfo"])
p("Encode returns, and writes exactly what can be written",
  "Encode of a package returns bytes or an error and never panics. It returns bytes exactly if the flags of the header, of every record and of every subrecord that has some are binary digits of at most one byte, every subrecord has content, every telematic message can be written and no dispatcher identity is without a type code. In particular everything that Decode accepts can be encoded, whatever the receiver held before.",
  "all packages (all texts in the flags, all values of all fields, any number of records and subrecords), all accepted packets",
  "the space of packages is unbounded; a refused or crashing combination is easily missed",
  [E+"egts_pkg.go: Package.Encode, Package.Decode", E+"service_data_records.go: ServiceDataSet.Encode", E+"record_data.go: RecordDataSet.Encode"])
p("What a device has seen confirmed is not lost",
  "If a device has received, on some connection, a confirmation (result OK) of a packet with positions, and used the identifier of that packet on that connection for nothing else, then a record with exactly these positions is in every storage, now and after any later crashes and restarts of the server. Before the confirmation is sent the record has been given to the storages. A connection on which the packet arrives whole and the handler gets to do its work ends with a confirmation. So a device that sends a packet again, on new connections, until it is confirmed, never loses it.",
  "all numbers of runs of the process, each killed at any point; all interleavings of all connections; all data of all clients; all storages that keep what they accept",
  "a statement about all histories with crashes and reconnections",
  [S+": handleConn, Run", "cli/receiver/storage/store.go: Save"])

p("A bounded number of turns serves a client",
  "Once b bytes have arrived on a connection, its handler has done exactly what is due for them (all confirmations written, all records given to all n storages) after at most (3n+8)b/10+1 turns of its own, whatever the other connections are, receive and do in between, or the process has died. Other clients can delay a client only by the turns they take, not by the work they create for its handler.",
  "all histories, all interleavings, all numbers of connections, all bytes of all clients, all storages and their states",
  "a bound over all schedules and inputs",
  [S+": Run, handleConn", "cli/receiver/storage/store.go: Save"])

p("The getters of a telematic message tell what was sent",
  "Whatever fields of docs/egts_sr_egtsplus_data.proto are sent in a telematic message, in any order and any number, with inner messages and unknown fields among them: if the required fields are there, StorageRecord.Decode accepts it, and afterwards every getter (its name is that of the field of the .proto file) returns the last value sent for its field, or the default value of the field's type if there was none; for reasons and inner messages all that were sent, in their order, each inner message with the last values of its own fields. If a required field is missing the message is refused. On nil pointers the getters return the default values.",
  "all sequences of fields and values, all nestings the .proto file allows, all 116 getters of the 19 message types",
  "all sequences of fields; unit tests have one message and no getter",
  [E+"egts_sr_egtsplus_data.go: Get* of StorageRecord and the Sens* messages, Decode", "docs/egts_sr_egtsplus_data.proto"])
p("Reasons of telematic messages by name and number",
  "The constants, names and numbers of the reasons are those of docs/egts_sr_egtsplus_data.proto. String prints a reason by its name, any other number as a number, and different numbers differently. UnmarshalJSON reads a name in quotation marks and the number that json.Marshal writes as the reason; an unknown name is refused and leaves the reason as it was. Nothing that is not a reason is accepted.",
  "all int32 values, all JSON texts, all readers of JSON that follow RFC 8259",
  "all texts and all numbers",
  [E+"egts_sr_egtsplus_data.go: StorageRecordReason, StorageRecordReason_name, StorageRecordReason_value, String, UnmarshalJSON", "docs/egts_sr_egtsplus_data.proto"])

p("Which bytes are a telematic message",
  "StorageRecord.Decode accepts exactly the byte strings that are a message storage_record of docs/egts_sr_egtsplus_data.proto in the protobuf encoding with the three required fields, and returns an error for all others. The encoding is taken with all its liberties: fields in any order and number (the last value counts; reasons and inner messages are all kept, in order), numbers in up to ten bytes of which the low 32 bits count, reasons one by one or packed, fields of other numbers or of another wire type, nested groups among them, which are kept as they are with the tag in its shortest form. No byte string is two messages.",
  "all byte strings, all messages",
  "all byte strings; the liberties of the encoding are not what a writer produces, so tests that decode what was encoded never see them",
  [E+"egts_sr_egtsplus_data.go: StorageRecord.Decode", "docs/egts_sr_egtsplus_data.proto"])

p("Which bytes are accepted",
  "Whether Package.Decode accepts a byte slice can be told from the bytes alone: it does exactly if the header is complete with a right checksum, the bytes after the body are its checksum, and the body is a sequence of records whose subrecords, at any depth of records inside confirmations, have a known type and a content in which every field that the flags announce begins (a field may be incomplete only where the content ends, C72). Everything else is refused, and nothing that has this form is.",
  "all byte slices, all capacities, all states of the receiving Package; bodies of any length, confirmations nested to any depth",
  "The accepted bytes are an infinite, recursive language; tests sample it, and a decoder that refuses or accepts one more shape of subrecord passes them.",
  [E+"egts_pkg.go: Package.Decode", E+"service_data_records.go: ServiceDataSet.Decode", E+"record_data.go: RecordDataSet.Decode", E+"egts_sr_*.go: Decode"])
p("What a connection holds",
  "A connection occupies a bounded part of the server, however much the client sends: a buffer for one packet and one timer.",
  "all clients: any number of packets, any segmentation, any moments of arrival, any processing times, any conn_ttl",
  "The amount depends on the whole history of arrivals; a unit test sees neither the timers of the runtime nor long histories.",
  [S+": handleConn"])

p("All storages hold the same records",
  "Whatever the number of connections and storages and however the handlers interleave, a storage holds nothing but the records of the packets received, those of one connection in the order in which they were sent. When everything received has been handled, all storages hold the same records, each the same number of times, in the same order.",
  "all numbers of storages and connections, all data, all interleavings of single storage calls, all answers of the storages",
  "The order in which goroutines reach the storages is a matter of the schedule; a test sees one schedule.",
  [S+": handleConn", "cli/receiver/storage/store.go: Repository.Save"])

p("A stored position can be sent again",
  "The coordinates that a storage holds, typed to packet-gen exactly as they are written there, are read as the very same numbers (no text written for a coordinate is refused or misread, whatever its form), and the packet sent is stored again with a position that differs by at most one step of the wire format.",
  "all positions of all records saved in all runs of the server; for the numbers alone: all float64 of magnitude 0 or 10^-300 to 10^300; all command lines with these values",
  "There are 2^64 pairs of coordinates, and the text has four forms depending on the number; a round trip through two programs and the wire cannot be tried for all.",
  ["cli/receiver/storage/packet.go: NavRecord.ToBytes", "cli/packet-gen/main.go: main", E+"egts_sr_pos_data.go: SrPosData.Encode, SrPosData.Decode", S+": handleConn"])

p("The error names the fault",
  "If Package.Decode refuses a packet, the result code and the error tell the first thing that is wrong with the bytes, and tell it rightly: where they end too early, which checksum is wrong, which packet type is not supported, which subrecord type is unknown (with its announced length and content), at any depth of records inside confirmations. The server writes exactly that error to its log and answers with exactly that code.",
  "all byte slices, all capacities, all states of the receiving Package and of the server; bodies of any length, confirmations nested to any depth",
  "The refused bytes are the complement of an infinite, recursive language; which of several faults is reported depends on the order of the checks at every depth.",
  [E+"egts_pkg.go: Package.Decode", E+"service_data_records.go: ServiceDataSet.Decode", E+"record_data.go: RecordDataSet.Decode", E+"egts_sr_*.go: Decode", S+": handleConn"])

p("Decoding a part of a packet into a used value is equivalent to decoding it into a fresh one",
  "Decoding a subrecord, an answer, a set of subrecords or a set of records into a value that was used for other data succeeds exactly when decoding into an empty value does, fails with the same error, and gives the same value; nothing of the earlier data is visible.",
  "all values (also damaged ones), all byte sequences, every type with a Decode method but Package (C12)",
  "all histories of reuse and all 2^8 or 2^16 combinations of announced fields",
  [E+"egts_sr_*.go: Decode", E+"egts_pt_response.go: PtResponse.Decode", E+"record_data.go: RecordDataSet.Decode", E+"service_data_records.go: ServiceDataSet.Decode"])

p("Fields added by later editions are stepped over",
  "A subrecord whose content goes on behind the fields that the standard defines for its type (as a device sends it that follows a later edition), with length fields that tell so, is read as the known part alone: Decode yields the same data, and the server saves the same records, sends the same packets and ends the connection in the same way as for a client that sends the known part only.",
  "all bodies, all subrecords of the types with a layout of their own, any bytes of any number behind the known fields, any number of such subrecords; all streams, segmentations and endings of a connection",
  "All lengths and values of the additional bytes, behind every combination of optional fields, and their effect on everything that follows in the stream.",
  [E+"egts_sr_*.go: Decode", E+"record_data.go: RecordDataSet.Decode", S+": handleConn"])

p("Nothing else in a packet matters",
  "What the server saves, sends and does with a connection depends, for a data packet, on nothing but its identifier and, per record, the record number, the object, the source service, the places, speeds and times of the positions, the IMEIs, the analog readings, the liquid levels, the counters 110 and 111, and whether there is a login or a confirmation. So subrecords of different kinds may come in any order, and subrecords of other kinds (state, extended position, counters, result codes, dispatcher, messages) may be added or left out anywhere.",
  "all data packets, all pairs of packets that agree in these things; all streams, segmentations, environments and endings of a connection",
  "Non-interference relates two runs for all values of everything else; no finite set of packets shows that a field has no influence.",
  [S+": handleConn"])

p("How a device batches its records does not matter",
  "However a device distributes its records over packets - each alone, all in one, or in groups - and whatever packet identifiers it uses, the server stores the same places, liquid levels and analog readings in the same order, and confirms the same record numbers in the same order.",
  "all sequences of data packets of conforming devices, all ways to distribute the same records over packets, all segmentations, environments and endings of a connection",
  "There are exponentially many ways to batch a list of records, and the lists are unbounded.",
  [S+": handleConn", E+"service_data_records.go: ServiceDataSet.Decode", E+"egts_pkg.go: Package.Decode"])

p("A packet is answered when its last byte is there, not before, and nothing is taken back",
  "When the last byte of a packet is received, the server does everything it will ever do about it, without waiting for further bytes or for the end of the connection; while one of its bytes is missing it does nothing about it. What has been sent and stored by then is final: no bytes that follow and no end of the connection change it or add to the reaction to that packet.",
  "all streams of bytes, cut anywhere, all continuations, all segmentations before and after, all ends of a connection, all clocks and capacities",
  "A relation between all pairs of streams of which one continues the other; the reaction could depend on any later byte.",
  [S+": handleConn"])

p("A position passed on again and again stays where it is",
  "However many times a position is decoded and encoded again, for example by a chain of programs that pass it on, its coordinates stay within one step of the wire format of the original ones, and its time stays the same.",
  "all positions, all numbers of programs in the chain",
  "The drift shows only after many steps and only at some coordinates; no test tries them all.",
  [E+"egts_sr_pos_data.go: Decode, Encode"])

p("The outcome depends on the received bytes alone",
  "What the server sends, stores and does with a connection depends on the bytes it receives and on nothing else: not on what is in memory behind a packet (capacity and contents of the slice the packet is read into), and on the clock only in the reception time of the stored records.",
  "all streams of bytes, segmentations and ends of a connection, all contents of memory, all clocks",
  "A test sees one state of memory; the relation is between all pairs of them.",
  [S+": handleConn", E+"egts_pkg.go: Package.Decode"])

p("What is stored tells what was sent",
  "From the stored records one can tell what the devices sent: two histories of data packets after which the same places, liquid levels and analog readings are stored have sent the same places (with hemisphere, speed and time), levels and readings, in the same order. No two different messages are stored as one.",
  "all pairs of sequences of data packets, segmentations, clocks",
  "Injectivity is a relation between all pairs of inputs; a test compares two of them.",
  [S+": handleConn", "cli/receiver/storage/packet.go: NavRecord"])

p("A device can continue after a break",
  "A device whose connection breaks, after any byte and in any way, and which continues on a new connection with the first packet that is not confirmed in the answers it has seen, has all its positions stored, in order; twice are only those of packets that were complete but whose confirmations it has not seen; if it has seen all confirmations, each is stored exactly once. The same holds for any number of breaks.",
  "all sequences of data packets, all numbers of connections and points at which they break, all segmentations, every beginning of the answers that the device may have seen, every packet it continues with that is not behind an unconfirmed one",
  "The break can come after any byte and any answer; a test tries a few.",
  [S+": handleConn"])

p("Bytes in the wrong order are noticed",
  "If two neighbouring, different bytes of a packet are exchanged (a number written with the wrong byte order, for example), the packet is refused.",
  "all packets, all positions in header and body, all receivers and contents of memory behind the packet",
  "There are as many cases as positions and pairs of bytes; the header checksum misses exactly one difference, which tests do not hit by chance.",
  [E+"crc.go: crc8, crc16", E+"egts_pkg.go: Package.Decode"])

with open("/verif/properties.jsonl","w") as f:
    for x in P: f.write(json.dumps(x,ensure_ascii=False)+"\n")
print(len(P))
