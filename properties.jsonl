{"id": "C01", "title": "Header checksum is CRC-8 with polynomial x^8+x^5+x^4+1", "statement": "For every byte string, the header checksum the library computes is the remainder of (message * x^8, with the first 8 bits complemented) on division by x^8+x^5+x^4+1 over GF(2).", "quantifier": "all byte strings of all lengths", "why_tests_cant": "tests check one 9-byte vector; the claim is about every string of every length", "anchors": ["libs/egts/crc.go:crc8"]}
{"id": "C02", "title": "Body checksum is CRC-16/CCITT-FALSE", "statement": "For every byte string, the body checksum the library computes is the remainder of (message * x^16, with the first 16 bits complemented) on division by x^16+x^12+x^5+1 over GF(2).", "quantifier": "all byte strings of all lengths", "why_tests_cant": "tests check one 9-byte vector", "anchors": ["libs/egts/crc.go:crc16"]}
{"id": "C03", "title": "Checksums detect every short burst of errors", "statement": "Two byte strings of equal length that differ only inside one window of at most 16 consecutive bits never have the same body checksum; likewise a window of at most 8 bits and the header checksum.", "quantifier": "all pairs of byte strings, all windows", "why_tests_cant": "the pairs and window positions are unbounded in number", "anchors": ["libs/egts/crc.go:crc8", "libs/egts/crc.go:crc16"]}
{"id": "C04", "title": "Decoding always terminates", "statement": "Package.Decode (and the decoders of every section, including record responses that themselves contain nested service data) returns after finitely many steps for every byte string.", "quantifier": "all byte strings", "why_tests_cant": "record-response decoding recurses into its own tail and declared lengths may exceed the available bytes, so termination needs an argument over every input", "anchors": ["libs/egts/egts_sr_response.go:Decode", "libs/egts/service_data_records.go:Decode", "libs/egts/record_data.go:Decode", "libs/egts/egts_pkg.go:Decode"]}
{"id": "C05", "title": "Decoding never panics", "statement": "For every byte string Package.Decode returns a result code and never raises a run-time panic.", "quantifier": "all byte strings (and all spare capacities of the slice passed in)", "why_tests_cant": "requires all header length / data length combinations", "anchors": ["libs/egts/egts_pkg.go:Decode"]}
{"id": "C06", "title": "Acceptance implies both checksums were verified over the bytes that were decoded", "statement": "If Package.Decode succeeds then the header checksum byte of the packet equals CRC-8 of the header bytes before it, and the trailing two bytes equal CRC-16 of exactly the bytes that were decoded as the body.", "quantifier": "all byte strings accepted by Decode", "why_tests_cant": "quantifies over all accepted inputs, not the handful in the test-suite", "anchors": ["libs/egts/egts_pkg.go:Decode"]}
{"id": "C07", "title": "A single corrupted byte is always noticed", "statement": "If a packet is accepted by Package.Decode, then the same packet with any one byte changed (anywhere in the frame) is not accepted.", "quantifier": "all accepted packets, all positions, all replacement bytes", "why_tests_cant": "needs all packets times all positions times 255 values", "anchors": ["libs/egts/egts_pkg.go:Decode", "libs/egts/crc.go"]}
{"id": "C08", "title": "A truncated packet is never accepted", "statement": "If Package.Decode accepts a frame, it accepts no proper prefix of this frame (and does not panic on one).", "quantifier": "all accepted frames, all cut points", "why_tests_cant": "needs all packets and all cut points", "anchors": ["libs/egts/egts_pkg.go:Decode"]}
{"id": "C09", "title": "Bytes after the frame do not influence decoding", "statement": "If Package.Decode accepts a byte string, then appending any bytes leaves the decoded package and the result unchanged.", "quantifier": "all accepted packets, all suffixes", "why_tests_cant": "unbounded suffixes", "anchors": ["libs/egts/egts_pkg.go:Decode"]}
{"id": "C10", "title": "Result-code contract of Package.Decode", "statement": "Decode returns code 0 exactly when it returns no error; a failing Decode returns 131 for an incomplete header, 137 for a header-checksum mismatch, 132 for a missing body, 133 for a packet type other than APPDATA/RESPONSE, 129 for an undecodable body, and 138 for a body-checksum mismatch; no other code is ever returned.", "quantifier": "all byte strings", "why_tests_cant": "must hold for all inputs on every error path", "anchors": ["libs/egts/egts_pkg.go:Decode", "libs/egts/errors.go"]}
{"id": "C11", "title": "Header fields come from their specified offsets", "statement": "For every byte string whose header is complete, the decoded package reports PRV, SKID, the PRF/RTE/ENA/CMP/PR bit groups, HL, HE, FDL, PID, PT and (when RTE=1) PRA, RCA, TTL from their wire offsets, multi-byte values little-endian.", "quantifier": "all accepted byte strings, with and without routing fields", "why_tests_cant": "all header values", "anchors": ["libs/egts/egts_pkg.go:Decode"]}
{"id": "C12", "title": "Decoding into a reused Package is equivalent to decoding into a fresh one", "statement": "Decoding a packet into a Package that was already used for another packet gives the same package as decoding into an empty Package; in particular records never accumulate and no stale field of the earlier packet is visible.", "quantifier": "all previous package states and all accepted packets", "why_tests_cant": "all histories of reuse", "anchors": ["libs/egts/egts_pkg.go:Decode", "libs/egts/service_data_records.go:Decode", "libs/egts/record_data.go:Decode"]}
{"id": "C13", "title": "Package round trip", "statement": "For every well-formed package (flag fields of their specified width, consistent lengths, APPDATA with at least one record or RESPONSE, any number of records, any number of subrecords of every supported kind each of which survives its own Encode and Decode), Decode(Encode(p)) succeeds with code 0 and yields p with its derived fields (lengths, type codes, checksums) filled in.", "quantifier": "all well-formed packages of all sizes", "why_tests_cant": "unbounded nesting and sizes; tests use four fixed packets", "anchors": ["libs/egts/egts_pkg.go:Encode", "libs/egts/egts_pkg.go:Decode"]}
{"id": "C14", "title": "Encoded frame layout", "statement": "Whenever Package.Encode succeeds with a body shorter than 65536 bytes, the output is header | HCS | body | SFRCS where FDL is the body length, HCS is CRC-8 of the preceding header bytes, SFRCS is CRC-16 of the body (little-endian), and no SFRCS is present when the body is empty.", "quantifier": "all packages for which Encode succeeds", "why_tests_cant": "all packages", "anchors": ["libs/egts/egts_pkg.go:Encode"]}
{"id": "C15", "title": "Encode never silently drops data", "statement": "Whenever Package.Encode succeeds, every byte of the encoded body is in the output and is covered by the declared frame length.", "quantifier": "all packages, including bodies of 64 KiB and more", "why_tests_cant": "size-dependent; needs unbounded sizes", "anchors": ["libs/egts/egts_pkg.go:Encode"]}
{"id": "C16", "title": "Service data set round trip", "statement": "For every list of well-formed service data records (any number, every combination of optional object id / event id / time fields, subrecords that survive their own Encode and Decode), decoding its encoding yields the same records with record lengths filled in.", "quantifier": "all lists of well-formed records", "why_tests_cant": "unbounded lists and all flag combinations", "anchors": ["libs/egts/service_data_records.go:Encode", "libs/egts/service_data_records.go:Decode"]}
{"id": "C17", "title": "Record data set round trip", "statement": "For every list of subrecords each of which survives when encoded and decoded alone, decoding the encoding of the list yields the same subrecords in order with type codes and lengths filled in; the subrecords that survive alone include every kind with all values that fit the wire format, up to the defects listed under the property of that kind.", "quantifier": "all lists of well-formed subrecords of every supported type", "why_tests_cant": "unbounded lists", "anchors": ["libs/egts/record_data.go:Encode", "libs/egts/record_data.go:Decode"]}
{"id": "C18", "title": "Omitted subrecord type code is inferred consistently", "statement": "For every supported subrecord kind, encoding a subrecord whose type code is left 0 writes the type code under which Decode reconstructs the same kind.", "quantifier": "all supported subrecord kinds and all their values", "why_tests_cant": "must hold for every value of every kind", "anchors": ["libs/egts/record_data.go:Encode", "libs/egts/const_types.go"]}
{"id": "C19", "title": "Length() is the encoded length", "statement": "For every section value, Length() equals the number of bytes Encode() produces when that is below 65536, and 0 when Encode() fails.", "quantifier": "all section values of all kinds", "why_tests_cant": "all values", "anchors": ["libs/egts/binary_data.go", "libs/egts/record_data.go:Length", "libs/egts/service_data_records.go:Length", "libs/egts/egts_pt_response.go:Length"]}
{"id": "C20", "title": "Navigation time is exact", "statement": "For every 32-bit navigation time n, a decoded position reports the instant 2010-01-01T00:00:00Z + n seconds, and encoding that instant writes n again; an instant between two seconds is written as the second before it (up to half a microsecond of rounding).", "quantifier": "all 2^32 time values", "why_tests_cant": "2^32 values and floating-point seconds conversion", "anchors": ["libs/egts/egts_sr_pos_data.go:Decode", "libs/egts/egts_sr_pos_data.go:Encode"]}
{"id": "C21", "title": "Coordinates survive encoding up to the wire resolution", "statement": "For every latitude in [0,90] (longitude in [0,180]) the decoded coordinate differs from the encoded one by at most one wire unit plus floating-point error, decoded coordinates always lie in [0,90] / [0,180], and larger raw values never decode to smaller coordinates.", "quantifier": "all coordinates", "why_tests_cant": "continuum of values; floating-point rounding", "anchors": ["libs/egts/egts_sr_pos_data.go:Encode", "libs/egts/egts_sr_pos_data.go:Decode"]}
{"id": "C22", "title": "Re-encoding a decoded coordinate gives back the same wire value", "statement": "For every 32-bit raw latitude/longitude v, Encode of the decoded coordinate writes v.", "quantifier": "all 2^32 raw values", "why_tests_cant": "depends on double rounding for each value; tests try a handful", "anchors": ["libs/egts/egts_sr_pos_data.go:Encode", "libs/egts/egts_sr_pos_data.go:Decode"]}
{"id": "C23", "title": "Position subrecord round trip", "statement": "For every position whose fields fit the wire format (speed*10 < 2^14, odometer < 2^24, altitude < 2^24, one-bit flags), decoding the encoding reproduces flags, speed, direction, odometer, digital inputs, source and altitude.", "quantifier": "all well-formed positions", "why_tests_cant": "all combinations", "anchors": ["libs/egts/egts_sr_pos_data.go"]}
{"id": "C24", "title": "Course over ground is DIRH*256+DIR", "statement": "The decoded Direction of a position is the 9-bit course whose top bit is DIRH, for every wire value.", "quantifier": "all direction bytes and high bits", "why_tests_cant": "all values; the only test value hides the difference", "anchors": ["libs/egts/egts_sr_pos_data.go:Decode"]}
{"id": "C25", "title": "Altitude is the 24-bit wire value", "statement": "When the altitude field exists, the decoded Altitude is the 3-byte little-endian altitude, whatever follows it in the subrecord.", "quantifier": "all positions with altitude, all trailing source-data bytes", "why_tests_cant": "all trailing bytes", "anchors": ["libs/egts/egts_sr_pos_data.go:Decode"]}
{"id": "C26", "title": "Extended position round trip", "statement": "For every combination of the five existence flags and all values, decoding the encoding of an extended-position subrecord reproduces every field marked as existing.", "quantifier": "all flag combinations and values", "why_tests_cant": "32 combinations times all values", "anchors": ["libs/egts/egts_sr_ext_pos_data.go"]}
{"id": "C27", "title": "Analog/digital sensor subrecord round trip", "statement": "For every combination of the sixteen existence flags and all values below their field width, decoding the encoding of a sensor subrecord reproduces flags and values.", "quantifier": "all 65536 flag combinations and all values", "why_tests_cant": "65536 combinations times all values; the test uses a symmetric one", "anchors": ["libs/egts/egts_sr_ad_sensors_data.go"]}
{"id": "C28", "title": "Counter subrecord: counter i is delivered as counter i", "statement": "For every combination of the eight existence flags and all 24-bit values, decoding delivers the i-th transmitted counter in field Counter_i.", "quantifier": "all flag combinations and values", "why_tests_cant": "256 combinations times all values", "anchors": ["libs/egts/egts_sr_counters_data.go"]}
{"id": "C29", "title": "State, absolute counter, absolute analog and liquid-level round trips", "statement": "For all field values within their wire width, decoding the encoding reproduces the subrecord.", "quantifier": "all values", "why_tests_cant": "all values", "anchors": ["libs/egts/egts_sr_state_data.go", "libs/egts/egts_sr_abs_cntr_data.go", "libs/egts/egts_sr_abs_an_sensors_data.go", "libs/egts/egts_sr_liquid_level_sensor.go"]}
{"id": "C30", "title": "Identification subrecords round trip", "statement": "Login/password (no NUL bytes), dispatcher identity and terminal identity (fields of their fixed widths, every combination of the optional fields) survive Encode then Decode.", "quantifier": "all strings of any length, all flag combinations", "why_tests_cant": "unbounded strings, 256 flag combinations", "anchors": ["libs/egts/egts_sr_auth_info.go", "libs/egts/egts_sr_dispatcher_identity.go", "libs/egts/egts_sr_term_identity.go"]}
{"id": "C31", "title": "Response sections round trip", "statement": "Packet responses (with or without nested record responses), record responses and result codes survive Encode then Decode.", "quantifier": "all values; all lists of nested records", "why_tests_cant": "unbounded lists", "anchors": ["libs/egts/egts_pt_response.go", "libs/egts/egts_sr_response.go", "libs/egts/egts_sr_result_code.go"]}
{"id": "C32", "title": "Server behaviour does not depend on TCP segmentation", "statement": "The replies sent, records saved and close/crash outcome of a connection depend only on the concatenation of the received bytes, not on how they are split into reads.", "quantifier": "all byte streams and all their segmentations", "why_tests_cant": "exponentially many segmentations", "anchors": ["cli/receiver/server/server.go:handleConn"]}
{"id": "C33", "title": "Packets on a connection are processed independently and in order", "statement": "The effects of a stream that starts with a complete packet are the effects of that packet alone followed by the effects of the rest; no state leaks from one packet to the next.", "quantifier": "all packet sequences of any length", "why_tests_cant": "all histories", "anchors": ["cli/receiver/server/server.go:handleConn"]}
{"id": "C34", "title": "The server consumes exactly one frame per packet", "statement": "For every header the server reads exactly HL bytes plus, if FDL>0, FDL+2 more, so that it stays in step with the sender.", "quantifier": "all headers", "why_tests_cant": "all HL/FDL combinations including 16-bit overflow", "anchors": ["cli/receiver/server/server.go:handleConn"]}
{"id": "C35", "title": "Every accepted data packet gets exactly one positive acknowledgement", "statement": "For every accepted APPDATA packet without record responses the server sends exactly one RESPONSE packet; decoding it succeeds and gives the packet identifier of the request, result 0, and one record confirmation per received record, in order, with that record's number and status OK.", "quantifier": "all accepted packets with any number of records", "why_tests_cant": "unbounded record counts; length fields could overflow", "anchors": ["cli/receiver/server/server.go:handleConn", "cli/receiver/server/server.go:createPtResponse"]}
{"id": "C36", "title": "Every rejected packet is answered with its identifier and the decode result code", "statement": "For every framed packet that Decode rejects, the server sends exactly one RESPONSE packet that carries the identifier found in bytes 7-8 of the packet and the result code of Decode, saves nothing and keeps the connection.", "quantifier": "all rejected packets", "why_tests_cant": "all malformed inputs", "anchors": ["cli/receiver/server/server.go:handleConn", "cli/receiver/server/server.go:createPtResponse"]}
{"id": "C37", "title": "Acknowledgements are never acknowledged", "statement": "The server sends nothing and saves nothing for accepted RESPONSE packets and for accepted APPDATA packets that contain a record response, and it answers the answers of another gate to its own packets with silence after at most two rounds, so two gates cannot ping-pong for ever.", "quantifier": "all packets", "why_tests_cant": "all packets", "anchors": ["cli/receiver/server/server.go:handleConn"]}
{"id": "C38", "title": "All positions of a packet are exported exactly once, in order", "statement": "For an accepted APPDATA packet (without record responses), if it contains at least one position then exactly one record is saved; its location list is exactly the positions of the packet in order of appearance and its count equals the list length; with no position nothing is saved.", "quantifier": "all packets with any number of records and subrecords", "why_tests_cant": "unbounded structure", "anchors": ["cli/receiver/server/server.go:handleConn", "cli/receiver/storage/packet.go"]}
{"id": "C39", "title": "Exported identity fields", "statement": "The saved record carries the server id, the object identifier of the last record, the IMEI of the last terminal-identity subrecord (empty if none), and the time stamp of the last position.", "quantifier": "all accepted packets", "why_tests_cant": "unbounded structure", "anchors": ["cli/receiver/server/server.go:handleConn", "cli/receiver/storage/packet.go"]}
{"id": "C40", "title": "Exported sensor readings", "statement": "The saved analog sensors are, in order of appearance, exactly the readings present in sensor subrecords (numbers 1-8 with their values) and absolute analog subrecords; each liquid-level subrecord is exported once with its value in millimetres for units 00/01 and in litres (value/10) for unit 10.", "quantifier": "all accepted packets", "why_tests_cant": "unbounded structure", "anchors": ["cli/receiver/server/server.go:handleConn", "cli/receiver/storage/packet.go"]}
{"id": "C41", "title": "Record number assembled from counters 110 and 111", "statement": "If a record carries absolute counter 110 (three low bytes) followed by 111 (high byte), the exported packet id is value110 + 2^24 * value111.", "quantifier": "all counter values", "why_tests_cant": "2^32 values", "anchors": ["cli/receiver/server/server.go:handleConn"]}
{"id": "C42", "title": "Exported coordinates are signed by hemisphere", "statement": "A position flagged southern (LAHS=1) is exported with negative latitude and one flagged western (LOHS=1) with negative longitude.", "quantifier": "all positions", "why_tests_cant": "all positions", "anchors": ["cli/receiver/server/server.go:handleConn", "libs/egts/egts_sr_pos_data.go"]}
{"id": "C43", "title": "A positive acknowledgement means the data was stored", "statement": "At every point of every run, every position packet that has been acknowledged positively has been successfully saved to the storage.", "quantifier": "all packet sequences, all storage failure patterns, all crash points", "why_tests_cant": "all fault patterns and crash points", "anchors": ["cli/receiver/server/server.go:handleConn", "cli/receiver/storage/store.go:Save"]}
{"id": "C44", "title": "Authorisation result is delivered in a decodable packet", "statement": "After a packet with login or terminal identity the server sends, after the acknowledgement, a packet from which an EGTS decoder obtains the result code OK.", "quantifier": "all packet identifiers and all accepted packets", "why_tests_cant": "all packets", "anchors": ["cli/receiver/server/server.go:createSrResultCode", "cli/receiver/server/server.go:handleConn"]}
{"id": "C45", "title": "Non-EGTS traffic is dropped without reply", "statement": "If the first byte of a packet is not 1 the server, once ten bytes of it have arrived or the peer has closed, closes the connection without sending or saving anything for it, whatever follows.", "quantifier": "all streams", "why_tests_cant": "all streams", "anchors": ["cli/receiver/server/server.go:handleConn"]}
{"id": "C46", "title": "No byte stream can crash the server", "statement": "Whatever a client sends, the server process does not panic.", "quantifier": "all byte streams", "why_tests_cant": "all malformed headers", "anchors": ["cli/receiver/server/server.go:handleConn", "libs/egts/egts_pkg.go:Decode"]}
{"id": "C47", "title": "Connections are isolated", "statement": "For every interleaving of any number of connections, each connection receives exactly the replies it would receive alone, and the saved records of each connection are those it would produce alone, in order.", "quantifier": "all interleavings of any number of connections", "why_tests_cant": "all schedules", "anchors": ["cli/receiver/server/server.go:Run", "cli/receiver/server/server.go:handleConn", "cli/receiver/storage/store.go"]}
{"id": "C48", "title": "Idle connections are closed after conn_ttl", "statement": "If a client sends nothing for longer than conn_ttl the server closes the connection.", "quantifier": "all arrival schedules and ttl values", "why_tests_cant": "time-dependent; all schedules", "anchors": ["cli/receiver/server/server.go:handleConn", "README.md"]}
{"id": "C49", "title": "Stop ends the server", "statement": "After Stop() the accept loop of Run() terminates.", "quantifier": "all histories of accepted connections before Stop", "why_tests_cant": "all schedules", "anchors": ["cli/receiver/server/server.go:Run", "cli/receiver/server/server.go:Stop"]}
{"id": "C50", "title": "Fan-out to storages", "statement": "Repository.Save offers the record to the registered storages in registration order, stops at the first failure and returns that failure, and returns nil exactly when every storage accepted the record.", "quantifier": "all lists of storages and all failure patterns", "why_tests_cant": "unbounded lists", "anchors": ["cli/receiver/storage/store.go:Save"]}
{"id": "C51", "title": "Loading storages from the configuration", "statement": "LoadStorages fails on an empty section and on any unknown name, succeeds only if every configured storage is known and initialised, and then exactly the configured storages are registered, whatever the iteration order; a failed load leaves main with a working (logging) storage.", "quantifier": "all configurations and all map iteration orders", "why_tests_cant": "map iteration order is random", "anchors": ["cli/receiver/storage/store.go:LoadStorages", "cli/receiver/main.go"]}
{"id": "C52", "title": "Redis database number defaults to 0", "statement": "Initialising the redis storage without a db parameter selects database 0.", "quantifier": "all configurations without db", "why_tests_cant": "all configurations", "anchors": ["cli/receiver/storage/store/redis/connector.go:Init"]}
{"id": "C53", "title": "A failing storage only produces an error", "statement": "Storage.Save reports a failed publication as an error value and never panics.", "quantifier": "all storages and all backend failures", "why_tests_cant": "all fault patterns", "anchors": ["cli/receiver/storage/store/redis/connector.go:Save", "cli/receiver/storage/store/nats/connector.go:Save", "cli/receiver/storage/store/rabbitmq/connector.go:Save", "cli/receiver/storage/store/postgresql/connector.go:Save", "cli/receiver/storage/store/nsq/connector.go:Save", "cli/receiver/storage/store/tarantool_queue/connector.go:Save"]}
{"id": "C54", "title": "Configuration accessors", "statement": "The listen address is host:port, the log level follows the named level and is INFO for every other string, and the connection ttl is conn_ttl seconds for every conn_ttl whose nanosecond value fits 63 bits.", "quantifier": "all settings", "why_tests_cant": "all strings and integers", "anchors": ["cli/receiver/config/config.go"]}
{"id": "C55", "title": "packet-gen and the server agree end to end", "statement": "For every packet id 1..65535, object id 1..2^32-1, liquid level 0..2^32-1, latitude 0..90 and longitude 0..180 given to packet-gen, the server accepts the packet however it is split into reads, saves exactly one record with that object id, packet id, liquid level and those coordinates up to the wire resolution, and sends one answer; packet-gen, if it reads this answer within its timeout, reports success.", "quantifier": "all argument values", "why_tests_cant": "all argument values", "anchors": ["cli/packet-gen/main.go", "cli/receiver/server/server.go", "libs/egts/egts_pkg.go"]}
{"id": "C56", "title": "packet-gen sends the requested time", "statement": "The navigation time in the generated packet is the one given by -time.", "quantifier": "all valid timestamps", "why_tests_cant": "all timestamps", "anchors": ["cli/packet-gen/main.go"]}
{"id": "C57", "title": "Shape of the exported JSON", "statement": "The JSON document given to every storage has exactly the documented keys, and its list-valued members are arrays.", "quantifier": "all exported records", "why_tests_cant": "all records", "anchors": ["cli/receiver/storage/packet.go", "cli/receiver/storage/default.go"]}
{"id": "C58", "title": "Checksums detect every odd number of bit errors", "statement": "Two byte strings of equal length that differ in an odd number of bits never have the same header checksum nor the same body checksum.", "quantifier": "all pairs of byte strings of equal length", "why_tests_cant": "unbounded pairs", "anchors": ["libs/egts/crc.go:crc8", "libs/egts/crc.go:crc16"]}
{"id": "C59", "title": "Checksums detect every double bit error within their period", "statement": "Two byte strings of equal length that differ in exactly two bits less than 32767 positions apart never have the same body checksum; less than 127 positions apart, never the same header checksum.", "quantifier": "all pairs of byte strings and all two positions", "why_tests_cant": "unbounded pairs", "anchors": ["libs/egts/crc.go:crc8", "libs/egts/crc.go:crc16"]}
{"id": "C60", "title": "The documented configuration file sets the connection ttl", "statement": "A configuration file with the keys of the shipped configs/receiver.yaml and of the README yields settings with the values written in the file, in particular a connection ttl of the given number of seconds.", "quantifier": "all values of the keys of the shipped configuration", "why_tests_cant": "all values; the shipped file is not covered by a test", "anchors": ["cli/receiver/config/config.go:New", "configs/receiver.yaml", "README.md"]}
{"id": "C61", "title": "From the library to the storage", "statement": "Every well-formed APPDATA package built with the library (protocol version 1, no record responses, total length below 65536) is encoded; the server, however the bytes are split into reads, answers it with one positive acknowledgement that confirms every record, keeps the connection, and saves, exactly if the package has a position, one record that reports all its positions (up to the wire resolution), sensors, identifiers and times.", "quantifier": "all well-formed packages of all sizes and all segmentations", "why_tests_cant": "unbounded packages; composition of encoder, decoder and server", "anchors": ["libs/egts/egts_pkg.go:Encode", "libs/egts/egts_pkg.go:Decode", "cli/receiver/server/server.go:handleConn"]}
{"id": "C62", "title": "packet-gen's exit status tells success from failure", "statement": "packet-gen ends with exit status 0 after the packet was sent and confirmed, and with another status otherwise.", "quantifier": "all arguments, network conditions and answers", "why_tests_cant": "all answers of a peer", "anchors": ["cli/packet-gen/main.go"]}
{"id": "C63", "title": "packet-gen waits for the answer as documented", "statement": "packet-gen waits for the answer for the number of seconds given by -timeout, 5 if the option is absent.", "quantifier": "all timeouts and all delays of the answer", "why_tests_cant": "time-dependent; all delays", "anchors": ["cli/packet-gen/main.go", "README.md"]}
{"id": "C64", "title": "packet-gen reports success only for a confirmed record", "statement": "packet-gen reports success only if it has read a RESPONSE packet for its packet with result 0 that confirms its record with status 0, and no answer makes it panic.", "quantifier": "all answers", "why_tests_cant": "all byte strings as answers", "anchors": ["cli/packet-gen/main.go"]}
{"id": "C65", "title": "packet-gen accepts the answer however it is segmented", "statement": "A correct answer that arrives within the timeout is accepted, whether it arrives at once or in pieces.", "quantifier": "all answers and all their segmentations", "why_tests_cant": "exponentially many segmentations", "anchors": ["cli/packet-gen/main.go"]}
{"id": "C66", "title": "Nothing is invented", "statement": "In every run, every saved record is the report of an accepted data packet contained in the received bytes, and every packet sent is one complete frame that answers, with its identifier, a packet contained in the received bytes.", "quantifier": "all byte streams, segmentations and endings of a connection", "why_tests_cant": "all streams", "anchors": ["cli/receiver/server/server.go:handleConn"]}
{"id": "C67", "title": "The exported JSON document determines the record", "statement": "Two saved records with the same JSON document have the same identifiers, times, positions and IMEI.", "quantifier": "all pairs of saved records", "why_tests_cant": "all pairs", "anchors": ["cli/receiver/storage/packet.go:ToBytes"]}
{"id": "C68", "title": "Saved records are well-formed", "statement": "Every saved record has at least one location; every location has a latitude from 0 to 90, a longitude from 0 to 180, a speed below 1639 km/h and a time written as an RFC 3339 text that denotes 2010-01-01T00:00:00Z plus the number of seconds sent by the terminal; the record's time is the instant denoted by the text of its last location; numbers, error flags and units of liquid sensors are in range. Different instants have different texts.", "quantifier": "all byte streams received by the server, all instants", "why_tests_cant": "all streams; all 2^32 instants", "anchors": ["cli/receiver/server/server.go:handleConn", "cli/receiver/storage/packet.go:NavRecord"]}
{"id": "C69", "title": "Fields of subrecords are read from their specified offsets", "statement": "For every complete subrecord (state, liquid sensor, absolute counter, absolute sensor, result code, dispatcher identity, record response, extended position, sensors, terminal identity, authentication), whatever its bytes, every field of the decoded subrecord is the little-endian number, bit or text at the offset of the specification, where the offset of an optional field depends on which optional fields before it are announced by the flags.", "quantifier": "all byte strings and all combinations of flags", "why_tests_cant": "2^16 flag combinations times all field values", "anchors": ["libs/egts/egts_sr_term_identity.go:Decode", "libs/egts/egts_sr_ad_sensors_data.go:Decode", "libs/egts/egts_sr_ext_pos_data.go:Decode", "libs/egts/egts_sr_auth_info.go:Decode", "libs/egts/egts_sr_state_data.go:Decode", "libs/egts/egts_sr_liquid_level_sensor.go:Decode"]}
{"id": "C70", "title": "The bytes of every answer", "statement": "The answer to a packet is, byte for byte, the packet of the standard: protocol version 1, empty prefix, plain flags, header length 11, frame length, packet identifier one more than that of the answered packet, packet type 0, header checksum; then the identifier and result of the answered packet and, for an acknowledged data packet with records, one record numbered 1 that confirms all received record numbers in order, with the source service of the last received record as source and recipient service; then the body checksum. Two answers are equal only if identifier, result and confirmations are.", "quantifier": "all received packets", "why_tests_cant": "all packets; all bytes of the answers", "anchors": ["cli/receiver/server/server.go:handleConn", "cli/receiver/server/server.go:createPtResponse", "cli/receiver/server/server.go:createSrResultCode"]}
{"id": "C71", "title": "Wire grammar of the body", "statement": "Every body that is the concatenation of the wire forms of records (header with the optional fields announced by its flags, then subrecords of the announced type and length whose contents decode by the specified layout) decodes to exactly those records in that order; no body has two such readings.", "quantifier": "all byte strings and all lists of records", "why_tests_cant": "unbounded bodies", "anchors": ["libs/egts/service_data_records.go:Decode", "libs/egts/record_data.go:Decode"]}
{"id": "C72", "title": "Only complete bodies are accepted", "statement": "A body is accepted only if every record has all the subrecord bytes that it announces and every subrecord has all the content bytes that it announces.", "quantifier": "all byte strings", "why_tests_cant": "unbounded bodies", "anchors": ["libs/egts/service_data_records.go:Decode", "libs/egts/record_data.go:Decode"]}
{"id": "C73", "title": "Packets that conform to the standard are accepted and served", "statement": "Every packet with a header and checksums as specified, whose body is a sequence of complete records and subrecords as specified, is accepted with result 0 and decoded to those records; the server answers it, if it is a data packet without record responses, with a positive acknowledgement of all its records.", "quantifier": "all conforming byte strings", "why_tests_cant": "unbounded packets; written against the wire format, not against the encoder", "anchors": ["libs/egts/egts_pkg.go:Decode", "cli/receiver/server/server.go:handleConn"]}
{"id": "C74", "title": "Exactly the right packets are accepted", "statement": "A complete frame whose header length field is right is accepted with given contents exactly if its header checksum, body checksum, lengths and type are right and its body is, byte for byte, a wire form of these contents; in particular a RESPONSE body with stray bytes is rejected.", "quantifier": "all frames, all contents", "why_tests_cant": "all frames; an equivalence", "anchors": ["libs/egts/egts_pkg.go:Decode", "libs/egts/egts_pt_response.go:Decode"]}
{"id": "C75", "title": "PostgreSQL is contacted with the configured parameters", "statement": "For every configuration of the PostgreSQL storage, the database, host, port, user, password and TLS mode used for the connection are the configured values.", "quantifier": "all configured values", "why_tests_cant": "all texts, including empty ones and ones with blanks", "anchors": ["cli/receiver/storage/store/postgresql/connector.go:Init"]}
{"id": "C76", "title": "RabbitMQ is contacted with the configured parameters", "statement": "For every configuration of the RabbitMQ storage, the user, password, host and port used for the connection are the configured values.", "quantifier": "all configured values", "why_tests_cant": "all texts, including reserved characters of URIs", "anchors": ["cli/receiver/storage/store/rabbitmq/connector.go:Init"]}
{"id": "C77", "title": "Storages get the records and nothing but the records", "statement": "Whatever the storages answer, the messages sent to them are, in order and without repetition, taken from one message per saved record and configured storage, and all of these if no storage fails. The message body or query argument is the serialised record; query text, exchange, topic and queue come from the configuration alone, so data of a client cannot change them.", "quantifier": "all records, all storages, all histories of failures", "why_tests_cant": "all interleavings of successes and failures", "anchors": ["cli/receiver/storage/store.go:Save", "cli/receiver/storage/store/postgresql/connector.go:Save", "cli/receiver/storage/store/rabbitmq/connector.go:Save", "cli/receiver/storage/store/nats/connector.go:Save", "cli/receiver/storage/store/nsq/connector.go:Save", "cli/receiver/storage/store/tarantool_queue/connector.go:Save", "cli/receiver/storage/store/redis/connector.go:Save"]}
{"id": "C78", "title": "Documented storage options are honoured", "statement": "For all values of the options documented for the nats, nsq and tarantool storages, the connection uses these values: server addresses, topic, credentials, and numbers as seconds and counts.", "quantifier": "all option values", "why_tests_cant": "all values, including numbers that overflow", "anchors": ["cli/receiver/storage/store/nats/connector.go:Init", "cli/receiver/storage/store/nsq/connector.go:Init", "cli/receiver/storage/store/tarantool_queue/connector.go:Init"]}
{"id": "C79", "title": "A record saved to redis can be consumed later", "statement": "Redis is documented as a queue: a record saved successfully is available to a consumer that connects afterwards.", "quantifier": "all records, all server states", "why_tests_cant": "all states of the server", "anchors": ["cli/receiver/storage/store/redis/connector.go:Save"]}
{"id": "C80", "title": "Telematic messages are encoded as their schema says", "statement": "Encode of an EGTS_SR_EGTSPLUS_DATA message succeeds exactly if the required fields are set, and its bytes are those docs/egts_sr_egtsplus_data.proto prescribes: every field that is set, with its number, wire type and value encoding, in ascending order of the numbers, then the unknown fields.", "quantifier": "all messages", "why_tests_cant": "unbounded lists of sensors, 18 nested message types, every combination of optional fields", "anchors": ["libs/egts/egts_sr_egtsplus_data.go:StorageRecord", "libs/egts/egts_sr_egtsplus_data.go:Encode"]}
{"id": "C81", "title": "Telematic messages survive encoding and decoding", "statement": "Any list of EGTS_SR_EGTSPLUS_DATA messages with their required fields, encoded as subrecords, is decoded to the same messages.", "quantifier": "all lists of messages", "why_tests_cant": "unbounded lists and byte fields, every combination of optional fields", "anchors": ["libs/egts/egts_sr_egtsplus_data.go:Encode", "libs/egts/egts_sr_egtsplus_data.go:Decode", "libs/egts/record_data.go:Decode"]}
{"id": "C82", "title": "Accepted telematic messages are complete and can be passed on", "statement": "Every EGTS_SR_EGTSPLUS_DATA message accepted from the wire has its required fields, can be encoded again, and decoding the result gives the same message, including fields unknown to this version.", "quantifier": "all byte strings", "why_tests_cant": "all byte strings, including fields in any order, repeated and unknown fields and groups", "anchors": ["libs/egts/egts_sr_egtsplus_data.go:Decode", "libs/egts/egts_sr_egtsplus_data.go:Encode"]}
{"id": "C83", "title": "Identifiers of terminals survive encoding and decoding", "statement": "A terminal identity with an IMEI or IMSI of any length is decoded with the same IMEI and IMSI, and its other fields unharmed.", "quantifier": "all identities, all lengths", "why_tests_cant": "all lengths and contents", "anchors": ["libs/egts/egts_sr_term_identity.go:Encode", "libs/egts/egts_sr_term_identity.go:Decode"]}
{"id": "C84", "title": "Storages get JSON text", "statement": "Whatever a record contains (an IMEI is 15 arbitrary bytes from the network), ToBytes gives UTF-8 text that is JSON by RFC 8259 and is read as the document of the record: same keys, numbers and texts (invalid UTF-8 replaced by U+FFFD).", "quantifier": "all records", "why_tests_cant": "arbitrary bytes in texts, unbounded lists", "anchors": ["cli/receiver/storage/packet.go:ToBytes", "cli/receiver/storage/packet.go:NavRecord"]}
{"id": "C85", "title": "The whole behaviour of a connection", "statement": "For every stream of bytes a client sends, in every segmentation and with every end, the connection does exactly this: the stream is cut into packets in the only possible way, and each packet in turn is rejected with an answer, acknowledged (and stored if it holds a position, and answered with an authorisation result if it holds a login), or ignored, until the stream ends or a packet crashes the process; nothing else is sent or stored.", "quantifier": "all byte streams, segmentations, ends, clocks and buffer capacities", "why_tests_cant": "the streams are arbitrary and unbounded", "anchors": ["cli/receiver/server/server.go:handleConn"]}
{"id": "C86", "title": "A client cannot make the server send or store more than it sends itself", "statement": "For every stream of bytes, the server stores at most one record and sends at most two packets for each packet received; on a connection it sends at most 4.4 times the bytes received and stores at most one record per ten bytes.", "quantifier": "all byte streams", "why_tests_cant": "unbounded streams, worst case over all contents", "anchors": ["cli/receiver/server/server.go:handleConn", "libs/egts/egts_pkg.go:Decode"]}
{"id": "C87", "title": "A packet passed on is unchanged", "statement": "Decoding a packet and encoding the decoded package gives back the same packet, byte for byte: for every packet that conforms to the standard, whatever records and subrecords it holds.", "quantifier": "all packets, records and subrecords", "why_tests_cant": "unbounded bodies; every combination of flags, lengths and contents", "anchors": ["libs/egts/egts_pkg.go:Decode", "libs/egts/egts_pkg.go:Encode", "libs/egts/record_data.go:Encode", "libs/egts/service_data_records.go:Encode"]}
{"id": "C88", "title": "A decoded package can be changed and encoded again", "statement": "If records or subrecords of a decoded package are added, replaced or removed, or its identifier is changed, Encode gives a packet that is decoded to the changed package, and to nothing else.", "quantifier": "all accepted packets, all changes", "why_tests_cant": "unbounded bodies and arbitrary changes", "anchors": ["libs/egts/egts_pkg.go:Encode", "libs/egts/record_data.go:Encode", "libs/egts/service_data_records.go:Encode"]}
{"id": "C89", "title": "Encoding a package again gives the same bytes", "statement": "Encode changes nothing of a package but its header length (if it was 0) and its body length; encoding it again gives the same bytes and changes nothing.", "quantifier": "all packages that can be encoded", "why_tests_cant": "arbitrary packages, including malformed ones", "anchors": ["libs/egts/egts_pkg.go:Encode"]}
{"id": "C90", "title": "The packet of packet-gen, byte by byte", "statement": "packet-gen sends one packet with correct checksums: priority 2, the packet identifier, one record (number 1, priority 2, object, event 3436, services 2 and 2) with one position (the given coordinates, speed 34 km/h, direction 172, odometer 19.1 km, inputs 0x90, altitude 30 m) and one liquid level (the given one, sensor 1, module 1); nothing is sent without a packet identifier, an object identifier and a time.", "quantifier": "all arguments", "why_tests_cant": "arguments are arbitrary 64-bit integers, floating-point numbers and strings", "anchors": ["cli/packet-gen/main.go:main", "libs/egts/egts_pkg.go:Encode", "libs/egts/egts_sr_pos_data.go:Encode"]}
{"id": "C91", "title": "packet-gen sends the position it is given, in all hemispheres", "statement": "The position in the packet is the one given by -lat and -lon, with the hemisphere flags set for negative values.", "quantifier": "all coordinates", "why_tests_cant": "continuous domain", "anchors": ["cli/packet-gen/main.go:main", "libs/egts/egts_sr_pos_data.go:Encode"]}
{"id": "C92", "title": "Positions are exported under their own object", "statement": "Every position of an accepted data packet is saved in a record that carries the object identifier of the position's own record, and every saved location is a position of the object named with it.", "quantifier": "all accepted data packets, with any number of records of any objects", "why_tests_cant": "unbounded number of records and objects", "anchors": ["cli/receiver/server/server.go:handleConn"]}
{"id": "C93", "title": "Acknowledged sensor readings are stored", "statement": "Every analog reading and every liquid level of a data packet that is acknowledged is in a saved record.", "quantifier": "all accepted data packets", "why_tests_cant": "arbitrary combinations of subrecords", "anchors": ["cli/receiver/server/server.go:handleConn"]}
{"id": "C94", "title": "Packets sent by the server have different identifiers", "statement": "If the packets of a client have pairwise different identifiers, so have the packets the server sends on that connection.", "quantifier": "all streams, all segmentations", "why_tests_cant": "unbounded streams", "anchors": ["cli/receiver/server/server.go:createPtResponse", "cli/receiver/server/server.go:createSrResultCode", "cli/receiver/server/server.go:handleConn"]}
{"id": "C95", "title": "A packet that is sent again is not stored twice", "statement": "A terminal that gets no acknowledgement sends its packet again; the data is then stored once.", "quantifier": "all data packets, any number of repetitions", "why_tests_cant": "unbounded number of repetitions", "anchors": ["cli/receiver/server/server.go:handleConn"]}
{"id": "C96", "title": "Positions without a valid fix are not exported as positions", "statement": "Every exported location is that of a position flagged valid (VLD = 1).", "quantifier": "all accepted data packets", "why_tests_cant": "arbitrary combinations of subrecords", "anchors": ["cli/receiver/server/server.go:handleConn", "libs/egts/egts_sr_pos_data.go:SrPosData", "cli/receiver/storage/packet.go:LocState"]}
{"id": "C97", "title": "A client that does not read its answers is released", "statement": "A client that sends packets and stops reading the answers does not hold its connection handler for ever; until then it is served like any other client.", "quantifier": "all streams, all buffer sizes", "why_tests_cant": "buffer sizes and streams are unbounded", "anchors": ["cli/receiver/server/server.go:handleConn"]}
{"id": "C98", "title": "A client cannot put line breaks or markup into the stored text", "statement": "The text stored for a record is UTF-8 on a single line without control characters and without <, >, &, U+2028 and U+2029, whatever bytes the client sent as its texts.", "quantifier": "all records, with arbitrary bytes in the texts", "why_tests_cant": "the texts are arbitrary byte strings chosen by the client", "anchors": ["cli/receiver/storage/packet.go:ToBytes"]}
{"id": "C99", "title": "The receiver starts exactly as configured", "statement": "The receiver serves if and only if it is given a configuration file that can be read and the configured address can be listened at; it then listens at host:port, uses the configured silence limit and log level, and the configured storages if all of them can be initialised, otherwise also the log storage; it never serves without a storage.", "quantifier": "all configuration files, all behaviours of the storages", "why_tests_cant": "arbitrary configurations and environments", "anchors": ["cli/receiver/main.go:main", "cli/receiver/config/config.go:New", "cli/receiver/server/server.go:Run"]}
{"id": "C100", "title": "The server listens at the configured host and port", "statement": "The address the server listens at consists of the configured host and port.", "quantifier": "all hosts and ports", "why_tests_cant": "hosts and ports are arbitrary texts, among them IPv6 addresses", "anchors": ["cli/receiver/config/config.go:GetListenAddress", "cli/receiver/server/server.go:Run"]}
{"id": "C101", "title": "The storages in use do not depend on the order in which a map is iterated", "statement": "For one configuration and one environment, the set of storages the receiver uses is the same for every order in which Go iterates over the map of storages.", "quantifier": "all configurations, all iteration orders", "why_tests_cant": "iteration order is random in Go", "anchors": ["cli/receiver/storage/store.go:LoadStorages", "cli/receiver/main.go:main"]}
{"id": "C102", "title": "From configuration file and bytes to calls of the storages", "statement": "A receiver started with a configuration whose storages can be initialised, that gets any segmentation of a stream of data packets, makes for every record due one save call for every configured storage, in order, and no others.", "quantifier": "all configurations, streams and segmentations", "why_tests_cant": "unbounded streams, arbitrary segmentation, arbitrary configurations", "anchors": ["cli/receiver/main.go:main", "cli/receiver/server/server.go:handleConn", "cli/receiver/storage/store.go:Save"]}
{"id": "C103", "title": "Values that do not fit their wire field are refused by Encode", "statement": "Encode of a position or of an absolute counter or sensor fails if a field does not fit the wire format, and otherwise the field arrives unchanged.", "quantifier": "all values of all fields", "why_tests_cant": "the fields have 2^32 and more values", "anchors": ["libs/egts/egts_sr_pos_data.go:Encode", "libs/egts/egts_sr_abs_cntr_data.go:Encode", "libs/egts/egts_sr_abs_an_sensors_data.go:Encode"]}
{"id": "C104", "title": "The log storage prints the record that the other storages get", "statement": "What the log storage prints for a record is a JSON text that reads as the document of the record and differs from the text given to the other storages only in white space between tokens.", "quantifier": "all records, with arbitrary bytes in the texts", "why_tests_cant": "the texts are arbitrary byte strings, which may contain quotes, braces and backslashes", "anchors": ["cli/receiver/storage/default.go:Save"]}
{"id": "C105", "title": "The JSON form of a package contains the package", "statement": "The text Package.ToBytes returns is JSON; it is read as an object with every field of the package, its records and subrecords under the abbreviations of the protocol, times in RFC 3339, byte strings in base64; different packages have different texts.", "quantifier": "all packages, with arbitrary bytes in their texts", "why_tests_cant": "packages are unbounded trees with arbitrary texts", "anchors": ["libs/egts/egts_pkg.go:ToBytes"]}
{"id": "C106", "title": "Every decoded package can be written as JSON", "statement": "Package.ToBytes returns a text for every package that Decode accepts.", "quantifier": "all byte strings accepted by Decode", "why_tests_cant": "all byte strings", "anchors": ["libs/egts/egts_pkg.go:ToBytes", "libs/egts/egts_pkg.go:Decode", "libs/egts/egts_sr_egtsplus_data.go:SensFuelLevel"]}
{"id": "C107", "title": "Encode writes the flags it is given, or fails", "statement": "The flags of packages, records and subrecords are given to Encode as texts. Encode fails if they are not binary digits or do not fit their byte, and otherwise writes each flag into its bit.", "quantifier": "all texts as flags, all other fields", "why_tests_cant": "flags are arbitrary strings", "anchors": ["libs/egts/egts_pkg.go:Encode", "libs/egts/service_data_records.go:Encode", "libs/egts/egts_sr_pos_data.go:Encode", "libs/egts/egts_sr_term_identity.go:Encode", "libs/egts/egts_sr_ad_sensors_data.go:Encode", "libs/egts/egts_sr_counters_data.go:Encode", "libs/egts/egts_sr_ext_pos_data.go:Encode", "libs/egts/egts_sr_state_data.go:Encode", "libs/egts/egts_sr_liquid_level_sensor.go:Encode"]}
{"id": "C108", "title": "Telematic messages are read whatever the order of their fields", "statement": "StorageRecord.Decode accepts a message whose fields, and the fields of its submessages, come in any order, repeatedly, with reasons packed or single and unknown fields between them, exactly if the required fields are among them; of a field that occurs several times the last value counts, repeated fields are put together, unknown fields are kept; two messages put together are read as both merged.", "quantifier": "all sequences of fields, all pairs of accepted messages", "why_tests_cant": "unbounded sequences of fields", "anchors": ["libs/egts/egts_sr_egtsplus_data.go:Decode", "docs/egts_sr_egtsplus_data.proto"]}
{"id": "C109", "title": "Coordinates and levels are stored exactly", "statement": "Whatever is received, the latitude, longitude and litres of every record that is given to a storage are written in its text as JSON numbers that a reader of float64 numbers reads as exactly the same values, with as few digits as possible; so the whole record is read back, up to the replacement of malformed UTF-8 in the IMEI. The same holds for the numbers in the JSON form of packages.", "quantifier": "all float64 and float32 values, all byte streams", "why_tests_cant": "2^64 values; the shortest decimal depends on the neighbours of a float", "anchors": ["cli/receiver/storage/packet.go:ToBytes", "libs/egts/egts_pkg.go:ToBytes", "cli/receiver/server/server.go:handleConn"]}
{"id": "C110", "title": "Telematic messages appear in the JSON form under the names of the .proto file", "statement": "In the JSON form of a package a telematic message is an object whose members are exactly the fields the message has, in the order and under the names of the .proto file, with the values sent under the field's number; repeated fields are arrays. Two messages have the same JSON form exactly if they agree in all fields of the .proto file, up to empty byte strings and the sign of zero; unknown fields are not shown.", "quantifier": "all messages, all packages with messages", "why_tests_cant": "18 kinds of submessages with optional fields and unbounded repetition", "anchors": ["libs/egts/egts_sr_egtsplus_data.go:StorageRecord", "docs/egts_sr_egtsplus_data.proto", "libs/egts/egts_pkg.go:ToBytes"]}
{"id": "C111", "title": "The commands do what is typed", "statement": "packet-gen takes exactly the command lines that consist of its documented flags, each with a value that fits it (integers as Go integer literals in the range of int64, numbers as Go floating point literals, in the range of float64, correctly rounded), up to the first other argument; of a flag given several times the last value counts; otherwise it prints the usage and sends nothing. For values in the ranges of the wire format the record the server saves has the object and packet identifiers, the position and the liquid level that were typed; in particular for the example of the documentation. The receiver takes exactly the flag -c.", "quantifier": "all argument lists, all texts of numbers", "why_tests_cant": "texts of numbers are unbounded, with prefixes, underscores, exponents; rounding of every rational number", "anchors": ["cli/packet-gen/main.go:main", "cli/receiver/main.go:main"]}
{"id": "C112", "title": "Time stamps on the command line are RFC 3339", "statement": "packet-gen takes every time stamp in RFC 3339 format, with fractions of a second and offsets, as the instant it denotes, and refuses everything else.", "quantifier": "all texts", "why_tests_cant": "unbounded texts, all dates of the calendar, all offsets", "anchors": ["cli/packet-gen/main.go:main"]}
{"id": "C113", "title": "A storage starts exactly if its options are there and its server lets it connect", "statement": "Initialising a storage with a configuration section succeeds exactly if: for rabbitmq, postgresql, nats and nsq the client library connects with the parameters of the section; for tarantool_queue max_recons, timeout and reconnect are decimal 64 bit numbers and then the client library connects; for redis server and queue are present and db is a decimal 64 bit number, and nobody is contacted. A missing section is always an error. Initialisation never panics, and nobody is contacted if the section is missing or a number of tarantool_queue is.", "quantifier": "all kinds of storages, all configuration sections, all behaviours of the servers", "why_tests_cant": "the sections are arbitrary maps of strings, and the outcome depends on every server behaviour", "anchors": ["cli/receiver/storage/store/tarantool_queue/connector.go: Init", "cli/receiver/storage/store/redis/connector.go: Init", "cli/receiver/storage/store/nats/connector.go: Init", "cli/receiver/storage/store/nsq/connector.go: Init", "cli/receiver/storage/store/postgresql/connector.go: Init", "cli/receiver/storage/store/rabbitmq/connector.go: Init"]}
{"id": "C114", "title": "send_egts.py plays a file of packets completely", "statement": "tools/send_egts.py, given a file with one packet in hexadecimal per line, sends all packets of the file to the receiver, in order and unchanged, prints after each the receiver's answer to it, and ends.", "quantifier": "all files of packets, with LF or CR LF, letters of either case and white space; all receivers' environments; all ways in which the network cuts the answers", "why_tests_cant": "files, answers and segmentations are unbounded; the interplay of script and server depends on every packet", "anchors": ["tools/send_egts.py", "cli/receiver/server/server.go: handleConn"]}
{"id": "C115", "title": "One subrecord that is not understood does not cost the rest of the packet", "statement": "If a correctly framed data packet with right checksums and truthful record and subrecord lengths holds subrecords that the gate understands and one that it does not (an unsupported type, or content its decoder refuses), the data of the others are still stored and their records confirmed.", "quantifier": "all packets with any number of records and subrecords, all type codes and contents, all cuttings of the stream", "why_tests_cant": "packets are unbounded; the outcome depends on every subrecord", "anchors": ["libs/egts/record_data.go: RecordDataSet.Decode", "libs/egts/service_data_records.go: ServiceDataSet.Decode", "libs/egts/egts_pkg.go: Package.Decode", "cli/receiver/server/server.go: handleConn"]}
{"id": "C116", "title": "The work for a packet is proportional to its length", "statement": "When a packet is decoded, the number of records and subrecords read (those nested in record responses included) is at most its length in bytes: a client cannot make the gate work much with a small packet.", "quantifier": "all packets of all lengths, accepted or not, all values of the length fields, all depths of nesting", "why_tests_cant": "the bound must hold for every packet; the worst case is a crafted nesting no test generator finds", "anchors": ["libs/egts/service_data_records.go: ServiceDataSet.Decode", "libs/egts/record_data.go: RecordDataSet.Decode", "libs/egts/egts_sr_response.go: SrResponse.Decode"]}
{"id": "C117", "title": "Every client is served in the end", "statement": "As long as the process lives and the scheduler lets every handler run again and again, whatever a client has sent by some moment is answered completely from some later moment on: all the confirmations due for it have been written and all its records given to the storages. If the client closes its connection, its handler returns in the end, having done exactly what is due for the whole stream. No other client can prevent this, however much it sends.", "quantifier": "all infinite fair schedules, all numbers of connections, all data of all clients, all storages and their states", "why_tests_cant": "a liveness property of infinite executions: no finite test can show it", "anchors": ["cli/receiver/server/server.go: Run, handleConn", "cli/receiver/storage/store.go: Save"]}
{"id": "C118", "title": "The text of the configuration file", "statement": "A configuration file in the form of the shipped one (lines key: value, sections by indentation; comments, empty lines, CR LF or LF, any consistent indentation, values in quotation marks, in apostrophes or plain, keys in any order, unknown keys) has exactly one meaning and is never refused; each setting is the value under its key or empty if the key is missing; the receiver then listens at host:port, logs at the level, has a timer of conn_ttl seconds and the storages of the file, or the log if there are none. The shipped file and that of the unit test are of this form.", "quantifier": "all files of the form, all paths, all storages, all orders of map iteration, every YAML library that reads these files as YAML defines them", "why_tests_cant": "all texts; the unit test has one", "anchors": ["cli/receiver/config/config.go:New", "cli/receiver/main.go:main", "configs/receiver.yaml", "cli/receiver/config/config_test.go:TestConfigLoad"]}
{"id": "C119", "title": "What the log tells", "statement": "The log of a connection tells the truth: at level INFO it consists, in the order of the stream, of the opening of the connection, one error for each rejected packet, the service of each record that is looked at, one error for each record a storage refuses, and the reason why the connection has ended; at WARN and ERROR nothing else than the errors and that reason. No level that can be configured hides an error; if every packet is accepted and stored there is none; a client cannot fill the log with more than one message per byte; logging does not change what is done. Data that is acknowledged but not stored is reported.", "quantifier": "all streams and cuttings, all ends of a stream, all storages that do not panic, all levels", "why_tests_cant": "the log is a function of the whole stream and of the storages' answers", "anchors": ["cli/receiver/server/server.go: handleConn", "cli/receiver/config/config.go: GetLogLevel", "cli/receiver/main.go: main"]}
{"id": "C120", "title": "Credentials decide, and stay secret", "statement": "Only a client that has logged in with the right user name and password can store records; other logins are refused. User names and passwords never show up in answers, stored records or the log: two clients whose streams differ only in them are treated exactly alike.", "quantifier": "all streams and cuttings, all user names and passwords of all lengths, all storages and environments", "why_tests_cant": "a statement about pairs of streams, for all contents of the logins", "anchors": ["cli/receiver/server/server.go: handleConn", "libs/egts/egts_sr_auth_info.go: SrAuthInfo"]}
{"id": "C121", "title": "Encode returns, and writes exactly what can be written", "statement": "Encode of a package returns bytes or an error and never panics. It returns bytes exactly if the flags of the header, of every record and of every subrecord that has some are binary digits of at most one byte, every subrecord has content, every telematic message can be written and no dispatcher identity is without a type code. In particular everything that Decode accepts can be encoded, whatever the receiver held before.", "quantifier": "all packages (all texts in the flags, all values of all fields, any number of records and subrecords), all accepted packets", "why_tests_cant": "the space of packages is unbounded; a refused or crashing combination is easily missed", "anchors": ["libs/egts/egts_pkg.go: Package.Encode, Package.Decode", "libs/egts/service_data_records.go: ServiceDataSet.Encode", "libs/egts/record_data.go: RecordDataSet.Encode"]}
{"id": "C122", "title": "What a device has seen confirmed is not lost", "statement": "If a device has received, on some connection, a confirmation (result OK) of a packet with positions, and used the identifier of that packet on that connection for nothing else, then a record with exactly these positions is in every storage, now and after any later crashes and restarts of the server. Before the confirmation is sent the record has been given to the storages. A connection on which the packet arrives whole and the handler gets to do its work ends with a confirmation. So a device that sends a packet again, on new connections, until it is confirmed, never loses it.", "quantifier": "all numbers of runs of the process, each killed at any point; all interleavings of all connections; all data of all clients; all storages that keep what they accept", "why_tests_cant": "a statement about all histories with crashes and reconnections", "anchors": ["cli/receiver/server/server.go: handleConn, Run", "cli/receiver/storage/store.go: Save"]}
{"id": "C123", "title": "A bounded number of turns serves a client", "statement": "Once b bytes have arrived on a connection, its handler has done exactly what is due for them (all confirmations written, all records given to all n storages) after at most (3n+8)b/10+1 turns of its own, whatever the other connections are, receive and do in between, or the process has died. Other clients can delay a client only by the turns they take, not by the work they create for its handler.", "quantifier": "all histories, all interleavings, all numbers of connections, all bytes of all clients, all storages and their states", "why_tests_cant": "a bound over all schedules and inputs", "anchors": ["cli/receiver/server/server.go: Run, handleConn", "cli/receiver/storage/store.go: Save"]}
{"id": "C124", "title": "The getters of a telematic message tell what was sent", "statement": "Whatever fields of docs/egts_sr_egtsplus_data.proto are sent in a telematic message, in any order and any number, with inner messages and unknown fields among them: if the required fields are there, StorageRecord.Decode accepts it, and afterwards every getter (its name is that of the field of the .proto file) returns the last value sent for its field, or the default value of the field's type if there was none; for reasons and inner messages all that were sent, in their order, each inner message with the last values of its own fields. If a required field is missing the message is refused. On nil pointers the getters return the default values.", "quantifier": "all sequences of fields and values, all nestings the .proto file allows, all 116 getters of the 19 message types", "why_tests_cant": "all sequences of fields; unit tests have one message and no getter", "anchors": ["libs/egts/egts_sr_egtsplus_data.go: Get* of StorageRecord and the Sens* messages, Decode", "docs/egts_sr_egtsplus_data.proto"]}
{"id": "C125", "title": "Reasons of telematic messages by name and number", "statement": "The constants, names and numbers of the reasons are those of docs/egts_sr_egtsplus_data.proto. String prints a reason by its name, any other number as a number, and different numbers differently. UnmarshalJSON reads a name in quotation marks and the number that json.Marshal writes as the reason; an unknown name is refused and leaves the reason as it was. Nothing that is not a reason is accepted.", "quantifier": "all int32 values, all JSON texts, all readers of JSON that follow RFC 8259", "why_tests_cant": "all texts and all numbers", "anchors": ["libs/egts/egts_sr_egtsplus_data.go: StorageRecordReason, StorageRecordReason_name, StorageRecordReason_value, String, UnmarshalJSON", "docs/egts_sr_egtsplus_data.proto"]}
{"id": "C126", "title": "Which bytes are a telematic message", "statement": "StorageRecord.Decode accepts exactly the byte strings that are a message storage_record of docs/egts_sr_egtsplus_data.proto in the protobuf encoding with the three required fields, and returns an error for all others. The encoding is taken with all its liberties: fields in any order and number (the last value counts; reasons and inner messages are all kept, in order), numbers in up to ten bytes of which the low 32 bits count, reasons one by one or packed, fields of other numbers or of another wire type, nested groups among them, which are kept as they are with the tag in its shortest form. No byte string is two messages.", "quantifier": "all byte strings, all messages", "why_tests_cant": "all byte strings; the liberties of the encoding are not what a writer produces, so tests that decode what was encoded never see them", "anchors": ["libs/egts/egts_sr_egtsplus_data.go: StorageRecord.Decode", "docs/egts_sr_egtsplus_data.proto"]}
{"id": "C127", "title": "Which bytes are accepted", "statement": "Whether Package.Decode accepts a byte slice can be told from the bytes alone: it does exactly if the header is complete with a right checksum, the bytes after the body are its checksum, and the body is a sequence of records whose subrecords, at any depth of records inside confirmations, have a known type and a content in which every field that the flags announce begins (a field may be incomplete only where the content ends, C72). Everything else is refused, and nothing that has this form is.", "quantifier": "all byte slices, all capacities, all states of the receiving Package; bodies of any length, confirmations nested to any depth", "why_tests_cant": "The accepted bytes are an infinite, recursive language; tests sample it, and a decoder that refuses or accepts one more shape of subrecord passes them.", "anchors": ["libs/egts/egts_pkg.go: Package.Decode", "libs/egts/service_data_records.go: ServiceDataSet.Decode", "libs/egts/record_data.go: RecordDataSet.Decode", "libs/egts/egts_sr_*.go: Decode"]}
{"id": "C128", "title": "What a connection holds", "statement": "A connection occupies a bounded part of the server, however much the client sends: a buffer for one packet and one timer.", "quantifier": "all clients: any number of packets, any segmentation, any moments of arrival, any processing times, any conn_ttl", "why_tests_cant": "The amount depends on the whole history of arrivals; a unit test sees neither the timers of the runtime nor long histories.", "anchors": ["cli/receiver/server/server.go: handleConn"]}
{"id": "C129", "title": "All storages hold the same records", "statement": "Whatever the number of connections and storages and however the handlers interleave, a storage holds nothing but the records of the packets received, those of one connection in the order in which they were sent. When everything received has been handled, all storages hold the same records, each the same number of times, in the same order.", "quantifier": "all numbers of storages and connections, all data, all interleavings of single storage calls, all answers of the storages", "why_tests_cant": "The order in which goroutines reach the storages is a matter of the schedule; a test sees one schedule.", "anchors": ["cli/receiver/server/server.go: handleConn", "cli/receiver/storage/store.go: Repository.Save"]}
{"id": "C130", "title": "A stored position can be sent again", "statement": "The coordinates that a storage holds, typed to packet-gen exactly as they are written there, are read as the very same numbers (no text written for a coordinate is refused or misread, whatever its form), and the packet sent is stored again with a position that differs by at most one step of the wire format.", "quantifier": "all positions of all records saved in all runs of the server; for the numbers alone: all float64 of magnitude 0 or 10^-300 to 10^300; all command lines with these values", "why_tests_cant": "There are 2^64 pairs of coordinates, and the text has four forms depending on the number; a round trip through two programs and the wire cannot be tried for all.", "anchors": ["cli/receiver/storage/packet.go: NavRecord.ToBytes", "cli/packet-gen/main.go: main", "libs/egts/egts_sr_pos_data.go: SrPosData.Encode, SrPosData.Decode", "cli/receiver/server/server.go: handleConn"]}
{"id": "C131", "title": "The error names the fault", "statement": "If Package.Decode refuses a packet, the result code and the error tell the first thing that is wrong with the bytes, and tell it rightly: where they end too early, which checksum is wrong, which packet type is not supported, which subrecord type is unknown (with its announced length and content), at any depth of records inside confirmations. The server writes exactly that error to its log and answers with exactly that code.", "quantifier": "all byte slices, all capacities, all states of the receiving Package and of the server; bodies of any length, confirmations nested to any depth", "why_tests_cant": "The refused bytes are the complement of an infinite, recursive language; which of several faults is reported depends on the order of the checks at every depth.", "anchors": ["libs/egts/egts_pkg.go: Package.Decode", "libs/egts/service_data_records.go: ServiceDataSet.Decode", "libs/egts/record_data.go: RecordDataSet.Decode", "libs/egts/egts_sr_*.go: Decode", "cli/receiver/server/server.go: handleConn"]}
{"id": "C132", "title": "Decoding a part of a packet into a used value is equivalent to decoding it into a fresh one", "statement": "Decoding a subrecord, an answer, a set of subrecords or a set of records into a value that was used for other data succeeds exactly when decoding into an empty value does, fails with the same error, and gives the same value; nothing of the earlier data is visible.", "quantifier": "all values (also damaged ones), all byte sequences, every type with a Decode method but Package (C12)", "why_tests_cant": "all histories of reuse and all 2^8 or 2^16 combinations of announced fields", "anchors": ["libs/egts/egts_sr_*.go: Decode", "libs/egts/egts_pt_response.go: PtResponse.Decode", "libs/egts/record_data.go: RecordDataSet.Decode", "libs/egts/service_data_records.go: ServiceDataSet.Decode"]}
{"id": "C133", "title": "Fields added by later editions are stepped over", "statement": "A subrecord whose content goes on behind the fields that the standard defines for its type (as a device sends it that follows a later edition), with length fields that tell so, is read as the known part alone: Decode yields the same data, and the server saves the same records, sends the same packets and ends the connection in the same way as for a client that sends the known part only.", "quantifier": "all bodies, all subrecords of the types with a layout of their own, any bytes of any number behind the known fields, any number of such subrecords; all streams, segmentations and endings of a connection", "why_tests_cant": "All lengths and values of the additional bytes, behind every combination of optional fields, and their effect on everything that follows in the stream.", "anchors": ["libs/egts/egts_sr_*.go: Decode", "libs/egts/record_data.go: RecordDataSet.Decode", "cli/receiver/server/server.go: handleConn"]}
{"id": "C134", "title": "Nothing else in a packet matters", "statement": "What the server saves, sends and does with a connection depends, for a data packet, on nothing but its identifier and, per record, the record number, the object, the source service, the places, speeds and times of the positions, the IMEIs, the analog readings, the liquid levels, the counters 110 and 111, and whether there is a login or a confirmation. So subrecords of different kinds may come in any order, and subrecords of other kinds (state, extended position, counters, result codes, dispatcher, messages) may be added or left out anywhere.", "quantifier": "all data packets, all pairs of packets that agree in these things; all streams, segmentations, environments and endings of a connection", "why_tests_cant": "Non-interference relates two runs for all values of everything else; no finite set of packets shows that a field has no influence.", "anchors": ["cli/receiver/server/server.go: handleConn"]}
{"id": "C135", "title": "How a device batches its records does not matter", "statement": "However a device distributes its records over packets - each alone, all in one, or in groups - and whatever packet identifiers it uses, the server stores the same places, liquid levels and analog readings in the same order, and confirms the same record numbers in the same order.", "quantifier": "all sequences of data packets of conforming devices, all ways to distribute the same records over packets, all segmentations, environments and endings of a connection", "why_tests_cant": "There are exponentially many ways to batch a list of records, and the lists are unbounded.", "anchors": ["cli/receiver/server/server.go: handleConn", "libs/egts/service_data_records.go: ServiceDataSet.Decode", "libs/egts/egts_pkg.go: Package.Decode"]}
{"id": "C136", "title": "A packet is answered when its last byte is there, not before, and nothing is taken back", "statement": "When the last byte of a packet is received, the server does everything it will ever do about it, without waiting for further bytes or for the end of the connection; while one of its bytes is missing it does nothing about it. What has been sent and stored by then is final: no bytes that follow and no end of the connection change it or add to the reaction to that packet.", "quantifier": "all streams of bytes, cut anywhere, all continuations, all segmentations before and after, all ends of a connection, all clocks and capacities", "why_tests_cant": "A relation between all pairs of streams of which one continues the other; the reaction could depend on any later byte.", "anchors": ["cli/receiver/server/server.go: handleConn"]}
{"id": "C137", "title": "A position passed on again and again stays where it is", "statement": "However many times a position is decoded and encoded again, for example by a chain of programs that pass it on, its coordinates stay within one step of the wire format of the original ones, and its time stays the same.", "quantifier": "all positions, all numbers of programs in the chain", "why_tests_cant": "The drift shows only after many steps and only at some coordinates; no test tries them all.", "anchors": ["libs/egts/egts_sr_pos_data.go: Decode, Encode"]}
{"id": "C138", "title": "The outcome depends on the received bytes alone", "statement": "What the server sends, stores and does with a connection depends on the bytes it receives and on nothing else: not on what is in memory behind a packet (capacity and contents of the slice the packet is read into), and on the clock only in the reception time of the stored records.", "quantifier": "all streams of bytes, segmentations and ends of a connection, all contents of memory, all clocks", "why_tests_cant": "A test sees one state of memory; the relation is between all pairs of them.", "anchors": ["cli/receiver/server/server.go: handleConn", "libs/egts/egts_pkg.go: Package.Decode"]}
{"id": "C139", "title": "What is stored tells what was sent", "statement": "From the stored records one can tell what the devices sent: two histories of data packets after which the same places, liquid levels and analog readings are stored have sent the same places (with hemisphere, speed and time), levels and readings, in the same order. No two different messages are stored as one.", "quantifier": "all pairs of sequences of data packets, segmentations, clocks", "why_tests_cant": "Injectivity is a relation between all pairs of inputs; a test compares two of them.", "anchors": ["cli/receiver/server/server.go: handleConn", "cli/receiver/storage/packet.go: NavRecord"]}
{"id": "C140", "title": "A device can continue after a break", "statement": "A device whose connection breaks, after any byte and in any way, and which continues on a new connection with the first packet that is not confirmed in the answers it has seen, has all its positions stored, in order; twice are only those of packets that were complete but whose confirmations it has not seen; if it has seen all confirmations, each is stored exactly once. The same holds for any number of breaks.", "quantifier": "all sequences of data packets, all numbers of connections and points at which they break, all segmentations, every beginning of the answers that the device may have seen, every packet it continues with that is not behind an unconfirmed one", "why_tests_cant": "The break can come after any byte and any answer; a test tries a few.", "anchors": ["cli/receiver/server/server.go: handleConn"]}
{"id": "C141", "title": "Bytes in the wrong order are noticed", "statement": "If two neighbouring, different bytes of a packet are exchanged (a number written with the wrong byte order, for example), the packet is refused.", "quantifier": "all packets, all positions in header and body, all receivers and contents of memory behind the packet", "why_tests_cant": "There are as many cases as positions and pairs of bytes; the header checksum misses exactly one difference, which tests do not hit by chance.", "anchors": ["libs/egts/crc.go: crc8, crc16", "libs/egts/egts_pkg.go: Package.Decode"]}
