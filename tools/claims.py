c("C01", "proved", ["crc8_is_crc", "wordPoly_injective"])
c("C02", "proved", ["crc16_is_crc", "wordPoly_injective"])
c("C03", "proved", ["crc16_detects_burst", "crc8_detects_burst"])
c("C04", "proved", ["decode_terminates", "sections_terminate", "sds_terminates", "nested_is_recursive", "sds_loop_unfold", "rds_loop_unfold"],
  "The decoders are modelled with fuel; diverge is the result when fuel runs out. Proved unreachable, and the fuel-free recursion equations hold.")
c("C05", "partial", ["decode_no_panic_partial", "decode_panic_iff", "decode_panic_only", "decode_panics_header", "decode_panics_wrap", "longFrame_panics", "decode_panics_example"],
  "False of the code (HL inconsistent with the header, decode_panics_header); exact panic conditions in decode_panic_iff, and absence of panics for consistent length fields.")
c("C06", "partial", ["decode_verifies_crc_partial", "decode_accept_iff", "decode_crc_wrong", "accepted_example"],
  "False of the code when HL differs from the real header length (decode_crc_wrong); proved for packets whose HL is the real header length, and exactly what is accepted for all inputs (decode_accept_iff).")
c("C07", "partial", ["single_byte_detected_partial", "single_byte_alone_partial", "hl_change_iff", "decode_hl_change_accepted", "rte_cleared_accepted"],
  "False of the code for the HL byte (decode_hl_change_accepted; exactly when: hl_change_iff) and for the RTE flag of packets with routing fields (rte_cleared_accepted). Proved for every other byte and bit, and for packets without routing fields that are given alone for every byte but HL (single_byte_alone_partial).")
c("C08", "partial", ["truncated_rejected_partial", "truncated_iff", "truncated_by_one"],
  "False of the code when the last checksum byte is cut off and is zero (truncated_by_one); proved for all other truncations, as an equivalence in truncated_iff.")
c("C09", "partial", ["trailing_ignored_partial", "trailing_iff", "trailing_matters"],
  "False of the code for frames whose second checksum byte is missing (trailing_matters); proved for all complete frames, as an equivalence in trailing_iff.")
c("C10", "partial", ["decode_codes_partial", "decode_never_138", "decode_code_choice"],
  "A body checksum mismatch yields 137, never 138 (decode_never_138); all other parts proved.")
c("C11", "proved", ["decode_header_fields"])
c("C12", "partial", ["decode_reuse_partial", "decode_reuse_routed", "decode_reuse_stale"],
  "False of the code for the routing fields (decode_reuse_stale); proved that they are the only difference.")
c("C58", "proved", ["crc16_detects_odd", "crc8_detects_odd"])
c("C59", "proved", ["crc16_detects_double", "crc8_detects_double"])
c("C26", "proved", ["extpos_roundtrip"])
c("C27", "partial", ["adsensors_roundtrip_partial", "adsensors_behaviour", "adsensors_symmetric_necessary", "adsensors_wrong"],
  "False of the code for asymmetric analog flags (counterexample adsensors_wrong); proved for all flag combinations equal to their reversal, the digital half for all.")
c("C28", "partial", ["counters_roundtrip_partial", "counters_wire_partial", "counters_behaviour", "counters_decode_wrong"],
  "False of the code for counter 2 (counterexample counters_decode_wrong); proved for every subrecord without counter 2.")
c("C29", "proved", ["state_roundtrip", "abscntr_roundtrip", "absan_roundtrip", "liquid_roundtrip", "liquid_sensor_number_overflow"])
c("C30", "proved", ["auth_roundtrip", "dispatcher_roundtrip", "term_roundtrip", "auth_nul_truncates", "term_long_imei_corrupts"])
c("C20", "proved", ["navtime_decoded", "navtime_encoded", "navtime_subsecond"])
c("C21", "proved", ["coord_decoded", "coord_strict_mono", "coord_roundtrip"])
c("C22", "partial", ["coord_reencode_partial", "coord_reencode_wrong"],
  "False of the code: re-encoding can lose one unit (coord_reencode_wrong); proved that it never loses more than one.")
c("C23", "partial", ["pos_roundtrip_partial", "pos_behaviour", "pos_direction_wrong"],
  "False of the code for the direction when the high course bit is set and bit 7 of Direction is clear (pos_direction_wrong); everything else proved, exact behaviour in pos_behaviour.")
c("C24", "partial", ["direction_decoded_partial", "direction_wrong"],
  "False of the code for every course of 256 and more (direction_wrong); proved for courses below 256, and what is reported for the others.")
c("C25", "partial", ["altitude_decoded_partial", "altitude_behaviour", "altitude_wrong"],
  "False of the code when source data follows the altitude (altitude_wrong); proved when the altitude ends the subrecord, and what is reported otherwise.")

c("C13", "proved", ["package_roundtrip", "package_composes", "package_empty_body", "exPackage_wf"],
  "Well-formedness excludes the values with defects recorded under C23, C27 and C28; package_composes is the statement for arbitrary bodies.")
c("C14", "proved", ["encode_layout"])
c("C15", "partial", ["encode_keeps_body_partial", "encode_overflow", "encode_drops_body"],
  "False of the code for bodies of 65536 bytes and more (encode_drops_body); proved below, and what happens above in encode_overflow.")
c("C16", "proved", ["sds_roundtrip", "sds_composes"])
c("C17", "proved", ["rds_roundtrip", "rds_composes"])
c("C18", "partial", ["type_inferred_partial", "decoded_kind", "dispatcher_type_not_inferred"],
  "False of the code for dispatcher identity (dispatcher_type_not_inferred); proved for the thirteen other kinds.")
c("C19", "proved", ["length_is_encoded_length"])
c("C31", "proved", ["ptresponse_roundtrip", "srresponse_roundtrip", "resultcode_roundtrip", "ptresponse_empty_sdr"],
  "A present but empty record section is indistinguishable on the wire from an absent one (ptresponse_empty_sdr).")

c("C32", "proved", ["segmentation_irrelevant"])
c("C33", "proved", ["first_packet_independent", "packets_independent", "cut_unique", "any_packets_independent"],
  "any_packets_independent: for every stream of bytes, cut the way the server cuts it (cut_unique).")
c("C34", "partial", ["consumed_frame_partial", "consumed_exact", "consumed_wrong"],
  "False of the code for headers that announce less than 10 or more than 65535 bytes (consumed_wrong, 16-bit arithmetic); proved for all others, and the exact number of bytes taken for every header in consumed_exact.")
c("C35", "proved", ["data_acknowledged", "exPacket_meets"])
c("C36", "proved", ["rejected_answered"])
c("C37", "proved", ["responses_ignored", "answers_silent", "no_ping_pong", "writes_cases", "writes_any", "no_echo"],
  "no_echo: for arbitrary streams, everything one gate sends delivered to another one.")
c("C38", "proved", ["positions_exported"])
c("C39", "proved", ["identity_exported"])
c("C40", "proved", ["sensors_exported"])
c("C44", "partial", ["auth_result_partial", "auth_result_rejected"],
  "False of the code: the result is sent in a packet whose type is RESPONSE, which every decoder rejects (auth_result_rejected); proved that the packet is sent, is well framed and carries the right record bytes.")
c("C45", "proved", ["non_egts_dropped", "non_egts_dropped_later", "short_input_silent"])
c("C46", "partial", ["no_crash_partial", "handler_progress", "crash_cause", "crash_iff", "crash_header_length_zero", "crash_long_frame"],
  "crash_iff gives exactly the streams that crash it (with decode_panic_iff). False of the code for header length 0 (crash_header_length_zero) and for frames of 65536 bytes and more (crash_long_frame); crash_cause gives every possible cause of a crash, no_crash_partial the streams that cannot crash it.")
c("C41", "partial", ["record_number_partial", "record_number_behaviour", "record_number_right_iff", "record_number_wrong"],
  "False of the code (record_number_wrong): counters 110 and 111 are combined as big-endian bytes, so the number is right only in the cases of record_number_right_iff.")
c("C42", "partial", ["hemisphere_partial", "hemisphere_ignored"],
  "False of the code: the hemisphere flags are not applied (hemisphere_ignored); proved for north-eastern positions.")
c("C43", "partial", ["acked_stored_partial", "acked_after_save", "acked_not_stored", "storage_crash"],
  "False of the code when a storage refuses the record (acked_not_stored); proved for storages that accept, and for all storages that saving is tried before acknowledging.")
c("C50", "proved", ["save_ok_iff", "save_fails_iff"])
c("C51", "proved", ["load_ok_iff", "load_empty", "load_unknown", "load_order_irrelevant", "main_has_storage", "main_default_log"])
c("C52", "partial", ["redis_db_partial", "redis_db_default_wrong", "redis_init_ok"],
  "False of the code: a missing db parameter makes Init fail (redis_db_default_wrong); proved for a db parameter that is present.")
c("C53", "partial", ["save_reports_partial", "redis_save_panics"],
  "False of the code for redis, which panics (redis_save_panics); proved for the six other storages.")
c("C47", "proved", ["isolation", "isolation_prefix", "isolation_equal", "crash_has_cause", "handler_settles", "received_all", "every_client_served"],
  "For every interleaving at the granularity of single storage calls, writes and packet reads; a panic (C46, C53) ends all connections, crash_has_cause gives its only causes.")
c("C48", "partial", ["eof_closed_partial", "timed_agrees", "idle_never_closed"],
  "False of the code: a silent client is never disconnected (idle_never_closed); proved when the peer closes between two packets, with the exact moment.")
c("C49", "partial", ["stop_no_new_connections_partial", "stop_does_not_end_run"],
  "False of the code: Run never returns and logs an error per iteration (stop_does_not_end_run); proved that no connection is accepted after Stop.")
c("C54", "proved", ["conn_ttl_seconds", "conn_ttl_overflow", "listen_address", "listen_address_unique", "log_level", "log_level_prints", "errors_always_logged"])
c("C60", "partial", ["config_values_partial", "sample_config_ttl"],
  "False of the code and its documentation: the documented key con_live_sec is not read (sample_config_ttl); proved for the key conn_ttl.")

c("C55", "proved", ["gen_end_to_end", "exArgs_valid"])
c("C56", "partial", ["gen_time_partial", "gen_time_ignored"],
  "False of the code: the time in the packet is a constant (gen_time_ignored); proved exactly for which -time it is the requested one.")
c("C57", "partial", ["json_keys_partial", "json_members", "json_loc_members", "json_liquid_members", "json_an_members", "json_loc_states_partial", "json_sensors_null"],
  "False of the code: sensor lists of a record without sensors are null, not arrays (json_sensors_null); keys and the other members proved.")
c("C61", "proved", ["library_to_server"])
c("C62", "partial", ["gen_failure_status_partial", "gen_exit_status", "gen_success_status"],
  "False of the code: the exit status is 1 also after success (gen_exit_status, gen_success_status); proved for failures, and that the program ends.")
c("C63", "partial", ["gen_timeout_partial", "gen_default_timeout"],
  "False of the code: without -timeout the deadline has already passed (gen_default_timeout); proved for a given timeout.")
c("C64", "partial", ["gen_success_partial", "gen_unconfirmed_success", "gen_panics_bare"],
  "False of the code: an answer without confirmations is reported as success (gen_unconfirmed_success) and an answer without record section makes it panic (gen_panics_bare); proved everything else that success implies.")
c("C65", "partial", ["gen_whole_answer_partial", "gen_split_answer"],
  "False of the code, which reads once (gen_split_answer); proved for answers that arrive at once.")
c("C66", "proved", ["saved_from_packet", "written_from_packet"])
c("C67", "partial", ["saved_lossless_partial", "saved_texts_ok", "json_lossless_partial", "text_lossless_partial", "saved_text_lossless_partial", "json_imei_lost"],
  "False of the code for IMEIs that are not UTF-8 (json_imei_lost); proved for all others.")
c("C68", "proved", ["saved_wellformed", "rfc3339_denotes", "denotes_unique", "rfc3339_injective", "exPacket_saved"])
c("C69", "proved", ["state_wire", "liquid_wire", "abscntr_wire", "absan_wire", "resultcode_wire", "dispatcher_wire", "response_wire", "extpos_wire", "adsensors_wire", "term_wire", "auth_wire"],
  "For complete subrecords; the position subrecord is C20-C24, the counters C28.")
c("C70", "proved", ["ack_bytes", "nack_bytes", "answer_length", "answer_injective"],
  "For packets received alone on a fresh connection; packets_independent gives the same answers at any later point of the stream.")
c("C71", "proved", ["body_decoded", "body_unique"])
c("C72", "partial", ["body_complete_partial", "body_decode_iff", "body_cut_accepted", "body_bare_accepted"],
  "False of the code: contents and record data cut off by the end of the body are accepted (body_cut_accepted, body_bare_accepted); proved for bodies as long as announced, and by body_decode_iff that only the last subrecord of a record or the last record can be incomplete.")
c("C73", "proved", ["packet_decoded", "data_packet_accepted", "response_packet_accepted", "data_packet_served"])
c("C74", "proved", ["accepted_iff", "ptresponse_decode_iff", "response_stray", "accepted_hyps"],
  "Wire forms include the incomplete ones recorded under C72 (Records); frames whose header length field is wrong are C05, C06.")
c("C75", "partial", ["pg_settings_iff", "pg_settings_partial", "pg_empty_password_wrong", "pg_password_space_wrong", "pg_override_wrong"],
  "False of the code: an empty password swallows the TLS mode, blanks break or override settings (three _wrong theorems); proved exactly for which values the text is read as the six settings (pg_settings_iff: not empty, no white space or backslash, no quote at the beginning; the TLS mode may be empty). The driver's reading of the text is a specification (Spec/ConnString).")
c("C76", "partial", ["amqp_settings_iff", "amqp_settings_partial", "amqp_password_slash_wrong", "amqp_password_percent_wrong"],
  "False of the code for passwords with reserved characters (slash, percent); for host names as hosts, amqp_settings_iff gives exactly the users, passwords and ports that arrive.")
c("C77", "proved", ["forwarded_sublist", "forwarded_all", "call_shape"],
  "Client libraries are an arbitrary function from the history of calls to success or failure.")
c("C78", "partial", ["nats_settings", "nats_user_partial", "nats_user_wrong", "nsq_settings_partial", "nsq_documented_wrong", "tarantool_settings_partial", "tarantool_overflow_wrong"],
  "False of the code: a nats user without password is ignored, nsq reads `server` where `servers` is documented, tarantool numbers overflow; proved otherwise.")
c("C79", "partial", ["redis_queue_partial", "redis_queue_wrong"],
  "False of the code: it uses PUBLISH, so without a connected consumer a saved record is lost.")
c("C80", "proved", ["StorageRecord.marshal_iff"],
  "StorageRecord.wire is written from the .proto file; the model from the struct tags of the Go code. The protobuf library is modelled (Go/Protobuf).")
c("C81", "proved", ["StorageRecord.roundtrip", "storage_wellformed", "storage_set_roundtrip"],
  "For messages without unknown fields; those with unknown fields that came from the wire are C82. nil elements of repeated messages are not modelled.")
c("C82", "proved", ["StorageRecord.unmarshal_required", "StorageRecord.unmarshal_stable"],
  "The length bound 2^64 is that of the length varint.")
c("C83", "partial", ["term_short_partial", "term_short_wrong", "term_long_wrong"],
  "False of the code: short IMEIs and IMSIs come back with NUL bytes, an IMEI of 16 characters damages the fields after it; exact lengths are C30 (term_roundtrip).")
c("C84", "proved", ["record_text", "record_text_float", "record_text_utf8", "exported_text_valid"],
  "The reader (Spec/JsonParse) is written against RFC 8259. Assumed of strconv: float64 values are written as JSON numbers (hF) in ASCII that round to the same value (FloatsOk).")
c("C85", "proved", ["stream_behaviour", "cut_unique"],
  "react (Spec/Stream) says what one packet causes in terms of what Decode says about it; decode_accept_iff and decode_panic_iff characterise Decode.")
c("C86", "proved", ["resource_bound", "amplification_bound", "packets_bound", "stored_bound"])
c("C87", "partial", ["pass_on_partial", "pass_on_pos_partial", "content_unchanged_iff", "position_unchanged_only", "pass_on_wrong", "pass_on_reserved", "pass_on_empty"],
  "False of the code. Proved for packets whose subrecords are all canonical (Spec/PassOn), identically; with positions, up to LAT/LONG one less (C22). Counterexamples: subrecord with a trailing byte (lengths become wrong), reserved bits lost, empty body.")
c("C88", "partial", ["renumber_partial", "edit_partial", "edit_wrong"],
  "False of the code: lengths of decoded records are kept by Encode, so a record with an added subrecord is cut and a record nobody sent appears (edit_wrong). Proved: new identifier (renumber_partial); any new body of well-formed records if stale lengths are reset (edit_partial).")
c("C89", "proved", ["encode_again"])
c("C90", "proved", ["gen_bytes", "gen_raw", "gen_required"])
c("C91", "partial", ["gen_position_partial", "gen_hemisphere_fixed", "gen_hemisphere_wrong"],
  "False of the code: the flags LAHS and LOHS are constants of the program, so no southern or western position is sent as such. Proved for northern and eastern ones.")
c("C92", "partial", ["attribution_partial", "attribution_wrong", "attribution_counterexample"],
  "False of the code: all positions of a packet are saved in one record under the object of the packet's last record. Proved exactly for the packets whose records with positions name that object; false for all others.")
c("C93", "partial", ["readings_partial", "readings_lost", "readings_counterexample"],
  "False of the code: a packet without a position is acknowledged but nothing of it is saved. Proved for packets with a position.")
c("C94", "partial", ["distinct_ids_partial", "login_ids_repeated"],
  "False of the code for every login: acknowledgement and authorisation result have the same identifier. Proved for streams without logins whose packets have different identifiers.")
c("C95", "partial", ["resent_partial", "resent_stored_again"],
  "False of the code: a packet sent n times is stored n times; the theorem gives the exact behaviour (the copies differ only in the time of receipt).")
c("C96", "partial", ["only_valid_partial", "validity_lost", "invalid_saved"],
  "False of the code: the flag VLD has no influence on what is saved. Proved for packets whose positions are all valid.")
c("C97", "partial", ["stalled_partial", "stalled_held"],
  "False of the code: there is no write deadline, so a client that reads nothing and sends enough packets holds its handler for ever. Proved: what happens before (a prefix of the normal behaviour), and exactly when a handler is held.")

c("C98", "proved", ["record_text_harmless", "record_text_one_line", "literal_string", "literal_only"],
  "Assumed of strconv: the text of a float64 consists of digits, sign, point and exponent.")
c("C99", "proved", ["main_configured", "main_serves_iff", "main_stores"])
c("C100", "partial", ["listen_at_configured_partial", "listen_ipv6_wrong", "listen_ipv6_bracketed"],
  "False of the code for IPv6 hosts: the address is built without brackets and net.Listen refuses it. The theorem gives the exact condition.")
c("C101", "partial", ["stores_fixed_partial", "stores_depend_on_order"],
  "False of the code when a storage cannot be initialised: those initialised before it stay registered. Proved when all can be initialised in every order.")
c("C102", "proved", ["end_to_end"])

c("C103", "partial", ["misfit_pos_partial", "misfit_pos_accepted", "misfit_abscntr_partial", "misfit_absan_partial", "misfit_counter_accepted"],
  "False of the code: nothing is refused, the value is cut. Proved: each field arrives unchanged exactly if it fits.")

c("C104", "proved", ["log_text_document", "log_text_tokens"],
  "Assumed of strconv: the text of a float64 is a JSON number. Not modelled: how logrus quotes the field of the log line.")

c("C105", "partial", ["package_text_document", "package_text_lossless_partial", "package_text_lossless_go_partial", "package_text_not_lossless", "FmtOk.faithful"],
  "Proved: the text is JSON and reads as the document (Spec/PackageJson); lossless for packages whose texts are UTF-8 and whose EGTS+ messages are numbered and shown completely (no unknown fields, present byte strings not empty, no negative zero). False in general: bytes that are not UTF-8 are replaced (counterexample). The formatting of floats is that of C109.")

c("C106", "partial", ["package_text_iff", "decoded_text_partial", "decoded_text_plain_partial", "decoded_text_fails", "storage_writable"],
  "False of the code: a packet with an EGTS+ message whose fuel level is NaN or infinite is accepted by Decode, ToBytes returns an error. Exact condition proved; holds for packages without such values.")

c("C107", "partial", ["flags_package", "flags_record", "flags_pos", "flags_extpos", "flags_state", "flags_liquid", "flags_adsensors", "flags_counters", "flags_unset_refused", "flags_identity_anything", "flags_identity_zero", "flags_pos_shifted", "flags_pos_own_output_refused"],
  "Proved for all encoders but SrTermIdentity: exactly the texts that together spell a byte are accepted, that byte is written, and if the texts have 8 digits its bits are these digits. False of the code: SrTermIdentity accepts anything; widths of single flags are not checked, so digits may slip into the next flag, and Encode may write bytes Decode refuses.")

c("C108", "proved", ["storage_any_order", "storage_merge"],
  "Rests on the model of the protobuf library (Go/Protobuf), which is not code of the repository.")

c("C109", "proved", ["float_text", "float32_text", "float_text_bytes", "goFmt_ok", "saved_floats", "saved_text", "end_to_end_go", "package_text_go"],
  "strconv's shortest formatting and floatEncoder of encoding/json are modelled (Model/FloatText) and proved to give the shortest decimal, closest to the value, that rounds back; with this the assumptions on the formatting of floats of C84, C98, C102, C104 and C105 are theorems. The IMEI is read back only if it is UTF-8 (C67).")

c("C110", "proved", ["storage_document", "storage_document_iff", "storage_names", "package_text_messages"],
  "The JSON names and wire numbers are checked against one table made from the .proto file (Spec/StorageJson). Rests on the model of the struct tags of the generated code and of encoding/json (Model/PackageJson).")

c("C111", "proved", ["parseInt_iff", "parseFloat_reads", "parseFloat_large", "parseFloat_iff", "flags_taken", "flags_help", "command_refused", "command_end_to_end", "command_documented", "receiver_command"],
  "flag.Parse, strconv.ParseInt and strconv.ParseFloat of the Go library are modelled (Model/CmdLine); spelling of numbers, correct rounding (nearest, ties to even, uniquely determined) and command lines are specified independently (Spec/CmdLine). Exponents of floating point literals are restricted to five digits (ParseFloat does not count further, parseFloat_exponent). A surprise that follows the documentation of the flag package: 010 is 8 (leading_zero). Infinity and NaN are accepted as positions; they have no counterpart in the model of float64 and are replaced by arbitrary numbers there.")

c("C112", "partial", ["timeParse_iff", "rfc3339_taken_partial", "stamp_unique", "timeParse_refuses", "small_letters"],
  "time.Parse with the layout RFC3339 is modelled (Model/TimeParse) for Go before and since 1.20, and the texts it takes are characterised exactly. False of the code: leap seconds and small letters t and z, which RFC 3339 allows, are refused; one-digit hours, a comma, offsets up to 24:60 (before Go 1.20 any two digits) are taken. What the command then does with the instant: nothing (C56).")

c("C113","proved",["init_ok_iff","init_no_panic","init_untried","tarantool_documented","hasNumber_iff"],
  "InitSays lists, per kind, the options needed and the call of the client library; init_ok_iff is an equivalence for every Net. tarantool_documented is the section documented in the connector's comment. The defects found about options (redis db default, nsq server/servers, nats user) are C52 and C78.")

c("C114","partial",["SendEgts.send_all_partial","SendEgts.send_data_partial","SendEgts.send_pairs_partial","SendEgts.send_hangs","SendEgts.send_unterminated","SendEgts.send_lags","SendEgts.response_unanswered","SendEgts.login_reply","SendEgts.fromHex_iff"],
  "Proved for files whose lines are all terminated and whose packets are all answered: everything is sent, the pieces printed are the answers from the beginning (and one answer each on a network that does not cut). False of the script: it waits for ever at a packet the server does not answer (send_hangs, e.g. RESPONSE packets); a last line without line end loses a digit and ends in an exception (send_unterminated); after a login the answers printed may be one behind (send_lags).")

c("C115","partial",["one_bad_loses_all","one_bad_on_connection","raw_accept_iff","unknown_type","all_understood_partial"],
  "False of the code: a single subrecord that is not understood makes the gate reject the whole packet with code 129, save nothing and confirm no record (one_bad_loses_all, for every such packet; line 17 of the recorded packets is one). Proved: the packet is accepted exactly if every subrecord is understood (raw_accept_iff), and then the contents are found one for one, in order (all_understood_partial). Missing: the rest of a packet with an unsupported subrecord.")

c("C116","partial",["small_packet_large_work","work_not_proportional","work_bounded_partial","work_truthful_partial","rdsStep_calls"],
  "False of the code: a record that announces more data than are sent is filled up with zeros, record responses hold nested service data that are decoded and thrown away, and seven zeros are a record. A packet of 39 bytes makes the decoder read 9363 records and subrecords, one of 65533 bytes 11.8 million (small_packet_large_work, exact count for every k). Proved: at most 65533 per nonzero byte plus one per byte, for every body (work_bounded_partial), and at most one per byte if the length fields tell the truth (work_truthful_partial). The count follows the loops of the model (Model/Work).")

c("C117","proved",["answered_eventually","closed_eventually","exSched_answered"],
  "FairTo is the only assumption on the schedule (handler i gets infinitely many turns); everything else, in particular the data and turns of the other connections, is arbitrary. Hypothesis: the process does not die of a panic (the causes are C05, C12, C18; crash_has_cause lists them). A write that blocks because the peer reads nothing is C97.")
c("C118", "proved", ["file_unique", "conforms_exists", "file_settings", "file_configured", "file_without_storage", "shipped_configuration", "test_file", "odd_file"],
  "The YAML library is a parameter with one hypothesis (Yaml.Conforms): it reads the files of the form of Spec/Yaml as written there. That form is a narrow subset of YAML; a reader that satisfies the hypothesis exists (conforms_exists).")
c("C119", "partial", ["log_info", "log_warn", "log_error", "log_quiet", "log_bounded", "log_harmless", "errors_always_printed", "loss_unreported"],
  "Everything but the last sentence is proved, for any stream, with its cutting into packets given by CutInto. The last sentence is false of the code: readings without a position are acknowledged, dropped and not reported (loss_unreported).")
c("C120", "partial", ["credentials_unused", "login_granted", "wrong_password_stores", "no_login_stores", "login_alike"],
  "The second sentence is proved as noninterference (credentials_unused: same actions, same end, same log for any two streams whose packets are pairwise equal or alike up to the contents of the logins; login_alike shows that logins with any texts are alike). The first is false of the code: every login is granted, and records are stored with any password and without login.")
c("C121","partial",["encode_nil_panics","encode_panic_iff","encode_ok_iff","encode_returns_partial","decoded_encodable","decoded_encodable_proto","encode_example"],
  "False of the code: Encode panics on a subrecord with a type code and no content (nil); encode_panic_iff says exactly when. Everything else proved. Bodies and contents of types outside the library (the interface is open) and typed nil pointers are not modelled.")
c("C122","partial",["confirmed_was_saved","confirmed_is_kept_partial","good_session_confirms","confirmed_but_lost"],
  "False of the code if a storage may refuse a record (confirmed_but_lost): the confirmation is sent all the same. Proved for storages that accept; without that assumption: the record has been offered before the confirmation (confirmed_was_saved).")
c("C123","proved",["served_in_bounded_turns","run_less","handle_few"],
  "A turn is one step of Model/Gate: reading and handling one packet, beginning or ending an action, or one call of a storage. A call of a storage is one turn however long it takes: its duration is not modelled.")
c("C124","proved",["getters_tell","getters_nil","SensNdNavData.getters_nil","SensFuelLevel.getters_nil","sent_says","part_says"],
  "getters_tell compares the complete tables of getters (names and values) with what the .proto file and the bytes sent say. The other messages have their own X.getters_nil. Unknown fields are varints, as in C108. The protobuf library is modelled (Go/Protobuf).")
c("C125","partial",["reason_consts","reason_named","reason_unnamed","reason_string_inj","reason_read_string","reason_read_name","reason_read_number","reason_read_partial","reason_not_refused"],
  "The last sentence is false of the code: any whole number is accepted, null makes 0 of the reason, and no data at all lets UnmarshalJSON panic (reason_not_refused); everything else is proved. reason_read_partial says exactly what is read from JSON in ASCII. json.Unmarshal is a parameter with a specification that exReader_reads shows to be satisfiable.")

c("C126","proved",["storage_grammar","storage_decode_grammar","storage_unambiguous","storage_text_exists"],
  "The grammar (Spec/ProtoGrammar) is independent of the model of the protobuf library (Go/Protobuf), which is not code of the repository; the field numbers and types are those of the .proto file (Spec/StorageJson), the model has those of the struct tags. Not modelled: the limit of the library on the nesting of unknown groups.")
c("C127","proved",["packet_readable","frame_readable","readable","telematic_text"],
  "Spec/Readable uses nothing of the model; the telematic contents are those of Spec/ProtoGrammar by telematic_text. packet_readable is for all slices, frame_readable for complete frames with a right header length field.")
c("C128", "partial", ["buffer_bounded_partial", "timers_bounded_partial", "timers_exact_partial", "timers_released_partial", "timers_pile_up"],
  "False of the code: every packet leaves a timer behind that is never stopped and runs for conn_ttl (timers_pile_up: n packets at once, n + 1 timers). Proved: the buffer is at most 65545 bytes; never more timers than one per ten bytes sent plus one; their exact number; none after ttl of silence.")
c("C129", "partial", ["storages_hold", "storages_same_partial", "storages_perm_partial", "later_in_earlier", "refusal_starves", "order_differs", "refusal_differs"],
  "False of the code in two ways: two storages may hold the records of different connections in different orders (order_differs), and a storage that refuses a record keeps it from the storages behind it in the configuration (refusal_differs, refusal_starves). Proved: the first sentence (storages_hold, for any answers of the storages and at any moment); with storages that accept everything, the same records, each the same number of times (storages_same_partial, storages_perm_partial); for any answers, a later storage has nothing that an earlier one has not (later_in_earlier).")
c("C130", "proved", ["json_number_literal", "typed_back", "stored_coords", "stored_typed_back", "replay"],
  "replay_documented meets the hypotheses of replay for every stored position. The step of the wire format is lost because Encode truncates (C22); the southern and western hemispheres are not in the records (C42).")
c("C131", "proved", ["error_names_fault", "text_or_fault", "body_fault", "packet_refused", "rejected_reported"],
  "The faults are a grammar on the bytes (Spec/Fault, Spec/Rejected), both directions. The remaining outcome of Package.Decode, a panic, is C05. Texts of errors are modelled as classes; the two that quote the input carry what is quoted.")
c("C132", "partial", ["state_reused", "liquid_reused", "abscntr_reused", "absan_reused", "resultcode_reused", "dispatcher_reused", "srresponse_reused",
  "pos_reused_partial", "extpos_reused_partial", "adsensors_reused_partial", "term_reused_partial", "counters_reused_partial", "auth_reused_partial", "ptresponse_reused_partial",
  "servicedata_reused_partial", "recorddata_reused_partial", "reused_wrong"],
  "False of the code for every type with optional fields and for sets (reused_wrong). Proved: true for the seven types without optional fields; for the others outcome and error are the same, and the exact difference: fields that are not announced keep the old value, sets grow. Telematic messages: Decode is proto.Unmarshal, which resets the message; the model has no receiver there.")
c("C133", "partial", ["longer_decoded_partial", "longer_served_alike", "longer_altitude_wrong", "longer_state_wrong"],
  "False of the code in two places: the byte behind an altitude is read as a part of it (longer_altitude_wrong), and state data under type code 20 is refused if it has more than five bytes (longer_state_wrong). Proved: all other types with a layout of their own (1, 9, 16 without the case above, 17, 18, 19, 21, 24, 25, 27); for the server all of these, including altitudes, as the altitude is not stored.")
c("C134", "proved", ["influence", "rearranged_alike", "idle_alike"],
  "Relational: two streams that agree packet by packet in what matters (Spec/Influence) give equal saves, answers and endings. alike_example meets the hypothesis.")

c("C135", "partial", ["batching_partial", "batching_wrong"],
  "Proved: the same places in the same order and the same confirmed record numbers, for every distribution of the records over packets; the same liquid levels and analog readings if every packet has a position. False in general: a liquid level in a packet of its own is confirmed and lost (batching_wrong), see C93.")

c("C136", "proved", ["answers_stand", "answered_at_once", "nothing_early"],
  "The order of actions, not their time on a clock: the model has no duration of a step. Packets are those the server cuts out of a stream (Taken, Spec/Stream), among them all complete frames of 10 to 65535 bytes. The reaction ends early if the process crashes (C46). last_byte meets the hypotheses. That the actions come before the next read returns is the loop of Model/Server and, for several connections, Model/Gate (C117, C123).")

c("C137", "partial", ["wander_partial", "wander_bound_partial", "wander_settles_partial", "wander_stops_partial", "wander_wrong"],
  "False of the code: the position with latitude 3054279064 is one step further south after each of 1433 programs (wander_wrong). Proved: at most n steps after n programs, only towards zero; the time is exact; after finitely many programs it does not move any more, and once one program leaves it unchanged all do. at most 2914 steps (7 m of latitude, 14 m of longitude) however long the chain (wander_bound_partial), because there is a value that every program leaves alone in every 2914. Not proved: the best such bound (by computation over all 2^32 values outside Lean, 1433 is the longest drift).")

c("C138", "partial", ["memory_unseen_partial", "clock_in_records", "memory_matters"],
  "The clock: proved. Memory: proved for streams in which no packet announces a header of no bytes or more than 65535 bytes in all; false for others (memory_matters): Decode slices up to the capacity, so such a packet crashes the process or is answered. Go does not say what the capacity of an appended slice is; that the present runtime clears the bytes behind it is not used.")

c("C139", "partial", ["tells_partial", "tells_wrong"],
  "False of the code: a position in the south-west is stored as the same position in the north-east (tells_wrong). Proved: the stored places tell latitude, longitude (without sign), speed and time, to the last bit, and everything in the north-east; stored levels tell sensor, module, error flag, unit and level of the known units, stored readings all readings, provided every packet has a position (readings of others are lost, C135).")

c("C140", "proved", ["resume", "resume_again", "broken_at", "unseen_twice", "resume_example", "again_example"],
  "Stored means handed to the storages (what they do with it is C43, C53). Data packets without record responses; levels and readings as in C135.")

c("C141", "partial", ["swap_refused_partial", "other_body_refused", "crc16_swap", "crc8_swap_iff", "swap_unnoticed"],
  "False of the code for the header: exchanging the bytes of the packet identifier 239 gives the identifier 61184 with the same checksum (swap_unnoticed). Proved: exchanged bytes of the body are always noticed; the checksum of the header misses the exchange of two different bytes exactly if they differ by EF (crc8_swap_iff).")
