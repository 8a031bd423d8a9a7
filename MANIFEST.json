{
 "claims": [
  {
   "property": "C01",
   "status": "proved",
   "theorems": [
    "Egts.crc8_is_crc",
    "Egts.wordPoly_injective"
   ],
   "note": ""
  },
  {
   "property": "C02",
   "status": "proved",
   "theorems": [
    "Egts.crc16_is_crc",
    "Egts.wordPoly_injective"
   ],
   "note": ""
  },
  {
   "property": "C03",
   "status": "proved",
   "theorems": [
    "Egts.crc16_detects_burst",
    "Egts.crc8_detects_burst"
   ],
   "note": ""
  },
  {
   "property": "C04",
   "status": "proved",
   "theorems": [
    "Egts.decode_terminates",
    "Egts.sections_terminate",
    "Egts.sds_terminates",
    "Egts.nested_is_recursive",
    "Egts.sds_loop_unfold",
    "Egts.rds_loop_unfold"
   ],
   "note": "The decoders are modelled with fuel; diverge is the result when fuel runs out. Proved unreachable, and the fuel-free recursion equations hold."
  },
  {
   "property": "C05",
   "status": "partial",
   "theorems": [
    "Egts.decode_no_panic_partial",
    "Egts.decode_panic_iff",
    "Egts.decode_panic_only",
    "Egts.decode_panics_header",
    "Egts.decode_panics_wrap",
    "Egts.longFrame_panics",
    "Egts.decode_panics_example"
   ],
   "note": "False of the code (HL inconsistent with the header, decode_panics_header); exact panic conditions in decode_panic_iff, and absence of panics for consistent length fields."
  },
  {
   "property": "C06",
   "status": "partial",
   "theorems": [
    "Egts.decode_verifies_crc_partial",
    "Egts.decode_accept_iff",
    "Egts.decode_crc_wrong",
    "Egts.accepted_example"
   ],
   "note": "False of the code when HL differs from the real header length (decode_crc_wrong); proved for packets whose HL is the real header length, and exactly what is accepted for all inputs (decode_accept_iff)."
  },
  {
   "property": "C07",
   "status": "partial",
   "theorems": [
    "Egts.single_byte_detected_partial",
    "Egts.single_byte_alone_partial",
    "Egts.hl_change_iff",
    "Egts.decode_hl_change_accepted",
    "Egts.rte_cleared_accepted"
   ],
   "note": "False of the code for the HL byte (decode_hl_change_accepted; exactly when: hl_change_iff) and for the RTE flag of packets with routing fields (rte_cleared_accepted). Proved for every other byte and bit, and for packets without routing fields that are given alone for every byte but HL (single_byte_alone_partial)."
  },
  {
   "property": "C08",
   "status": "partial",
   "theorems": [
    "Egts.truncated_rejected_partial",
    "Egts.truncated_iff",
    "Egts.truncated_by_one"
   ],
   "note": "False of the code when the last checksum byte is cut off and is zero (truncated_by_one); proved for all other truncations, as an equivalence in truncated_iff."
  },
  {
   "property": "C09",
   "status": "partial",
   "theorems": [
    "Egts.trailing_ignored_partial",
    "Egts.trailing_iff",
    "Egts.trailing_matters"
   ],
   "note": "False of the code for frames whose second checksum byte is missing (trailing_matters); proved for all complete frames, as an equivalence in trailing_iff."
  },
  {
   "property": "C10",
   "status": "partial",
   "theorems": [
    "Egts.decode_codes_partial",
    "Egts.decode_never_138",
    "Egts.decode_code_choice"
   ],
   "note": "A body checksum mismatch yields 137, never 138 (decode_never_138); all other parts proved."
  },
  {
   "property": "C11",
   "status": "proved",
   "theorems": [
    "Egts.decode_header_fields"
   ],
   "note": ""
  },
  {
   "property": "C12",
   "status": "partial",
   "theorems": [
    "Egts.decode_reuse_partial",
    "Egts.decode_reuse_routed",
    "Egts.decode_reuse_stale"
   ],
   "note": "False of the code for the routing fields (decode_reuse_stale); proved that they are the only difference."
  },
  {
   "property": "C13",
   "status": "proved",
   "theorems": [
    "Egts.package_roundtrip",
    "Egts.package_composes",
    "Egts.package_empty_body",
    "Egts.exPackage_wf"
   ],
   "note": "Well-formedness excludes the values with defects recorded under C23, C27 and C28; package_composes is the statement for arbitrary bodies."
  },
  {
   "property": "C14",
   "status": "proved",
   "theorems": [
    "Egts.encode_layout"
   ],
   "note": ""
  },
  {
   "property": "C15",
   "status": "partial",
   "theorems": [
    "Egts.encode_keeps_body_partial",
    "Egts.encode_overflow",
    "Egts.encode_drops_body"
   ],
   "note": "False of the code for bodies of 65536 bytes and more (encode_drops_body); proved below, and what happens above in encode_overflow."
  },
  {
   "property": "C16",
   "status": "proved",
   "theorems": [
    "Egts.sds_roundtrip",
    "Egts.sds_composes"
   ],
   "note": ""
  },
  {
   "property": "C17",
   "status": "proved",
   "theorems": [
    "Egts.rds_roundtrip",
    "Egts.rds_composes"
   ],
   "note": ""
  },
  {
   "property": "C18",
   "status": "partial",
   "theorems": [
    "Egts.type_inferred_partial",
    "Egts.decoded_kind",
    "Egts.dispatcher_type_not_inferred"
   ],
   "note": "False of the code for dispatcher identity (dispatcher_type_not_inferred); proved for the thirteen other kinds."
  },
  {
   "property": "C19",
   "status": "proved",
   "theorems": [
    "Egts.length_is_encoded_length"
   ],
   "note": ""
  },
  {
   "property": "C20",
   "status": "proved",
   "theorems": [
    "Egts.navtime_decoded",
    "Egts.navtime_encoded",
    "Egts.navtime_subsecond"
   ],
   "note": ""
  },
  {
   "property": "C21",
   "status": "proved",
   "theorems": [
    "Egts.coord_decoded",
    "Egts.coord_strict_mono",
    "Egts.coord_roundtrip"
   ],
   "note": ""
  },
  {
   "property": "C22",
   "status": "partial",
   "theorems": [
    "Egts.coord_reencode_partial",
    "Egts.coord_reencode_wrong"
   ],
   "note": "False of the code: re-encoding can lose one unit (coord_reencode_wrong); proved that it never loses more than one."
  },
  {
   "property": "C23",
   "status": "partial",
   "theorems": [
    "Egts.pos_roundtrip_partial",
    "Egts.pos_behaviour",
    "Egts.pos_direction_wrong"
   ],
   "note": "False of the code for the direction when the high course bit is set and bit 7 of Direction is clear (pos_direction_wrong); everything else proved, exact behaviour in pos_behaviour."
  },
  {
   "property": "C24",
   "status": "partial",
   "theorems": [
    "Egts.direction_decoded_partial",
    "Egts.direction_wrong"
   ],
   "note": "False of the code for every course of 256 and more (direction_wrong); proved for courses below 256, and what is reported for the others."
  },
  {
   "property": "C25",
   "status": "partial",
   "theorems": [
    "Egts.altitude_decoded_partial",
    "Egts.altitude_behaviour",
    "Egts.altitude_wrong"
   ],
   "note": "False of the code when source data follows the altitude (altitude_wrong); proved when the altitude ends the subrecord, and what is reported otherwise."
  },
  {
   "property": "C26",
   "status": "proved",
   "theorems": [
    "Egts.extpos_roundtrip"
   ],
   "note": ""
  },
  {
   "property": "C27",
   "status": "partial",
   "theorems": [
    "Egts.adsensors_roundtrip_partial",
    "Egts.adsensors_behaviour",
    "Egts.adsensors_symmetric_necessary",
    "Egts.adsensors_wrong"
   ],
   "note": "False of the code for asymmetric analog flags (counterexample adsensors_wrong); proved for all flag combinations equal to their reversal, the digital half for all."
  },
  {
   "property": "C28",
   "status": "partial",
   "theorems": [
    "Egts.counters_roundtrip_partial",
    "Egts.counters_wire_partial",
    "Egts.counters_behaviour",
    "Egts.counters_decode_wrong"
   ],
   "note": "False of the code for counter 2 (counterexample counters_decode_wrong); proved for every subrecord without counter 2."
  },
  {
   "property": "C29",
   "status": "proved",
   "theorems": [
    "Egts.state_roundtrip",
    "Egts.abscntr_roundtrip",
    "Egts.absan_roundtrip",
    "Egts.liquid_roundtrip",
    "Egts.liquid_sensor_number_overflow"
   ],
   "note": ""
  },
  {
   "property": "C30",
   "status": "proved",
   "theorems": [
    "Egts.auth_roundtrip",
    "Egts.dispatcher_roundtrip",
    "Egts.term_roundtrip",
    "Egts.auth_nul_truncates",
    "Egts.term_long_imei_corrupts"
   ],
   "note": ""
  },
  {
   "property": "C31",
   "status": "proved",
   "theorems": [
    "Egts.ptresponse_roundtrip",
    "Egts.srresponse_roundtrip",
    "Egts.resultcode_roundtrip",
    "Egts.ptresponse_empty_sdr"
   ],
   "note": "A present but empty record section is indistinguishable on the wire from an absent one (ptresponse_empty_sdr)."
  },
  {
   "property": "C32",
   "status": "proved",
   "theorems": [
    "Egts.segmentation_irrelevant"
   ],
   "note": ""
  },
  {
   "property": "C33",
   "status": "proved",
   "theorems": [
    "Egts.first_packet_independent",
    "Egts.packets_independent",
    "Egts.cut_unique",
    "Egts.any_packets_independent"
   ],
   "note": "any_packets_independent: for every stream of bytes, cut the way the server cuts it (cut_unique)."
  },
  {
   "property": "C34",
   "status": "partial",
   "theorems": [
    "Egts.consumed_frame_partial",
    "Egts.consumed_exact",
    "Egts.consumed_wrong"
   ],
   "note": "False of the code for headers that announce less than 10 or more than 65535 bytes (consumed_wrong, 16-bit arithmetic); proved for all others, and the exact number of bytes taken for every header in consumed_exact."
  },
  {
   "property": "C35",
   "status": "proved",
   "theorems": [
    "Egts.data_acknowledged",
    "Egts.exPacket_meets"
   ],
   "note": ""
  },
  {
   "property": "C36",
   "status": "proved",
   "theorems": [
    "Egts.rejected_answered"
   ],
   "note": ""
  },
  {
   "property": "C37",
   "status": "proved",
   "theorems": [
    "Egts.responses_ignored",
    "Egts.answers_silent",
    "Egts.no_ping_pong",
    "Egts.writes_cases",
    "Egts.writes_any",
    "Egts.no_echo"
   ],
   "note": "no_echo: for arbitrary streams, everything one gate sends delivered to another one."
  },
  {
   "property": "C38",
   "status": "proved",
   "theorems": [
    "Egts.positions_exported"
   ],
   "note": ""
  },
  {
   "property": "C39",
   "status": "proved",
   "theorems": [
    "Egts.identity_exported"
   ],
   "note": ""
  },
  {
   "property": "C40",
   "status": "proved",
   "theorems": [
    "Egts.sensors_exported"
   ],
   "note": ""
  },
  {
   "property": "C41",
   "status": "partial",
   "theorems": [
    "Egts.record_number_partial",
    "Egts.record_number_behaviour",
    "Egts.record_number_right_iff",
    "Egts.record_number_wrong"
   ],
   "note": "False of the code (record_number_wrong): counters 110 and 111 are combined as big-endian bytes, so the number is right only in the cases of record_number_right_iff."
  },
  {
   "property": "C42",
   "status": "partial",
   "theorems": [
    "Egts.hemisphere_partial",
    "Egts.hemisphere_ignored"
   ],
   "note": "False of the code: the hemisphere flags are not applied (hemisphere_ignored); proved for north-eastern positions."
  },
  {
   "property": "C43",
   "status": "partial",
   "theorems": [
    "Egts.acked_stored_partial",
    "Egts.acked_after_save",
    "Egts.acked_not_stored",
    "Egts.storage_crash"
   ],
   "note": "False of the code when a storage refuses the record (acked_not_stored); proved for storages that accept, and for all storages that saving is tried before acknowledging."
  },
  {
   "property": "C44",
   "status": "partial",
   "theorems": [
    "Egts.auth_result_partial",
    "Egts.auth_result_rejected"
   ],
   "note": "False of the code: the result is sent in a packet whose type is RESPONSE, which every decoder rejects (auth_result_rejected); proved that the packet is sent, is well framed and carries the right record bytes."
  },
  {
   "property": "C45",
   "status": "proved",
   "theorems": [
    "Egts.non_egts_dropped",
    "Egts.non_egts_dropped_later",
    "Egts.short_input_silent"
   ],
   "note": ""
  },
  {
   "property": "C46",
   "status": "partial",
   "theorems": [
    "Egts.no_crash_partial",
    "Egts.handler_progress",
    "Egts.crash_cause",
    "Egts.crash_iff",
    "Egts.crash_header_length_zero",
    "Egts.crash_long_frame"
   ],
   "note": "crash_iff gives exactly the streams that crash it (with decode_panic_iff). False of the code for header length 0 (crash_header_length_zero) and for frames of 65536 bytes and more (crash_long_frame); crash_cause gives every possible cause of a crash, no_crash_partial the streams that cannot crash it."
  },
  {
   "property": "C47",
   "status": "proved",
   "theorems": [
    "Egts.isolation",
    "Egts.isolation_prefix",
    "Egts.isolation_equal",
    "Egts.crash_has_cause",
    "Egts.handler_settles",
    "Egts.received_all",
    "Egts.every_client_served"
   ],
   "note": "For every interleaving at the granularity of single storage calls, writes and packet reads; a panic (C46, C53) ends all connections, crash_has_cause gives its only causes."
  },
  {
   "property": "C48",
   "status": "partial",
   "theorems": [
    "Egts.eof_closed_partial",
    "Egts.timed_agrees",
    "Egts.idle_never_closed"
   ],
   "note": "False of the code: a silent client is never disconnected (idle_never_closed); proved when the peer closes between two packets, with the exact moment."
  },
  {
   "property": "C49",
   "status": "partial",
   "theorems": [
    "Egts.stop_no_new_connections_partial",
    "Egts.stop_does_not_end_run"
   ],
   "note": "False of the code: Run never returns and logs an error per iteration (stop_does_not_end_run); proved that no connection is accepted after Stop."
  },
  {
   "property": "C50",
   "status": "proved",
   "theorems": [
    "Egts.save_ok_iff",
    "Egts.save_fails_iff"
   ],
   "note": ""
  },
  {
   "property": "C51",
   "status": "proved",
   "theorems": [
    "Egts.load_ok_iff",
    "Egts.load_empty",
    "Egts.load_unknown",
    "Egts.load_order_irrelevant",
    "Egts.main_has_storage",
    "Egts.main_default_log"
   ],
   "note": ""
  },
  {
   "property": "C52",
   "status": "partial",
   "theorems": [
    "Egts.redis_db_partial",
    "Egts.redis_db_default_wrong",
    "Egts.redis_init_ok"
   ],
   "note": "False of the code: a missing db parameter makes Init fail (redis_db_default_wrong); proved for a db parameter that is present."
  },
  {
   "property": "C53",
   "status": "partial",
   "theorems": [
    "Egts.save_reports_partial",
    "Egts.redis_save_panics"
   ],
   "note": "False of the code for redis, which panics (redis_save_panics); proved for the six other storages."
  },
  {
   "property": "C54",
   "status": "proved",
   "theorems": [
    "Egts.conn_ttl_seconds",
    "Egts.conn_ttl_overflow",
    "Egts.listen_address",
    "Egts.listen_address_unique",
    "Egts.log_level",
    "Egts.log_level_prints",
    "Egts.errors_always_logged"
   ],
   "note": ""
  },
  {
   "property": "C55",
   "status": "proved",
   "theorems": [
    "Egts.gen_end_to_end",
    "Egts.exArgs_valid"
   ],
   "note": ""
  },
  {
   "property": "C56",
   "status": "partial",
   "theorems": [
    "Egts.gen_time_partial",
    "Egts.gen_time_ignored"
   ],
   "note": "False of the code: the time in the packet is a constant (gen_time_ignored); proved exactly for which -time it is the requested one."
  },
  {
   "property": "C57",
   "status": "partial",
   "theorems": [
    "Egts.json_keys_partial",
    "Egts.json_members",
    "Egts.json_loc_members",
    "Egts.json_liquid_members",
    "Egts.json_an_members",
    "Egts.json_loc_states_partial",
    "Egts.json_sensors_null"
   ],
   "note": "False of the code: sensor lists of a record without sensors are null, not arrays (json_sensors_null); keys and the other members proved."
  },
  {
   "property": "C58",
   "status": "proved",
   "theorems": [
    "Egts.crc16_detects_odd",
    "Egts.crc8_detects_odd"
   ],
   "note": ""
  },
  {
   "property": "C59",
   "status": "proved",
   "theorems": [
    "Egts.crc16_detects_double",
    "Egts.crc8_detects_double"
   ],
   "note": ""
  },
  {
   "property": "C60",
   "status": "partial",
   "theorems": [
    "Egts.config_values_partial",
    "Egts.sample_config_ttl"
   ],
   "note": "False of the code and its documentation: the documented key con_live_sec is not read (sample_config_ttl); proved for the key conn_ttl."
  },
  {
   "property": "C61",
   "status": "proved",
   "theorems": [
    "Egts.library_to_server"
   ],
   "note": ""
  },
  {
   "property": "C62",
   "status": "partial",
   "theorems": [
    "Egts.gen_failure_status_partial",
    "Egts.gen_exit_status",
    "Egts.gen_success_status"
   ],
   "note": "False of the code: the exit status is 1 also after success (gen_exit_status, gen_success_status); proved for failures, and that the program ends."
  },
  {
   "property": "C63",
   "status": "partial",
   "theorems": [
    "Egts.gen_timeout_partial",
    "Egts.gen_default_timeout"
   ],
   "note": "False of the code: without -timeout the deadline has already passed (gen_default_timeout); proved for a given timeout."
  },
  {
   "property": "C64",
   "status": "partial",
   "theorems": [
    "Egts.gen_success_partial",
    "Egts.gen_unconfirmed_success",
    "Egts.gen_panics_bare"
   ],
   "note": "False of the code: an answer without confirmations is reported as success (gen_unconfirmed_success) and an answer without record section makes it panic (gen_panics_bare); proved everything else that success implies."
  },
  {
   "property": "C65",
   "status": "partial",
   "theorems": [
    "Egts.gen_whole_answer_partial",
    "Egts.gen_split_answer"
   ],
   "note": "False of the code, which reads once (gen_split_answer); proved for answers that arrive at once."
  },
  {
   "property": "C66",
   "status": "proved",
   "theorems": [
    "Egts.saved_from_packet",
    "Egts.written_from_packet"
   ],
   "note": ""
  },
  {
   "property": "C67",
   "status": "partial",
   "theorems": [
    "Egts.saved_lossless_partial",
    "Egts.saved_texts_ok",
    "Egts.json_lossless_partial",
    "Egts.text_lossless_partial",
    "Egts.saved_text_lossless_partial",
    "Egts.json_imei_lost"
   ],
   "note": "False of the code for IMEIs that are not UTF-8 (json_imei_lost); proved for all others."
  },
  {
   "property": "C68",
   "status": "proved",
   "theorems": [
    "Egts.saved_wellformed",
    "Egts.rfc3339_denotes",
    "Egts.denotes_unique",
    "Egts.rfc3339_injective",
    "Egts.exPacket_saved"
   ],
   "note": ""
  },
  {
   "property": "C69",
   "status": "proved",
   "theorems": [
    "Egts.state_wire",
    "Egts.liquid_wire",
    "Egts.abscntr_wire",
    "Egts.absan_wire",
    "Egts.resultcode_wire",
    "Egts.dispatcher_wire",
    "Egts.response_wire",
    "Egts.extpos_wire",
    "Egts.adsensors_wire",
    "Egts.term_wire",
    "Egts.auth_wire"
   ],
   "note": "For complete subrecords; the position subrecord is C20-C24, the counters C28."
  },
  {
   "property": "C70",
   "status": "proved",
   "theorems": [
    "Egts.ack_bytes",
    "Egts.nack_bytes",
    "Egts.answer_length",
    "Egts.answer_injective"
   ],
   "note": "For packets received alone on a fresh connection; packets_independent gives the same answers at any later point of the stream."
  },
  {
   "property": "C71",
   "status": "proved",
   "theorems": [
    "Egts.body_decoded",
    "Egts.body_unique"
   ],
   "note": ""
  },
  {
   "property": "C72",
   "status": "partial",
   "theorems": [
    "Egts.body_complete_partial",
    "Egts.body_decode_iff",
    "Egts.body_cut_accepted",
    "Egts.body_bare_accepted"
   ],
   "note": "False of the code: contents and record data cut off by the end of the body are accepted (body_cut_accepted, body_bare_accepted); proved for bodies as long as announced, and by body_decode_iff that only the last subrecord of a record or the last record can be incomplete."
  },
  {
   "property": "C73",
   "status": "proved",
   "theorems": [
    "Egts.packet_decoded",
    "Egts.data_packet_accepted",
    "Egts.response_packet_accepted",
    "Egts.data_packet_served"
   ],
   "note": ""
  },
  {
   "property": "C74",
   "status": "proved",
   "theorems": [
    "Egts.accepted_iff",
    "Egts.ptresponse_decode_iff",
    "Egts.response_stray",
    "Egts.accepted_hyps"
   ],
   "note": "Wire forms include the incomplete ones recorded under C72 (Records); frames whose header length field is wrong are C05, C06."
  },
  {
   "property": "C75",
   "status": "partial",
   "theorems": [
    "Egts.pg_settings_iff",
    "Egts.pg_settings_partial",
    "Egts.pg_empty_password_wrong",
    "Egts.pg_password_space_wrong",
    "Egts.pg_override_wrong"
   ],
   "note": "False of the code: an empty password swallows the TLS mode, blanks break or override settings (three _wrong theorems); proved exactly for which values the text is read as the six settings (pg_settings_iff: not empty, no white space or backslash, no quote at the beginning; the TLS mode may be empty). The driver's reading of the text is a specification (Spec/ConnString)."
  },
  {
   "property": "C76",
   "status": "partial",
   "theorems": [
    "Egts.amqp_settings_iff",
    "Egts.amqp_settings_partial",
    "Egts.amqp_password_slash_wrong",
    "Egts.amqp_password_percent_wrong"
   ],
   "note": "False of the code for passwords with reserved characters (slash, percent); for host names as hosts, amqp_settings_iff gives exactly the users, passwords and ports that arrive."
  },
  {
   "property": "C77",
   "status": "proved",
   "theorems": [
    "Egts.forwarded_sublist",
    "Egts.forwarded_all",
    "Egts.call_shape"
   ],
   "note": "Client libraries are an arbitrary function from the history of calls to success or failure."
  },
  {
   "property": "C78",
   "status": "partial",
   "theorems": [
    "Egts.nats_settings",
    "Egts.nats_user_partial",
    "Egts.nats_user_wrong",
    "Egts.nsq_settings_partial",
    "Egts.nsq_documented_wrong",
    "Egts.tarantool_settings_partial",
    "Egts.tarantool_overflow_wrong"
   ],
   "note": "False of the code: a nats user without password is ignored, nsq reads `server` where `servers` is documented, tarantool numbers overflow; proved otherwise."
  },
  {
   "property": "C79",
   "status": "partial",
   "theorems": [
    "Egts.redis_queue_partial",
    "Egts.redis_queue_wrong"
   ],
   "note": "False of the code: it uses PUBLISH, so without a connected consumer a saved record is lost."
  },
  {
   "property": "C80",
   "status": "proved",
   "theorems": [
    "Egts.StorageRecord.marshal_iff"
   ],
   "note": "StorageRecord.wire is written from the .proto file; the model from the struct tags of the Go code. The protobuf library is modelled (Go/Protobuf)."
  },
  {
   "property": "C81",
   "status": "proved",
   "theorems": [
    "Egts.StorageRecord.roundtrip",
    "Egts.storage_wellformed",
    "Egts.storage_set_roundtrip"
   ],
   "note": "For messages without unknown fields; those with unknown fields that came from the wire are C82. nil elements of repeated messages are not modelled."
  },
  {
   "property": "C82",
   "status": "proved",
   "theorems": [
    "Egts.StorageRecord.unmarshal_required",
    "Egts.StorageRecord.unmarshal_stable"
   ],
   "note": "The length bound 2^64 is that of the length varint."
  },
  {
   "property": "C83",
   "status": "partial",
   "theorems": [
    "Egts.term_short_partial",
    "Egts.term_short_wrong",
    "Egts.term_long_wrong"
   ],
   "note": "False of the code: short IMEIs and IMSIs come back with NUL bytes, an IMEI of 16 characters damages the fields after it; exact lengths are C30 (term_roundtrip)."
  },
  {
   "property": "C84",
   "status": "proved",
   "theorems": [
    "Egts.record_text",
    "Egts.record_text_float",
    "Egts.record_text_utf8",
    "Egts.exported_text_valid"
   ],
   "note": "The reader (Spec/JsonParse) is written against RFC 8259. Assumed of strconv: float64 values are written as JSON numbers (hF) in ASCII that round to the same value (FloatsOk)."
  },
  {
   "property": "C85",
   "status": "proved",
   "theorems": [
    "Egts.stream_behaviour",
    "Egts.cut_unique"
   ],
   "note": "react (Spec/Stream) says what one packet causes in terms of what Decode says about it; decode_accept_iff and decode_panic_iff characterise Decode."
  },
  {
   "property": "C86",
   "status": "proved",
   "theorems": [
    "Egts.resource_bound",
    "Egts.amplification_bound",
    "Egts.packets_bound",
    "Egts.stored_bound"
   ],
   "note": ""
  },
  {
   "property": "C87",
   "status": "partial",
   "theorems": [
    "Egts.pass_on_partial",
    "Egts.pass_on_pos_partial",
    "Egts.content_unchanged_iff",
    "Egts.position_unchanged_only",
    "Egts.pass_on_wrong",
    "Egts.pass_on_reserved",
    "Egts.pass_on_empty"
   ],
   "note": "False of the code. Proved for packets whose subrecords are all canonical (Spec/PassOn), identically; with positions, up to LAT/LONG one less (C22). Counterexamples: subrecord with a trailing byte (lengths become wrong), reserved bits lost, empty body."
  },
  {
   "property": "C88",
   "status": "partial",
   "theorems": [
    "Egts.renumber_partial",
    "Egts.edit_partial",
    "Egts.edit_wrong"
   ],
   "note": "False of the code: lengths of decoded records are kept by Encode, so a record with an added subrecord is cut and a record nobody sent appears (edit_wrong). Proved: new identifier (renumber_partial); any new body of well-formed records if stale lengths are reset (edit_partial)."
  },
  {
   "property": "C89",
   "status": "proved",
   "theorems": [
    "Egts.encode_again"
   ],
   "note": ""
  },
  {
   "property": "C90",
   "status": "proved",
   "theorems": [
    "Egts.gen_bytes",
    "Egts.gen_raw",
    "Egts.gen_required"
   ],
   "note": ""
  },
  {
   "property": "C91",
   "status": "partial",
   "theorems": [
    "Egts.gen_position_partial",
    "Egts.gen_hemisphere_fixed",
    "Egts.gen_hemisphere_wrong"
   ],
   "note": "False of the code: the flags LAHS and LOHS are constants of the program, so no southern or western position is sent as such. Proved for northern and eastern ones."
  },
  {
   "property": "C92",
   "status": "partial",
   "theorems": [
    "Egts.attribution_partial",
    "Egts.attribution_wrong",
    "Egts.attribution_counterexample"
   ],
   "note": "False of the code: all positions of a packet are saved in one record under the object of the packet's last record. Proved exactly for the packets whose records with positions name that object; false for all others."
  },
  {
   "property": "C93",
   "status": "partial",
   "theorems": [
    "Egts.readings_partial",
    "Egts.readings_lost",
    "Egts.readings_counterexample"
   ],
   "note": "False of the code: a packet without a position is acknowledged but nothing of it is saved. Proved for packets with a position."
  },
  {
   "property": "C94",
   "status": "partial",
   "theorems": [
    "Egts.distinct_ids_partial",
    "Egts.login_ids_repeated"
   ],
   "note": "False of the code for every login: acknowledgement and authorisation result have the same identifier. Proved for streams without logins whose packets have different identifiers."
  },
  {
   "property": "C95",
   "status": "partial",
   "theorems": [
    "Egts.resent_partial",
    "Egts.resent_stored_again"
   ],
   "note": "False of the code: a packet sent n times is stored n times; the theorem gives the exact behaviour (the copies differ only in the time of receipt)."
  },
  {
   "property": "C96",
   "status": "partial",
   "theorems": [
    "Egts.only_valid_partial",
    "Egts.validity_lost",
    "Egts.invalid_saved"
   ],
   "note": "False of the code: the flag VLD has no influence on what is saved. Proved for packets whose positions are all valid."
  },
  {
   "property": "C97",
   "status": "partial",
   "theorems": [
    "Egts.stalled_partial",
    "Egts.stalled_held"
   ],
   "note": "False of the code: there is no write deadline, so a client that reads nothing and sends enough packets holds its handler for ever. Proved: what happens before (a prefix of the normal behaviour), and exactly when a handler is held."
  },
  {
   "property": "C98",
   "status": "proved",
   "theorems": [
    "Egts.record_text_harmless",
    "Egts.record_text_one_line",
    "Egts.literal_string",
    "Egts.literal_only"
   ],
   "note": "Assumed of strconv: the text of a float64 consists of digits, sign, point and exponent."
  },
  {
   "property": "C99",
   "status": "proved",
   "theorems": [
    "Egts.main_configured",
    "Egts.main_serves_iff",
    "Egts.main_stores"
   ],
   "note": ""
  },
  {
   "property": "C100",
   "status": "partial",
   "theorems": [
    "Egts.listen_at_configured_partial",
    "Egts.listen_ipv6_wrong",
    "Egts.listen_ipv6_bracketed"
   ],
   "note": "False of the code for IPv6 hosts: the address is built without brackets and net.Listen refuses it. The theorem gives the exact condition."
  },
  {
   "property": "C101",
   "status": "partial",
   "theorems": [
    "Egts.stores_fixed_partial",
    "Egts.stores_depend_on_order"
   ],
   "note": "False of the code when a storage cannot be initialised: those initialised before it stay registered. Proved when all can be initialised in every order."
  },
  {
   "property": "C102",
   "status": "proved",
   "theorems": [
    "Egts.end_to_end"
   ],
   "note": ""
  },
  {
   "property": "C103",
   "status": "partial",
   "theorems": [
    "Egts.misfit_pos_partial",
    "Egts.misfit_pos_accepted",
    "Egts.misfit_abscntr_partial",
    "Egts.misfit_absan_partial",
    "Egts.misfit_counter_accepted"
   ],
   "note": "False of the code: nothing is refused, the value is cut. Proved: each field arrives unchanged exactly if it fits."
  },
  {
   "property": "C104",
   "status": "proved",
   "theorems": [
    "Egts.log_text_document",
    "Egts.log_text_tokens"
   ],
   "note": "Assumed of strconv: the text of a float64 is a JSON number. Not modelled: how logrus quotes the field of the log line."
  },
  {
   "property": "C105",
   "status": "partial",
   "theorems": [
    "Egts.package_text_document",
    "Egts.package_text_lossless_partial",
    "Egts.package_text_lossless_go_partial",
    "Egts.package_text_not_lossless",
    "Egts.FmtOk.faithful"
   ],
   "note": "Proved: the text is JSON and reads as the document (Spec/PackageJson); lossless for packages whose texts are UTF-8 and whose EGTS+ messages are numbered and shown completely (no unknown fields, present byte strings not empty, no negative zero). False in general: bytes that are not UTF-8 are replaced (counterexample). The formatting of floats is that of C109."
  },
  {
   "property": "C106",
   "status": "partial",
   "theorems": [
    "Egts.package_text_iff",
    "Egts.decoded_text_partial",
    "Egts.decoded_text_plain_partial",
    "Egts.decoded_text_fails",
    "Egts.storage_writable"
   ],
   "note": "False of the code: a packet with an EGTS+ message whose fuel level is NaN or infinite is accepted by Decode, ToBytes returns an error. Exact condition proved; holds for packages without such values."
  },
  {
   "property": "C107",
   "status": "partial",
   "theorems": [
    "Egts.flags_package",
    "Egts.flags_record",
    "Egts.flags_pos",
    "Egts.flags_extpos",
    "Egts.flags_state",
    "Egts.flags_liquid",
    "Egts.flags_adsensors",
    "Egts.flags_counters",
    "Egts.flags_unset_refused",
    "Egts.flags_identity_anything",
    "Egts.flags_identity_zero",
    "Egts.flags_pos_shifted",
    "Egts.flags_pos_own_output_refused"
   ],
   "note": "Proved for all encoders but SrTermIdentity: exactly the texts that together spell a byte are accepted, that byte is written, and if the texts have 8 digits its bits are these digits. False of the code: SrTermIdentity accepts anything; widths of single flags are not checked, so digits may slip into the next flag, and Encode may write bytes Decode refuses."
  },
  {
   "property": "C108",
   "status": "proved",
   "theorems": [
    "Egts.storage_any_order",
    "Egts.storage_merge"
   ],
   "note": "Rests on the model of the protobuf library (Go/Protobuf), which is not code of the repository."
  },
  {
   "property": "C109",
   "status": "proved",
   "theorems": [
    "Egts.float_text",
    "Egts.float32_text",
    "Egts.float_text_bytes",
    "Egts.goFmt_ok",
    "Egts.saved_floats",
    "Egts.saved_text",
    "Egts.end_to_end_go",
    "Egts.package_text_go"
   ],
   "note": "strconv's shortest formatting and floatEncoder of encoding/json are modelled (Model/FloatText) and proved to give the shortest decimal, closest to the value, that rounds back; with this the assumptions on the formatting of floats of C84, C98, C102, C104 and C105 are theorems. The IMEI is read back only if it is UTF-8 (C67)."
  },
  {
   "property": "C110",
   "status": "proved",
   "theorems": [
    "Egts.storage_document",
    "Egts.storage_document_iff",
    "Egts.storage_names",
    "Egts.package_text_messages"
   ],
   "note": "The JSON names and wire numbers are checked against one table made from the .proto file (Spec/StorageJson). Rests on the model of the struct tags of the generated code and of encoding/json (Model/PackageJson)."
  },
  {
   "property": "C111",
   "status": "proved",
   "theorems": [
    "Egts.parseInt_iff",
    "Egts.parseFloat_reads",
    "Egts.parseFloat_large",
    "Egts.parseFloat_iff",
    "Egts.flags_taken",
    "Egts.flags_help",
    "Egts.command_refused",
    "Egts.command_end_to_end",
    "Egts.command_documented",
    "Egts.receiver_command"
   ],
   "note": "flag.Parse, strconv.ParseInt and strconv.ParseFloat of the Go library are modelled (Model/CmdLine); spelling of numbers, correct rounding (nearest, ties to even, uniquely determined) and command lines are specified independently (Spec/CmdLine). Exponents of floating point literals are restricted to five digits (ParseFloat does not count further, parseFloat_exponent). A surprise that follows the documentation of the flag package: 010 is 8 (leading_zero). Infinity and NaN are accepted as positions; they have no counterpart in the model of float64 and are replaced by arbitrary numbers there."
  },
  {
   "property": "C112",
   "status": "partial",
   "theorems": [
    "Egts.timeParse_iff",
    "Egts.rfc3339_taken_partial",
    "Egts.stamp_unique",
    "Egts.timeParse_refuses",
    "Egts.small_letters"
   ],
   "note": "time.Parse with the layout RFC3339 is modelled (Model/TimeParse) for Go before and since 1.20, and the texts it takes are characterised exactly. False of the code: leap seconds and small letters t and z, which RFC 3339 allows, are refused; one-digit hours, a comma, offsets up to 24:60 (before Go 1.20 any two digits) are taken. What the command then does with the instant: nothing (C56)."
  },
  {
   "property": "C113",
   "status": "proved",
   "theorems": [
    "Egts.init_ok_iff",
    "Egts.init_no_panic",
    "Egts.init_untried",
    "Egts.tarantool_documented",
    "Egts.hasNumber_iff"
   ],
   "note": "InitSays lists, per kind, the options needed and the call of the client library; init_ok_iff is an equivalence for every Net. tarantool_documented is the section documented in the connector's comment. The defects found about options (redis db default, nsq server/servers, nats user) are C52 and C78."
  },
  {
   "property": "C114",
   "status": "partial",
   "theorems": [
    "Egts.SendEgts.send_all_partial",
    "Egts.SendEgts.send_data_partial",
    "Egts.SendEgts.send_pairs_partial",
    "Egts.SendEgts.send_hangs",
    "Egts.SendEgts.send_unterminated",
    "Egts.SendEgts.send_lags",
    "Egts.SendEgts.response_unanswered",
    "Egts.SendEgts.login_reply",
    "Egts.SendEgts.fromHex_iff"
   ],
   "note": "Proved for files whose lines are all terminated and whose packets are all answered: everything is sent, the pieces printed are the answers from the beginning (and one answer each on a network that does not cut). False of the script: it waits for ever at a packet the server does not answer (send_hangs, e.g. RESPONSE packets); a last line without line end loses a digit and ends in an exception (send_unterminated); after a login the answers printed may be one behind (send_lags)."
  },
  {
   "property": "C115",
   "status": "partial",
   "theorems": [
    "Egts.one_bad_loses_all",
    "Egts.one_bad_on_connection",
    "Egts.raw_accept_iff",
    "Egts.unknown_type",
    "Egts.all_understood_partial"
   ],
   "note": "False of the code: a single subrecord that is not understood makes the gate reject the whole packet with code 129, save nothing and confirm no record (one_bad_loses_all, for every such packet; line 17 of the recorded packets is one). Proved: the packet is accepted exactly if every subrecord is understood (raw_accept_iff), and then the contents are found one for one, in order (all_understood_partial). Missing: the rest of a packet with an unsupported subrecord."
  },
  {
   "property": "C116",
   "status": "partial",
   "theorems": [
    "Egts.small_packet_large_work",
    "Egts.work_not_proportional",
    "Egts.work_bounded_partial",
    "Egts.work_truthful_partial",
    "Egts.rdsStep_calls"
   ],
   "note": "False of the code: a record that announces more data than are sent is filled up with zeros, record responses hold nested service data that are decoded and thrown away, and seven zeros are a record. A packet of 39 bytes makes the decoder read 9363 records and subrecords, one of 65533 bytes 11.8 million (small_packet_large_work, exact count for every k). Proved: at most 65533 per nonzero byte plus one per byte, for every body (work_bounded_partial), and at most one per byte if the length fields tell the truth (work_truthful_partial). The count follows the loops of the model (Model/Work)."
  },
  {
   "property": "C117",
   "status": "proved",
   "theorems": [
    "Egts.answered_eventually",
    "Egts.closed_eventually",
    "Egts.exSched_answered"
   ],
   "note": "FairTo is the only assumption on the schedule (handler i gets infinitely many turns); everything else, in particular the data and turns of the other connections, is arbitrary. Hypothesis: the process does not die of a panic (the causes are C05, C12, C18; crash_has_cause lists them). A write that blocks because the peer reads nothing is C97."
  },
  {
   "property": "C118",
   "status": "proved",
   "theorems": [
    "Egts.file_unique",
    "Egts.conforms_exists",
    "Egts.file_settings",
    "Egts.file_configured",
    "Egts.file_without_storage",
    "Egts.shipped_configuration",
    "Egts.test_file",
    "Egts.odd_file"
   ],
   "note": "The YAML library is a parameter with one hypothesis (Yaml.Conforms): it reads the files of the form of Spec/Yaml as written there. That form is a narrow subset of YAML; a reader that satisfies the hypothesis exists (conforms_exists)."
  },
  {
   "property": "C119",
   "status": "partial",
   "theorems": [
    "Egts.log_info",
    "Egts.log_warn",
    "Egts.log_error",
    "Egts.log_quiet",
    "Egts.log_bounded",
    "Egts.log_harmless",
    "Egts.errors_always_printed",
    "Egts.loss_unreported"
   ],
   "note": "Everything but the last sentence is proved, for any stream, with its cutting into packets given by CutInto. The last sentence is false of the code: readings without a position are acknowledged, dropped and not reported (loss_unreported)."
  },
  {
   "property": "C120",
   "status": "partial",
   "theorems": [
    "Egts.credentials_unused",
    "Egts.login_granted",
    "Egts.wrong_password_stores",
    "Egts.no_login_stores",
    "Egts.login_alike"
   ],
   "note": "The second sentence is proved as noninterference (credentials_unused: same actions, same end, same log for any two streams whose packets are pairwise equal or alike up to the contents of the logins; login_alike shows that logins with any texts are alike). The first is false of the code: every login is granted, and records are stored with any password and without login."
  },
  {
   "property": "C121",
   "status": "partial",
   "theorems": [
    "Egts.encode_nil_panics",
    "Egts.encode_panic_iff",
    "Egts.encode_ok_iff",
    "Egts.encode_returns_partial",
    "Egts.decoded_encodable",
    "Egts.decoded_encodable_proto",
    "Egts.encode_example"
   ],
   "note": "False of the code: Encode panics on a subrecord with a type code and no content (nil); encode_panic_iff says exactly when. Everything else proved. Bodies and contents of types outside the library (the interface is open) and typed nil pointers are not modelled."
  },
  {
   "property": "C122",
   "status": "partial",
   "theorems": [
    "Egts.confirmed_was_saved",
    "Egts.confirmed_is_kept_partial",
    "Egts.good_session_confirms",
    "Egts.confirmed_but_lost"
   ],
   "note": "False of the code if a storage may refuse a record (confirmed_but_lost): the confirmation is sent all the same. Proved for storages that accept; without that assumption: the record has been offered before the confirmation (confirmed_was_saved)."
  },
  {
   "property": "C123",
   "status": "proved",
   "theorems": [
    "Egts.served_in_bounded_turns",
    "Egts.run_less",
    "Egts.handle_few"
   ],
   "note": "A turn is one step of Model/Gate: reading and handling one packet, beginning or ending an action, or one call of a storage. A call of a storage is one turn however long it takes: its duration is not modelled."
  },
  {
   "property": "C124",
   "status": "proved",
   "theorems": [
    "Egts.getters_tell",
    "Egts.getters_nil",
    "Egts.SensNdNavData.getters_nil",
    "Egts.SensFuelLevel.getters_nil",
    "Egts.sent_says",
    "Egts.part_says"
   ],
   "note": "getters_tell compares the complete tables of getters (names and values) with what the .proto file and the bytes sent say. The other messages have their own X.getters_nil. Unknown fields are varints, as in C108. The protobuf library is modelled (Go/Protobuf)."
  },
  {
   "property": "C125",
   "status": "partial",
   "theorems": [
    "Egts.reason_consts",
    "Egts.reason_named",
    "Egts.reason_unnamed",
    "Egts.reason_string_inj",
    "Egts.reason_read_string",
    "Egts.reason_read_name",
    "Egts.reason_read_number",
    "Egts.reason_read_partial",
    "Egts.reason_not_refused"
   ],
   "note": "The last sentence is false of the code: any whole number is accepted, null makes 0 of the reason, and no data at all lets UnmarshalJSON panic (reason_not_refused); everything else is proved. reason_read_partial says exactly what is read from JSON in ASCII. json.Unmarshal is a parameter with a specification that exReader_reads shows to be satisfiable."
  },
  {
   "property": "C126",
   "status": "proved",
   "theorems": [
    "Egts.storage_grammar",
    "Egts.storage_decode_grammar",
    "Egts.storage_unambiguous",
    "Egts.storage_text_exists"
   ],
   "note": "The grammar (Spec/ProtoGrammar) is independent of the model of the protobuf library (Go/Protobuf), which is not code of the repository; the field numbers and types are those of the .proto file (Spec/StorageJson), the model has those of the struct tags. Not modelled: the limit of the library on the nesting of unknown groups."
  },
  {
   "property": "C127",
   "status": "proved",
   "theorems": [
    "Egts.packet_readable",
    "Egts.frame_readable",
    "Egts.readable",
    "Egts.telematic_text"
   ],
   "note": "Spec/Readable uses nothing of the model; the telematic contents are those of Spec/ProtoGrammar by telematic_text. packet_readable is for all slices, frame_readable for complete frames with a right header length field."
  },
  {
   "property": "C128",
   "status": "partial",
   "theorems": [
    "Egts.buffer_bounded_partial",
    "Egts.timers_bounded_partial",
    "Egts.timers_exact_partial",
    "Egts.timers_released_partial",
    "Egts.timers_pile_up"
   ],
   "note": "False of the code: every packet leaves a timer behind that is never stopped and runs for conn_ttl (timers_pile_up: n packets at once, n + 1 timers). Proved: the buffer is at most 65545 bytes; never more timers than one per ten bytes sent plus one; their exact number; none after ttl of silence."
  },
  {
   "property": "C129",
   "status": "partial",
   "theorems": [
    "Egts.storages_hold",
    "Egts.storages_same_partial",
    "Egts.storages_perm_partial",
    "Egts.later_in_earlier",
    "Egts.refusal_starves",
    "Egts.order_differs",
    "Egts.refusal_differs"
   ],
   "note": "False of the code in two ways: two storages may hold the records of different connections in different orders (order_differs), and a storage that refuses a record keeps it from the storages behind it in the configuration (refusal_differs, refusal_starves). Proved: the first sentence (storages_hold, for any answers of the storages and at any moment); with storages that accept everything, the same records, each the same number of times (storages_same_partial, storages_perm_partial); for any answers, a later storage has nothing that an earlier one has not (later_in_earlier)."
  },
  {
   "property": "C130",
   "status": "proved",
   "theorems": [
    "Egts.json_number_literal",
    "Egts.typed_back",
    "Egts.stored_coords",
    "Egts.stored_typed_back",
    "Egts.replay"
   ],
   "note": "replay_documented meets the hypotheses of replay for every stored position. The step of the wire format is lost because Encode truncates (C22); the southern and western hemispheres are not in the records (C42)."
  },
  {
   "property": "C131",
   "status": "proved",
   "theorems": [
    "Egts.error_names_fault",
    "Egts.text_or_fault",
    "Egts.body_fault",
    "Egts.packet_refused",
    "Egts.rejected_reported"
   ],
   "note": "The faults are a grammar on the bytes (Spec/Fault, Spec/Rejected), both directions. The remaining outcome of Package.Decode, a panic, is C05. Texts of errors are modelled as classes; the two that quote the input carry what is quoted."
  },
  {
   "property": "C132",
   "status": "partial",
   "theorems": [
    "Egts.state_reused",
    "Egts.liquid_reused",
    "Egts.abscntr_reused",
    "Egts.absan_reused",
    "Egts.resultcode_reused",
    "Egts.dispatcher_reused",
    "Egts.srresponse_reused",
    "Egts.pos_reused_partial",
    "Egts.extpos_reused_partial",
    "Egts.adsensors_reused_partial",
    "Egts.term_reused_partial",
    "Egts.counters_reused_partial",
    "Egts.auth_reused_partial",
    "Egts.ptresponse_reused_partial",
    "Egts.servicedata_reused_partial",
    "Egts.recorddata_reused_partial",
    "Egts.reused_wrong"
   ],
   "note": "False of the code for every type with optional fields and for sets (reused_wrong). Proved: true for the seven types without optional fields; for the others outcome and error are the same, and the exact difference: fields that are not announced keep the old value, sets grow. Telematic messages: Decode is proto.Unmarshal, which resets the message; the model has no receiver there."
  },
  {
   "property": "C133",
   "status": "partial",
   "theorems": [
    "Egts.longer_decoded_partial",
    "Egts.longer_served_alike",
    "Egts.longer_altitude_wrong",
    "Egts.longer_state_wrong"
   ],
   "note": "False of the code in two places: the byte behind an altitude is read as a part of it (longer_altitude_wrong), and state data under type code 20 is refused if it has more than five bytes (longer_state_wrong). Proved: all other types with a layout of their own (1, 9, 16 without the case above, 17, 18, 19, 21, 24, 25, 27); for the server all of these, including altitudes, as the altitude is not stored."
  },
  {
   "property": "C134",
   "status": "proved",
   "theorems": [
    "Egts.influence",
    "Egts.rearranged_alike",
    "Egts.idle_alike"
   ],
   "note": "Relational: two streams that agree packet by packet in what matters (Spec/Influence) give equal saves, answers and endings. alike_example meets the hypothesis."
  },
  {
   "property": "C135",
   "status": "partial",
   "theorems": [
    "Egts.batching_partial",
    "Egts.batching_wrong"
   ],
   "note": "Proved: the same places in the same order and the same confirmed record numbers, for every distribution of the records over packets; the same liquid levels and analog readings if every packet has a position. False in general: a liquid level in a packet of its own is confirmed and lost (batching_wrong), see C93."
  },
  {
   "property": "C136",
   "status": "proved",
   "theorems": [
    "Egts.answers_stand",
    "Egts.answered_at_once",
    "Egts.nothing_early"
   ],
   "note": "The order of actions, not their time on a clock: the model has no duration of a step. Packets are those the server cuts out of a stream (Taken, Spec/Stream), among them all complete frames of 10 to 65535 bytes. The reaction ends early if the process crashes (C46). last_byte meets the hypotheses. That the actions come before the next read returns is the loop of Model/Server and, for several connections, Model/Gate (C117, C123)."
  },
  {
   "property": "C137",
   "status": "partial",
   "theorems": [
    "Egts.wander_partial",
    "Egts.wander_bound_partial",
    "Egts.wander_settles_partial",
    "Egts.wander_stops_partial",
    "Egts.wander_wrong"
   ],
   "note": "False of the code: the position with latitude 3054279064 is one step further south after each of 1433 programs (wander_wrong). Proved: at most n steps after n programs, only towards zero; the time is exact; after finitely many programs it does not move any more, and once one program leaves it unchanged all do. at most 2914 steps (7 m of latitude, 14 m of longitude) however long the chain (wander_bound_partial), because there is a value that every program leaves alone in every 2914. Not proved: the best such bound (by computation over all 2^32 values outside Lean, 1433 is the longest drift)."
  },
  {
   "property": "C138",
   "status": "partial",
   "theorems": [
    "Egts.memory_unseen_partial",
    "Egts.clock_in_records",
    "Egts.memory_matters"
   ],
   "note": "The clock: proved. Memory: proved for streams in which no packet announces a header of no bytes or more than 65535 bytes in all; false for others (memory_matters): Decode slices up to the capacity, so such a packet crashes the process or is answered. Go does not say what the capacity of an appended slice is; that the present runtime clears the bytes behind it is not used."
  },
  {
   "property": "C139",
   "status": "partial",
   "theorems": [
    "Egts.tells_partial",
    "Egts.tells_wrong"
   ],
   "note": "False of the code: a position in the south-west is stored as the same position in the north-east (tells_wrong). Proved: the stored places tell latitude, longitude (without sign), speed and time, to the last bit, and everything in the north-east; stored levels tell sensor, module, error flag, unit and level of the known units, stored readings all readings, provided every packet has a position (readings of others are lost, C135)."
  },
  {
   "property": "C140",
   "status": "proved",
   "theorems": [
    "Egts.resume",
    "Egts.resume_again",
    "Egts.broken_at",
    "Egts.unseen_twice",
    "Egts.resume_example",
    "Egts.again_example"
   ],
   "note": "Stored means handed to the storages (what they do with it is C43, C53). Data packets without record responses; levels and readings as in C135."
  },
  {
   "property": "C141",
   "status": "partial",
   "theorems": [
    "Egts.swap_refused_partial",
    "Egts.other_body_refused",
    "Egts.crc16_swap",
    "Egts.crc8_swap_iff",
    "Egts.swap_unnoticed"
   ],
   "note": "False of the code for the header: exchanging the bytes of the packet identifier 239 gives the identifier 61184 with the same checksum (swap_unnoticed). Proved: exchanged bytes of the body are always noticed; the checksum of the header misses the exchange of two different bytes exactly if they differ by EF (crc8_swap_iff)."
  }
 ]
}