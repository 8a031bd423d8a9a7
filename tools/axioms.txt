Egts.FmtOk.faithful : Classical.choice, Quot.sound, propext
Egts.SendEgts.fromHex_iff : Quot.sound, propext
Egts.SendEgts.login_reply : Classical.choice, Quot.sound, propext
Egts.SendEgts.response_unanswered : Classical.choice, Quot.sound, propext
Egts.SendEgts.send_all_partial : Classical.choice, Quot.sound, propext
Egts.SendEgts.send_data_partial : Classical.choice, Quot.sound, propext
Egts.SendEgts.send_hangs : Classical.choice, Quot.sound, propext
Egts.SendEgts.send_lags : Classical.choice, Quot.sound, propext
Egts.SendEgts.send_pairs_partial : Classical.choice, Quot.sound, propext
Egts.SendEgts.send_unterminated : Classical.choice, Quot.sound, propext
Egts.SensFuelLevel.getters_nil : Classical.choice, Quot.sound, propext
Egts.SensNdNavData.getters_nil : Classical.choice, Quot.sound, propext
Egts.StorageRecord.marshal_iff : Classical.choice, Quot.sound, propext
Egts.StorageRecord.roundtrip : Classical.choice, Quot.sound, propext
Egts.StorageRecord.unmarshal_required : propext
Egts.StorageRecord.unmarshal_stable : Classical.choice, Quot.sound, propext
Egts.absan_reused : Quot.sound, propext
Egts.absan_roundtrip : Quot.sound, propext
Egts.absan_wire : Quot.sound, propext
Egts.abscntr_reused : Quot.sound, propext
Egts.abscntr_roundtrip : Quot.sound, propext
Egts.abscntr_wire : Quot.sound, propext
Egts.accepted_example : Classical.choice, Quot.sound, propext
Egts.accepted_hyps : Quot.sound, propext
Egts.accepted_iff : Classical.choice, Quot.sound, propext
Egts.ack_bytes : Classical.choice, Quot.sound, propext
Egts.acked_after_save : Classical.choice, Quot.sound, propext
Egts.acked_not_stored : Classical.choice, Quot.sound, propext
Egts.acked_stored_partial : Classical.choice, Quot.sound, propext
Egts.adsensors_behaviour : Classical.choice, Quot.sound, propext
Egts.adsensors_reused_partial : Classical.choice, Quot.sound, propext
Egts.adsensors_roundtrip_partial : Quot.sound, propext
Egts.adsensors_symmetric_necessary : Classical.choice, Quot.sound, propext
Egts.adsensors_wire : Quot.sound, propext
Egts.adsensors_wrong : propext
Egts.again_example : Classical.choice, Quot.sound, propext
Egts.all_understood_partial : Classical.choice, Quot.sound, propext
Egts.altitude_behaviour : Classical.choice, Quot.sound, propext
Egts.altitude_decoded_partial : Classical.choice, Quot.sound, propext
Egts.altitude_wrong : Classical.choice, Quot.sound, propext
Egts.amplification_bound : Classical.choice, Quot.sound, propext
Egts.amqp_password_percent_wrong : Classical.choice, Quot.sound, propext
Egts.amqp_password_slash_wrong : Classical.choice, Quot.sound, propext
Egts.amqp_settings_iff : Classical.choice, Quot.sound, propext
Egts.amqp_settings_partial : Classical.choice, Quot.sound, propext
Egts.answer_injective : Classical.choice, Quot.sound, propext
Egts.answer_length : Quot.sound, propext
Egts.answered_at_once : Classical.choice, Quot.sound, propext
Egts.answered_eventually : Classical.choice, Quot.sound, propext
Egts.answers_silent : Classical.choice, Quot.sound, propext
Egts.answers_stand : Classical.choice, Quot.sound, propext
Egts.any_packets_independent : Classical.choice, Quot.sound, propext
Egts.attribution_counterexample : Classical.choice, Quot.sound, propext
Egts.attribution_partial : Classical.choice, Quot.sound, propext
Egts.attribution_wrong : Classical.choice, Quot.sound, propext
Egts.auth_nul_truncates : propext
Egts.auth_result_partial : Classical.choice, Quot.sound, propext
Egts.auth_result_rejected : Classical.choice, Quot.sound, propext
Egts.auth_reused_partial : Quot.sound, propext
Egts.auth_roundtrip : Quot.sound, propext
Egts.auth_wire : Classical.choice, Quot.sound, propext
Egts.batching_partial : Classical.choice, Quot.sound, propext
Egts.batching_wrong : Classical.choice, Quot.sound, propext
Egts.body_bare_accepted : Classical.choice, Quot.sound, propext
Egts.body_complete_partial : Classical.choice, Quot.sound, propext
Egts.body_cut_accepted : Classical.choice, Quot.sound, propext
Egts.body_decode_iff : Classical.choice, Quot.sound, propext
Egts.body_decoded : Classical.choice, Quot.sound, propext
Egts.body_fault : Classical.choice, Quot.sound, propext
Egts.body_unique : Classical.choice, Quot.sound, propext
Egts.broken_at : Classical.choice, Quot.sound, propext
Egts.buffer_bounded_partial : Classical.choice, Quot.sound, propext
Egts.call_shape : Classical.choice, Quot.sound, propext
Egts.clock_in_records : Classical.choice, Quot.sound, propext
Egts.closed_eventually : Classical.choice, Quot.sound, propext
Egts.command_documented : Classical.choice, Quot.sound, propext
Egts.command_end_to_end : Classical.choice, Quot.sound, propext
Egts.command_refused : Classical.choice, Quot.sound, propext
Egts.config_values_partial : Classical.choice, Quot.sound, propext
Egts.confirmed_but_lost : Classical.choice, Quot.sound, propext
Egts.confirmed_is_kept_partial : Classical.choice, Quot.sound, propext
Egts.confirmed_was_saved : Classical.choice, Quot.sound, propext
Egts.conforms_exists : Classical.choice, Quot.sound, propext
Egts.conn_ttl_overflow : 
Egts.conn_ttl_seconds : Quot.sound, propext
Egts.consumed_exact : Classical.choice, Quot.sound, propext
Egts.consumed_frame_partial : Classical.choice, Quot.sound, propext
Egts.consumed_wrong : Classical.choice, Quot.sound, propext
Egts.content_unchanged_iff : Classical.choice, Quot.sound, propext
Egts.coord_decoded : Classical.choice, Quot.sound, propext
Egts.coord_reencode_partial : Classical.choice, Quot.sound, propext
Egts.coord_reencode_wrong : Classical.choice, Quot.sound, propext
Egts.coord_roundtrip : Classical.choice, Quot.sound, propext
Egts.coord_strict_mono : Classical.choice, Quot.sound, propext
Egts.counters_behaviour : Quot.sound, propext
Egts.counters_decode_wrong : propext
Egts.counters_reused_partial : Classical.choice, Quot.sound, propext
Egts.counters_roundtrip_partial : Quot.sound, propext
Egts.counters_wire_partial : Quot.sound, propext
Egts.crash_cause : Classical.choice, Quot.sound, propext
Egts.crash_has_cause : Classical.choice, Quot.sound, propext
Egts.crash_header_length_zero : Classical.choice, Quot.sound, propext
Egts.crash_iff : Classical.choice, Quot.sound, propext
Egts.crash_long_frame : Classical.choice, Quot.sound, propext
Egts.crc16_detects_burst : Classical.choice, Quot.sound, propext
Egts.crc16_detects_double : Classical.choice, Quot.sound, propext
Egts.crc16_detects_odd : Classical.choice, Quot.sound, propext
Egts.crc16_is_crc : Classical.choice, Quot.sound, propext
Egts.crc16_swap : Classical.choice, Quot.sound, propext
Egts.crc8_detects_burst : Classical.choice, Quot.sound, propext
Egts.crc8_detects_double : Classical.choice, Quot.sound, propext
Egts.crc8_detects_odd : Classical.choice, Quot.sound, propext
Egts.crc8_is_crc : Classical.choice, Quot.sound, propext
Egts.crc8_swap_iff : Quot.sound, propext
Egts.credentials_unused : Classical.choice, Quot.sound, propext
Egts.cut_unique : Classical.choice, Quot.sound, propext
Egts.data_acknowledged : Classical.choice, Quot.sound, propext
Egts.data_packet_accepted : Classical.choice, Quot.sound, propext
Egts.data_packet_served : Classical.choice, Quot.sound, propext
Egts.decode_accept_iff : Classical.choice, Quot.sound, propext
Egts.decode_code_choice : Classical.choice, Quot.sound, propext
Egts.decode_codes_partial : Classical.choice, Quot.sound, propext
Egts.decode_crc_wrong : Classical.choice, Quot.sound, propext
Egts.decode_header_fields : Classical.choice, Quot.sound, propext
Egts.decode_hl_change_accepted : Classical.choice, Quot.sound, propext
Egts.decode_never_138 : Classical.choice, Quot.sound, propext
Egts.decode_no_panic_partial : Classical.choice, Quot.sound, propext
Egts.decode_panic_iff : Classical.choice, Quot.sound, propext
Egts.decode_panic_only : Classical.choice, Quot.sound, propext
Egts.decode_panics_example : Classical.choice, Quot.sound, propext
Egts.decode_panics_header : Classical.choice, Quot.sound, propext
Egts.decode_panics_wrap : Classical.choice, Quot.sound, propext
Egts.decode_reuse_partial : Classical.choice, Quot.sound, propext
Egts.decode_reuse_routed : Classical.choice, Quot.sound, propext
Egts.decode_reuse_stale : Classical.choice, Quot.sound, propext
Egts.decode_terminates : Classical.choice, Quot.sound, propext
Egts.decode_verifies_crc_partial : Classical.choice, Quot.sound, propext
Egts.decoded_encodable : Classical.choice, Quot.sound, propext
Egts.decoded_encodable_proto : Classical.choice, Quot.sound, propext
Egts.decoded_kind : Classical.choice, Quot.sound, propext
Egts.decoded_text_fails : Classical.choice, Quot.sound, propext
Egts.decoded_text_partial : Classical.choice, Quot.sound, propext
Egts.decoded_text_plain_partial : Classical.choice, Quot.sound, propext
Egts.denotes_unique : Quot.sound, propext
Egts.direction_decoded_partial : Classical.choice, Quot.sound, propext
Egts.direction_wrong : Classical.choice, Quot.sound, propext
Egts.dispatcher_reused : Quot.sound, propext
Egts.dispatcher_roundtrip : Quot.sound, propext
Egts.dispatcher_type_not_inferred : Classical.choice, Quot.sound, propext
Egts.dispatcher_wire : Quot.sound, propext
Egts.distinct_ids_partial : Classical.choice, Quot.sound, propext
Egts.edit_partial : Classical.choice, Quot.sound, propext
Egts.edit_wrong : Classical.choice, Quot.sound, propext
Egts.encode_again : Classical.choice, Quot.sound, propext
Egts.encode_drops_body : Classical.choice, Quot.sound, propext
Egts.encode_example : Classical.choice, Quot.sound, propext
Egts.encode_keeps_body_partial : Classical.choice, Quot.sound, propext
Egts.encode_layout : Classical.choice, Quot.sound, propext
Egts.encode_nil_panics : Classical.choice, Quot.sound, propext
Egts.encode_ok_iff : Classical.choice, Quot.sound, propext
Egts.encode_overflow : Classical.choice, Quot.sound, propext
Egts.encode_panic_iff : Classical.choice, Quot.sound, propext
Egts.encode_returns_partial : Classical.choice, Quot.sound, propext
Egts.end_to_end : Classical.choice, Quot.sound, propext
Egts.end_to_end_go : Classical.choice, Quot.sound, propext
Egts.eof_closed_partial : Classical.choice, Quot.sound, propext
Egts.error_names_fault : Classical.choice, Quot.sound, propext
Egts.errors_always_logged : Classical.choice, Quot.sound, propext
Egts.errors_always_printed : Classical.choice, Quot.sound, propext
Egts.every_client_served : Classical.choice, Quot.sound, propext
Egts.exArgs_valid : Classical.choice, Quot.sound, propext
Egts.exPackage_wf : Classical.choice, Quot.sound, propext
Egts.exPacket_meets : Classical.choice, Quot.sound, propext
Egts.exPacket_saved : Classical.choice, Quot.sound, propext
Egts.exSched_answered : Classical.choice, Quot.sound, propext
Egts.exported_text_valid : Classical.choice, Quot.sound, propext
Egts.extpos_reused_partial : Classical.choice, Quot.sound, propext
Egts.extpos_roundtrip : Quot.sound, propext
Egts.extpos_wire : Quot.sound, propext
Egts.file_configured : Classical.choice, Quot.sound, propext
Egts.file_settings : Classical.choice, Quot.sound, propext
Egts.file_unique : Classical.choice, Quot.sound, propext
Egts.file_without_storage : Classical.choice, Quot.sound, propext
Egts.first_packet_independent : Classical.choice, Quot.sound, propext
Egts.flags_adsensors : Classical.choice, Quot.sound, propext
Egts.flags_counters : Classical.choice, Quot.sound, propext
Egts.flags_extpos : Classical.choice, Quot.sound, propext
Egts.flags_help : Classical.choice, Quot.sound, propext
Egts.flags_identity_anything : 
Egts.flags_identity_zero : Classical.choice, Quot.sound, propext
Egts.flags_liquid : Classical.choice, Quot.sound, propext
Egts.flags_package : Classical.choice, Quot.sound, propext
Egts.flags_pos : Classical.choice, Quot.sound, propext
Egts.flags_pos_own_output_refused : Classical.choice, Quot.sound, propext
Egts.flags_pos_shifted : Classical.choice, Quot.sound, propext
Egts.flags_record : Classical.choice, Quot.sound, propext
Egts.flags_state : Classical.choice, Quot.sound, propext
Egts.flags_taken : Classical.choice, Quot.sound, propext
Egts.flags_unset_refused : Classical.choice, Quot.sound, propext
Egts.float32_text : Classical.choice, Quot.sound, propext
Egts.float_text : Classical.choice, Quot.sound, propext
Egts.float_text_bytes : Classical.choice, Quot.sound, propext
Egts.forwarded_all : Classical.choice, Quot.sound, propext
Egts.forwarded_sublist : Classical.choice, Quot.sound, propext
Egts.frame_readable : Classical.choice, Quot.sound, propext
Egts.gen_bytes : Classical.choice, Quot.sound, propext
Egts.gen_default_timeout : Classical.choice, Quot.sound, propext
Egts.gen_end_to_end : Classical.choice, Quot.sound, propext
Egts.gen_exit_status : Classical.choice, Quot.sound, propext
Egts.gen_failure_status_partial : Classical.choice, Quot.sound, propext
Egts.gen_hemisphere_fixed : Classical.choice, Quot.sound, propext
Egts.gen_hemisphere_wrong : Classical.choice, Quot.sound, propext
Egts.gen_panics_bare : Classical.choice, Quot.sound, propext
Egts.gen_position_partial : Classical.choice, Quot.sound, propext
Egts.gen_raw : Classical.choice, Quot.sound, propext
Egts.gen_required : Classical.choice, Quot.sound, propext
Egts.gen_split_answer : Classical.choice, Quot.sound, propext
Egts.gen_success_partial : Classical.choice, Quot.sound, propext
Egts.gen_success_status : Classical.choice, Quot.sound, propext
Egts.gen_time_ignored : Classical.choice, Quot.sound, propext
Egts.gen_time_partial : Classical.choice, Quot.sound, propext
Egts.gen_timeout_partial : Quot.sound, propext
Egts.gen_unconfirmed_success : Classical.choice, Quot.sound, propext
Egts.gen_whole_answer_partial : Classical.choice, Quot.sound, propext
Egts.getters_nil : Classical.choice, Quot.sound, propext
Egts.getters_tell : Classical.choice, Quot.sound, propext
Egts.goFmt_ok : Classical.choice, Quot.sound, propext
Egts.good_session_confirms : Classical.choice, Quot.sound, propext
Egts.handle_few : Classical.choice, Quot.sound, propext
Egts.handler_progress : Classical.choice, Quot.sound, propext
Egts.handler_settles : Classical.choice, Quot.sound, propext
Egts.hasNumber_iff : Classical.choice, Quot.sound, propext
Egts.hemisphere_ignored : Classical.choice, Quot.sound, propext
Egts.hemisphere_partial : Classical.choice, Quot.sound, propext
Egts.hl_change_iff : Classical.choice, Quot.sound, propext
Egts.identity_exported : Classical.choice, Quot.sound, propext
Egts.idle_alike : propext
Egts.idle_never_closed : Classical.choice, Quot.sound, propext
Egts.influence : Classical.choice, Quot.sound, propext
Egts.init_no_panic : Classical.choice, Quot.sound, propext
Egts.init_ok_iff : Classical.choice, Quot.sound, propext
Egts.init_untried : Classical.choice, Quot.sound, propext
Egts.invalid_saved : Classical.choice, Quot.sound, propext
Egts.isolation : Classical.choice, Quot.sound, propext
Egts.isolation_equal : Classical.choice, Quot.sound, propext
Egts.isolation_prefix : Classical.choice, Quot.sound, propext
Egts.json_an_members : Classical.choice, Quot.sound, propext
Egts.json_imei_lost : Classical.choice, Quot.sound, propext
Egts.json_keys_partial : Classical.choice, Quot.sound, propext
Egts.json_liquid_members : Classical.choice, Quot.sound, propext
Egts.json_loc_members : Classical.choice, Quot.sound, propext
Egts.json_loc_states_partial : Classical.choice, Quot.sound, propext
Egts.json_lossless_partial : Classical.choice, Quot.sound, propext
Egts.json_members : Classical.choice, Quot.sound, propext
Egts.json_number_literal : Classical.choice, Quot.sound, propext
Egts.json_sensors_null : Classical.choice, Quot.sound, propext
Egts.later_in_earlier : Classical.choice, Quot.sound, propext
Egts.length_is_encoded_length : Classical.choice, Quot.sound, propext
Egts.library_to_server : Classical.choice, Quot.sound, propext
Egts.liquid_reused : Quot.sound, propext
Egts.liquid_roundtrip : Quot.sound, propext
Egts.liquid_sensor_number_overflow : propext
Egts.liquid_wire : Quot.sound, propext
Egts.listen_address : Classical.choice, Quot.sound, propext
Egts.listen_address_unique : propext
Egts.listen_at_configured_partial : Classical.choice, Quot.sound, propext
Egts.listen_ipv6_bracketed : propext
Egts.listen_ipv6_wrong : propext
Egts.literal_only : Classical.choice, Quot.sound, propext
Egts.literal_string : Classical.choice, Quot.sound, propext
Egts.load_empty : Classical.choice, Quot.sound, propext
Egts.load_ok_iff : Classical.choice, Quot.sound, propext
Egts.load_order_irrelevant : Classical.choice, Quot.sound, propext
Egts.load_unknown : Classical.choice, Quot.sound, propext
Egts.log_bounded : Classical.choice, Quot.sound, propext
Egts.log_error : Classical.choice, Quot.sound, propext
Egts.log_harmless : Classical.choice, Quot.sound, propext
Egts.log_info : Classical.choice, Quot.sound, propext
Egts.log_level : Classical.choice, Quot.sound, propext
Egts.log_level_prints : Classical.choice, Quot.sound, propext
Egts.log_quiet : Classical.choice, Quot.sound, propext
Egts.log_text_document : Classical.choice, Quot.sound, propext
Egts.log_text_tokens : Classical.choice, Quot.sound, propext
Egts.log_warn : Classical.choice, Quot.sound, propext
Egts.login_alike : Classical.choice, Quot.sound, propext
Egts.login_granted : Classical.choice, Quot.sound, propext
Egts.login_ids_repeated : Classical.choice, Quot.sound, propext
Egts.longFrame_panics : Classical.choice, Quot.sound, propext
Egts.longer_altitude_wrong : Classical.choice, Quot.sound, propext
Egts.longer_decoded_partial : Classical.choice, Quot.sound, propext
Egts.longer_served_alike : Classical.choice, Quot.sound, propext
Egts.longer_state_wrong : Classical.choice, Quot.sound, propext
Egts.loss_unreported : Classical.choice, Quot.sound, propext
Egts.main_configured : Classical.choice, Quot.sound, propext
Egts.main_default_log : Classical.choice, Quot.sound, propext
Egts.main_has_storage : Classical.choice, Quot.sound, propext
Egts.main_serves_iff : Classical.choice, Quot.sound, propext
Egts.main_stores : Classical.choice, Quot.sound, propext
Egts.memory_matters : Classical.choice, Quot.sound, propext
Egts.memory_unseen_partial : Classical.choice, Quot.sound, propext
Egts.misfit_absan_partial : Quot.sound, propext
Egts.misfit_abscntr_partial : Quot.sound, propext
Egts.misfit_counter_accepted : Quot.sound, propext
Egts.misfit_pos_accepted : Classical.choice, Quot.sound, propext
Egts.misfit_pos_partial : Classical.choice, Quot.sound, propext
Egts.nack_bytes : Classical.choice, Quot.sound, propext
Egts.nats_settings : Classical.choice, Quot.sound, propext
Egts.nats_user_partial : Classical.choice, Quot.sound, propext
Egts.nats_user_wrong : Classical.choice, Quot.sound, propext
Egts.navtime_decoded : Classical.choice, Quot.sound, propext
Egts.navtime_encoded : Classical.choice, Quot.sound, propext
Egts.navtime_subsecond : Classical.choice, Quot.sound, propext
Egts.nested_is_recursive : Classical.choice, Quot.sound, propext
Egts.no_crash_partial : Classical.choice, Quot.sound, propext
Egts.no_echo : Classical.choice, Quot.sound, propext
Egts.no_login_stores : Classical.choice, Quot.sound, propext
Egts.no_ping_pong : Classical.choice, Quot.sound, propext
Egts.non_egts_dropped : Classical.choice, Quot.sound, propext
Egts.non_egts_dropped_later : Classical.choice, Quot.sound, propext
Egts.nothing_early : Classical.choice, Quot.sound, propext
Egts.nsq_documented_wrong : Classical.choice, Quot.sound, propext
Egts.nsq_settings_partial : Classical.choice, Quot.sound, propext
Egts.odd_file : Classical.choice, Quot.sound, propext
Egts.one_bad_loses_all : Classical.choice, Quot.sound, propext
Egts.one_bad_on_connection : Classical.choice, Quot.sound, propext
Egts.only_valid_partial : Classical.choice, Quot.sound, propext
Egts.order_differs : Classical.choice, Quot.sound, propext
Egts.other_body_refused : Classical.choice, Quot.sound, propext
Egts.package_composes : Classical.choice, Quot.sound, propext
Egts.package_empty_body : Classical.choice, Quot.sound, propext
Egts.package_roundtrip : Classical.choice, Quot.sound, propext
Egts.package_text_document : Classical.choice, Quot.sound, propext
Egts.package_text_go : Classical.choice, Quot.sound, propext
Egts.package_text_iff : Classical.choice, Quot.sound, propext
Egts.package_text_lossless_go_partial : Classical.choice, Quot.sound, propext
Egts.package_text_lossless_partial : Classical.choice, Quot.sound, propext
Egts.package_text_messages : Classical.choice, Quot.sound, propext
Egts.package_text_not_lossless : Classical.choice, Quot.sound, propext
Egts.packet_decoded : Classical.choice, Quot.sound, propext
Egts.packet_readable : Classical.choice, Quot.sound, propext
Egts.packet_refused : Classical.choice, Quot.sound, propext
Egts.packets_bound : Quot.sound, propext
Egts.packets_independent : Classical.choice, Quot.sound, propext
Egts.parseFloat_iff : Classical.choice, Quot.sound, propext
Egts.parseFloat_large : Classical.choice, Quot.sound, propext
Egts.parseFloat_reads : Classical.choice, Quot.sound, propext
Egts.parseInt_iff : Classical.choice, Quot.sound, propext
Egts.part_says : Classical.choice, Quot.sound, propext
Egts.pass_on_empty : Classical.choice, Quot.sound, propext
Egts.pass_on_partial : Classical.choice, Quot.sound, propext
Egts.pass_on_pos_partial : Classical.choice, Quot.sound, propext
Egts.pass_on_reserved : Classical.choice, Quot.sound, propext
Egts.pass_on_wrong : Classical.choice, Quot.sound, propext
Egts.pg_empty_password_wrong : Classical.choice, Quot.sound, propext
Egts.pg_override_wrong : Classical.choice, Quot.sound, propext
Egts.pg_password_space_wrong : Classical.choice, Quot.sound, propext
Egts.pg_settings_iff : Classical.choice, Quot.sound, propext
Egts.pg_settings_partial : Classical.choice, Quot.sound, propext
Egts.pos_behaviour : Classical.choice, Quot.sound, propext
Egts.pos_direction_wrong : Classical.choice, Quot.sound, propext
Egts.pos_reused_partial : Classical.choice, Quot.sound, propext
Egts.pos_roundtrip_partial : Classical.choice, Quot.sound, propext
Egts.position_unchanged_only : Classical.choice, Quot.sound, propext
Egts.positions_exported : Classical.choice, Quot.sound, propext
Egts.ptresponse_decode_iff : Classical.choice, Quot.sound, propext
Egts.ptresponse_empty_sdr : Classical.choice, Quot.sound, propext
Egts.ptresponse_reused_partial : Classical.choice, Quot.sound, propext
Egts.ptresponse_roundtrip : Classical.choice, Quot.sound, propext
Egts.raw_accept_iff : Classical.choice, Quot.sound, propext
Egts.rdsStep_calls : Classical.choice, Quot.sound, propext
Egts.rds_composes : Classical.choice, Quot.sound, propext
Egts.rds_loop_unfold : Classical.choice, Quot.sound, propext
Egts.rds_roundtrip : Classical.choice, Quot.sound, propext
Egts.readable : Classical.choice, Quot.sound, propext
Egts.readings_counterexample : Classical.choice, Quot.sound, propext
Egts.readings_lost : Classical.choice, Quot.sound, propext
Egts.readings_partial : Classical.choice, Quot.sound, propext
Egts.rearranged_alike : Quot.sound, propext
Egts.reason_consts : Classical.choice, Quot.sound, propext
Egts.reason_named : Classical.choice, Quot.sound, propext
Egts.reason_not_refused : Classical.choice, Quot.sound, propext
Egts.reason_read_name : Classical.choice, Quot.sound, propext
Egts.reason_read_number : Classical.choice, Quot.sound, propext
Egts.reason_read_partial : Classical.choice, Quot.sound, propext
Egts.reason_read_string : Classical.choice, Quot.sound, propext
Egts.reason_string_inj : Classical.choice, Quot.sound, propext
Egts.reason_unnamed : Classical.choice, Quot.sound, propext
Egts.received_all : Classical.choice, Quot.sound, propext
Egts.receiver_command : Classical.choice, Quot.sound, propext
Egts.record_number_behaviour : Classical.choice, Quot.sound, propext
Egts.record_number_partial : Classical.choice, Quot.sound, propext
Egts.record_number_right_iff : Classical.choice, Quot.sound, propext
Egts.record_number_wrong : Classical.choice, Quot.sound, propext
Egts.record_text : Classical.choice, Quot.sound, propext
Egts.record_text_float : Classical.choice, Quot.sound, propext
Egts.record_text_harmless : Classical.choice, Quot.sound, propext
Egts.record_text_one_line : Classical.choice, Quot.sound, propext
Egts.record_text_utf8 : Classical.choice, Quot.sound, propext
Egts.recorddata_reused_partial : Classical.choice, Quot.sound, propext
Egts.redis_db_default_wrong : Classical.choice, Quot.sound, propext
Egts.redis_db_partial : Classical.choice, Quot.sound, propext
Egts.redis_init_ok : Classical.choice, Quot.sound, propext
Egts.redis_queue_partial : Classical.choice, Quot.sound, propext
Egts.redis_queue_wrong : Classical.choice, Quot.sound, propext
Egts.redis_save_panics : propext
Egts.refusal_differs : Classical.choice, Quot.sound, propext
Egts.refusal_starves : Classical.choice, Quot.sound, propext
Egts.rejected_answered : Classical.choice, Quot.sound, propext
Egts.rejected_reported : Classical.choice, Quot.sound, propext
Egts.renumber_partial : Classical.choice, Quot.sound, propext
Egts.replay : Classical.choice, Quot.sound, propext
Egts.resent_partial : Classical.choice, Quot.sound, propext
Egts.resent_stored_again : Classical.choice, Quot.sound, propext
Egts.resource_bound : Classical.choice, Quot.sound, propext
Egts.response_packet_accepted : Classical.choice, Quot.sound, propext
Egts.response_stray : Classical.choice, Quot.sound, propext
Egts.response_wire : Classical.choice, Quot.sound, propext
Egts.responses_ignored : Classical.choice, Quot.sound, propext
Egts.resultcode_reused : 
Egts.resultcode_roundtrip : 
Egts.resultcode_wire : Quot.sound, propext
Egts.resume : Classical.choice, Quot.sound, propext
Egts.resume_again : Classical.choice, Quot.sound, propext
Egts.resume_example : Classical.choice, Quot.sound, propext
Egts.reused_wrong : Classical.choice, Quot.sound, propext
Egts.rfc3339_denotes : Classical.choice, Quot.sound, propext
Egts.rfc3339_injective : Classical.choice, Quot.sound, propext
Egts.rfc3339_taken_partial : Classical.choice, Quot.sound, propext
Egts.rte_cleared_accepted : Classical.choice, Quot.sound, propext
Egts.run_less : Classical.choice, Quot.sound, propext
Egts.sample_config_ttl : Classical.choice, Quot.sound, propext
Egts.save_fails_iff : propext
Egts.save_ok_iff : propext
Egts.save_reports_partial : propext
Egts.saved_floats : Classical.choice, Quot.sound, propext
Egts.saved_from_packet : Classical.choice, Quot.sound, propext
Egts.saved_lossless_partial : Classical.choice, Quot.sound, propext
Egts.saved_text : Classical.choice, Quot.sound, propext
Egts.saved_text_lossless_partial : Classical.choice, Quot.sound, propext
Egts.saved_texts_ok : Classical.choice, Quot.sound, propext
Egts.saved_wellformed : Classical.choice, Quot.sound, propext
Egts.sds_composes : Classical.choice, Quot.sound, propext
Egts.sds_loop_unfold : Classical.choice, Quot.sound, propext
Egts.sds_roundtrip : Classical.choice, Quot.sound, propext
Egts.sds_terminates : Classical.choice, Quot.sound, propext
Egts.sections_terminate : Classical.choice, Quot.sound, propext
Egts.segmentation_irrelevant : Classical.choice, Quot.sound, propext
Egts.sensors_exported : Classical.choice, Quot.sound, propext
Egts.sent_says : Classical.choice, Quot.sound, propext
Egts.served_in_bounded_turns : Classical.choice, Quot.sound, propext
Egts.servicedata_reused_partial : Classical.choice, Quot.sound, propext
Egts.shipped_configuration : Classical.choice, Quot.sound, propext
Egts.short_input_silent : Classical.choice, Quot.sound, propext
Egts.single_byte_alone_partial : Classical.choice, Quot.sound, propext
Egts.single_byte_detected_partial : Classical.choice, Quot.sound, propext
Egts.small_letters : Classical.choice, Quot.sound, propext
Egts.small_packet_large_work : Classical.choice, Quot.sound, propext
Egts.srresponse_reused : Classical.choice, Quot.sound, propext
Egts.srresponse_roundtrip : Classical.choice, Quot.sound, propext
Egts.stalled_held : Classical.choice, Quot.sound, propext
Egts.stalled_partial : Classical.choice, Quot.sound, propext
Egts.stamp_unique : Classical.choice, Quot.sound, propext
Egts.state_reused : propext
Egts.state_roundtrip : Quot.sound, propext
Egts.state_wire : Quot.sound, propext
Egts.stop_does_not_end_run : Classical.choice, Quot.sound, propext
Egts.stop_no_new_connections_partial : Classical.choice, Quot.sound, propext
Egts.storage_any_order : Classical.choice, Quot.sound, propext
Egts.storage_crash : Classical.choice, Quot.sound, propext
Egts.storage_decode_grammar : Classical.choice, Quot.sound, propext
Egts.storage_document : Classical.choice, Quot.sound, propext
Egts.storage_document_iff : Classical.choice, Quot.sound, propext
Egts.storage_grammar : Classical.choice, Quot.sound, propext
Egts.storage_merge : Classical.choice, Quot.sound, propext
Egts.storage_names : Classical.choice, Quot.sound, propext
Egts.storage_set_roundtrip : Classical.choice, Quot.sound, propext
Egts.storage_text_exists : Classical.choice, Quot.sound, propext
Egts.storage_unambiguous : Classical.choice, Quot.sound, propext
Egts.storage_wellformed : Classical.choice, Quot.sound, propext
Egts.storage_writable : Classical.choice, Quot.sound, propext
Egts.storages_hold : Classical.choice, Quot.sound, propext
Egts.storages_perm_partial : Classical.choice, Quot.sound, propext
Egts.storages_same_partial : Classical.choice, Quot.sound, propext
Egts.stored_bound : Classical.choice, Quot.sound, propext
Egts.stored_coords : Classical.choice, Quot.sound, propext
Egts.stored_typed_back : Classical.choice, Quot.sound, propext
Egts.stores_depend_on_order : Classical.choice, Quot.sound, propext
Egts.stores_fixed_partial : Classical.choice, Quot.sound, propext
Egts.stream_behaviour : Classical.choice, Quot.sound, propext
Egts.swap_refused_partial : Classical.choice, Quot.sound, propext
Egts.swap_unnoticed : Classical.choice, Quot.sound, propext
Egts.tarantool_documented : Classical.choice, Quot.sound, propext
Egts.tarantool_overflow_wrong : Classical.choice, Quot.sound, propext
Egts.tarantool_settings_partial : Classical.choice, Quot.sound, propext
Egts.telematic_text : Classical.choice, Quot.sound, propext
Egts.tells_partial : Classical.choice, Quot.sound, propext
Egts.tells_wrong : Classical.choice, Quot.sound, propext
Egts.term_long_imei_corrupts : propext
Egts.term_long_wrong : propext
Egts.term_reused_partial : Classical.choice, Quot.sound, propext
Egts.term_roundtrip : Quot.sound, propext
Egts.term_short_partial : Quot.sound, propext
Egts.term_short_wrong : propext
Egts.term_wire : Quot.sound, propext
Egts.test_file : Classical.choice, Quot.sound, propext
Egts.text_lossless_partial : Classical.choice, Quot.sound, propext
Egts.text_or_fault : Classical.choice, Quot.sound, propext
Egts.timeParse_iff : Classical.choice, Quot.sound, propext
Egts.timeParse_refuses : Classical.choice, Quot.sound, propext
Egts.timed_agrees : Classical.choice, Quot.sound, propext
Egts.timers_bounded_partial : Classical.choice, Quot.sound, propext
Egts.timers_exact_partial : Classical.choice, Quot.sound, propext
Egts.timers_pile_up : Classical.choice, Quot.sound, propext
Egts.timers_released_partial : Classical.choice, Quot.sound, propext
Egts.trailing_iff : Classical.choice, Quot.sound, propext
Egts.trailing_ignored_partial : Classical.choice, Quot.sound, propext
Egts.trailing_matters : Classical.choice, Quot.sound, propext
Egts.truncated_by_one : Classical.choice, Quot.sound, propext
Egts.truncated_iff : Classical.choice, Quot.sound, propext
Egts.truncated_rejected_partial : Classical.choice, Quot.sound, propext
Egts.type_inferred_partial : Classical.choice, Quot.sound, propext
Egts.typed_back : Classical.choice, Quot.sound, propext
Egts.unknown_type : Classical.choice, Quot.sound, propext
Egts.unseen_twice : Classical.choice, Quot.sound, propext
Egts.validity_lost : Classical.choice, Quot.sound, propext
Egts.wander_bound_partial : Classical.choice, Quot.sound, propext
Egts.wander_partial : Classical.choice, Quot.sound, propext
Egts.wander_settles_partial : Classical.choice, Quot.sound, propext
Egts.wander_stops_partial : Classical.choice, Quot.sound, propext
Egts.wander_wrong : Classical.choice, Quot.sound, propext
Egts.wordPoly_injective : Classical.choice, Quot.sound, propext
Egts.work_bounded_partial : Classical.choice, Quot.sound, propext
Egts.work_not_proportional : 
Egts.work_truthful_partial : Classical.choice, Quot.sound, propext
Egts.writes_any : Classical.choice, Quot.sound, propext
Egts.writes_cases : Classical.choice, Quot.sound, propext
Egts.written_from_packet : Classical.choice, Quot.sound, propext
Egts.wrong_password_stores : Classical.choice, Quot.sound, propext
