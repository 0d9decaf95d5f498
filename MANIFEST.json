{"claims": [
 {"property": "C01", "status": "proved", "theorems": ["Props.c01_parse_encode", "Props.c01_parse_encode_strict", "Props.c01_strict_strict", "Props.c01_after_one_parse", "Props.c01_dict"], "note": ""},
 {"property": "C02", "status": "proved", "theorems": ["Props.c02_accepts_iff", "Props.c02_rejects", "Props.c02_injective", "Props.c02_format"], "note": ""},
 {"property": "C03", "status": "proved", "theorems": ["Props.c03_int_to_bytes_canonical", "Props.c03_btwoc_unique", "Props.c03_round_trip", "Props.c03_bytes_to_int", "Props.c03_fix_btwoc", "Props.c03_refused"], "note": ""},
 {"property": "C04", "status": "proved", "theorems": ["Props.c04_base64", "Props.c04_base64_alphabet", "Props.c04_long", "Props.c04_decode_total"], "note": ""},
 {"property": "C05", "status": "proved", "theorems": ["Props.c05_secret_transport", "Props.c05_wrong_length", "Props.c05_hashes_btwoc", "Props.c05_padding_not_btwoc", "Props.c05_refuses_key"], "note": "c05_padding_not_btwoc is the counterexample for a library that pads."},
 {"property": "C06", "status": "proved", "theorems": ["Props.c06_urlencode_round_trip", "Props.c06_urlencode_noblank", "Props.c06_no_injection", "Props.c06_appendArgs_seq", "Props.c06_appendArgs_dict", "Props.c06_appendArgs_prefix", "Props.c06_fragment", "Props.c06_fragment_swallows_args"], "note": "c06_fragment says exactly what happens to a URL with a fragment."},
 {"property": "C07", "status": "proved", "theorems": ["Props.c07_roundtrip", "Props.c07_roundtrip_lib", "Props.c07_roundtrip_openid", "Props.c07_sreg_literal_breaks"], "note": ""},
 {"property": "C08", "status": "proved", "theorems": ["Props.c08_defined", "Props.c08_one_to_one", "Props.c08_never_reassigned", "Props.c08_addAlias_iff", "Props.c08_add"], "note": ""},
 {"property": "C09", "status": "proved", "theorems": ["Props.c09_history", "Props.c09_history_new", "Props.c09_set_isolated", "Props.c09_getArgs", "Props.c09_every_arg_has_key"], "note": ""},
 {"property": "C10", "status": "proved", "theorems": ["Props.c10_serialize_iff", "Props.c10_roundtrip", "Props.c10_accepts", "Props.c10_errors"], "note": ""},
 {"property": "C11", "status": "proved", "theorems": ["Props.c11_exact", "Props.c11_monotone", "Props.c11_fromExpiresIn"], "note": ""},
 {"property": "C12", "status": "proved", "theorems": ["Props.c12_sign_verify", "Props.c12_signs", "Props.c12_covers", "Props.c12_keeps", "Props.c12_refuses", "Props.c12_comma_breaks", "Props.c12_bare_sig_breaks"], "note": ""},
 {"property": "C13", "status": "proved", "theorems": ["Props.c13_tamper", "Props.c13_accepts_iff"], "note": ""},
 {"property": "C14", "status": "proved", "theorems": ["Props.c14_policy", "Props.c14_allowed", "Props.c14_defaults"], "note": ""},
 {"property": "C15", "status": "proved", "theorems": ["Props.c15_roundtrip", "Props.c15_text", "Props.c15_reads_canonical", "Props.c15_errors", "Props.c15_accepted_shape", "Props.c15_not_canonical", "Props.c15_accepted", "Props.c15_accepts"], "note": ""},
 {"property": "C16", "status": "proved", "theorems": ["Props.c16_window", "Props.c16_own_nonce"], "note": ""},
 {"property": "C17", "status": "proved", "theorems": ["Props.c17_exact", "Props.c17_once", "Props.c17_clock_back"], "note": ""},
 {"property": "C18", "status": "proved", "theorems": ["Props.c18_once", "Props.c18_once_no_cleanup", "Props.c18_race", "Props.c18_answer", "Props.c18_bad_url"], "note": ""},
 {"property": "C19", "status": "proved", "theorems": ["Props.c19_once", "Props.c19_fresh", "Props.c19_mysql_prefix", "Props.c19_stale_clock"], "note": ""},
 {"property": "C20", "status": "proved", "theorems": ["Props.c20_get", "Props.c20_best", "Props.c20_remove", "Props.c20_cleanup", "Props.c20_may_be_expired"], "note": ""},
 {"property": "C21", "status": "proved", "theorems": ["Props.c21_complete", "Props.c21_read", "Props.c21_read_any", "Props.c21_sane", "Props.c21_atomic", "Props.c21_done", "Props.c21_windows", "Props.c21_no_temp", "Props.c21_truncated", "Props.c21_power", "Props.c21_power_lost"], "note": ""},
 {"property": "C22", "status": "proved", "theorems": ["Props.c22_injective", "Props.c22_total", "Props.c22_prefix", "Props.c22_prefix_confused", "Props.c22_nonce_injective", "Props.c22_inside", "Props.c22_outside"], "note": ""},
 {"property": "C23", "status": "proved", "theorems": ["Props.c23_file_get", "Props.c23_file_best", "Props.c23_file_raises", "Props.c23_file_tie", "Props.c23_sql_get", "Props.c23_sql_best", "Props.c23_sql_raises", "Props.c23_tie_raises"], "note": ""},
 {"property": "C24", "status": "proved", "theorems": ["Props.c24_nothing", "Props.c24_all", "Props.c24_raised", "Props.c24_leftover"], "note": ""},
 {"property": "C25", "status": "proved", "theorems": ["Props.c25_walks", "Props.c25_covers", "Props.c25_no_dot_segments", "Props.c25_unchanged", "Props.c25_idempotent", "Props.c25_absolute", "Props.c25_root", "Props.c25_up_cancels", "Props.c25_terminates"], "note": ""},
 {"property": "C26", "status": "proved", "theorems": ["Props.c26_shape", "Props.c26_errors", "Props.c26_idempotent", "Props.c26_authority", "Props.c26_ipv6_broken", "Props.c26_host_not_idempotent", "Props.c26_host_changes", "Props.c26_port_appears", "Props.c26_fragment_not_idempotent", "Props.c26_empty_host"], "note": "c26_ipv6_broken, c26_host_not_idempotent, c26_host_changes, c26_port_appears, c26_fragment_not_idempotent and c26_empty_host show that the conditions of c26_idempotent and c26_authority are needed."},
 {"property": "C27", "status": "proved", "theorems": ["Props.c27_match", "Props.c27_total", "Props.c27_raises", "Props.c27_validate", "Props.c27_parse", "Props.c27_self", "Props.c27_transitive", "Props.c27_any_host", "Props.c27_userinfo"], "note": ""},
 {"property": "C28", "status": "proved", "theorems": ["Props.c28_sane", "Props.c28_total", "Props.c28_tld", "Props.c28_registry", "Props.c28_unknown"], "note": ""},
 {"property": "C29", "status": "proved", "theorems": ["Props.c29_request_verified", "Props.c29_matches", "Props.c29_refuses", "Props.c29_total", "Props.c29_verify", "Props.c29_redirected", "Props.c29_failure", "Props.c29_star_raises"], "note": ""},
 {"property": "C30", "status": "proved", "theorems": ["Props.c30_memory_store", "Props.c30_sql_store", "Props.c30_only_private", "Props.c30_shared", "Props.c30_any_schedule", "Props.c30_stores"], "note": ""},
 {"property": "C31", "status": "proved", "theorems": ["Props.c31_once", "Props.c31_first", "Props.c31_race"], "note": ""},
 {"property": "C32", "status": "proved", "theorems": ["Props.c32_named", "Props.c32_fallback", "Props.c32_stateless"], "note": ""},
 {"property": "C33", "status": "proved", "theorems": ["Props.c33_signed", "Props.c33_unsigned", "Props.c33_already"], "note": ""},
 {"property": "C34", "status": "proved", "theorems": ["Props.c34_idSelect", "Props.c34_none", "Props.c34_kind", "Props.c34_checkid", "Props.c34_checkauth", "Props.c34_associate", "Props.c34_errors", "Props.c34_alias_raises", "Props.c34_dot_raises", "Props.c34_twice_raises"], "note": ""},
 {"property": "C35", "status": "proved", "theorems": ["Props.c35_idSelect", "Props.c35_yes", "Props.c35_can", "Props.c35_no", "Props.c35_v1_immediate_raises", "Props.c35_no_identity_immediate_raises"], "note": ""},
 {"property": "C36", "status": "proved", "theorems": ["Props.c36_any_group", "Props.c36_understood", "Props.c36_agree", "Props.c36_allowed", "Props.c36_refused"], "note": ""},
 {"property": "C37", "status": "proved", "theorems": ["Props.c37_success", "Props.c37_other_modes", "Props.c37_setup_needed_v1", "Props.c37_reported", "Props.c37_unparsable", "Props.c37_signon_1_1_raises", "Props.c37_empty_sig_raises", "Props.c37_path_parameters_ignored", "Props.c37_accepts_stored", "Props.c37_accepts_asked"], "note": ""},
 {"property": "C38", "status": "proved", "theorems": ["Props.c38_once", "Props.c38_replay", "Props.c38_memory_store", "Props.c38_sql_store", "Props.c38_file_store", "Props.c38_no_store", "Props.c38_sql_connections", "Props.c38_memory_threads", "Props.c38_memory_race"], "note": ""},
 {"property": "C39", "status": "proved", "theorems": ["Props.c39_getReturnTo", "Props.c39_key", "Props.c39_getSigned", "Props.c39_getSigned_complete", "Props.c39_getSignedNS", "Props.c39_getSignedNS_none", "Props.c39_extensionResponse_signed", "Props.c39_extensionResponse_all", "Props.c39_covered"], "note": ""},
 {"property": "C40", "status": "proved", "theorems": ["Props.c40_beginWithoutDiscovery", "Props.c40_begin", "Props.c40_complete", "Props.c40_no_types_raises", "Props.c40_unlisted_type", "Props.c40_plain_reply_to_dh"], "note": ""},
 {"property": "C41", "status": "proved", "theorems": ["Props.c41_shared", "Props.c41_asked", "Props.c41_select_shared", "Props.c41_select_asked"], "note": ""},
 {"property": "C42", "status": "proved", "theorems": ["Props.c42_in_order", "Props.c42_next", "Props.c42_first", "Props.c42_cleanup", "Props.c42_session"], "note": ""},
 {"property": "C43", "status": "proved", "theorems": ["Props.c43_arrangeByType", "Props.c43_rank", "Props.c43_getOPOrUserServices", "Props.c43_not_by_version"], "note": ""},
 {"property": "C44", "status": "proved", "theorems": ["Props.c44_prioSort", "Props.c44_every_order", "Props.c44_iterServices", "Props.c44_sortedURIs"], "note": ""},
 {"property": "C45", "status": "proved", "theorems": ["Props.c45_history", "Props.c45_add", "Props.c45_required", "Props.c45_fetch_parse", "Props.c45_parsed_made", "Props.c45_fetch_args", "Props.c45_fetch_args_ok", "Props.c45_fetch_round_trip", "Props.c45_fetch_arrives", "Props.c45_store_arrives", "Props.c45_response_arrives", "Props.c45_from_success", "Props.c45_from_request", "Props.c45_fetch_errors", "Props.c45_values_errors", "Props.c45_unsigned", "Props.c45_store_response", "Props.c45_store_response_unreadable", "Props.c45_update_lost", "Props.c45_bad_realm", "Props.c45_empty_alias", "Props.c45_alias_clash", "Props.c45_assertion", "Props.c45_negative_count", "Props.c45_values_history", "Props.c45_get", "Props.c45_values_parse", "Props.c45_store_args", "Props.c45_store_round_trip", "Props.c45_response_plain", "Props.c45_response_args"], "note": ""},
 {"property": "C46", "status": "proved", "theorems": ["Props.c46_asked", "Props.c46_field", "Props.c46_fields", "Props.c46_parse_lenient", "Props.c46_parse_strict", "Props.c46_history", "Props.c46_new", "Props.c46_round_trip", "Props.c46_extract", "Props.c46_namespace", "Props.c46_from_success", "Props.c46_request_arrives", "Props.c46_response_arrives", "Props.c46_get"], "note": ""},
 {"property": "C47", "status": "proved", "theorems": ["Props.c47_add_level", "Props.c47_set_level", "Props.c47_request_history", "Props.c47_response_history", "Props.c47_request_new", "Props.c47_truth", "Props.c47_preferred", "Props.c47_request_args", "Props.c47_request_parse", "Props.c47_request_parse_again", "Props.c47_request_round_trip", "Props.c47_request_arrives", "Props.c47_from_request", "Props.c47_response_new", "Props.c47_draft2_policies", "Props.c47_draft2_preferred", "Props.c47_draft2_from_request", "Props.c47_draft2_from_success", "Props.c47_response_round_trip", "Props.c47_response_arrives", "Props.c47_from_success", "Props.c47_unsigned", "Props.c47_nist", "Props.c47_draft2_request", "Props.c47_draft2_response_args", "Props.c47_draft2_response_parse", "Props.c47_draft2_response_round_trip", "Props.c47_empty_response", "Props.c47_misused_alias", "Props.c47_ns_alias", "Props.c47_time_newline", "Props.c47_nist_text", "Props.c47_bad_policies", "Props.c47_response_args", "Props.c47_response_parse"], "note": ""},
 {"property": "C48", "status": "proved", "theorems": ["Props.c48_parse", "Props.c48_match_error", "Props.c48_match", "Props.c48_best_first", "Props.c48_acceptable", "Props.c48_acceptable_error", "Props.c48_generate_error", "Props.c48_generate", "Props.c48_yadis", "Props.c48_round_trip", "Props.c48_rounded_away", "Props.c48_no_types", "Props.c48_other_parameter", "Props.c48_case"], "note": ""},
 {"property": "C49", "status": "proved", "theorems": ["Props.c49_getCanonicalID", "Props.c49_none", "Props.c49_otherwise", "Props.c49_fraud", "Props.c49_raises", "Props.c49_capitals"], "note": ""},
 {"property": "C50", "status": "proved", "theorems": ["Props.c50_curl", "Props.c50_http_only", "Props.c50_final", "Props.c50_time", "Props.c50_example", "Props.c50_relative", "Props.c50_endless", "Props.c50_headers", "Props.c50_header_texts", "Props.c50_continue", "Props.c50_continue_twice", "Props.c50_urllib", "Props.c50_httplib2", "Props.c50_requests", "Props.c50_methods", "Props.c50_default", "Props.c50_create", "Props.c50_wrap"], "note": ""},
 {"property": "C51", "status": "proved", "theorems": ["Props.c51_sent", "Props.c51_no_message"], "note": ""},
 {"property": "C52", "status": "proved", "theorems": ["Props.c52_browser", "Props.c52_browser_nowhere", "Props.c52_render", "Props.c52_direct", "Props.c52_no_server"], "note": ""},
 {"property": "C53", "status": "proved", "theorems": ["Props.c53_lenient", "Props.c53_strict", "Props.c53_strict_errors"], "note": ""},
 {"property": "C54", "status": "proved", "theorems": ["Props.c54_remove", "Props.c54_cleanup"], "note": ""},
 {"property": "C55", "status": "proved", "theorems": ["Props.c55_claimed", "Props.c55_not_normalised"], "note": ""},
 {"property": "C56", "status": "proved", "theorems": ["Props.c56_requests", "Props.c56_http", "Props.c56_scheme", "Props.c56_location", "Props.c56_charset", "Props.c56_media_type_parameter", "Props.c56_empty_location"], "note": ""},
 {"property": "C57", "status": "proved", "theorems": ["Props.c57_fromXRDS", "Props.c57_errors", "Props.c57_empty_type"], "note": ""},
 {"property": "C58", "status": "proved", "theorems": ["Props.c58_fromHTML", "Props.c58_first_only"], "note": ""},
 {"property": "C59", "status": "proved", "theorems": ["Props.c59_local_id", "Props.c59_empty_conflicts"], "note": ""},
 {"property": "C60", "status": "proved", "theorems": ["Props.c60_url", "Props.c60_value_error", "Props.c60_lookup_error", "Props.c60_xri"], "note": ""},
 {"property": "C61", "status": "proved", "theorems": ["Props.c61_requests", "Props.c61_identified", "Props.c61_url", "Props.c61_fragment", "Props.c61_last_reply", "Props.c61_op_identifier"], "note": ""},
 {"property": "C62", "status": "proved", "theorems": ["Props.c62_transport", "Props.c62_form", "Props.c62_url", "Props.c62_new", "Props.c62_set", "Props.c62_extension", "Props.c62_arrives", "Props.c62_openid1_lost"], "note": ""},
 {"property": "C63", "status": "proved", "theorems": ["Props.c63_addExtensionArg", "Props.c63_session", "Props.c63_redirects", "Props.c63_message", "Props.c63_anonymous", "Props.c63_return_to_needed", "Props.c63_url"], "note": ""},
 {"property": "C64", "status": "proved", "theorems": ["Props.c64_form", "Props.c64_can", "Props.c64_attrs", "Props.c64_page", "Props.c64_bears", "Props.c64_request_form", "Props.c64_response_form", "Props.c64_same", "Props.c64_title_not_escaped"], "note": ""},
 {"property": "C65", "status": "proved", "theorems": ["Props.c65_authentic", "Props.c65_once", "Props.c65_text", "Props.c65_pins", "Props.c65_decided", "Props.c65_says", "Props.c65_extension", "Props.c65_extension_all", "Props.c65_openid1_relabelled"], "note": ""},
 {"property": "C66", "status": "proved", "theorems": ["Props.c66_about", "Props.c66_check_authentication", "Props.c66_associate", "Props.c66_unsupported", "Props.c66_protocol_error", "Props.c66_unanswered", "Props.c66_handle_raises", "Props.c66_type_raises", "Props.c66_key_raises", "Props.c66_unsupported_raises"], "note": ""},
 {"property": "C67", "status": "proved", "theorems": ["Props.c67_raises", "Props.c67_responds", "Props.c67_begin", "Props.c67_names_raises", "Props.c67_nobody_raises", "Props.c67_between_raises", "Props.c67_url_raises", "Props.c67_signature_raises", "Props.c67_reply_raises", "Props.c67_anonymous_raises", "Props.c67_nothing_raises"], "note": ""},
 {"property": "C68", "status": "proved", "theorems": ["Props.c68_unreadable", "Props.c68_readable", "Props.c68_reply", "Props.c68_declared", "Props.c68_implied_raises", "Props.c68_twice_raises", "Props.c68_self_raises", "Props.c68_name_raises"], "note": ""},
 {"property": "C69", "status": "proved", "theorems": ["Props.c69_shared", "Props.c69_asked", "Props.c69_select_shared", "Props.c69_select_asked"], "note": ""},
 {"property": "C70", "status": "proved", "theorems": ["Props.c70_refused", "Props.c70_stages", "Props.c70_functions", "Props.c70_raised", "Props.c70_services", "Props.c70_errors", "Props.c70_default", "Props.c70_consumer", "Props.c70_functions_last"], "note": ""},
 {"property": "C71", "status": "proved", "theorems": ["Props.c71_decides", "Props.c71_requests", "Props.c71_raises", "Props.c71_empty_type"], "note": ""},
 {"property": "C72", "status": "proved", "theorems": ["Props.c72_round_trip", "Props.c72_normal", "Props.c72_distinct", "Props.c72_which", "Props.c72_escape_first", "Props.c72_escape_none"], "note": ""},
 {"property": "C73", "status": "proved", "theorems": ["Props.c73_discovery", "Props.c73_login"], "note": ""},
 {"property": "C74", "status": "proved", "theorems": ["Props.c74_session", "Props.c74_anonymous_next", "Props.c74_login", "Props.c74_memory_store", "Props.c74_sql_store", "Props.c74_tie_raises"], "note": ""},
 {"property": "C75", "status": "proved", "theorems": ["Props.c75_cancelled", "Props.c75_no_cancel", "Props.c75_setup_needed", "Props.c75_error"], "note": ""},
 {"property": "C76", "status": "proved", "theorems": ["Props.c76_login", "Props.c76_sreg_asked", "Props.c76_sreg_answered", "Props.c76_ax_asked", "Props.c76_ax_answered", "Props.c76_pape_asked", "Props.c76_pape_answered"], "note": ""},
 {"property": "C77", "status": "proved", "theorems": ["Props.c77_login"], "note": ""},
 {"property": "C78", "status": "proved", "theorems": ["Props.c78_logins", "Props.c78_finishes"], "note": ""},
 {"property": "C79", "status": "proved", "theorems": ["Props.c79_supports_sreg", "Props.c79_shown", "Props.c79_iname", "Props.c79_dropped", "Props.c79_supports"], "note": ""},
 {"property": "C80", "status": "proved", "theorems": ["Props.c80_trace", "Props.c80_once", "Props.c80_statements", "Props.c80_defaults", "Props.c80_init", "Props.c80_postgres_bytes", "Props.c80_long_secret"], "note": ""},
 {"property": "C81", "status": "proved", "theorems": ["Props.c81_once", "Props.c81_keys", "Props.c81_get", "Props.c81_kept", "Props.c81_reads", "Props.c81_alone", "Props.c81_held_up", "Props.c81_unheard", "Props.c81_postgres_race", "Props.c81_postgres_lost"], "note": ""},
 {"property": "C82", "status": "proved", "theorems": ["Props.c82_register", "Props.c82_one_to_one", "Props.c82_kept", "Props.c82_first_come", "Props.c82_read_extension", "Props.c82_read_unnamed", "Props.c82_read_only", "Props.c82_registered_or_not"], "note": ""},
 {"property": "C83", "status": "proved", "theorems": ["Props.c83_once", "Props.c83_one_at_a_time", "Props.c83_get", "Props.c83_raises", "Props.c83_kept", "Props.c83_alone", "Props.c83_race", "Props.c83_held_up", "Props.c83_held_up_cleanup", "Props.c83_lost", "Props.c83_lost_cleanup", "Props.c83_raised"], "note": ""},
 {"property": "C84", "status": "proved", "theorems": ["Props.c84_obtains", "Props.c84_own_refusal"], "note": ""},
 {"property": "C85", "status": "proved", "theorems": ["Props.c85_default", "Props.c85_reads", "Props.c85_written", "Props.c85_only", "Props.c85_errors", "Props.c85_services"], "note": ""},
 {"property": "C86", "status": "proved", "theorems": ["Props.c86_endpoint", "Props.c86_allow", "Props.c86_anybody", "Props.c86_remembered_for_others", "Props.c86_nobody_shared", "Props.c86_not_here"], "note": ""},
 {"property": "C87", "status": "proved", "theorems": ["Props.c87_alone", "Props.c87_shared", "Props.c87_before_1970"], "note": ""},
 {"property": "C88", "status": "proved", "theorems": ["Props.c88_made", "Props.c88_opens", "Props.c88_in_the_way"], "note": ""},
 {"property": "C89", "status": "proved", "theorems": ["Props.c89_calls", "Props.c89_nonce", "Props.c89_spent", "Props.c89_removed"], "note": ""},
 {"property": "C90", "status": "proved", "theorems": ["Props.c90_page", "Props.c90_own", "Props.c90_verified", "Props.c90_pending", "Props.c90_idle", "Props.c90_told", "Props.c90_once", "Props.c90_markup", "Props.c90_cookie", "Props.c90_injection", "Props.c90_chosen_cookie", "Props.c90_no_identifier"], "note": ""},
 {"property": "C91", "status": "proved", "theorems": ["Props.c91_calls", "Props.c91_keeps", "Props.c91_session", "Props.c91_visit"], "note": ""},
 {"property": "C92", "status": "proved", "theorems": ["Props.c92_user", "Props.c92_server", "Props.c92_found", "Props.c92_agrees", "Props.c92_accepted"], "note": ""}
]}
