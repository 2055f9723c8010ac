{
 "claims": [
  {
   "property": "C01",
   "status": "proved",
   "theorems": [
    "Migp.Props.C01_format",
    "Migp.Props.C01_parse",
    "Migp.Props.C01_prefix_free",
    "Migp.Props.C01_injective"
   ],
   "note": ""
  },
  {
   "property": "C02",
   "status": "proved",
   "theorems": [
    "Migp.Props.C02_request_panics_iff",
    "Migp.Props.C02_encryptBucketEntry_panics_iff",
    "Migp.Props.C02_serialize_panics_iff",
    "Migp.Props.C02_collisions_exact",
    "Migp.Props.C02_injective_false_at_limit"
   ],
   "note": ""
  },
  {
   "property": "C03",
   "status": "proved",
   "theorems": [
    "Migp.Props.C03_client_bucketID",
    "Migp.Props.C03_client_bucketID_panics_iff",
    "Migp.Props.C03_top_bits",
    "Migp.Props.C03_panics_iff",
    "Migp.Props.C03_prefix",
    "Migp.Props.C03_server_bucketID",
    "Migp.Props.C03_client_prefix"
   ],
   "note": ""
  },
  {
   "property": "C04",
   "status": "proved",
   "theorems": [
    "Migp.Props.C04_canonical",
    "Migp.Props.C04_injective",
    "Migp.Props.C04_accepted"
   ],
   "note": ""
  },
  {
   "property": "C05",
   "status": "proved",
   "theorems": [
    "Migp.Props.C05_only_valid_flags",
    "Migp.Props.C05_encryptBucketEntry_iff",
    "Migp.Props.C05_flags",
    "Migp.Props.C05_status_names",
    "Migp.Props.C05_names",
    "Migp.Props.C05_error_text"
   ],
   "note": ""
  },
  {
   "property": "C06",
   "status": "proved",
   "theorems": [
    "Migp.Props.C06_roundtrip"
   ],
   "note": ""
  },
  {
   "property": "C07",
   "status": "proved",
   "theorems": [
    "Migp.Props.C07_format",
    "Migp.Props.C07_limit",
    "Migp.Props.C07_size"
   ],
   "note": ""
  },
  {
   "property": "C08",
   "status": "proved",
   "theorems": [
    "Migp.Props.C08_accepts_iff",
    "Migp.Props.C08_commitment"
   ],
   "note": ""
  },
  {
   "property": "C09",
   "status": "proved",
   "theorems": [
    "Migp.Props.C09_total",
    "Migp.Props.C09_local",
    "Migp.Props.C09_body_total"
   ],
   "note": ""
  },
  {
   "property": "C10",
   "status": "proved",
   "theorems": [
    "Migp.Props.C10_malleable",
    "Migp.Props.C10_integrity_false"
   ],
   "note": ""
  },
  {
   "property": "C11",
   "status": "proved",
   "theorems": [
    "Migp.Props.C11_same_credential",
    "Migp.Props.C11_tells_apart",
    "Migp.Props.C11_two_time_pad"
   ],
   "note": ""
  },
  {
   "property": "C12",
   "status": "proved",
   "theorems": [
    "Migp.Props.C12_newClient_iff",
    "Migp.Props.C12_newServer_iff",
    "Migp.Props.C12_no_panic",
    "Migp.Props.C12_default",
    "Migp.Props.C12_bad_bit_size_panics",
    "Migp.Props.C12_default_values"
   ],
   "note": ""
  },
  {
   "property": "C13",
   "status": "proved",
   "theorems": [
    "Migp.Props.C13_config",
    "Migp.Props.C13_rebuild"
   ],
   "note": ""
  },
  {
   "property": "C14",
   "status": "proved",
   "theorems": [
    "Migp.Props.C14_same_bucket",
    "Migp.Props.C14_request_bucket"
   ],
   "note": ""
  },
  {
   "property": "C15",
   "status": "proved",
   "theorems": [
    "Migp.Props.C15_blinded_eq_direct"
   ],
   "note": ""
  },
  {
   "property": "C16",
   "status": "proved",
   "theorems": [
    "Migp.Props.C16_hiding",
    "Migp.Props.C16_uniform",
    "Migp.Props.C16_public_fields"
   ],
   "note": ""
  },
  {
   "property": "C17",
   "status": "proved",
   "theorems": [
    "Migp.Props.C17_ok_iff",
    "Migp.Props.C17_errors",
    "Migp.Props.C17_no_panic",
    "Migp.Props.C17_store"
   ],
   "note": ""
  },
  {
   "property": "C18",
   "status": "proved",
   "theorems": [
    "Migp.Props.C18_request_version",
    "Migp.Props.C18_reply_version",
    "Migp.Props.C18_reply_rejected",
    "Migp.Props.C18_exact_rejection_false"
   ],
   "note": ""
  },
  {
   "property": "C19",
   "status": "proved",
   "theorems": [
    "Migp.Props.C19_only_canonical",
    "Migp.Props.C19_other_forms_miss",
    "Migp.Props.C19_accepted"
   ],
   "note": ""
  },
  {
   "property": "C20",
   "status": "proved",
   "theorems": [
    "Migp.Props.C20_unmarshal",
    "Migp.Props.C20_marshal_unmarshal",
    "Migp.Props.C20_unmarshal_marshal_iff",
    "Migp.Props.C20_default_suite_survives",
    "Migp.Props.C20_errors"
   ],
   "note": ""
  },
  {
   "property": "C21",
   "status": "proved",
   "theorems": [
    "Migp.Props.C21_long_element",
    "Migp.Props.C21_other_suites_broken"
   ],
   "note": ""
  },
  {
   "property": "C22",
   "status": "proved",
   "theorems": [
    "Migp.Props.C22_terminates",
    "Migp.Props.C22_finalize_total",
    "Migp.Props.C22_finalize_64"
   ],
   "note": ""
  },
  {
   "property": "C23",
   "status": "proved",
   "theorems": [
    "Migp.Props.C23_hangs",
    "Migp.Props.C23_panics",
    "Migp.Props.C23_step",
    "Migp.Props.C23_negative",
    "Migp.Props.C23_same",
    "Migp.Props.C23_panics_positive",
    "Migp.Props.C23_finalize_32"
   ],
   "note": ""
  },
  {
   "property": "C24",
   "status": "proved",
   "theorems": [
    "Migp.Props.C24_first_match",
    "Migp.Props.C24_honest_bucket",
    "Migp.Props.C24_finalize_honest"
   ],
   "note": ""
  },
  {
   "property": "C25",
   "status": "proved",
   "theorems": [
    "Migp.Props.C25_every_bucket",
    "Migp.Props.C25_error_safe",
    "Migp.Props.C25_truncation",
    "Migp.Props.C25_finalize_iff",
    "Migp.Props.C25_truncation_exact"
   ],
   "note": ""
  },
  {
   "property": "C26",
   "status": "proved",
   "theorems": [
    "Migp.Props.C26_no_false_negative",
    "Migp.Props.C26_after_insert"
   ],
   "note": ""
  },
  {
   "property": "C27",
   "status": "proved",
   "theorems": [
    "Migp.Props.C27_no_false_positive"
   ],
   "note": ""
  },
  {
   "property": "C28",
   "status": "proved",
   "theorems": [
    "Migp.Props.C28_ideal_lookup"
   ],
   "note": ""
  },
  {
   "property": "C29",
   "status": "proved",
   "theorems": [
    "Migp.Props.C29_stable",
    "Migp.Props.C29_inserts"
   ],
   "note": ""
  },
  {
   "property": "C30",
   "status": "proved",
   "theorems": [
    "Migp.Props.C30_variant_shadows",
    "Migp.Props.C30_username_shadowed",
    "Migp.Props.C30_short_password_shadows",
    "Migp.Props.C30_dummy_hides",
    "Migp.Props.C30_example"
   ],
   "note": ""
  },
  {
   "property": "C31",
   "status": "proved",
   "theorems": [
    "Migp.Props.C31_other_queries",
    "Migp.Props.C31_other_buckets"
   ],
   "note": ""
  },
  {
   "property": "C32",
   "status": "proved",
   "theorems": [
    "Migp.Props.C32_reinsert",
    "Migp.Props.C32_twice"
   ],
   "note": ""
  },
  {
   "property": "C33",
   "status": "proved",
   "theorems": [
    "Migp.Props.C33_distinct"
   ],
   "note": ""
  },
  {
   "property": "C34",
   "status": "proved",
   "theorems": [
    "Migp.Props.C34_from_rules",
    "Migp.Props.C34_prefix"
   ],
   "note": ""
  },
  {
   "property": "C35",
   "status": "proved",
   "theorems": [
    "Migp.Props.C35_exact",
    "Migp.Props.C35_complete_up_to_hash",
    "Migp.Props.C35_complete",
    "Migp.Props.C35_collision"
   ],
   "note": ""
  },
  {
   "property": "C36",
   "status": "proved",
   "theorems": [
    "Migp.Props.C36_at_least_98",
    "Migp.Props.C36_example"
   ],
   "note": ""
  },
  {
   "property": "C37",
   "status": "proved",
   "theorems": [
    "Migp.Props.C37_panics_iff",
    "Migp.Props.C37_limit"
   ],
   "note": ""
  },
  {
   "property": "C38",
   "status": "proved",
   "theorems": [
    "Migp.Props.C38_capitalise",
    "Migp.Props.C38_only_one_byte",
    "Migp.Props.C38_ascii_involution",
    "Migp.Props.C38_ascii_table",
    "Migp.Props.C38_latin1_not_involution"
   ],
   "note": ""
  },
  {
   "property": "C39",
   "status": "proved",
   "theorems": [
    "Migp.Props.C39_delete",
    "Migp.Props.C39_insert_front",
    "Migp.Props.C39_insert_back",
    "Migp.Props.C39_total"
   ],
   "note": ""
  },
  {
   "property": "C40",
   "status": "proved",
   "theorems": [
    "Migp.Props.C40_substitute",
    "Migp.Props.C40_absent",
    "Migp.Props.C40_example"
   ],
   "note": ""
  },
  {
   "property": "C41",
   "status": "proved",
   "theorems": [
    "Migp.Props.C41_length",
    "Migp.Props.C41_upper_attained"
   ],
   "note": ""
  },
  {
   "property": "C42",
   "status": "proved",
   "theorems": [
    "Migp.Props.C42_rules_text",
    "Migp.Props.C42_rules_wf",
    "Migp.Props.C42_bad_text"
   ],
   "note": ""
  },
  {
   "property": "C43",
   "status": "proved",
   "theorems": [
    "Migp.Props.C43_insert_appends",
    "Migp.Props.C43_prefix_always"
   ],
   "note": ""
  },
  {
   "property": "C44",
   "status": "proved",
   "theorems": [
    "Migp.Props.C44_error_stores_nothing",
    "Migp.Props.C44_error_iff"
   ],
   "note": ""
  },
  {
   "property": "C45",
   "status": "proved",
   "theorems": [
    "Migp.Props.C45_crash_stores",
    "Migp.Props.C45_outcomes",
    "Migp.Props.C45_short_passwords",
    "Migp.Props.C45_limit_password_crashes"
   ],
   "note": ""
  },
  {
   "property": "C46",
   "status": "proved",
   "theorems": [
    "Migp.Props.C46_map",
    "Migp.Props.C46_total",
    "Migp.Props.C46_results"
   ],
   "note": ""
  },
  {
   "property": "C47",
   "status": "proved",
   "theorems": [
    "Migp.Props.C47_snapshot",
    "Migp.Props.C47_no_overlap",
    "Migp.Props.C47_refines",
    "Migp.Props.C47_hazard"
   ],
   "note": ""
  },
  {
   "property": "C48",
   "status": "proved",
   "theorems": [
    "Migp.Props.C48_linearizable",
    "Migp.Props.C48_race_free",
    "Migp.Props.C48_no_deadlock"
   ],
   "note": ""
  },
  {
   "property": "C49",
   "status": "proved",
   "theorems": [
    "Migp.Props.C49_order",
    "Migp.Props.C49_insert_calls",
    "Migp.Props.C49_insert_entries",
    "Migp.Props.C49_whole_entries"
   ],
   "note": ""
  },
  {
   "property": "C50",
   "status": "proved",
   "theorems": [
    "Migp.Props.C50_evaluate"
   ],
   "note": ""
  },
  {
   "property": "C51",
   "status": "proved",
   "theorems": [
    "Migp.Props.C51_evaluated_after_error",
    "Migp.Props.C51_error_page_leaks",
    "Migp.Props.C51_only_error_page_false"
   ],
   "note": ""
  },
  {
   "property": "C52",
   "status": "proved",
   "theorems": [
    "Migp.Props.C52_config_only",
    "Migp.Props.C52_client_gets_config"
   ],
   "note": ""
  },
  {
   "property": "C53",
   "status": "proved",
   "theorems": [
    "Migp.Props.C53_request",
    "Migp.Props.C53_replacement",
    "Migp.Props.C53_request_exact",
    "Migp.Props.C53_request_hex",
    "Migp.Props.C53_request_utf8_lost",
    "Migp.Props.C53_config",
    "Migp.Props.C53_server_config",
    "Migp.Props.C53_server_config_key",
    "Migp.Props.C53_server_rebuilt"
   ],
   "note": ""
  },
  {
   "property": "C54",
   "status": "proved",
   "theorems": [
    "Migp.Props.C54_bad_reply",
    "Migp.Props.C54_only_from_reply",
    "Migp.Props.C54_query_eq_exchange",
    "Migp.Props.C54_unusable_key",
    "Migp.Props.C54_ideal_lookup",
    "Migp.Props.C54_example"
   ],
   "note": ""
  },
  {
   "property": "C55",
   "status": "proved",
   "theorems": [
    "Migp.Props.C55_reads",
    "Migp.Props.C55_load",
    "Migp.Props.C55_load_short",
    "Migp.Props.C55_nothing_loaded"
   ],
   "note": ""
  },
  {
   "property": "C56",
   "status": "proved",
   "theorems": [
    "Migp.Props.C56_complete",
    "Migp.Props.C56_silent_stop",
    "Migp.Props.C56_server",
    "Migp.Props.C56_client",
    "Migp.Props.C56_not_all_read"
   ],
   "note": ""
  },
  {
   "property": "C57",
   "status": "proved",
   "theorems": [
    "Migp.Props.C57_object",
    "Migp.Props.C57_no_password",
    "Migp.Props.C57_client",
    "Migp.Props.C57_passwords_not_printed"
   ],
   "note": ""
  },
  {
   "property": "C58",
   "status": "proved",
   "theorems": [
    "Migp.Props.C58_slow_hash",
    "Migp.Props.C58_deterministic"
   ],
   "note": ""
  },
  {
   "property": "C59",
   "status": "proved",
   "theorems": [
    "Migp.Props.C59_routes",
    "Migp.Props.C59_wrong_path"
   ],
   "note": ""
  },
  {
   "property": "C60",
   "status": "proved",
   "theorems": [
    "Migp.Props.C60_end_to_end",
    "Migp.Props.C60_breached_reported",
    "Migp.Props.C60_example"
   ],
   "note": ""
  },
  {
   "property": "C61",
   "status": "proved",
   "theorems": [
    "Migp.Props.C61_server_reload",
    "Migp.Props.C61_client_reload"
   ],
   "note": ""
  },
  {
   "property": "C62",
   "status": "proved",
   "theorems": [
    "Migp.Props.C62_linearizable",
    "Migp.Props.C62_snapshot",
    "Migp.Props.C62_whole_entries",
    "Migp.Props.C62_no_byte_race",
    "Migp.Props.C62_no_deadlock",
    "Migp.Props.C62_example"
   ],
   "note": ""
  },
  {
   "property": "C63",
   "status": "proved",
   "theorems": [
    "Migp.Props.C63_grammar",
    "Migp.Props.C63_request_fields",
    "Migp.Props.C63_request_error",
    "Migp.Props.C63_request_other",
    "Migp.Props.C63_config",
    "Migp.Props.C63_config_other",
    "Migp.Props.C63_server_config",
    "Migp.Props.C63_example",
    "Migp.Props.C63_request_bytes",
    "Migp.Props.C63_server_config_exact",
    "Migp.Props.C63_server_config_other",
    "Migp.Props.C63_null_example"
   ],
   "note": ""
  },
  {
   "property": "C64",
   "status": "proved",
   "theorems": [
    "Migp.Props.C64_source",
    "Migp.Props.C64_no_config",
    "Migp.Props.C64_error_page",
    "Migp.Props.C64_dump_and_warning"
   ],
   "note": ""
  },
  {
   "property": "C65",
   "status": "proved",
   "theorems": [
    "Migp.Props.C65_mutate",
    "Migp.Props.C65_encrypt_entry",
    "Migp.Props.C65_encryptor",
    "Migp.Props.C65_hashers",
    "Migp.Props.C65_bucket_id",
    "Migp.Props.C65_request",
    "Migp.Props.C65_finalize",
    "Migp.Props.C65_handle_request",
    "Migp.Props.C65_marshal",
    "Migp.Props.C65_overwrite_credentials",
    "Migp.Props.C65_metadata_survives"
   ],
   "note": ""
  },
  {
   "property": "C66",
   "status": "proved",
   "theorems": [
    "Migp.Props.C66_import",
    "Migp.Props.C66_runs_exist"
   ],
   "note": ""
  },
  {
   "property": "C67",
   "status": "proved",
   "theorems": [
    "Migp.Props.C67_receiver",
    "Migp.Props.C67_agrees",
    "Migp.Props.C67_aliases"
   ],
   "note": ""
  },
  {
   "property": "C68",
   "status": "proved",
   "theorems": [
    "Migp.Props.C68_no_data_race",
    "Migp.Props.C68_shared_memory_kept",
    "Migp.Props.C68_outcome",
    "Migp.Props.C68_results_apart",
    "Migp.Props.C68_progress",
    "Migp.Props.C68_termination",
    "Migp.Props.C68_completion"
   ],
   "note": ""
  },
  {
   "property": "C69",
   "status": "proved",
   "theorems": [
    "Migp.Props.C69_not_nil",
    "Migp.Props.C69_nil_response",
    "Migp.Props.C69_nil_request",
    "Migp.Props.C69_request",
    "Migp.Props.C69_config",
    "Migp.Props.C69_server_config",
    "Migp.Props.C69_response",
    "Migp.Props.C69_response_round_trip",
    "Migp.Props.C69_response_fields",
    "Migp.Props.C69_response_bytes",
    "Migp.Props.C69_example"
   ],
   "note": ""
  },
  {
   "property": "C70",
   "status": "proved",
   "theorems": [
    "Migp.Props.C70_same_program",
    "Migp.Props.C70_messages",
    "Migp.Props.C70_no_query",
    "Migp.Props.C70_hiding",
    "Migp.Props.C70_stopping_leaks",
    "Migp.Props.C70_example"
   ],
   "note": ""
  },
  {
   "property": "C71",
   "status": "proved",
   "theorems": [
    "Migp.Props.C71_log",
    "Migp.Props.C71_reply",
    "Migp.Props.C71_no_data_race",
    "Migp.Props.C71_memory_kept",
    "Migp.Props.C71_accesses_exist",
    "Migp.Props.C71_progress",
    "Migp.Props.C71_termination",
    "Migp.Props.C71_completion",
    "Migp.Props.C71_loaded",
    "Migp.Props.C71_serving",
    "Migp.Props.C71_example",
    "Migp.Props.C71_outcome"
   ],
   "note": ""
  },
  {
   "property": "C72",
   "status": "proved",
   "theorems": [
    "Migp.Props.C72_outcome",
    "Migp.Props.C72_serving",
    "Migp.Props.C72_no_false_negative",
    "Migp.Props.C72_no_false_positive",
    "Migp.Props.C72_ideal_lookup",
    "Migp.Props.C72_example"
   ],
   "note": ""
  },
  {
   "property": "C73",
   "status": "proved",
   "theorems": [
    "Migp.Props.C73_server",
    "Migp.Props.C73_server_usage",
    "Migp.Props.C73_client",
    "Migp.Props.C73_client_usage",
    "Migp.Props.C73_ignored",
    "Migp.Props.C73_username_variant",
    "Migp.Props.C73_show_password",
    "Migp.Props.C73_numerals",
    "Migp.Props.C73_end_to_end",
    "Migp.Props.C73_example_settings",
    "Migp.Props.C73_example"
   ],
   "note": ""
  },
  {
   "property": "C74",
   "status": "proved",
   "theorems": [
    "Migp.Props.C74_same_runs",
    "Migp.Props.C74_no_fatal",
    "Migp.Props.C74_progress",
    "Migp.Props.C74_no_data_race",
    "Migp.Props.C74_serving",
    "Migp.Props.C74_termination",
    "Migp.Props.C74_ends",
    "Migp.Props.C74_completion",
    "Migp.Props.C74_example"
   ],
   "note": ""
  },
  {
   "property": "C75",
   "status": "proved",
   "theorems": [
    "Migp.Props.C75_forge",
    "Migp.Props.C75_deny",
    "Migp.Props.C75_limited",
    "Migp.Props.C75_changed_key"
   ],
   "note": ""
  },
  {
   "property": "C76",
   "status": "proved",
   "theorems": [
    "Migp.Props.C76_bucket",
    "Migp.Props.C76_reply",
    "Migp.Props.C76_total",
    "Migp.Props.C76_load"
   ],
   "note": ""
  },
  {
   "property": "C77",
   "status": "proved",
   "theorems": [
    "Migp.Props.C77_evaluate",
    "Migp.Props.C77_no_version",
    "Migp.Props.C77_no_bucket",
    "Migp.Props.C77_config",
    "Migp.Props.C77_no_slow_hasher",
    "Migp.Props.C77_no_bit_size",
    "Migp.Props.C77_server_config"
   ],
   "note": ""
  },
  {
   "property": "C78",
   "status": "proved",
   "theorems": [
    "Migp.Props.C78_redirect_once",
    "Migp.Props.C78_bare_target",
    "Migp.Props.C78_bare_reaches",
    "Migp.Props.C78_trailing_slash",
    "Migp.Props.C78_quick_start"
   ],
   "note": ""
  },
  {
   "property": "C79",
   "status": "proved",
   "theorems": [
    "Migp.Props.C79_shown_bits",
    "Migp.Props.C79_at_most_32_bits",
    "Migp.Props.C79_bad_size_crashes",
    "Migp.Props.C79_unsupported_stops"
   ],
   "note": ""
  },
  {
   "property": "C80",
   "status": "proved",
   "theorems": [
    "Migp.Props.C80_same_results",
    "Migp.Props.C80_server_request",
    "Migp.Props.C80_http_request",
    "Migp.Props.C80_server_uniform",
    "Migp.Props.C80_request_ops",
    "Migp.Props.C80_finalize_bound",
    "Migp.Props.C80_query",
    "Migp.Props.C80_finalize_exact",
    "Migp.Props.C80_insert",
    "Migp.Props.C80_refused",
    "Migp.Props.C80_load",
    "Migp.Props.C80_load_count"
   ],
   "note": ""
  },
  {
   "property": "C81",
   "status": "proved",
   "theorems": [
    "Migp.Props.C81_same_results",
    "Migp.Props.C81_log",
    "Migp.Props.C81_crashed",
    "Migp.Props.C81_no_content",
    "Migp.Props.C81_last",
    "Migp.Props.C81_silent",
    "Migp.Props.C81_request"
   ],
   "note": ""
  },
  {
   "property": "C82",
   "status": "proved",
   "theorems": [
    "Migp.Props.C82_decides",
    "Migp.Props.C82_bits",
    "Migp.Props.C82_slow",
    "Migp.Props.C82_version",
    "Migp.Props.C82_match",
    "Migp.Props.C82_program_silent",
    "Migp.Props.C82_program_version"
   ],
   "note": ""
  },
  {
   "property": "C83",
   "status": "proved",
   "theorems": [
    "Migp.Props.C83_program",
    "Migp.Props.C83_clean",
    "Migp.Props.C83_other_users",
    "Migp.Props.C83_append",
    "Migp.Props.C83_more_lines",
    "Migp.Props.C83_order",
    "Migp.Props.C83_num_variants",
    "Migp.Props.C83_num_variants_one_line",
    "Migp.Props.C83_username_flag"
   ],
   "note": ""
  },
  {
   "property": "C84",
   "status": "proved",
   "theorems": [
    "Migp.Props.C84_shows",
    "Migp.Props.C84_hides",
    "Migp.Props.C84_bucket",
    "Migp.Props.C84_servers"
   ],
   "note": ""
  },
  {
   "property": "C85",
   "status": "proved",
   "theorems": [
    "Migp.Props.C85_server",
    "Migp.Props.C85_client",
    "Migp.Props.C85_any_client",
    "Migp.Props.C85_example"
   ],
   "note": ""
  },
  {
   "property": "C86",
   "status": "proved",
   "theorems": [
    "Migp.Props.C86_boot",
    "Migp.Props.C86_serving",
    "Migp.Props.C86_answers",
    "Migp.Props.C86_restarts",
    "Migp.Props.C86_recovers",
    "Migp.Props.C86_replaced",
    "Migp.Props.C86_grows",
    "Migp.Props.C86_cut",
    "Migp.Props.C86_example",
    "Migp.Props.C86_cut_example"
   ],
   "note": ""
  },
  {
   "property": "C87",
   "status": "proved",
   "theorems": [
    "Migp.Props.C87_prompt",
    "Migp.Props.C87_client",
    "Migp.Props.C87_server",
    "Migp.Props.C87_file",
    "Migp.Props.C87_steps",
    "Migp.Props.C87_open",
    "Migp.Props.C87_example",
    "Migp.Props.C87_open_example",
    "Migp.Props.C87_listen_example"
   ],
   "note": ""
  },
  {
   "property": "C88",
   "status": "proved",
   "theorems": [
    "Migp.Props.C88_insert",
    "Migp.Props.C88_pieces",
    "Migp.Props.C88_joined_history",
    "Migp.Props.C88_joined_answer",
    "Migp.Props.C88_either_order",
    "Migp.Props.C88_divided",
    "Migp.Props.C88_divided_answer",
    "Migp.Props.C88_reordered",
    "Migp.Props.C88_files",
    "Migp.Props.C88_cut_false"
   ],
   "note": ""
  },
  {
   "property": "C89",
   "status": "proved",
   "theorems": [
    "Migp.Props.C89_other_request",
    "Migp.Props.C89_own_request",
    "Migp.Props.C89_query",
    "Migp.Props.C89_example"
   ],
   "note": ""
  },
  {
   "property": "C90",
   "status": "proved",
   "theorems": [
    "Migp.Props.C90_entries",
    "Migp.Props.C90_version",
    "Migp.Props.C90_replies",
    "Migp.Props.C90_bits",
    "Migp.Props.C90_merged",
    "Migp.Props.C90_not_merged",
    "Migp.Props.C90_can_merge"
   ],
   "note": ""
  },
  {
   "property": "C91",
   "status": "proved",
   "theorems": [
    "Migp.Props.C91_group",
    "Migp.Props.C91_encodings",
    "Migp.Props.C91_accepts",
    "Migp.Props.C91_reply",
    "Migp.Props.C91_same_reply",
    "Migp.Props.C91_keys",
    "Migp.Props.C91_request",
    "Migp.Props.C91_finalize",
    "Migp.Props.C91_found",
    "Migp.Props.C91_client",
    "Migp.Props.C91_hiding",
    "Migp.Props.C91_programs",
    "Migp.Props.C91_infinity",
    "Migp.Props.C91_query",
    "Migp.Props.C91_only_points"
   ],
   "note": ""
  },
  {
   "property": "C92",
   "status": "proved",
   "theorems": [
    "Migp.Props.C92_own_entries",
    "Migp.Props.C92_alone",
    "Migp.Props.C92_lookup",
    "Migp.Props.C92_found",
    "Migp.Props.C92_other_key_silent",
    "Migp.Props.C92_rotation",
    "Migp.Props.C92_query",
    "Migp.Props.C92_keys_differ",
    "Migp.Props.C92_silent_example"
   ],
   "note": ""
  }
 ]
}