Verif.C01_session_id_roundtrip: Classical.choice, Quot.sound, propext
Verif.C01_trailing_semicolon_is_misread: (none)
Verif.C02_collision_with_semicolons: (none)
Verif.C02_paths_have_distinct_keys: Classical.choice, Quot.sound, propext
Verif.C03_lv_roundtrip: Classical.choice, Quot.sound, propext
Verif.C03_lv_roundtrip_exact: Classical.choice, Quot.sound, propext
Verif.C03_lv_unpack_total: Quot.sound, propext
Verif.C04_default_token_resolves: Classical.choice, Quot.sound, propext
Verif.C04_foreign_token_refused: Quot.sound, propext
Verif.C04_jwt_token_resolves: Quot.sound, propext
Verif.C04_padding: Quot.sound, propext
Verif.C05_cookie_roundtrip: Classical.choice, Quot.sound, propext
Verif.C06_no_recut: Classical.choice, Quot.sound, propext
Verif.C07_grant_active_iff: Classical.choice, Quot.sound, propext
Verif.C07_token_active_iff: Classical.choice, Quot.sound, propext
Verif.C08_failed_mint_changes_nothing: Quot.sound, propext
Verif.C08_inactive_mints_nothing: Classical.choice, Quot.sound, propext
Verif.C08_mint_effect: Quot.sound, propext
Verif.C08_mint_succeeds_iff: Classical.choice, Quot.sound, propext
Verif.C09_tokens_form_a_forest: Classical.choice, Quot.sound, propext
Verif.C100_by_value_unchecked: propext
Verif.C100_dictionary_of_algorithms: Quot.sound, propext
Verif.C100_each_kind: propext
Verif.C100_encrypted_refused: Classical.choice, Quot.sound, propext
Verif.C100_in_the_endpoint: propext
Verif.C100_no_lists_no_objects: propext
Verif.C100_only_allowed_algorithms_partial: Classical.choice, Quot.sound, propext
Verif.C101_logout_tokens_partial: Quot.sound, propext
Verif.C101_no_subject: Quot.sound, propext
Verif.C101_single_logout_token_partial: Quot.sound, propext
Verif.C101_two_session_ids: Classical.choice, Quot.sound, propext
Verif.C102_altered_refused: Quot.sound, propext
Verif.C102_known_session_reveals_others: Quot.sound, propext
Verif.C102_sid_readable_partial: Quot.sound, propext
Verif.C102_stream_positions: Quot.sound, propext
Verif.C103_frame_reveals_user: Classical.choice, Quot.sound, propext
Verif.C103_token_reveals_user: Classical.choice, Quot.sound, propext
Verif.C104_state_comes_back_partial: Quot.sound, propext
Verif.C104_state_lost_with_query: Quot.sound, propext
Verif.C105_frame_exact_partial: propext
Verif.C105_logout_page_injection: propext
Verif.C106_killed_delete_dangles: propext
Verif.C106_no_dangling_after_crashes_partial: Classical.choice, Quot.sound, propext
Verif.C107_login_after_crashes: Classical.choice, Quot.sound, propext
Verif.C108_client_stays_listed: Classical.choice, Quot.sound, propext
Verif.C108_retry_completes_on_shelve_partial: Classical.choice, Quot.sound, propext
Verif.C108_retry_fails_on_dict: Classical.choice, Quot.sound, propext
Verif.C109_response_is_stored: Classical.choice, Quot.sound, propext
Verif.C10_base_non_recursive_exact: Classical.choice, Quot.sound, propext
Verif.C10_base_recursive_exact: Classical.choice, Quot.sound, propext
Verif.C10_non_recursive_exact: Classical.choice, Quot.sound, propext
Verif.C10_recursive_revocation_exact: Classical.choice, Quot.sound, propext
Verif.C10_revoke_all: Classical.choice, Quot.sound, propext
Verif.C10_revoke_dependent_exact: Classical.choice, Quot.sound, propext
Verif.C10_value_and_base_exact: Classical.choice, Quot.sound, propext
Verif.C110_crash_can_burn_code: Quot.sound, propext
Verif.C110_killed_code_exchange: Classical.choice, Quot.sound, propext
Verif.C110_killed_refresh: Classical.choice, Quot.sound, propext
Verif.C111_session_keeps_subject_partial: Classical.choice, Quot.sound, propext
Verif.C111_subject_changes_at_restart: Classical.choice, Quot.sound, propext
Verif.C112_only_own_sessions_change_partial: Classical.choice, Quot.sound, propext
Verif.C112_spill_is_real: Quot.sound, propext
Verif.C113_noninterference: Classical.choice, Quot.sound, propext
Verif.C114_other_users_steps_commute: Classical.choice, Quot.sound, propext
Verif.C115_honest_cookie_needed: Quot.sound, propext
Verif.C115_userinfo_needs_login: Classical.choice, Quot.sound, propext
Verif.C116_tokens_need_login: Classical.choice, Quot.sound, propext
Verif.C117_active_needs_login: Classical.choice, Quot.sound, propext
Verif.C118_response_for_the_user: Classical.choice, Quot.sound, propext
Verif.C119_only_authorize_creates: Classical.choice, Quot.sound, propext
Verif.C119_sessions_only_from_logins: Classical.choice, Quot.sound, propext
Verif.C11_lookup_finds_it_dead: Classical.choice, Quot.sound, propext
Verif.C11_revoked_forever: Classical.choice, Quot.sound, propext
Verif.C11_used_code_forever: Classical.choice, Quot.sound, propext
Verif.C120_no_token_no_claims: Quot.sound, propext
Verif.C120_userinfo_on_the_web: Classical.choice, Quot.sound, propext
Verif.C121_tokens_on_the_web: Classical.choice, Quot.sound, propext
Verif.C122_introspection_on_the_web: Classical.choice, Quot.sound, propext
Verif.C123_response_on_the_web: Classical.choice, Quot.sound, propext
Verif.C124_codes_go_to_registered_uris: Classical.choice, Quot.sound, propext
Verif.C125_assertion_accepted_once: Quot.sound, propext
Verif.C125_replay_after_restart: Quot.sound, propext
Verif.C126_code_redeemed_without_secret: Quot.sound, propext
Verif.C126_configured_is_closed_partial: Classical.choice, Quot.sound, propext
Verif.C126_open_by_default: Quot.sound, propext
Verif.C127_pushed_in_anothers_name: Quot.sound, propext
Verif.C127_pushed_request_is_the_clients_partial: Classical.choice, Quot.sound, propext
Verif.C128_pushed_requests_never_expire: Quot.sound, propext
Verif.C129_web_no_dangling: Classical.choice, Quot.sound, propext
Verif.C12_code_is_single_use: (none)
Verif.C12_codes_in_grants_are_single_use: Classical.choice, Quot.sound, propext
Verif.C130_registered_client_runs_code_flow: Classical.choice, Quot.sound, propext
Verif.C131_defaults: propext
Verif.C131_handler_as_described: Quot.sound, propext
Verif.C131_kind_of_own_token: Classical.choice, Quot.sound, propext
Verif.C131_lost_keys: Quot.sound, propext
Verif.C131_restart_keeps_handlers: (none)
Verif.C131_start_fails_only_if: Quot.sound, propext
Verif.C131_start_uses_the_keys: Quot.sound, propext
Verif.C131_started_as_configured: Quot.sound, propext
Verif.C131_started_reads_own_tokens: Classical.choice, Quot.sound, propext
Verif.C132_half_configured_reads_nothing: Quot.sound, propext
Verif.C132_refresh_may_be_absent_partial: Classical.choice, Quot.sound, propext
Verif.C133_refresh_served: Classical.choice, Quot.sound, propext
Verif.C133_stays_refreshable: Classical.choice, Quot.sound, propext
Verif.C134_answer_only_if: propext
Verif.C134_answered_exactly_when: Classical.choice, Quot.sound, propext
Verif.C134_grant_and_event: Classical.choice, Quot.sound, propext
Verif.C134_listings: Classical.choice, Quot.sound, propext
Verif.C134_listings_want_names: propext
Verif.C134_lookup_by_token: Classical.choice, Quot.sound, propext
Verif.C134_session_complete: Classical.choice, Quot.sound, propext
Verif.C134_session_info_partial: Classical.choice, Quot.sound, propext
Verif.C134_single_lookups: Classical.choice, Quot.sound, propext
Verif.C135_answers_about_other_clients_unchanged: Classical.choice, Quot.sound, propext
Verif.C135_sessions_of_other_clients_unchanged: Classical.choice, Quot.sound, propext
Verif.C136_active_only_if_given: Classical.choice, Quot.sound, propext
Verif.C136_tokens_are_given_out: Classical.choice, Quot.sound, propext
Verif.C136_userinfo_only_for_given_tokens: Classical.choice, Quot.sound, propext
Verif.C137_code_redeemed_once_on_the_web: Classical.choice, Quot.sound, propext
Verif.C137_code_terms_on_the_web: Classical.choice, Quot.sound, propext
Verif.C138_faulty_request_answered_partial: Classical.choice, Quot.sound, propext
Verif.C138_faulty_uri_raises: Quot.sound, propext
Verif.C139_claims_of_a_use: Quot.sound, propext
Verif.C139_granted_claims: Quot.sound, propext
Verif.C13_grant_survives_other_writes: Classical.choice, Quot.sound, propext
Verif.C13_other_paths_unchanged: Classical.choice, Quot.sound, propext
Verif.C13_read_own_write: Classical.choice, Quot.sound, propext
Verif.C13_write_makes_parents: Classical.choice, Quot.sound, propext
Verif.C140_forged_signature_raises: Quot.sound, propext
Verif.C140_junk_reads_as_nothing_partial: Quot.sound, propext
Verif.C140_unread_cookie_is_no_cookie_partial: Quot.sound, propext
Verif.C141_dead_token_has_spec: Classical.choice, Quot.sound, propext
Verif.C141_spec_of_a_token: Classical.choice, Quot.sound, propext
Verif.C142_logout_to_registered_uri_served: Quot.sound, propext
Verif.C142_plain_logout_served: Quot.sound, propext
Verif.C143_code_answers_partial: Classical.choice, Quot.sound, propext
Verif.C143_foreign_refresh_raises: Quot.sound, propext
Verif.C143_grant_type_answers: Quot.sound, propext
Verif.C143_misfiled_helper: Quot.sound, propext
Verif.C143_redirect_answers: Classical.choice, Quot.sound, propext
Verif.C143_refresh_answers_partial: Classical.choice, Quot.sound, propext
Verif.C143_refresh_with_odd_code: Classical.choice, Quot.sound, propext
Verif.C143_verifier_answers: Classical.choice, Quot.sound, propext
Verif.C144_introspect_answers: Classical.choice, Quot.sound, propext
Verif.C144_userinfo_answers_partial: Classical.choice, Quot.sound, propext
Verif.C144_userinfo_login_over: Classical.choice, Quot.sound, propext
Verif.C144_userinfo_raises: Classical.choice, Quot.sound, propext
Verif.C144_userinfo_unusable: Classical.choice, Quot.sound, propext
Verif.C145_accepted_iff: Classical.choice, Quot.sound, propext
Verif.C145_client_as_sent: Classical.choice, Quot.sound, propext
Verif.C145_not_verified: propext
Verif.C145_refused_leaves_stub: Classical.choice, Quot.sound, propext
Verif.C145_registration_verdict: Classical.choice, Quot.sound, propext
Verif.C145_told_what_it_sent: Quot.sound, propext
Verif.C145_told_where_to_read: Quot.sound, propext
Verif.C146_subject_of_type: Classical.choice, Quot.sound, propext
Verif.C146_unknown_type: Classical.choice, Quot.sound, propext
Verif.C147_missing_entries: Quot.sound, propext
Verif.C147_missing_entries_exchange: Quot.sound, propext
Verif.C147_readable_iff: Quot.sound, propext
Verif.C148_form_carries_request: Quot.sound, propext
Verif.C148_page_is_made_iff: Quot.sound, propext
Verif.C148_page_shows_client: Quot.sound, propext
Verif.C149_accepted_iff: Quot.sound, propext
Verif.C149_client_makes_form_tokens: Quot.sound, propext
Verif.C149_signed_by_named_partial: Quot.sound, propext
Verif.C14_histories_are_typed: Classical.choice, Quot.sound, propext
Verif.C14_no_dangling_references: Classical.choice, Quot.sound, propext
Verif.C150_accepted_after_end: Quot.sound, propext
Verif.C150_access_token_confirms: Quot.sound, propext
Verif.C150_access_token_times: Quot.sound, propext
Verif.C150_confirmation_comes_back: Quot.sound, propext
Verif.C150_only_own_keys: Quot.sound, propext
Verif.C151_refresh_terms_on_the_web: Classical.choice, Quot.sound, propext
Verif.C152_userinfo_as_authorized: Classical.choice, Quot.sound, propext
Verif.C153_registration_lasts: Classical.choice, Quot.sound, propext
Verif.C154_token_works_until_its_time: Classical.choice, Quot.sound, propext
Verif.C155_implicit_token_works_until_its_time: Classical.choice, Quot.sound, propext
Verif.C156_logout_goes_to_registered_uris: Classical.choice, Quot.sound, propext
Verif.C156_registered_logout_uri_works: Classical.choice, Quot.sound, propext
Verif.C157_new_login_ends_earlier_sessions: Classical.choice, Quot.sound, propext
Verif.C157_restart_ends_all_sessions: Classical.choice, Quot.sound, propext
Verif.C158_refresh_token_works_until_its_time: Classical.choice, Quot.sound, propext
Verif.C159_code_works_until_its_time: Classical.choice, Quot.sound, propext
Verif.C15_created_session_usable_partial: Classical.choice, Quot.sound, propext
Verif.C15_second_session_loses_first: propext
Verif.C160_pushed_as_sent: Classical.choice, Quot.sound, propext
Verif.C161_ended_session_locked_out: Classical.choice, Quot.sound, propext
Verif.C161_first_visit_partial: Classical.choice, Quot.sound, propext
Verif.C161_new_request_partial: Classical.choice, Quot.sound, propext
Verif.C161_next_visitor_ends_sessions: Classical.choice, Quot.sound, propext
Verif.C161_other_client_locked_out: Classical.choice, Quot.sound, propext
Verif.C161_plain_cookie_partial: Classical.choice, Quot.sound, propext
Verif.C161_same_request_partial: Classical.choice, Quot.sound, propext
Verif.C161_session_of_client_partial: Classical.choice, Quot.sound, propext
Verif.C161_stray_cookie_locked_out: Quot.sound, propext
Verif.C161_unreadable_cookie_locked_out: Quot.sound, propext
Verif.C162_front_channel: Classical.choice, Quot.sound, propext
Verif.C162_id_token_about_login: Classical.choice, Quot.sound, propext
Verif.C162_id_token_claims: Classical.choice, Quot.sound, propext
Verif.C163_introspection_as_authorized: Classical.choice, Quot.sound, propext
Verif.C164_code_is_lost: Classical.choice, Quot.sound, propext
Verif.C164_failed_id_token_is_not_undone: Quot.sound, propext
Verif.C164_refused_changes_nothing_partial: Classical.choice, Quot.sound, propext
Verif.C165_second_use_refused: Quot.sound, propext
Verif.C165_served_at_most_once_per_push: Classical.choice, Quot.sound, propext
Verif.C166_given_at_most_once_per_push_partial: Classical.choice, Quot.sound, propext
Verif.C166_given_what_was_pushed: Quot.sound, propext
Verif.C166_pieces_are_do_request_uri: Quot.sound, propext
Verif.C166_two_threads_one_push: Quot.sound, propext
Verif.C167_as_if_alone: Classical.choice, Quot.sound, propext
Verif.C167_as_if_in_turn: Classical.choice, Quot.sound, propext
Verif.C167_every_thread_ends: Quot.sound, propext
Verif.C167_others_untouched: Classical.choice, Quot.sound, propext
Verif.C168_login_lost: Quot.sound, propext
Verif.C168_others_hidden: Classical.choice, Quot.sound, propext
Verif.C169_any_number_of_threads_accepted: Quot.sound, propext
Verif.C169_in_turn_once_partial: Quot.sound, propext
Verif.C169_pieces_are_jti_use: propext
Verif.C16_client_delete_exact: Classical.choice, Quot.sound, propext
Verif.C16_client_delete_in_histories: Classical.choice, Quot.sound, propext
Verif.C16_delete_after_add_grant_raises: propext
Verif.C16_grant_delete_partial: Classical.choice, Quot.sound, propext
Verif.C16_listing_broken_after_grant_delete: propext
Verif.C16_other_user_destroyed: propext
Verif.C16_phantom_user: propext
Verif.C170_no_token_afterwards_partial: Classical.choice, Quot.sound, propext
Verif.C170_revocation_undone: Quot.sound, propext
Verif.C170_stays_revoked_partial: Classical.choice, Quot.sound, propext
Verif.C171_rules_as_if_copied: Classical.choice, Quot.sound, propext
Verif.C171_rules_never_change: Classical.choice, Quot.sound, propext
Verif.C171_shared_between_types_changes: Quot.sound, propext
Verif.C172_asking_changes_the_answers: Quot.sound, propext
Verif.C172_asking_is_harmless_partial: Quot.sound, propext
Verif.C172_default_rules: Quot.sound, propext
Verif.C172_defaults_are_not_filled_in: Quot.sound, propext
Verif.C172_defaults_otherwise: Quot.sound, propext
Verif.C172_order_of_importance_partial: Quot.sound, propext
Verif.C173_encrypted_exact: Classical.choice, Quot.sound, propext
Verif.C173_others_are_refused: Classical.choice, Quot.sound, propext
Verif.C173_signed_differs: Quot.sound, propext
Verif.C173_signed_exact_partial: Quot.sound, propext
Verif.C174_answers_are_stored_partial: Classical.choice, Quot.sound, propext
Verif.C174_nothing_taken_back_partial: Classical.choice, Quot.sound, propext
Verif.C174_pieces_are_process_request: Classical.choice, Quot.sound, propext
Verif.C174_tokens_lost: Quot.sound, propext
Verif.C175_copies_ignore_revocation: Quot.sound, propext
Verif.C175_revoked_in_time_partial: Classical.choice, Quot.sound, propext
Verif.C176_logout_is_not_undone: Classical.choice, Quot.sound, propext
Verif.C17_deleted_grant_comes_back: propext
Verif.C17_deleted_stays_deleted_partial: Classical.choice, Quot.sound, propext
Verif.C18_add_grant_listed_twice: propext
Verif.C18_listing_exact_partial: Classical.choice, Quot.sound, propext
Verif.C18_second_session_hides_first: propext
Verif.C19_counterexample: propext
Verif.C19_revocation_durable_aliased_partial: Classical.choice, Quot.sound, propext
Verif.C19_revocation_lost_on_copying_backend: propext
Verif.C19_unknown_token_raises: Classical.choice, Quot.sound, propext
Verif.C20_revoked_grant_mints_nothing_partial: Classical.choice, Quot.sound, propext
Verif.C20_revoked_grant_no_response: Classical.choice, Quot.sound, propext
Verif.C20_revoked_grant_still_accepted: Quot.sound, propext
Verif.C21_only_registered_types_partial: Quot.sound, propext
Verif.C21_request_object_of_another_client: Quot.sound, propext
Verif.C22_accepted_iff: Quot.sound, propext
Verif.C22_accepted_is_registered: Quot.sound, propext
Verif.C22_get_uri: propext
Verif.C22_registered_uri_refused: propext
Verif.C22_response_goes_to_verified_uri: Quot.sound, propext
Verif.C22_undecoded_uri_is_used: propext
Verif.C23_no_tokens_in_query: Classical.choice, Quot.sound, propext
Verif.C24_response_contents: Quot.sound, propext
Verif.C25_processed_is_pushed_partial: Quot.sound, propext
Verif.C25_pushed_request_object_refetched: propext
Verif.C25_pushed_request_used_once: propext
Verif.C26_only_unknown_scopes_refused: Quot.sound, propext
Verif.C26_unknown_scopes_refused: Classical.choice, Quot.sound, propext
Verif.C27_code_redeemed_once: Classical.choice, Quot.sound, propext
Verif.C28_code_under_its_own_terms: Classical.choice, Quot.sound, propext
Verif.C29_authenticated_client_redeems_others_code: Quot.sound, propext
Verif.C29_code_redeemed_by_other_client: Quot.sound, propext
Verif.C29_parsing_ignores_client: Quot.sound, propext
Verif.C29_processing_ignores_client: Quot.sound, propext
Verif.C29_tokens_stay_in_session_partial: Classical.choice, Quot.sound, propext
Verif.C30_challenge_has_configured_method: Quot.sound, propext
Verif.C30_code_needs_verifier: Classical.choice, Quot.sound, propext
Verif.C30_essential_end_to_end: Classical.choice, Quot.sound, propext
Verif.C31_no_refresh_with_pkce: Quot.sound, propext
Verif.C31_refresh_refused_with_pkce: Quot.sound, propext
Verif.C32_limit_not_enforced: Quot.sound, propext
Verif.C32_refresh_needs_active_token_partial: Classical.choice, Quot.sound, propext
Verif.C32_use_not_registered: Classical.choice, Quot.sound, propext
Verif.C33_introspected_scope: Classical.choice, Quot.sound, propext
Verif.C33_scope_never_grows: Classical.choice, Quot.sound, propext
Verif.C33_stored_scopes: Classical.choice, Quot.sound, propext
Verif.C34_userinfo_released_only_if: Quot.sound, propext
Verif.C35_active_answer_partial: Quot.sound, propext
Verif.C35_active_iff_partial: Quot.sound, propext
Verif.C35_expired_or_removed_raises: Quot.sound, propext
Verif.C35_unresolved_token_raises: Quot.sound, propext
Verif.C35_unstored_token_raises: Quot.sound, propext
Verif.C35_user_data_replaces_scope: Quot.sound, propext
Verif.C36_claims_match_iff: Quot.sound, propext
Verif.C36_empty_spec_matches_nothing: propext
Verif.C36_user_claims_exact: Quot.sound, propext
Verif.C36_values_not_a_list: Quot.sound, propext
Verif.C37_claims_leak_between_sessions: (none)
Verif.C37_no_leak_partial: Quot.sound, propext
Verif.C38_acr_mismatch_refused: Quot.sound, propext
Verif.C38_hash_from_user_data: Quot.sound, propext
Verif.C38_hashes_match_response: Quot.sound, propext
Verif.C38_security_claims: Quot.sound, propext
Verif.C39_auth_time_is_request_time: Classical.choice, Quot.sound, propext
Verif.C39_session_reuse_keeps_time_partial: Classical.choice, Quot.sound, propext
Verif.C40_no_method: propext
Verif.C40_reported_method: Classical.choice, Quot.sound, propext
Verif.C40_request_client: Classical.choice, Quot.sound, propext
Verif.C40_secret_accepted: Classical.choice, Quot.sound, propext
Verif.C40_secret_sound: Classical.choice, Quot.sound, propext
Verif.C41_accepted_once: Quot.sound, propext
Verif.C41_audience: Classical.choice, Quot.sound, propext
Verif.C41_fresh_assertion_refused: propext
Verif.C41_request_param_any_audience: Classical.choice, Quot.sound, propext
Verif.C42_illegal_uri_refused: Quot.sound, propext
Verif.C42_native_fragment_dropped: propext
Verif.C42_reassembles_partial: Quot.sound, propext
Verif.C42_redirect_rules: Quot.sound, propext
Verif.C43_administrative_entries_settable: propext
Verif.C43_client_grants_itself_scopes: propext
Verif.C43_failed_registration_leaves_client: Classical.choice, Quot.sound, propext
Verif.C43_named_client_replaced: Quot.sound, propext
Verif.C43_other_clients_unchanged: Quot.sound, propext
Verif.C43_other_clients_unchanged_history: Quot.sound, propext
Verif.C43_request_sets_entries: Quot.sound, propext
Verif.C43_unverified_refused: propext
Verif.C44_bearer_body_is_open: Classical.choice, Quot.sound, propext
Verif.C44_default_is_open: propext
Verif.C44_issued_token_works: Quot.sound, propext
Verif.C44_read_needs_token_partial: Quot.sound, propext
Verif.C45_only_supported: Quot.sound, propext
Verif.C45_string_capability: propext
Verif.C45_string_capability_refuses_lists: Quot.sound, propext
Verif.C45_unsupported_refused: Classical.choice, Quot.sound, propext
Verif.C46_logout_all_partial: Classical.choice, Quot.sound, propext
Verif.C46_logout_marks_session: Classical.choice, Quot.sound, propext
Verif.C46_tokens_survive_logout: Classical.choice, Quot.sound, propext
Verif.C46_unknown_client_blocks_logout: Classical.choice, Quot.sound, propext
Verif.C47_end_session_partial: Classical.choice, Quot.sound, propext
Verif.C47_foreign_client_uri: Quot.sound, propext
Verif.C47_refusals: Quot.sound, propext
Verif.C48_client_rules_are_discarded: Quot.sound, propext
Verif.C48_client_rules_take_precedence: Quot.sound, propext
Verif.C48_provider_rules_otherwise: propext
Verif.C48_session_starts_with_rules: Classical.choice, Quot.sound, propext
Verif.C49_allowed_claims_exact: Quot.sound, propext
Verif.C49_fails_iff: Quot.sound, propext
Verif.C49_get_claims_names: Quot.sound, propext
Verif.C49_scope_claims_exact: Quot.sound, propext
Verif.C50_pairwise_registration_ignored: Classical.choice, Quot.sound, propext
Verif.C50_subject_is_stable: Classical.choice, Quot.sound, propext
Verif.C51_default_and_values: Classical.choice, Quot.sound, propext
Verif.C51_pick_exact: Classical.choice, Quot.sound, propext
Verif.C51_reused_id_is_stale: propext
Verif.C52_copied_rules_lost: propext
Verif.C52_exchange_users_lost: (none)
Verif.C52_grant_limit_lost: Classical.choice, Quot.sound, propext
Verif.C52_grant_roundtrip_partial: Classical.choice, Quot.sound, propext
Verif.C52_token_roundtrip: propext
Verif.C53_algorithm_found: Quot.sound, propext
Verif.C53_encryption_choice: propext
Verif.C53_encryption_ignored: Quot.sound, propext
Verif.C53_no_standard_algorithm: propext
Verif.C53_signing_algorithm: Quot.sound, propext
Verif.C53_standard_algorithm: propext
Verif.C54_delete_cookie: Quot.sound, propext
Verif.C54_kill_cookies_expires_nothing: propext
Verif.C54_kill_cookies_replaces_partial: Classical.choice, Quot.sound, propext
Verif.C55_default_and_explicit_class: Quot.sound, propext
Verif.C55_enabled_with_true_raises: Quot.sound, propext
Verif.C55_only_configured_served_partial: Quot.sound, propext
Verif.C56_pieces_are_process_request: Classical.choice, Quot.sound, propext
Verif.C56_too_late_partial: Classical.choice, Quot.sound, propext
Verif.C56_two_threads_redeem_one_code: Quot.sound, propext
Verif.C57_deep_dependent_fails: Classical.choice, Quot.sound, propext
Verif.C57_deep_revocation_fails: Classical.choice, Quot.sound, propext
Verif.C58_session_binding_partial: propext
Verif.C58_session_id_claim_raises: propext
Verif.C58_ttype_claim_breaks_default_tokens: Classical.choice, Quot.sound, propext
Verif.C58_user_data_in_token: propext
Verif.C58_which_ttype_claims: propext
Verif.C59_form_determines_parameters_partial: Quot.sound, propext
Verif.C59_form_injection: (none)
Verif.C60_returning_browser_raises: Classical.choice, Quot.sound, propext
Verif.C60_token_cookie_raises: propext
Verif.C61_registered_only_partial: Quot.sound, propext
Verif.C61_unregistered_request_uri_fetched: propext
Verif.C62_pushed_uri_used_by_other_client: propext
Verif.C63_pairwise_collision: (none)
Verif.C63_pairwise_ids_distinct_in_sector: Quot.sound, propext
Verif.C63_pairwise_ids_of_one_user: Quot.sound, propext
Verif.C63_public_ids_distinct: Quot.sound, propext
Verif.C64_revoked_token_refused: Classical.choice, Quot.sound, propext
Verif.C65_id_token_otherwise_partial: Quot.sound, propext
Verif.C65_no_id_token_with_logout_uri: propext
Verif.C65_unknown_client_raises: propext
Verif.C66_enc_alone_is_ignored: propext
Verif.C66_userinfo_form_partial: propext
Verif.C67_credentials_needed_partial: propext
Verif.C67_empty_configuration: propext
Verif.C67_no_credentials_needed: Classical.choice, Quot.sound, propext
Verif.C68_signed_with_other_key: propext
Verif.C68_signed_with_secret_partial: Quot.sound, propext
Verif.C69_credentials_work_partial: Classical.choice, Quot.sound, propext
Verif.C69_own_secret_splits: Quot.sound, propext
Verif.C70_empty_configuration_refuses: propext
Verif.C70_end_session_authenticates_nobody: propext
Verif.C71_all_clients_told_partial: Classical.choice, Quot.sound, propext
Verif.C71_iframe_address: Quot.sound, propext
Verif.C71_unreachable_client_stops_logout: propext
Verif.C72_cookie_attributes: Quot.sound, propext
Verif.C73_acr_claim_without_values_raises: Classical.choice, Quot.sound, propext
Verif.C73_choosing_never_key_error: propext
Verif.C73_default_acr_raises: Classical.choice, Quot.sound, propext
Verif.C73_login_hint: Classical.choice, Quot.sound, propext
Verif.C73_null_acr_raises: Classical.choice, Quot.sound, propext
Verif.C73_requested_acr_used_partial: Classical.choice, Quot.sound, propext
Verif.C73_single_acr_value_ignored: Classical.choice, Quot.sound, propext
Verif.C73_single_method_always_used: Classical.choice, Quot.sound, propext
Verif.C73_unsupported_acr_raises: Classical.choice, Quot.sound, propext
Verif.C74_code_response_lifetime: Classical.choice, Quot.sound, propext
Verif.C74_constructor_lifetime: Quot.sound, propext
Verif.C74_grant_lifetime: Classical.choice, Quot.sound, propext
Verif.C74_minted_token_lifetime: Quot.sound, propext
Verif.C74_negative_lifetime_announced: Quot.sound, propext
Verif.C74_refresh_response_lifetime: Classical.choice, Quot.sound, propext
Verif.C75_configured_default_policy_denies: propext
Verif.C75_default_policy_grants_nothing: Classical.choice, Quot.sound, propext
Verif.C75_granted_as_asked_partial: Classical.choice, Quot.sound, propext
Verif.C75_no_scope_no_refresh_token: Classical.choice, Quot.sound, propext
Verif.C75_userinfo_only_sub: Classical.choice, Quot.sound, propext
Verif.C76_max_age_zero_ignored: Classical.choice, Quot.sound, propext
Verif.C76_old_login_refused_partial: Classical.choice, Quot.sound, propext
Verif.C76_recent_login_accepted: Classical.choice, Quot.sound, propext
Verif.C76_uam_cookie_expires: Classical.choice, Quot.sound, propext
Verif.C76_uam_cookie_ignores_max_age: Classical.choice, Quot.sound, propext
Verif.C76_upm_answer_disables: Classical.choice, Quot.sound, propext
Verif.C77_prompt_login_ignored: Classical.choice, Quot.sound, propext
Verif.C77_prompt_none_partial: Quot.sound, propext
Verif.C77_prompt_none_shows_login: Classical.choice, Quot.sound, propext
Verif.C78_decodable_user_raises: Classical.choice, Quot.sound, propext
Verif.C78_plain_user_served_partial: Classical.choice, Quot.sound, propext
Verif.C79_impersonation: Classical.choice, Quot.sound, propext
Verif.C79_session_of_cookie_user_partial: Classical.choice, Quot.sound, propext
Verif.C80_asked_for_user_partial: Classical.choice, Quot.sound, propext
Verif.C80_id_token_hint_ignored: Classical.choice, Quot.sound, propext
Verif.C80_login_hint_ignored: Classical.choice, Quot.sound, propext
Verif.C80_login_hint_raises: Quot.sound, propext
Verif.C80_other_user_sent_to_login_partial: Classical.choice, Quot.sound, propext
Verif.C81_configured_lookup_useless: Quot.sound, propext
Verif.C81_exactly_the_claims_asked_for: Quot.sound, propext
Verif.C81_other_hints: propext
Verif.C81_search_exact: Quot.sound, propext
Verif.C81_search_fails_only_if_nobody_matches: Quot.sound, propext
Verif.C81_search_finds_first_match: Quot.sound, propext
Verif.C81_search_raises: Quot.sound, propext
Verif.C81_tel_hint: Classical.choice, Quot.sound, propext
Verif.C82_basic_fails_so: Classical.choice, Quot.sound, propext
Verif.C82_basic_lets_nobody_in: propext
Verif.C82_password_form: propext
Verif.C83_expired_login_refused: Classical.choice, Quot.sound, propext
Verif.C83_session_login_valid: Classical.choice, Quot.sound, propext
Verif.C83_validity_period: Classical.choice, Quot.sound, propext
Verif.C84_authorization_served: Classical.choice, Quot.sound, propext
Verif.C84_code_flow: Classical.choice, Quot.sound, propext
Verif.C84_code_request_served: Classical.choice, Quot.sound, propext
Verif.C84_refresh_request_served: Classical.choice, Quot.sound, propext
Verif.C84_userinfo_served: Classical.choice, Quot.sound, propext
Verif.C85_other_uris_checked: Quot.sound, propext
Verif.C85_response_uris: Classical.choice, Quot.sound, propext
Verif.C85_two_hashes_fail: Quot.sound, propext
Verif.C86_endpoints_by_name: propext
Verif.C86_issuer_and_keys: Quot.sound, propext
Verif.C86_no_other_addresses: Quot.sound, propext
Verif.C86_published_addresses: Quot.sound, propext
Verif.C86_shared_capabilities: Quot.sound, propext
Verif.C87_capabilities_published_partial: Quot.sound, propext
Verif.C87_defaults_published: Quot.sound, propext
Verif.C87_document_endpoint: Quot.sound, propext
Verif.C87_endpoint_setting_published_partial: Quot.sound, propext
Verif.C87_first_endpoint_decides: Quot.sound, propext
Verif.C87_id_token_capabilities_replaced: Quot.sound, propext
Verif.C87_provider_config_setting_ignored: Quot.sound, propext
Verif.C87_session_iframe: Quot.sound, propext
Verif.C88_capabilities_unchecked: Quot.sound, propext
Verif.C88_default_complete: Classical.choice, Quot.sound, propext
Verif.C88_default_sorted: Classical.choice, Quot.sound, propext
Verif.C88_lists_published: Quot.sound, propext
Verif.C88_none_accepted: propext
Verif.C88_proposal_checked: Classical.choice, Quot.sound, propext
Verif.C88_unknown_family_no_start: Quot.sound, propext
Verif.C88_within_library: Quot.sound, propext
Verif.C89_default_scopes_honoured: Quot.sound, propext
Verif.C89_oauth2_scopes_unpublished: Quot.sound, propext
Verif.C89_published_and_known: Quot.sound, propext
Verif.C90_auth_methods_missing: Quot.sound, propext
Verif.C90_refresh_not_registrable: Quot.sound, propext
Verif.C90_required_entries_partial: Classical.choice, Quot.sound, propext
Verif.C90_subject_types_missing: Quot.sound, propext
Verif.C91_needs_grant_types: Quot.sound, propext
Verif.C91_needs_refresh_handler: propext
Verif.C91_refresh_allowed: Quot.sound, propext
Verif.C91_starts_partial: Quot.sound, propext
Verif.C92_custom_scope_claims: Quot.sound, propext
Verif.C92_custom_scopes_allowed: Quot.sound, propext
Verif.C92_custom_scopes_displace: Quot.sound, propext
Verif.C92_custom_scopes_published: Quot.sound, propext
Verif.C93_callers_list_exact: Quot.sound, propext
Verif.C93_callers_list_grows: propext
Verif.C93_content_type_exact: propext
Verif.C93_discovery_cacheable: propext
Verif.C93_discovery_content_type: propext
Verif.C93_one_content_type_partial: Classical.choice, Quot.sound, propext
Verif.C93_responses_not_cacheable_partial: propext
Verif.C93_two_content_types: propext
Verif.C93_userinfo_not_cacheable_partial: propext
Verif.C94_error_body: propext
Verif.C94_error_hides_result_partial: Quot.sound, propext
Verif.C94_error_lost: Quot.sound, propext
Verif.C95_denial_not_delivered: Quot.sound, propext
Verif.C95_iframe_never_says_denied: Quot.sound, propext
Verif.C95_no_scope_no_answer: Quot.sound, propext
Verif.C95_success_is_delivered_partial: Quot.sound, propext
Verif.C96_errors_without_state: Quot.sound, propext
Verif.C96_form_does_not_name_issuer: Quot.sound, propext
Verif.C96_response_names_issuer_client_state_partial: Quot.sound, propext
Verif.C96_response_parameters: Quot.sound, propext
Verif.C97_session_state_determines: Quot.sound, propext
Verif.C97_state_and_cookie_partial: Quot.sound, propext
Verif.C97_without_dealer: Quot.sound, propext
Verif.C98_login_required_placement_partial: propext
Verif.C98_none_in_fragment: propext
Verif.C98_other_user_in_query: propext
Verif.C99_delete_unknown_user: Quot.sound, propext
Verif.C99_deletes_agree_partial: Classical.choice, Quot.sound, propext
Verif.C99_half_deleted: Classical.choice, Quot.sound, propext
Verif.C99_reads_agree_partial: Classical.choice, Quot.sound, propext
Verif.C99_removed_grant_reads_none: Classical.choice, Quot.sound, propext
