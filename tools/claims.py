CLAIMS = {
"C01": ("proved", ["C01_session_id_roundtrip", "C01_trailing_semicolon_is_misread"],
  "Exact iff: a path round-trips iff no id contains ';;' or (except the last) ends in ';'; all ids made by the code (uuid hex) and ';'-free user and client ids qualify. Second theorem: the boundary is real."),
"C02": ("proved", ["C02_paths_have_distinct_keys", "C02_collision_with_semicolons"], "Injective for encodable paths; collision witness otherwise."),
"C03": ("proved", ["C03_lv_roundtrip", "C03_lv_roundtrip_exact", "C03_lv_unpack_total"], "Roundtrip is exact iff the last value does not end in white space (lv_unpack strips)."),
"C04": ("proved", ["C04_default_token_resolves", "C04_jwt_token_resolves", "C04_foreign_token_refused", "C04_padding"], "Symbolic crypto laws are hypotheses (Spec/Crypto.lean)."),
"C05": ("proved", ["C05_cookie_roundtrip"], "Crypto laws are hypotheses; values without the separators."),
"C06": ("proved", ["C06_no_recut"], "Symbolic MAC: unforgeability is a hypothesis."),
"C07": ("proved", ["C07_token_active_iff", "C07_grant_active_iff"], ""),
"C08": ("proved", ["C08_mint_succeeds_iff", "C08_mint_effect", "C08_failed_mint_changes_nothing", "C08_inactive_mints_nothing"], ""),
"C09": ("proved", ["C09_tokens_form_a_forest"], "Under fresh, non-empty token strings (hypothesis of GrantReach)."),
"C10": ("proved", ["C10_recursive_revocation_exact", "C10_revoke_dependent_exact", "C10_non_recursive_exact", "C10_revoke_all", "C10_value_and_base_exact", "C10_base_non_recursive_exact", "C10_base_recursive_exact"], "Recursion limit larger than the number of tokens is a hypothesis; beyond it see C57."),
"C11": ("proved", ["C11_revoked_forever", "C11_used_code_forever", "C11_lookup_finds_it_dead"], ""),
"C12": ("proved", ["C12_code_is_single_use", "C12_codes_in_grants_are_single_use"], ""),
"C13": ("proved", ["C13_read_own_write", "C13_other_paths_unchanged", "C13_grant_survives_other_writes", "C13_write_makes_parents"], "Over ';'-free non-empty ids and typed stores."),
"C14": ("proved", ["C14_no_dangling_references", "C14_histories_are_typed"], "All histories of session-manager calls from the empty store, both back-end modes."),
"C15": ("partial", ["C15_created_session_usable_partial", "C15_second_session_loses_first"], "False of the code for earlier sessions of the same user and client: create_session overwrites the client record (counterexample proved). Everything else proved."),
"C16": ("partial", ["C16_client_delete_exact", "C16_client_delete_in_histories", "C16_grant_delete_partial", "C16_phantom_user", "C16_other_user_destroyed", "C16_listing_broken_after_grant_delete", "C16_delete_after_add_grant_raises"], "Client-session deletion proved exact. Single-grant deletion is wrong in the code (writes the client record under the wrong key): counterexamples proved, what holds is in the partial theorem."),
"C17": ("partial", ["C17_deleted_grant_comes_back", "C17_deleted_stays_deleted_partial"], "False of the code: deleting a user leaves client records behind and create_grant makes them readable again. Holds if only create_session is used afterwards."),
"C18": ("partial", ["C18_listing_exact_partial", "C18_add_grant_listed_twice", "C18_second_session_hides_first"], "False of the code for add_grant (duplicates) and repeated create_session (hides); exact for everything else."),
"C19": ("partial", ["C19_revocation_durable_aliased_partial", "C19_unknown_token_raises", "C19_revocation_lost_on_copying_backend", "C19_counterexample"], "Holds for aliasing back ends; false for copying ones (revoke_token does not write back): proved."),
"C22": ("proved", ["C22_accepted_iff", "C22_accepted_is_registered", "C22_get_uri", "C22_response_goes_to_verified_uri", "C22_registered_uri_refused", "C22_undecoded_uri_is_used"], "URI splitting and decoding are abstract functions. Two observations proved: a registered URI with a query can be refused, and the undecoded URI is what is used."),
"C21": ("partial", ["C21_only_registered_types_partial", "C21_request_object_of_another_client"], "Proved for histories with pushed requests. False when a request object names another client (or a pushed request refers to a request object): counterexample proved."),
"C23": ("proved", ["C23_no_tokens_in_query"], ""),
"C24": ("proved", ["C24_response_contents"], "An error reply carries no code or token by construction of the model's reply type, as in the code, where the response is replaced by an error message."),
"C25": ("partial", ["C25_pushed_request_used_once", "C25_processed_is_pushed_partial", "C25_pushed_request_object_refetched"], "One-time use proved for every history. What is processed is the pushed request unless that refers to a request object, which is fetched again (counterexample)."),
"C26": ("proved", ["C26_unknown_scopes_refused", "C26_only_unknown_scopes_refused"], ""),
"C39": ("partial", ["C39_auth_time_is_request_time", "C39_session_reuse_keeps_time_partial"], "False of the code for a login cookie with a user id: the time stamp is passed under a wrong name (universal refutation proved). Holds when a session is reused."),
"C48": ("partial", ["C48_client_rules_take_precedence", "C48_provider_rules_otherwise", "C48_session_starts_with_rules", "C48_client_rules_are_discarded"], "The merge is proved; the code then overwrites the grant's rules with the provider's before any token is minted (proved), so the second half is false."),
"C50": ("partial", ["C50_subject_is_stable", "C50_pairwise_registration_ignored"], "Stable; the pairwise half is false of the code: the subject type a client registered is never used."),
"C59": ("partial", ["C59_form_determines_parameters_partial", "C59_form_injection"], "False of the code: no escaping. Holds for values without quotes."),
"C60": ("partial", ["C60_returning_browser_raises", "C60_token_cookie_raises"], "The property is false of the code: refuted for every request."),
"C61": ("partial", ["C61_unregistered_request_uri_fetched", "C61_registered_only_partial"], "False if the client registered no request URIs."),
"C62": ("partial", ["C62_pushed_uri_used_by_other_client"], "The property is false of the code."),
"C63": ("partial", ["C63_public_ids_distinct", "C63_pairwise_ids_distinct_in_sector", "C63_pairwise_ids_of_one_user", "C63_pairwise_collision"], "False across sectors (no separator); public ids and ids within one sector are distinct."),
"C36": ("proved", ["C36_claims_match_iff", "C36_empty_spec_matches_nothing", "C36_user_claims_exact", "C36_values_not_a_list"], ""),
"C37": ("partial", ["C37_no_leak_partial", "C37_claims_leak_between_sessions"], "False of the code: the claims a request asks for are merged into the client's own record and so reach later sessions (counterexample proved). Holds when claims are given as names."),
"C49": ("proved", ["C49_scope_claims_exact", "C49_fails_iff", "C49_get_claims_names", "C49_allowed_claims_exact"], ""),
"C57": ("partial", ["C57_deep_revocation_fails", "C57_deep_dependent_fails"], "The property is false of the code: for every recursion limit a reachable grant exceeds it."),
"C27": ("proved", ["C27_code_redeemed_once"], "Whole-provider histories at phase granularity (parse and process are separate steps), both back-end modes, any clock. Hypotheses: unique ';'-free grant ids, blank-free token strings. Threads inside process_request: C56."),
"C28": ("proved", ["C28_code_under_its_own_terms"], "Same histories as C27. If the authorization request had no redirect_uri none is compared."),
"C33": ("proved", ["C33_scope_never_grows", "C33_stored_scopes", "C33_introspected_scope"], "Same histories as C27. Introspection reports the grant's scope unless user data replace it (see C35)."),
"C20": ("partial", ["C20_revoked_grant_mints_nothing_partial", "C20_revoked_grant_no_response", "C20_revoked_grant_still_accepted"], "Minting half proved for every history. The second half is false of the code: userinfo and introspection do not look at the grant's revocation (counterexample proved)."),
"C29": ("partial", ["C29_processing_ignores_client", "C29_parsing_ignores_client", "C29_tokens_stay_in_session_partial", "C29_code_redeemed_by_other_client", "C29_authenticated_client_redeems_others_code"], "False of the code: neither the client id of the request nor that of the authenticated client is compared with the session's (proved for every request, and a concrete theft)."),
"C30": ("proved", ["C30_code_needs_verifier", "C30_challenge_has_configured_method", "C30_essential_end_to_end"], "The hash functions are abstract."),
"C31": ("partial", ["C31_refresh_refused_with_pkce", "C31_no_refresh_with_pkce"], "The property is false of the code when PKCE is configured: every refresh request is refused."),
"C32": ("partial", ["C32_refresh_needs_active_token_partial", "C32_use_not_registered", "C32_limit_not_enforced"], "The use of a refresh token is never registered, so max_usage is not enforced (proved)."),
"C34": ("proved", ["C34_userinfo_released_only_if"], "Every state, token and time. The value part assumes well-formed claim requests with distinct names."),
"C35": ("partial", ["C35_active_iff_partial", "C35_active_answer_partial", "C35_unstored_token_raises", "C35_unresolved_token_raises", "C35_user_data_replaces_scope", "C35_expired_or_removed_raises"], "When it answers, active is exact; it raises for expired tokens, removed sessions and unstored tokens, and user data named like a parameter replaces it (all proved)."),
"C55": ("partial", ["C55_only_configured_served_partial", "C55_default_and_explicit_class", "C55_enabled_with_true_raises"], "A grant type enabled with True or None makes every request raise (proved); only configured ones are served."),
"C56": ("partial", ["C56_pieces_are_process_request", "C56_two_threads_redeem_one_code", "C56_too_late_partial"], "The property is false of the code: two threads inside process_request redeem one code (proved). With a back end that keeps objects this needs threads that all made their tokens before any of them answered: a thread that comes later gets nothing, for any number of threads and every schedule."),
"C64": ("proved", ["C64_revoked_token_refused"], "All provider histories (hypotheses as for C27)."),
"C38": ("partial", ["C38_security_claims", "C38_acr_mismatch_refused", "C38_hashes_match_response", "C38_hash_from_user_data"], "Everything proved except that without a token returned alongside user data may supply at_hash or c_hash (counterexample). left_hash and the JWT library are abstract."),
"C53": ("partial", ["C53_signing_algorithm", "C53_algorithm_found", "C53_encryption_choice", "C53_encryption_ignored", "C53_standard_algorithm", "C53_no_standard_algorithm"], "Signing proved, and the encryption settings of userinfo responses. Encryption registered by the client is never applied to ID tokens (proved for every state)."),
"C58": ("partial", ["C58_session_binding_partial", "C58_user_data_in_token", "C58_session_id_claim_raises", "C58_ttype_claim_breaks_default_tokens", "C58_which_ttype_claims"], "The session id cannot be overridden (proved); type, scope and audience can (counterexamples)."),
"C65": ("partial", ["C65_no_id_token_with_logout_uri", "C65_id_token_otherwise_partial", "C65_unknown_client_raises"], "The property is false of the code: uuid4().get_hex() does not exist."),
"C66": ("partial", ["C66_userinfo_form_partial", "C66_enc_alone_is_ignored"], "Encryption needs both settings; with the algorithm alone the response is sent in the clear (proved)."),
"C40": ("proved", ["C40_secret_sound", "C40_no_method", "C40_request_client", "C40_secret_accepted", "C40_reported_method"], "Base64 and unquoting are abstract functions."),
"C41": ("partial", ["C41_accepted_once", "C41_audience", "C41_request_param_any_audience", "C41_fresh_assertion_refused"], "At-most-once proved for every history. The audience half is false for request_param (proved), and the key iss:jti is ambiguous, so a fresh assertion may be refused (proved)."),
"C44": ("partial", ["C44_read_needs_token_partial", "C44_issued_token_works", "C44_default_is_open", "C44_bearer_body_is_open"], "Holds with bearer_header configured; false as the endpoint is set up by default and with bearer_body (universal refutations)."),
"C67": ("partial", ["C67_no_credentials_needed", "C67_empty_configuration", "C67_credentials_needed_partial"], "The property is false of the code wherever none is allowed (universal refutation)."),
"C68": ("partial", ["C68_signed_with_secret_partial", "C68_signed_with_other_key"], "False if the key jar has an older symmetric key of the client; holds otherwise. Signature checking is abstract."),
"C42": ("partial", ["C42_redirect_rules", "C42_illegal_uri_refused", "C42_reassembles_partial", "C42_native_fragment_dropped"], "The rules are proved in both directions. Re-assembly holds where splitting and joining a URI is lossless; fragments of native clients' URIs are silently dropped (counterexample). urlparse is abstract."),
"C43": ("partial", ["C43_other_clients_unchanged", "C43_other_clients_unchanged_history", "C43_unverified_refused", "C43_failed_registration_leaves_client", "C43_request_sets_entries", "C43_administrative_entries_settable", "C43_client_grants_itself_scopes", "C43_named_client_replaced"], "Frame part proved. False: a failed registration leaves a working client behind, and the request sets every entry of the record (universal refutations)."),
"C45": ("partial", ["C45_only_supported", "C45_unsupported_refused", "C45_string_capability", "C45_string_capability_refuses_lists"], "Proved for capabilities given as lists; false for one given as a string (substring test)."),
"C69": ("partial", ["C69_credentials_work_partial", "C69_own_secret_splits"], "Proved unless the request brings its own secret, which goes into one store only (proved)."),
"C46": ("partial", ["C46_tokens_survive_logout", "C46_logout_marks_session", "C46_logout_all_partial", "C46_unknown_client_blocks_logout"], "First half false of the code: for every state, logout changes no answer of userinfo, introspection or the token endpoint (universal refutation). Second half holds for clients with a logout URI (exact), fails for the others, and fails altogether if one client is unknown."),
"C47": ("partial", ["C47_end_session_partial", "C47_foreign_client_uri", "C47_refusals"], "Everything proved except that the URI may be one of another client that the request names (counterexample)."),
"C54": ("partial", ["C54_kill_cookies_expires_nothing", "C54_kill_cookies_replaces_partial", "C54_delete_cookie"], "False of the code for every configuration (no expiry set); the cookies are replaced by useless values, and delete_cookie works (proved)."),
"C70": ("partial", ["C70_end_session_authenticates_nobody", "C70_empty_configuration_refuses"], "False of the code: universal refutation; without configuration requests are accepted."),
"C71": ("partial", ["C71_all_clients_told_partial", "C71_unreachable_client_stops_logout", "C71_iframe_address"], "Proved if every call succeeds; false otherwise (proved for every position of the failing call)."),
"C72": ("proved", ["C72_cookie_attributes"], "The text format of the expiry date is not modelled."),
"C51": ("proved", ["C51_pick_exact", "C51_default_and_values", "C51_reused_id_is_stale"], "For histories in which no id is registered again while in use; otherwise false (counterexample C51_reused_id_is_stale)."),
"C52": ("partial", ["C52_token_roundtrip", "C52_grant_roundtrip_partial", "C52_grant_limit_lost", "C52_exchange_users_lost", "C52_copied_rules_lost"], "Tokens round-trip exactly. A grant's own use count, an exchange grant's users and a copied rule set are lost (proved). The JSON library is assumed lossless."),
"C73": ("partial", ["C73_requested_acr_used_partial", "C73_unsupported_acr_raises", "C73_single_method_always_used", "C73_acr_claim_without_values_raises", "C73_single_acr_value_ignored", "C73_default_acr_raises", "C73_null_acr_raises", "C73_choosing_never_key_error", "C73_login_hint"], "Holds if there are several methods and one fits; otherwise false of the code (universal refutations)."),
"C74": ("partial", ["C74_minted_token_lifetime", "C74_constructor_lifetime", "C74_grant_lifetime", "C74_code_response_lifetime", "C74_refresh_response_lifetime", "C74_negative_lifetime_announced"],
  "All proved for positive clock values and lifetimes, except expires_in of a code response when no lifetime is configured: the token does not expire but the response announces minus the clock (proved for every such response)."),
"C75": ("partial", ["C75_granted_as_asked_partial", "C75_default_policy_grants_nothing", "C75_no_scope_no_refresh_token", "C75_userinfo_only_sub", "C75_configured_default_policy_denies"],
  "Holds for AuthzHandling. False of the default policy (Implicit): for every history it grants no scope and no claims, gives no refresh token, and refuses everything if it has any configuration."),
"C76": ("partial", ["C76_old_login_refused_partial", "C76_recent_login_accepted", "C76_uam_cookie_expires", "C76_max_age_zero_ignored", "C76_upm_answer_disables", "C76_uam_cookie_ignores_max_age"],
  "Holds for positive max_age and ordinary cookies; false of the code for max_age=0, for requests with upm_answer=true and for cookies of type uam (universal refutations)."),
"C77": ("partial", ["C77_prompt_none_partial", "C77_prompt_login_ignored", "C77_prompt_none_shows_login"],
  "prompt=login is ignored for every request (universal refutation); prompt=none is honoured for browsers without a session cookie, not for every other browser (counterexample)."),
"C78": ("partial", ["C78_plain_user_served_partial", "C78_decodable_user_raises"],
  "Proved for names that are not base64url text; false for the others, such as lisa (universal refutation)."),
"C79": ("partial", ["C79_session_of_cookie_user_partial", "C79_impersonation"],
  "Proved for names that are not base64url text; false for crafted names: a user can obtain a session of any other user (universal refutation, with a concrete run)."),
"C80": ("partial", ["C80_asked_for_user_partial", "C80_other_user_sent_to_login_partial", "C80_id_token_hint_ignored", "C80_login_hint_ignored", "C80_login_hint_raises"],
  "Hints never take effect in the code: id_token_hint is ignored, login_hint is ignored or raises (universal refutations). A user asked for by the application is honoured."),
"C81": ("partial", ["C81_search_finds_first_match", "C81_search_fails_only_if_nobody_matches", "C81_exactly_the_claims_asked_for", "C81_tel_hint", "C81_configured_lookup_useless", "C81_search_exact", "C81_search_raises", "C81_other_hints"],
  "Search, release and lookup proved; the lookup as the provider configures it never finds anybody (universal refutation)."),
"C82": ("partial", ["C82_password_form", "C82_basic_lets_nobody_in", "C82_basic_fails_so"],
  "The password form is exact; HTTP Basic and symmetric-key authentication always raise (universal refutation)."),
"C83": ("proved", ["C83_session_login_valid", "C83_validity_period", "C83_expired_login_refused"],
  "Identifiers free of the separator; a configured expires_in is not negative."),
"C84": ("proved", ["C84_authorization_served", "C84_code_request_served", "C84_userinfo_served", "C84_code_flow", "C84_refresh_request_served"],
  "Hypotheses: plain login without re-authentication or hints, response_type exactly code, identifiers free of the separator, outside functions do not fail, lifetimes not passed; refresh without PKCE (cf. C31)."),
"C85": ("partial", ["C85_other_uris_checked", "C85_response_uris", "C85_two_hashes_fail"],
  "Proved, except that a request URI with a second # makes the registration fail after the stub has been stored (cf. C43)."),
"C86": ("partial", ["C86_published_addresses", "C86_issuer_and_keys", "C86_no_other_addresses", "C86_shared_capabilities", "C86_endpoints_by_name"],
  "Proved for one provider (addresses not overridden by stated capabilities); false for two providers whose configurations share the capabilities dictionary (universal refutation)."),
"C87": ("partial", ["C87_capabilities_published_partial", "C87_endpoint_setting_published_partial", "C87_defaults_published", "C87_session_iframe", "C87_id_token_capabilities_replaced", "C87_provider_config_setting_ignored", "C87_first_endpoint_decides", "C87_document_endpoint"],
  "Proved for stated capabilities other than the ID token lists and for settings only one endpoint has; universal refutations for the rest."),
"C88": ("partial", ["C88_within_library", "C88_default_complete", "C88_default_sorted", "C88_capabilities_unchecked", "C88_none_accepted", "C88_unknown_family_no_start", "C88_lists_published", "C88_proposal_checked"],
  "Proved for lists that are not stated as capabilities; stated lists are not checked, and a library with a family unknown to the sort order keeps every provider from starting (universal refutations)."),
"C89": ("partial", ["C89_default_scopes_honoured", "C89_published_and_known", "C89_oauth2_scopes_unpublished"],
  "Proved for providers that state nothing; with a plain OAuth2 authorization endpoint nothing is published and everything allowed (universal refutation)."),
"C90": ("partial", ["C90_required_entries_partial", "C90_subject_types_missing", "C90_auth_methods_missing", "C90_refresh_not_registrable"],
  "Six of the seven required entries are always there; subject types never by default, and clients naming a subject type, an authentication method or the refresh token grant cannot register at a default provider (universal refutations)."),
"C91": ("partial", ["C91_starts_partial", "C91_needs_refresh_handler", "C91_needs_grant_types", "C91_refresh_allowed"],
  "Proved for providers with a refresh token handler and, if capabilities are stated, a list of grant types; the others do not start (universal refutations)."),
"C92": ("partial", ["C92_custom_scopes_published", "C92_custom_scope_claims", "C92_custom_scopes_allowed", "C92_custom_scopes_displace"],
  "Proved for providers that publish scopes; at a provider with a plain OAuth2 authorization endpoint adding a scope removes all others (universal refutation)."),
"C93": ("partial", ["C93_responses_not_cacheable_partial", "C93_userinfo_not_cacheable_partial", "C93_one_content_type_partial", "C93_content_type_exact", "C93_discovery_cacheable", "C93_two_content_types", "C93_callers_list_grows", "C93_callers_list_exact", "C93_discovery_content_type"],
  "No-cache headers proved for every response but discovery's; the content type is not unique for differently written header names, and the caller's list is extended in place (universal refutations)."),
"C94": ("partial", ["C94_error_hides_result_partial", "C94_error_body", "C94_error_lost"],
  "Non-interference proved; with a content_type argument the error is not sent at all (universal refutation)."),
"C95": ("partial", ["C95_success_is_delivered_partial", "C95_denial_not_delivered", "C95_no_scope_no_answer", "C95_iframe_never_says_denied"],
  "Successes are always delivered to the verified URI; no denial and no failure is (universal refutations)."),
"C96": ("partial", ["C96_response_names_issuer_client_state_partial", "C96_form_does_not_name_issuer", "C96_errors_without_state", "C96_response_parameters"],
  "Proved for successes in query or fragment; the form lacks issuer and client, errors lack the state (universal refutations)."),
"C97": ("partial", ["C97_state_and_cookie_partial", "C97_session_state_determines", "C97_without_dealer"],
  "Injectivity proved for all client ids and origins; without a cookie dealer the state does not depend on the login (universal refutation)."),
"C98": ("partial", ["C98_login_required_placement_partial", "C98_other_user_in_query", "C98_none_in_fragment"],
  "Proved for the code, implicit and hybrid flows when nobody is logged in; wrong if another user is, and for response type none (universal refutations)."),
"C99": ("partial", ["C99_reads_agree_partial", "C99_deletes_agree_partial", "C99_delete_unknown_user", "C99_removed_grant_reads_none", "C99_half_deleted"],
  "Reads and deletions agree for stores where what a key names is there; deletion of unknown users and reads of removed grants differ between back ends."),
"C100": ("partial", ["C100_only_allowed_algorithms_partial", "C100_encrypted_refused", "C100_no_lists_no_objects", "C100_by_value_unchecked", "C100_in_the_endpoint", "C100_each_kind", "C100_dictionary_of_algorithms"],
  "Signature algorithms are checked for objects by reference; objects by value are not checked at all, and encrypted ones are always refused (universal refutations)."),
"C101": ("partial", ["C101_logout_tokens_partial", "C101_single_logout_token_partial", "C101_no_subject", "C101_two_session_ids"],
  "Content proved except for the user: no token has a subject, and the session id differs between the two ways to log out (universal refutations)."),
"C102": ("partial", ["C102_sid_readable_partial", "C102_altered_refused", "C102_known_session_reveals_others", "C102_stream_positions"],
  "Decryption and injectivity proved; the initial vector is reused, so one known session id reveals all that are not longer (universal refutation, by key stream recovery)."),
"C103": ("partial", ["C103_frame_reveals_user", "C103_token_reveals_user"],
  "Refuted universally: the session id, which starts with the user's local name, is sent in clear in logout frames and in every JWT access token."),
"C104": ("partial", ["C104_state_comes_back_partial", "C104_state_lost_with_query"],
  "Proved for URIs without a query; false for all others (universal refutation)."),
"C105": ("partial", ["C105_frame_exact_partial", "C105_logout_page_injection"],
  "Proved for URIs without a quote; any text can be injected otherwise (universal refutation)."),
"C106": ("partial", ["C106_no_dangling_after_crashes_partial", "C106_killed_delete_dangles"],
  "Proved for all calls that create, change or revoke, killed at any write; false when a deletion is killed (it works from the leaves to the root)."),
"C107": ("proved", ["C107_login_after_crashes"],
  "For all histories with deletions and crashes at any write."),
"C108": ("partial", ["C108_retry_completes_on_shelve_partial", "C108_retry_fails_on_dict", "C108_client_stays_listed"],
  "On shelve a crash among the grants is repaired by deleting again; on a dict-like storage the deletion fails for ever, and a crash after the client record leaves the client listed for ever on both (universal refutations)."),
"C109": ("proved", ["C109_response_is_stored"],
  "For storages that survive the process; keys and configuration are the same after the restart."),
"C110": ("proved", ["C110_killed_code_exchange", "C110_killed_refresh", "C110_crash_can_burn_code"],
  "With C27, which also covers histories with crashes, a code is answered at most once; the last theorem shows that a crash can make it zero times."),
"C111": ("partial", ["C111_session_keeps_subject_partial", "C111_subject_changes_at_restart"],
  "Sessions keep their subject; the salt is random at each start, so a user who logs in again is a different subject (universal refutation)."),
"C112": ("partial", ["C112_only_own_sessions_change_partial", "C112_spill_is_real"],
  "For all steps of the provider, including crashes of a storage that survives. Exception: deleting one grant also writes a record under the bare client id, so a user with the name of a client is damaged (second theorem)."),
"C113": ("proved", ["C113_noninterference"],
  "For all histories with crashes. Users of the group must not be named like a client of which a single grant is deleted (C112's exception), which is part of the property's quantifier."),
"C114": ("proved", ["C114_other_users_steps_commute"],
  "Steps are phases (parse, process) of requests and session-manager calls; crashes hit everybody and do not commute."),
"C115": ("proved", ["C115_userinfo_needs_login", "C115_honest_cookie_needed"],
  "By induction over the history, back to the authentication. User names and client ids must be readable from a session id (C01). The premise on cookies is needed (second theorem)."),
"C116": ("proved", ["C116_tokens_need_login"],
  "Same premises; the token strings are those of the configured handlers, with the assumptions on the crypto in Spec/Crypto.lean."),
"C117": ("proved", ["C117_active_needs_login"],
  "Same premises."),
"C118": ("proved", ["C118_response_for_the_user"],
  "Same premises; for a storage in memory or on disk."),
"C119": ("proved", ["C119_sessions_only_from_logins", "C119_only_authorize_creates"],
  "Grant ids are unique, names can be read from session ids, cookies name a user and a session of the same user (WebRun); Props/ProviderDemo shows a history."),
"C120": ("proved", ["C120_userinfo_on_the_web", "C120_no_token_no_claims"], "Same premises."),
"C121": ("proved", ["C121_tokens_on_the_web"], "Same premises; token strings are those of the configured handlers. That the client whose secret is shown is the code's client is C29."),
"C122": ("proved", ["C122_introspection_on_the_web"], "Same premises; released claims named like the reserved entries are excluded (C35)."),
"C123": ("proved", ["C123_response_on_the_web"], "Same premises."),
"C124": ("proved", ["C124_codes_go_to_registered_uris"], "A registration request is a JSON object (distinct names); the splitting of queries gives distinct keys (parse_qs)."),
"C125": ("partial", ["C125_assertion_accepted_once", "C125_replay_after_restart"],
  "Proved for every history where the store of seen assertions is durable or there is no restart in between. False with the default storage, which is in memory (counterexample)."),
"C126": ("partial", ["C126_open_by_default", "C126_code_redeemed_without_secret", "C126_configured_is_closed_partial"],
  "False of the code: with no methods configured, credentials make no difference (universal refutation, and a history in which a confidential client's code is redeemed without its secret). Holds where secret-based methods are configured."),
"C127": ("partial", ["C127_pushed_request_is_the_clients_partial", "C127_pushed_in_anothers_name"],
  "Proved if request objects cannot change the client id. They can in the code (all their parameters replace those of the request), so the property is false (counterexample)."),
"C128": ("partial", ["C128_pushed_requests_never_expire"],
  "False of the code: expires_in is announced and not kept (universal refutation)."),
"C129": ("proved", ["C129_web_no_dangling"], "Names are not empty and contain no semicolon (GoodNames); Props/WebTree shows a history that meets this."),
"C130": ("proved", ["C130_registered_client_runs_code_flow"], "Premises: a provider set up for this (CodeFlowProvider), names without semicolon, a user name that is not base64url text (C78), redirect URI without escapes (C22), user claims that can be put together (a restriction on values is a list). The client authenticates by client_secret_post."),
"C131": ("proved", ["C131_handler_as_described", "C131_started_as_configured", "C131_start_fails_only_if", "C131_started_reads_own_tokens", "C131_defaults", "C131_start_uses_the_keys", "C131_restart_keeps_handlers", "C131_lost_keys", "C131_kind_of_own_token"], "Symbolic crypto laws; init_key_jar of cryptojwt is modelled as: the keys on disk, or else new keys which are written."),
"C132": ("partial", ["C132_half_configured_reads_nothing", "C132_refresh_may_be_absent_partial"], "False of the code: without a code handler the provider starts and every lookup raises AttributeError (universal refutation); without a refresh handler it holds."),
"C133": ("proved", ["C133_refresh_served", "C133_stays_refreshable"], "Premises: a provider set up for this (CodeFlowProvider, RefreshProvider; PKCE off, since with PKCE no refresh request is served, C31), client_secret_post, minted values new (C04). The session and refresh token of C130 meet them (refreshable_after_code; example for webCfg)."),
"C134": ("partial", ["C134_session_complete", "C134_session_info_partial", "C134_grant_and_event", "C134_single_lookups", "C134_answer_only_if", "C134_listings", "C134_answered_exactly_when", "C134_lookup_by_token", "C134_listings_want_names"], "False of the code for one combination: asked for grant and authentication event together it raises TypeError for every session (universal refutation); every other combination is proved."),
"C135": ("proved", ["C135_sessions_of_other_clients_unchanged", "C135_answers_about_other_clients_unchanged"], "Whose session a request concerns is said by the cookie, the client of the request as parsed, and the session that the code or refresh token names (not by who authenticates: C29). A logout from all clients concerns them all. Names without semicolon."),
"C136": ("proved", ["C136_tokens_are_given_out", "C136_userinfo_only_for_given_tokens", "C136_active_only_if_given"], "Premises (WebRun): names without semicolon, session ids new, abstract library laws. A request that failed after storing a token (e.g. a fault in the ID token) has no success answer, so nothing is said of its answer."),
"C137": ("proved", ["C137_code_redeemed_once_on_the_web", "C137_code_terms_on_the_web"], "Premises as C136. The granted scope is that of the request unless the Implicit grant handler is configured (which leaves the granted scope as created). The PKCE conclusion is about the code's own session (see C31 for requests mixing tokens)."),
"C138": ("partial", ["C138_faulty_request_answered_partial", "C138_faulty_uri_raises"], "False of the code for three faults of the redirect URI (fragment: URIError; registered base with another query, or no registered URI: ValueError): these raise instead (universal refutation). For the other faults it holds."),
"C139": ("proved", ["C139_granted_claims", "C139_claims_of_a_use"], "For the AuthzHandling grant handler. The client's own claims are those in the record at that time, which earlier sessions may have extended (C37)."),
"C140": ("partial", ["C140_junk_reads_as_nothing_partial", "C140_forged_signature_raises", "C140_unread_cookie_is_no_cookie_partial"], "False of the code: a three-part cookie with a wrong signature raises VerificationError (with a non-base64 one ValueError), for every signing provider and request (universal refutation). Other junk is taken as no cookie."),
"C141": ("partial", ["C141_spec_of_a_token", "C141_dead_token_has_spec"], "False of the code for the token's own state: `token.is_active is False` compares a bound method, so every revoked, expired or used-up token of an active grant has a specification (universal refutation). Contents and inactive grants: proved in full."),
"C142": ("proved", ["C142_plain_logout_served", "C142_logout_to_registered_uri_served"], "A post-logout URI without a hint is refused by the code (C47)."),
"C143": ("partial", ["C143_code_answers_partial", "C143_refresh_answers_partial", "C143_grant_type_answers", "C143_verifier_answers", "C143_redirect_answers", "C143_foreign_refresh_raises", "C143_refresh_with_odd_code", "C143_misfiled_helper"], "False of the code in three places (universal refutations): a refresh token the provider did not make raises UnknownToken, a request without refresh_token raises MissingRequiredAttribute, a token request without the redirect URI raises KeyError. For the other faults it holds."),
"C144": ("partial", ["C144_userinfo_answers_partial", "C144_userinfo_unusable", "C144_introspect_answers", "C144_userinfo_raises", "C144_userinfo_login_over"], "False of the code for userinfo requests without credentials, with an expired JWT and with a token of a removed user: these raise, in every configuration (universal refutations). For introspection see also C35."),
"C145": ("partial", ["C145_registration_verdict", "C145_accepted_iff", "C145_not_verified", "C145_refused_leaves_stub", "C145_client_as_sent", "C145_told_where_to_read", "C145_told_what_it_sent"], "The verdict is proved as an equivalence. False only for the address of the record: a request that has an entry registration_client_uri of its own is told that one (counterexample). A refused registration leaves the client's stub behind (proved, see also C43)."),
"C146": ("proved", ["C146_subject_of_type", "C146_unknown_type"], "For the session API; that the authorization endpoint always asks for public is C50."),
"C147": ("proved", ["C147_missing_entries", "C147_missing_entries_exchange", "C147_readable_iff"], "The json library's text form is abstracted: a document is a record of optional entries."),
"C148": ("proved", ["C148_form_carries_request", "C148_page_is_made_iff", "C148_page_shows_client"], "Signature laws (GoodJws) and the own keys being filed under the issuer name are hypotheses; rendering of the template is not modelled."),
"C149": ("partial", ["C149_signed_by_named_partial", "C149_client_makes_form_tokens", "C149_accepted_iff"], "False of the code: the token is checked with the keys of whoever it names as issuer, so every client with a registered key or secret can make form tokens with any content (universal refutation). Proved: nobody without a key in the jar can. cryptojwt's choice of keys is modelled from its documentation."),
"C150": ("partial", ["C150_confirmation_comes_back", "C150_only_own_keys", "C150_access_token_confirms", "C150_accepted_after_end", "C150_access_token_times"], "Round trip and origin in the provider's own keys proved. False of the code: every JWT access token signed with the same algorithm is accepted as confirmation for its session, and the end of validity is not looked at (both universal refutations)."),
"C151": ("proved", ["C151_refresh_terms_on_the_web"], "At the level of HTTP requests; histories as in C119 (WebRun). The scope is that of the request for the standard policy (C75 for the implicit one). That the usage limit of the refresh token is not counted is C32."),
"C152": ("proved", ["C152_userinfo_as_authorized"], "At the level of HTTP requests; histories as in C119 (WebRun), standard authorization policy. Distinct claim names (Python dictionaries) and well-formed restrictions are stated hypotheses of the two halves."),
"C153": ("proved", ["C153_registration_lasts"], "At the level of HTTP requests. Requests that carry their own client_secret or client_secret_expires_at are excluded (they may override the provider's, C43); registrations under an id chosen by the request (new_id false) are excluded by FreshIds. The claims entry of a client record is left out of SameRegistration."),
"C154": ("proved", ["C154_token_works_until_its_time"], "At the level of HTTP requests. New authorization requests of the same user at the same client are excluded because a second session replaces the client record and loses the first (C15). The string must be new in the storage (randomness of the handler), and no user claim may be called ttype. A lifetime that makes the expiry 0 (expires_in = -now) counts as none, as in the code (C74)."),
"C155": ("proved", ["C155_implicit_token_works_until_its_time"], "At the level of HTTP requests. New authorization requests of the same user at the same client are excluded because a second session replaces the client record and loses the first (C15). The string must be new in the storage (randomness of the handler), and no user claim may be called ttype. With the ImplicitConsent-style default scopes (gc.implicit) the session's scope is not the requested one, so that conjunct is conditional."),
"C156": ("proved", ["C156_logout_goes_to_registered_uris", "C156_registered_logout_uri_works"], "That the request may name another client than the session's is C47's counterexample; here the client meant is part of the statement. The second theorem assumes the registered URIs have different addresses (of two with the same address only the first is looked at) and that later registrations get fresh ids."),
"C157": ("proved", ["C157_new_login_ends_earlier_sessions", "C157_restart_ends_all_sessions"], "The universal form of C15's counterexample. Login cookies only: with a cookie that names a user and a session (made by the application, C60) setup_auth adds a grant to the record and leaves the others."),
"C158": ("proved", ["C158_refresh_token_works_until_its_time"], "The session's rules for refresh tokens must let them be used and give access tokens (the defaults do). The string of the token must not collide with one that is stored. Any authenticated client may use it: see C29."),
"C159": ("proved", ["C159_code_works_until_its_time"], "The session's rules for codes must let them give access tokens (and refresh tokens, if offline access was granted; the defaults do). The string of the code must not collide with one that is stored."),
"C160": ("proved", ["C160_pushed_as_sent"], "Request objects that are fetched contain no request_uri (RFC 9101), and registrations are not made under ids that somebody chose. A pushed request that refers to a request object is C25's and C127's counterexample."),
"C161": ("partial", ["C161_first_visit_partial", "C161_plain_cookie_partial", "C161_same_request_partial", "C161_new_request_partial", "C161_session_of_client_partial", "C161_other_client_locked_out", "C161_ended_session_locked_out", "C161_stray_cookie_locked_out", "C161_next_visitor_ends_sessions", "C161_unreadable_cookie_locked_out"], "First visits and returns to the same client are served. False of the code: the provider's own cookie locks the browser out of every other client, and out of the same client after the login's hour or a logout (there is no login page, so an internal error is shown); cookies of other applications do too; and each new visitor's session replaces those of the visitors before."),
"C162": ("proved", ["C162_id_token_about_login", "C162_id_token_claims", "C162_front_channel"], "Token response and authorization response. The JWT library is an arbitrary signing function; `IdTokensMade` says that the ID token input of the histories is what the model of IDToken.make gives. The claims theorem needs implicit authorization off, as in C152."),
"C163": ("proved", ["C163_introspection_as_authorized"], "Parameters: unless a claim with a parameter's name is granted (such a claim overrides the parameter, C35). Needs implicit authorization off, as C152."),
"C164": ("partial", ["C164_refused_changes_nothing_partial", "C164_failed_id_token_is_not_undone", "C164_code_is_lost"], "False of the code: when the ID token cannot be signed or encrypted the client gets invalid_request, but the tokens are stored and the code is used up (universal refutation; on the web the code is lost for good). Every other refusal leaves sessions and pending requests exactly as they were. Exceptions that escape are not counted as refusals."),
"C165": ("proved", ["C165_served_at_most_once_per_push", "C165_second_use_refused"], "Counts the requests that name the URI themselves. Requests are taken one after the other; for threads see C166."),
"C166": ("partial", ["C166_given_at_most_once_per_push_partial", "C166_given_what_was_pushed", "C166_pieces_are_do_request_uri", "C166_two_threads_one_push"], "Proved for storages whose deletion of a missing key raises (dict, InMemoryDataBase); false with ShelveDataBase, whose deletion is silent: two threads are given one pushed request, for every URI and request (proved). Reading, deleting and storing one item are atomic."),
"C167": ("proved", ["C167_as_if_alone", "C167_others_untouched", "C167_as_if_in_turn", "C167_every_thread_ends"], "User names that contain no ;; and do not end in ;. Reading and writing one storage item is atomic. What a request does to the client database (C37) is the thread's own. Token crypto laws as in C04."),
"C168": ("partial", ["C168_login_lost", "C168_others_hidden"], "False of the code: create_session looks for the user record and then stores a fresh one, so everything other threads stored for the user in between, at other clients, is hidden (proved for all users, clients and storages); end to end, one of two codes handed out cannot be redeemed although in turn it can."),
"C169": ("partial", ["C169_any_number_of_threads_accepted", "C169_in_turn_once_partial", "C169_pieces_are_jti_use"], "False of the code: the key is looked up and then noted, so any number of threads accept one assertion (proved for every unseen key). One after the other at most one is accepted (C41)."),
"C170": ("partial", ["C170_stays_revoked_partial", "C170_no_token_afterwards_partial", "C170_revocation_undone"], "Proved for back ends that keep objects, for code exchanges in the pieces of C56 and revocations in one piece, on storages without empty names (as all reachable ones are). False for back ends that store copies: the thread writes its old copy back and the grant is active again, with working tokens (proved)."),
"C171": ("partial", ["C171_rules_as_if_copied", "C171_rules_never_change", "C171_shared_between_types_changes"], "Proved where every rules dictionary is written down for one token type, for every history; this also justifies the copies used in the rest of the model. False if one dictionary is used for two types (YAML anchors): minting a code then limits the access tokens made before (universal refutation). Rules that an application passes to mint_token itself are not covered."),
"C172": ("partial", ["C172_order_of_importance_partial", "C172_defaults_otherwise", "C172_asking_is_harmless_partial", "C172_asking_changes_the_answers", "C172_defaults_are_not_filled_in", "C172_default_rules"], "The order grant, client, provider is proved. False of the code: the module's defaults and the clients' records are changed in place, so one grant's rules become the answer for all others; and defaults are not filled in (universal refutations). Nothing in the package calls the function."),
"C173": ("partial", ["C173_encrypted_exact", "C173_signed_exact_partial", "C173_others_are_refused", "C173_signed_differs"], "Proved for encrypted tokens and for signed ones with a positive lifetime. False of signed tokens with a negative lifetime (expired at once), and a signed token handler answers for every token made with the key (universal refutations). The JWT library leaves out the expiry for lifetime 0, which is not modelled."),
"C174": ("partial", ["C174_nothing_taken_back_partial", "C174_answers_are_stored_partial", "C174_pieces_are_process_request", "C174_tokens_lost"], "Proved for back ends that keep objects, for any number of threads in the two helpers in the pieces of the model (which are proved to make up process_request), with revocations, logins and logouts in one piece each. False of the code with a back end that stores copies: of two concurrent refreshes one loses its tokens. Interruptions inside a piece are not considered."),
"C175": ("partial", ["C175_revoked_in_time_partial", "C175_copies_ignore_revocation"], "Proved for back ends that keep objects. False of the code with a back end that stores copies: the thread works on its copy (and revoke_token stores nothing)."),
"C176": ("proved", ["C176_logout_is_not_undone"], "For both kinds of back end, any number of threads in the two helpers of the token endpoint, in the pieces of the model (C174_pieces_are_process_request, C56_pieces_are_process_request). Logins, logouts and revocations happen in one piece; interruptions inside a piece (between a read and a write of the same record) are not considered."),
}
