{
 "claims": [
  {
   "property": "C01",
   "status": "proved",
   "theorems": [
    "Verif.C01_session_id_roundtrip",
    "Verif.C01_trailing_semicolon_is_misread"
   ],
   "note": "Exact iff: a path round-trips iff no id contains ';;' or (except the last) ends in ';'; all ids made by the code (uuid hex) and ';'-free user and client ids qualify. Second theorem: the boundary is real."
  },
  {
   "property": "C02",
   "status": "proved",
   "theorems": [
    "Verif.C02_paths_have_distinct_keys",
    "Verif.C02_collision_with_semicolons"
   ],
   "note": "Injective for encodable paths; collision witness otherwise."
  },
  {
   "property": "C03",
   "status": "proved",
   "theorems": [
    "Verif.C03_lv_roundtrip",
    "Verif.C03_lv_roundtrip_exact",
    "Verif.C03_lv_unpack_total"
   ],
   "note": "Roundtrip is exact iff the last value does not end in white space (lv_unpack strips)."
  },
  {
   "property": "C04",
   "status": "proved",
   "theorems": [
    "Verif.C04_default_token_resolves",
    "Verif.C04_jwt_token_resolves",
    "Verif.C04_foreign_token_refused",
    "Verif.C04_padding"
   ],
   "note": "Symbolic crypto laws are hypotheses (Spec/Crypto.lean)."
  },
  {
   "property": "C05",
   "status": "proved",
   "theorems": [
    "Verif.C05_cookie_roundtrip"
   ],
   "note": "Crypto laws are hypotheses; values without the separators."
  },
  {
   "property": "C06",
   "status": "proved",
   "theorems": [
    "Verif.C06_no_recut"
   ],
   "note": "Symbolic MAC: unforgeability is a hypothesis."
  },
  {
   "property": "C07",
   "status": "proved",
   "theorems": [
    "Verif.C07_token_active_iff",
    "Verif.C07_grant_active_iff"
   ],
   "note": ""
  },
  {
   "property": "C08",
   "status": "proved",
   "theorems": [
    "Verif.C08_mint_succeeds_iff",
    "Verif.C08_mint_effect",
    "Verif.C08_failed_mint_changes_nothing",
    "Verif.C08_inactive_mints_nothing"
   ],
   "note": ""
  },
  {
   "property": "C09",
   "status": "proved",
   "theorems": [
    "Verif.C09_tokens_form_a_forest"
   ],
   "note": "Under fresh, non-empty token strings (hypothesis of GrantReach)."
  },
  {
   "property": "C10",
   "status": "proved",
   "theorems": [
    "Verif.C10_recursive_revocation_exact",
    "Verif.C10_revoke_dependent_exact",
    "Verif.C10_non_recursive_exact",
    "Verif.C10_revoke_all",
    "Verif.C10_value_and_base_exact",
    "Verif.C10_base_non_recursive_exact",
    "Verif.C10_base_recursive_exact"
   ],
   "note": "Recursion limit larger than the number of tokens is a hypothesis; beyond it see C57."
  },
  {
   "property": "C11",
   "status": "proved",
   "theorems": [
    "Verif.C11_revoked_forever",
    "Verif.C11_used_code_forever",
    "Verif.C11_lookup_finds_it_dead"
   ],
   "note": ""
  },
  {
   "property": "C12",
   "status": "proved",
   "theorems": [
    "Verif.C12_code_is_single_use",
    "Verif.C12_codes_in_grants_are_single_use"
   ],
   "note": ""
  },
  {
   "property": "C13",
   "status": "proved",
   "theorems": [
    "Verif.C13_read_own_write",
    "Verif.C13_other_paths_unchanged",
    "Verif.C13_grant_survives_other_writes",
    "Verif.C13_write_makes_parents"
   ],
   "note": "Over ';'-free non-empty ids and typed stores."
  },
  {
   "property": "C14",
   "status": "proved",
   "theorems": [
    "Verif.C14_no_dangling_references",
    "Verif.C14_histories_are_typed"
   ],
   "note": "All histories of session-manager calls from the empty store, both back-end modes."
  },
  {
   "property": "C15",
   "status": "partial",
   "theorems": [
    "Verif.C15_created_session_usable_partial",
    "Verif.C15_second_session_loses_first"
   ],
   "note": "False of the code for earlier sessions of the same user and client: create_session overwrites the client record (counterexample proved). Everything else proved."
  },
  {
   "property": "C16",
   "status": "partial",
   "theorems": [
    "Verif.C16_client_delete_exact",
    "Verif.C16_client_delete_in_histories",
    "Verif.C16_grant_delete_partial",
    "Verif.C16_phantom_user",
    "Verif.C16_other_user_destroyed",
    "Verif.C16_listing_broken_after_grant_delete",
    "Verif.C16_delete_after_add_grant_raises"
   ],
   "note": "Client-session deletion proved exact. Single-grant deletion is wrong in the code (writes the client record under the wrong key): counterexamples proved, what holds is in the partial theorem."
  },
  {
   "property": "C17",
   "status": "partial",
   "theorems": [
    "Verif.C17_deleted_grant_comes_back",
    "Verif.C17_deleted_stays_deleted_partial"
   ],
   "note": "False of the code: deleting a user leaves client records behind and create_grant makes them readable again. Holds if only create_session is used afterwards."
  },
  {
   "property": "C18",
   "status": "partial",
   "theorems": [
    "Verif.C18_listing_exact_partial",
    "Verif.C18_add_grant_listed_twice",
    "Verif.C18_second_session_hides_first"
   ],
   "note": "False of the code for add_grant (duplicates) and repeated create_session (hides); exact for everything else."
  },
  {
   "property": "C19",
   "status": "partial",
   "theorems": [
    "Verif.C19_revocation_durable_aliased_partial",
    "Verif.C19_unknown_token_raises",
    "Verif.C19_revocation_lost_on_copying_backend",
    "Verif.C19_counterexample"
   ],
   "note": "Holds for aliasing back ends; false for copying ones (revoke_token does not write back): proved."
  },
  {
   "property": "C20",
   "status": "partial",
   "theorems": [
    "Verif.C20_revoked_grant_mints_nothing_partial",
    "Verif.C20_revoked_grant_no_response",
    "Verif.C20_revoked_grant_still_accepted"
   ],
   "note": "Minting half proved for every history. The second half is false of the code: userinfo and introspection do not look at the grant's revocation (counterexample proved)."
  },
  {
   "property": "C21",
   "status": "partial",
   "theorems": [
    "Verif.C21_only_registered_types_partial",
    "Verif.C21_request_object_of_another_client"
   ],
   "note": "Proved for histories with pushed requests. False when a request object names another client (or a pushed request refers to a request object): counterexample proved."
  },
  {
   "property": "C22",
   "status": "proved",
   "theorems": [
    "Verif.C22_accepted_iff",
    "Verif.C22_accepted_is_registered",
    "Verif.C22_get_uri",
    "Verif.C22_response_goes_to_verified_uri",
    "Verif.C22_registered_uri_refused",
    "Verif.C22_undecoded_uri_is_used"
   ],
   "note": "URI splitting and decoding are abstract functions. Two observations proved: a registered URI with a query can be refused, and the undecoded URI is what is used."
  },
  {
   "property": "C23",
   "status": "proved",
   "theorems": [
    "Verif.C23_no_tokens_in_query"
   ],
   "note": ""
  },
  {
   "property": "C24",
   "status": "proved",
   "theorems": [
    "Verif.C24_response_contents"
   ],
   "note": "An error reply carries no code or token by construction of the model's reply type, as in the code, where the response is replaced by an error message."
  },
  {
   "property": "C25",
   "status": "partial",
   "theorems": [
    "Verif.C25_pushed_request_used_once",
    "Verif.C25_processed_is_pushed_partial",
    "Verif.C25_pushed_request_object_refetched"
   ],
   "note": "One-time use proved for every history. What is processed is the pushed request unless that refers to a request object, which is fetched again (counterexample)."
  },
  {
   "property": "C26",
   "status": "proved",
   "theorems": [
    "Verif.C26_unknown_scopes_refused",
    "Verif.C26_only_unknown_scopes_refused"
   ],
   "note": ""
  },
  {
   "property": "C27",
   "status": "proved",
   "theorems": [
    "Verif.C27_code_redeemed_once"
   ],
   "note": "Whole-provider histories at phase granularity (parse and process are separate steps), both back-end modes, any clock. Hypotheses: unique ';'-free grant ids, blank-free token strings. Threads inside process_request: C56."
  },
  {
   "property": "C28",
   "status": "proved",
   "theorems": [
    "Verif.C28_code_under_its_own_terms"
   ],
   "note": "Same histories as C27. If the authorization request had no redirect_uri none is compared."
  },
  {
   "property": "C29",
   "status": "partial",
   "theorems": [
    "Verif.C29_processing_ignores_client",
    "Verif.C29_parsing_ignores_client",
    "Verif.C29_tokens_stay_in_session_partial",
    "Verif.C29_code_redeemed_by_other_client",
    "Verif.C29_authenticated_client_redeems_others_code"
   ],
   "note": "False of the code: neither the client id of the request nor that of the authenticated client is compared with the session's (proved for every request, and a concrete theft)."
  },
  {
   "property": "C30",
   "status": "proved",
   "theorems": [
    "Verif.C30_code_needs_verifier",
    "Verif.C30_challenge_has_configured_method",
    "Verif.C30_essential_end_to_end"
   ],
   "note": "The hash functions are abstract."
  },
  {
   "property": "C31",
   "status": "partial",
   "theorems": [
    "Verif.C31_refresh_refused_with_pkce",
    "Verif.C31_no_refresh_with_pkce"
   ],
   "note": "The property is false of the code when PKCE is configured: every refresh request is refused."
  },
  {
   "property": "C32",
   "status": "partial",
   "theorems": [
    "Verif.C32_refresh_needs_active_token_partial",
    "Verif.C32_use_not_registered",
    "Verif.C32_limit_not_enforced"
   ],
   "note": "The use of a refresh token is never registered, so max_usage is not enforced (proved)."
  },
  {
   "property": "C33",
   "status": "proved",
   "theorems": [
    "Verif.C33_scope_never_grows",
    "Verif.C33_stored_scopes",
    "Verif.C33_introspected_scope"
   ],
   "note": "Same histories as C27. Introspection reports the grant's scope unless user data replace it (see C35)."
  },
  {
   "property": "C34",
   "status": "proved",
   "theorems": [
    "Verif.C34_userinfo_released_only_if"
   ],
   "note": "Every state, token and time. The value part assumes well-formed claim requests with distinct names."
  },
  {
   "property": "C35",
   "status": "partial",
   "theorems": [
    "Verif.C35_active_iff_partial",
    "Verif.C35_active_answer_partial",
    "Verif.C35_unstored_token_raises",
    "Verif.C35_unresolved_token_raises",
    "Verif.C35_user_data_replaces_scope",
    "Verif.C35_expired_or_removed_raises"
   ],
   "note": "When it answers, active is exact; it raises for expired tokens, removed sessions and unstored tokens, and user data named like a parameter replaces it (all proved)."
  },
  {
   "property": "C36",
   "status": "proved",
   "theorems": [
    "Verif.C36_claims_match_iff",
    "Verif.C36_empty_spec_matches_nothing",
    "Verif.C36_user_claims_exact",
    "Verif.C36_values_not_a_list"
   ],
   "note": ""
  },
  {
   "property": "C37",
   "status": "partial",
   "theorems": [
    "Verif.C37_no_leak_partial",
    "Verif.C37_claims_leak_between_sessions"
   ],
   "note": "False of the code: the claims a request asks for are merged into the client's own record and so reach later sessions (counterexample proved). Holds when claims are given as names."
  },
  {
   "property": "C38",
   "status": "partial",
   "theorems": [
    "Verif.C38_security_claims",
    "Verif.C38_acr_mismatch_refused",
    "Verif.C38_hashes_match_response",
    "Verif.C38_hash_from_user_data"
   ],
   "note": "Everything proved except that without a token returned alongside user data may supply at_hash or c_hash (counterexample). left_hash and the JWT library are abstract."
  },
  {
   "property": "C39",
   "status": "partial",
   "theorems": [
    "Verif.C39_auth_time_is_request_time",
    "Verif.C39_session_reuse_keeps_time_partial"
   ],
   "note": "False of the code for a login cookie with a user id: the time stamp is passed under a wrong name (universal refutation proved). Holds when a session is reused."
  },
  {
   "property": "C40",
   "status": "proved",
   "theorems": [
    "Verif.C40_secret_sound",
    "Verif.C40_no_method",
    "Verif.C40_request_client",
    "Verif.C40_secret_accepted",
    "Verif.C40_reported_method"
   ],
   "note": "Base64 and unquoting are abstract functions."
  },
  {
   "property": "C41",
   "status": "partial",
   "theorems": [
    "Verif.C41_accepted_once",
    "Verif.C41_audience",
    "Verif.C41_request_param_any_audience",
    "Verif.C41_fresh_assertion_refused"
   ],
   "note": "At-most-once proved for every history. The audience half is false for request_param (proved), and the key iss:jti is ambiguous, so a fresh assertion may be refused (proved)."
  },
  {
   "property": "C42",
   "status": "partial",
   "theorems": [
    "Verif.C42_redirect_rules",
    "Verif.C42_illegal_uri_refused",
    "Verif.C42_reassembles_partial",
    "Verif.C42_native_fragment_dropped"
   ],
   "note": "The rules are proved in both directions. Re-assembly holds where splitting and joining a URI is lossless; fragments of native clients' URIs are silently dropped (counterexample). urlparse is abstract."
  },
  {
   "property": "C43",
   "status": "partial",
   "theorems": [
    "Verif.C43_other_clients_unchanged",
    "Verif.C43_other_clients_unchanged_history",
    "Verif.C43_unverified_refused",
    "Verif.C43_failed_registration_leaves_client",
    "Verif.C43_request_sets_entries",
    "Verif.C43_administrative_entries_settable",
    "Verif.C43_client_grants_itself_scopes",
    "Verif.C43_named_client_replaced"
   ],
   "note": "Frame part proved. False: a failed registration leaves a working client behind, and the request sets every entry of the record (universal refutations)."
  },
  {
   "property": "C44",
   "status": "partial",
   "theorems": [
    "Verif.C44_read_needs_token_partial",
    "Verif.C44_issued_token_works",
    "Verif.C44_default_is_open",
    "Verif.C44_bearer_body_is_open"
   ],
   "note": "Holds with bearer_header configured; false as the endpoint is set up by default and with bearer_body (universal refutations)."
  },
  {
   "property": "C45",
   "status": "partial",
   "theorems": [
    "Verif.C45_only_supported",
    "Verif.C45_unsupported_refused",
    "Verif.C45_string_capability",
    "Verif.C45_string_capability_refuses_lists"
   ],
   "note": "Proved for capabilities given as lists; false for one given as a string (substring test)."
  },
  {
   "property": "C46",
   "status": "partial",
   "theorems": [
    "Verif.C46_tokens_survive_logout",
    "Verif.C46_logout_marks_session",
    "Verif.C46_logout_all_partial",
    "Verif.C46_unknown_client_blocks_logout"
   ],
   "note": "First half false of the code: for every state, logout changes no answer of userinfo, introspection or the token endpoint (universal refutation). Second half holds for clients with a logout URI (exact), fails for the others, and fails altogether if one client is unknown."
  },
  {
   "property": "C47",
   "status": "partial",
   "theorems": [
    "Verif.C47_end_session_partial",
    "Verif.C47_foreign_client_uri",
    "Verif.C47_refusals"
   ],
   "note": "Everything proved except that the URI may be one of another client that the request names (counterexample)."
  },
  {
   "property": "C48",
   "status": "partial",
   "theorems": [
    "Verif.C48_client_rules_take_precedence",
    "Verif.C48_provider_rules_otherwise",
    "Verif.C48_session_starts_with_rules",
    "Verif.C48_client_rules_are_discarded"
   ],
   "note": "The merge is proved; the code then overwrites the grant's rules with the provider's before any token is minted (proved), so the second half is false."
  },
  {
   "property": "C49",
   "status": "proved",
   "theorems": [
    "Verif.C49_scope_claims_exact",
    "Verif.C49_fails_iff",
    "Verif.C49_get_claims_names",
    "Verif.C49_allowed_claims_exact"
   ],
   "note": ""
  },
  {
   "property": "C50",
   "status": "partial",
   "theorems": [
    "Verif.C50_subject_is_stable",
    "Verif.C50_pairwise_registration_ignored"
   ],
   "note": "Stable; the pairwise half is false of the code: the subject type a client registered is never used."
  },
  {
   "property": "C51",
   "status": "proved",
   "theorems": [
    "Verif.C51_pick_exact",
    "Verif.C51_default_and_values",
    "Verif.C51_reused_id_is_stale"
   ],
   "note": "For histories in which no id is registered again while in use; otherwise false (counterexample C51_reused_id_is_stale)."
  },
  {
   "property": "C52",
   "status": "partial",
   "theorems": [
    "Verif.C52_token_roundtrip",
    "Verif.C52_grant_roundtrip_partial",
    "Verif.C52_grant_limit_lost",
    "Verif.C52_exchange_users_lost",
    "Verif.C52_copied_rules_lost"
   ],
   "note": "Tokens round-trip exactly. A grant's own use count, an exchange grant's users and a copied rule set are lost (proved). The JSON library is assumed lossless."
  },
  {
   "property": "C53",
   "status": "partial",
   "theorems": [
    "Verif.C53_signing_algorithm",
    "Verif.C53_algorithm_found",
    "Verif.C53_encryption_choice",
    "Verif.C53_encryption_ignored",
    "Verif.C53_standard_algorithm",
    "Verif.C53_no_standard_algorithm"
   ],
   "note": "Signing proved, and the encryption settings of userinfo responses. Encryption registered by the client is never applied to ID tokens (proved for every state)."
  },
  {
   "property": "C54",
   "status": "partial",
   "theorems": [
    "Verif.C54_kill_cookies_expires_nothing",
    "Verif.C54_kill_cookies_replaces_partial",
    "Verif.C54_delete_cookie"
   ],
   "note": "False of the code for every configuration (no expiry set); the cookies are replaced by useless values, and delete_cookie works (proved)."
  },
  {
   "property": "C55",
   "status": "partial",
   "theorems": [
    "Verif.C55_only_configured_served_partial",
    "Verif.C55_default_and_explicit_class",
    "Verif.C55_enabled_with_true_raises"
   ],
   "note": "A grant type enabled with True or None makes every request raise (proved); only configured ones are served."
  },
  {
   "property": "C56",
   "status": "partial",
   "theorems": [
    "Verif.C56_pieces_are_process_request",
    "Verif.C56_two_threads_redeem_one_code",
    "Verif.C56_too_late_partial"
   ],
   "note": "The property is false of the code: two threads inside process_request redeem one code (proved). With a back end that keeps objects this needs threads that all made their tokens before any of them answered: a thread that comes later gets nothing, for any number of threads and every schedule."
  },
  {
   "property": "C57",
   "status": "partial",
   "theorems": [
    "Verif.C57_deep_revocation_fails",
    "Verif.C57_deep_dependent_fails"
   ],
   "note": "The property is false of the code: for every recursion limit a reachable grant exceeds it."
  },
  {
   "property": "C58",
   "status": "partial",
   "theorems": [
    "Verif.C58_session_binding_partial",
    "Verif.C58_user_data_in_token",
    "Verif.C58_session_id_claim_raises",
    "Verif.C58_ttype_claim_breaks_default_tokens",
    "Verif.C58_which_ttype_claims"
   ],
   "note": "The session id cannot be overridden (proved); type, scope and audience can (counterexamples)."
  },
  {
   "property": "C59",
   "status": "partial",
   "theorems": [
    "Verif.C59_form_determines_parameters_partial",
    "Verif.C59_form_injection"
   ],
   "note": "False of the code: no escaping. Holds for values without quotes."
  },
  {
   "property": "C60",
   "status": "partial",
   "theorems": [
    "Verif.C60_returning_browser_raises",
    "Verif.C60_token_cookie_raises"
   ],
   "note": "The property is false of the code: refuted for every request."
  },
  {
   "property": "C61",
   "status": "partial",
   "theorems": [
    "Verif.C61_unregistered_request_uri_fetched",
    "Verif.C61_registered_only_partial"
   ],
   "note": "False if the client registered no request URIs."
  },
  {
   "property": "C62",
   "status": "partial",
   "theorems": [
    "Verif.C62_pushed_uri_used_by_other_client"
   ],
   "note": "The property is false of the code."
  },
  {
   "property": "C63",
   "status": "partial",
   "theorems": [
    "Verif.C63_public_ids_distinct",
    "Verif.C63_pairwise_ids_distinct_in_sector",
    "Verif.C63_pairwise_ids_of_one_user",
    "Verif.C63_pairwise_collision"
   ],
   "note": "False across sectors (no separator); public ids and ids within one sector are distinct."
  },
  {
   "property": "C64",
   "status": "proved",
   "theorems": [
    "Verif.C64_revoked_token_refused"
   ],
   "note": "All provider histories (hypotheses as for C27)."
  },
  {
   "property": "C65",
   "status": "partial",
   "theorems": [
    "Verif.C65_no_id_token_with_logout_uri",
    "Verif.C65_id_token_otherwise_partial",
    "Verif.C65_unknown_client_raises"
   ],
   "note": "The property is false of the code: uuid4().get_hex() does not exist."
  },
  {
   "property": "C66",
   "status": "partial",
   "theorems": [
    "Verif.C66_userinfo_form_partial",
    "Verif.C66_enc_alone_is_ignored"
   ],
   "note": "Encryption needs both settings; with the algorithm alone the response is sent in the clear (proved)."
  },
  {
   "property": "C67",
   "status": "partial",
   "theorems": [
    "Verif.C67_no_credentials_needed",
    "Verif.C67_empty_configuration",
    "Verif.C67_credentials_needed_partial"
   ],
   "note": "The property is false of the code wherever none is allowed (universal refutation)."
  },
  {
   "property": "C68",
   "status": "partial",
   "theorems": [
    "Verif.C68_signed_with_secret_partial",
    "Verif.C68_signed_with_other_key"
   ],
   "note": "False if the key jar has an older symmetric key of the client; holds otherwise. Signature checking is abstract."
  },
  {
   "property": "C69",
   "status": "partial",
   "theorems": [
    "Verif.C69_credentials_work_partial",
    "Verif.C69_own_secret_splits"
   ],
   "note": "Proved unless the request brings its own secret, which goes into one store only (proved)."
  },
  {
   "property": "C70",
   "status": "partial",
   "theorems": [
    "Verif.C70_end_session_authenticates_nobody",
    "Verif.C70_empty_configuration_refuses"
   ],
   "note": "False of the code: universal refutation; without configuration requests are accepted."
  },
  {
   "property": "C71",
   "status": "partial",
   "theorems": [
    "Verif.C71_all_clients_told_partial",
    "Verif.C71_unreachable_client_stops_logout",
    "Verif.C71_iframe_address"
   ],
   "note": "Proved if every call succeeds; false otherwise (proved for every position of the failing call)."
  },
  {
   "property": "C72",
   "status": "proved",
   "theorems": [
    "Verif.C72_cookie_attributes"
   ],
   "note": "The text format of the expiry date is not modelled."
  },
  {
   "property": "C73",
   "status": "partial",
   "theorems": [
    "Verif.C73_requested_acr_used_partial",
    "Verif.C73_unsupported_acr_raises",
    "Verif.C73_single_method_always_used",
    "Verif.C73_acr_claim_without_values_raises",
    "Verif.C73_single_acr_value_ignored",
    "Verif.C73_default_acr_raises",
    "Verif.C73_null_acr_raises",
    "Verif.C73_choosing_never_key_error",
    "Verif.C73_login_hint"
   ],
   "note": "Holds if there are several methods and one fits; otherwise false of the code (universal refutations)."
  },
  {
   "property": "C74",
   "status": "partial",
   "theorems": [
    "Verif.C74_minted_token_lifetime",
    "Verif.C74_constructor_lifetime",
    "Verif.C74_grant_lifetime",
    "Verif.C74_code_response_lifetime",
    "Verif.C74_refresh_response_lifetime",
    "Verif.C74_negative_lifetime_announced"
   ],
   "note": "All proved for positive clock values and lifetimes, except expires_in of a code response when no lifetime is configured: the token does not expire but the response announces minus the clock (proved for every such response)."
  },
  {
   "property": "C75",
   "status": "partial",
   "theorems": [
    "Verif.C75_granted_as_asked_partial",
    "Verif.C75_default_policy_grants_nothing",
    "Verif.C75_no_scope_no_refresh_token",
    "Verif.C75_userinfo_only_sub",
    "Verif.C75_configured_default_policy_denies"
   ],
   "note": "Holds for AuthzHandling. False of the default policy (Implicit): for every history it grants no scope and no claims, gives no refresh token, and refuses everything if it has any configuration."
  },
  {
   "property": "C76",
   "status": "partial",
   "theorems": [
    "Verif.C76_old_login_refused_partial",
    "Verif.C76_recent_login_accepted",
    "Verif.C76_uam_cookie_expires",
    "Verif.C76_max_age_zero_ignored",
    "Verif.C76_upm_answer_disables",
    "Verif.C76_uam_cookie_ignores_max_age"
   ],
   "note": "Holds for positive max_age and ordinary cookies; false of the code for max_age=0, for requests with upm_answer=true and for cookies of type uam (universal refutations)."
  },
  {
   "property": "C77",
   "status": "partial",
   "theorems": [
    "Verif.C77_prompt_none_partial",
    "Verif.C77_prompt_login_ignored",
    "Verif.C77_prompt_none_shows_login"
   ],
   "note": "prompt=login is ignored for every request (universal refutation); prompt=none is honoured for browsers without a session cookie, not for every other browser (counterexample)."
  },
  {
   "property": "C78",
   "status": "partial",
   "theorems": [
    "Verif.C78_plain_user_served_partial",
    "Verif.C78_decodable_user_raises"
   ],
   "note": "Proved for names that are not base64url text; false for the others, such as lisa (universal refutation)."
  },
  {
   "property": "C79",
   "status": "partial",
   "theorems": [
    "Verif.C79_session_of_cookie_user_partial",
    "Verif.C79_impersonation"
   ],
   "note": "Proved for names that are not base64url text; false for crafted names: a user can obtain a session of any other user (universal refutation, with a concrete run)."
  },
  {
   "property": "C80",
   "status": "partial",
   "theorems": [
    "Verif.C80_asked_for_user_partial",
    "Verif.C80_other_user_sent_to_login_partial",
    "Verif.C80_id_token_hint_ignored",
    "Verif.C80_login_hint_ignored",
    "Verif.C80_login_hint_raises"
   ],
   "note": "Hints never take effect in the code: id_token_hint is ignored, login_hint is ignored or raises (universal refutations). A user asked for by the application is honoured."
  },
  {
   "property": "C81",
   "status": "partial",
   "theorems": [
    "Verif.C81_search_finds_first_match",
    "Verif.C81_search_fails_only_if_nobody_matches",
    "Verif.C81_exactly_the_claims_asked_for",
    "Verif.C81_tel_hint",
    "Verif.C81_configured_lookup_useless",
    "Verif.C81_search_exact",
    "Verif.C81_search_raises",
    "Verif.C81_other_hints"
   ],
   "note": "Search, release and lookup proved; the lookup as the provider configures it never finds anybody (universal refutation)."
  },
  {
   "property": "C82",
   "status": "partial",
   "theorems": [
    "Verif.C82_password_form",
    "Verif.C82_basic_lets_nobody_in",
    "Verif.C82_basic_fails_so"
   ],
   "note": "The password form is exact; HTTP Basic and symmetric-key authentication always raise (universal refutation)."
  },
  {
   "property": "C83",
   "status": "proved",
   "theorems": [
    "Verif.C83_session_login_valid",
    "Verif.C83_validity_period",
    "Verif.C83_expired_login_refused"
   ],
   "note": "Identifiers free of the separator; a configured expires_in is not negative."
  },
  {
   "property": "C84",
   "status": "proved",
   "theorems": [
    "Verif.C84_authorization_served",
    "Verif.C84_code_request_served",
    "Verif.C84_userinfo_served",
    "Verif.C84_code_flow",
    "Verif.C84_refresh_request_served"
   ],
   "note": "Hypotheses: plain login without re-authentication or hints, response_type exactly code, identifiers free of the separator, outside functions do not fail, lifetimes not passed; refresh without PKCE (cf. C31)."
  },
  {
   "property": "C85",
   "status": "partial",
   "theorems": [
    "Verif.C85_other_uris_checked",
    "Verif.C85_response_uris",
    "Verif.C85_two_hashes_fail"
   ],
   "note": "Proved, except that a request URI with a second # makes the registration fail after the stub has been stored (cf. C43)."
  },
  {
   "property": "C86",
   "status": "partial",
   "theorems": [
    "Verif.C86_published_addresses",
    "Verif.C86_issuer_and_keys",
    "Verif.C86_no_other_addresses",
    "Verif.C86_shared_capabilities",
    "Verif.C86_endpoints_by_name"
   ],
   "note": "Proved for one provider (addresses not overridden by stated capabilities); false for two providers whose configurations share the capabilities dictionary (universal refutation)."
  },
  {
   "property": "C87",
   "status": "partial",
   "theorems": [
    "Verif.C87_capabilities_published_partial",
    "Verif.C87_endpoint_setting_published_partial",
    "Verif.C87_defaults_published",
    "Verif.C87_session_iframe",
    "Verif.C87_id_token_capabilities_replaced",
    "Verif.C87_provider_config_setting_ignored",
    "Verif.C87_first_endpoint_decides",
    "Verif.C87_document_endpoint"
   ],
   "note": "Proved for stated capabilities other than the ID token lists and for settings only one endpoint has; universal refutations for the rest."
  },
  {
   "property": "C88",
   "status": "partial",
   "theorems": [
    "Verif.C88_within_library",
    "Verif.C88_default_complete",
    "Verif.C88_default_sorted",
    "Verif.C88_capabilities_unchecked",
    "Verif.C88_none_accepted",
    "Verif.C88_unknown_family_no_start",
    "Verif.C88_lists_published",
    "Verif.C88_proposal_checked"
   ],
   "note": "Proved for lists that are not stated as capabilities; stated lists are not checked, and a library with a family unknown to the sort order keeps every provider from starting (universal refutations)."
  },
  {
   "property": "C89",
   "status": "partial",
   "theorems": [
    "Verif.C89_default_scopes_honoured",
    "Verif.C89_published_and_known",
    "Verif.C89_oauth2_scopes_unpublished"
   ],
   "note": "Proved for providers that state nothing; with a plain OAuth2 authorization endpoint nothing is published and everything allowed (universal refutation)."
  },
  {
   "property": "C90",
   "status": "partial",
   "theorems": [
    "Verif.C90_required_entries_partial",
    "Verif.C90_subject_types_missing",
    "Verif.C90_auth_methods_missing",
    "Verif.C90_refresh_not_registrable"
   ],
   "note": "Six of the seven required entries are always there; subject types never by default, and clients naming a subject type, an authentication method or the refresh token grant cannot register at a default provider (universal refutations)."
  },
  {
   "property": "C91",
   "status": "partial",
   "theorems": [
    "Verif.C91_starts_partial",
    "Verif.C91_needs_refresh_handler",
    "Verif.C91_needs_grant_types",
    "Verif.C91_refresh_allowed"
   ],
   "note": "Proved for providers with a refresh token handler and, if capabilities are stated, a list of grant types; the others do not start (universal refutations)."
  },
  {
   "property": "C92",
   "status": "partial",
   "theorems": [
    "Verif.C92_custom_scopes_published",
    "Verif.C92_custom_scope_claims",
    "Verif.C92_custom_scopes_allowed",
    "Verif.C92_custom_scopes_displace"
   ],
   "note": "Proved for providers that publish scopes; at a provider with a plain OAuth2 authorization endpoint adding a scope removes all others (universal refutation)."
  },
  {
   "property": "C93",
   "status": "partial",
   "theorems": [
    "Verif.C93_responses_not_cacheable_partial",
    "Verif.C93_userinfo_not_cacheable_partial",
    "Verif.C93_one_content_type_partial",
    "Verif.C93_content_type_exact",
    "Verif.C93_discovery_cacheable",
    "Verif.C93_two_content_types",
    "Verif.C93_callers_list_grows",
    "Verif.C93_callers_list_exact",
    "Verif.C93_discovery_content_type"
   ],
   "note": "No-cache headers proved for every response but discovery's; the content type is not unique for differently written header names, and the caller's list is extended in place (universal refutations)."
  },
  {
   "property": "C94",
   "status": "partial",
   "theorems": [
    "Verif.C94_error_hides_result_partial",
    "Verif.C94_error_body",
    "Verif.C94_error_lost"
   ],
   "note": "Non-interference proved; with a content_type argument the error is not sent at all (universal refutation)."
  },
  {
   "property": "C95",
   "status": "partial",
   "theorems": [
    "Verif.C95_success_is_delivered_partial",
    "Verif.C95_denial_not_delivered",
    "Verif.C95_no_scope_no_answer",
    "Verif.C95_iframe_never_says_denied"
   ],
   "note": "Successes are always delivered to the verified URI; no denial and no failure is (universal refutations)."
  },
  {
   "property": "C96",
   "status": "partial",
   "theorems": [
    "Verif.C96_response_names_issuer_client_state_partial",
    "Verif.C96_form_does_not_name_issuer",
    "Verif.C96_errors_without_state",
    "Verif.C96_response_parameters"
   ],
   "note": "Proved for successes in query or fragment; the form lacks issuer and client, errors lack the state (universal refutations)."
  },
  {
   "property": "C97",
   "status": "partial",
   "theorems": [
    "Verif.C97_state_and_cookie_partial",
    "Verif.C97_session_state_determines",
    "Verif.C97_without_dealer"
   ],
   "note": "Injectivity proved for all client ids and origins; without a cookie dealer the state does not depend on the login (universal refutation)."
  },
  {
   "property": "C98",
   "status": "partial",
   "theorems": [
    "Verif.C98_login_required_placement_partial",
    "Verif.C98_other_user_in_query",
    "Verif.C98_none_in_fragment"
   ],
   "note": "Proved for the code, implicit and hybrid flows when nobody is logged in; wrong if another user is, and for response type none (universal refutations)."
  },
  {
   "property": "C99",
   "status": "partial",
   "theorems": [
    "Verif.C99_reads_agree_partial",
    "Verif.C99_deletes_agree_partial",
    "Verif.C99_delete_unknown_user",
    "Verif.C99_removed_grant_reads_none",
    "Verif.C99_half_deleted"
   ],
   "note": "Reads and deletions agree for stores where what a key names is there; deletion of unknown users and reads of removed grants differ between back ends."
  },
  {
   "property": "C100",
   "status": "partial",
   "theorems": [
    "Verif.C100_only_allowed_algorithms_partial",
    "Verif.C100_encrypted_refused",
    "Verif.C100_no_lists_no_objects",
    "Verif.C100_by_value_unchecked",
    "Verif.C100_in_the_endpoint",
    "Verif.C100_each_kind",
    "Verif.C100_dictionary_of_algorithms"
   ],
   "note": "Signature algorithms are checked for objects by reference; objects by value are not checked at all, and encrypted ones are always refused (universal refutations)."
  },
  {
   "property": "C101",
   "status": "partial",
   "theorems": [
    "Verif.C101_logout_tokens_partial",
    "Verif.C101_single_logout_token_partial",
    "Verif.C101_no_subject",
    "Verif.C101_two_session_ids"
   ],
   "note": "Content proved except for the user: no token has a subject, and the session id differs between the two ways to log out (universal refutations)."
  },
  {
   "property": "C102",
   "status": "partial",
   "theorems": [
    "Verif.C102_sid_readable_partial",
    "Verif.C102_altered_refused",
    "Verif.C102_known_session_reveals_others",
    "Verif.C102_stream_positions"
   ],
   "note": "Decryption and injectivity proved; the initial vector is reused, so one known session id reveals all that are not longer (universal refutation, by key stream recovery)."
  },
  {
   "property": "C103",
   "status": "partial",
   "theorems": [
    "Verif.C103_frame_reveals_user",
    "Verif.C103_token_reveals_user"
   ],
   "note": "Refuted universally: the session id, which starts with the user's local name, is sent in clear in logout frames and in every JWT access token."
  },
  {
   "property": "C104",
   "status": "partial",
   "theorems": [
    "Verif.C104_state_comes_back_partial",
    "Verif.C104_state_lost_with_query"
   ],
   "note": "Proved for URIs without a query; false for all others (universal refutation)."
  },
  {
   "property": "C105",
   "status": "partial",
   "theorems": [
    "Verif.C105_frame_exact_partial",
    "Verif.C105_logout_page_injection"
   ],
   "note": "Proved for URIs without a quote; any text can be injected otherwise (universal refutation)."
  },
  {
   "property": "C106",
   "status": "partial",
   "theorems": [
    "Verif.C106_no_dangling_after_crashes_partial",
    "Verif.C106_killed_delete_dangles"
   ],
   "note": "Proved for all calls that create, change or revoke, killed at any write; false when a deletion is killed (it works from the leaves to the root)."
  },
  {
   "property": "C107",
   "status": "proved",
   "theorems": [
    "Verif.C107_login_after_crashes"
   ],
   "note": "For all histories with deletions and crashes at any write."
  },
  {
   "property": "C108",
   "status": "partial",
   "theorems": [
    "Verif.C108_retry_completes_on_shelve_partial",
    "Verif.C108_retry_fails_on_dict",
    "Verif.C108_client_stays_listed"
   ],
   "note": "On shelve a crash among the grants is repaired by deleting again; on a dict-like storage the deletion fails for ever, and a crash after the client record leaves the client listed for ever on both (universal refutations)."
  },
  {
   "property": "C109",
   "status": "proved",
   "theorems": [
    "Verif.C109_response_is_stored"
   ],
   "note": "For storages that survive the process; keys and configuration are the same after the restart."
  },
  {
   "property": "C110",
   "status": "proved",
   "theorems": [
    "Verif.C110_killed_code_exchange",
    "Verif.C110_killed_refresh",
    "Verif.C110_crash_can_burn_code"
   ],
   "note": "With C27, which also covers histories with crashes, a code is answered at most once; the last theorem shows that a crash can make it zero times."
  },
  {
   "property": "C111",
   "status": "partial",
   "theorems": [
    "Verif.C111_session_keeps_subject_partial",
    "Verif.C111_subject_changes_at_restart"
   ],
   "note": "Sessions keep their subject; the salt is random at each start, so a user who logs in again is a different subject (universal refutation)."
  },
  {
   "property": "C112",
   "status": "partial",
   "theorems": [
    "Verif.C112_only_own_sessions_change_partial",
    "Verif.C112_spill_is_real"
   ],
   "note": "For all steps of the provider, including crashes of a storage that survives. Exception: deleting one grant also writes a record under the bare client id, so a user with the name of a client is damaged (second theorem)."
  },
  {
   "property": "C113",
   "status": "proved",
   "theorems": [
    "Verif.C113_noninterference"
   ],
   "note": "For all histories with crashes. Users of the group must not be named like a client of which a single grant is deleted (C112's exception), which is part of the property's quantifier."
  },
  {
   "property": "C114",
   "status": "proved",
   "theorems": [
    "Verif.C114_other_users_steps_commute"
   ],
   "note": "Steps are phases (parse, process) of requests and session-manager calls; crashes hit everybody and do not commute."
  },
  {
   "property": "C115",
   "status": "proved",
   "theorems": [
    "Verif.C115_userinfo_needs_login",
    "Verif.C115_honest_cookie_needed"
   ],
   "note": "By induction over the history, back to the authentication. User names and client ids must be readable from a session id (C01). The premise on cookies is needed (second theorem)."
  },
  {
   "property": "C116",
   "status": "proved",
   "theorems": [
    "Verif.C116_tokens_need_login"
   ],
   "note": "Same premises; the token strings are those of the configured handlers, with the assumptions on the crypto in Spec/Crypto.lean."
  },
  {
   "property": "C117",
   "status": "proved",
   "theorems": [
    "Verif.C117_active_needs_login"
   ],
   "note": "Same premises."
  },
  {
   "property": "C118",
   "status": "proved",
   "theorems": [
    "Verif.C118_response_for_the_user"
   ],
   "note": "Same premises; for a storage in memory or on disk."
  },
  {
   "property": "C119",
   "status": "proved",
   "theorems": [
    "Verif.C119_sessions_only_from_logins",
    "Verif.C119_only_authorize_creates"
   ],
   "note": "Grant ids are unique, names can be read from session ids, cookies name a user and a session of the same user (WebRun); Props/ProviderDemo shows a history."
  },
  {
   "property": "C120",
   "status": "proved",
   "theorems": [
    "Verif.C120_userinfo_on_the_web",
    "Verif.C120_no_token_no_claims"
   ],
   "note": "Same premises."
  },
  {
   "property": "C121",
   "status": "proved",
   "theorems": [
    "Verif.C121_tokens_on_the_web"
   ],
   "note": "Same premises; token strings are those of the configured handlers. That the client whose secret is shown is the code's client is C29."
  },
  {
   "property": "C122",
   "status": "proved",
   "theorems": [
    "Verif.C122_introspection_on_the_web"
   ],
   "note": "Same premises; released claims named like the reserved entries are excluded (C35)."
  },
  {
   "property": "C123",
   "status": "proved",
   "theorems": [
    "Verif.C123_response_on_the_web"
   ],
   "note": "Same premises."
  },
  {
   "property": "C124",
   "status": "proved",
   "theorems": [
    "Verif.C124_codes_go_to_registered_uris"
   ],
   "note": "A registration request is a JSON object (distinct names); the splitting of queries gives distinct keys (parse_qs)."
  },
  {
   "property": "C125",
   "status": "partial",
   "theorems": [
    "Verif.C125_assertion_accepted_once",
    "Verif.C125_replay_after_restart"
   ],
   "note": "Proved for every history where the store of seen assertions is durable or there is no restart in between. False with the default storage, which is in memory (counterexample)."
  },
  {
   "property": "C126",
   "status": "partial",
   "theorems": [
    "Verif.C126_open_by_default",
    "Verif.C126_code_redeemed_without_secret",
    "Verif.C126_configured_is_closed_partial"
   ],
   "note": "False of the code: with no methods configured, credentials make no difference (universal refutation, and a history in which a confidential client's code is redeemed without its secret). Holds where secret-based methods are configured."
  },
  {
   "property": "C127",
   "status": "partial",
   "theorems": [
    "Verif.C127_pushed_request_is_the_clients_partial",
    "Verif.C127_pushed_in_anothers_name"
   ],
   "note": "Proved if request objects cannot change the client id. They can in the code (all their parameters replace those of the request), so the property is false (counterexample)."
  },
  {
   "property": "C128",
   "status": "partial",
   "theorems": [
    "Verif.C128_pushed_requests_never_expire"
   ],
   "note": "False of the code: expires_in is announced and not kept (universal refutation)."
  },
  {
   "property": "C129",
   "status": "proved",
   "theorems": [
    "Verif.C129_web_no_dangling"
   ],
   "note": "Names are not empty and contain no semicolon (GoodNames); Props/WebTree shows a history that meets this."
  },
  {
   "property": "C130",
   "status": "proved",
   "theorems": [
    "Verif.C130_registered_client_runs_code_flow"
   ],
   "note": "Premises: a provider set up for this (CodeFlowProvider), names without semicolon, a user name that is not base64url text (C78), redirect URI without escapes (C22), user claims that can be put together (a restriction on values is a list). The client authenticates by client_secret_post."
  },
  {
   "property": "C131",
   "status": "proved",
   "theorems": [
    "Verif.C131_handler_as_described",
    "Verif.C131_started_as_configured",
    "Verif.C131_start_fails_only_if",
    "Verif.C131_started_reads_own_tokens",
    "Verif.C131_defaults",
    "Verif.C131_start_uses_the_keys",
    "Verif.C131_restart_keeps_handlers",
    "Verif.C131_lost_keys",
    "Verif.C131_kind_of_own_token"
   ],
   "note": "Symbolic crypto laws; init_key_jar of cryptojwt is modelled as: the keys on disk, or else new keys which are written."
  },
  {
   "property": "C132",
   "status": "partial",
   "theorems": [
    "Verif.C132_half_configured_reads_nothing",
    "Verif.C132_refresh_may_be_absent_partial"
   ],
   "note": "False of the code: without a code handler the provider starts and every lookup raises AttributeError (universal refutation); without a refresh handler it holds."
  },
  {
   "property": "C133",
   "status": "proved",
   "theorems": [
    "Verif.C133_refresh_served",
    "Verif.C133_stays_refreshable"
   ],
   "note": "Premises: a provider set up for this (CodeFlowProvider, RefreshProvider; PKCE off, since with PKCE no refresh request is served, C31), client_secret_post, minted values new (C04). The session and refresh token of C130 meet them (refreshable_after_code; example for webCfg)."
  },
  {
   "property": "C134",
   "status": "partial",
   "theorems": [
    "Verif.C134_session_complete",
    "Verif.C134_session_info_partial",
    "Verif.C134_grant_and_event",
    "Verif.C134_single_lookups",
    "Verif.C134_answer_only_if",
    "Verif.C134_listings",
    "Verif.C134_answered_exactly_when",
    "Verif.C134_lookup_by_token",
    "Verif.C134_listings_want_names"
   ],
   "note": "False of the code for one combination: asked for grant and authentication event together it raises TypeError for every session (universal refutation); every other combination is proved."
  },
  {
   "property": "C135",
   "status": "proved",
   "theorems": [
    "Verif.C135_sessions_of_other_clients_unchanged",
    "Verif.C135_answers_about_other_clients_unchanged"
   ],
   "note": "Whose session a request concerns is said by the cookie, the client of the request as parsed, and the session that the code or refresh token names (not by who authenticates: C29). A logout from all clients concerns them all. Names without semicolon."
  },
  {
   "property": "C136",
   "status": "proved",
   "theorems": [
    "Verif.C136_tokens_are_given_out",
    "Verif.C136_userinfo_only_for_given_tokens",
    "Verif.C136_active_only_if_given"
   ],
   "note": "Premises (WebRun): names without semicolon, session ids new, abstract library laws. A request that failed after storing a token (e.g. a fault in the ID token) has no success answer, so nothing is said of its answer."
  },
  {
   "property": "C137",
   "status": "proved",
   "theorems": [
    "Verif.C137_code_redeemed_once_on_the_web",
    "Verif.C137_code_terms_on_the_web"
   ],
   "note": "Premises as C136. The granted scope is that of the request unless the Implicit grant handler is configured (which leaves the granted scope as created). The PKCE conclusion is about the code's own session (see C31 for requests mixing tokens)."
  },
  {
   "property": "C138",
   "status": "partial",
   "theorems": [
    "Verif.C138_faulty_request_answered_partial",
    "Verif.C138_faulty_uri_raises"
   ],
   "note": "False of the code for three faults of the redirect URI (fragment: URIError; registered base with another query, or no registered URI: ValueError): these raise instead (universal refutation). For the other faults it holds."
  },
  {
   "property": "C139",
   "status": "proved",
   "theorems": [
    "Verif.C139_granted_claims",
    "Verif.C139_claims_of_a_use"
   ],
   "note": "For the AuthzHandling grant handler. The client's own claims are those in the record at that time, which earlier sessions may have extended (C37)."
  },
  {
   "property": "C140",
   "status": "partial",
   "theorems": [
    "Verif.C140_junk_reads_as_nothing_partial",
    "Verif.C140_forged_signature_raises",
    "Verif.C140_unread_cookie_is_no_cookie_partial"
   ],
   "note": "False of the code: a three-part cookie with a wrong signature raises VerificationError (with a non-base64 one ValueError), for every signing provider and request (universal refutation). Other junk is taken as no cookie."
  },
  {
   "property": "C141",
   "status": "partial",
   "theorems": [
    "Verif.C141_spec_of_a_token",
    "Verif.C141_dead_token_has_spec"
   ],
   "note": "False of the code for the token's own state: `token.is_active is False` compares a bound method, so every revoked, expired or used-up token of an active grant has a specification (universal refutation). Contents and inactive grants: proved in full."
  },
  {
   "property": "C142",
   "status": "proved",
   "theorems": [
    "Verif.C142_plain_logout_served",
    "Verif.C142_logout_to_registered_uri_served"
   ],
   "note": "A post-logout URI without a hint is refused by the code (C47)."
  },
  {
   "property": "C143",
   "status": "partial",
   "theorems": [
    "Verif.C143_code_answers_partial",
    "Verif.C143_refresh_answers_partial",
    "Verif.C143_grant_type_answers",
    "Verif.C143_verifier_answers",
    "Verif.C143_redirect_answers",
    "Verif.C143_foreign_refresh_raises",
    "Verif.C143_refresh_with_odd_code",
    "Verif.C143_misfiled_helper"
   ],
   "note": "False of the code in three places (universal refutations): a refresh token the provider did not make raises UnknownToken, a request without refresh_token raises MissingRequiredAttribute, a token request without the redirect URI raises KeyError. For the other faults it holds."
  },
  {
   "property": "C144",
   "status": "partial",
   "theorems": [
    "Verif.C144_userinfo_answers_partial",
    "Verif.C144_userinfo_unusable",
    "Verif.C144_introspect_answers",
    "Verif.C144_userinfo_raises",
    "Verif.C144_userinfo_login_over"
   ],
   "note": "False of the code for userinfo requests without credentials, with an expired JWT and with a token of a removed user: these raise, in every configuration (universal refutations). For introspection see also C35."
  },
  {
   "property": "C145",
   "status": "partial",
   "theorems": [
    "Verif.C145_registration_verdict",
    "Verif.C145_accepted_iff",
    "Verif.C145_not_verified",
    "Verif.C145_refused_leaves_stub",
    "Verif.C145_client_as_sent",
    "Verif.C145_told_where_to_read",
    "Verif.C145_told_what_it_sent"
   ],
   "note": "The verdict is proved as an equivalence. False only for the address of the record: a request that has an entry registration_client_uri of its own is told that one (counterexample). A refused registration leaves the client's stub behind (proved, see also C43)."
  },
  {
   "property": "C146",
   "status": "proved",
   "theorems": [
    "Verif.C146_subject_of_type",
    "Verif.C146_unknown_type"
   ],
   "note": "For the session API; that the authorization endpoint always asks for public is C50."
  },
  {
   "property": "C147",
   "status": "proved",
   "theorems": [
    "Verif.C147_missing_entries",
    "Verif.C147_missing_entries_exchange",
    "Verif.C147_readable_iff"
   ],
   "note": "The json library's text form is abstracted: a document is a record of optional entries."
  },
  {
   "property": "C148",
   "status": "proved",
   "theorems": [
    "Verif.C148_form_carries_request",
    "Verif.C148_page_is_made_iff",
    "Verif.C148_page_shows_client"
   ],
   "note": "Signature laws (GoodJws) and the own keys being filed under the issuer name are hypotheses; rendering of the template is not modelled."
  },
  {
   "property": "C149",
   "status": "partial",
   "theorems": [
    "Verif.C149_signed_by_named_partial",
    "Verif.C149_client_makes_form_tokens",
    "Verif.C149_accepted_iff"
   ],
   "note": "False of the code: the token is checked with the keys of whoever it names as issuer, so every client with a registered key or secret can make form tokens with any content (universal refutation). Proved: nobody without a key in the jar can. cryptojwt's choice of keys is modelled from its documentation."
  },
  {
   "property": "C150",
   "status": "partial",
   "theorems": [
    "Verif.C150_confirmation_comes_back",
    "Verif.C150_only_own_keys",
    "Verif.C150_access_token_confirms",
    "Verif.C150_accepted_after_end",
    "Verif.C150_access_token_times"
   ],
   "note": "Round trip and origin in the provider's own keys proved. False of the code: every JWT access token signed with the same algorithm is accepted as confirmation for its session, and the end of validity is not looked at (both universal refutations)."
  },
  {
   "property": "C151",
   "status": "proved",
   "theorems": [
    "Verif.C151_refresh_terms_on_the_web"
   ],
   "note": "At the level of HTTP requests; histories as in C119 (WebRun). The scope is that of the request for the standard policy (C75 for the implicit one). That the usage limit of the refresh token is not counted is C32."
  },
  {
   "property": "C152",
   "status": "proved",
   "theorems": [
    "Verif.C152_userinfo_as_authorized"
   ],
   "note": "At the level of HTTP requests; histories as in C119 (WebRun), standard authorization policy. Distinct claim names (Python dictionaries) and well-formed restrictions are stated hypotheses of the two halves."
  },
  {
   "property": "C153",
   "status": "proved",
   "theorems": [
    "Verif.C153_registration_lasts"
   ],
   "note": "At the level of HTTP requests. Requests that carry their own client_secret or client_secret_expires_at are excluded (they may override the provider's, C43); registrations under an id chosen by the request (new_id false) are excluded by FreshIds. The claims entry of a client record is left out of SameRegistration."
  },
  {
   "property": "C154",
   "status": "proved",
   "theorems": [
    "Verif.C154_token_works_until_its_time"
   ],
   "note": "At the level of HTTP requests. New authorization requests of the same user at the same client are excluded because a second session replaces the client record and loses the first (C15). The string must be new in the storage (randomness of the handler), and no user claim may be called ttype. A lifetime that makes the expiry 0 (expires_in = -now) counts as none, as in the code (C74)."
  },
  {
   "property": "C155",
   "status": "proved",
   "theorems": [
    "Verif.C155_implicit_token_works_until_its_time"
   ],
   "note": "At the level of HTTP requests. New authorization requests of the same user at the same client are excluded because a second session replaces the client record and loses the first (C15). The string must be new in the storage (randomness of the handler), and no user claim may be called ttype. With the ImplicitConsent-style default scopes (gc.implicit) the session's scope is not the requested one, so that conjunct is conditional."
  },
  {
   "property": "C156",
   "status": "proved",
   "theorems": [
    "Verif.C156_logout_goes_to_registered_uris",
    "Verif.C156_registered_logout_uri_works"
   ],
   "note": "That the request may name another client than the session's is C47's counterexample; here the client meant is part of the statement. The second theorem assumes the registered URIs have different addresses (of two with the same address only the first is looked at) and that later registrations get fresh ids."
  },
  {
   "property": "C157",
   "status": "proved",
   "theorems": [
    "Verif.C157_new_login_ends_earlier_sessions",
    "Verif.C157_restart_ends_all_sessions"
   ],
   "note": "The universal form of C15's counterexample. Login cookies only: with a cookie that names a user and a session (made by the application, C60) setup_auth adds a grant to the record and leaves the others."
  },
  {
   "property": "C158",
   "status": "proved",
   "theorems": [
    "Verif.C158_refresh_token_works_until_its_time"
   ],
   "note": "The session's rules for refresh tokens must let them be used and give access tokens (the defaults do). The string of the token must not collide with one that is stored. Any authenticated client may use it: see C29."
  },
  {
   "property": "C159",
   "status": "proved",
   "theorems": [
    "Verif.C159_code_works_until_its_time"
   ],
   "note": "The session's rules for codes must let them give access tokens (and refresh tokens, if offline access was granted; the defaults do). The string of the code must not collide with one that is stored."
  },
  {
   "property": "C160",
   "status": "proved",
   "theorems": [
    "Verif.C160_pushed_as_sent"
   ],
   "note": "Request objects that are fetched contain no request_uri (RFC 9101), and registrations are not made under ids that somebody chose. A pushed request that refers to a request object is C25's and C127's counterexample."
  },
  {
   "property": "C161",
   "status": "partial",
   "theorems": [
    "Verif.C161_first_visit_partial",
    "Verif.C161_plain_cookie_partial",
    "Verif.C161_same_request_partial",
    "Verif.C161_new_request_partial",
    "Verif.C161_session_of_client_partial",
    "Verif.C161_other_client_locked_out",
    "Verif.C161_ended_session_locked_out",
    "Verif.C161_stray_cookie_locked_out",
    "Verif.C161_next_visitor_ends_sessions",
    "Verif.C161_unreadable_cookie_locked_out"
   ],
   "note": "First visits and returns to the same client are served. False of the code: the provider's own cookie locks the browser out of every other client, and out of the same client after the login's hour or a logout (there is no login page, so an internal error is shown); cookies of other applications do too; and each new visitor's session replaces those of the visitors before."
  },
  {
   "property": "C162",
   "status": "proved",
   "theorems": [
    "Verif.C162_id_token_about_login",
    "Verif.C162_id_token_claims",
    "Verif.C162_front_channel"
   ],
   "note": "Token response and authorization response. The JWT library is an arbitrary signing function; `IdTokensMade` says that the ID token input of the histories is what the model of IDToken.make gives. The claims theorem needs implicit authorization off, as in C152."
  },
  {
   "property": "C163",
   "status": "proved",
   "theorems": [
    "Verif.C163_introspection_as_authorized"
   ],
   "note": "Parameters: unless a claim with a parameter's name is granted (such a claim overrides the parameter, C35). Needs implicit authorization off, as C152."
  },
  {
   "property": "C164",
   "status": "partial",
   "theorems": [
    "Verif.C164_refused_changes_nothing_partial",
    "Verif.C164_failed_id_token_is_not_undone",
    "Verif.C164_code_is_lost"
   ],
   "note": "False of the code: when the ID token cannot be signed or encrypted the client gets invalid_request, but the tokens are stored and the code is used up (universal refutation; on the web the code is lost for good). Every other refusal leaves sessions and pending requests exactly as they were. Exceptions that escape are not counted as refusals."
  },
  {
   "property": "C165",
   "status": "proved",
   "theorems": [
    "Verif.C165_served_at_most_once_per_push",
    "Verif.C165_second_use_refused"
   ],
   "note": "Counts the requests that name the URI themselves. Requests are taken one after the other; for threads see C166."
  },
  {
   "property": "C166",
   "status": "partial",
   "theorems": [
    "Verif.C166_given_at_most_once_per_push_partial",
    "Verif.C166_given_what_was_pushed",
    "Verif.C166_pieces_are_do_request_uri",
    "Verif.C166_two_threads_one_push"
   ],
   "note": "Proved for storages whose deletion of a missing key raises (dict, InMemoryDataBase); false with ShelveDataBase, whose deletion is silent: two threads are given one pushed request, for every URI and request (proved). Reading, deleting and storing one item are atomic."
  },
  {
   "property": "C167",
   "status": "proved",
   "theorems": [
    "Verif.C167_as_if_alone",
    "Verif.C167_others_untouched",
    "Verif.C167_as_if_in_turn",
    "Verif.C167_every_thread_ends"
   ],
   "note": "User names that contain no ;; and do not end in ;. Reading and writing one storage item is atomic. What a request does to the client database (C37) is the thread's own. Token crypto laws as in C04."
  },
  {
   "property": "C168",
   "status": "partial",
   "theorems": [
    "Verif.C168_login_lost",
    "Verif.C168_others_hidden"
   ],
   "note": "False of the code: create_session looks for the user record and then stores a fresh one, so everything other threads stored for the user in between, at other clients, is hidden (proved for all users, clients and storages); end to end, one of two codes handed out cannot be redeemed although in turn it can."
  },
  {
   "property": "C169",
   "status": "partial",
   "theorems": [
    "Verif.C169_any_number_of_threads_accepted",
    "Verif.C169_in_turn_once_partial",
    "Verif.C169_pieces_are_jti_use"
   ],
   "note": "False of the code: the key is looked up and then noted, so any number of threads accept one assertion (proved for every unseen key). One after the other at most one is accepted (C41)."
  },
  {
   "property": "C170",
   "status": "partial",
   "theorems": [
    "Verif.C170_stays_revoked_partial",
    "Verif.C170_no_token_afterwards_partial",
    "Verif.C170_revocation_undone"
   ],
   "note": "Proved for back ends that keep objects, for code exchanges in the pieces of C56 and revocations in one piece, on storages without empty names (as all reachable ones are). False for back ends that store copies: the thread writes its old copy back and the grant is active again, with working tokens (proved)."
  },
  {
   "property": "C171",
   "status": "partial",
   "theorems": [
    "Verif.C171_rules_as_if_copied",
    "Verif.C171_rules_never_change",
    "Verif.C171_shared_between_types_changes"
   ],
   "note": "Proved where every rules dictionary is written down for one token type, for every history; this also justifies the copies used in the rest of the model. False if one dictionary is used for two types (YAML anchors): minting a code then limits the access tokens made before (universal refutation). Rules that an application passes to mint_token itself are not covered."
  },
  {
   "property": "C172",
   "status": "partial",
   "theorems": [
    "Verif.C172_order_of_importance_partial",
    "Verif.C172_defaults_otherwise",
    "Verif.C172_asking_is_harmless_partial",
    "Verif.C172_asking_changes_the_answers",
    "Verif.C172_defaults_are_not_filled_in",
    "Verif.C172_default_rules"
   ],
   "note": "The order grant, client, provider is proved. False of the code: the module's defaults and the clients' records are changed in place, so one grant's rules become the answer for all others; and defaults are not filled in (universal refutations). Nothing in the package calls the function."
  },
  {
   "property": "C173",
   "status": "partial",
   "theorems": [
    "Verif.C173_encrypted_exact",
    "Verif.C173_signed_exact_partial",
    "Verif.C173_others_are_refused",
    "Verif.C173_signed_differs"
   ],
   "note": "Proved for encrypted tokens and for signed ones with a positive lifetime. False of signed tokens with a negative lifetime (expired at once), and a signed token handler answers for every token made with the key (universal refutations). The JWT library leaves out the expiry for lifetime 0, which is not modelled."
  },
  {
   "property": "C174",
   "status": "partial",
   "theorems": [
    "Verif.C174_nothing_taken_back_partial",
    "Verif.C174_answers_are_stored_partial",
    "Verif.C174_pieces_are_process_request",
    "Verif.C174_tokens_lost"
   ],
   "note": "Proved for back ends that keep objects, for any number of threads in the two helpers in the pieces of the model (which are proved to make up process_request), with revocations, logins and logouts in one piece each. False of the code with a back end that stores copies: of two concurrent refreshes one loses its tokens. Interruptions inside a piece are not considered."
  },
  {
   "property": "C175",
   "status": "partial",
   "theorems": [
    "Verif.C175_revoked_in_time_partial",
    "Verif.C175_copies_ignore_revocation"
   ],
   "note": "Proved for back ends that keep objects. False of the code with a back end that stores copies: the thread works on its copy (and revoke_token stores nothing)."
  },
  {
   "property": "C176",
   "status": "proved",
   "theorems": [
    "Verif.C176_logout_is_not_undone"
   ],
   "note": "For both kinds of back end, any number of threads in the two helpers of the token endpoint, in the pieces of the model (C174_pieces_are_process_request, C56_pieces_are_process_request). Logins, logouts and revocations happen in one piece; interruptions inside a piece (between a read and a write of the same record) are not considered."
  }
 ]
}