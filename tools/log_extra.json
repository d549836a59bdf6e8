{
 "tight": {
  "b6-08": [
   "C88_default_sorted: order stated by family names, not the model's ranks (it survived before)"
  ],
  "b6-26": [
   "C87_session_iframe (new; it survived before)"
  ],
  "b6-27": [
   "C87_session_iframe (new; it survived before)"
  ],
  "b7-19": [
   "C95_success_is_delivered_partial: the page is stated as Spec.PostsForm, not by the model's page (it survived before)"
  ],
  "b8-27": [
   "C101_logout_tokens_partial, C101_single_logout_token_partial: signed as registered (it survived before)"
  ],
  "b8-20": [
   "C102_altered_refused (new)"
  ],
  "b12-19": [
   "C49_allowed_claims_exact (new; the mutant survived before)"
  ],
  "b12-20": [
   "C49_get_claims_names: stated by ClaimRequested (the mutant survived before)"
  ],
  "b12-22": [
   "C49_get_claims_names: stated by ClientHasClaim (the mutant survived before)"
  ],
  "b12-40": [
   "C93_content_type_exact (new; the mutant survived before)"
  ],
  "b12-41": [
   "C93_content_type_exact (new; the mutant survived before)"
  ],
  "b12-54": [
   "C47_end_session_partial: default target spelled out (the mutant survived before)"
  ],
  "b12-56": [
   "C134_single_lookups (new; the mutant survived before)"
  ],
  "b12-60": [
   "C87_defaults_published (new; the mutant survived before)"
  ],
  "b12-70": [
   "C43_unverified_refused (new; the mutant survived before)"
  ],
  "b12-75": [
   "C63_pairwise_ids_of_one_user (new; the mutant survived before)"
  ],
  "b12-89": [
   "C76: DemandsAge covers a request object that says 0 (the mutant survived before)"
  ],
  "b12-90": [
   "C80_other_user_sent_to_login_partial (new; the mutant survived before)"
  ],
  "b13-13": [
   "C131_start_uses_the_keys (new; the mutant survived before)"
  ],
  "b13-17": [
   "C134_answered_exactly_when (new; the mutant survived before)"
  ],
  "b13-24": [
   "C134_lookup_by_token (new; the mutant survived before)"
  ],
  "b13-26": [
   "C134_listings_want_names (new; the mutant survived before)"
  ],
  "b16-05": [
   "C161_unreadable_cookie_locked_out (new theorem)"
  ],
  "auto-1087": [
   "C131_started_as_configured: when a part counts as absent is said exactly (b17-01 repeats this edit and it now fails)"
  ],
  "auto-1309": [
   "C73_choosing_never_key_error (new; b17-02 repeats this edit and it now fails)"
  ],
  "b17-18": [
   "C144_userinfo_login_over (new)"
  ],
  "b21-02": [
   "C73_login_hint (added)"
  ]
 },
 "note": {
  "b8-18": "leaks more, which no proved part of C102 forbids; the refutation holds a fortiori",
  "b11-21": "no claim is broken: the endpoint does not use the client id found this way (oidc/userinfo.py:156-184), only whether the token can be taken apart",
  "b13-29": "no reachable listing takes this branch: the subordinates of a client record are grants",
  "auto-0001": "rebuilt with all examples removed: fails authzProcessP_run, simAuthz, authzProcess_st",
  "auto-0020": "rebuilt with all examples removed: fails mintAndStore_spec, mintP_run",
  "auto-0025": "rebuilt with all examples removed: fails responseMode_ok",
  "auto-0056": "rebuilt with all examples removed: fails mintAndStore_spec, mintP_run",
  "auto-0066": "rebuilt with all examples removed: fails setLastExpiry_append, mintAndStore_spec",
  "auto-0073": "rebuilt with all examples removed: fails authzPart2_eq, part2P_run, simAuthzPart2, authzPart2_st",
  "auto-0082": "rebuilt with all examples removed: fails responseP_run, simCodePart, codePart_st",
  "auto-0084": "rebuilt with all examples removed: fails startSession_grant, startSessionP_run, simStartSession, startSession_st",
  "auto-0090": "rebuilt with all examples removed: fails setupAuth_plain, setupAuthP_run, setupAuth_st, simSetupAuth",
  "auto-0108": "rebuilt with all examples removed: fails simCodePart, responseP_run, codePart_st",
  "auto-0112": "rebuilt with all examples removed: fails mintAndStore_spec, mintP_run",
  "auto-0114": "rebuilt with all examples removed: fails mintAndStore_spec, mintP_run",
  "auto-0116": "rebuilt with all examples removed: fails setupAuth_plain, setupAuthP_run, setupAuth_st, simSetupAuth",
  "auto-0122": "rebuilt with all examples removed: fails authzProcessP_run, simAuthz, authzProcess_gives, only_authzProcess, authzTrace_last, C56_two_threads_redeem_one_code, C74_negative_lifetime_announced, C35_user_data_replaces_scope, C20_revoked_grant_still_accepted, C29_code_redeemed_by_other_client",
  "auto-0136": "rebuilt with all examples removed: fails authzCall_evo",
  "auto-0137": "rebuilt with all examples removed: fails C95_no_scope_no_answer, authzCall_evo",
  "auto-0138": "rebuilt with all examples removed: fails authzCall_evo",
  "auto-0398": "rebuilt with all examples removed: fails C13_write_makes_parents",
  "auto-0677": "rebuilt with all examples removed: fails C88_none_accepted, C88_unknown_family_no_start",
  "auto-0682": "rebuilt with all examples removed: fails C88_none_accepted",
  "auto-0688": "rebuilt with all examples removed: fails signLe_total, signLe_trans, signLe_order",
  "auto-0689": "rebuilt with all examples removed: fails C88_none_accepted, C88_unknown_family_no_start",
  "auto-0709": "rebuilt with all examples removed: fails algRank_family",
  "auto-0710": "rebuilt with all examples removed: fails algRank_family",
  "auto-0715": "rebuilt with all examples removed: fails signLe_total, signLe_trans, signLe_order",
  "auto-0721": "rebuilt with all examples removed: fails C88_none_accepted, C88_unknown_family_no_start",
  "auto-0724": "rebuilt with all examples removed: fails algRank_family, C88_default_sorted, C88_none_accepted",
  "auto-0731": "rebuilt with all examples removed: fails C88_none_accepted",
  "auto-0737": "rebuilt with all examples removed: fails C88_none_accepted, C88_unknown_family_no_start",
  "auto-0782": "rebuilt with all examples removed: fails matchClientRequest_ok",
  "auto-0795": "rebuilt with all examples removed: fails C145_client_as_sent, codeClient_registers",
  "auto-0813": "rebuilt with all examples removed: fails regRedirect_cases",
  "auto-0818": "rebuilt with all examples removed: fails matchPref_iff, preferences_eq, C45_only_supported, C45_unsupported_refused, C45_string_capability_refuses_lists, C125_replay_after_restart, C126_code_redeemed_without_secret",
  "auto-0834": "rebuilt with all examples removed: fails matchSpSep_iff, C125_replay_after_restart, C126_code_redeemed_without_secret",
  "auto-0861": "rebuilt with all examples removed: fails matchClientRequest_ok",
  "auto-0865": "rebuilt with all examples removed: fails matchClientRequest_ok, C45_string_capability",
  "auto-0879": "rebuilt with all examples removed: fails C100_each_kind",
  "auto-1001": "rebuilt with all examples removed: fails restore_token, C57_deep_dependent_fails, C19_counterexample",
  "auto-1015": "rebuilt with all examples removed: fails restore_token, C57_deep_dependent_fails, C19_counterexample",
  "auto-1017": "rebuilt with all examples removed: fails restore_token, C57_deep_dependent_fails, C19_counterexample",
  "auto-1241": "rebuilt with all examples removed: fails matchPref_iff, preferences_eq, C45_only_supported, C45_unsupported_refused, C45_string_capability_refuses_lists",
  "auto-1248": "rebuilt with all examples removed: fails matchSpSep_iff",
  "auto-1423": "rebuilt with all examples removed: fails C140_unread_cookie_is_no_cookie_partial"
 }
}