#!/usr/bin/env python3
"""Generates properties.jsonl.  Edit P and re-run."""
import json
P = []
def p(title, statement, quantifier, why, anchors):
    P.append(dict(id="C%02d" % (len(P)+1), title=title, statement=statement,
                  quantifier=quantifier, why_tests_cant=why, anchors=anchors))
S="src/oidcendpoint/"
# ---- identifiers and encodings
p("Session identifiers decode to what was encoded",
  "Unpacking a session identifier built from a list of ids returns exactly that list, precisely when no id contains ';;' and no id other than the last ends in ';'. For every other list of ids the decoded list differs from the encoded one.",
  "all non-empty lists of strings of any length",
  "The separator can be assembled across the boundary of two ids (an id ending in ';'); tests only use tidy ids such as 'diana' and 'client_1'.",
  [S+"session/__init__.py: session_key, unpack_session_key"])
p("Storage keys of distinct session paths never collide",
  "Two different paths (user), (user, client) or (user, client, grant) made of ids without ';' are stored under different keys of the single flat storage, so no write to one path is visible as another.",
  "all pairs of paths of length 1..3 over all ';'-free ids",
  "Users, client sessions and grants share one key space; absence of collisions is a claim about all pairs of ids.",
  [S+"session/__init__.py: session_key", S+"session/database.py: Database.set, Database.get"])
p("Length:value packing round-trips",
  "lv_unpack(lv_pack(v1..vn)) = [v1..vn] for all values, including ones that contain ':' or digits or are empty, provided the last value does not end in whitespace; lv_unpack terminates on every input (returning a list or raising ValueError).",
  "all lists of strings; all input strings for termination",
  "Values are attacker-influenced text that may itself look like a length prefix; the strip() in lv_unpack only bites on particular endings.",
  [S+"util.py: lv_pack, lv_unpack"])
p("A minted token string resolves to the session it was minted for",
  "For every session id, the token string produced by a token handler is decoded by the session's token handler to exactly that session id (and the same type and expiry), whichever of the three handlers produced it; a handler rejects strings sealed with another handler's key.",
  "all session ids, lifetimes, times and random parts; any encryption satisfying decrypt(encrypt(m))=m and key separation",
  "Padding to 16 bytes, stripping and the length:value format interact for every content length; tests use one or two session ids.",
  [S+"token/__init__.py: Crypt, DefaultToken", S+"token/handler.py: TokenHandler.get_handler, info"])
p("Cookie values survive the round trip",
  "The value, timestamp and type put in a cookie by create_cookie are what get_cookie_value returns with the same keys, in signed-only, encrypted-only and signed-and-encrypted configuration.",
  "all values and types without the cookie's own separators, all timestamps",
  "Three key configurations times arbitrary payloads; separators '|' and '::' can occur in values.",
  [S+"cookie.py: sign_enc_payload, ver_dec_content, CookieDealer.create_cookie, get_cookie_value", S+"util.py: lv_pack, lv_unpack"])
p("A signed cookie cannot be re-cut into a different accepted cookie",
  "If the only MAC known to an attacker is the one over a cookie the server issued, every cookie that get_cookie_value accepts carries exactly the issued value, timestamp and type, although the MAC covers the unseparated concatenation of load and timestamp.",
  "all issued (value, timestamp, type) and all attacker-chosen three-part cookies",
  "The MAC input is ambiguous (digits can move between load and timestamp); safety depends on a second check, for all possible cuts.",
  [S+"cookie.py: ver_dec_content, CookieDealer.get_cookie_value"])
# ---- tokens and grants
p("When a token or grant is active",
  "An item is active at time t exactly when it is not revoked, its use count is below its max_usage rule (if any), t is not before its not_before (if set) and t is not after its expires_at (if set).",
  "all items, usage rules and times",
  "Boundary behaviour (equality at expiry, zero meaning unset) for all values.",
  [S+"session/token.py: Item.is_active, Item.max_usage_reached"])
p("Minting happens only from an active grant and an active, entitled base token",
  "mint_token adds a token to a grant only if the grant is active and, when a base token is given, that token is active and its usage rules list the requested type; then exactly one token is appended, with the base token's value recorded; in every other case the grant is unchanged.",
  "all grants, base tokens, token types, usage rules and times",
  "Error branches must leave no residue for every combination of rules.",
  [S+"session/grant.py: Grant.mint_token", S+"session/token.py: Token.supports_minting"])
p("Derivation links inside a grant form a forest",
  "In every grant produced by any sequence of mint, use and revoke operations, each token is based on nothing or on a token that was issued earlier in the same grant; token values are distinct.",
  "all operation histories on a grant",
  "An inductive invariant over histories; it is what makes recursive revocation terminate.",
  [S+"session/grant.py: Grant.mint_token, Grant.revoke_token"])
p("Recursive revocation reaches exactly the derived tokens",
  "Revoking a token recursively finishes and afterwards the revoked tokens are exactly those revoked before plus the token itself plus every token directly or transitively minted from it; nothing else about any token changes.",
  "all grants reachable by any history; all token values; derivation trees of any fan-out and of any depth below the recursion limit of the interpreter (deeper ones: see C57)",
  "Tests use chains of length two or three; the recursion re-enters the list being iterated.",
  [S+"session/grant.py: Grant.revoke_token", S+"session/manager.py: SessionManager._revoke_dependent, revoke_token"])
p("Revocation and exhaustion are permanent",
  "Once a token has been revoked, or an authorization code has been used, no later sequence of grant operations makes it active again at any time.",
  "all grants, all operation histories, all times",
  "Quantifies over all futures.",
  [S+"session/token.py: Item, Token", S+"session/grant.py: Grant"])
p("Authorization codes are single-use whatever the configuration says",
  "An authorization code always carries max_usage 1, for every configured usage rule (including rules that ask for more), both when minted and when restored from storage.",
  "all usage rules and constructor arguments",
  "A configuration can contain any max_usage.",
  [S+"session/token.py: AuthorizationCode.set_defaults", S+"session/grant.py: Grant.from_json"])
# ---- session database
p("Reads return the latest write",
  "After a grant, client session or user session is stored under a path of well-formed ids, reading that path returns the stored value, until that path, or one of its ancestors, is overwritten or deleted; reads of other users' or other clients' paths return what they returned before.",
  "all storage states, paths and values over ';'-free ids",
  "Refinement of a flat string-keyed store to a three-level map, for all interleavings of writes.",
  [S+"session/database.py: Database.set, Database.get"])
p("The session tree has no dangling references",
  "In every state reached by creating sessions and grants and by revoking tokens, grants and client sessions, every client listed under a user has a client session and every grant listed under a client session can be read.",
  "all histories of session-manager calls over ';'-free ids",
  "Inductive invariant over histories.",
  [S+"session/database.py: Database", S+"session/manager.py: SessionManager.create_session, create_grant, revoke_grant, revoke_client_session"])
p("A session that was just created can be used and does not disturb others",
  "The session id returned by create_session resolves to the new grant with the given authorization request, authentication event, scope and subject; sessions of other users and of the same user with other clients are unchanged; earlier sessions of the same user with the same client stay usable.",
  "all storage states, users, clients and requests",
  "'Does not disturb others' is a claim about every other session.",
  [S+"session/manager.py: SessionManager.create_session, create_grant"])
p("Deleting a client session removes it and nothing else",
  "After deleting (user, client), neither the client session nor any of its grants can be read, and every other user's sessions and the user's sessions with other clients read as before. Deleting one grant removes that grant only and leaves its siblings readable.",
  "all storage states without dangling references, all paths",
  "Frame property over all other sessions; storage back ends with and without object aliasing behave differently.",
  [S+"session/database.py: Database.delete", S+"session/manager.py: SessionManager.remove_session"])
p("Deleted sessions stay deleted",
  "After a user's session has been deleted, none of the deleted grants becomes readable again as the result of later session creation.",
  "all histories after a deletion",
  "Quantifies over futures; depends on what deletion leaves behind in storage.",
  [S+"session/database.py: Database.delete, Database.set", S+"session/manager.py: create_grant"])
p("Listing the grants of a session is exact",
  "grants() for a user and client returns every grant created for that pair, each exactly once.",
  "all histories of create_session, create_grant and add_grant",
  "Counts over histories.",
  [S+"session/manager.py: SessionManager.grants, add_grant"])
p("Revoking a token through the session manager is durable",
  "After revoke_token(session_id, value) returns, reading the token through any later session-manager call shows it revoked, for every storage back end; an unknown value raises UnknownToken and changes nothing.",
  "all storage states; aliasing (in-memory) and copying (persistent) back ends",
  "Depends on whether the back end returns the stored object or a copy.",
  [S+"session/manager.py: SessionManager.revoke_token, find_token"])
p("A revoked grant yields nothing",
  "Once a grant has been revoked no further token can be minted from it, and its already issued access and refresh tokens are no longer accepted by the userinfo and introspection endpoints.",
  "all grants, tokens, times",
  "Universal over tokens and endpoints.",
  [S+"session/manager.py: SessionManager.revoke_grant", S+"session/grant.py: Grant.mint_token", S+"oidc/userinfo.py: UserInfo.process_request", S+"oauth2/introspection.py: Introspection"])
# ---- authorization endpoint
p("Only registered response types are served",
  "The authorization endpoint goes on to authentication only if the set of requested response types equals one of the client's registered sets (or {code} if none is registered); otherwise the answer is an error and nothing is stored.",
  "all requests and client registrations",
  "Set comparison over arbitrary orderings and duplicates.",
  [S+"oauth2/authorization.py: Authorization.verify_response_type, _post_parse_request"])
p("Redirect only to a registered URI",
  "A redirect (or post-logout) URI is accepted only if, after percent-decoding, it has no fragment, its base equals the base of a registered URI of that client and its query has exactly the registered keys and values; an absent redirect_uri is replaced only by the client's single registered one.",
  "all requests, all registrations with any number of URIs and query parameters",
  "Any number of registered URIs, keys and values; early-exit loop.",
  [S+"oauth2/authorization.py: verify_uri, get_uri"])
p("Tokens never travel in the query string",
  "A successful authorization response uses query encoding only when the response type is exactly 'code' (or 'none'); whenever an access token or ID token is returned the response is a fragment or a form post, and a contradictory response_mode is refused.",
  "all requests",
  "All combinations of response types and response modes.",
  [S+"oauth2/authorization.py: create_authn_response, response_mode", S+"endpoint.py: fragment_encoding"])
p("The authorization response contains what was asked for, no more",
  "If the authorization response is not an error then it contains a code exactly if 'code' was requested, an access token exactly if 'token' was requested, an ID token exactly if 'id_token' was requested, and the request's state unchanged; a request with an unsupported response type gets an error response with no code or token in it.",
  "all requests and grants",
  "All subsets of response types.",
  [S+"oauth2/authorization.py: create_authn_response"])
p("A pushed authorization request can be used once",
  "In any history each pushed request_uri is resolved by at most one authorization request, and what is then processed is exactly the pushed request.",
  "all histories of pushes and authorization requests",
  "At-most-once over histories.",
  [S+"oauth2/authorization.py: Authorization._do_request_uri", S+"oauth2/pushed_authorization.py: PushedAuthorization.process_request"])
p("Unknown scopes are refused when configured",
  "With deny_unknown_scopes set, a request is processed only if every requested scope is among the client's allowed scopes (or the provider's supported scopes if none are set for the client).",
  "all requests, client and provider configurations",
  "Universal over scope lists.",
  [S+"oauth2/authorization.py: check_unknown_scopes_policy", S+"scopes.py: Scopes.filter_scopes"])
# ---- token endpoint
p("An authorization code is redeemed at most once",
  "In every history, with token requests for the same code arriving in any order and interleaved with any other operation, at most one token response is produced for one code.",
  "all histories of endpoint calls in any order, each call taken as atomic (threads inside a call: see C56), any number of requests for the same code",
  "At-most-once over all schedules.",
  [S+"oidc/token.py: AccessTokenHelper.post_parse_request, process_request", S+"session/grant.py: Grant.mint_token"])
p("A code yields tokens only under its own terms",
  "A token response for a code is produced only if the code was issued by this server in a grant that is still stored and active, the code is active at that time, and the redirect_uri presented equals the one in the authorization request.",
  "all server states and token requests",
  "Universal over states and requests.",
  [S+"oidc/token.py: AccessTokenHelper"])
p("A code is bound to the client it was issued to",
  "A token response for a code (or refresh token) is only produced for the client the code (or refresh token) was issued to.",
  "all server states, all pairs of clients",
  "Absence of a cross-client success for every pair of clients.",
  [S+"oidc/token.py: AccessTokenHelper.post_parse_request, RefreshTokenHelper.post_parse_request", S+"endpoint.py: Endpoint.parse_request"])
p("PKCE binds the code to the verifier",
  "With PKCE enabled, a token request for a code whose authorization request carried a code_challenge passes only if it presents a code_verifier whose transform under the recorded method equals the challenge; a challenge is only ever recorded with a configured method, and if PKCE is essential no request without a challenge passes.",
  "all requests, verifiers, challenges and configured method sets; any hash functions",
  "Universal over verifiers; defaulting of the method interacts with the allowed set.",
  [S+"oidc/add_on/pkce.py: post_authn_parse, post_token_parse, verify_code_challenge"])
p("Refresh works with PKCE enabled",
  "Enabling the PKCE add-on does not change the outcome of refresh-token requests.",
  "all server states and refresh requests",
  "Interaction of two features over all requests.",
  [S+"oidc/add_on/pkce.py: post_token_parse", S+"oidc/token.py: RefreshTokenHelper"])
p("Refresh tokens give access only while active, within their limits",
  "A refresh request succeeds only with an active refresh token of a stored, active grant; the new tokens record it as their base; a max_usage rule on refresh tokens bounds the number of successful refreshes.",
  "all histories of refresh requests",
  "Bound over histories.",
  [S+"oidc/token.py: RefreshTokenHelper"])
p("Scope never grows after authorization",
  "Every access or refresh token obtained through the token endpoint, in any number of refreshes, carries the scope of its grant in token responses and in introspection, and that scope is the one of the authorization request.",
  "all histories after the authorization",
  "Universal over refresh chains.",
  [S+"oidc/token.py", S+"authz/__init__.py: AuthzHandling.__call__", S+"oauth2/introspection.py"])
# ---- resource endpoints
p("Userinfo is only released for a live access token and a live authentication",
  "The userinfo endpoint returns claims only if the presented string is an access token stored in its grant, active now, and the authentication event is still valid; sub is the grant's subject and every other claim is one the grant allows for userinfo with a value from the user database matching the request's restriction.",
  "all server states, tokens and times",
  "Universal over states; filter semantics for all claim requests.",
  [S+"oidc/userinfo.py: UserInfo.process_request", S+"session/claims.py: ClaimsInterface.get_user_claims, claims_match"])
p("Introspection tells the truth",
  "Introspection answers active=true exactly for a stored access or refresh token that is active now, with the token's scope, client, times and subject; in all other cases the answer is active=false and reveals nothing else.",
  "all server states and token strings",
  "Iff over all states; the answer merges several dictionaries.",
  [S+"oauth2/introspection.py: Introspection._introspect, process_request"])
p("Claim requests are matched per OpenID Connect section 5.5.1",
  "claims_match(value, spec) holds exactly when a value exists and the spec is null, or only marks the claim essential, or names the value in 'value' or in 'values'; user claims returned are a subset of the requested ones.",
  "all values and claim specifications",
  "Universal over specs with any keys in any order.",
  [S+"session/claims.py: claims_match, ClaimsInterface.get_user_claims"])
p("Claims asked for in one request do not leak into other sessions",
  "Computing the claims for one session does not change the claims computed for any other session or the stored client configuration.",
  "all client configurations, requests and sessions",
  "A hidden mutation of shared configuration only shows in later sessions.",
  [S+"session/claims.py: ClaimsInterface.get_claims, _get_client_claims"])
p("ID token security claims cannot be overridden by user data",
  "In the ID token payload sub is the grant's subject, nonce is the one of the authorization request (or absent), acr and auth_time come from the authentication event, whatever the user database and the claims request contain; at_hash and c_hash are the left hashes of the tokens returned alongside.",
  "all user databases, claims requests and grants",
  "Universal over user data with arbitrary claim names.",
  [S+"id_token.py: IDToken.payload"])
p("auth_time reports when the user authenticated",
  "When an authorization request is answered on the strength of an existing login cookie, the authentication event records the time of that login, not the time of the request.",
  "all cookies and request times",
  "Universal over login ages.",
  [S+"oauth2/authorization.py: Authorization.setup_auth", S+"authn_event.py: create_authn_event"])
# ---- client authentication
p("Client authentication by secret is sound",
  "When an endpoint only allows secret-based methods, verify_client returns a client id only if the request presents that client's stored secret and the secret has not expired; with no method matching, no client id is returned.",
  "all client databases, requests, headers and method lists",
  "Universal over requests; loop over methods swallowing exceptions.",
  [S+"client_authn.py: verify_client, ClientSecretBasic, ClientSecretPost, valid_client_info"])
p("A client assertion with a jti is accepted once",
  "In any history of client authentications each (issuer, jti) pair is accepted at most once, and assertions not addressed to this server or endpoint are never accepted.",
  "all histories of assertions",
  "At-most-once over histories.",
  [S+"client_authn.py: JWSAuthnMethod.verify"])
# ---- registration
p("Registered redirect URIs obey the application-type rules",
  "Registration of a web client succeeds only if every redirect URI is http or https, without fragment, and https unless the only response type is 'code'; of a native client only with custom schemes or http on localhost; what is stored re-assembles to what was sent.",
  "all registration requests with any number of URIs",
  "Universal over URI lists.",
  [S+"oidc/registration.py: Registration.verify_redirect_uris"])
p("Registration never touches other clients and fails cleanly",
  "A registration with a fresh id leaves every existing client record unchanged, and a registration that is answered with an error leaves the client database unchanged; fields that only the administrator may set (secret, allowed scopes, token rules) cannot be set by the request.",
  "all client databases and registration requests",
  "Frame property over all clients and all error branches.",
  [S+"oidc/registration.py: client_registration_setup, do_client_registration"])
p("Registration read needs that client's registration token",
  "The registration read endpoint returns a client's data only to a request presenting a registration access token issued for that very client.",
  "all registration histories, tokens and client ids",
  "Universal over tokens and clients.",
  [S+"oidc/read_registration.py: RegistrationRead", S+"oidc/registration.py: add_registration_api"])
p("Client capabilities are within the provider's",
  "A registration request is accepted only if every preference it states (algorithms, response types, grant types, subject type, acr values, auth method) is among what the provider supports.",
  "all requests and provider configurations",
  "Set inclusion over sixteen preferences with two encodings.",
  [S+"oidc/registration.py: match_client_request, match_sp_sep"])
# ---- logout
p("Logout ends the session",
  "After a verified logout from a client, tokens of that client session are no longer accepted; after logout from all clients, the client session of every client the user was logged in to is revoked.",
  "all sessions, any number of clients",
  "Universal over clients and tokens.",
  [S+"oidc/session.py: Session.logout_from_client, logout_all_clients, clean_sessions", S+"session/manager.py: revoke_client_session"])
p("Logout is only initiated for the session in the cookie and only redirects to its client's URIs",
  "End-session processing succeeds only with a session cookie naming a stored session; if an id_token_hint is given its audience and subject match that session; a post-logout redirect URI is one registered by the session's client.",
  "all requests, cookies and sessions",
  "Universal over requests.",
  [S+"oidc/session.py: Session.process_request", S+"oauth2/authorization.py: verify_uri"])
# ---- policy
p("Per-client token usage rules override the provider's",
  "For each token type, the usage rules in force for a client are the provider's with the client's entries taking precedence, and these are the rules of the grants and tokens created for that client; computing them does not change the provider configuration.",
  "all provider and client configurations",
  "Merge semantics over arbitrary nested dictionaries; aliasing of configuration.",
  [S+"authz/__init__.py: AuthzHandling.usage_rules, __call__"])
p("Scopes give only the claims of allowed scopes",
  "Claims derived from scopes are exactly the claims of those requested scopes that the client is allowed to use.",
  "all scope lists, maps and client configurations",
  "Universal over scope lists.",
  [S+"scopes.py: filter_scopes, convert_scopes2claims, allowed_scopes", S+"session/claims.py: get_claims"])
p("Subject identifiers are stable, and pairwise when registered so",
  "The same user gets the same sub at the same client (same salt); a client registered for pairwise subjects gets a sub that depends on its sector.",
  "all users, clients and registrations; any hash function",
  "Universal over users; a configuration that is silently ignored passes tests that only look at stability.",
  [S+"session/manager.py: pairwise_id, public_id, create_grant", S+"oauth2/authorization.py: setup_auth", S+"oidc/authorization.py: setup_client_session"])
p("Authentication methods are found by their class reference",
  "For every history of registering and removing authentication methods under distinct ids, pick(acr) returns exactly the methods registered with that acr, in registration order.",
  "all histories of broker updates",
  "Two indexes kept in step over histories.",
  [S+"user_authn/authn_context.py: AuthnBroker"])
p("Stored grants and tokens come back unchanged",
  "Serialising a token or grant and restoring it yields the same token or grant, so limits such as use counts, revocation and expiry survive a restart.",
  "all tokens and grants",
  "Round trip over all field values, including falsy ones that constructors replace.",
  [S+"session/token.py: Token.to_json, from_json", S+"session/grant.py: Grant.to_json, from_json", S+"session/storage.py: JSON"])
p("Response signing and encryption follow the client's registration",
  "The algorithms used for an ID token are the client's registered ones if any, else the provider's configured default, else RS256 if supported, else the first supported one.",
  "all client and provider configurations",
  "Precedence over all combinations of present and absent settings.",
  [S+"id_token.py: get_sign_and_encrypt_algorithms"])
p("Logout cookies replace and expire the login cookies",
  "The cookies produced by kill_cookies make the browser drop the session cookies.",
  "all cookie dealer configurations",
  "Depends on zero meaning 'no expiry'.",
  [S+"oidc/session.py: Session.kill_cookies", S+"cookie.py: append_cookie, make_cookie_content, CookieDealer.create_cookie"])
p("Grant-type configuration is honoured",
  "The token endpoint serves exactly the grant types enabled in its configuration; enabling a built-in grant type with True behaves like the default.",
  "all configurations",
  "Configuration space.",
  [S+"oidc/token.py: Token.configure_grant_types, _post_parse_request, process_request"])
p("A code is redeemed at most once even by threads inside one process",
  "If two threads run process_request for the same code at the same time, at most one token response is produced.",
  "all interleavings of the storage reads and writes inside process_request",
  "Depends on thread schedules between load, mint, use registration and store.",
  [S+"oidc/token.py: AccessTokenHelper.process_request", S+"session/manager.py: get_session_info_by_token"])
p("Recursive revocation copes with derivation chains of any depth",
  "Revoking a token recursively finishes however long the chain of tokens minted from it is.",
  "all grants reachable by any number of refreshes; any recursion limit",
  "Unbounded history length against a fixed interpreter limit.",
  [S+"session/grant.py: Grant.revoke_token", S+"session/manager.py: SessionManager._revoke_dependent"])
p("The session binding of a JWT access token cannot be overridden",
  "In a JWT access token the session id and the token type are those the provider set, whatever the user database and the claims request contain; scope and audience likewise.",
  "all user databases, claims specifications and session ids",
  "Depends on the order of dictionary updates for arbitrary claim names.",
  [S+"session/grant.py: Grant.payload_arguments", S+"token/jwt_token.py: JWTToken.__call__"])
p("The form_post page carries exactly the response parameters",
  "The HTML page produced for response_mode form_post contains one hidden field per response parameter, with that parameter's name and value, and nothing else.",
  "all parameter names and values, including attacker-chosen state values",
  "Needs escaping to be right for every character of a client-supplied value.",
  [S+"oauth2/authorization.py: inputs, FORM_POST, Authorization.response_mode"])
p("A returning browser is served",
  "An authorization or token request that arrives with the provider's own session cookie is processed like any other: it gets a response, not an exception.",
  "all requests and cookies the provider issued",
  "Cookie handling crosses several modules; the failing path needs a second request with a previously issued cookie.",
  [S+"oauth2/authorization.py: Authorization.setup_auth, create_session", S+"oidc/token.py: Token.process_request"])
p("Request objects are fetched only from registered URIs",
  "A request_uri is dereferenced only if the client has registered it.",
  "all client records and request URIs",
  "Ranges over all registrations, including clients with none.",
  [S+"oauth2/authorization.py: Authorization._do_request_uri"])
p("A pushed authorization request is bound to its client",
  "A pushed request_uri can be used only in an authorization request of the client that pushed it.",
  "all histories of pushed and authorization requests",
  "Needs two clients and a history; nothing local records the owner.",
  [S+"oauth2/authorization.py: Authorization._do_request_uri", S+"oauth2/pushed_authorization.py: PushedAuthorization.process_request"])
p("Different users have different subject identifiers",
  "For a fixed salt, two different users, or one user in two different sectors, never get the same subject identifier.",
  "all pairs of user ids, salts and sectors; a collision-free hash",
  "Depends on the unseparated concatenation fed to the hash.",
  [S+"session/manager.py: public_id, pairwise_id"])
p("A revoked token is never accepted again",
  "Once a token has been revoked, in every later state of the provider the userinfo endpoint releases nothing for it and introspection never calls it active.",
  "all histories of endpoint requests and session-manager calls, all later times",
  "Universal over later histories of all endpoints.",
  [S+"session/token.py: Item.is_active, Item.revoke", S+"oidc/userinfo.py: UserInfo.process_request", S+"oauth2/introspection.py: Introspection.process_request"])
p("Clients with logout URIs get ID tokens",
  "Registering a back-channel or front-channel logout URI at a provider that supports it does not stop a client from getting ID tokens.",
  "all clients, provider configurations and sessions",
  "The failure depends on the combination of provider and client configuration.",
  [S+"id_token.py: IDToken.make, include_session_id"])
p("Userinfo is protected the way the client registered",
  "A userinfo response is signed exactly if the client registered a signing algorithm, with that algorithm, and encrypted exactly if it registered an encryption algorithm.",
  "all client registrations",
  "All combinations of three optional settings.",
  [S+"oidc/userinfo.py: UserInfo.do_response"])
p("A client with a secret must use it",
  "At an endpoint that requires or allows client authentication, a request for a client that has a secret is only accepted with valid credentials of that client; a wrong secret is refused even where clients without a secret may go unauthenticated.",
  "all client databases, method lists and requests",
  "Depends on the interplay of the method loop, which swallows failures, and the fallback.",
  [S+"client_authn.py: verify_client", S+"endpoint.py: Endpoint.__init__, client_authentication"])
p("client_secret_jwt proves knowledge of the current secret",
  "An assertion accepted by client_secret_jwt was signed with the secret stored for the client.",
  "all key jars, client databases and assertions",
  "Depends on which keys are in the key jar, in which order.",
  [S+"client_authn.py: JWSAuthnMethod.verify", S+"oidc/registration.py: client_registration_setup"])
p("The credentials a registration hands out work",
  "The client id and secret in a successful registration response authenticate that client at once, by secret or by client_secret_jwt, until the announced expiry.",
  "all registration requests, client databases and times",
  "Three stores (client database, key jar, registration tokens) must agree for every request content.",
  [S+"oidc/registration.py: client_registration_setup, do_client_registration", S+"client_authn.py: verify_client"])
p("Client authentication configured for the logout endpoint is applied",
  "If client authentication methods are configured for the end-session endpoint, a request with valid credentials of a client is accepted as coming from that client, and one without is refused; if none are configured, requests are accepted without.",
  "all method configurations, client databases and requests",
  "Needs every combination of configuration and credentials.",
  [S+"oidc/session.py: Session.parse_request", S+"endpoint.py: Endpoint.client_authentication", S+"client_authn.py: verify_client"])
p("Logout reaches every client",
  "Logout from all clients sends a logout token to every client of the user that registered a back-channel logout URI and returns an iframe for every other client that registered a front-channel one, whatever happens to the calls to other clients.",
  "all sets of clients and outcomes of the HTTP calls",
  "Universal over lists of clients and failure points.",
  [S+"oidc/session.py: Session.do_verified_logout, logout_all_clients, do_front_channel_logout_iframe"])
p("Cookies carry the attributes asked for",
  "A cookie made by create_cookie is marked secure, is hidden from scripts unless asked otherwise, lives exactly as long as asked (the configured maximum age by default, the browser session for zero), and is expired at once when it is to be killed.",
  "all dealer configurations, values, times to live and clock values",
  "Boundary values (0, negative) select different branches for all configurations.",
  [S+"cookie.py: CookieDealer.create_cookie, delete_cookie, make_cookie_content"])
p("A requested authentication class is honoured",
  "If an authorization request names authentication context class references (acr_values, or the acr claim of the claims parameter), the user is authenticated with a method registered for the first of them that has one; if none has one, the request is answered with an OAuth error and no exception escapes.",
  "every history of method registrations and removals, every list of requested class references and every claims parameter",
  "tests register one or two methods and request one value; the property ranges over all registries and all requests, including the ones with a single method and with none that fits.",
  [S+"user_authn/authn_context.py: pick_auth, AuthnBroker.pick", S+"oauth2/authorization.py: pick_authn_method, setup_auth"])

p("Tokens live exactly as long as configured",
  "A token minted with a configured lifetime is usable from the moment it is made up to and including that many seconds later, and not afterwards; a grant expires the configured time after the authorization; and expires_in in a token response is the lifetime of the access token returned.",
  "all histories of the provider, all lifetimes and clock values",
  "Off-by-one and base-of-counting errors show only at particular clock values; the property ranges over all of them and over all histories.",
  [S+"session/token.py: Item", S+"session/grant.py: Grant.mint_token", S+"oidc/token.py: TokenEndpointHelper._mint_token, AccessTokenHelper.process_request, RefreshTokenHelper.process_request", S+"oauth2/authorization.py: Authorization.mint_token"])
p("What is granted is what was asked for",
  "Whatever authorization policy is configured, and with none configured, a successful authorization gives the client the scopes it asked for (as far as they are supported), including a refresh token for offline_access, and the claims that belong to them.",
  "all provider histories, requests and policy configurations",
  "Universal over histories; the default policy is not exercised by the unit tests, which all configure one.",
  [S+"authz/__init__.py: AuthzHandling.__call__, Implicit.__call__", S+"endpoint_context.py: EndpointContext.do_authz"])

p("max_age is honoured",
  "If a request (or its signed request object) says max_age=m, a user whose session cookie was set more than m seconds ago is sent to log in again and nothing is stored; a more recent login is accepted.",
  "all cookies the provider can have set, all requests, configurations and clock values",
  "Universal over cookie ages, cookie types and request parameters, including the boundary value 0.",
  [S+"user_authn/user.py: UserAuthnMethod.authenticated_as", S+"oauth2/authorization.py: max_age, Authorization.setup_auth"])
p("prompt is honoured",
  "With prompt=login a user is asked to log in even if a valid session cookie is presented; with prompt=none no login page is ever shown.",
  "all requests, cookies and configurations",
  "Universal over requests; the two modules define functions of the same name and the tests call each one directly.",
  [S+"oauth2/authorization.py: re_authenticate, Authorization.setup_auth", S+"oidc/authorization.py: re_authenticate"])
p("Every user can use the provider",
  "A user who has logged in, whatever the user name, is recognised by the session cookie and served.",
  "all user names, requests and cookie ages",
  "Only names of certain lengths and alphabets fail; the tests use one or two names.",
  [S+"oauth2/authorization.py: Authorization.setup_auth", S+"user_authn/user.py: UserAuthnMethod.authenticated_as"])
p("A session belongs to the user who logged in",
  "The session with which the authorization endpoint goes on, and thus the code and the tokens, is for the user named in the session cookie.",
  "all user names, cookies, stored sessions and requests",
  "Universal over user names, which users may choose.",
  [S+"oauth2/authorization.py: Authorization.setup_auth", S+"session/manager.py: SessionManager.create_grant"])
p("Hints about the user are honoured",
  "If a request says which user it is for (id_token_hint, login_hint), it is not answered with a session of another user.",
  "all requests, hints, cookies and configurations",
  "Universal over hints and configurations.",
  [S+"oidc/authorization.py: proposed_user, Authorization.do_request_user", S+"oauth2/authorization.py: Authorization.setup_auth"])
p("User data is searched and released exactly",
  "Searching the user data gives the first user whose record has all wanted values, and an error only if there is none; of a user's data exactly the claims asked for are released, with the stored values; a telephone login hint finds a user with that number.",
  "all user databases, searches, claims requests and hints",
  "Universal over databases and nested values.",
  [S+"user_info/__init__.py: dict_subset, UserInfo", S+"login_hint.py: LoginHintLookup", S+"endpoint_context.py: EndpointContext.do_login_hint_lookup"])
p("Authentication methods let in exactly those with the right credentials",
  "A password form, HTTP Basic and symmetric-key authentication each identify a user if, and only if, that user's credential was presented.",
  "all credential databases and presented credentials",
  "Universal over credentials.",
  [S+"user_authn/user.py: UserPassJinja2.verify, BasicAuthn.authenticated_as, SymKeyAuthn.authenticated_as"])

p("A login is relied on only while it is valid",
  "Whenever the authorization endpoint goes on with a session, new or named by the cookie, the login recorded for it is still valid; it is valid for the configured time (an hour by default); and if it has expired the user is sent to log in.",
  "all stored sessions, cookies, requests and clock values",
  "The boundary instant and the two places at which validity is checked have to agree for all clock values.",
  [S+"oauth2/authorization.py: Authorization.setup_auth", S+"authn_event.py: AuthnEvent.is_valid, create_authn_event"])

p("The code flow works for an honest client",
  "A registered client that sends a well-formed authorization request with response_type code, for a user with a valid login, gets a code; presenting that code once before it expires at the token endpoint, with the same client id and redirect URI, gets an access token; that access token, before it expires, is served by the userinfo endpoint; and a refresh token before it expires gets a new access token.",
  "all client databases, stored sessions, requests, clock values and everything other clients do meanwhile",
  "Liveness over all states and requests: the tests run one or two configurations, one session at a time.",
  [S+"oauth2/authorization.py: Authorization.process_request", S+"oidc/token.py: AccessToken.process_request, RefreshToken.process_request", S+"oidc/userinfo.py: UserInfo.process_request"])
p("Registration checks and returns the client's other URIs",
  "A registration succeeds only if no post-logout redirect URI has a fragment, no request URI has a query, all redirect URIs are in the sector document if one is named, and the informational URIs are at the site of a redirect URI; what is stored is what was sent, the response gives the URIs back as sent, and an algorithm is recorded exactly if the provider has a key for it.",
  "all registration requests, client databases and provider configurations",
  "Universal over the contents of registration requests; the tests register a handful of records.",
  [S+"oidc/registration.py: Registration.do_client_registration, verify_url, comb_uri"])

p("Published addresses are the real ones",
  "The issuer, the address of the keys and the address of every endpoint in the provider's published metadata are those it is configured with and serves, and no address is published for an endpoint that does not exist.",
  "all configurations, and several providers started in one process",
  "Universal over configurations; the tests start one or two.",
  [S+"endpoint_context.py: EndpointContext.do_endpoints, create_providerinfo", S+"util.py: build_endpoints", S+"oidc/provider_config.py: ProviderConfiguration.process_request"])
p("What is configured is published",
  "A capability the configuration states, for the provider as a whole or as a setting of an endpoint, appears in the published metadata as stated.",
  "all configurations, capabilities and orders of endpoints",
  "Which of several sources wins depends on the order and combination of all settings.",
  [S+"endpoint.py: construct_endpoint_info", S+"endpoint_context.py: EndpointContext.do_endpoints, create_providerinfo"])
p("Published algorithms are implemented",
  "Every algorithm listed in the published metadata is implemented by the crypto library; unconfigured lists are complete, ordered by family, and never offer \"none\" for client authentication; any set of library algorithms can be listed.",
  "all libraries of algorithms and configurations",
  "Universal over the algorithms of the library and over configurations.",
  [S+"endpoint.py: sort_sign_alg, assign_algorithms, construct_endpoint_info", S+"id_token.py: IDToken"])
p("Published scopes are the scopes granted",
  "A client without a list of allowed scopes of its own can be granted exactly the scopes in the published metadata.",
  "all configurations, scope maps and clients",
  "Universal over configurations.",
  [S+"scopes.py: available_scopes, Scopes", S+"endpoint_context.py: EndpointContext.create_providerinfo", S+"oauth2/authorization.py: Authorization"])
p("Metadata is complete and clients can register for what is served",
  "The published metadata has the required entries, and a client may register for anything the provider serves: refresh tokens, an authentication method, a subject type.",
  "all configurations and registration requests",
  "Universal over configurations and registration requests.",
  [S+"endpoint.py: construct_endpoint_info", S+"endpoint_context.py: EndpointContext.create_providerinfo", S+"oidc/registration.py: Registration.match_client_request"])
p("A provider with a sound configuration starts",
  "If every endpoint has a path and nothing outside the library is asked for, the provider starts, with or without refresh tokens and whether or not capabilities are stated.",
  "all configurations",
  "Universal over configurations.",
  [S+"endpoint_context.py: EndpointContext.__init__", S+"util.py: allow_refresh_token, build_endpoints"])
p("Custom scopes extend what is there",
  "Adding custom scopes publishes them and their claims, makes them available to clients, and takes nothing away from the scopes that were available before.",
  "all scope maps, custom scopes and configurations",
  "Universal over scopes and configurations.",
  [S+"oidc/add_on/custom_scopes.py: add_custom_scopes", S+"scopes.py: available_scopes"])

p("Responses are not cacheable and have one content type",
  "Every response of an endpoint tells caches not to store it and has one content type, that of its body; building it does not change the headers the caller passed in.",
  "all endpoints, styles, arguments and headers",
  "Universal over messages, headers and endpoint styles.",
  [S+"endpoint.py: Endpoint.do_response, set_content_type", S+"oidc/userinfo.py: UserInfo.do_response", S+"oidc/discovery.py: Discovery.do_response"])
p("An error response contains the error and nothing else",
  "What is sent for a failed request is the error and its description, whatever response was prepared before; the error always reaches the other side.",
  "all endpoints, arguments and prepared responses",
  "Non-interference over all arguments.",
  [S+"endpoint.py: Endpoint.do_response"])
p("Every authorization outcome reaches the client",
  "After the user logged in, the client gets an answer at its verified redirect URI: the response if authorization is given, an error if it is denied or fails.",
  "all requests, sessions, stores, clocks and configurations",
  "Universal over states and failures, most of which tests do not provoke.",
  [S+"oauth2/authorization.py: Authorization.post_authentication, authz_part2, error_response", S+"endpoint.py: Endpoint.do_response"])
p("An authorization response says who sent it, for whom and for which request",
  "Every authorization response, success or error, in whatever response mode, carries the issuer, the client id and the state of the request (mix-up mitigation).",
  "all requests, response modes and outcomes",
  "Universal over outcomes and response modes.",
  [S+"oauth2/authorization.py: Authorization.authz_part2, response_mode, error_response"])
p("The session state identifies client, origin and login",
  "With session management, responses carry a session state; equal states mean the same client, origin and browser state, and the cookie it is compared with is set by the same response.",
  "all clients, redirect URIs, cookies, salts and configurations",
  "Injectivity over all strings.",
  [S+"oauth2/authorization.py: Authorization.authz_part2", S+"cookie.py: compute_session_state"])
p("Errors come back where the response would have",
  "A login_required error is put into the query or the fragment of the redirect URI, as a success for the requested response type would have been.",
  "all response types and redirect URIs",
  "Universal over response types.",
  [S+"endpoint.py: Endpoint.do_response, fragment_encoding", S+"oauth2/authorization.py: Authorization.setup_auth"])
p("The storage back end makes no difference",
  "The same sequence of session reads and deletions gives the same results and leaves the same sessions whichever of the supplied storage back ends (dictionary, in-memory, shelve) holds them.",
  "all stores, keys and back ends",
  "Equivalence of implementations over all contents and keys.",
  [S+"session/database.py: Database", S+"in_memory_db.py: InMemoryDataBase", S+"shelve_db.py: ShelveDataBase"])
p("Request objects are accepted only if protected as registered",
  "A request object is used only if the algorithms it is signed and encrypted with are those the client registered or, if it registered none, ones the provider publishes; whether it came by value or by reference.",
  "all requests, request objects, client records and provider configurations",
  "Universal over algorithms and registrations.",
  [S+"oauth2/authorization.py: AllowedAlgorithms, Authorization._do_request_uri"])
p("Logout tokens name client, session and user",
  "Each logout token is signed by the provider, addressed only to the client it is sent to, valid for a day, and names the user who logged out and the session, the same way each time.",
  "all users, sets of sessions, clients and stores",
  "Universal over sets of sessions.",
  [S+"oidc/session.py: Session.do_back_channel_logout, logout_all_clients, logout_from_client"])
p("Session ids in logout tokens are readable by the provider only",
  "The session id in a logout token can be decrypted by the provider, and nobody else learns anything about it from any set of logout tokens.",
  "all session ids and sets of logout tokens",
  "Confidentiality over all messages.",
  [S+"oidc/session.py: Session._encrypt_sid, _decrypt_sid"])
p("Clients do not learn the local user name",
  "Nothing a client receives contains the name under which the user logs in; it gets the subject identifier only.",
  "all tokens, logout notices, users and configurations",
  "Information flow over all outputs.",
  [S+"oidc/session.py: do_front_channel_logout_iframe", S+"token/jwt_token.py: JWTToken.__call__"])
p("The state of a logout request comes back",
  "After logout the registered post-logout redirect URI is called with the state of the request as one more parameter.",
  "all requests and registered URIs",
  "Universal over URIs.",
  [S+"oidc/session.py: Session.process_request"])
p("The logout page contains the registered addresses and nothing else",
  "The frames of the logout page have the registered front-channel logout URIs as their addresses; clients cannot put anything else into the page.",
  "all registered URIs",
  "Injection over all strings.",
  [S+"oidc/session.py: do_front_channel_logout_iframe"])

p("Killing the provider leaves no dangling references",
  "Whatever session-manager calls are made and whichever of them the process is killed in, at whatever write, every client listed for a user and every grant listed for a client can be read after the restart.",
  "all histories of calls, all sets of killed calls and all crash points",
  "Ranges over crash points; tests do not kill the process between two writes.",
  [S+"session/database.py: Database.set, Database.delete", S+"session/manager.py: SessionManager", S+"shelve_db.py: ShelveDataBase"])
p("After any crash every user can log in",
  "After every history of calls and deletions killed at whatever points, creating a session for any user at any client succeeds and the new session can be read.",
  "all histories, crash points, users and clients",
  "Ranges over crash points and histories.",
  [S+"session/manager.py: SessionManager.create_session", S+"session/database.py: Database.set, get"])
p("An interrupted deletion can be completed",
  "If the process is killed while it deletes a client session, deleting it again after the restart gives the result the first deletion would have given.",
  "all stores, client sessions and crash points",
  "Ranges over crash points and back ends.",
  [S+"session/database.py: Database.delete", S+"shelve_db.py: ShelveDataBase.__delitem__"])
p("What a token response hands out is in the storage",
  "When a token response is given its tokens are stored: after a crash right then the session can be read and has them, and at every later moment a session that is still stored has them.",
  "all histories with crashes, all token responses, all later moments",
  "Ranges over histories and crash points.",
  [S+"oidc/token.py: AccessTokenHelper.process_request, RefreshTokenHelper.process_request", S+"session/manager.py: __setitem__"])
p("A token request interrupted by a crash is complete or can be repeated",
  "If the process is killed while it exchanges a code, then either everything was stored or the code is accepted exactly as before; a refresh token is accepted exactly as before in any case.",
  "all histories, token requests, crash points and later requests",
  "Ranges over crash points.",
  [S+"oidc/token.py: AccessTokenHelper.process_request, RefreshTokenHelper.process_request"])
p("Subject identifiers survive a restart",
  "After the provider is restarted on the same storage, sessions keep their subject identifier, and a user who logs in again at the same client has the same subject identifier as before.",
  "all users, clients, histories and crash points",
  "Needs a restart between two logins.",
  [S+"session/manager.py: SessionManager.__init__, public_id, pairwise_id"])
p("A request changes the sessions of its own user only",
  "A request changes nothing that is stored for any user it is not about (a request is about the user who logs in, and the owners of the tokens and session ids in it): their sessions read the same before and after, and userinfo and introspection say the same about their tokens.",
  "all requests, stores, users, crash points",
  "A frame property: ranges over everything that must not change.",
  [S+"session/database.py: Database.set, delete", S+"session/manager.py: SessionManager", S+"oidc/token.py: Token", S+"oauth2/authorization.py: Authorization"])
p("Users do not interfere with each other",
  "Take any group of users whose names are not client ids, and any history in which no request mixes users of the group with others. Leave out any of the requests of the others: the group cannot tell the difference, every further request of theirs gets the same answer.",
  "all histories, crash points, groups of users, subsets of the others' requests, and later requests",
  "Non-interference: a statement about pairs of histories.",
  [S+"session/database.py: Database", S+"session/manager.py: SessionManager", S+"oidc/token.py: Token", S+"oauth2/authorization.py: Authorization", S+"oidc/userinfo.py: UserInfo", S+"oauth2/introspection.py: Introspection"])
p("Requests of different users can be served in any order",
  "Two requests that have no user in common can be served in either order: the same is stored afterwards, and each gets the answer it would have got alone.",
  "all pairs of requests (client ids of deleted grants are not user names) and all stores",
  "Ranges over schedules.",
  [S+"session/database.py: Database", S+"session/manager.py: SessionManager", S+"oidc/token.py: Token"])
p("No user data without a login",
  "If the userinfo endpoint tells a client about a user, then earlier in the provider's history this user logged in at this client (or used the cookie of an earlier login at it, or the application made the session), the subject identifier is the one computed at that login, the user was actually authenticated, and that authentication is still valid now. Cookies name a user and a session of the same user.",
  "all histories of requests, session-manager calls, revocations, deletions and crashes; all users, clients, tokens and times",
  "A statement about every history: it excludes all ways of getting at user data without a login.",
  [S+"oidc/userinfo.py: UserInfo.process_request", S+"oauth2/authorization.py: Authorization.setup_auth", S+"session/manager.py: SessionManager"])
p("No token without a login",
  "If the token endpoint hands out tokens, the code or refresh token in the request was issued in a session that goes back to a login of its user at its client, and the new access and refresh tokens belong to that same session for ever.",
  "all histories, token requests and later moments",
  "A statement about every history.",
  [S+"oidc/token.py: AccessTokenHelper.process_request, RefreshTokenHelper.process_request", S+"session/token.py: Token"])
p("A token is called active only if somebody logged in",
  "If introspection says that a token is active, it is a token stored in a session that goes back to a login; client id, subject identifier and (if configured) user name in the answer are those of that login, unless claims of these names are released.",
  "all histories, tokens and times",
  "A statement about every history.",
  [S+"oauth2/introspection.py: Introspection.process_request"])
p("An authorization response is for the user who is logged in",
  "The code and the access token in an authorization response are stored when it is sent, in a session of the user authenticated in that request (or named in the cookie) at the client that sent it, and never resolve to any other session.",
  "all histories, authorization requests and later moments",
  "A statement about every history.",
  [S+"oauth2/authorization.py: Authorization.create_authn_response, authz_part2, setup_auth"])
p("Only a login at the authorization endpoint makes a session",
  "Whatever requests the provider gets, at whichever endpoints, every stored session goes back to an authorization request whose browser showed a login or session cookie of that user, for a client that was known then (from the configuration or by registration); the authentication it records is one the user's browser really showed. No other endpoint makes sessions.",
  "all histories of HTTP requests at all endpoints, with restarts; all users and clients",
  "A statement about every history and every endpoint.",
  [S+"endpoint.py: Endpoint.parse_request", S+"oauth2/authorization.py: Authorization.setup_auth", S+"endpoint_context.py: EndpointContext"])
p("The userinfo endpoint tells about a user only who shows a token from that user's login",
  "If the userinfo endpoint answers with claims, the HTTP request shows an access token in a place the endpoint allows, that token belongs to a session made by a login on the web, the subject identifier and all claims are those of that login's user, and the authentication is still valid. A request without token gets no claims.",
  "all histories of HTTP requests, userinfo requests and times",
  "A statement about every history and every request.",
  [S+"oidc/userinfo.py: UserInfo.parse_request, process_request", S+"client_authn.py: verify_client"])
p("Tokens are given only to clients that show a secret, for a login",
  "Where the token endpoint is configured for client secrets only: tokens are given only for a request in which a known client showed its (unexpired) secret, for a code or refresh token stored in a session made by a login on the web, and the new tokens belong to that session.",
  "all histories of HTTP requests",
  "A statement about every history across endpoints.",
  [S+"endpoint.py: Endpoint.parse_request, client_authentication", S+"oidc/token.py: Token", S+"client_authn.py: verify_client"])
p("Introspection answers only clients that show a secret",
  "Where the introspection endpoint is configured for client secrets only: it answers only a request in which a known client showed its (unexpired) secret, and an active token is one from a session made by a login on the web; client id, subject and user name are that login's.",
  "all histories of HTTP requests, tokens and times",
  "A statement about every history across endpoints.",
  [S+"oauth2/introspection.py: Introspection.process_request", S+"endpoint.py: Endpoint.parse_request"])
p("The authorization response on the web is for the browser's user",
  "If the authorization endpoint answers with a code or an access token, these are stored in a session of the user whose cookie the browser showed, at the client named in the request as parsed, and never resolve to another session.",
  "all histories of HTTP requests, authorization requests, cookies and later moments",
  "A statement about every history across endpoints.",
  [S+"oauth2/authorization.py: Authorization", S+"user_authn/user.py: UserAuthnMethod.authenticated_as"])
p("Codes go only to URIs that the client registered",
  "If the authorization endpoint answers with a code or token, the address it is sent to is (decoded, compared by base and query) one that this client gave in a successful registration, unless the client is in the provider's configuration.",
  "all histories of registrations and other HTTP requests, all authorization requests",
  "Connects registration and authorization over every history.",
  [S+"oidc/registration.py: Registration.client_registration_setup", S+"oauth2/authorization.py: get_uri, verify_uri"])
p("A client assertion is accepted once in the life of the provider",
  "Over all endpoints, and also when the provider is restarted, an assertion with a jti authenticates its client at most once.",
  "all histories of HTTP requests at all endpoints, with restarts",
  "Needs a statement about every history and every restart.",
  [S+"client_authn.py: JWSAuthnMethod.verify", S+"endpoint_context.py: EndpointContext.add_boxes"])
p("Endpoints authenticate clients unless told not to",
  "At the token, introspection and pushed authorization endpoints a client that has a secret must show it, also when the configuration does not mention client authentication: a code cannot be redeemed, and a token not be asked about, by somebody without credentials.",
  "all configurations without client_authn_method, all requests",
  "Ranges over all requests and histories.",
  [S+"endpoint.py: Endpoint.__init__, client_authentication", S+"oidc/token.py: Token.default_capabilities", S+"oauth2/introspection.py: Introspection"])
p("A pushed request is processed in the name of the client that pushed it",
  "Where clients must show their secret to push authorization requests, an authorization request that refers to a pushed one is processed in the name of a client only if somebody showed this client's secret when pushing.",
  "all histories of HTTP requests, all references to pushed requests",
  "A statement about every history across two endpoints.",
  [S+"oauth2/pushed_authorization.py: PushedAuthorization", S+"oauth2/authorization.py: Authorization._do_request_uri"])
p("Pushed requests expire",
  "A reference to a pushed authorization request is refused after the announced expires_in seconds.",
  "all pushed requests, later times and histories in between",
  "Ranges over time.",
  [S+"oauth2/pushed_authorization.py: PushedAuthorization.process_request", S+"oauth2/authorization.py: Authorization._do_request_uri"])
p("The session tree stays a tree whatever requests are made",
  "After any sequence of HTTP requests at the provider's endpoints, with restarts, every client listed for a user and every grant listed for a client can be read, and everything stored is a user, a client of a user, or a grant of a client, under its own key.",
  "all histories of HTTP requests with restarts, where names contain no semicolon",
  "A statement about every history across endpoints.",
  [S+"session/database.py: Database", S+"session/manager.py: SessionManager.create_session", S+"oauth2/authorization.py: Authorization", S+"oidc/session.py: Session.logout_all_clients"])
p("A client that registers itself can run the code flow",
  "A web client that registers for the code flow is given an id and a secret; whenever the browser of a logged-in user brings its authorization request, the answer is a code at its redirect URI; whoever redeems that code with the client's secret gets an access token (with a refresh token for offline_access, an ID token for openid), and whoever shows that token at the userinfo endpoint gets the user's claims and subject identifier. What others do in between, and restarts of a provider with storage on disk, do not get in the way, as long as code, grant, token and login live.",
  "all histories of HTTP requests before, and of requests concerning other users or other clients between, the steps; all requests, users, clients and times within the lifetimes",
  "A liveness statement over every interleaving with the requests of others.",
  [S+"oidc/registration.py: Registration.client_registration_setup", S+"oauth2/authorization.py: Authorization.process_request", S+"oidc/token.py: Token.process_request", S+"oidc/userinfo.py: UserInfo.process_request", S+"client_authn.py: verify_client"])
p("Token handlers start as configured and a restart does not lose tokens",
  "Starting a provider gives each kind of token exactly the class, lifetime and key its configuration says (ten minutes, an hour and a day with separate keys if nothing is configured), and fails only when a handler has no password. A provider with handlers for codes and access tokens reads every token string it makes as the kind, session and expiry it was made with; after a restart with its key file it reads them the same, and if the key file is lost it refuses them all.",
  "all handler configurations, key files, sessions, times and restarts",
  "Ranges over all configurations and restarts.",
  [S+"token/handler.py: factory, init_token_handler, _add_passwd, TokenHandler", S+"endpoint_context.py: get_token_handlers", S+"token/__init__.py: DefaultToken", S+"token/jwt_token.py: JWTToken"])
p("A provider that starts can look up tokens",
  "Whatever token handlers are configured, a provider that starts without an error can read the token strings it makes.",
  "all handler configurations and token strings",
  "Ranges over all configurations and strings.",
  [S+"token/handler.py: factory, TokenHandler.get_handler"])
p("Refresh tokens work over HTTP, any number of times, until they or the session expire",
  "At a provider that issues refresh tokens and does not use PKCE, a client that authenticates with its secret and presents a refresh token of an active session gets a new access token for the scope of the session; the userinfo endpoint answers that access token with the released claims and the subject identifier; and a newly issued refresh token can be used in its turn. A refresh token stays usable however often it or another refresh token is used, whatever requests concerning other users or other clients are served in between, and over restarts with sessions kept on disk.",
  "every configuration of such a provider, every history of requests before, between and after, every user, client and session with names in the usual alphabet, every request time before expiry",
  "A test refreshes once or twice in one quiet process; the claim is about any number of refreshes, interleaved with arbitrary other traffic.",
  [S+"oidc/token.py: RefreshToken, Token", S+"session/grant.py: Grant.mint_token, Token.is_active", S+"oidc/userinfo.py: UserInfo.process_request", S+"session/manager.py: SessionManager.get_session_info_by_token"])
p("Session lookups return what is stored, in any combination of parts",
  "For every session of the session manager, the lookup by session identifier names its user, client and grant and returns exactly the parts asked for (user record, client record, grant, authentication event, authorization request), each as it is stored; the records are of the right kind and list the session; the lookups for single parts agree; the lists of grants and of authentication events of a user at a client are those of the sessions listed there, however one asks; and no part of a session that does not exist is returned.",
  "every history of session-manager calls with usable identifiers, every back-end mode, every session, every combination of requested parts",
  "A test asks for the combinations the endpoints happen to use, about a session just created.",
  [S+"session/manager.py: SessionManager.get_session_info, get_session_info_by_token, get_client_session_info, get_user_session_info, get_authentication_event, get_authentication_events, get_authorization_request, grants"])
p("What happens at one client does not change a user's sessions at the others",
  "A user's sessions at a client (the record, the grants, the tokens in them) are unchanged by every request that concerns another user or another client: authorization requests of other clients, also from the same user's browser, redemption of codes and refresh tokens of other clients, logout from another client, registrations, pushed requests, lookups. In particular the userinfo and introspection endpoints answer about the client's tokens the same as before, and its codes and refresh tokens are accepted or refused the same as before.",
  "every configuration, every history of requests, every stretch of requests that concern others, every user and client with names in the usual alphabet, every token and time",
  "Ranges over all histories and interleavings of clients; a leak would need a particular combination of clients, users and operations.",
  [S+"session/database.py: Database.set, get", S+"session/manager.py: create_session, create_grant, revoke_client_session", S+"oauth2/authorization.py: setup_auth, authz_part2, create_authn_response", S+"oidc/token.py: AccessToken, RefreshToken", S+"oidc/session.py: Session.logout_from_client, do_verified_logout"])
p("Every stored token was made by one request and shown in its answer",
  "Whatever token (authorization code, access token or refresh token) the session storage holds after any number of HTTP requests was put there by one particular earlier request to the authorization endpoint or, if it is not a code, to the token endpoint; and if that request was answered with success, its answer contained the string. So the userinfo endpoint releases claims only for an access token, and introspection says 'active' only of a token, that such a request made.",
  "every configuration, every history of HTTP requests and restarts (names and identifiers without semicolons, new session ids, library laws), every point in it, every stored token",
  "An unbounded history of requests by any number of users and clients; tests see single tokens they have just been given.",
  [S+"oidc/token.py: TokenEndpoint.process_request, AccessToken.process_request, RefreshToken.process_request", S+"oauth2/authorization.py: Authorization.create_authn_response", S+"session/grant.py: Grant.mint_token", S+"oidc/userinfo.py: UserInfo.process_request", S+"oauth2/introspection.py: Introspection.process_request"])
p("A code works once, and on the terms of the request that made it, over HTTP",
  "In any history of HTTP requests an authorization code gets at most one token response; and a redeemed code was made by an earlier authorization request whose browser showed the login of the user whose session it is; if that request named a redirect URI the redemption names the same one, the granted scope is that of the request, and if PKCE is on and the request had a challenge, the redemption has a verifier that hashes to it.",
  "every configuration, every history of HTTP requests and restarts, every pair of redemptions, every redemption in it",
  "The two redemptions may be arbitrarily far apart, and the request that made the code may be arbitrarily long ago, interleaved with anything.",
  [S+"oidc/token.py: AccessToken.process_request, AccessToken.post_parse_request", S+"oauth2/authorization.py: Authorization.process_request", S+"oidc/add_on/pkce.py: post_token_parse"])
p("A faulty authorization request gets an error answer",
  "An authorization request from an unknown client, with a response type the client has not registered, with a redirect URI that is not registered for the client, or with none although the client does not have exactly one, is answered with an error message (unauthorized_client or invalid_request), and changes nothing.",
  "every configuration, provider state and request without request object",
  "All client records, URIs and response types; tests try a few bad URIs.",
  [S+"oauth2/authorization.py: Authorization._post_parse_request, get_uri, verify_uri, Authorization.verify_response_type", S+"endpoint.py: Endpoint.parse_request"])
p("The claims of a session come from request, scopes, configuration and client record, in that order",
  "When a user authorizes, the session gets, for each of the four uses (userinfo, introspection, ID token, access token), exactly the claims that the configuration of that use lets in: those asked for by the claims parameter (userinfo and ID token only), those of requested scopes the client may use, the base claims, and the client's own claims; and where several sources name a claim, the restriction (value, values, essential) is that of the first of them in this order.",
  "every configuration, client record, set of scopes, claims request, use and claim name",
  "All combinations of four sources and configuration switches with arbitrary names.",
  [S+"authz/__init__.py: AuthzHandling.__call__", S+"session/claims.py: ClaimsInterface.get_claims, ClaimsInterface.authorization_request_claims, ClaimsInterface._get_client_claims", S+"scopes.py: convert_scopes2claims"])
p("A cookie that is not the provider's is taken as no cookie",
  "If the browser sends a cookie of the provider's cookie name that the provider did not make (another format, another key, tampered with), the authorization endpoint treats the browser as not logged in instead of failing.",
  "every cookie string, every dealer configuration, every request",
  "All strings and keys.",
  [S+"cookie.py: ver_dec_content, CookieDealer.get_cookie_value", S+"user_authn/user.py: UserAuthnMethod.authenticated_as", S+"oauth2/authorization.py: Authorization.setup_auth"])
p("What a token is good for",
  "Asked for the specification of a token, an active grant answers with the token's own scopes, claims and resources, each replaced by the grant's where the token has none of its own; and there is no specification for a token of an inactive grant, or for a token that is itself revoked, expired or used up.",
  "every grant, token and time",
  "All grants, tokens and clocks.",
  [S+"session/grant.py: Grant.get_spec", S+"session/token.py: Token.is_active"])
p("A genuine logout request is served",
  "A browser with the cookie of a stored session of a registered client that asks to log out gets the confirmation page of exactly that session; with a genuine ID token hint for that client and subject and a post-logout URI registered for the client it will be sent to that URI with its state, and without such a URI to the provider's default address.",
  "every provider state, session, cookie and request",
  "All stores, records and requests; tests log out of one session.",
  [S+"oidc/session.py: Session.process_request, Session.parse_request", S+"oauth2/authorization.py: verify_uri"])
p("An unusable code or refresh token gets an error answer",
  "A request at the token endpoint with a code or refresh token that is missing, not made by the provider, of a user the provider does not know any more, unknown to its session, of another kind, expired, revoked or used up, for a code also with a wrong verifier or redirect URI, is answered with an OAuth error (invalid_grant or invalid_request) and not with an exception.",
  "every configuration with the built-in grant types, every store, time and request",
  "All stores, strings and times; tests send one wrong code.",
  [S+"oidc/token.py: AccessTokenHelper.post_parse_request, RefreshTokenHelper.post_parse_request, AccessTokenHelper.process_request", S+"oidc/add_on/pkce.py: post_token_parse"])
p("An unusable access token is told so",
  "A userinfo request without a token, or with a string that is not a live access token of a stored session (empty, not made by the provider, of another kind, revoked, used up, expired, of a session that was removed), is answered with invalid_token; an introspection request about it with active=false; and nothing changes.",
  "every configuration that takes bearer tokens, every state, time and string",
  "All states and strings.",
  [S+"oidc/userinfo.py: UserInfo.process_request, UserInfo.parse_request", S+"oauth2/introspection.py: Introspection.process_request", S+"endpoint.py: Endpoint.client_authentication"])
p("A registration is accepted exactly if nothing is wrong with it",
  "A registration request of the right types is accepted exactly if the provider supports all it asks for, no post-logout redirect URI has a fragment, every redirect URI is allowed for the type of application, no request URI has a query, the sector document is readable and lists all redirect URIs, and the policy, logo and terms URIs are on the site of a redirect URI. Otherwise the error code says which rule was broken: invalid_request, invalid_redirect_uri or invalid_configuration_parameter. The accepted client is told where, and with which token, it can read its record, and the other endpoints see the URIs and types it sent.",
  "every provider configuration, client database and registration request of the right types",
  "An equivalence over all requests, lists of URIs and capabilities.",
  [S+"oidc/registration.py: Registration.client_registration_setup, Registration.do_client_registration, Registration.match_client_request, Registration.add_registration_api"])
p("Sessions made through the API have a subject identifier of the type asked for",
  "create_session with subject type public gives the session the subject identifier hash(uid, salt), with pairwise hash(uid, sector identifier of the request, salt), with ephemeral a fresh one, and where the application has its own function for a type, what that function returns. With any other type nothing is created: KeyError, and every grant stays as it was.",
  "every storage, user, client, request, hash function, salt and table of functions",
  "All users, sectors and tables; tests check one identifier.",
  [S+"session/manager.py: pairwise_id, public_id, ephemeral_id, SessionManager.__init__, SessionManager.create_grant, SessionManager.create_session"])
p("Stored session documents with missing entries are read with defaults",
  "A grant that is read from a JSON storage has every entry its document has, and for those missing the values of a new grant: issued now, not revoked, unused, no expiry; likewise each of its tokens. Reading fails only for a token without a type or of a type the token map does not know.",
  "every document, time and identifier",
  "All subsets of missing entries; tests read what they have written.",
  [S+"session/grant.py: Grant.from_json, ExchangeGrant.__init__", S+"session/storage.py: JSON.deserialize", S+"session/token.py: Item.__init__, Token.__init__"])
p("The login form brings the request back",
  "The signed token in the login page, when the application unpacks it after the user has posted the form, gives back exactly what the page was shown for: the authorization request as a query string, its return address, the authentication class, the user asked for, and the hints of the request and addresses of the client that are there; nothing else but issuer and time. The page shows the client's policy, terms and logo addresses, or else the configured ones. It can be made exactly if the request has a redirect URI, the provider an RSA key, and no configured page parameter is called action or token.",
  "every request, client record, page configuration, key jar and time",
  "All requests and configurations; tests render one page.",
  [S+"oauth2/authorization.py: authn_args_gather", S+"user_authn/user.py: UserPassJinja2.__init__, UserPassJinja2.__call__, create_signed_jwt, verify_signed_jwt, UserAuthnMethod.unpack_token"])
p("Only the provider makes login forms",
  "A login-form token that the application unpacks successfully was made by the provider.",
  "every token and key jar",
  "All tokens and all keys of all clients.",
  [S+"user_authn/user.py: verify_signed_jwt, UserAuthnMethod.unpack_token", S+"oidc/registration.py: Registration.client_registration_setup"])
p("A logout confirmation is the provider's, for that logout, and for a day",
  "The signed token with which a logout is confirmed comes back as the session, state and address the logout endpoint decided on; only tokens that the logout endpoint made are accepted, and only until they end.",
  "every logout, token, key jar and time",
  "All tokens, sessions and times.",
  [S+"oidc/session.py: Session.process_request, Session.unpack_signed_jwt", S+"token/jwt_token.py: JWTToken.__call__"])
p("A refresh token works only as given out, and on its session's terms",
  "Whatever HTTP requests are made: a refresh request is answered with tokens only for a refresh token that the provider itself made in an earlier request, and told in its answer if that was a success; its session was made by a request at the authorization endpoint, by the browser of the session's user for the session's client; session and token are neither revoked nor expired nor beyond their usage limit; the scope is the one of that authorization request; and the new tokens are kept in that session as made from this token.",
  "every history of HTTP requests to the provider, and every position of a refresh request in it",
  "All histories; tests refresh once after one login.",
  [S+"oidc/token.py: RefreshToken.process_request, RefreshToken.post_parse_request", S+"session/grant.py: Grant.mint_token", S+"authz/__init__.py: AuthzHandling.__call__"])
p("What the userinfo endpoint tells was settled at authorization",
  "Whatever HTTP requests are made: a client that gets a userinfo response is told, apart from the subject identifier, exactly the claims that one of its own requests at the authorization endpoint was granted (by its claims parameter, by its scope, by the provider's configuration or by the client's record as it was then), as far as the session's user has a value for them that the request allows. Nothing that happens later adds a claim.",
  "every history of HTTP requests to the provider, and every userinfo request after it",
  "All histories, claims requests, client records and user data.",
  [S+"oidc/userinfo.py: UserInfo.process_request", S+"session/claims.py: ClaimsInterface.get_claims, ClaimsInterface.get_user_claims", S+"authz/__init__.py: AuthzHandling.__call__"])
p("A registration lasts",
  "After a successful registration, and whatever requests anybody makes then: the provider finds for this client id the secret, expiry, addresses, response types, scopes and subject type it found right after the registration; no later registration is answered with the same client id; until its expiry the secret from the registration authenticates the client; and among the methods that show a secret only this secret does, and only until its expiry.",
  "every history of HTTP requests before and after the registration (with ids made by the provider), every later registration, every token-endpoint authentication",
  "All histories of all other clients and users; tests look at the client database right after one registration.",
  [S+"oidc/registration.py: Registration.client_registration_setup, Registration.do_client_registration", S+"client_authn.py: verify_client, ClientSecretBasic.verify, ClientSecretPost.verify"])
p("A token that was given out works until its time",
  "When the token endpoint answers with a (new) access token, the code or refresh token belongs to a session that a user opened by logging in. From then on, whatever requests are made by anybody (other than new authorization requests of this user at this client), as long as expires_in has not passed, the login counts and the string can be read, the userinfo endpoint gives the user's claims and subject identifier to whoever shows the token, and introspection tells every authenticated client that it is active, with the scope of the token response, the client, the announced expiry and the subject. When expires_in has passed, the userinfo endpoint gives nothing to requests showing this token.",
  "every history of HTTP requests before and after the token response (code redemptions and refreshes of the same session, logouts, restarts of a persistent provider, other clients and users), every later time",
  "Both directions over all later histories and times; tests use the token at once, or check expiry in one unit at a time.",
  [S+"oidc/token.py: AccessToken.process_request, RefreshToken.process_request", S+"oidc/userinfo.py: UserInfo.process_request", S+"oauth2/introspection.py: Introspection.process_request", S+"session/grant.py: Grant.mint_token", S+"session/token.py: Item.is_active"])
p("An access token from the authorization endpoint works until its time",
  "When the authorization endpoint answers with a (new) access token (implicit and hybrid flow), the token belongs to a session of the user shown by the browser's cookie at the requesting client, and the response tells the requested scope, which is the scope of that session. From then on, whatever requests are made by anybody (other than new authorization requests of this user at this client), as long as expires_in has not passed, the login counts and the string can be read, the userinfo endpoint gives the user's claims and subject identifier to whoever shows the token, and introspection tells every authenticated client that it is active, with that scope, the client, the announced expiry and the subject. When expires_in has passed, the userinfo endpoint gives nothing to requests showing this token.",
  "every history of HTTP requests before and after the authorization response, every later time",
  "Both directions over all later histories and times, and the expires_in of the response against the behaviour of other endpoints.",
  [S+"oauth2/authorization.py: Authorization.create_authn_response, Authorization.process_request", S+"oidc/userinfo.py: UserInfo.process_request", S+"oauth2/introspection.py: Introspection.process_request", S+"session/grant.py: Grant.mint_token"])
p("A logout leads only, and reliably, to registered addresses",
  "In every history of HTTP requests: if the logout endpoint accepts a request with a post-logout URI, that URI (same address and query, no fragment) was in a successful registration of the client that the request names (or, if it names none, of the session's client), unless that client is in the configuration. Conversely, after a client registered with post-logout URIs, and whatever requests are made then by anybody, a logout request with the cookie of a stored session of that client and a genuine ID token of that session is accepted with each of those URIs.",
  "every history of requests before and after the registration, every cookie, ID token hint and URI",
  "Links registration, storage of client records over any history, and the check at another endpoint, in both directions.",
  [S+"oidc/session.py: Session.process_request", S+"oidc/registration.py: Registration.do_client_registration", S+"oauth2/authorization.py: verify_uri"])
p("A new login at a client ends the earlier sessions there for good",
  "In every history of HTTP requests: when the browser of a user who is logged in makes an authorization request of a client and the answer goes back to the client, then every code and token that earlier requests made for this user at this client is of no use from then on, whatever requests follow and however late: the userinfo endpoint gives no user data for it, introspection does not call it active, the token endpoint gives nothing for it as code or as refresh token. The same holds for everything given out before a restart of a provider that keeps its sessions in memory.",
  "every history of requests before and after the login (or restart), every code and token, every time",
  "A session must not come back through any later request of any endpoint; that is an invariant over all histories.",
  [S+"session/manager.py: SessionManager.create_session, SessionManager.get_grant", S+"session/database.py: Database.set, Database.get", S+"oauth2/authorization.py: Authorization.setup_auth"])
p("A refresh token works until its time",
  "At a provider without PKCE: when the token endpoint answers with a (new) refresh token, the request belonged to a session that a user opened by logging in. From then on, whatever requests are made by anybody (other than new authorization requests of this user at this client) and however often it was used: as long as the life time that the session's rules give refresh tokens is not over and the session lives, a client that authenticates and brings it is accepted, and when that request is processed (whatever came in between) it gets an access token with the scope of the session. When the life time is over, no request with it is accepted.",
  "every history of HTTP requests before and after the token response (redemptions and refreshes of the same session, logouts, other clients and users), every later time, every request with the refresh token",
  "The token must survive every request of anybody: that is an invariant of the session storage over all histories.",
  [S+"oidc/token.py: RefreshToken.post_parse_request, RefreshToken.process_request", S+"session/grant.py: Grant.mint_token", S+"session/token.py: Token.is_active, SessionToken.set_defaults", S+"session/manager.py: SessionManager.get_session_info_by_token"])
p("A code can be redeemed until its time",
  "When an authorization request is answered with a (new) code, the code belongs to the session of the browser's user at the requesting client, which has the request on record. From then on, whatever requests are made by anybody (other than redemptions of this code, and new authorization requests of this user at this client): as long as the life time that the session's rules give codes is not over and the session lives, a client that authenticates and brings the code, the redirect URI of the authorization request and the PKCE verifier is accepted, and when that request is processed (whatever came in between) it gets an access token with the scope of the session, a refresh token exactly if offline access was granted, and an ID token exactly if openid was asked for. When the life time is over, no request with it is accepted.",
  "every history of HTTP requests before and after the authorization response, every later time, every request with the code",
  "The code must survive every request of anybody but its redemption: that is an invariant of the session storage over all histories.",
  [S+"oauth2/authorization.py: Authorization.create_authn_response", S+"oidc/token.py: AccessToken.post_parse_request, AccessToken.process_request", S+"session/grant.py: Grant.mint_token", S+"session/token.py: AuthorizationCode, SessionToken.set_defaults"])
p("A pushed request works as if it had been sent directly",
  "When the pushed authorization endpoint accepts a request (without request_uri) of an authenticated client under a name, then, whatever requests are made by anybody that do not use or replace that name, an authorization request of that client that refers to the name is answered exactly as the pushed request would be if the browser had brought it, with the same effect on sessions and client records, whatever else the referring request says; and the name is used up.",
  "every history of HTTP requests before and after the push, every pushed request, every referring request, cookie and time",
  "Equality of two requests' effects in every reachable state.",
  [S+"oauth2/pushed_authorization.py: PushedAuthorization.process_request", S+"oauth2/authorization.py: Authorization._do_request_uri, Authorization._post_parse_request"])
p("A provider that asks nobody to log in serves every browser",
  "With the authentication method that takes everybody for one configured user: every well-formed authorization request of a known client is answered from a session of that user with that client, whatever cookies the browser sends; a browser that returns with the provider's cookie continues its session (or gets a new grant in it, the others staying as they are), and no visitor ends the session of another.",
  "every provider, store, cookie, time and request",
  "Ranges over every state of the store, every cookie ever set and every time.",
  [S+"user_authn/user.py: NoAuthn.authenticated_as, UserAuthnMethod.__call__", S+"oauth2/authorization.py: Authorization.setup_auth, Authorization.process_request", S+"cookie.py: cookie_value"])
p("The ID token a client gets over HTTP is about the login and the request",
  "In every history of HTTP requests: an ID token in a token response is signed for the client of the authorization request that made the session of the redeemed code or refresh token; its sub is the subject identifier of the user whose browser brought that request, its nonce the request's (absent if there was none), its auth_time and acr those of a login of that user; its other claims are exactly those that the request, the configuration and the client's record gave, as far as the user has allowed values. An ID token in an authorization response is about that same request and browser, and carries the hashes of the code and access token beside it.",
  "every provider configuration, signer, history of HTTP requests with fresh session ids, and every ID token in it",
  "Ranges over every history of requests and every signer.",
  [S+"id_token.py: IDToken.make, IDToken.sign_encrypt, IDToken.payload", S+"oidc/token.py: AccessToken.process_request, RefreshToken.process_request", S+"oauth2/authorization.py: Authorization.create_authn_response"])
p("What introspection tells about an active token was settled at authorization",
  "In every history of HTTP requests: when the introspection endpoint calls a token active, the token is an active access or refresh token of a session, was handed out by an earlier request of that session, and the answer's scope, client_id, sub (and username, if configured) are those of the authorization request and login that the session comes from, its token_type, iat and exp those of the token, its iss the provider's; every other entry is a claim that this request, the configuration and the client's record grant for introspection, with a value of that user that the request allows, and all those are there.",
  "every provider configuration, history of HTTP requests with fresh session ids, introspection request after any prefix of it, and answer that says active",
  "Ranges over every history of requests.",
  [S+"oauth2/introspection.py: Introspection.process_request, Introspection._introspect", S+"session/claims.py: ClaimsInterface.get_claims", S+"session/manager.py: SessionManager.get_session_info_by_token"])
p("A request that is refused leaves the sessions as they are",
  "In every history of HTTP requests: a request that is answered with an error or a login page changes no session: every code and token is as usable as before, no token is made and no session is begun or ended.",
  "every provider configuration, history of HTTP requests with legal names, and refused request in it",
  "Ranges over every history and every way to be refused.",
  [S+"oidc/token.py: AccessTokenHelper.process_request, RefreshTokenHelper.process_request, Token.process_request", S+"oauth2/authorization.py: Authorization.process_request, Authorization.setup_auth"])
p("A pushed authorization request is served at most once",
  "In every history of HTTP requests, restarts included: the authorization requests with a given pushed request URI that are served are at most as many as the pushes that were answered with that URI; after one authorization request with the URI, whatever came of it, every further one is refused and changes nothing until the URI is given out again.",
  "every provider configuration with pushed authorization requests, history of HTTP requests and restarts (with pushed requests in memory or durable), and request URI",
  "Ranges over every history of requests and restarts.",
  [S+"oauth2/authorization.py: Authorization._do_request_uri", S+"oauth2/pushed_authorization.py: PushedAuthorization.process_request", S+"endpoint_context.py: EndpointContext.par_db"])
p("A pushed request is given to one thread only",
  "However the threads that serve authorization requests with a pushed request URI are interrupted: no more of them are given a request than requests were pushed under that URI, and each is given a request that was pushed under its URI.",
  "every number of threads, request URIs, pushes, and schedule",
  "Ranges over every schedule of every number of threads.",
  [S+"oauth2/authorization.py: Authorization._do_request_uri", S+"in_memory_db.py: InMemoryDataBase.__delitem__", S+"shelve_db.py: ShelveDataBase.__delitem__"])
p("Requests of different users do not disturb each other, also in parallel",
  "Threads that serve requests of different users on one session storage, interrupted anywhere between two reads or writes of stored items: each gets the answer it would have got if it had been alone, and leaves its users' sessions as it would have left them alone; the sessions of all others are untouched at all times; and when all are through, the storage is as if they had been served one after the other, in any order. Every thread comes to an end.",
  "every storage, configuration, number of threads serving authorization, token, userinfo and introspection requests or session manager calls, and schedule",
  "Ranges over every interleaving of storage accesses of every number of threads.",
  [S+"session/database.py: Database.get, Database.set, Database.delete", S+"session/manager.py: SessionManager", S+"oidc/token.py: Token.process_request", S+"oauth2/authorization.py: Authorization.process_request"])
p("Two logins of one user at the same time both count",
  "If two authorization requests of the same user are served at the same time and both are answered with a code, both codes can be redeemed.",
  "every storage, user, pair of clients, and schedule",
  "Ranges over every interleaving of storage accesses.",
  [S+"session/manager.py: SessionManager.create_session", S+"session/database.py: Database.set"])
p("A client assertion is accepted by one thread only",
  "If several threads verify client authentications with the same assertion (same issuer and jti), at most one accepts it.",
  "every set of seen assertions, number of threads and schedule",
  "Ranges over every schedule of every number of threads.",
  [S+"client_authn.py: JWSAuthnMethod.verify, RequestParam.verify"])
p("Revocation of a grant is final, whatever is being served at the time",
  "Once a grant has been revoked it stays revoked, and a token request whose thread had found the grant but had made no token yet is not answered with a token, however many token requests are being served at the time and however their threads are interrupted.",
  "every storage, number of token requests being served, and schedule of their pieces and of revocations",
  "Ranges over every schedule of every number of threads.",
  [S+"session/manager.py: SessionManager.revoke_grant", S+"oidc/token.py: AccessTokenHelper.process_request"])
p("A token's usage rules are fixed when it is made",
  "The usage rules of a token (how often it can be used, what can be minted from it, how long it lasts) do not change after it has been made, whatever sessions are begun, decided and used afterwards, of any client; only the rotation of a refresh token hands rules on. The rules are those of the configuration and the client with the defaults of the token type.",
  "every configuration of rules, every client and every history of sessions, decisions, mintings and rotations",
  "Rules dictionaries are shared between the configuration, client records, grants and tokens and are changed in place; whether this can be observed depends on the whole history of all sessions.",
  [S+"session/token.py: AuthorizationCode.set_defaults, RefreshToken.set_defaults, Item.__init__", S+"authz/__init__.py: AuthzHandling.usage_rules, AuthzHandling.__call__", S+"session/grant.py: Grant.mint_token", S+"oidc/token.py: RefreshTokenHelper.process_request"])
p("Asking for the rules of a grant changes nothing",
  "get_usage_rules answers, for every token type, with the entries of the grant, then of the client, then of the provider, and with the defaults for what none of them says; asking for one grant changes no answer for another.",
  "every configuration, client record, grant, token type and sequence of questions",
  "Ranges over all combinations of rules in four places and over sequences of calls.",
  [S+"session/grant.py: get_usage_rules, DEFAULT_USAGE", S+"authz/__init__.py: AuthzHandling.usage_rules_for"])
p("A token handler knows when its tokens expire",
  "For every token a handler made and every time, is_expired says exactly whether the time is later than the time of making plus the lifetime; tokens with a negative lifetime never expire; tokens of other handlers are refused.",
  "every handler, session id, time of making and time asked about",
  "Ranges over all clock values, lifetimes and session ids, and all pairs of handlers.",
  [S+"token/__init__.py: DefaultToken.is_expired, is_expired", S+"token/jwt_token.py: JWTToken.is_expired"])
p("Nothing is lost when token requests are served at the same time",
  "Any number of threads exchange codes and refresh tokens, interrupted between the pieces of the work in any order, while grants and tokens are revoked and users log in and out: no grant and no token is lost, none is un-revoked, no use of a token is forgotten, and every token in an answer is stored from then on.",
  "every number of threads, all requests, every schedule of their pieces and of revocations, every starting storage",
  "The number of schedules grows without bound with the threads; a lost update needs one particular order.",
  [S+"oidc/token.py: AccessTokenHelper.process_request, RefreshTokenHelper.process_request", S+"session/manager.py: SessionManager.revoke_grant, SessionManager.revoke_token", S+"session/database.py: Database.get, Database.set"])
p("A token that is revoked in time is not exchanged",
  "If the code or refresh token of a request, or its grant, is revoked before the thread that serves the request has made a token from it, the request is not answered with tokens, whatever happens afterwards.",
  "every number of threads, all requests, every schedule of their pieces and of revocations, every starting storage",
  "The revocation has to come between two particular pieces of another thread's work.",
  [S+"oidc/token.py: AccessTokenHelper.process_request, RefreshTokenHelper.process_request", S+"session/manager.py: SessionManager.revoke_grant, SessionManager.revoke_token", S+"session/grant.py: Grant.mint_token"])
p("A logout is not undone by token requests being served",
  "When a user logs out of a client, the session is marked as revoked, and stays marked until the user logs in at that client again: however many threads are serving token requests at that moment, however they are interrupted, whatever is revoked meanwhile, and whoever else logs in or out.",
  "every number of threads, all requests, every schedule of their pieces, of revocations, logins and logouts, both kinds of storage back end, every starting storage",
  "The logout has to come between two particular pieces of another thread's work, which then writes the session records again.",
  [S+"session/manager.py: SessionManager.revoke_client_session, SessionManager.create_session", S+"oidc/token.py: AccessTokenHelper.process_request, RefreshTokenHelper.process_request", S+"session/database.py: Database.set"])
# -- append new properties above this line
with open("/verif/properties.jsonl","w") as f:
    for x in P: f.write(json.dumps(x)+"\n")
print(len(P))
for x in P: print(x["id"], x["title"])
