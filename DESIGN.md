# Formal model of oidcendpoint in Lean 4 — design

The source modelled is `/repo/src/oidcendpoint` at the pinned commit. The code was read, never run. The Lean
project is `lean/`; `lake build` there checks everything. This file is the plan and the statement of the trusted base;
`MANIFEST.json` maps properties to theorem names.

## 1. Layout

| directory | content |
|---|---|
| `Verif/Py.lean` | the few Python primitives the code uses: `str.split`, `join`, `strip`, `int()`, `list.remove`, dict get/set/update |
| `Verif/Model/*.lean` | the model, one file per source area; every definition cites file and lines and says what is simplified |
| `Verif/Spec/*.lean` | small independent specifications (what the English means), with no reference to the model's helpers unless unavoidable |
| `Verif/Lemmas/*.lean` | helper lemmas |
| `Verif/Props/*.lean` | the property theorems, one file per area, with non-vacuity `example`s next to each |

Conventions. A Python `str` is `List Char` (`Str`). A function that raises returns `Except Exn α`; a method that mutates
its object returns the new object, and if it can raise *after* mutating it returns state and result separately. Time is
an `Int` given to each operation (`utc_time_sans_frac()`), 0 meaning "unset" exactly as in the code. Identifiers made
by `uuid1().hex` and random strings are inputs of the operation, with freshness as an explicit hypothesis. Dictionaries
whose iteration order matters are association lists in insertion order; those that are only looked up are functions
`Str → Option α`. Cryptography is a parameter (a structure of functions with the laws `decrypt (encrypt m) = m`, or, for
unforgeability, an explicit symbolic hypothesis), instantiated concretely in the non-vacuity examples.

Storage. `SessionManager` keeps all sessions in one flat mapping (`session/database.py`). With the default in-memory
dict (`in_memory_db.InMemoryDataBase` storing Python objects / JSON...) an object obtained by `get` may alias the stored
one. The model carries a mode: `aliased` (mutations of a fetched object are visible without `set`) and `byValue` (only `set`
changes the store). Theorems say which modes they cover; unless stated, both.

Schedules and crashes. Endpoint methods run to completion in one Python call, but a deployment can interleave the
`parse_request` and `process_request` phases of many requests. History theorems therefore quantify over arbitrary lists of
*phase-level* operations, including `process` called with any request whether or not it was parsed. Persistent writes
inside one `process_request` are in program order; crash points are prefixes of that sequence.

## 2. Plan per property

| id | modelled code | theorem shape | expected outcome |
|---|---|---|---|
| C01 | `session/__init__.py` `session_key`/`unpack_session_key` | roundtrip as iff | proved |
| C02 | same + `Database` key use | injectivity | proved |
| C03 | `util.py` `lv_pack`/`lv_unpack` | roundtrip by induction, total function on any input | proved |
| C04 | `token/__init__.py` `DefaultToken`, `Crypt`, `token/handler.py` | roundtrip through key-law structure | proved |
| C05 | `cookie.py` make/parse/create/get value | roundtrip, three modes | proved (separator-free values) |
| C06 | `cookie.py` signed mode | symbolic MAC oracle; any accepted cookie equals the issued one | proved |
| C07 | `session/token.py` `Item` | iff with spec predicate | proved |
| C08 | `session/grant.py` `mint_token` | decision iff + frame | proved |
| C09 | grant op machine | invariant by induction | proved under fresh values |
| C10 | `Grant.revoke_token` | fuel-free recursion on forest; result = reachability closure | proved on reachable grants |
| C11 | grant op machine | monotone invariant | proved |
| C12 | `AuthorizationCode.set_defaults` | universally quantified over rules | proved |
| C13 | `session/database.py` | get-after-set, frame | proved |
| C14 | `session/manager.py` history | invariant | proved for create/revoke histories |
| C15 | `create_session` | usable + frame; the "earlier sessions of same pair" part is false | partial + negation |
| C16 | `Database.delete` | client-level delete proved; grant-level with siblings false | partial + negation |
| C17 | same | false: negation with history | negation + what does hold |
| C18 | `grants`, `add_grant`, `create_grant` | exact for create_grant histories; duplicates through add_grant | partial + negation |
| C19 | `SessionManager.revoke_token` | aliased: durable; byValue: lost | partial + negation |
| C20 | `Grant.revoke`, `mint_token`, userinfo/introspection | minting part proved, acceptance part false | partial + negation |
| C21–C24 | `oauth2/authorization.py`, `oidc/authorization.py` | decision logic over all requests | proved |
| C25 | PAR endpoint + `_do_request_uri` | history invariant | proved |
| C26 | `check_unknown_scopes_policy`, `scopes.py` | iff | proved |
| C27 | `oidc/token.py`, session manager | count over all histories | proved |
| C28 | same | inversion of success | proved |
| C29 | same | false: witness | negation + partial |
| C30 | `oidc/add_on/pkce.py` | inversion | proved |
| C31 | same | false: every refresh request is refused | negation |
| C32 | `RefreshToken` | success inversion; max_usage part false | partial + negation |
| C33 | token endpoint history | invariant | proved |
| C34 | `oidc/userinfo.py` | inversion | proved |
| C35 | `oauth2/introspection.py` | active iff for resolvable tokens; errors and override findings | partial + negation |
| C36 | `session/claims.py`/`user_info` | iff against section 5.5.1 spec | proved/partial (quirks) |
| C37 | `session/claims.py` get_claims | false for dict-typed client claims | partial + negation |
| C38 | `id_token.py` | frame over arbitrary user info | proved |
| C39 | `setup_auth` + `authn_event.py` | false | negation |
| C40 | `client_authn.py` | inversion | proved |
| C41 | `JWSAuthnMethod.verify` history | count | proved |
| C42 | `oidc/registration.py` verify_redirect_uris | decision logic | partial (native) |
| C43 | `do_client_registration` | frame proved; failure cleanliness false | partial + negation |
| C44 | read_registration | inversion | proved |
| C45 | `match_client_request` | inversion | proved |
| C46, C47 | `oidc/session.py` | false / partial | partial + negation |
| C48 | `authz/__init__.py` | merge law; grant part false | partial + negation |
| C49 | `scopes.py` | exact set | proved |
| C50 | subject ids in manager | stability; pairwise false through the endpoint | partial + negation |
| C51 | `user_authn/authn_context.py` | refinement to list of registrations | proved for distinct ids |
| C52 | `session/token.py`, `grant.py` to_json/from_json | roundtrip for tokens; `used` lost for grants | partial + negation |
| C53 | `util.py`/`id_token.py` `get_sign_and_encrypt_algorithms` | decision logic | proved |
| C54 | `cookie.py`/`oidc/session.py` kill_cookies | false | negation |
| C55 | `configure_grant_types` | True/None case false | partial + negation |
| C56 | two threads in `AccessTokenHelper.process_request`, cut at the shared reads and writes (`Model/Threads`) | false: a schedule | negation |
| C57 | `Grant.revoke_token` with the interpreter's recursion limit | false for every limit, chain by induction | negation |
| C58 | `payload_arguments`, `JWTToken.__call__` | dictionary update order over arbitrary user data | partial + counterexamples |
| C59 | `inputs`, `FORM_POST` | parsing the page gives the parameters; injection otherwise | partial + negation |
| C60 | `setup_auth`, `create_session`, `Token.process_request` with a cookie | false for every request | negation |
| C61, C62 | `_do_request_uri`, PAR | inversion; false without registration / across clients | partial + negation |
| C63 | `public_id`, `pairwise_id` | injectivity from a collision-free hash | partial + negation |
| C64 | whole-provider histories | invariant: revoked token dead at userinfo and introspection | proved |
| C65 | `include_session_id` | false (missing attribute) | negation |
| C66 | `UserInfo.do_response` | decision logic | partial |
| C67 | `verify_client` | universal refutation; what holds without `none` | partial + negation |
| C68 | `JWSAuthnMethod.verify`, key jar | inversion; false with an older key | partial + negation |
| C69 | registration + client authentication composed | composition of both models | partial |
| C70 | `Session.parse_request`, `verify_client` | universal refutation | negation |
| C71 | `do_verified_logout`, `logout_all_clients` | induction over the clients, failing call at any position | partial + negation |
| C72 | `create_cookie`, `delete_cookie` | attributes as a function of the arguments | proved |
| C73 | `pick_auth`, `AuthnBroker.pick`, `pick_authn_method` | first match; refutations for the other cases | partial + negation |
| C74 | lifetimes through `mint_token`, policy and token endpoint | iff with the clock, over histories | partial (one refuted case) |
| C75 | `AuthzHandling`, `Implicit` | exact effect of both policies over histories | partial + negation |
| C76, C77, C80 | `authenticated_as`, `setup_auth`, `re_authenticate`, `proposed_user` | decision logic over all requests and cookies | partial + negation |
| C78, C79 | cookie content through `b64d`, `create_grant` | universal over user names | partial + negation |
| C81 | `user_info/__init__.py`, `login_hint.py` | exact search, release, lookup | partial + negation |
| C82 | `user_authn/user.py` verify methods | iff; universal refutation for Basic and SymKey | partial + negation |
| C83 | `setup_auth`, `authn_event.py` | inversion over all outcomes | proved |
| C84 | authorization, token, refresh and userinfo endpoints end to end | success lemma per step, composed through any states that keep the grant | proved |
| C85 | `do_client_registration`, `comb_uri` | inversion of a successful registration; round trip of the URIs | partial + negation (two #) |
| C86 | `startProvider`, `startTwo`: endpoints and provider info as dictionaries | entry-by-entry characterisation of the published dictionary (`createProviderInfo_get`, `collectCaps_get`) | partial + negation (shared dictionary) |
| C87 | as C86, settings of endpoints as dictionaries | as C86; order of endpoints by induction on the list | partial + negations |
| C88 | the library's algorithms as arbitrary lists | membership and sortedness by induction | partial + negations |
| C89 | `available_scopes` on the published list | from C86's characterisation | partial + negation |
| C90 | as C86, with `registrationProcess` | composition with C45's characterisation of accepted requests | partial + negations |
| C91 | as C86 | success by induction over endpoints | partial + negations |
| C92 | `add_custom_scopes` | membership in the union; composition with C89 | partial + negation |
| C93, C94 | `do_response`, `set_content_type` over arbitrary messages and headers (`Model/Deliver`) | inversion of a successful call; non-interference | partial + negations |
| C95, C96 | `post_authentication`, `authz_part2`, `do_response` composed; shown to agree with the coarser `authzPart2` | shape of every reply, then delivery | partial + negations |
| C97 | `check_session_iframe` branch, `compute_session_state`, digest abstract | cancellation at last blank / slash | partial + negation |
| C98 | `login_required` through `do_response` | case analysis on the response type | partial + negations |
| C99 | `Database` over `dict`, `InMemoryDataBase`, `ShelveDataBase` | agreement theorems for reads and deletions | partial + negations |
| C100 | `AllowedAlgorithms`, `_do_request_uri`, request objects by value | case analysis against a spec of the deciding entry | partial + negations |
| C101 | `do_back_channel_logout` through `logout_all_clients`/`logout_from_client` | content of every token sent | partial + negations |
| C102 | `_encrypt_sid`/`_decrypt_sid` as counter mode with one key stream | roundtrip; key stream recovery | partial + negation |
| C103 | logout frames, JWT access token payload | information in outputs | negation |
| C104, C105 | `Session.process_request`, `do_front_channel_logout_iframe` | shape of URI and page | partial + negations |
| C106, C107 | `Model/Crash.lean`: the storage after each write of each call; histories of (possibly killed) calls | invariant at every crash point | partial + negation; proof |
| C108 | crash points of `Database.delete`, then `Database.delete` over a dict and over shelve | case analysis of the crash point | partial + negations |
| C109, C110 | crash points of the token endpoint inside histories of the provider (`SysOp.crash`) | a readable session is written by a single put | proof |
| C111 | histories with crashes; a new salt at each start | evolution of grants; injectivity | partial + negation |
| C112 | who a step is about (`Spec/Isolation`), all steps of the provider | two-run simulation: a step reads and writes only keys of the users it is about | partial + negation |
| C113, C114 | pairs of histories / both orders of two steps | the same simulation, then induction on the history | proof |
| C115-C118 | where a stored grant comes from (Spec/Provenance.lean: `LoggedIn`) | strong induction on the history: every grant was created by a login step, a returning browser's by an earlier one; grants keep subject and authentication event; tokens in a grant are minted for it | proof |
| C119-C124 | the provider as a whole: HTTP requests at all endpoints over one state, each with its own client authentication (Model/Provider; Spec/Provider: `WebLogin`, `WebRun`) | the session side of every HTTP history is a history of Model/System (refinement `provRun_sys`), then C115-C118; C124: invariant relating stored redirect URIs to successful registrations | proof |
| C125-C128 | client authentication and pushed requests over the life of the provider (Spec/ProviderAuthn) | invariants on seen assertion ids and pushed requests; refutations: restart, default methods, request object naming another client, no expiry | proof of what holds, refutations |
| C129 | the provider as a whole (Model/Provider) | invariant (tree and shape of the storage) over all histories of HTTP requests | proof |
| C130 | the provider as a whole; `Spec/WebFlow` says what a provider, client, browser and token request set up for the code flow are | forward lemmas per endpoint (C84), client record and session kept by the steps of others (frame) | proof |
| C131 | `token/handler.py` factory, `get_token_handlers`, key file on disk (`Model/TokenStart`) | handlers = description (`Spec/TokenStart`), restart = same handlers | proof |
| C132 | same, with the `None`s of the handler table | refutation for all configurations without code handler | negation |
| C133 | the provider as a whole; `Spec/WebRefresh` says what a usable refresh token is | a session under refresh requests and the steps of others only grows tokens; forward lemma for the refresh helper | proof |
| C134 | `session/manager.py` lookups (`Model/SessionInfo`) | invariant on the kinds of records, over all histories; case analysis over the flags | proof + negation |
| C135 | sessions of other clients under HTTP histories | Model/Provider and all it calls | frame lemma per endpoint function (Lemmas/ClientFrame) on top of the tree invariant of C129, induction over the stretch of requests |
| C136 | provenance of every stored token over HTTP | Model/Provider and all it calls | per endpoint function: the only tokens added are those of its answer (Lemmas/OnlyTokens); induction over requests |
| C137 | code used once and on the terms of its request, over HTTP | Model/Provider and all it calls | transfer of C27 along the expansion of requests into session steps; provenance of C136 plus grant evolution |
| C138 | error answers of the authorization endpoint | Model/Authorization, Model/Uri | case analysis of the parse steps |
| C139 | claims stored with the session | Model/Claims, Model/AuthzHandling | dictionary update lemmas; induction over the four uses with a frame lemma for the in-place changes |
| C140 | cookies of others | Model/Cookie, Model/UserAuthn | case analysis |
| C141 | specification of a token | Model/Grant getSpec | case analysis; refutation for every token |
| C142 | liveness of logout | Model/Logout | symbolic execution of parse and process with C22 for the URI |
| C143 | error answers of the token endpoint | Model/TokenEndpoint | symbolic execution of parse and process; Spec/Refusals |
| C144 | error answers of userinfo and introspection | Model/Provider, Model/Resource | symbolic execution incl. client authentication; Spec/Refusals |
| C145 | verdict on a registration | Model/Registration | case analysis of each step, iff with Spec/RegistrationExact |
| C146 | subject types of the session API | Model/SubId, Model/Manager | C15 with the configured functions, frame for the failing case |
| C147 | reading incomplete documents | Model/Serial | induction over the token documents |
| C148 | login page and its token | Model/SelfJwt | dictionary algebra over the argument gathering, signature laws |
| C149 | origin of login-form tokens | Model/SelfJwt | inversion of the key choice; refutation for every client key |
| C150 | origin and validity of logout confirmations | Model/SelfJwt | as C149; refutation for every access token |
| C151 | refresh over HTTP: origin and terms | Model/Provider | C136 + origin of sessions (grant_origin) + inversion of the refresh exchange |
| C152 | userinfo over HTTP: claims settled at authorization | Model/Provider, Model/Claims | two-run trick: all steps but the authorization policy are steps of a provider that never configures grants; then C139 and C34 |
| C153 | a registration lasts | Model/Provider, Model/Registration, Model/ClientAuthn | registered_record + provRun_keeps (client database only grows) + C40 |
| C154 | a token that was given out works until its time | Model/Provider and below | given_in (what a token response stores) + stretch_lasts (only tokens are added by any other request) + handler_resolves; past expiry by minted_sid |
| C155 | an access token from the authorization endpoint works until its time | Model/Provider and below | authzPart2_token (what is stored with an access token response) + C123 + works_until (shared with C154) |
| C156 | a logout leads only, and reliably, to registered addresses | Model/Logout, Registration, Provider | logouts_origin (induction over histories) + C22_accepted_iff; provRun_keeps + C142 |
| C157 | a new login at a client ends the earlier sessions there for good | Model/Manager, Authorization, Provider | no request lists a grant again (NotBack, op by op), gone_after_login, strings resolve to their session only |
| C158 | a refresh token works until its time | Model/Token, Grant, Manager, Provider | stretch_lasts: every request leaves a session's unspent tokens as they are; web_unlimited; C84/refresh_served at the end; expiry by C07 |
| C159 | a code can be redeemed until its time | Model/Authorization, Token, Grant, Manager, Provider | stretch_lastsW with the code outside the redeemed ones, code_made_for for the request on record, C84_code_request_served |
| C160 | a pushed request works as if sent directly | Model/Authorization, Provider | post-parsing is idempotent on what was stored; no stored request refers to a pushed one (CleanPar), so it stays until used; C153's record invariance |
| C161 | a provider that asks nobody to log in serves every browser | Model/NoAuthn: `NoAuthn.authenticated_as`, `setup_auth`'s branch for a session id beside a plain user id, the missing login page | case analysis on the cookie; frame of the new grant; negations |
| C162 | the ID token a client gets over HTTP is about the login and the request | Model/IdTokenServe: `IDToken.make` as the endpoints call it, on top of the HTTP model | origin of sessions and of their terms (C119, C139), C38 on the stored grant |
| C163 | what introspection tells about an active token was settled at authorization | HTTP model (Model/Provider) with Model/Resource, Model/Claims | session origin and terms (C119, C136, C139), C36 for the user's values |
| C164 | a refused request leaves the sessions as they are | HTTP model | case analysis of every refusal on sound stores; refutation by comparing the run with and without a failing signer |
| C165 | a pushed authorization request is served at most once | HTTP model (Model/Provider) | invariant: uses plus what is still stored are at most the pushes; the request URI step removes what it finds |
| C166 | a pushed request is given to one thread only | Model/PushThreads: get and del as separate pieces, two kinds of storage | invariant: threads served plus what is left are at most the pushes; refutation for the silent storage |
| C167 | requests of different users in parallel | Model/Pieces: every operation as a program of single reads and writes; Model/Work: threads | the pieces equal the functions; each program keeps to its users' keys; simulation over schedules |
| C168 | two logins of one user at the same time | Model/Work | refutation by a schedule, and for all storages |
| C169 | an assertion is accepted by one thread only | Model/PushThreads | refutation for every number of threads |
| C170 | revocation is final whatever is being served | Model/ManyThreads | invariant over schedules for kept objects; refutation for copies |
| C171 | a token's rules are fixed when it is made | Model/SharedRules: rules dictionaries with addresses, next to the model with copies | simulation over all histories; refutation for dictionaries used for two types |
| C172 | asking for the rules of a grant | Model/UsageLookup | case analysis on where the dictionary lives; refutations |
| C173 | is_expired of the token handlers | Model/UsageLookup on Model/TokenString | evaluation through the crypto laws |
| C174 | no lost updates among token requests | Model/TokenThreads: both helpers in pieces, revocations | every piece makes the storage later (Spec/TokenThreads); induction over schedules; refutation for copies |
| C175 | a token revoked in time is not exchanged | Model/TokenThreads | the invariant of C174 and the check when minting |
| C176 | a logout is not undone by token requests being served | Model/TokenThreads with logins and logouts | a piece writes only under its grant's key and adds to the lists above it; induction over schedules, both modes |

All theorems about histories of the provider (C20, C27, C28, C30, C32, C33, C64, C74, ...) are about histories in which any step
may be killed at any write (`SysOp.crash`); after the restart the configuration and keys are the same, requests that were parsed
and not processed are gone, and with the default storage (a dictionary in memory) all sessions are.

Nothing on the list is outside what an executable model can express; what the model cannot exhibit is listed in section 3.

## 3. Trusted base

* Lean 4.33.0's kernel. Axioms: at most `propext`, `Classical.choice` and `Quot.sound`; `AXIOMS.txt` lists them for each
  theorem of the manifest (made by `tools/axioms.py`, which runs `#print axioms`). No axiom is added.
* The faithfulness of the hand translation. Each definition cites its source so it can be re-read.
* Libraries outside /repo (oidcmsg, cryptojwt, urllib, http.cookies, json, base64): message classes' `verify` and
  `from_urlencoded`, JWS/JWE, `urlparse`, `parse_qs`, `unquote_plus`, hashes are parameters; assumptions about them appear as
  hypotheses of the theorems that need them, as structures in `Verif/Spec`, with concrete instances in the examples.
* Freshness of `uuid1`/`rndstr` identifiers and collision-freedom of token strings, as hypotheses. Where an identifier is
  attacker-chosen (user names, client ids, cookies, token strings presented) no such hypothesis is made.

### What is modelled

| file | modelled | not modelled |
|---|---|---|
| `in_memory_db.py`, `shelve_db.py` | `get`, `set`, `delete` (`Model/Storage`); the storage after every write of every call (`Model/Crash`, `Model/CrashMgr`) | files |
| `session/*.py` | everything except `storage.py`'s abstract class, `ExchangeGrant.payload_arguments`' users | pickling |
| `token/__init__.py`, `token/handler.py`, `token/jwt_token.py` | `Crypt`, `DefaultToken`, `TokenHandler`, payload of `JWTToken` | `is_expired` of the string form beyond its time field |
| `oauth2/authorization.py` | redirect URI checks, request URIs, PAR, `setup_auth`, `create_authn_response`, `post_authentication`, `response_mode`, `check_session_iframe` branch, `pick_authn_method`, `authn_args_gather`, error paths | HTML verification page texts |
| `oidc/authorization.py`, `oauth2/pushed_authorization.py` | all | — |
| `oidc/token.py`, `oidc/add_on/pkce.py` | all | — |
| `oidc/userinfo.py`, `oauth2/introspection.py` | all | JWS packing (a tagged value) |
| `oidc/registration.py`, `oidc/read_registration.py` | redirect URI rules, record update, secrets, capability matching, read access | downloading sector identifier documents (input), key import |
| `oidc/session.py` | verification, redirect, logout of clients, cookies, logout tokens (AES-GCM as a key stream and a tag), confirmation tokens | HTTP delivery (its success is an input) |
| `client_authn.py` | all methods and `verify_client` | signature checking (abstract) |
| `cookie.py` | values (three modes), attributes, `CookieDealer`, `compute_session_state` (digest abstract) | — |
| `id_token.py`, `authz/__init__.py`, `scopes.py`, `authn_event.py`, `login_hint.py`, `user_info/__init__.py` | all | JWT packing |
| `user_authn/*.py` | broker, `pick_auth`, `authenticated_as`, `verify` methods, the login page's parameters and its signed token (`Model/SelfJwt`) | Jinja page rendering, `NoAuthn` |
| `util.py` | `lv_pack`, `lv_unpack`, token/lifetime helpers | |
| `endpoint_context.py`, `oidc/provider_config.py`, `oidc/add_on/custom_scopes.py` | endpoints and provider info at start-up, scopes (`Model/Metadata`); the stores shared by the endpoints and what a restart keeps of them (`Model/Provider`) | loading keys, templates, HTTP parameters |
| `endpoint.py` | `parse_request` with client authentication (`Model/Provider`), capabilities (`construct_endpoint_info`), `do_response` | serialisation of messages (abstract) |

Not modelled at all: HTTP framework glue, Jinja templates, logging, configuration loading from files, back-channel HTTP
delivery, SQL/shelve durability below the `set`/`get` contract. Preemptive threads are modelled only for the code
redemption of the token endpoint (`Model/Threads`, two threads, cut at the accesses to shared objects); elsewhere a phase
(`parse_request`, `process_request`, `do_response`) is atomic and histories interleave phases.

## 4. How refuted properties are treated

Many properties a user would expect are false of this code. Such a property stays on the list with status `partial`;
its theorems are (a) a refutation: universal where the code is always wrong, otherwise a reachable concrete run checked by
the kernel, and (b) where something weaker holds, that, as a theorem with the suffix `_partial`. The note in the manifest
says which. Nothing is restated to make it true.

Refuted: C15 C16 C17 C18 C19 C20 C21 C25 C29 C31 C32 C35 C37 C38 C39 C41 C42 C43 C44 C45 C46 C47 C48 C50 C52 C53 C54 C55 C56
C57 C58 C59 C60 C61 C62 C63 C65 C66 C67 C68 C69 C70 C71 C73 C74 C75 C76 C77 C78 C79 C80 C81 C82 C85 C86 C87 C88 C89 C90 C91 C92 C93
C94 C95 C96 C97 C98 C99 C100 C101 C102 C103 C104 C105 C106 C108 C111 C112 C125 C126 C127 C128 C132 C134 C138 C140 C141 C143 C144 C145 C149 C150 C161 C164 C166 C168 C169 C170 C174 C175. The most serious ones: C29 (a code
works for any client), C43/C44 (registration sets any entry; registration records readable without a token), C46 (logout
ends nothing), C60 (returning browsers crash), C62 (pushed requests not bound to the client), C67 (`none` accepted for clients
with secrets), C79 (a crafted user name gives a session of another user).

## 5. Tests against wrong programs

`seeded/LOG.jsonl` has one line per seeded bug: the definition edited, the edit, the claim it breaks, the theorems (and
examples) that failed, and what was tightened if nothing failed at first.
