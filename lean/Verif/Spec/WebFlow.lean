import Verif.Spec.Provider
import Verif.Spec.Honest
import Verif.Spec.UserAuthn
import Verif.Spec.Cookie
import Verif.Spec.Isolation
/-! What it takes for a client to register itself and run the code flow, request by request, at a provider that others use too. -/
namespace Verif.Spec

/-- The rules for tokens of type `tt` in the provider's configuration. -/
def providerRules (cfg : ProvCfg) (tt : Str) : UsageRules := ((cfg.sys.env.gc.usageRules.getD []).get? tt).getD {}

/-- A provider set up for the code flow of clients that register themselves: it issues codes and access tokens (strings that are
not empty, and that can be read while they are made), redeems codes, has a subject function, supports the response type
`code`, gives client id and secret in a registration response, lets clients authenticate by `client_secret_post` at the token
endpoint (and possibly in other ways), and takes bearer tokens at the userinfo endpoint. -/
structure CodeFlowProvider (cfg : ProvCfg) (hc ha : Handler) (f : Str → Option Str → Str) : Prop where
  tokens : IssuesTokens cfg.sys.env hc ha
  notEmpty : ∀ now rnd nonce sid t, handlerCall cfg.sys.env.cr ha now rnd nonce sid t ≠ []
  alive : ha.cls = .default ∨ 0 ≤ ha.lifetime
  codeGrant : cfg.sys.helpers.get? c!"authorization_code" = some (.inst .accessToken)
  policy : cfg.sys.env.gc.implicit = false
  lifetime : ∀ e, cfg.sys.env.gc.expiresIn = some e → 0 < e
  mints : ∀ l, (providerRules cfg tAuthorizationCode).supportsMinting = some l → tAccessToken ∈ l ∧ tRefreshToken ∈ l
  uses : ∀ n, (providerRules cfg tAccessToken).maxUsage = some n → 0 < n
  subject : cfg.sys.env.sf c!"public" = some f
  library : cfg.regLib.uri = cfg.sys.env.lib
  queries : ∀ u, DistinctKeys (cfg.sys.env.lib.splitUri u).2
  codeSupported : ∃ l, cfg.regCfg.prov.get? c!"response_types_supported" = some (.strs l) ∧ c!"code" ∈ l
  keys : cfg.regLib.loadKeys none none = true
  announcesId : cfg.regLib.responseParam c!"client_id" = true
  announcesSecret : cfg.regLib.responseParam c!"client_secret" = true
  tokenMethod : some .clientSecretPost ∈ cfg.tokenMethods
  userinfoMethod : some .bearerHeader ∈ cfg.userinfoMethods
  cookieLaws : CookieLaws cfg.acfg.cr
  dealer : DealerOk cfg.acfg.dealer

/-- A redirect URI for a web client: http or https, no fragment, no escapes. -/
structure WebRedirect (lib : RegLib) (uri : Str) : Prop where
  given : uri ≠ []
  scheme : lib.scheme uri = c!"http" ∨ lib.scheme uri = c!"https"
  fragment : lib.uri.fragment uri = []
  plain : lib.uri.unquote uri = uri

/-- The registration request of a client that wants the code flow. -/
def codeClient (uri : Str) : RegRec := [(c!"redirect_uris", .strs [uri]), (c!"response_types", .strs [c!"code"])]

/-- An authorization request for a code, by value, with supported scopes, a response mode that fits, and PKCE as the provider
wants it. -/
structure CodeRequest (env : Env) (c uri : Str) (q : AuthReq) : Prop where
  client : q.clientId = c
  type : q.responseType = [c!"code"]
  redirect : q.redirectUri = some uri
  byValue : q.requestUri = none
  scopeGiven : q.scope ≠ []
  scopeKnown : env.denyUnknown = true → ∀ s ∈ q.scope, s ∈ env.scopesSupported
  mode : q.responseMode = none ∨ q.responseMode = some c!"query" ∨ q.responseMode = some c!"form_post"
  anyAge : q.maxAge = 0
  challenge : ∀ p, env.pkce = some p → (p.essential = true → q.codeChallenge ≠ none) ∧
    (q.codeChallenge ≠ none → p.methods.has (q.codeChallengeMethod.getD c!"plain") = true)

/-- The browser has the session cookie that the provider set at `t0` when `u` logged in; the user's name is usable in a cookie
and is not base64url text (see C78). -/
structure HasLoginCookie (cfg : ProvCfg) (raw u : Str) (t0 : Int) : Prop where
  value : CookieValueOk u
  plain : cfg.acfg.lib.b64d u = none
  cookie : ∃ typ, typ ≠ c!"uam" ∧ CookieTypeOk typ ∧ (cfg.acfg.dealer.encKey = none → '|' ∉ u ∧ '|' ∉ typ) ∧
    LoginCookie cfg.acfg t0 u typ raw

/-- The token request for the code: same redirect URI, and the verifier that belongs to the challenge. -/
structure CodeRedemption (env : Env) (q : AuthReq) (code : Str) (t : TokReq) : Prop where
  grantType : t.grantType = some c!"authorization_code"
  code : t.code = some code
  redirect : t.redirectUri = q.redirectUri
  verifier : ∀ p, env.pkce = some p → ∀ ch, q.codeChallenge = some ch →
    ∃ v f, t.codeVerifier = some v ∧ p.methods.get? (q.codeChallengeMethod.getD c!"plain") = some f ∧ f v = .ok ch

/-- The cookie names `u`: as the user, or as the owner of the session. -/
def CookieOf (cfg : ProvCfg) (raw : Option Str) (u : Str) : Prop :=
  ShowsLogin cfg raw u ∨
  ∃ v b x sid, CookieSays cfg raw v ∧ cfg.acfg.lib.b64d v = some b ∧ cfg.acfg.lib.json b = .ok (x, sid) ∧
    (x = some u ∨ ∃ k, sid = some k ∧ ownerOf k = u)

/-- A request that has nothing to do with what user `u` does at client `c`: it comes from another user's browser or is, as
parsed, a request of another client; it redeems no code or refresh token from a session of `u` at `c`; it is no logout
from such a session, nor of `u` from everywhere; it registers nobody under an id in use.  Token requests may be
parsed, tokens shown and asked about, by whomever. -/
def ByOthers (cfg : ProvCfg) (u c : Str) (st : Prov) : HttpOp → Prop
  | .register _ newId _ _ _ => newId = true
  | .authorize _ _ _ _ _ raw req => CookieOf cfg raw u → ∀ q, Parsed cfg st req.areq q → q.clientId ≠ c
  | .tokenProcess i req => ∀ v gid, (req.code.map plusForBlank = some v ∨ req.refreshToken = some v) →
      cfg.sys.env.th.sid cfg.sys.env.cr i.now v ≠ .ok (sessionKey [u, c, gid])
  | .logout _ sid alla => ∀ c' gid, unpackSessionKey sid = [u, c', gid] → alla = false ∧ c' ≠ c
  | .restart => False
  | _ => True

/-- ... or a restart of a provider whose sessions are on disk. -/
def ByOthersOrRestart (cfg : ProvCfg) (u c : Str) (st : Prov) (op : HttpOp) : Prop :=
  ByOthers cfg u c st op ∨ (op = .restart ∧ cfg.sys.mode = .byValue)

/-- After the history `h` come the requests `mid`; each is as `R` says, given the state it finds. -/
def During (cfg : ProvCfg) (h mid : List HttpOp) (R : Prov → HttpOp → Prop) : Prop :=
  ∀ pre op post, mid = pre ++ op :: post → R (provRun cfg (h ++ pre)) op

/-- The string resolves at this time to a session of `u` at `c` that is in the storage. -/
def OfSession (cfg : ProvCfg) (st : Prov) (u c : Str) (now : Int) (v : Str) : Prop :=
  ∃ gid g, GoodId gid ∧ cfg.sys.env.th.sid cfg.sys.env.cr now v = .ok (sessionKey [u, c, gid]) ∧
    getGrant st.sys.store (sessionKey [u, c, gid]) = .ok g

/-- A request that registers nobody under an id in use. -/
def FreshIds : HttpOp → Prop
  | .register _ newId _ _ _ => newId = true
  | _ => True

end Verif.Spec
