import Verif.Spec.System
import Verif.Spec.Crypto
import Verif.Spec.Store
/-! What it takes for an honest client to be served: the configuration of the provider and the request. -/
namespace Verif.Spec

/-- The type letters the factory gives to the handlers (token/handler.py:114), and handlers for codes and access tokens. -/
structure IssuesTokens (env : Env) (hc ha : Handler) : Prop where
  laws : TokenCryptoLaws env.cr
  blankFree : BlankFree env
  code : env.th.code = some hc
  access : env.th.accessToken = some ha
  codeType : hc.typ = c!"A"
  accessType : ha.typ = c!"T"
  refreshType : ∀ h, env.th.refreshToken = some h → h.typ = c!"R"

/-- A string made by handler `h` at `made` can still be read at `now`: the lifetime written into a JWT has not passed. -/
def Readable (h : Handler) (made now : Int) : Prop := h.cls = .default ∨ now ≤ made + h.lifetime

/-- The verifier of the request fits the challenge of the authorization request, if PKCE is configured and was used. -/
def PkceSatisfied (env : Env) (ar : AuthReq) (req : TokReq) : Prop :=
  ∀ p, env.pkce = some p → ∀ ch, ar.codeChallenge = some ch →
    ∃ v m f, req.codeVerifier = some v ∧ ar.codeChallengeMethod = some m ∧ p.methods.get? m = some f ∧ f v = .ok ch

/-- A token request with the code, for the redirect URI of the authorization request, with the right PKCE verifier. -/
structure HonestCodeRequest (env : Env) (ar : AuthReq) (code : Str) (req : TokReq) : Prop where
  grantType : req.grantType = some c!"authorization_code"
  code : req.code = some code
  redirect : req.redirectUri = ar.redirectUri
  pkce : PkceSatisfied env ar req

/-- Nothing outside the code of the provider goes wrong while two tokens and an ID token are made: the payloads can be
computed, no user claim is called "ttype", and the ID token can be signed. -/
structure NoFailure (i : TokIn) : Prop where
  ma : i.ma.payload = .ok () ∧ i.ma.ttype = []
  mr : i.mr.payload = .ok () ∧ i.mr.ttype = []
  idt : ∃ x, i.idt = .val x

/-- The rules for tokens of type `tt` of a session of `client`: the provider's, or, if it has none, the client's. -/
def rulesFor (env : Env) (cdb : Cdb) (client tt : Str) : UsageRules :=
  ((env.gc.usageRules.getD (((cdb client).bind (·.tokenUsageRules)).getD [])).get? tt).getD {}

/-- The scopes a client may ask for: its own list, or, if that is empty, `dflt`. -/
def mayAsk (c : Client) (dflt : List Str) : List Str := if c.allowedScopes = [] then dflt else c.allowedScopes

/-- A parsed authorization request of a known client for a code: the scopes are allowed (if the provider insists), those
that count have claims (if any) configured, the redirect URI is the client's (`uri` is what it comes to), and the response
mode fits. -/
structure CodeFlowRequest (env : Env) (cdb : Cdb) (c : Client) (req : AuthReq) (uri : Str) : Prop where
  client : cdb req.clientId = some c
  scopeGiven : req.scope ≠ []
  scopeKnown : env.denyUnknown = true → ∀ s ∈ req.scope, s ∈ mayAsk c env.scopesSupported
  scopeMapped : ∀ s ∈ req.scope, c.allowedScopes ≠ [] → s ∈ c.allowedScopes → (env.ccfg.scope2claims.get? s).isSome
  responseType : req.responseType = [c!"code"]
  redirect : getUri env.lib cdb .redirect req.clientId req.redirectUri = .ok uri
  mode : req.responseMode = none ∨ req.responseMode = some c!"query" ∨ req.responseMode = some c!"form_post"

/-- `now` is not past the end of something made at `made` that lives for `e` seconds (for ever if that is 0 or nothing). -/
def Within (made : Int) (e : Option Int) (now : Int) : Prop := e.getD 0 = 0 ∨ now ≤ made + e.getD 0

end Verif.Spec
