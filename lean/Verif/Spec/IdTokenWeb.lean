import Verif.Spec.Given
import Verif.Model.IdTokenServe
/-! Words for C162: what the ID tokens in answers are about. -/
namespace Verif.Spec

/-- The string that a token request redeems: its code or its refresh token. -/
def Redeems (req : TokReq) (v : Str) : Prop :=
  (req.grantType = some c!"authorization_code" ∧ req.code = some v) ∨
  (req.grantType = some c!"refresh_token" ∧ req.refreshToken = some v)

/-- In this history the ID tokens of the token endpoint are made as the code makes them: for the session that the redeemed
string stands for, from the session storage as the request leaves it. -/
def IdTokensMade (cfg : ProvCfg) (icfg : IdTokenCfg) (sign : ToSign → Out Str) (ops : List HttpOp) : Prop :=
  ∀ i inp req v sid, ops[i]? = some (.tokenProcess inp req) → Redeems req v →
    cfg.sys.env.th.sid cfg.sys.env.cr inp.now v = .ok sid →
    inp.idt = idTokenSigned icfg sign (provRun cfg (ops.take i)).cdb (provRun cfg (ops.take (i + 1))).sys.store sid none none

/-- What is signed is about the session `sid` and the login and authorization request before request `n` that made it: audience
is the client of that request, `sub` the subject identifier of the user whose browser brought it, `nonce` the request's (and
absent if it had none), `auth_time` and `acr` those of a login of that user. -/
structure AboutLogin (cfg : ProvCfg) (ops : List HttpOp) (n : Nat) (sid : Str) (t : ToSign) : Prop where
  about : ∃ u sub ev k now gid mc ma idt raw areq q, k < n ∧ ops[k]? = some (.authorize now gid mc ma idt raw areq) ∧
    Parsed cfg (provRun cfg (ops.take k)) areq.areq q ∧ sid = sessionKey [u, q.clientId, gid] ∧
    (ShowsLogin cfg raw u ∨ ∃ s, ShowsSession cfg raw u (some s)) ∧
    WebLogin cfg ops n sid u q.clientId sub (some ev) ∧ t.aud = q.clientId ∧
    t.payload.get? c!"sub" = some (.str sub) ∧ t.payload.get? c!"nonce" = q.nonce.map Val.str ∧
    t.payload.get? c!"auth_time" = (if ev.authnTime = 0 then none else some (.int ev.authnTime)) ∧
    t.payload.get? c!"acr" = (if ev.authnInfo = [] then none else some (.str ev.authnInfo))

/-- A request at the authorization endpoint is answered for the session `sid` of the user `u`; `q` is the request as it was parsed. -/
def AnsweredFor (cfg : ProvCfg) (st : Prov) (now : Int) (gid : Str) (raw : Option Str) (req : UserReq) (q : AuthReq) (sid u : Str) : Prop :=
  Parsed cfg st req.areq q ∧ ∃ a, authnIn cfg.sys.env cfg.acfg now raw { req with areq := q } = .ok a ∧
    (setupAuth cfg.sys.env st.cdb st.sys.store now gid q a).2 = .val (.session sid u)

/-- In this history the ID tokens of the authorization endpoint are made as the code makes them: for the session that the
request is answered for, and with the code and the access token of the answer. -/
def FrontIdTokensMade (cfg : ProvCfg) (icfg : IdTokenCfg) (sign : ToSign → Out Str) (ops : List HttpOp) : Prop :=
  ∀ i now gid mc ma idt raw req r ra q sid u, ops[i]? = some (.authorize now gid mc ma idt raw req) →
    (authorizeEndpoint cfg (provRun cfg (ops.take i)) now gid mc ma idt raw req).2.2.2 = .reply r → r.content = .val ra →
    AnsweredFor cfg (provRun cfg (ops.take i)) now gid raw req q sid u →
    idt = idTokenSigned icfg sign (provRun cfg (ops.take (i + 1))).cdb (provRun cfg (ops.take (i + 1))).sys.store sid ra.code ra.accessToken

end Verif.Spec
