import Verif.Spec.Lasting
import Verif.Spec.Lifetime
/-! How long a code given out over HTTP can be redeemed. -/
namespace Verif.Spec

/-- At time `now` a code, made at `made` (by handler `hc`) in the session with the grant `g`, has not reached the end of the life time
that the session's rules give codes (0 or nothing: no end), the string can be read, and the session itself is alive. -/
structure CodeLives (hc : Handler) (g : Grant) (made now : Int) : Prop where
  token : lifetime g tAuthorizationCode = 0 ∨ now ≤ made + lifetime g tAuthorizationCode
  session : ActiveAt g.toItem none now
  readable : Readable hc made now

/-- A request that is no authorization request of client `c` from the browser of user `u`, and no processing of a token request with the
code `v`; nor a restart of a provider that keeps its sessions in memory.  Anything else may be requested. -/
def NotRedeemed (cfg : ProvCfg) (u c v : Str) (st : Prov) (op : HttpOp) : Prop :=
  NoNewLogin cfg u c st op ∧ ∀ i req x, op = .tokenProcess i req → req.code = some x → x ≠ v

/-- The code `v` of the authorization request `q` can be redeemed from the history `hist` on until its time; `g` is the grant of its
session.

Whatever requests are made then (`mid`), as long as the code is not redeemed, and the user does not log in again at the client: a client that
authenticates and brings it while it lives, with the redirect URI of the authorization request and the PKCE verifier, is served.  Its
request is accepted (`parses`); and when it is processed (`served`; after whatever else came in between), tokens with the scope of
the session come back, among them a refresh token exactly if `offline_access` was granted and an ID token exactly if `openid` was asked
for.  When its life time is over, no request with it is accepted (`over`). -/
structure RedeemableUntil (cfg : ProvCfg) (hc ha : Handler) (hist mid : List HttpOp) (u v : Str) (q : AuthReq) (g : Grant) (made tp : Int) (r : AuthnReq)
    (t : TokReq) : Prop where
  parses : ∀ j o, clientAuthentication cfg.lib (provRun cfg (hist ++ mid)).cdb tp cfg.tokenMethods cfg.tokenTargets plainFromToken
      (provRun cfg (hist ++ mid)).jtis r = (j, .ok o) → CodeLives hc g made tp →
    tokenParseEndpoint cfg (provRun cfg (hist ++ mid)) tp r t = (j, .val { t with clientId := some ((requestClient r o).getD q.clientId) })
  served : ∀ j o, clientAuthentication cfg.lib (provRun cfg (hist ++ mid)).cdb tp cfg.tokenMethods cfg.tokenTargets plainFromToken
      (provRun cfg (hist ++ mid)).jtis r = (j, .ok o) → CodeLives hc g made tp →
    ∀ (mid2 h2 : List HttpOp) (inp : TokIn), h2 = hist ++ mid ++ [.tokenParse tp r t] ++ mid2 →
      (During cfg (hist ++ mid ++ [.tokenParse tp r t]) mid2 fun st op => NotRedeemed cfg u q.clientId v st op ∧ op ≠ .restart) →
      WebRun cfg h2 → GoodNames cfg h2 → NoFailure inp → CodeLives hc g made inp.now → Readable ha inp.now inp.now →
    ∃ tokens, tokensAt cfg (h2 ++ [.tokenProcess inp { t with clientId := some ((requestClient r o).getD q.clientId) }]) h2.length =
        some ({ t with clientId := some ((requestClient r o).getD q.clientId) }, tokens) ∧ tokens.scope = g.scope ∧
      (tokens.refreshToken.isSome = true ↔ c!"offline_access" ∈ g.scope) ∧ (tokens.idToken.isSome = true ↔ c!"openid" ∈ q.scope)
  over : lifetime g tAuthorizationCode ≠ 0 → made + lifetime g tAuthorizationCode ≠ 0 → made + lifetime g tAuthorizationCode < tp →
    ∀ j x, tokenParseEndpoint cfg (provRun cfg (hist ++ mid)) tp r t ≠ (j, .val x)

end Verif.Spec
