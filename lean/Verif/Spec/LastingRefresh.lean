import Verif.Spec.Lasting
import Verif.Spec.Lifetime
/-! How long a refresh token given out over HTTP can be used. -/
namespace Verif.Spec

/-- At time `now` a refresh token, made at `made` (by handler `ha`) in the session with the grant `g`, has not reached the end of the
life time that the session's rules give refresh tokens (0 or nothing: no end), the string can be read, and the session itself is alive. -/
structure RefreshLives (ha : Handler) (g : Grant) (made now : Int) : Prop where
  token : lifetime g tRefreshToken = 0 ∨ now ≤ made + lifetime g tRefreshToken
  session : ActiveAt g.toItem none now
  readable : Readable ha made now

/-- The refresh token `rt` works from the history `hist` on until its time; `g` is the grant of its session.

Whatever requests are made then (`mid`; except new authorization requests of this user at this client, and restarts of a provider that
forgets its sessions), and however often it was used: a client that authenticates and brings it while it lives is served.  Its request
is accepted (`parses`); and when it is processed (`served`; after whatever else came in between), tokens with the scope of the session come
back.  (The client need not be the one the token was given to: see C29.)  When its life time is over, no request with it is
accepted (`over`). -/
structure RefreshesUntil (cfg : ProvCfg) (ha : Handler) (hist mid : List HttpOp) (u c rt : Str) (g : Grant) (made tp : Int) (r : AuthnReq) (t : TokReq) :
    Prop where
  parses : ∀ j o, clientAuthentication cfg.lib (provRun cfg (hist ++ mid)).cdb tp cfg.tokenMethods cfg.tokenTargets plainFromToken
      (provRun cfg (hist ++ mid)).jtis r = (j, .ok o) → RefreshLives ha g made tp →
    tokenParseEndpoint cfg (provRun cfg (hist ++ mid)) tp r t = (j, .val { t with clientId := requestClient r o })
  served : ∀ j o, clientAuthentication cfg.lib (provRun cfg (hist ++ mid)).cdb tp cfg.tokenMethods cfg.tokenTargets plainFromToken
      (provRun cfg (hist ++ mid)).jtis r = (j, .ok o) → RefreshLives ha g made tp →
    ∀ (mid2 h2 : List HttpOp) (inp : TokIn), h2 = hist ++ mid ++ [.tokenParse tp r t] ++ mid2 →
      (During cfg (hist ++ mid ++ [.tokenParse tp r t]) mid2 fun st op => NoNewLogin cfg u c st op ∧ op ≠ .restart) →
      WebRun cfg h2 → GoodNames cfg h2 → NoFailure inp → RefreshLives ha g made inp.now → Readable ha inp.now inp.now →
    ∃ tokens, tokensAt cfg (h2 ++ [.tokenProcess inp { t with clientId := requestClient r o }]) h2.length =
        some ({ t with clientId := requestClient r o }, tokens) ∧ tokens.scope = g.scope
  over : lifetime g tRefreshToken ≠ 0 → made + lifetime g tRefreshToken ≠ 0 → made + lifetime g tRefreshToken < tp →
    ∀ j q, tokenParseEndpoint cfg (provRun cfg (hist ++ mid)) tp r t ≠ (j, .val q)

end Verif.Spec
