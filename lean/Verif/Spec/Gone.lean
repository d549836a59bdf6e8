import Verif.Spec.Given
/-! Strings that are of no use any more. -/
namespace Verif.Spec

/-- After the history `ops`, at time `later`, nobody gets anything for the string `v`: no user data at the userinfo endpoint, no
tokens for it as a code or as a refresh token, and introspection does not call it active. -/
structure OfNoUse (cfg : ProvCfg) (ops : List HttpOp) (later : Int) (v : Str) : Prop where
  userinfo : ∀ (r : AuthnReq), (∀ t, Bears cfg.userinfoMethods r t → t = v) →
    ∀ j x, userinfoEndpoint cfg (provRun cfg ops) later r ≠ (j, .val x)
  introspection : ∀ r j d, introspectEndpoint cfg (provRun cfg ops) later r (some v) = (j, .val d) →
    d.get? c!"active" ≠ some (.bool true)
  code : ∀ inp req resp, inp.now = later → req.grantType = some c!"authorization_code" → req.code = some v →
    tokensAt cfg (ops ++ [.tokenProcess inp req]) ops.length ≠ some (req, resp)
  refresh : ∀ inp req resp, inp.now = later → req.grantType = some c!"refresh_token" → req.refreshToken = some v →
    tokensAt cfg (ops ++ [.tokenProcess inp req]) ops.length ≠ some (req, resp)

end Verif.Spec
