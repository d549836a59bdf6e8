import Verif.Spec.WebFlow
import Verif.Spec.Grant
/-! Refresh tokens on the web. -/
namespace Verif.Spec

/-- A provider at which refresh tokens can be used: the grant type is configured, PKCE is not (with PKCE no refresh request
succeeds, see C31), and the rules for refresh tokens let them be used and give access tokens. -/
structure RefreshProvider (cfg : ProvCfg) : Prop where
  helper : cfg.sys.helpers.get? c!"refresh_token" = some (.inst .refreshToken)
  noPkce : cfg.sys.env.pkce = none
  mints : ∀ l, (providerRules cfg tRefreshToken).supportsMinting = some l → tAccessToken ∈ l
  uses : ∀ n, (providerRules cfg tRefreshToken).maxUsage = some n → 0 < n

/-- The session of `u` with client `c` holds the refresh token `v`; at time `now` the session and the token are active and the
string can be read; the token may give access tokens. -/
def Refreshable (cfg : ProvCfg) (s : Store) (u c gid v : Str) (now : Int) : Prop :=
  ∃ g t, getGrant s (sessionKey [u, c, gid]) = .ok g ∧ g.getToken v = some t ∧ t.kind = .refreshToken ∧
    g.maxUsage = none ∧ g.tokenMap = defaultTokenMap ∧
    ActiveAt g.toItem g.maxUsage now ∧ ActiveAt t.toItem t.usageRules.maxUsage now ∧ t.supportsMinting tAccessToken = true ∧
    cfg.sys.env.th.sid cfg.sys.env.cr now v = .ok (sessionKey [u, c, gid])

/-- The processing of a refresh request, whoever's. -/
def RefreshProcessed : HttpOp → Prop
  | .tokenProcess _ req => req.grantType = some c!"refresh_token"
  | _ => False

end Verif.Spec
