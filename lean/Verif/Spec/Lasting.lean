import Verif.Spec.WebFlow
import Verif.Spec.Grant
import Verif.Spec.Honest
import Verif.Spec.Provider
import Verif.Spec.Resource
/-! How long a token given out over HTTP can be used. -/
namespace Verif.Spec

/-- A request that is no authorization request of client `c` from the browser of user `u`; nor a restart of a provider that
keeps its sessions in memory.  Anything else may be requested, by anybody: code redemptions and refreshes of this very
session, logouts from it, registrations, and so on. -/
def NoNewLogin (cfg : ProvCfg) (u c : Str) (st : Prov) : HttpOp → Prop
  | .authorize _ _ _ _ _ raw req => CookieOf cfg raw u → ∀ q, Parsed cfg st req.areq q → q.clientId ≠ c
  | .restart => cfg.sys.mode = .byValue
  | _ => True

/-- The session of `u` with client `c` has the access token `v`; at time `now` the token is active, the string can be read, and
the login still counts. -/
def Usable (cfg : ProvCfg) (s : Store) (u c gid v : Str) (now : Int) : Prop :=
  ∃ g t ev, getGrant s (sessionKey [u, c, gid]) = .ok g ∧ g.getToken v = some t ∧ t.kind = .accessToken ∧
    ActiveAt t.toItem t.usageRules.maxUsage now ∧ g.authnEvent = some ev ∧ now < ev.validUntil ∧
    cfg.sys.env.th.sid cfg.sys.env.cr now v = .ok (sessionKey [u, c, gid])

/-- The access token `v`, made at `made` (by handler `ha`) and announced to live for `expiresIn` seconds, works from the history `hist`
on until its time; `g` is the grant of its session, and `ev` the login.

Whatever requests are made then (except new authorization requests of this user at this client, and restarts of a provider that
forgets its sessions): as long as `expiresIn` has not passed, the login counts and the string is readable, the userinfo endpoint tells the
user's data to whoever shows the token, and introspection tells any authenticated client that it is active, with the scope of
the session.  When `expiresIn` has passed, the userinfo endpoint tells nothing to requests that show this token.  (If the time of expiry
is 0, that means that there is none; see C74.) -/
structure WorksUntil (cfg : ProvCfg) (ha : Handler) (hist mid : List HttpOp) (u c gid v : Str) (g : Grant) (ev : AuthnEvent) (made : Int)
    (expiresIn : Option Int) (later : Int) : Prop where
  usable : later < ev.validUntil → Readable ha made later →
    (∀ m, ((g.usageRules.get? tAccessToken).getD {}).maxUsage = some m → 0 < m) →
    (expiresIn = none ∨ ∃ e, expiresIn = some e ∧ (e = -made ∨ later ≤ made + e)) →
    Usable cfg (provRun cfg (hist ++ mid)).sys.store u c gid v later ∧
    (some .bearerHeader ∈ cfg.userinfoMethods → ∀ info, getUserClaims cfg.userDb u ((g.claims.get? c!"userinfo").getD []) = .ok info →
      (userinfoEndpoint cfg (provRun cfg (hist ++ mid)) later { authorization := some (c!"Bearer " ++ v) }).2 =
        .val (Dict.set info c!"sub" (.str g.sub), c)) ∧
    (∀ ui, getUserClaims cfg.userDb u ((g.claims.get? c!"introspection").getD []) = .ok ui → ∀ r j o,
      clientAuthentication cfg.lib (provRun cfg (hist ++ mid)).cdb later cfg.introspectMethods cfg.introspectTargets
        plainFromToken (provRun cfg (hist ++ mid)).jtis r = (j, .ok o) →
      ∃ d, introspectEndpoint cfg (provRun cfg (hist ++ mid)) later r (some v) = (j, .val d) ∧
        d.get? c!"active" = some (.bool true) ∧
        ((∀ k ∈ reserved, k ∉ ((g.claims.get? c!"introspection").getD []).map Prod.fst) →
          d.get? c!"scope" = some (.str (joinBlank g.scope)) ∧ d.get? c!"client_id" = some (.str c) ∧
          d.get? c!"token_type" = some (.str c!"access_token") ∧ d.get? c!"iat" = some (.int made) ∧
          d.get? c!"exp" = some (.int ((expiresIn.map (made + ·)).getD 0)) ∧
          d.get? c!"sub" = some (.str g.sub) ∧ d.get? c!"iss" = some (.str cfg.issuer)))
  over : ∀ e, expiresIn = some e → e ≠ -made → made + e < later → ∀ (r : AuthnReq),
    (∀ t, Bears cfg.userinfoMethods r t → t = v) → ∀ j x, userinfoEndpoint cfg (provRun cfg (hist ++ mid)) later r ≠ (j, .val x)

end Verif.Spec
