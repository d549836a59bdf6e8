import Verif.Model.AuthzHandling
import Verif.Model.TokenString
/-! `get_usage_rules` (session/grant.py) and the `is_expired` methods of the token handlers. -/
namespace Verif

/-- `DEFAULT_USAGE` (session/grant.py:280-293). -/
def defaultUsage : Dict UsageRules :=
  [(tAuthorizationCode, { maxUsage := some 1, supportsMinting := some [tAccessToken, tRefreshToken, c!"id_token"], expiresIn := some 300 }),
   (tAccessToken, { supportsMinting := some [], expiresIn := some 3600 }),
   (tRefreshToken, { supportsMinting := some [tAccessToken, tRefreshToken, c!"id_token"] })]

/-- What a call may change: the module's table of defaults and the clients' records. -/
structure UsageSt where
  defaults : Dict UsageRules := defaultUsage
  cdb : Cdb

/-- The client's rules of one type replaced: an in-place change of `cdb[client]["token_usage_rules"][typ]`. -/
def setClientRule (cdb : Cdb) (client typ : Str) (r : UsageRules) : Cdb := fun c =>
  if c = client then (cdb c).map fun cl => { cl with tokenUsageRules := cl.tokenUsageRules.map fun p => p.set typ r } else cdb c

/-- `get_usage_rules(token_type, endpoint_context, grant, client_id)` (session/grant.py:296-316) for a grant with rules `gr`.
`usage_rules_for` (authz/__init__.py:48-53) hands out a part of a deep copy if the provider has rules for the type, else the
client's own dictionary, else a fresh empty one (and then the module's default is taken); `_usage.update(..)` changes whichever it
is.  Rules with none of the three entries count as empty. -/
def getUsageRules (gc : AuthzConfig) (st : UsageSt) (typ client : Str) (gr : Dict UsageRules) : UsageSt × Except Exn UsageRules :=
  let found := usageRulesFor gc st.cdb client typ
  let own := (gr.get? typ).getD {}
  if found ≠ {} then
    if (gc.usageRules.getD []).get? typ = none then ({ st with cdb := setClientRule st.cdb client typ (found.update own) }, .ok (found.update own))
    else (st, .ok (found.update own))
  else match st.defaults.get? typ with
    | none => (st, .error .keyError)
    | some d => ({ st with defaults := st.defaults.set typ (d.update own) }, .ok (d.update own))

/-- `DefaultToken.is_expired` (token/__init__.py:168-174) and `JWTToken.is_expired` (token/jwt_token.py:100-111) at time `now`;
`is_expired` (token/__init__.py:22-28) takes `when = 0` as now.  The exception of the JWT library for a bad token is not caught; it
is written `verificationError` here. -/
def handlerIsExpired (cr : TokenCrypto) (h : Handler) (now : Int) (token : Str) (when_ : Int) : Except Exn Bool :=
  let t := if when_ = 0 then now else when_
  match h.cls with
  | .default =>
    match handlerInfo cr h now token with
    | .error e => .error e
    | .ok i => match i.exp with
      | none => .error .keyError
      | some s => if s = c!"-1" then .ok false else match pyInt s with
        | none => .error .valueError
        | some e => .ok (isExpired e t)
  | .jwt => match cr.jwtUnpack h.key token with
    | none => .error .verificationError
    | some (_, _, e) => .ok (isExpired e t)

end Verif
