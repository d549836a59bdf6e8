import Verif.Model.Claims
import Verif.Model.Grant
/-! `authz/__init__.py`: usage rules per client and the authorization decision. -/
namespace Verif

/-- `grant_config` (authz/__init__.py:18-22): the two documented entries. -/
structure AuthzConfig where
  usageRules : Option (Dict UsageRules) := none
  expiresIn : Option Int := none
  /-- the class is `Implicit` (authz/__init__.py:93-100), the default (endpoint_context.py:381-386), not `AuthzHandling`. -/
  implicit : Bool := false

/-- `rule.update(per_client_rule)` on the rules of one token type. -/
def UsageRules.update (r p : UsageRules) : UsageRules where
  maxUsage := p.maxUsage <|> r.maxUsage
  supportsMinting := p.supportsMinting <|> r.supportsMinting
  expiresIn := p.expiresIn <|> r.expiresIn

/-- One round of the first loop (authz/__init__.py:36-39). -/
def mergeRule (pc : Dict UsageRules) (kv : Str × UsageRules) : Str × UsageRules :=
  match pc.get? kv.1 with
  | some p => (kv.1, kv.2.update p)
  | none => kv

/-- `AuthzHandling.usage_rules` (authz/__init__.py:24-46); a client that is unknown or has no rules is `none`. -/
def usageRulesOf (gc : AuthzConfig) (cdb : Cdb) (client : Str) : Dict UsageRules :=
  let rules := gc.usageRules.getD []
  match (cdb client).bind (·.tokenUsageRules) with
  | none => rules
  | some pc =>
    if rules.isEmpty then pc
    else
      let merged : Dict UsageRules := rules.map (mergeRule pc)
      pc.foldl (fun acc kv => if acc.has kv.1 then acc else acc.set kv.1 kv.2) merged

/-- `AuthzHandling.usage_rules_for` (authz/__init__.py:48-53). -/
def usageRulesFor (gc : AuthzConfig) (cdb : Cdb) (client tokenType : Str) : UsageRules :=
  ((usageRulesOf gc cdb client).get? tokenType).getD {}

/-- The interfaces for which claims are computed (authz/__init__.py:86). -/
def interfaces : List Str := [c!"userinfo", c!"introspection", c!"id_token", c!"access_token"]

/-- The loop at authz/__init__.py:86-89. -/
def claimsForAll (ccfg : ClaimsCfg) (client : Str) (arc : Option (Dict Claims)) (scopes : List Str) :
    List Str → Cdb → Dict Claims → Cdb × Except Exn (Dict Claims)
  | [], cdb, acc => (cdb, .ok acc)
  | i :: is, cdb, acc =>
    let r := getClaims ccfg cdb client arc scopes i
    match r.2 with
    | .error e => (r.1, .error e)
    | .ok c => claimsForAll ccfg client arc scopes is r.1 (acc.set i c)

/-- `Implicit.__call__` (authz/__init__.py:93-100): `for arg, val in args` unpacks the *names* of the configured entries,
neither of which has two characters, so any entry is a `ValueError`; otherwise the grant is returned as it is. -/
def implicitCall (gc : AuthzConfig) (g : Grant) : Except Exn Grant :=
  if gc.usageRules.isSome || gc.expiresIn.isSome then .error .valueError else .ok g

/-- `AuthzHandling.__call__` (authz/__init__.py:55-90) or `Implicit.__call__` on the stored grant `g` of a session of `client`.
`request["scope"]` is a `KeyError` if there is no scope.  Simplification: if it raises, the changes made so far to the
grant object are not recorded (the session then has no tokens). -/
def authzCall (gc : AuthzConfig) (ccfg : ClaimsCfg) (cdb : Cdb) (now : Int) (client : Str) (g : Grant) (req : AuthReq) :
    Cdb × Except Exn Grant :=
  if gc.implicit then (cdb, implicitCall gc g)
  else if req.scope = [] then (cdb, .error .keyError)
  else match g.authReq with
  | none => (cdb, .error .typeError)
  | some ar =>
    let g1 : Grant := { g with
      scope := req.scope
      claims := req.claims.getD g.claims
      usageRules := gc.usageRules.getD g.usageRules
      expiresAt := match gc.expiresIn with
        | some e => now + e
        | none => g.expiresAt
      resources := [client] }
    let r := claimsForAll ccfg client ar.claims req.scope interfaces cdb g1.claims
    match r.2 with
    | .error e => (r.1, .error e)
    | .ok cl => (r.1, .ok { g1 with claims := cl })

end Verif
