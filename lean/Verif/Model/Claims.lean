import Verif.Model.Client
/-! `session/claims.py` and `scopes.py`: which claims may be released. -/
namespace Verif

/-- Booleans are integers in Python comparisons. -/
def Val.norm : Val → Val
  | .bool b => .int (if b then 1 else 0)
  | .lcons h t => .lcons h.norm t.norm
  | .dcons k v r => .dcons k v.norm r.norm
  | v => v

/-- Python `a == b` on JSON values.  Simplification: dictionaries are compared in order (Python ignores the order). -/
def Val.pyEq (a b : Val) : Bool := decide (a.norm = b.norm)

/-- Python `x in v`: list membership, dictionary keys, substring; `none` is a `TypeError`. -/
def Val.pyIn (x : Val) : Val → Option Bool
  | .lnil => some false
  | .lcons h t => if x.pyEq h then some true else Val.pyIn x t
  | .dnil => some false
  | .dcons k _ r => if x = .str k then some true else Val.pyIn x r
  | .str s => match x with
    | .str y => some (isInfix y s)
    | _ => none
  | _ => none

/-- The loop of `claims_match` (session/claims.py:148-163) over the items of the specification. -/
def claimsLoop (value : Val) : List (Str × Val) → Except Exn Bool
  | [] => .ok false
  | (k, v) :: r =>
    if k = c!"value" then (if value.pyEq v then .ok true else claimsLoop value r)
    else if k = c!"values" then
      match value.pyIn v with
      | none => .error .typeError
      | some true => .ok true
      | some false => claimsLoop value r
    else claimsLoop value r

/-- `claims_match` (session/claims.py:128-169). A missing value and JSON `null` are both Python's `None`. -/
def claimsMatch (value : Option Val) (spec : ClaimSpec) : Except Exn Bool :=
  match value with
  | none | some .null => .ok false
  | some v => match spec with
    | none => .ok true
    | some d => match claimsLoop v d with
      | .error e => .error e
      | .ok true => .ok true
      | .ok false => .ok (decide (d.keys = [c!"essential"]))

/-- The dictionary comprehension of `get_user_claims` (session/claims.py:121-123). -/
def userClaimsLoop (info : Dict Val) : Claims → Except Exn (Dict Val)
  | [] => .ok []
  | (k, spec) :: r => match claimsMatch (info.get? k) spec with
    | .error e => .error e
    | .ok b => match userClaimsLoop info r with
      | .error e => .error e
      | .ok rest => .ok (if b then (k, (info.get? k).getD .null) :: rest else rest)

/-- `ClaimsInterface.get_user_claims` (session/claims.py:109-125): `userDb` is `endpoint_context.userinfo`. -/
def getUserClaims (userDb : Str → Dict Val) (user : Str) (restriction : Claims) : Except Exn (Dict Val) :=
  if restriction.isEmpty then .ok [] else userClaimsLoop (userDb user) restriction

/-- `module.kwargs` of the endpoint or handler a claims interface belongs to (session/claims.py:66-96). -/
structure ClaimsModule where
  baseClaims : Claims := []
  perClient : Bool := false
  byScope : Bool := false
deriving DecidableEq, Repr

/-- Configuration used by the claims interface: the modules by usage ("userinfo", "id_token", "introspection",
"access_token"), `scope2claims` and `provider_info["scopes_supported"]`. -/
structure ClaimsCfg where
  modules : Dict ClaimsModule
  scope2claims : Dict (List Str)
  scopesSupported : List Str

/-- `available_scopes` (scopes.py:28-33). -/
def availableScopes (cfg : ClaimsCfg) : List Str :=
  if cfg.scopesSupported.isEmpty then cfg.scope2claims.keys
  else cfg.scope2claims.keys.filter fun s => cfg.scopesSupported.contains s

/-- `Scopes.allowed_scopes` (scopes.py:59-74). -/
def allowedScopes (cfg : ClaimsCfg) (cdb : Cdb) (client : Str) : List Str :=
  match cdb client with
  | none => []
  | some c => if c.allowedScopes.isEmpty then availableScopes cfg else c.allowedScopes

/-- `Scopes.filter_scopes` (scopes.py:76-79). -/
def filterScopes (cfg : ClaimsCfg) (cdb : Cdb) (client : Str) (scopes : List Str) : List Str :=
  scopes.filter fun s => (allowedScopes cfg cdb client).contains s

/-- `{name: None for name in names}` -/
def nameClaims (names : List Str) : Claims := names.map fun n => (n, none)

/-- `convert_scopes2claims` (scopes.py:36-53) without `allowed_claims`, the way the claims interface calls it: `KeyError`
for a scope that is not in the map. -/
def convertScopes (map : Dict (List Str)) : List Str → Claims → Except Exn Claims
  | [], acc => .ok acc
  | s :: r, acc => match map.get? s with
    | none => .error .keyError
    | some names => convertScopes map r (acc.update (nameClaims names))

/-- `convert_scopes2claims` (scopes.py:36-53) with `allowed_claims`: scopes outside the map are skipped. -/
def convertScopesAllowed (map : Dict (List Str)) (allowed : List Str) : List Str → Claims → Claims
  | [], acc => acc
  | s :: r, acc => match map.get? s with
    | none => convertScopesAllowed map allowed r acc
    | some names => convertScopesAllowed map allowed r (acc.update (nameClaims (names.filter fun n => allowed.contains n)))

/-- `authorization_request_claims` (session/claims.py:38-44) given the claims parameter of the grant's request. -/
def requestClaims (authReqClaims : Option (Dict Claims)) (usage : Str) : Claims :=
  if usage = c!"id_token" ∨ usage = c!"userinfo" then ((authReqClaims.getD []).get? usage).getD [] else []

/-- Replace the claims dictionary of a client. -/
def Cdb.setClaims (cdb : Cdb) (client usage : Str) (d : Claims) : Cdb := fun c =>
  if c = client then (cdb c).map fun cl => { cl with claims := cl.claims.set usage (.dict d) } else cdb c

/-- `_get_client_claims` (session/claims.py:46-51); the flag says whether the result is the very dictionary stored in
the client database. -/
def clientClaims (cdb : Cdb) (client usage : Str) : Claims × Bool :=
  match cdb client with
  | none => ([], false)
  | some c => match c.claims.get? usage with
    | none => ([], false)
    | some (.names l) => (nameClaims l, false)
    | some (.dict d) => (d, true)

/-- `ClaimsInterface.get_claims` (session/claims.py:53-102) for a session of `client` whose authorization request has the
claims parameter `arc`.  The result dictionary is built by updating, in place, what `_get_client_claims` returned; if
that is the stored dictionary, the client database changes. -/
def getClaims (cfg : ClaimsCfg) (cdb : Cdb) (client : Str) (arc : Option (Dict Claims)) (scopes : List Str)
    (usage : Str) : Cdb × Except Exn Claims :=
  let m := cfg.modules.get? usage
  let base := match m with
    | some m => m.baseClaims
    | none => []
  let cc : Claims × Bool := match m with
    | some m => if m.perClient then clientClaims cdb client usage else ([], false)
    | none => ([], false)
  let store (d : Claims) : Cdb := if cc.2 then cdb.setClaims client usage d else cdb
  let c1 := cc.1.update base
  let c2 : Except Exn Claims := match m with
    | some m =>
      if m.byScope ∧ scopes ≠ [] then
        match convertScopes cfg.scope2claims (filterScopes cfg cdb client scopes) [] with
        | .error e => .error e
        | .ok sc => .ok (c1.update sc)
      else .ok c1
    | none => .ok c1
  match c2 with
  | .error e => (store c1, .error e)
  | .ok c2 =>
    let c3 := c2.update (requestClaims arc usage)
    (store c3, .ok c3)

end Verif
