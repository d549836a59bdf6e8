import Verif.Props.Claims
/-! Where the restriction on a claim comes from. -/
namespace Verif.Spec

/-- What the authorization request's `claims` parameter says of the claim for this use: possible for the ID token and the
userinfo endpoint only. -/
def askedAs (arc : Option (Dict Claims)) (usage n : Str) : Option ClaimSpec :=
  if usage = c!"id_token" ∨ usage = c!"userinfo" then
    (arc.bind fun d => d.get? usage).bind fun (cs : Claims) => Dict.get? cs n
  else none

/-- The claim belongs to a requested scope that the client may use. -/
def ScopeGives (cfg : ClaimsCfg) (cdb : Cdb) (client : Str) (scopes : List Str) (n : Str) : Prop :=
  ∃ s ∈ scopes, ScopeAllowed cfg cdb client s ∧ ∃ names, cfg.scope2claims.get? s = some names ∧ n ∈ names

/-- What the client's record says of the claim for this use. -/
def clientAs (cdb : Cdb) (client usage n : Str) : Option ClaimSpec :=
  match cdb client with
  | none => none
  | some c => match c.claims.get? usage with
    | none => none
    | some (.names l) => if n ∈ l then some none else none
    | some (.dict d) => Dict.get? d n

/-- The restriction `r` (`none`: the claim is not granted) under which a claim is granted for a use whose configuration is
`m`.  The request comes first, then the scopes (no restriction), then the base claims of the configuration, then the
client's record. -/
def GrantedAs (cfg : ClaimsCfg) (m : ClaimsModule) (cdb : Cdb) (client : Str) (arc : Option (Dict Claims)) (scopes : List Str)
    (usage n : Str) (r : Option ClaimSpec) : Prop :=
  match askedAs arc usage n with
  | some s => r = some s
  | none =>
    (m.byScope = true ∧ ScopeGives cfg cdb client scopes n → r = some none) ∧
    (¬ (m.byScope = true ∧ ScopeGives cfg cdb client scopes n) →
      r = match Dict.get? m.baseClaims n with
        | some s => some s
        | none => if m.perClient then clientAs cdb client usage n else none)

/-- The claims of Python dictionaries have distinct names. -/
def DistinctNames (arc : Option (Dict Claims)) (m : ClaimsModule) : Prop :=
  m.baseClaims.keys.Nodup ∧ ∀ d, arc = some d → ∀ u cs, d.get? u = some cs → cs.keys.Nodup

end Verif.Spec
