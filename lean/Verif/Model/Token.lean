import Verif.Model.Types
/-! `session/token.py`: items and tokens. -/
namespace Verif

/-- `Item.__init__` (session/token.py:13-31) with the clock at `now`. -/
def Item.mk' (now issuedAt expiresIn expiresAt notBefore : Int) (revoked : Bool) (used : Nat) : Item where
  issuedAt := if issuedAt = 0 then now else issuedAt
  notBefore := notBefore
  expiresAt := if expiresAt = 0 ∧ expiresIn ≠ 0 then now + expiresIn else expiresAt
  revoked := revoked
  used := used

/-- `Item.max_usage_reached` (session/token.py:36-40). -/
def Item.maxUsageReached (it : Item) (maxUsage : Option Int) : Bool :=
  match maxUsage with
  | some m => decide ((it.used : Int) ≥ m)
  | none => false

/-- `Item.is_active` (session/token.py:42-60) with the clock at `now`. (`now = 0` means "use the clock"; here the clock
reading is the argument.) -/
def Item.isActive (it : Item) (maxUsage : Option Int) (now : Int) : Bool :=
  if it.maxUsageReached maxUsage then false
  else if it.revoked then false
  else if it.notBefore ≠ 0 ∧ now < it.notBefore then false
  else if it.expiresAt ≠ 0 ∧ now > it.expiresAt then false
  else true

/-- `is_active` of a token. -/
def Token.isActive (t : Token) (now : Int) : Bool := t.toItem.isActive t.usageRules.maxUsage now

/-- `is_active` of a grant. -/
def Grant.isActive (g : Grant) (now : Int) : Bool := g.toItem.isActive g.maxUsage now

/-- `Item.revoke` (session/token.py:62-63). -/
def Token.revoke (t : Token) : Token := { t with revoked := true }
def Grant.revoke (g : Grant) : Grant := { g with revoked := true }

/-- `set_defaults` (session/token.py:99-100, 145-150, 153-156): authorization codes always get `max_usage` 1; codes and
refresh tokens may mint access and refresh tokens unless the rules say otherwise.  Simplification: in Python the rules
dictionary is shared with the grant's `usage_rules[type]` and is changed in place; here tokens have their own copy (C171 proves that
this cannot be observed, in a model with the sharing: Model/SharedRules.lean). -/
def setDefaults (k : TokenKind) (r : UsageRules) : UsageRules :=
  let sm := match r.supportsMinting with
    | some l => some l
    | none => some [tAccessToken, tRefreshToken]
  match k with
  | .authorizationCode => { r with supportsMinting := sm, maxUsage := some 1 }
  | .refreshToken => { r with supportsMinting := sm }
  | .accessToken => r

/-- Keyword arguments of the `Token` constructor (session/token.py:71-86). `usage_rules=None` is `{}`. -/
structure TokenArgs where
  typ : Str := []
  value : Str := []
  basedOn : Option Str := none
  usageRules : UsageRules := {}
  issuedAt : Int := 0
  expiresIn : Int := 0
  expiresAt : Int := 0
  notBefore : Int := 0
  revoked : Bool := false
  used : Nat := 0
  id : Str := []
  scope : List Str := []
  claims : Claims := []
  resources : List Str := []

/-- The constructor of the token classes (session/token.py:71-97); `freshId` is `uuid1().hex`. -/
def Token.new (k : TokenKind) (now : Int) (freshId : Str) (a : TokenArgs) : Token where
  toItem := Item.mk' now a.issuedAt a.expiresIn a.expiresAt a.notBefore a.revoked a.used
  kind := k
  typ := a.typ
  value := a.value
  basedOn := a.basedOn
  usageRules := setDefaults k a.usageRules
  id := if a.id = [] then freshId else a.id
  scope := a.scope
  claims := a.claims
  resources := a.resources

/-- `register_usage` (session/token.py:102-103). -/
def Token.registerUsage (t : Token) : Token := { t with used := t.used + 1 }

/-- `supports_minting` (session/token.py:133-138). -/
def Token.supportsMinting (t : Token) (tokenType : Str) : Bool :=
  match t.usageRules.supportsMinting with
  | none => false
  | some l => l.contains tokenType

end Verif
