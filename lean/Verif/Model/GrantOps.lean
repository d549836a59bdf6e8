import Verif.Model.Grant
/-! Histories of one grant: every way the provider changes a grant it holds. -/
namespace Verif

/-- The part of a grant that the authorization policy sets after authentication (authz/__init__.py:63-90). -/
structure GrantConfig where
  expiresAt : Int
  scope : List Str
  claims : Dict Claims
  resources : List Str
  usageRules : Dict UsageRules
  maxUsage : Option Int

/-- One change of a grant. -/
inductive GrantOp where
  /-- `grant.mint_token` (session/grant.py:181-237); the base token is one of the tokens of the same grant, named by its
  position: oidc/token.py:107,136-139,145-148 take the one `get_token` found, oauth2/authorization.py:686-692 the code that
  was just minted. -/
  | mint (now : Int) (freshId tokenType : Str) (basedOn : Option Nat) (rules : Option UsageRules) (scope : List Str)
      (args : MintArgs) (value : Except Exn Str)
  /-- `token.register_usage()` (session/token.py:102-103; oidc/token.py:151). -/
  | use (value : Str)
  /-- `grant.revoke_token` (session/grant.py:245-262). -/
  | revokeToken (limit : Nat) (value basedOn : Str) (recursive : Bool)
  /-- `_revoke_dependent` (session/manager.py:221-225). -/
  | revokeDependent (limit : Nat) (value : Str)
  /-- `token.revoked = True` (session/manager.py:239) / `token.revoke()`. -/
  | revokeOne (value : Str)
  /-- `grant.revoke()` (session/token.py:62-63; session/manager.py:291-300). -/
  | revokeGrant
  /-- `token.expires_at = ..` (oidc/token.py:68-73, oauth2/authorization.py:311-332). -/
  | setExpiry (position : Nat) (expiresAt : Int)
  /-- `refresh_token.usage_rules = token.usage_rules.copy()` (oidc/token.py:250), which the code only does to a token it has
  just minted as a refresh token. -/
  | copyRules (src dst : Nat)
  /-- the authorization policy writes its settings into the grant (authz/__init__.py:63-90). -/
  | configure (c : GrantConfig)

/-- Assigning to `usage_rules` of a refresh token (oidc/token.py:250). -/
def setRules (r : UsageRules) (t : Token) : Token :=
  if t.kind = .refreshToken then { t with usageRules := r } else t

/-- `token.expires_at = ..`. -/
def setExpiresAt (e : Int) (t : Token) : Token := { t with expiresAt := e }

/-- The token at a position of `issued_token`. -/
def Grant.tokenAt (g : Grant) (i : Nat) : Option Token := g.issuedToken[i]?

/-- The new grant after one change. -/
def Grant.step (g : Grant) : GrantOp → Grant
  | .mint now freshId tt basedOn rules scope args value =>
    (g.mintToken now freshId tt (basedOn.bind g.tokenAt) rules scope args value).1
  | .use v => g.registerUsage v
  | .revokeToken limit v b r => (g.revokeToken limit v b r).1
  | .revokeDependent limit v => { g with issuedToken := (revokeDependentL limit v g.issuedToken).1 }
  | .revokeOne v => { g with issuedToken := updateFirst v Token.revoke g.issuedToken }
  | .revokeGrant => g.revoke
  | .setExpiry i e => { g with issuedToken := g.issuedToken.modify i (setExpiresAt e) }
  | .copyRules s d =>
    match g.tokenAt s with
    | none => g
    | some src => { g with issuedToken := g.issuedToken.modify d (setRules src.usageRules) }
  | .configure c =>
    { g with expiresAt := c.expiresAt, scope := c.scope, claims := c.claims, resources := c.resources,
             usageRules := c.usageRules, maxUsage := c.maxUsage }

/-- A history. -/
def Grant.run (g : Grant) (ops : List GrantOp) : Grant := ops.foldl Grant.step g

end Verif
