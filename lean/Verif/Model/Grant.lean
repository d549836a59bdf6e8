import Verif.Model.Token
/-! `session/grant.py`: minting and revoking tokens within a grant. -/
namespace Verif

/-- Keyword arguments of the `Grant` constructor (session/grant.py:60-74). -/
structure GrantArgs where
  scope : List Str := []
  claims : Dict Claims := []
  resources : List Str := []
  authorizationDetails : Option Str := none
  authReq : Option AuthReq := none
  authnEvent : Option AuthnEvent := none
  issuedToken : List Token := []
  maxUsage : Option Int := none
  usageRules : Dict UsageRules := []
  issuedAt : Int := 0
  expiresIn : Int := 0
  expiresAt : Int := 0
  revoked : Bool := false
  tokenMap : Option (Dict TokenKind) := none
  sub : Str := []

/-- `Grant.__init__` (session/grant.py:60-90); `freshId` is `uuid1().hex`. -/
def Grant.new (now : Int) (freshId : Str) (a : GrantArgs) : Grant where
  toItem := Item.mk' now a.issuedAt a.expiresIn a.expiresAt 0 a.revoked 0
  id := freshId
  sub := a.sub
  scope := a.scope
  claims := a.claims
  resources := a.resources
  authorizationDetails := a.authorizationDetails
  authReq := a.authReq
  authnEvent := a.authnEvent
  issuedToken := a.issuedToken
  maxUsage := a.maxUsage
  usageRules := a.usageRules
  tokenMap := a.tokenMap.getD defaultTokenMap

/-- The extra keyword arguments callers of `mint_token` may pass on to the token constructor. -/
structure MintArgs where
  issuedAt : Int := 0
  expiresIn : Int := 0
  expiresAt : Int := 0
  notBefore : Int := 0

/-- `Grant.mint_token` (session/grant.py:181-237).  `value` is the outcome of
`token_handler(session_id=.., **payload_arguments(..))` (lines 223-231), which may raise; `freshId` is the token's own id.
The result is the new grant and `None`, a token, or an exception. -/
def Grant.mintToken (g : Grant) (now : Int) (freshId : Str) (tokenType : Str) (basedOn : Option Token)
    (usageRules : Option UsageRules) (scope : List Str) (args : MintArgs) (value : Except Exn Str) :
    Grant × Except Exn (Option Token) :=
  if g.isActive now = false then (g, .ok none)
  else
    let ref : Except Exn (Option Str) :=
      match basedOn with
      | some b => if b.supportsMinting tokenType && b.isActive now then .ok (some b.value) else .error .mintingNotAllowed
      | none => .ok none
    match ref with
    | .error e => (g, .error e)
    | .ok baseRef =>
      let rules : UsageRules := match usageRules with
        | some r => r
        | none => (g.usageRules.get? tokenType).getD {}
      match g.tokenMap.get? tokenType with
      | none => (g, .error .valueError)
      | some k =>
        match value with
        | .error e => (g, .error e)
        | .ok v =>
          let item := Token.new k now freshId
            { typ := tokenType, value := v, basedOn := baseRef, usageRules := rules, scope := scope,
              issuedAt := args.issuedAt, expiresIn := args.expiresIn, expiresAt := args.expiresAt,
              notBefore := args.notBefore }
          ({ g with issuedToken := g.issuedToken ++ [item], used := g.used + 1 }, .ok (some item))

/-- The first token with a value, in a list of issued tokens. -/
def findValue (value : Str) (l : List Token) : Option Token := l.find? fun t => decide (t.value = value)

/-- `Grant.get_token` (session/grant.py:239-243). -/
def Grant.getToken (g : Grant) (value : Str) : Option Token := findValue value g.issuedToken

/-- Change the first token with the given value: what assigning to an attribute of the object returned by `get_token`
does to the grant. -/
def updateFirst (value : Str) (f : Token → Token) : List Token → List Token
  | [] => []
  | t :: ts => if t.value = value then f t :: ts else t :: updateFirst value f ts

/-- `grant.get_token(value).register_usage()`. -/
def Grant.registerUsage (g : Grant) (value : Str) : Grant :=
  { g with issuedToken := updateFirst value Token.registerUsage g.issuedToken }

/-- Set the `revoked` flag of the token at position `i`. -/
def markRevoked (i : Nat) (l : List Token) : List Token := l.modify i Token.revoke

/-- `Grant.revoke_token` (session/grant.py:245-262) on the list of issued tokens.  The loop variable ranges over
positions because the tokens are changed in place while the loop runs; values and `based_on` never change.  The first
argument is Python's remaining recursion depth; the flag in the result is false if it ran out (`RecursionError`), in
which case the tokens revoked so far stay revoked.  An empty string argument means "not given". -/
def revokeTokenL : Nat → (value basedOn : Str) → (recursive : Bool) → List Token → List Token × Bool
  | 0, _, _, _, l => (l, false)
  | fuel + 1, value, basedOn, recursive, l =>
    (List.range l.length).foldl (init := (l, true)) fun st i =>
      if st.2 = false then st
      else match st.1[i]? with
      | none => st
      | some t =>
        if value = [] ∧ basedOn = [] then (markRevoked i st.1, true)
        else if value ≠ [] ∧ basedOn ≠ [] then
          if t.value = value ∧ t.basedOn = some basedOn then (markRevoked i st.1, true) else st
        else if value ≠ [] ∧ t.value = value then
          if recursive then revokeTokenL fuel [] t.value true (markRevoked i st.1) else (markRevoked i st.1, true)
        else if basedOn ≠ [] ∧ t.basedOn = some basedOn then
          if recursive then revokeTokenL fuel [] t.value true (markRevoked i st.1) else (markRevoked i st.1, true)
        else st

/-- `Grant.revoke_token` (session/grant.py:245-262) with recursion limit `limit`. -/
def Grant.revokeToken (g : Grant) (limit : Nat) (value basedOn : Str) (recursive : Bool) : Grant × Bool :=
  let r := revokeTokenL limit value basedOn recursive g.issuedToken
  ({ g with issuedToken := r.1 }, r.2)

/-- `SessionManager._revoke_dependent` (session/manager.py:221-225) on the list of issued tokens: everything based on the
token value `v`, recursively. -/
def revokeDependentL : Nat → (v : Str) → List Token → List Token × Bool
  | 0, _, l => (l, false)
  | fuel + 1, v, l =>
    (List.range l.length).foldl (init := (l, true)) fun st i =>
      if st.2 = false then st
      else match st.1[i]? with
      | none => st
      | some t =>
        if t.basedOn = some v then revokeDependentL fuel t.value (markRevoked i st.1) else st

/-- The claims in a token's spec: the token's own, or those of the grant (which are per use). -/
inductive SpecClaims where
  | own (c : Claims)
  | grants (d : Dict Claims)
deriving DecidableEq, Repr

/-- The dictionary `get_spec` returns; an absent key is `none`. -/
structure TokenSpec where
  scope : Option (List Str)
  claims : Option SpecClaims
  resources : Option (List Str)
deriving DecidableEq, Repr

/-- The loop body of `get_spec` (session/grant.py:269-276): the token's value if it has one, else the grant's if it has
one. -/
def firstNonEmpty {α β γ : Type} (a : List α) (b : List β) (f : List α → γ) (h : List β → γ) :
    Option γ :=
  if a.isEmpty = false then some (f a) else if b.isEmpty = false then some (h b) else none

/-- `Grant.get_spec` (session/grant.py:264-277).  `token.is_active` is a bound method there, not a call, so
`token.is_active is False` never holds and only the grant's state matters. -/
def Grant.getSpec (g : Grant) (t : Token) (now : Int) : Option TokenSpec :=
  if g.isActive now = false then none
  else some {
    scope := firstNonEmpty t.scope g.scope (fun l => l) (fun l => l)
    claims := firstNonEmpty t.claims g.claims .own .grants
    resources := firstNonEmpty t.resources g.resources (fun l => l) (fun l => l) }

end Verif
