import Verif.Model.GrantOps
import Verif.Model.Database
/-! Serialisation of tokens, grants and session records (`session/token.py`, `grant.py`, `info.py`, `storage.py`).

A JSON document is a record with one optional field per key; `none` is an absent key.  Simplification: `json.dumps` followed
by `json.loads` gives the same values back (library); `AuthorizationRequest(**r.to_dict())` and `AuthnEvent(**e.to_dict())`
give messages with the same entries (library); the class path in `token_map` is imported as the class it names. -/
namespace Verif

/-- The document written by `Token.to_json`. -/
structure TokenDoc where
  typ : Option Str := none
  issuedAt : Option Int := none
  notBefore : Option Int := none
  expiresAt : Option Int := none
  revoked : Option Bool := none
  value : Option Str := none
  usageRules : Option UsageRules := none
  used : Option Nat := none
  basedOn : Option (Option Str) := none
  id : Option Str := none
  scope : Option (List Str) := none
  claims : Option Claims := none
  resources : Option (List Str) := none

/-- `Token.to_json` (session/token.py:108-124). -/
def Token.toJson (t : Token) : TokenDoc where
  typ := some t.typ
  issuedAt := some t.issuedAt
  notBefore := some t.notBefore
  expiresAt := some t.expiresAt
  revoked := some t.revoked
  value := some t.value
  usageRules := some t.usageRules
  used := some t.used
  basedOn := some t.basedOn
  id := some t.id
  scope := some t.scope
  claims := some t.claims
  resources := some t.resources

/-- `Token.from_json` (session/token.py:126-131), called on a token `t0`: the attributes listed in `attributes`
(session/token.py:67-69) that are in the document are set. -/
def Token.fromJson (t0 : Token) (d : TokenDoc) : Token where
  kind := t0.kind
  typ := d.typ.getD t0.typ
  issuedAt := d.issuedAt.getD t0.issuedAt
  notBefore := d.notBefore.getD t0.notBefore
  expiresAt := d.expiresAt.getD t0.expiresAt
  revoked := d.revoked.getD t0.revoked
  value := d.value.getD t0.value
  usageRules := d.usageRules.getD t0.usageRules
  used := d.used.getD t0.used
  basedOn := d.basedOn.getD t0.basedOn
  id := d.id.getD t0.id
  scope := d.scope.getD t0.scope
  claims := d.claims.getD t0.claims
  resources := d.resources.getD t0.resources

/-- The keyword arguments `**args` for the token constructor (session/grant.py:148-151). -/
def TokenDoc.args (d : TokenDoc) : TokenArgs where
  typ := d.typ.getD []
  value := d.value.getD []
  basedOn := d.basedOn.getD none
  usageRules := d.usageRules.getD {}
  issuedAt := d.issuedAt.getD 0
  expiresAt := d.expiresAt.getD 0
  notBefore := d.notBefore.getD 0
  revoked := d.revoked.getD false
  used := d.used.getD 0
  id := d.id.getD []
  scope := d.scope.getD []
  claims := d.claims.getD []
  resources := d.resources.getD []

/-- The document written by `Grant.to_json`. -/
structure GrantDoc where
  scope : Option (List Str) := none
  sub : Option Str := none
  authorizationDetails : Option (Option Str) := none
  claims : Option (Dict Claims) := none
  resources : Option (List Str) := none
  issuedAt : Option Int := none
  notBefore : Option Int := none
  expiresAt : Option Int := none
  revoked : Option Bool := none
  used : Option Nat := none
  issuedToken : Option (List TokenDoc) := none
  id : Option Str := none
  usageRules : Option (Option Int × Dict UsageRules) := none
  tokenMap : Option (Dict TokenKind) := none
  authReq : Option AuthReq := none
  authnEvent : Option AuthnEvent := none

/-- `Grant.to_json` (session/grant.py:97-128).  There is no key "used".  The dictionary `usage_rules` is the pair of the
grant's own limit and the rules per token type, as in `Grant`. -/
def Grant.toJson (g : Grant) : GrantDoc where
  scope := some g.scope
  sub := some g.sub
  authorizationDetails := some g.authorizationDetails
  claims := some g.claims
  resources := some g.resources
  issuedAt := some g.issuedAt
  notBefore := some g.notBefore
  expiresAt := some g.expiresAt
  revoked := some g.revoked
  issuedToken := some (g.issuedToken.map Token.toJson)
  id := some g.id
  usageRules := some (g.maxUsage, g.usageRules)
  tokenMap := some g.tokenMap
  authReq := g.authReq
  authnEvent := g.authnEvent

/-- The loop over the issued tokens (session/grant.py:147-152): the class is looked up by type in the token map and called
with the document's entries.  `freshIds` gives the identifiers for tokens without one. -/
def tokensFromDocs (now : Int) (freshIds : Nat → Str) (tm : Dict TokenKind) (n : Nat) : List TokenDoc → Except Exn (List Token)
  | [] => .ok []
  | d :: ds => match d.typ with
    | none => .error .keyError
    | some ty => match tm.get? ty with
      | none => .error .keyError
      | some k => match tokensFromDocs now freshIds tm (n + 1) ds with
        | .error e => .error e
        | .ok l => .ok (Token.new k now (freshIds n) d.args :: l)

/-- `Grant.from_json` (session/grant.py:130-155) on a grant `g0`. -/
def Grant.fromJson (now : Int) (freshIds : Nat → Str) (g0 : Grant) (d : GrantDoc) : Except Exn Grant :=
  let tm := d.tokenMap.getD defaultTokenMap
  let toks : Except Exn (List Token) := match d.issuedToken with
    | none => .ok g0.issuedToken
    | some ds => tokensFromDocs now freshIds tm 0 ds
  match toks with
  | .error e => .error e
  | .ok ts => .ok
    { issuedAt := d.issuedAt.getD g0.issuedAt, notBefore := d.notBefore.getD g0.notBefore,
      expiresAt := d.expiresAt.getD g0.expiresAt, revoked := d.revoked.getD g0.revoked, used := g0.used,
      id := d.id.getD g0.id, sub := d.sub.getD g0.sub, scope := d.scope.getD g0.scope, claims := d.claims.getD g0.claims,
      resources := d.resources.getD g0.resources,
      authorizationDetails := d.authorizationDetails.getD g0.authorizationDetails,
      authReq := d.authReq <|> g0.authReq, authnEvent := d.authnEvent <|> g0.authnEvent,
      issuedToken := ts, maxUsage := (d.usageRules.getD (g0.maxUsage, g0.usageRules)).1,
      usageRules := (d.usageRules.getD (g0.maxUsage, g0.usageRules)).2, tokenMap := tm }

/-- `ExchangeGrant` (session/grant.py:308-348). -/
structure ExchangeGrant extends Grant where
  users : List Str
deriving DecidableEq, Repr

/-- What a storage that keeps JSON texts holds (session/storage.py:9-11): the text of a session record, a grant or an
exchange grant, told apart by the key "type". -/
inductive Doc where
  | session (i : SessInfo)
  | grant (d : GrantDoc)
  | exchangeGrant (d : GrantDoc)

/-- The objects that are stored. -/
inductive Stored where
  | session (i : SessInfo)
  | grant (g : Grant)
  | exchangeGrant (g : ExchangeGrant)

/-- `JSON.serialize` (session/storage.py:10-11).  `ExchangeGrant` inherits `to_json`.  Session records are `Message`s, whose
`to_json` and `from_json` are the library's. -/
def serialize : Stored → Doc
  | .session i => .session i
  | .grant g => .grant g.toJson
  | .exchangeGrant g => .exchangeGrant g.toGrant.toJson

/-- `JSON.deserialize` (session/storage.py:13-22): `from_json` on an object made without arguments.  The constructor of
`ExchangeGrant` sets usage rules of its own (session/grant.py:341-348), which the document replaces. -/
def deserialize (now : Int) (freshId : Str) (freshIds : Nat → Str) : Doc → Except Exn Stored
  | .session i => .ok (.session i)
  | .grant d => match Grant.fromJson now freshIds (Grant.new now freshId {}) d with
    | .error e => .error e
    | .ok g => .ok (.grant g)
  | .exchangeGrant d =>
    let g0 : Grant := { Grant.new now freshId {} with
      usageRules := [(tAccessToken, { supportsMinting := some [tAccessToken], expiresIn := some 60 })] }
    match Grant.fromJson now freshIds g0 d with
    | .error e => .error e
    | .ok g => .ok (.exchangeGrant { toGrant := g, users := [] })

end Verif
