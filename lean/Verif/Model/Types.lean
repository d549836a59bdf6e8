import Verif.Py
/-! Data that flows through the provider: JSON-like values, claims, requests, tokens, grants, session records. -/
namespace Verif

/-- A JSON value (user claims, claim specifications).  Lists and dictionaries are built from cons cells so that equality
is decidable by derivation. -/
inductive Val where
  | null
  | bool (b : Bool)
  | int (i : Int)
  | str (s : Str)
  | lnil
  | lcons (hd tl : Val)
  | dnil
  | dcons (k : Str) (v rest : Val)
deriving DecidableEq, Repr

/-- Python `x in v` for a JSON value `v`: list membership, dictionary keys, substring; `TypeError` (here `none`) for
other types. -/
def Val.contains : Val → Val → Option Bool
  | .lnil, _ => some false
  | .lcons h t, x => if h = x then some true else t.contains x
  | .dnil, _ => some false
  | .dcons k _ r, x => if x = .str k then some true else r.contains x
  | .str s, .str x => some (isInfix x s)
  | _, _ => none

/-- The specification of one claim in a claims request: `none` is Python's `None`. -/
abbrev ClaimSpec := Option (Dict Val)
/-- A claims specification: claim name to `ClaimSpec`. -/
abbrev Claims := Dict ClaimSpec

instance : DecidableEq (Dict Val) := inferInstanceAs (DecidableEq (List (Str × Val)))
instance : DecidableEq ClaimSpec := inferInstanceAs (DecidableEq (Option (Dict Val)))
instance : DecidableEq Claims := inferInstanceAs (DecidableEq (List (Str × ClaimSpec)))
instance : DecidableEq (Dict Claims) := inferInstanceAs (DecidableEq (List (Str × Claims)))

/-- An authorization request after parsing (`oidcmsg` `AuthorizationRequest`), restricted to the parameters the
modelled code reads.  Multi-valued parameters are lists; an absent one is `[]` or `none`. -/
structure AuthReq where
  clientId : Str
  responseType : List Str
  scope : List Str
  redirectUri : Option Str := none
  state : Option Str := none
  nonce : Option Str := none
  responseMode : Option Str := none
  codeChallenge : Option Str := none
  codeChallengeMethod : Option Str := none
  claims : Option (Dict Claims) := none
  acrValues : List Str := []
  prompt : List Str := []
  maxAge : Int := 0
  sectorIdentifierUri : Option Str := none
  requestUri : Option Str := none
deriving DecidableEq, Repr

/-- `AuthnEvent` (authn_event.py:10-17). -/
structure AuthnEvent where
  uid : Str
  authnInfo : Str
  authnTime : Int
  validUntil : Int
deriving DecidableEq, Repr

/-- The usage rules of one token type: the keys the code looks at (session/token.py:37-38, 134; oidc/token.py:55). -/
structure UsageRules where
  maxUsage : Option Int := none
  supportsMinting : Option (List Str) := none
  expiresIn : Option Int := none
deriving DecidableEq, Repr

/-- The empty rules dictionary `{}`. -/
def UsageRules.isEmpty (r : UsageRules) : Bool := r == {}

/-- The Python class of a token (session/grant.py:46-50 `TOKEN_MAP`). -/
inductive TokenKind where
  | authorizationCode
  | accessToken
  | refreshToken
deriving DecidableEq, Repr

/-- `Item` (session/token.py:12-31), without `usage_rules`, which differs between tokens and grants. -/
structure Item where
  issuedAt : Int
  notBefore : Int
  expiresAt : Int
  revoked : Bool
  used : Nat
deriving DecidableEq, Repr

/-- `Token` (session/token.py:66-97). -/
structure Token extends Item where
  kind : TokenKind
  typ : Str
  value : Str
  basedOn : Option Str
  usageRules : UsageRules
  id : Str
  scope : List Str
  claims : Claims
  resources : List Str
deriving DecidableEq, Repr

/-- `Grant` (session/grant.py:53-90).  `usage_rules` of a grant maps token types to rules; a `max_usage` entry of its own
limits how often the grant may mint. `authorization_details` is opaque. -/
structure Grant extends Item where
  id : Str
  sub : Str
  scope : List Str
  claims : Dict Claims
  resources : List Str
  authorizationDetails : Option Str
  authReq : Option AuthReq
  authnEvent : Option AuthnEvent
  issuedToken : List Token
  maxUsage : Option Int
  usageRules : Dict UsageRules
  tokenMap : Dict TokenKind
deriving DecidableEq, Repr

/-- Token type names (session/grant.py:46-50). -/
def tAuthorizationCode : Str := c!"authorization_code"
def tAccessToken : Str := c!"access_token"
def tRefreshToken : Str := c!"refresh_token"

/-- `TOKEN_MAP` (session/grant.py:46-50). -/
def defaultTokenMap : Dict TokenKind :=
  [(tAuthorizationCode, .authorizationCode), (tAccessToken, .accessToken), (tRefreshToken, .refreshToken)]

end Verif
