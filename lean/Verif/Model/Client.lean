import Verif.Model.Types
/-! What the provider knows about a client: the entries of `endpoint_context.cdb` that the modelled code reads. -/
namespace Verif

/-- A parsed query: what `parse_qs` returns (keys are distinct, as in every Python dictionary). -/
abbrev Query := Dict (List Str)

/-- A registered redirect URI, `(base, query)` (oidc/registration.py:200-207). -/
abbrev RegUri := Str × Query

instance : DecidableEq Query := inferInstanceAs (DecidableEq (List (Str × List Str)))

/-- How claims are given for a client and interface: a list of names or a dictionary (session/claims.py:46-51). -/
inductive ClientClaims where
  | names (l : List Str)
  | dict (d : Claims)
deriving DecidableEq, Repr

instance : DecidableEq (Dict Str) := inferInstanceAs (DecidableEq (List (Str × Str)))

/-- A client record.  An absent entry is `[]`, `none` or `0`. -/
structure Client where
  redirectUris : List RegUri := []
  postLogoutRedirectUris : List RegUri := []
  responseTypes : List Str := []
  allowedScopes : List Str := []
  requestUris : List Str := []
  clientSecret : Option Str := none
  clientSecretExpiresAt : Int := 0
  tokenUsageRules : Option (Dict UsageRules) := none
  claims : Dict ClientClaims := []
  subjectType : Option Str := none
  sectorIdentifierUri : Option Str := none
  backchannelLogoutUri : Option Str := none
  frontchannelLogoutUri : Option Str := none
  frontchannelLogoutSessionRequired : Bool := false
  /-- the registered algorithms, such as "id_token_signed_response_alg" -/
  algs : Dict Str := []
deriving DecidableEq, Repr

/-- The client database. -/
abbrev Cdb := Str → Option Client

end Verif
