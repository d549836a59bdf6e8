import Verif.Model.Metadata
/-! Provider metadata, independent of how it is put together. -/
namespace Verif.Spec

/-- The address of a path at an issuer: exactly one slash is put between them if the issuer has none at its end. -/
def AddressOf (issuer path url : Str) : Prop :=
  ((∃ site, issuer = site ++ ['/']) ∧ url = issuer ++ path) ∨ ((¬ ∃ site, issuer = site ++ ['/']) ∧ url = issuer ++ c!"/" ++ path)

/-- A provider configuration has this endpoint, and no other of its kind follows. -/
def HasEndpoint (cf : ProvConf) (sp : EpSpec) : Prop :=
  ∃ a b, cf.endpoints = a ++ sp :: b ∧ ∀ s ∈ b, s.kind.name ≠ sp.kind.name

/-- The configuration states this capability of the provider as a whole. -/
def StatesCapability (cf : ProvConf) (k : Str) : Prop := ∃ cap v, cf.capabilities = some cap ∧ cap.get? k = some v

/-- Entries about ID tokens. -/
def idTokenEntries : List Str :=
  [c!"id_token_signing_alg_values_supported", c!"id_token_encryption_alg_values_supported", c!"id_token_encryption_enc_values_supported"]

/-- Entries the provider always fills in itself. -/
def ownEntries : List Str := [c!"issuer", c!"version", c!"acr_values_supported", c!"jwks_uri"] ++ idTokenEntries

/-- The entries that list signature algorithms, key encryption algorithms and content encryption algorithms. -/
def signingEntries : List Str :=
  [c!"id_token_signing_alg_values_supported", c!"userinfo_signing_alg_values_supported", c!"request_object_signing_alg_values_supported",
   c!"token_endpoint_auth_signing_alg_values_supported"]
def keyEncryptionEntries : List Str :=
  [c!"id_token_encryption_alg_values_supported", c!"userinfo_encryption_alg_values_supported", c!"request_object_encryption_alg_values_supported"]
def contentEncryptionEntries : List Str :=
  [c!"id_token_encryption_enc_values_supported", c!"userinfo_encryption_enc_values_supported", c!"request_object_encryption_enc_values_supported"]

/-- What the library implements. -/
def libraryAlgs (al : AlgLib) (k : Str) : Option (List Str) :=
  if k ∈ signingEntries then some al.signing
  else if k ∈ keyEncryptionEntries then some al.encAlg
  else if k ∈ contentEncryptionEntries then some al.encEnc
  else none

/-- What an endpoint of a kind stands for when nothing is configured (OpenID Connect Discovery, section 3): what it supports. -/
def supportsByDefault (k : EpKind) : List (Str × RegVal) :=
  let yes : RegVal := .json (.bool true)
  let authorization (types : List Str) : List (Str × RegVal) :=
    [(c!"claims_parameter_supported", yes), (c!"request_parameter_supported", yes), (c!"request_uri_parameter_supported", yes),
     (c!"response_types_supported", .strs types), (c!"response_modes_supported", .strs [c!"query", c!"fragment", c!"form_post"]),
     (c!"grant_types_supported", .strs [c!"authorization_code", c!"implicit"])]
  match k with
  | .authorization => authorization [c!"code", c!"token", c!"id_token", c!"code token", c!"code id_token", c!"id_token token", c!"code id_token token"] ++
      [(c!"claim_types_supported", .strs [c!"normal", c!"aggregated", c!"distributed"])]
  | .oauth2Authorization => authorization [c!"code", c!"token", c!"code token"]
  | .userinfo => [(c!"claim_types_supported", .strs [c!"normal", c!"aggregated", c!"distributed"]), (c!"client_authn_method", .strs [c!"bearer_header"])]
  | .session => [(c!"frontchannel_logout_supported", yes), (c!"frontchannel_logout_session_supported", yes), (c!"backchannel_logout_supported", yes),
      (c!"backchannel_logout_session_supported", yes)]
  | _ => []

/-- Alphabetical order: a prefix comes first, otherwise the first difference decides. -/
def AlphabeticallyUpTo (a b : Str) : Prop :=
  (∃ r, b = a ++ r) ∨ ∃ p x y r s, a = p ++ x :: r ∧ b = p ++ y :: s ∧ x.toNat < y.toNat

/-- The families of signature algorithms in the order in which they are to be listed: RSA, elliptic curves, HMAC, RSA-PSS, none. -/
def families : List Str := [c!"RS", c!"ES", c!"HS", c!"PS", c!"no"]

/-- The order of signature algorithms: by family, within a family alphabetically. -/
def AlgOrder (a b : Str) : Prop :=
  ∃ before between after f, families = before ++ f :: between ++ after ∧ f <+: a ∧
    ((∃ g, g ∈ between ++ after ∧ g <+: b) ∨ (f <+: b ∧ AlphabeticallyUpTo a b))

end Verif.Spec
