import Verif.Model.Registration
/-! The rules for registrations, independent of how they are checked. -/
namespace Verif.Spec

/-- The application type of a request; "web" if it does not say. -/
def appType (req : RegRec) : RegVal := (req.get? c!"application_type").getD (.str c!"web")

/-- The only response type is "code". -/
def CodeIsOnlyType (req : RegRec) : Prop := req.get? c!"response_types" = some (.strs [c!"code"])

/-- The rules for redirect URIs (OpenID Connect Dynamic Client Registration 1.0, section 2, application_type). -/
def RedirectAllowed (lib : RegLib) (req : RegRec) (uri : Str) : Prop :=
  if appType req = .str c!"native" then
    (lib.scheme uri ≠ c!"http" ∧ lib.scheme uri ≠ c!"https") ∨
    (lib.scheme uri = c!"http" ∧ (lib.hostname uri = c!"localhost" ∨ lib.hostname uri = c!"127.0.0.1"))
  else
    lib.uri.fragment uri = [] ∧
    (lib.scheme uri = c!"https" ∨ (lib.scheme uri = c!"http" ∧ (appType req ≠ .str c!"web" ∨ CodeIsOnlyType req)))

/-- An empty parameter. -/
def Blank (v : RegVal) : Prop := v = .str [] ∨ v = .strs [[]]

/-- The values stated are among those supported. -/
def Supported (v : RegVal) (supported : List Str) : Prop :=
  match v with
  | .str s => s ∈ supported
  | .strs l => ∀ x ∈ l, x ∈ supported
  | _ => False

/-- For space-separated values: the same words, in any order. -/
def SameWords (a b : Str) : Prop := ∀ w, w ∈ pySplit c!" " a ↔ w ∈ pySplit c!" " b

/-- The values stated are among those supported, up to the order of words; a string states several values of one word. -/
def SupportedWords (v : RegVal) (supported : List Str) : Prop :=
  match v with
  | .str s => ∀ w ∈ pySplit c!" " s, ∃ p ∈ supported, ∀ x, x ∈ pySplit c!" " p ↔ x = w
  | .strs l => ∀ x ∈ l, ∃ p ∈ supported, SameWords x p
  | _ => False

/-- What a client can ask for at registration (OpenID Connect Dynamic Client Registration 1.0, section 2) and where the provider
publishes what it supports (OpenID Connect Discovery 1.0, section 3). -/
def registrationPreferences : List (Str × Str) :=
  [(c!"request_object_signing_alg", c!"request_object_signing_alg_values_supported"),
   (c!"request_object_encryption_alg", c!"request_object_encryption_alg_values_supported"),
   (c!"request_object_encryption_enc", c!"request_object_encryption_enc_values_supported"),
   (c!"userinfo_signed_response_alg", c!"userinfo_signing_alg_values_supported"),
   (c!"userinfo_encrypted_response_alg", c!"userinfo_encryption_alg_values_supported"),
   (c!"userinfo_encrypted_response_enc", c!"userinfo_encryption_enc_values_supported"),
   (c!"id_token_signed_response_alg", c!"id_token_signing_alg_values_supported"),
   (c!"id_token_encrypted_response_alg", c!"id_token_encryption_alg_values_supported"),
   (c!"id_token_encrypted_response_enc", c!"id_token_encryption_enc_values_supported"),
   (c!"default_acr_values", c!"acr_values_supported"),
   (c!"subject_type", c!"subject_types_supported"),
   (c!"token_endpoint_auth_method", c!"token_endpoint_auth_methods_supported"),
   (c!"token_endpoint_auth_signing_alg", c!"token_endpoint_auth_signing_alg_values_supported"),
   (c!"response_types", c!"response_types_supported"),
   (c!"grant_types", c!"grant_types_supported")]

/-- The preferences whose values are compared word by word. -/
def wordwise (pref : Str) : Prop := pref = c!"response_types" ∨ pref = c!"default_acr_values"

/-- The client database as the other endpoints see it. -/
def RegState.cdbFun (s : RegState) : Cdb := fun c => (s.cdb.get? c).map RegRec.client

end Verif.Spec
