import Verif.Model.Resource
/-! Which algorithms a registration or a metadata entry permits. -/
namespace Verif.Spec

/-- An entry names one algorithm, or lists some. -/
inductive Permits : (entry : Val) → (alg : Str) → Prop where
  | single (a : Str) : Permits (.str a) a
  | oneOf (l : List Str) (a : Str) : a ∈ l → Permits (Val.ofStrs l) a

/-- Entries of the right type. -/
inductive AlgEntry : Val → Prop where
  | single (a : Str) : AlgEntry (.str a)
  | oneOf (l : List Str) : AlgEntry (Val.ofStrs l)

/-- The signature algorithms of RFC 7518 and RFC 8037. -/
def jwsAlgorithms : List Str :=
  [c!"HS256", c!"HS384", c!"HS512", c!"RS256", c!"RS384", c!"RS512", c!"ES256", c!"ES384", c!"ES512",
   c!"PS256", c!"PS384", c!"PS512", c!"EdDSA", c!"none"]

/-- The entry that decides about signatures of a client's request objects: what the client registered, otherwise what the
provider supports. -/
inductive Decides (registration provider : Dict Val) : Val → Prop where
  | registered (v : Val) : registration.get? c!"request_object_signing_alg" = some v → v ≠ .null →
      Decides registration provider v
  | supported (v : Val) : registration.get? c!"request_object_signing_alg" = none ∨
      registration.get? c!"request_object_signing_alg" = some .null →
      provider.get? c!"request_object_signing_alg_values_supported" = some v → Decides registration provider v

/-- The kinds of algorithms that protect a request object: the client's registration entry and the provider's list
(OpenID Connect Dynamic Client Registration 1.0, section 2; Discovery 1.0, section 3). -/
def algorithmKinds : List (Str × Str × Str) :=
  [(c!"sign", c!"request_object_signing_alg", c!"request_object_signing_alg_values_supported"),
   (c!"enc_alg", c!"request_object_encryption_alg", c!"request_object_encryption_alg_values_supported"),
   (c!"enc_enc", c!"request_object_encryption_enc", c!"request_object_encryption_enc_values_supported")]

end Verif.Spec
