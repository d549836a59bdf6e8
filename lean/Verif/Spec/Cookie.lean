import Verif.Model.Cookie
/-! What is assumed of the cookie cryptography, and which values a cookie can carry. -/
namespace Verif.Spec

/-- Functional laws of the crypto used for cookies: what was sealed or MACed with a key is accepted with that key, and
base64 text contains neither `|` nor whitespace. -/
structure CookieLaws (cr : CookieCrypto) : Prop where
  verify_mac : ∀ k m, cr.macVerify k m (cr.mac k m) = true
  unb64_b64 : ∀ x, cr.unb64 (cr.b64 x) = some x
  b64_bar : ∀ x, '|' ∉ cr.b64 x
  b64_space : ∀ x, ∀ c ∈ cr.b64 x, isPySpace c = false
  open_seal : ∀ k iv m, cr.gcmOpen k iv (cr.gcmSeal k iv m).1 (cr.gcmSeal k iv m).2 = some m

/-- A value that `value::timestamp::type` can carry. -/
def CookieValueOk (v : Str) : Prop := ¬ [':', ':'] <:+: v ∧ ¬ [':'] <:+ v
/-- A type that `value::timestamp::type` can carry. -/
def CookieTypeOk (t : Str) : Prop := ¬ [':', ':'] <:+: t

/-- A dealer with at least one key; an encryption key has a legal AES size. -/
def DealerOk (d : CookieDealer) : Prop :=
  (d.signKey ≠ none ∨ d.encKey ≠ none) ∧
  ∀ ek, d.encKey = some ek → ek.length = 16 ∨ ek.length = 24 ∨ ek.length = 32

end Verif.Spec
