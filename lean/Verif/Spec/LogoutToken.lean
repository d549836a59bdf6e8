import Verif.Model.LogoutToken
/-! What a client may expect of a logout token. -/
namespace Verif.Spec

/-- The encodings lose nothing, and tags have 16 bytes. -/
structure CipherLaws (c : SidCipher) : Prop where
  utf8 : ∀ s, c.fromUtf8 (c.utf8 s) = .ok s
  b64 : ∀ b, c.b64d (c.b64e b) = .ok b
  tag : ∀ b, (c.tag b).length = 16

/-- A receiver that knows the provider's keys reads the algorithm and the claims that were packed. -/
def ClaimsReadable (pack : Str → Dict Val → Except Exn Str) (unpack : Str → Option (Str × Dict Val)) : Prop :=
  ∀ alg claims t, pack alg claims = .ok t → unpack t = some (alg, claims)

/-- The algorithm a client gets ID tokens with: the one it registered, otherwise the first one the provider publishes. -/
inductive SignsFor (registered : Option Str) (published : List Str) : (alg : Str) → Prop where
  | registered (a) : registered = some a → SignsFor registered published a
  | published (a rest) : registered = none → published = a :: rest → SignsFor registered published a

/-- A logout token (OpenID Connect Back-Channel Logout, 2.4) from `issuer` for `client`, issued at `now`, valid for a day,
with its own identifier. -/
structure IsLogoutToken (claims : Dict Val) (issuer client : Str) (now : Int) (jti : Str) : Prop where
  iss : claims.get? c!"iss" = some (.str issuer)
  aud : claims.get? c!"aud" = some (.lcons (.str client) .lnil)
  iat : claims.get? c!"iat" = some (.int now)
  exp : claims.get? c!"exp" = some (.int (now + 24 * 60 * 60))
  jti : claims.get? c!"jti" = some (.str jti)
  events : claims.get? c!"events" = some (.dcons c!"http://schemas.openid.net/event/backchannel-logout" .dnil .dnil)
  nonce : claims.get? c!"nonce" = none

/-- Exclusive or of byte strings, as long as the shorter one. -/
def xorBytes : List UInt8 → List UInt8 → List UInt8
  | a :: x, b :: y => (a ^^^ b) :: xorBytes x y
  | _, _ => []

/-- What somebody without any key can compute from a session id, its encrypted form and another encrypted form: the bytes
of the other session id. -/
def recoverSid (utf8 : Str → Bytes) (b64d : Str → Except Exn Bytes) (known knownEnc otherEnc : Str) : Bytes :=
  match b64d knownEnc, b64d otherEnc with
  | .ok a, .ok b => (xorBytes (xorBytes (utf8 known) a) b).take (b.length - 16)
  | _, _ => []

/-- The browser goes to `uri` with one more parameter, whose encoding is `q`. -/
inductive WithParameter (uri q : Str) : (location : Str) → Prop where
  | first : '?' ∉ uri → WithParameter uri q (uri ++ '?' :: q)
  | more : '?' ∈ uri → WithParameter uri q (uri ++ '&' :: q)

end Verif.Spec
