import Verif.Model.Logout
/-! Logout tokens: `Session._encrypt_sid`, `_decrypt_sid` and `do_back_channel_logout` (oidc/session.py). -/
namespace Verif

abbrev Bytes := List UInt8

/-- AES-GCM with one key and one initial vector: a key stream and a tag over the cipher text; and the text encodings.  The
initial vector is made once per endpoint (oidc/session.py:90), so an endpoint has one key stream. -/
structure SidCipher where
  stream : Nat → UInt8
  tag : Bytes → Bytes
  utf8 : Str → Bytes
  fromUtf8 : Bytes → Except Exn Str
  b64e : Bytes → Str
  b64d : Str → Except Exn Bytes

/-- Exclusive or with a key stream, starting at position `i` (counter mode, as AES-GCM does). -/
def xorStream (ks : Nat → UInt8) : Nat → Bytes → Bytes
  | _, [] => []
  | i, b :: bs => (b ^^^ ks i) :: xorStream ks (i + 1) bs

/-- `_encrypt_sid` (oidc/session.py:92-95). -/
def encryptSid (c : SidCipher) (sid : Str) : Str :=
  let ctx := xorStream c.stream 0 (c.utf8 sid)
  c.b64e (ctx ++ c.tag ctx)

/-- `_decrypt_sid` (oidc/session.py:97-101): the tag is the last 16 bytes. -/
def decryptSid (c : SidCipher) (msg : Str) : Except Exn Str :=
  match c.b64d msg with
  | .error e => .error e
  | .ok m =>
    let ctx := m.take (m.length - 16)
    if c.tag ctx = m.drop (m.length - 16) then c.fromUtf8 (xorStream c.stream 0 ctx) else .error .verificationError

/-- What `do_back_channel_logout` uses: issuer, cipher, published ID token algorithms, the `client_id` entry of a client
record, and the JWT library (signing, and what a receiver reads from a token). -/
structure LogoutCfg where
  issuer : Str
  cipher : SidCipher
  idTokenAlgs : List Str
  ownId : Client → Option Str
  pack : (alg : Str) → Dict Val → Except Exn Str

/-- `BACK_CHANNEL_LOGOUT_EVENT`. -/
def logoutEvent : Str := c!"http://schemas.openid.net/event/backchannel-logout"

/-- The claims of a logout token (oidc/session.py:123-126, 133-135): the payload, and what `JWT.pack` adds. -/
def logoutClaims (cfg : LogoutCfg) (now : Int) (jti client sid : Str) : Dict Val :=
  [(c!"sid", .str (encryptSid cfg.cipher sid)), (c!"events", .dcons logoutEvent .dnil .dnil),
   (c!"iss", .str cfg.issuer), (c!"iat", .int now), (c!"exp", .int (now + 86400)), (c!"aud", .lcons (.str client) .lnil),
   (c!"jti", .str jti)]

/-- The signing algorithm (oidc/session.py:128-131). -/
def logoutAlg (cfg : LogoutCfg) (c : Client) : Except Exn Str :=
  match c.algs.get? c!"id_token_signed_response_alg" with
  | some a => .ok a
  | none => match cfg.idTokenAlgs with
    | a :: _ => .ok a
    | [] => .error .indexError

/-- `do_back_channel_logout` (oidc/session.py:103-137) for a client with a back-channel logout URI. -/
def makeLogoutToken (cfg : LogoutCfg) (now : Int) (jti : Str → Str) (c : Client) (sid : Str) : Except Exn Str :=
  match logoutAlg cfg c with
  | .error e => .error e
  | .ok alg => match cfg.ownId c with
    | none => .error .keyError
    | some client => cfg.pack alg (logoutClaims cfg now (jti sid) client sid)

end Verif
