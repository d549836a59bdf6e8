import Verif.Model.Pack
/-! Cookies (`cookie.py`). -/
namespace Verif

/-- What `cookie.py` uses of the crypto libraries: `HMACSigner.sign/verify`, `base64`, and AES-GCM.
`gcmSeal key iv msg = (ctx, tag)`. Byte strings are `Str`. -/
structure CookieCrypto where
  mac : (key msg : Str) → Str
  macVerify : (key msg mac : Str) → Bool
  b64 : Str → Str
  unb64 : Str → Option Str
  gcmSeal : (key iv msg : Str) → Str × Str
  gcmOpen : (key iv ctx tag : Str) → Option Str

/-- The part of `CookieDealer` that matters for values (cookie.py:343-384). -/
structure CookieDealer where
  signKey : Option Str
  encKey : Option Str
deriving DecidableEq, Repr

/-- `sign_enc_payload` (cookie.py:55-105) for a given non-empty timestamp string. `iv` is `os.urandom(12)`. -/
def signEncPayload (cr : CookieCrypto) (d : CookieDealer) (iv load ts : Str) : Except Exn Str :=
  let mac : Str := match d.signKey with
    | some k => cr.mac k (load ++ ts)
    | none => []
  match d.encKey with
  | some ek =>
    if ek.length = 16 ∨ ek.length = 24 ∨ ek.length = 32 then
      let msg := if mac ≠ [] then lvPack [load, ts, cr.b64 mac] else lvPack [load, ts]
      let ct := cr.gcmSeal ek iv msg
      .ok (pyJoin c!"|" [ts, cr.b64 iv, cr.b64 ct.1, cr.b64 ct.2])
    else .error .valueError
  | none => .ok (pyJoin c!"|" [ts, load, cr.b64 mac])

/-- `ver_dec_content` (cookie.py:108-157): the three-part case. -/
def verDecSigned (cr : CookieCrypto) (d : CookieDealer) (ts load b64mac : Str) : Except Exn (Option (Str × Str)) :=
  match cr.unb64 b64mac with
  | none => .error .valueError
  | some mac =>
    match d.signKey with
    | none => .error .attributeError
    | some k =>
      if cr.macVerify k (load ++ ts) mac then .ok (some (load, ts)) else .error .verificationError

/-- `ver_dec_content` (cookie.py:144-156): after decryption. -/
def verDecPlain (cr : CookieCrypto) (d : CookieDealer) (msg : Str) : Except Exn (Option (Str × Str)) :=
  match lvUnpack msg with
  | .error e => .error e
  | .ok (load :: ts :: rest) =>
    match rest with
    | [m] =>
      match d.signKey with
      | none => .error .attributeError
      | some k =>
        match cr.unb64 m with
        | none => .error .valueError
        | some mac => if cr.macVerify k (load ++ ts) mac then .ok (some (load, ts)) else .ok none
    | _ => .ok (some (load, ts))
  | .ok _ => .error .indexError

/-- `ver_dec_content` (cookie.py:132-143): the four-part case. -/
def verDecEncrypted (cr : CookieCrypto) (d : CookieDealer) (p1 p2 p3 : Str) : Except Exn (Option (Str × Str)) :=
  match cr.unb64 p1, cr.unb64 p2, cr.unb64 p3 with
  | some iv, some ctx, some tag =>
    match d.encKey with
    | none => .error .attributeError
    | some ek =>
      match cr.gcmOpen ek iv ctx tag with
      | none => .ok none
      | some msg => verDecPlain cr d msg
  | _, _, _ => .error .valueError

/-- `ver_dec_content` (cookie.py:108-157). -/
def verDecContent (cr : CookieCrypto) (d : CookieDealer) (parts : List Str) : Except Exn (Option (Str × Str)) :=
  match parts with
  | [ts, load, m] => verDecSigned cr d ts load m
  | [_, p1, p2, p3] => verDecEncrypted cr d p1 p2 p3
  | _ => .ok none

/-- The value of the cookie made by `CookieDealer.create_cookie` (cookie.py:399-460): `value::timestamp::typ`, signed
and/or encrypted.  Attributes (path, expiry, ...) are in `Model/CookieAttr.lean`.  Simplification: `SimpleCookie`'s
quoting and unquoting of the value is taken as the identity (library round trip). -/
def createCookieValue (cr : CookieCrypto) (d : CookieDealer) (now : Int) (iv value typ : Str) : Except Exn Str :=
  signEncPayload cr d iv (pyJoin c!"::" [value, intStr now, typ]) (intStr now)

/-- `CookieDealer.get_cookie_value` (cookie.py:462-486) with `parse_cookie` (308-334) and `cookie_parts` (291-305), for
the raw string stored under the cookie's name.  A `None` from `parse_cookie` is a `TypeError` at the unpacking and is
caught; `info.split("::")` with other than three parts is an uncaught `ValueError`. -/
def getCookieValue (cr : CookieCrypto) (d : CookieDealer) (raw : Str) : Except Exn (Option (Str × Str × Str)) :=
  match verDecContent cr d (pySplit c!"|" raw) with
  | .error e => .error e
  | .ok none => .ok none
  | .ok (some (info, timestamp)) =>
    match pySplit c!"::" info with
    | [value, ts, typ] => if timestamp = ts then .ok (some (value, ts, typ)) else .ok none
    | _ => .error .valueError

end Verif
