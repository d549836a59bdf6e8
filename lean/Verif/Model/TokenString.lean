import Verif.Model.Pack
/-! Token strings: `token/__init__.py`, `token/jwt_token.py`, `token/handler.py`. -/
namespace Verif

/-- What the token handlers use of the `cryptography` and `cryptojwt` libraries, as parameters.
`fernetSeal`/`fernetOpen` stand for `base64.b64encode(Fernet(key).encrypt(..))` and the inverse (token/__init__.py:38-48,
130-132, 148); keys are the derived Fernet keys, `nonce` is the library's own randomness.
`jwtPack`/`jwtUnpack` stand for `cryptojwt.JWT.pack/unpack` with the handler's key jar and algorithm
(token/jwt_token.py:66-73, 83-87); the packed payload is the part the code reads back: `sid`, `ttype`, `exp`.
`jwtUnpack = none` is a `JWSException`. -/
structure TokenCrypto where
  fernetSeal : (key nonce text : Str) → Str
  fernetOpen : (key token : Str) → Option Str
  jwtPack : (key nonce : Str) → (sid ttype : Str) → (exp : Int) → Str
  jwtUnpack : (key token : Str) → Option (Str × Str × Int)

/-- Number of bytes of the UTF-8 encoding. -/
def utf8Len (s : Str) : Nat := (s.map fun c => c.utf8Size).sum

/-- The padding of `Crypt.encrypt` (token/__init__.py:38-43): blanks up to a multiple of 16 bytes. -/
def cryptPad (text : Str) : Str :=
  if utf8Len text % 16 ≠ 0 then text ++ List.replicate (16 - utf8Len text % 16) ' ' else text

/-- `Crypt.encrypt` (token/__init__.py:38-43). -/
def cryptEncrypt (cr : TokenCrypto) (key nonce text : Str) : Str := cr.fernetSeal key nonce (cryptPad text)

/-- `Crypt.decrypt` (token/__init__.py:45-48); `none` is any exception of the library. -/
def cryptDecrypt (cr : TokenCrypto) (key token : Str) : Option Str :=
  (cr.fernetOpen key token).map pyRstripBlank

/-- Which class a handler is: `DefaultToken` or `JWTToken`. -/
inductive HandlerClass where
  | default
  | jwt
deriving DecidableEq, Repr

/-- A token handler instance (`DefaultToken.__init__` token/__init__.py:99-103, `JWTToken.__init__` jwt_token.py:19-44):
type letter (`A`, `T`, `R`), lifetime in seconds and key. -/
structure Handler where
  cls : HandlerClass
  typ : Str
  lifetime : Int
  key : Str
deriving DecidableEq, Repr

/-- The type letter put into a token string (token/__init__.py:115-118, jwt_token.py:58-61):
note that a non-empty `ttype` argument is replaced by "A". -/
def effectiveType (h : Handler) (ttype : Str) : Str :=
  if ttype = [] ∧ h.typ ≠ [] then h.typ else c!"A"

/-- The expiry put into a `DefaultToken` string (token/__init__.py:120-123). -/
def defaultExp (h : Handler) (now : Int) : Str :=
  if 0 ≤ h.lifetime then intStr (now + h.lifetime) else c!"-1"

/-- `handler(session_id=..., ttype=...)` (token/__init__.py:105-132, jwt_token.py:45-73).  `rnd` is `rndstr(32)`.
Simplification: the other payload arguments are not part of a `DefaultToken` string, and a `JWTToken` never reads
them back, so they are left out. -/
def handlerCall (cr : TokenCrypto) (h : Handler) (now : Int) (rnd nonce : Str) (sid ttype : Str) : Str :=
  match h.cls with
  | .default =>
    cryptEncrypt cr h.key nonce (lvPack [rnd, effectiveType h ttype, sid, defaultExp h now])
  | .jwt => cr.jwtPack h.key nonce sid (effectiveType h ttype) (now + h.lifetime)

/-- What `info` returns: the dictionary keys may be missing if the unpacked list is short. -/
structure TokenInfo where
  rid : Option Str
  typ : Str
  sid : Option Str
  exp : Option Str
deriving DecidableEq, Repr

/-- `DefaultToken.split_token` (token/__init__.py:146-152): decryption errors become `UnknownToken`;
`lv_unpack` may raise `ValueError`. -/
def splitToken (cr : TokenCrypto) (h : Handler) (token : Str) : Except Exn (List Str) :=
  match cryptDecrypt cr h.key token with
  | none => .error .unknownToken
  | some plain => lvUnpack plain

/-- `is_expired` (token/__init__.py:22-28) with `when = now`. -/
def isExpired (exp now : Int) : Bool := if exp < 0 then false else decide (now > exp)

/-- `DefaultToken.info` (token/__init__.py:154-166) and `JWTToken.info` (jwt_token.py:75-98).
`dict(zip([...], parts))`; a missing "type" is a `KeyError`.  `JWTToken.info` does not compare the type. -/
def handlerInfo (cr : TokenCrypto) (h : Handler) (now : Int) (token : Str) : Except Exn TokenInfo :=
  match h.cls with
  | .default =>
    match splitToken cr h token with
    | .error e => .error e
    | .ok parts =>
      match parts[1]? with
      | none => .error .keyError
      | some t =>
        if t ≠ h.typ then .error .wrongTokenType
        else .ok { rid := parts[0]?, typ := t, sid := parts[2]?, exp := parts[3]? }
  | .jwt =>
    match cr.jwtUnpack h.key token with
    | none => .error .unknownToken
    | some (sid, t, exp) =>
      if isExpired exp now then .error .tooOld
      else .ok { rid := none, typ := t, sid := some sid, exp := some (intStr exp) }

/-- The exceptions `TokenHandler.get_handler` swallows (token/handler.py:60). -/
def handlerCaught (e : Exn) : Bool :=
  e.isKeyError || e == .wrongTokenType || e == .unknownToken

/-- `TokenHandler` (token/handler.py:19-30): the handlers by name, tried in the order code, access_token, refresh_token. -/
structure TokenHandler where
  code : Option Handler
  accessToken : Option Handler
  refreshToken : Option Handler
deriving DecidableEq, Repr

/-- `handler_order` (token/handler.py:26-30).  A handler that is not configured is `None` in the table and calling
`None.info` would be an `AttributeError`; missing handlers are skipped here.  Model/TokenStart.lean has the table
with the `None`s, and `tableInfo_eq` shows that the two agree when code and access-token handlers are configured. -/
def TokenHandler.order (t : TokenHandler) : List Handler :=
  t.code.toList ++ t.accessToken.toList ++ t.refreshToken.toList

/-- The loop of `TokenHandler.get_handler` (token/handler.py:53-65) followed by the `UnknownToken` of
`TokenHandler.info` (token/handler.py:38-45). -/
def infoLoop (cr : TokenCrypto) (now : Int) (token : Str) : List Handler → Except Exn TokenInfo
  | [] => .error .unknownToken
  | h :: hs =>
    match handlerInfo cr h now token with
    | .ok r => .ok r
    | .error e => if handlerCaught e then infoLoop cr now token hs else .error e

/-- `TokenHandler.info` (token/handler.py:38-45). -/
def TokenHandler.info (t : TokenHandler) (cr : TokenCrypto) (now : Int) (token : Str) : Except Exn TokenInfo :=
  infoLoop cr now token t.order

/-- `TokenHandler.sid` (token/handler.py:47-48). -/
def TokenHandler.sid (t : TokenHandler) (cr : TokenCrypto) (now : Int) (token : Str) : Except Exn Str :=
  match t.info cr now token with
  | .error e => .error e
  | .ok r => match r.sid with
    | none => .error .keyError
    | some s => .ok s

end Verif
