import Verif.Model.TokenString
import Verif.Model.Types
/-! How the token handlers come into being: `token/handler.py:71-137`, `endpoint_context.py:65-86`. -/
namespace Verif

/-- The keyword arguments of a token handler that the two classes read (token/__init__.py:52-55, 99-103, jwt_token.py:19-44).
Simplification: `token_type`, `aud`, `alg`, `issuer`, `keyjar` do not enter the model; an unknown keyword argument
is swallowed by `**kwargs` in both classes. -/
structure HandlerOpts where
  password : Option Str := none
  lifetime : Option Int := none
deriving DecidableEq, Repr

/-- The configuration of one token handler, a dictionary: the optional keys `class` and `kwargs`, and the remaining keys,
which count when there is no `kwargs`.  `other` says that some further key is present. -/
structure HandlerSpec where
  cls : Option HandlerClass := none
  inline : HandlerOpts := {}
  kwargs : Option HandlerOpts := none
  other : Bool := false
deriving DecidableEq, Repr

/-- Whether the dictionary is empty, which makes it false in a condition (token/handler.py:123, 127). -/
def HandlerSpec.isEmpty (s : HandlerSpec) : Bool :=
  s.cls.isNone && s.inline.password.isNone && s.inline.lifetime.isNone && s.kwargs.isNone && !s.other

/-- `Crypt.__init__` (token/__init__.py:32-36): the Fernet key is the hash of the password; `derive` stands for
`urlsafe_b64encode(sha256(..))`.  `jwtKey` stands for the key of the provider's key jar that `JWTToken` signs with. -/
structure KeyLib where
  derive : Str → Str
  jwtKey : Str

/-- `Token.__init__` (token/__init__.py:52-55), `DefaultToken.__init__` (token/__init__.py:99-103) and `JWTToken.__init__`
(jwt_token.py:19-44): 300 seconds unless told otherwise; `DefaultToken` without a password is a `TypeError`. -/
def makeHandler (kl : KeyLib) (cls : HandlerClass) (typ : Str) (o : HandlerOpts) : Except Exn Handler :=
  match cls with
  | .default => match o.password with
    | none => .error .typeError
    | some p => .ok { cls := .default, typ := typ, lifetime := o.lifetime.getD 300, key := kl.derive p }
  | .jwt => .ok { cls := .jwt, typ := typ, lifetime := o.lifetime.getD 300, key := kl.jwtKey }

/-- `init_token_handler` (token/handler.py:71-89). -/
def initTokenHandler (kl : KeyLib) (spec : HandlerSpec) (typ : Str) : Except Exn Handler :=
  makeHandler kl (spec.cls.getD .default) typ (spec.kwargs.getD spec.inline)

/-- A key jar of token keys, read by key id (`keyjar.get_encrypt_key(key_type="oct", kid=..)`, token/handler.py:94). -/
abbrev TokenKeys := Str → Option Str

/-- `_add_passwd` (token/handler.py:92-100): the key of that id, when there is one, becomes the password. -/
def addPasswd (kj : Option TokenKeys) (spec : HandlerSpec) (kid : Str) : HandlerSpec :=
  match kj with
  | none => spec
  | some keys => match keys kid with
    | none => spec
    | some pw => match spec.kwargs with
      | some o => { spec with kwargs := some { o with password := some pw } }
      | none => { spec with inline := { spec.inline with password := some pw } }

/-- One step of `factory` (token/handler.py:123-135). -/
def handlerFor (kl : KeyLib) (kj : Option TokenKeys) (spec : Option HandlerSpec) (kid typ : Str) : Except Exn (Option Handler) :=
  match spec with
  | none => .ok none
  | some s => (initTokenHandler kl (addPasswd kj s kid) typ).map some

/-- An empty dictionary counts as absent for `code` and `token` (token/handler.py:123, 127), not for `refresh` (131). -/
def nonEmpty (s : Option HandlerSpec) : Option HandlerSpec := s.filter fun s => !s.isEmpty

/-- The arguments `factory` takes out of `token_handler_args`. -/
structure HandlerArgs where
  code : Option HandlerSpec := none
  token : Option HandlerSpec := none
  refresh : Option HandlerSpec := none
deriving DecidableEq, Repr

/-- `factory` (token/handler.py:103-137) with the key jar that `jwks_def` gave, if any. -/
def handlerFactory (kl : KeyLib) (kj : Option TokenKeys) (a : HandlerArgs) : Except Exn TokenHandler :=
  match handlerFor kl kj (nonEmpty a.code) c!"code" c!"A" with
  | .error e => .error e
  | .ok code => match handlerFor kl kj (nonEmpty a.token) c!"token" c!"T" with
    | .error e => .error e
    | .ok token => match handlerFor kl kj a.refresh c!"refresh" c!"R" with
      | .error e => .error e
      | .ok refresh => .ok { code := code, accessToken := token, refreshToken := refresh }

/-- The handlers used when nothing is configured (endpoint_context.py:65-85): lifetimes of ten minutes, one hour, one day. -/
def defaultHandlerArgs : HandlerArgs :=
  { code := some { inline := { lifetime := some 600 } }
    token := some { inline := { lifetime := some 3600 } }
    refresh := some { inline := { lifetime := some 86400 } } }

/-- `init_key_jar` of cryptojwt with `private_path` and `read_only = False` (endpoint_context.py:75-79, token/handler.py:116-119):
the keys on disk when there is a file, otherwise new keys, which are written to disk. -/
def initTokenKeys (disk : Option TokenKeys) (new : TokenKeys) : Option TokenKeys × TokenKeys :=
  match disk with
  | some k => (some k, k)
  | none => (some new, new)

/-- `token_handler_args` of the configuration (endpoint_context.py:66, token/handler.py:103): absent (or empty), or the
handlers with or without `jwks_def`. -/
inductive HandlerConf where
  | absent
  | given (args : HandlerArgs) (withKeys : Bool)
deriving DecidableEq, Repr

/-- The start of a provider as far as its token handlers are concerned: `get_token_handlers` (endpoint_context.py:65-85) followed
by `factory` (token/handler.py:103-137).  `disk` is the key file, `new` the keys made if there is none. -/
def startHandlers (kl : KeyLib) (disk : Option TokenKeys) (new : TokenKeys) (conf : HandlerConf) :
    Option TokenKeys × Except Exn TokenHandler :=
  match conf with
  | .absent =>
    let d := initTokenKeys disk new
    (d.1, handlerFactory kl (some d.2) defaultHandlerArgs)
  | .given a true =>
    let d := initTokenKeys disk new
    (d.1, handlerFactory kl (some d.2) a)
  | .given a false => (disk, handlerFactory kl none a)

/-- The table of `TokenHandler.__init__` in `handler_order` (token/handler.py:19-30): `code` and `access_token` are always
there, possibly as `None`, a refresh handler only when there is one. -/
def TokenHandler.table (t : TokenHandler) : List (Option Handler) :=
  [t.code, t.accessToken] ++ (t.refreshToken.toList.map some)

/-- `TokenHandler.get_handler` and `info` (token/handler.py:38-65) over that table: `None.info` is an `AttributeError`,
which is not among the caught exceptions. -/
def tableInfo (cr : TokenCrypto) (now : Int) (token : Str) : List (Option Handler) → Except Exn TokenInfo
  | [] => .error .unknownToken
  | none :: _ => .error .attributeError
  | some h :: hs =>
    match handlerInfo cr h now token with
    | .ok r => .ok r
    | .error e => if handlerCaught e then tableInfo cr now token hs else .error e

/-- `TokenHandler.type` (token/handler.py:50-51). -/
def TokenHandler.type (t : TokenHandler) (cr : TokenCrypto) (now : Int) (token : Str) : Except Exn Str :=
  (t.info cr now token).map (·.typ)

end Verif
