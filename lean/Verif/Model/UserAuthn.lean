import Verif.Model.Authorization
import Verif.Model.Cookie
/-! `user_authn/user.py` and the first part of `setup_auth`: who the user at the browser is. -/
namespace Verif

/-- What `setup_auth` uses of other libraries: `cryptojwt.utils.b64d` (`none` is `BadSyntax`: a character outside the
base64url alphabet, or a length that is no encoding's), and `json.loads` of the decoded bytes followed by `.get` on the result:
the members "uid" and "sid" of a JSON object, an exception for anything else. -/
structure IdentLib where
  b64d : Str → Option Str
  json : Str → Except Exn (Option Str × Option Str)

/-- Configuration of the user authentication: the cookie dealer with its keys and its `ttl` in minutes, the authentication
class of the method and its configured `expires_in`, and whether a login hint lookup is configured. -/
structure AuthnCfg where
  cr : CookieCrypto
  dealer : CookieDealer
  ttl : Int
  lib : IdentLib
  acr : Str := []
  expiresIn : Option Int := none
  hintLookup : Bool := false

/-- An authorization request with the parameters that only matter here: the `max_age` inside a verified request object,
`upm_answer`, `login_hint`, and the subjects of the verified hints by parameter name (`"__verified_" + name`). -/
structure UserReq where
  areq : AuthReq
  objMaxAge : Option Int := none
  upmAnswer : Option Str := none
  loginHint : Option Str := none
  hints : Dict Str := []

/-- `max_age` (oauth2/authorization.py:83-85); an absent parameter is 0. -/
def maxAgeOf (r : UserReq) : Int :=
  match r.objMaxAge with
  | some m => if m = 0 then r.areq.maxAge else m
  | none => r.areq.maxAge

/-- The age that `setup_auth` demands (oauth2/authorization.py:483-486). -/
def demandedAge (r : UserReq) : Int := if r.upmAnswer = some c!"true" then 0 else maxAgeOf r

/-- `UserAuthnMethod.authenticated_as` (user_authn/user.py:66-102) for the raw value of the session cookie (`none`: there is
no such cookie, and `get_cookie_value` finds nothing).  `AttributeError` is one of the caught exceptions; `InvalidCookieSign`
is never raised and `AssertionError` not by the modelled code.  The result is the value and the timestamp of the cookie. -/
def authenticatedAs (c : AuthnCfg) (now : Int) (raw : Option Str) (maxAge : Int) : Except Exn (Option (Str × Str)) :=
  match raw with
  | none => .ok none
  | some raw =>
    match getCookieValue c.cr c.dealer raw with
    | .error e => if e = .attributeError then .ok none else .error e
    | .ok none => .ok none
    | .ok (some (uid, ts, typ)) =>
      if typ = c!"uam" then
        match pyInt ts with
        | none => .error .valueError
        | some t => if now > t + c.ttl * 60 then .error .tooOld else .ok (some (uid, ts))
      else if maxAge = 0 then .ok (some (uid, ts))
      else match pyInt ts with
        | none => .error .valueError
        | some t => if now > t + maxAge then .error .tooOld else .ok (some (uid, ts))

/-- The exceptions after which nobody is taken to be logged in (oauth2/authorization.py:491-502): of the modelled ones,
`ToOld` and `UnknownToken`. -/
def nobodyExn (e : Exn) : Bool := e = .tooOld || e = .unknownToken

/-- The first part of `setup_auth` (oauth2/authorization.py:481-514): the identity.  A value that is base64url is
decoded and has to be a JSON object. -/
def identity (c : AuthnCfg) (now : Int) (raw : Option Str) (r : UserReq) : Except Exn Ident :=
  match authenticatedAs c now raw (demandedAge r) with
  | .error e => if nobodyExn e then .ok .nobody else .error e
  | .ok none => .ok .nobody
  | .ok (some (uid, _)) =>
    match c.lib.b64d uid with
    | none => .ok (.plain uid)
    | some bytes => match c.lib.json bytes with
      | .error e => .error e
      | .ok (u, sid) => .ok (.decoded u sid)

/-- `do_request_user` (oidc/authorization.py:15-19, 135-145; oauth2/authorization.py:906-907) followed by the use of
`req_user` in `setup_auth`: the user asked for.  The hint that is looked at is the one named "it_token_hint"; the lookup object
is subscripted, which it does not support (`TypeError`). -/
def requestUser (oidc hintLookup : Bool) (r : UserReq) : Except Exn (Option Str) :=
  if oidc = false then .ok none
  else match Dict.get? r.hints c!"it_token_hint" with
    | some (h :: hs) => .ok (some (h :: hs))
    | _ => match r.loginHint with
      | some (_ :: _) => if hintLookup then .error .typeError else .ok none
      | _ => .ok none

/-- The `re_authenticate` that `setup_auth` calls is the one of its own module (oauth2/authorization.py:545, 977-978), not the
one in oidc/authorization.py:62-67. -/
def reAuthenticate (_ : UserReq) : Bool := false

/-- The inputs of the rest of `setup_auth` (oauth2/authorization.py:476-545, 581-590).  The timestamp is not used there. -/
def authnIn (env : Env) (c : AuthnCfg) (now : Int) (raw : Option Str) (r : UserReq) : Except Exn AuthnIn :=
  match requestUser env.oidc c.hintLookup r with
  | .error e => .error e
  | .ok u => match identity c now raw r with
    | .error e => .error e
    | .ok i => .ok { ident := i, acr := c.acr, expiresIn := c.expiresIn, reqUser := u, reAuth := reAuthenticate r }

/-- `process_request` (oauth2/authorization.py:909-953) given the cookie.  Simplification: `UserAuthnMethod`'s own way of
recognising a user; the picking of a method is in `Model/Broker.lean`. -/
def authzBrowser (env : Env) (c : AuthnCfg) (cdb : Cdb) (s : Store) (now : Int) (gid : Str) (mc ma : MintIn) (idt : Out Str)
    (raw : Option Str) (r : UserReq) : Cdb × Store × AuthzAnswer :=
  match cdb r.areq.clientId with
  | none => (cdb, s, .raise .keyError)
  | some cl =>
    if checkScopes env cl r.areq = false then (cdb, s, .raise .unAuthorizedClient)
    else match authnIn env c now raw r with
      | .error e => (cdb, s, .raise e)
      | .ok a => authzProcess env cdb s now gid mc ma idt a r.areq

/-! ### The other authentication methods -/

/-- `UserPassJinja2.verify` (user_authn/user.py:208-213); `none` is `FailedAuthentication`.  Simplification: passwords are
strings. -/
def userPassVerify (userDb : Dict Str) (username password : Str) : Option Str :=
  if userDb.get? username = some password then some username else none

/-- `BasicAuthn.authenticated_as` and `SymKeyAuthn.authenticated_as` (user_authn/user.py:226-241, 256-273): `b64decode` gives
bytes (or raises), and `bytes.split(":")` is a `TypeError`. -/
def basicAuthenticatedAs (b64decode : Str → Except Exn Str) (authorization : Str) : Except Exn (Str × Int) :=
  let a := if c!"Basic".isPrefixOf authorization then authorization.drop 6 else authorization
  match b64decode a with
  | .error e => .error e
  | .ok _ => .error .typeError

end Verif
