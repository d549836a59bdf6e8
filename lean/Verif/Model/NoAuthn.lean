import Verif.Model.UserAuthn
import Verif.Model.SubId
/-! `NoAuthn` (user_authn/user.py:276-322): the method that takes everybody for one configured user, and what `setup_auth`
and `process_request` do with it. -/
namespace Verif

/-- The cookies of a request as `NoAuthn` looks at them: none at all; some, but not the session cookie; the session
cookie's raw string. -/
inductive Cookies where
  | empty
  | others
  | session (raw : Str)
deriving DecidableEq, Repr

/-- Configuration: the cookie dealer and its cryptography, the libraries, the authentication class and the user
(user_authn/user.py:279-282).  `fail` is `None`: it is a hook for tests. -/
structure NoAuthnCfg where
  cr : CookieCrypto
  dealer : CookieDealer
  lib : IdentLib
  acr : Str := []
  user : Str

/-- `cookie_value` (cookie.py:593-597) followed by `isinstance(info, dict)` (user_authn/user.py:316-317): the members "uid"
and "sid" if the value is the base64url encoding of a JSON object. -/
def cookieObject (lib : IdentLib) (value : Str) : Option (Option Str × Option Str) :=
  match lib.b64d value with
  | none => none
  | some bytes => match lib.json bytes with
    | .error _ => none
    | .ok o => some o

/-- `NoAuthn.authenticated_as` (user_authn/user.py:284-322): the "uid" and the "sid" of the identity; `none` is "nobody".
The members of the cookie's object are put over `{"uid": user}`.  The cookie's age is not looked at, nor its type. -/
def noAuthnAs (c : NoAuthnCfg) (jar : Cookies) : Except Exn (Option (Str × Option Str)) :=
  match jar with
  | .empty => .ok (some (c.user, none))
  | .others => .ok none
  | .session raw =>
    match getCookieValue c.cr c.dealer raw with
    | .error e => if e = .attributeError then .ok none else .error e
    | .ok none => .ok none
    | .ok (some (value, _, _)) =>
      match cookieObject c.lib value with
      | none => .ok (some (c.user, none))
      | some (u, sid) => .ok (some (u.getD c.user, sid))

/-- The part of `setup_auth` for an identity that has a session id beside a user id that is not base64url
(oauth2/authorization.py:545-579, 601). -/
def continueSession (env : Env) (s : Store) (now : Int) (gid : Str) (req : AuthReq) (a : AuthnIn) (uid sid : Str) :
    Store × Out Setup :=
  if a.reAuth then (s, .val .login)
  else if a.reqUser.isSome ∧ a.reqUser ≠ some uid then (s, .val (needLogin req))
  else match unpack3 sid with
  | .error e => (s, .raise e)
  | .ok (_, c, _) =>
    if req.clientId ≠ c then (s, .val .login)
    else match mgrGet s sid with
    | .error e => (s, .raise e)
    | .ok (.info _) => (s, .raise .attributeError)
    | .ok (.grant g0) =>
      if g0.isActive now = false then (s, .val .login)
      else if g0.authReq = some req then
        match eventValid now g0.authnEvent with
        | .error e => (s, .raise e)
        | .ok false => (s, .val .login)
        | .ok true => (s, .val (.session sid uid))
      else match eventValid now g0.authnEvent with
        | .error e => (s, .raise e)
        | .ok false => (s, .val .login)
        | .ok true =>
          let r := createGrant env.sf s now gid uid req.clientId { authnEvent := g0.authnEvent, authReq := req }
          match r.2 with
          | .error e => (r.1, .raise e)
          | .ok sid' => match getAuthnEvent r.1 sid' with
            | .error e => (r.1, .raise e)
            | .ok ev => match eventValid now ev with
              | .error e => (r.1, .raise e)
              | .ok false => (r.1, .val .login)
              | .ok true => (r.1, .val (.session sid' uid))

/-- `setup_auth` (oauth2/authorization.py:466-601) with `NoAuthn`.  A "uid" that is base64url is decoded, as with the other
methods.  `NoAuthn` is given no keyword arguments, so there is no configured `expires_in` (user_authn/user.py:280). -/
def setupNoAuthn (env : Env) (c : NoAuthnCfg) (cdb : Cdb) (s : Store) (now : Int) (gid : Str) (jar : Cookies) (r : UserReq) :
    Store × Out Setup :=
  match requestUser env.oidc false r with
  | .error e => (s, .raise e)
  | .ok ru =>
    let a : AuthnIn := { ident := .nobody, acr := c.acr, reqUser := ru, reAuth := reAuthenticate r }
    match noAuthnAs c jar with
    | .error e => (s, .raise e)
    | .ok none => setupAuth env cdb s now gid r.areq a
    | .ok (some (uid, sid)) =>
      match c.lib.b64d uid with
      | some bytes => match c.lib.json bytes with
        | .error e => (s, .raise e)
        | .ok (u, sid') => setupAuth env cdb s now gid r.areq { a with ident := .decoded u sid' }
      | none => match sid with
        | none => setupAuth env cdb s now gid r.areq { a with ident := .plain uid }
        | some sid => continueSession env s now gid r.areq a uid sid

/-- What the browser gets: the page that says "Internal error" instead of a login page, or what the authorization endpoint
answers. -/
inductive NoAuthnAnswer where
  | internalError
  | answer (a : AuthzAnswer)
deriving DecidableEq, Repr

/-- `process_request` (oauth2/authorization.py:909-953) with `NoAuthn`.  It has no login page: `__call__` is
`UserAuthnMethod`'s, which raises `NotImplemented`, that is a `TypeError` (user_authn/user.py:56-64), which is caught
(oauth2/authorization.py:951-953). -/
def noAuthnProcess (env : Env) (c : NoAuthnCfg) (cdb : Cdb) (s : Store) (now : Int) (gid : Str) (mc ma : MintIn) (idt : Out Str)
    (jar : Cookies) (r : UserReq) : Cdb × Store × NoAuthnAnswer :=
  match cdb r.areq.clientId with
  | none => (cdb, s, .answer (.raise .keyError))
  | some cl =>
    if checkScopes env cl r.areq = false then (cdb, s, .answer (.raise .unAuthorizedClient))
    else
      let q := setupNoAuthn env c cdb s now gid jar r
      match q.2 with
      | .raise e => (cdb, q.1, .answer (.raise e))
      | .errMsg e => (cdb, q.1, .answer (.error e))
      | .val .login => (cdb, q.1, .internalError)
      | .val .loginRequired => (cdb, q.1, .answer (.error c!"login_required"))
      | .val (.session sid _) =>
        let p := authzPart2 env cdb q.1 now mc ma idt r.areq sid
        (p.1, p.2.1, .answer (.reply p.2.2))

end Verif
