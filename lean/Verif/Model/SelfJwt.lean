import Verif.Model.Logout
import Verif.Model.Payload
/-! Signed JWTs that the provider sends to itself: in the login form, and in the logout confirmation. -/
namespace Verif

/-- What is used of cryptojwt below the level of key jars: the key type of an algorithm (`alg2keytype`), signing the claims
with a key, reading a compact JWS without checking it (`factory(token)`; the algorithm in the header and the claims), and
checking the signature with a key. -/
structure JwsLib where
  keyType : Str → Str
  sign : Str → Str → Dict Val → Str
  read : Str → Option (Str × Dict Val)
  check : Str → Str → Bool

/-- A key jar: the keys of each owner by key type.  The provider's own keys are filed under the empty name. -/
abbrev KeyJar := Str → Str → List Str

/-- `JWT(keyjar, iss=…, lifetime=…, sign_alg=…).pack(payload, recv=…)` of cryptojwt: the claims are those given, with "iss"
and "iat" and, if wanted, "exp" and "aud" set; the first own key of the algorithm's type signs, without one it is an exception.
Used in user_authn/user.py:139-141 and oidc/session.py:305-312. -/
def jwtPack (J : JwsLib) (jar : KeyJar) (now : Int) (iss alg : Str) (lifetime : Option Int) (recv : Option Str)
    (payload : Dict Val) : Except Exn Str :=
  match jar [] (J.keyType alg) with
  | [] => .error .serviceError
  | k :: _ => .ok (J.sign k alg (Dict.update payload ([(c!"iss", .str iss), (c!"iat", .int now)]
      ++ (match lifetime with | some l => [(c!"exp", .int (now + l))] | none => [])
      ++ (match recv with | some r => [(c!"aud", .lcons (.str r) .lnil)] | none => []))))

/-- The keys with which cryptojwt's `JWT.unpack` tries a token (`KeyJar.get_jwt_verify_keys`): those of the token's "iss", for
symmetric keys also the own ones; the own ones if there is no "iss".  Simplification: no selection by "kid", and no fetching
of keys from a "jku". -/
def jwtKeys (J : JwsLib) (jar : KeyJar) (alg : Str) (claims : Dict Val) : List Str :=
  match claims.get? c!"iss" with
  | some (.str iss) => jar iss (J.keyType alg) ++ (if J.keyType alg = c!"oct" then jar [] (J.keyType alg) else [])
  | _ => jar [] (J.keyType alg)

/-- `verify_signed_jwt(token, keyjar)` (user_authn/user.py:144-146), the `unpack_token` of an authentication method
(user_authn/user.py:122-123): no algorithm is excluded but "none", and no claim is looked at. -/
def verifySignedJwt (J : JwsLib) (jar : KeyJar) (token : Str) : Except Exn (Dict Val) :=
  match J.read token with
  | none => .error .verificationError
  | some (alg, claims) =>
    if alg = c!"none" then .error .verificationError
    else if (jwtKeys J jar alg claims).any (fun k => J.check k token) then .ok claims
    else .error .verificationError

/-- `Session.unpack_signed_jwt(sjwt)` (oidc/session.py:184-197) with `alg` the configured `signing_alg`: the own keys only,
and the algorithm has to be that one; no claim is looked at. -/
def unpackSignedJwt (J : JwsLib) (jar : KeyJar) (alg : Str) (token : Str) : Except Exn (Dict Val) :=
  match J.read token with
  | none => .error .valueError
  | some (a, claims) =>
    if a ≠ alg then .error .verificationError
    else if (jar [] (J.keyType alg)).any (fun k => J.check k token) then .ok claims
    else .error .verificationError

/-! ### The login form -/

/-- Python's `d[k] = v` for a value that is there and true. -/
def setIfTrue (d : Dict Val) (k : Str) (v : Option Val) : Dict Val :=
  match v with
  | some x => if x.truthy then d.set k x else d
  | none => d

/-- The first entries of the arguments (oauth2/authorization.py:223-236). -/
def argsBase (acr : Str) (uri : Val) (query : Str) (reqUser : Option Str) : Dict Val :=
  let d : Dict Val := [(c!"authn_class_ref", .str acr), (c!"return_uri", uri), (c!"query", .str query)]
  match reqUser with
  | some u => d.set c!"as_user" (.lcons (.str u) .lnil)
  | none => d

/-- `authn_args_gather` (oauth2/authorization.py:213-248): what the login page is told.  `enc` is `to_urlencoded`; a request
without redirect URI is a `KeyError`. -/
def authnArgs (enc : Dict Val → Str) (req : Dict Val) (acr : Str) (cinfo : Dict Val) (reqUser : Option Str) :
    Except Exn (Dict Val) :=
  match req.get? c!"redirect_uri" with
  | none => .error .keyError
  | some uri =>
    let d := argsBase acr uri (enc req) reqUser
    let d := [c!"policy_uri", c!"logo_uri", c!"tos_uri"].foldl (fun d a => setIfTrue d a (cinfo.get? a)) d
    .ok ([c!"ui_locales", c!"acr_values", c!"login_hint"].foldl (fun d a => setIfTrue d a (req.get? a)) d)

/-- The defaults of the page's parameters (user_authn/user.py:168-179); `conf` is what is configured. -/
def pageDefaults (conf : Dict Val) : Dict Val :=
  [(c!"page_header", Val.str c!"Log in"), (c!"user_label", .str c!"Username"), (c!"passwd_label", .str c!"Password"),
   (c!"submit_btn", .str c!"Log in"), (c!"tos_uri", .str []), (c!"logo_uri", .str []), (c!"policy_uri", .str []),
   (c!"tos_label", .str []), (c!"logo_label", .str []), (c!"policy_label", .str [])].foldl
    (fun d kv => if d.has kv.1 then d else d.set kv.1 kv.2) conf

/-- The entries that the client's URIs put on the page (user_authn/user.py:198-206) with `LABELS` (user_authn/user.py:149). -/
def pageUris (args : Dict Val) (page : Dict Val) : Dict Val :=
  [(c!"policy_uri", c!"policy_label", c!"Service policy"), (c!"tos_uri", c!"tos_label", c!"Terms of Service"),
   (c!"logo_uri", c!"logo_label", [])].foldl
    (fun d x => match args.get? x.1 with
      | some v => (d.set x.1 v).set x.2.1 (.str x.2.2)
      | none => d) page

/-- `UserPassJinja2.__call__` (user_authn/user.py:181-210): the parameters the template is rendered with.  A configured
parameter called "action" or "token" is a `TypeError` (given twice). -/
def loginPage (J : JwsLib) (jar : KeyJar) (now : Int) (iss : Str) (action : Str) (conf args : Dict Val) : Except Exn (Dict Val) :=
  match jwtPack J jar now iss c!"RS256" none none args with
  | .error e => .error e
  | .ok jws =>
    if conf.has c!"action" ∨ conf.has c!"token" then .error .typeError
    else .ok ([(c!"action", Val.str action), (c!"token", .str jws)] ++ pageUris args (pageDefaults conf))

/-! ### The logout confirmation -/

/-- The claims of the logout confirmation (oidc/session.py:291-302). -/
def EndPayload.claims (p : EndPayload) : Dict Val :=
  [(c!"sid", .str p.sid)] ++ (match p.state with | some s => [(c!"state", .str s)] | none => [])
    ++ [(c!"redirect_uri", .str p.redirectUri)]

/-- The end of `Session.process_request` (oidc/session.py:303-317): the token in the address of the confirmation page. -/
def logoutJwt (J : JwsLib) (jar : KeyJar) (now : Int) (iss alg : Str) (p : EndPayload) : Except Exn Str :=
  jwtPack J jar now iss alg (some 86400) (some iss) p.claims

/-- `JWTToken.__call__` (token/jwt_token.py:45-73) with the JWT library: an access token. -/
def jwtTokenString (J : JwsLib) (jar : KeyJar) (now : Int) (iss alg : Str) (lifetime : Int) (contents : Dict Val) :
    Except Exn Str :=
  jwtPack J jar now iss alg (some lifetime) none contents

end Verif
