import Verif.Model.Client
import Verif.Model.Pack
/-! `client_authn.py` and the client authentication of `endpoint.py`. -/
namespace Verif

/-- What the code uses of a verified client assertion or request object: the signing algorithm, the key id, the claims. -/
structure Assertion where
  alg : Str
  kid : Option Str := none
  iss : Str
  aud : List Str
  jti : Option Str := none
  /-- the key that verified the signature (not known to the code; used to state what was proved) -/
  signedWith : Str := []
deriving DecidableEq, Repr

/-- Library functions: base64 decoding (`none` is a `ValueError`), `unquote_plus`, `JWT.unpack` (which checks the
signature against the key jar; `none` is any exception), and the first symmetric signing key of an issuer in the key jar
(`keys[0].key`, client_authn.py:204-208). -/
structure AuthnLib where
  b64decode : Str → Option Str
  unquotePlus : Str → Str
  unpack : Str → Option Assertion
  firstOctKey : (iss : Str) → (kid : Option Str) → Option Str

/-- The parts of a request that client authentication looks at. -/
structure AuthnReq where
  clientId : Option Str := none
  clientSecret : Option Str := none
  accessToken : Option Str := none
  clientAssertion : Option Str := none
  request : Option Str := none
  /-- the HTTP Authorization header -/
  authorization : Option Str := none
deriving DecidableEq, Repr

/-- The authentication methods (client_authn.py:301-310); Python's `None` in a method list is `none`. -/
inductive AuthnMethod where
  | clientSecretBasic
  | clientSecretPost
  | bearerHeader
  | bearerBody
  | clientSecretJwt
  | privateKeyJwt
  | requestParam
deriving DecidableEq, Repr

/-- `tag`. -/
def AuthnMethod.tag : AuthnMethod → Str
  | .clientSecretBasic => c!"client_secret_basic"
  | .clientSecretPost => c!"client_secret_post"
  | .bearerHeader => c!"bearer_header"
  | .bearerBody => c!"bearer_body"
  | .clientSecretJwt => c!"client_secret_jwt"
  | .privateKeyJwt => c!"private_key_jwt"
  | .requestParam => c!"request_param"

/-- The dictionary that `verify` returns. -/
structure AuthInfo where
  method : Str
  clientId : Option Str := none
  token : Option Str := none
  assertion : Option Assertion := none
deriving DecidableEq, Repr

/-- `is_usable` of the methods (client_authn.py:91-94, 121-126, 146-149, 162-165, 182-187, 274-276). -/
def AuthnMethod.usable (m : AuthnMethod) (r : AuthnReq) : Bool :=
  match m with
  | .clientSecretBasic => match r.authorization with
    | some a => c!"Basic ".isPrefixOf a
    | none => false
  | .clientSecretPost => r.clientId.isSome && r.clientSecret.isSome
  | .bearerHeader => match r.authorization with
    | some a => c!"Bearer ".isPrefixOf a
    | none => false
  | .bearerBody => r.accessToken.isSome
  | .clientSecretJwt | .privateKeyJwt => r.clientAssertion.isSome
  | .requestParam => r.request.isSome

/-- `basic_authn` (client_authn.py:67-78). -/
def basicAuthn (lib : AuthnLib) (authn : Str) : Except Exn (Str × Str) :=
  if c!"Basic ".isPrefixOf authn = false then .error .authnFailure
  else match lib.b64decode (authn.drop 6) with
  | none => .error .valueError
  | some t => match (pySplit c!":" t).map lib.unquotePlus with
    | [i, s] => .ok (i, s)
    | _ => .error .valueError

/-- Comparison with the stored secret (client_authn.py:99-105, 129-135). -/
def checkSecret (cdb : Cdb) (id secret : Str) : Except Exn Unit :=
  match cdb id with
  | none => .error .keyError
  | some c => match c.clientSecret with
    | none => .error .keyError
    | some s => if s = secret then .ok () else .error .authnFailure

/-- One-time use of a `jti` (client_authn.py:224-231, 285-292): the database of seen keys. -/
def jtiUse (jtis : List Str) (a : Assertion) : Except Exn (List Str) :=
  match a.jti with
  | none => .ok jtis
  | some j =>
    if j = [] then .ok jtis
    else
      let key := a.iss ++ c!":" ++ j
      if key ∈ jtis then .error .multipleUsage else .ok (key :: jtis)

/-- The test of algorithm and key type (client_authn.py:199-213).  Note that the key compared with the secret is the first
one in the key jar. -/
def keyTypeCheck (lib : AuthnLib) (cdb : Cdb) (a : Assertion) (secretType : Bool) : Except Exn Unit :=
  if c!"HS".isPrefixOf a.alg then
    if secretType = false then .error .attributeError
    else match cdb a.iss with
      | none => .error .keyError
      | some c => match c.clientSecret with
        | none => .ok ()
        | some s =>
          if s = [] then .ok ()
          else match lib.firstOctKey a.iss a.kid with
          | none => .error .indexError
          | some k => if k = s then .ok () else .error .attributeError
  else if secretType then .error .attributeError else .ok ()

/-- `JWSAuthnMethod.verify` (client_authn.py:189-236) at an endpoint with the allowed targets `targets`.  The state is the
set of seen `jti` keys.  The exceptions of the library become `AuthnFailure`; other failures of it are exceptions too, and
all are swallowed by the caller. -/
def jwsVerify (lib : AuthnLib) (cdb : Cdb) (targets : List Str) (jtis : List Str) (ca : Str) (secretType : Bool) :
    List Str × Except Exn Assertion :=
  match lib.unpack ca with
  | none => (jtis, .error .authnFailure)
  | some a => match keyTypeCheck lib cdb a secretType with
    | .error e => (jtis, .error e)
    | .ok () =>
      if (a.aud.any fun x => targets.contains x) = false then (jtis, .error .notAllowed)
      else match jtiUse jtis a with
      | .error e => (jtis, .error e)
      | .ok jtis' => (jtis', .ok a)

/-- `verify` of the methods (client_authn.py:96-105, 128-135, 151-152, 167-177, 189-236, 278-298). -/
def AuthnMethod.verify (m : AuthnMethod) (lib : AuthnLib) (cdb : Cdb) (targets : List Str) (jtis : List Str) (r : AuthnReq) :
    List Str × Except Exn AuthInfo :=
  match m with
  | .clientSecretBasic => match basicAuthn lib (r.authorization.getD []) with
    | .error e => (jtis, .error e)
    | .ok (i, s) => match checkSecret cdb i s with
      | .error e => (jtis, .error e)
      | .ok () => (jtis, .ok { method := m.tag, clientId := some i })
  | .clientSecretPost => match r.clientId, r.clientSecret with
    | some i, some s => match checkSecret cdb i s with
      | .error e => (jtis, .error e)
      | .ok () => (jtis, .ok { method := m.tag, clientId := some i })
    | _, _ => (jtis, .error .keyError)
  | .bearerHeader => (jtis, .ok { method := m.tag, token := some ((r.authorization.getD []).drop 7) })
  | .bearerBody => match r.accessToken with
    | none => (jtis, .error .authnFailure)
    | some t => (jtis, .ok { method := m.tag, token := some t, clientId := r.clientId.filter fun c => decide (c ≠ []) })
  | .clientSecretJwt | .privateKeyJwt =>
    match jwsVerify lib cdb targets jtis (r.clientAssertion.getD []) (decide (m = .clientSecretJwt)) with
    | (j, .error e) => (j, .error e)
    | (j, .ok a) => (j, .ok { method := m.tag, clientId := some a.iss, assertion := some a })
  | .requestParam => match lib.unpack (r.request.getD []) with
    | none => (jtis, .error .authnFailure)
    | some a => match jtiUse jtis a with
      | .error e => (jtis, .error e)
      | .ok j => (j, .ok { method := m.tag, clientId := some a.iss, assertion := some a })

/-- The loop over the methods (client_authn.py:355-374): the first usable one whose verification succeeds; failures are
logged only. -/
def tryMethods (lib : AuthnLib) (cdb : Cdb) (targets : List Str) (r : AuthnReq) :
    List Str → List (Option AuthnMethod) → List Str × Option AuthInfo
  | jtis, [] => (jtis, none)
  | jtis, none :: ms => tryMethods lib cdb targets r jtis ms
  | jtis, some m :: ms =>
    if m.usable r then
      match m.verify lib cdb targets jtis r with
      | (j, .ok i) => (j, some i)
      | (j, .error _) => tryMethods lib cdb targets r j ms
    else tryMethods lib cdb targets r jtis ms

/-- `valid_client_info` (client_authn.py:315-319). -/
def validClientInfo (c : Client) (now : Int) : Bool :=
  !(decide (c.clientSecretExpiresAt ≠ 0 ∧ c.clientSecretExpiresAt < now))

/-- The end of `verify_client` (client_authn.py:386-429): the client must be known and valid, or be found by the token.
`fromToken` is the endpoint's `get_client_id_from_token`.  Not modelled: `also_known_as` (never given), client records
that are strings, and the note about the method used, which nothing reads. -/
def finishClient (cdb : Cdb) (now : Int) (fromToken : Str → Except Exn Str) (i : AuthInfo) : Except Exn AuthInfo :=
  match i.clientId with
  | some (x :: xs) => match cdb (x :: xs) with
    | none => .error .unknownClient
    | some c => if validClientInfo c now then .ok i else .error .invalidClient
  | _ => match i.token with
    | none | some [] => .error .valueError
    | some t => match fromToken t with
      | .ok c => .ok { i with clientId := some c }
      | .error e => if e.isKeyError then .error .valueError else .error e

/-- `verify_client` (client_authn.py:322-429); `none` is the empty dictionary. -/
def verifyClient (lib : AuthnLib) (cdb : Cdb) (now : Int) (methods : List (Option AuthnMethod)) (targets : List Str)
    (fromToken : Str → Except Exn Str) (jtis : List Str) (r : AuthnReq) : List Str × Except Exn (Option AuthInfo) :=
  match tryMethods lib cdb targets r jtis methods with
  | (j, some i) => (j, (finishClient cdb now fromToken i).map some)
  | (j, none) =>
    if none ∈ methods then (j, (finishClient cdb now fromToken { method := c!"none", clientId := r.clientId }).map some)
    else (j, .ok none)

/-- `Endpoint.client_authentication` (endpoint.py:284-322).  `UnknownToken` is re-raised, since "none" as a string is
never in the list of method objects. -/
def clientAuthentication (lib : AuthnLib) (cdb : Cdb) (now : Int) (methods : List (Option AuthnMethod)) (targets : List Str)
    (fromToken : Str → Except Exn Str) (jtis : List Str) (r : AuthnReq) : List Str × Except Exn (Option AuthInfo) :=
  match verifyClient lib cdb now methods targets fromToken jtis r with
  | (j, .error e) => (j, .error e)
  | (j, .ok none) => if methods = [] then (j, .ok none) else (j, .error .unAuthorizedClient)
  | (j, .ok (some i)) => (j, .ok (some i))

/-- The methods of an endpoint (endpoint.py:192-203): those configured; an empty list configured means the entry `None`; with
no configuration those of the endpoint's default capabilities (`[]` if it has none).  Names are taken as resolved
(client_authn.py:432-452). -/
def endpointMethods (configured : Option (List (Option AuthnMethod))) (defaults : List (Option AuthnMethod)) :
    List (Option AuthnMethod) :=
  match configured with
  | some [] => [none]
  | some l => l
  | none => defaults

/-- The client id of the request after `Endpoint.parse_request` (endpoint.py:241-258). -/
def requestClient (r : AuthnReq) : Option AuthInfo → Option Str
  | none => r.clientId
  | some i => match i.clientId with
    | some c => some c
    | none => r.clientId

/-- `RegistrationRead.get_client_id_from_token` (oidc/read_registration.py:18-25); `rat` is
`endpoint_context.registration_access_token`. -/
def regFromToken (rat : Str → Option Str) (r : AuthnReq) (token : Str) : Except Exn Str :=
  match r.clientId with
  | none => .ok []
  | some c => match rat token with
    | none => .error .keyError
    | some c' => if c = c' then .ok c else .ok []

/-- `RegistrationRead`: `parse_request` (endpoint.py:213-269) and `process_request` (oidc/read_registration.py:27-38): the
record that is read.  Not modelled: which entries of the record are shown. -/
def registrationRead (lib : AuthnLib) (cdb : Cdb) (rat : Str → Option Str) (now : Int) (methods : List (Option AuthnMethod))
    (targets jtis : List Str) (r : AuthnReq) : List Str × Except Exn (Str × Client) :=
  match clientAuthentication lib cdb now methods targets (regFromToken rat r) jtis r with
  | (j, .error e) => (j, .error e)
  | (j, .ok i) => match requestClient r i with
    | none => (j, .error .keyError)
    | some c => match cdb c with
      | none => (j, .error .keyError)
      | some cl => (j, .ok (c, cl))

end Verif
