import Verif.Model.Authorization
/-! `id_token.py`: what goes into an ID token and how it is signed; and the form of a userinfo response. -/
namespace Verif

/-- The provider's settings that decide algorithms: `jwx_def` (by purpose and payload type) and the lists of
`provider_info` named "<payload type>_<purpose>_values_supported". -/
structure AlgCfg where
  jwxDef : Dict (Dict Str)
  supported : Dict (List Str)

/-- `DEF_SIGN_ALG` (id_token.py:14-20). -/
def defSignAlg : Dict Str :=
  [(c!"id_token", c!"RS256"), (c!"userinfo", c!"RS256"), (c!"request_object", c!"RS256"), (c!"client_secret_jwt", c!"HS256"),
   (c!"private_key_jwt", c!"RS256")]

/-- The result of `get_sign_and_encrypt_algorithms`. -/
structure AlgArgs where
  sign : Bool
  encrypt : Bool
  signAlg : Option Str := none
  encAlg : Option Str := none
  encEnc : Option Str := none
deriving DecidableEq, Repr

/-- `_supported[0]` of a list of `provider_info`; a missing list is a `KeyError`, an empty one an `IndexError`. -/
def firstSupported (cfg : AlgCfg) (key : Str) : Except Exn Str :=
  match cfg.supported.get? key with
  | none => .error .keyError
  | some [] => .error .indexError
  | some (a :: _) => .ok a

/-- The signing algorithm (id_token.py:56-75). -/
def signAlgFor (cfg : AlgCfg) (client : Dict Str) (pt : Str) : Except Exn Str :=
  match client.get? (pt ++ c!"_signed_response_alg") with
  | some a => .ok a
  | none => match (cfg.jwxDef.get? c!"signing_alg").bind (·.get? pt) with
    | some a => .ok a
    | none => match defSignAlg.get? pt with
      | none => .error .keyError
      | some d => match cfg.supported.get? (pt ++ c!"_signing_alg_values_supported") with
        | none => .error .keyError
        | some l => if d ∈ l then .ok d else firstSupported cfg (pt ++ c!"_signing_alg_values_supported")

/-- An encryption setting, `what` being "alg" or "enc" (id_token.py:77-101). -/
def encFor (cfg : AlgCfg) (client : Dict Str) (pt what : Str) : Except Exn Str :=
  match client.get? (pt ++ c!"_encrypted_response_" ++ what) with
  | some a => .ok a
  | none => match (cfg.jwxDef.get? (c!"encryption_" ++ what)).bind (·.get? pt) with
    | some a => .ok a
    | none => firstSupported cfg (pt ++ c!"_encryption_" ++ what ++ c!"_values_supported")

/-- `get_sign_and_encrypt_algorithms` (id_token.py:52-103); `client` are the algorithm entries of the client record. -/
def getAlgorithms (cfg : AlgCfg) (client : Dict Str) (pt : Str) (sign encrypt : Bool) : Except Exn AlgArgs :=
  let sa : Except Exn (Option Str) := if sign then (signAlgFor cfg client pt).map some else .ok none
  match sa with
  | .error e => .error e
  | .ok sa =>
    if encrypt then
      match encFor cfg client pt c!"alg" with
      | .error e => .error e
      | .ok ea => match encFor cfg client pt c!"enc" with
        | .error e => .error e
        | .ok ee => .ok ⟨sign, true, sa, some ea, some ee⟩
    else .ok ⟨sign, false, sa, none, none⟩

/-- The claims taken from the authentication event (id_token.py:143-149), if they are truthy. -/
def eventClaims : Option AuthnEvent → Dict Val
  | none => []
  | some e => (if e.authnTime ≠ 0 then [(c!"auth_time", Val.int e.authnTime)] else []) ++
      (if e.authnInfo ≠ [] then [(c!"acr", Val.str e.authnInfo)] else [])

/-- The names removed from the user info (id_token.py:170). -/
def idTokenReserved : List Str := [c!"iss", c!"sub", c!"aud", c!"exp", c!"acr", c!"nonce", c!"auth_time"]

/-- The test of the requested `acr` (id_token.py:158-160). -/
def acrCheck (args : Dict Val) (restr : Claims) : Except Exn Unit :=
  match restr.get? c!"acr", args.get? c!"acr" with
  | some spec, some v => match claimsMatch (some v) spec with
    | .error e => .error e
    | .ok false => .error .valueError
    | .ok true => .ok ()
  | _, _ => .ok ()

/-- `d[k] = v` if there is a (truthy) text to hash (id_token.py:184-188). -/
def addHash (lh : Str → Str → Str) (halg k : Str) (text : Option Str) (d : Dict Val) : Dict Val :=
  match text with
  | none => d
  | some t => if t = [] then d else Dict.set d k (.str (lh t halg))

/-- `_args["nonce"] = authn_req["nonce"]` (id_token.py:190-195). -/
def addNonce (ar : Option AuthReq) (d : Dict Val) : Dict Val :=
  match ar.bind AuthReq.nonce with
  | none => d
  | some n => Dict.set d c!"nonce" (.str n)

/-- `IDToken.payload` (id_token.py:119-197) for the grant `g` of the user `user`.  `lh text alg` is `left_hash`.
The deletion of names from the user info, a dictionary, is a filter here. -/
def idTokenPayload (lh : Str → Str → Str) (userDb : Str → Dict Val) (user : Str) (g : Grant) (alg : Str)
    (code accessToken : Option Str) (extra : Dict Val) : Except Exn (Dict Val) :=
  let args : Dict Val := (c!"sub", .str g.sub) :: eventClaims g.authnEvent
  let restr := (g.claims.get? c!"id_token").getD []
  match getUserClaims userDb user restr with
  | .error e => .error e
  | .ok ui => match acrCheck args restr with
    | .error e => .error e
    | .ok () =>
      let args := Dict.update args (ui.filter fun p => !(idTokenReserved.contains p.1))
      let args := Dict.update args extra
      let halg := c!"HS" ++ pyDrop (-3) alg
      .ok (addNonce g.authReq (addHash lh halg c!"at_hash" accessToken (addHash lh halg c!"c_hash" code args)))

/-- Whether the provider supports logout over a channel, with session ids (`provider_info`, id_token.py:33-42). -/
structure LogoutSupport where
  back : Bool
  front : Bool

/-- `include_session_id` for either channel (id_token.py:24-49, 253-254). -/
def wantsSessionId (ls : LogoutSupport) (cdb : Cdb) (client : Str) : Bool :=
  match cdb client with
  | none => false
  | some c => (ls.back && c.backchannelLogoutUri.isSome) || (ls.front && c.frontchannelLogoutUri.isSome)

/-- What is handed to the JWT library: algorithms, lifetime, audience and payload. -/
structure ToSign where
  algs : AlgArgs
  lifetime : Int
  aud : Str
  payload : Dict Val
deriving DecidableEq, Repr

/-- Configuration of the ID token module. -/
structure IdTokenCfg where
  algCfg : AlgCfg
  logout : LogoutSupport
  lifetime : Option Int := none
  leftHash : Str → Str → Str
  userDb : Str → Dict Val

/-- `IDToken.make` and `sign_encrypt` (id_token.py:199-277).  `uuid.uuid4().get_hex()` (line 258) does not exist in
Python 3: an `AttributeError`.  `lifetime` is the configured one, 300 seconds otherwise. -/
def idTokenMake (cfg : IdTokenCfg) (cdb : Cdb) (s : Store) (sid : Str) (code accessToken : Option Str) : Except Exn ToSign :=
  match unpack3 sid with
  | .error e => .error e
  | .ok (user, client, _) =>
    if wantsSessionId cfg.logout cdb client then .error .attributeError
    else match cdb client with
    | none => .error .keyError
    | some c => match getAlgorithms cfg.algCfg c.algs c!"id_token" true false with
      | .error e => .error e
      | .ok a => match getGrant s sid with
        | .error e => .error e
        | .ok g => match idTokenPayload cfg.leftHash cfg.userDb user g (a.signAlg.getD []) code accessToken [] with
          | .error e => .error e
          | .ok p => .ok ⟨a, cfg.lifetime.getD 300, client, p⟩

/-- Which tokens the authorization endpoint passes along (oauth2/authorization.py:706-712). -/
def hashArgs (req : AuthReq) (code tok : Option Token) : Option Str × Option Str :=
  (if c!"code" ∈ req.responseType then code.map (·.value) else none,
   if c!"token" ∈ req.responseType then tok.map (·.value) else none)

/-- The outcome of `idtoken.make` inside `create_authn_response` (oauth2/authorization.py:674-722): made after the code and
the access token were minted and stored.  `sign` is the JWT library: a string, a signing failure (an error message) or
another exception. -/
def idTokenOutcome (icfg : IdTokenCfg) (sign : ToSign → Out Str) (env : Env) (cdb : Cdb) (s : Store) (now : Int)
    (mc ma : MintIn) (req : AuthReq) (sid : Str) : Out Str :=
  match getGrant s sid with
  | .error e => .raise e
  | .ok g =>
    let r1 := codePart env s now mc sid g req
    match r1.2.2 with
    | .error e => .raise e
    | .ok code =>
      let r2 := tokenPart env r1.1 now ma sid r1.2.1 code req
      match r2.2.2 with
      | .error e => .raise e
      | .ok tok =>
        match idTokenMake icfg cdb r2.1 sid (hashArgs req code tok).1 (hashArgs req code tok).2 with
        | .error e => .raise e
        | .ok t => sign t

/-- `create_authn_response` (oauth2/authorization.py:643-735) with the ID token computed. -/
def createAuthnResponseFull (icfg : IdTokenCfg) (sign : ToSign → Out Str) (env : Env) (cdb : Cdb) (s : Store) (now : Int)
    (mc ma : MintIn) (req : AuthReq) (sid : Str) : Store × Except Exn (Out RespArgs × Bool) :=
  createAuthnResponse env s now mc ma (idTokenOutcome icfg sign env cdb s now mc ma req sid) req sid

/-- The form of a userinfo response (oidc/userinfo.py:64-100): signed and encrypted with these algorithms, or plain. -/
structure ResponseForm where
  sign : Option Str
  encrypt : Option (Str × Str)
deriving DecidableEq, Repr

/-- `UserInfo.do_response` (oidc/userinfo.py:54-104), the decision about signing and encryption: encryption needs both
entries. -/
def userinfoForm (client : Dict Str) : ResponseForm where
  sign := client.get? c!"userinfo_signed_response_alg"
  encrypt := match client.get? c!"userinfo_encrypted_response_enc", client.get? c!"userinfo_encrypted_response_alg" with
    | some e, some a => some (a, e)
    | _, _ => none

end Verif
