import Verif.Model.Manager
import Verif.Model.Uri
import Verif.Model.Cookie
import Verif.Model.ClientAuthn
/-! `oidc/session.py`: logout. -/
namespace Verif

/-- What logout uses from outside: the issuer, the signed logout token for a client and session id (session.py:119-141; may
raise, for instance if the client record has no `client_id`), and the URL functions of `do_front_channel_logout_iframe`
(session.py:53-60): the URL without its query, the query, and `urlencode`. -/
structure LogoutEnv where
  issuer : Str
  logoutToken : Client → Str → Except Exn Str
  cutQuery : Str → Str × Query
  urlencode : Query → Str

/-- `do_front_channel_logout_iframe` (oidc/session.py:35-69) for a client with a front-channel logout URI. -/
def logoutIframe (env : LogoutEnv) (sessionRequired : Bool) (uri sid : Str) : Str :=
  if sessionRequired then
    let q : Query := [(c!"iss", [env.issuer]), (c!"sid", [sid])]
    if '?' ∈ uri then
      c!"<iframe src=\"" ++ (env.cutQuery uri).1 ++ '?' :: env.urlencode (Dict.update (env.cutQuery uri).2 q) ++ c!"\">"
    else c!"<iframe src=\"" ++ uri ++ '?' :: env.urlencode q ++ c!"\">"
  else c!"<iframe src=\"" ++ uri ++ c!"\">"

/-- How a client is told: a logout token to send to a URI, or an iframe. -/
inductive LogoutCall where
  | back (uri token : Str)
  | front (iframe : Str)
deriving DecidableEq, Repr

/-- How to tell one client (oidc/session.py:161-173, 205-215); `none` if the client has no logout URI.  A client record is
`cdb[client_id]`. -/
def logoutCall (env : LogoutEnv) (c : Client) (sid : Str) : Except Exn (Option LogoutCall) :=
  match c.backchannelLogoutUri with
  | some uri => match env.logoutToken c sid with
    | .error e => .error e
    | .ok t => .ok (some (.back uri t))
  | none => match c.frontchannelLogoutUri with
    | some uri => .ok (some (.front (logoutIframe env c.frontchannelLogoutSessionRequired uri sid)))
    | none => .ok none

/-- `clean_sessions` (oidc/session.py:143-146). -/
def cleanSessions (s : Store) : List Str → Store × Except Exn Unit
  | [] => (s, .ok ())
  | sid :: l =>
    let r := revokeClientSession s sid
    match r.2 with
    | .error e => (r.1, .error e)
    | .ok () => cleanSessions r.1 l

/-- Putting a call into `bc_logouts` or `fc_iframes`, which are one list here (oidc/session.py:166, 172, 207, 213). -/
def addCall (c : Str) (o : Option LogoutCall) (r : Dict LogoutCall) : Dict LogoutCall :=
  match o with
  | some x => (c, x) :: r
  | none => r

/-- The loop of `logout_all_clients` (oidc/session.py:160-173): which clients are told how. -/
def logoutCalls (env : LogoutEnv) (cdb : Cdb) (u : Str) : List Str → Except Exn (Dict LogoutCall)
  | [] => .ok []
  | c :: cs => match cdb c with
    | none => .error .keyError
    | some cl => match logoutCall env cl (sessionKey [u, c]) with
      | .error e => .error e
      | .ok o => match logoutCalls env cdb u cs with
        | .error e => .error e
        | .ok r => .ok (addCall c o r)

/-- `logout_all_clients` (oidc/session.py:148-182).  `_rel_sid` has the session keys of the clients that are told. -/
def logoutAllClients (env : LogoutEnv) (cdb : Cdb) (s : Store) (sid : Str) : Store × Except Exn (Dict LogoutCall) :=
  match unpack3 sid with
  | .error e => (s, .error e)
  | .ok (u, c, _) => match dbGet s [u] with
    | .error e => (s, .error e)
    | .ok ui => match dbGet s [u, c] with
      | .error e => (s, .error e)
      | .ok _ => match ui.subordinate with
        | .error e => (s, .error e)
        | .ok clients => match logoutCalls env cdb u clients with
          | .error e => (s, .error e)
          | .ok calls =>
            let r := cleanSessions s (calls.map fun p => sessionKey [u, p.1])
            match r.2 with
            | .error e => (r.1, .error e)
            | .ok () => (r.1, .ok calls)

/-- `logout_from_client` (oidc/session.py:198-218). -/
def logoutFromClient (env : LogoutEnv) (cdb : Cdb) (s : Store) (sid : Str) : Store × Except Exn (Dict LogoutCall) :=
  match unpack3 sid with
  | .error e => (s, .error e)
  | .ok (u, c, g) => match dbGet s [u, c, g] with
    | .error e => (s, .error e)
    | .ok _ => match cdb c with
      | none => (s, .error .keyError)
      | some cl => match logoutCall env cl sid with
        | .error e => (s, .error e)
        | .ok o =>
          let r := cleanSessions s [sid]
          match r.2 with
          | .error e => (r.1, .error e)
          | .ok () => (r.1, .ok (addCall c o []))

/-- The loop of `do_verified_logout` over the back-channel calls (oidc/session.py:371-389): the clients that were sent a
logout token, in order.  The status of the answer is only logged; an exception of the HTTP client ends the loop. -/
def postAll (post : Str → Str → Except Exn Unit) : Dict LogoutCall → List Str × Except Exn Unit
  | [] => ([], .ok ())
  | (_, .front _) :: r => postAll post r
  | (c, .back uri t) :: r => match post uri t with
    | .error e => ([], .error e)
    | .ok () =>
      let x := postAll post r
      (c :: x.1, x.2)

/-- The iframes of the calls (oidc/session.py:391). -/
def iframes : Dict LogoutCall → List Str
  | [] => []
  | (_, .front f) :: r => f :: iframes r
  | (_, .back _ _) :: r => iframes r

/-- `do_verified_logout` (oidc/session.py:365-391): the storage, the clients told by back channel, and the iframes. -/
def doVerifiedLogout (env : LogoutEnv) (cdb : Cdb) (post : Str → Str → Except Exn Unit) (s : Store) (sid : Str) (alla : Bool) :
    Store × List Str × Except Exn (List Str) :=
  let r := if alla then logoutAllClients env cdb s sid else logoutFromClient env cdb s sid
  match r.2 with
  | .error e => (r.1, [], .error e)
  | .ok calls =>
    let x := postAll post calls
    match x.2 with
    | .error e => (r.1, x.1, .error e)
    | .ok () => (r.1, x.1, .ok (iframes calls))

/-! ### The end-session request -/

/-- The claims of an ID token used as hint. -/
structure Hint where
  alg : Str
  aud : List Str
  sub : Str
deriving DecidableEq, Repr

/-- An end-session request: `hint` is the string `id_token_hint`. -/
structure EndReq where
  clientId : Option Str := none
  hint : Option Str := none
  postLogoutRedirectUri : Option Str := none
  state : Option Str := none
deriving DecidableEq, Repr

/-- What end-session processing uses from outside: verification of an ID token with the key jar (`none` is an exception),
the supported signing algorithms, the cookie keys, base64 and JSON decoding of the cookie's value with its "sid" entry
(`.ok none` if there is none), the URL library, `urlencode`, the issuer and the default post-logout path. -/
structure EndEnv where
  unpackHint : Str → Option Hint
  supportedAlgs : List Str
  ccr : CookieCrypto
  dealer : CookieDealer
  decodeSid : Str → Except Exn (Option Str)
  lib : UriLib
  issuer : Str
  postLogoutUriPath : Str

/-- The client authentication in `Session.parse_request` (oidc/session.py:331-343, endpoint.py:284-321): the endpoint's name
is not passed on, so that `verify_client` tries no method at all. -/
def endAuthn (lib : AuthnLib) (cdb : Cdb) (now : Int) (methods : List (Option AuthnMethod)) (fromToken : Str → Except Exn Str)
    (jtis : List Str) (r : AuthnReq) : List Str × Except Exn (Option AuthInfo) :=
  match verifyClient lib cdb now [] [] fromToken jtis r with
  | (j, .error e) => (j, .error e)
  | (j, .ok none) => if methods = [] then (j, .ok none) else (j, .error .unAuthorizedClient)
  | (j, .ok (some i)) => (j, .ok (some i))

/-- `Session.parse_request` after client authentication (oidc/session.py:345-363), for a request given as a dictionary: the
verified hint.  A hint that does not verify raises in the library (here `VerificationError`), as does an unsupported
algorithm (`JWSException` in the code). -/
def endParse (env : EndEnv) (req : EndReq) : Except Exn (Option Hint) :=
  match req.hint with
  | none => .ok none
  | some h => match env.unpackHint h with
    | none => .error .verificationError
    | some t => if t.alg ∈ env.supportedAlgs then .ok (some t) else .error .verificationError

/-- What the page that asks for confirmation is told, in a JWT signed by the provider (oidc/session.py:293-302). -/
structure EndPayload where
  sid : Str
  state : Option Str
  redirectUri : Str
deriving DecidableEq, Repr

/-- The session named by the session cookie (oidc/session.py:237-258); `raw` is the cookie sent under the name of the session
cookie. -/
def endSession (env : EndEnv) (s : Store) (raw : Option Str) : Except Exn (Str × Str × Obj) :=
  let part : Except Exn (Option (Str × Str × Str)) := match raw with
    | none => .ok none
    | some r => getCookieValue env.ccr env.dealer r
  match part with
  | .error e =>
    if e = .indexError then .error .invalidRequest
    else if e.isKeyError || e == .attributeError then .error .valueError
    else .error e
  | .ok none => .error .valueError
  | .ok (some (v, _, _)) => match env.decodeSid v with
    | .error e => .error e
    | .ok none => .error .valueError
    | .ok (some sid) => match unpack3 sid with
      | .error e => .error e
      | .ok (u, c, g) => match dbGet s [u, c, g] with
        | .error e => if e.isKeyError then .error .valueError else .error e
        | .ok o => .ok (sid, c, o)

/-- The comparison of the hint with the session (oidc/session.py:260-273). -/
def hintCheck (c : Str) (o : Obj) : Option Hint → Except Exn Unit
  | none => .ok ()
  | some t =>
    if c ∉ t.aud then .error .valueError
    else match o with
    | .info _ => .error .attributeError
    | .grant g => if t.sub = g.sub then .ok () else .error .valueError

/-- The default post-logout URI (oidc/session.py:280-287). -/
def defaultPostLogout (env : EndEnv) : Str :=
  if env.issuer.getLast? = some '/' then env.issuer ++ env.postLogoutUriPath
  else env.issuer ++ '/' :: env.postLogoutUriPath

/-- The end of `Session.process_request` (oidc/session.py:279-302): the URI to go to after logout, verified, with the state
appended. -/
def endTarget (env : EndEnv) (cdb : Cdb) (req : EndReq) (sid c : Str) : Except Exn EndPayload :=
  match req.postLogoutRedirectUri with
  | none => .ok ⟨sid, none, defaultPostLogout env⟩
  | some uri => match verifyUri env.lib cdb .postLogout req.clientId (some c) (some uri) with
    | .error e => .error e
    | .ok () => match req.state with
      | none => .ok ⟨sid, none, uri⟩
      | some st => .ok ⟨sid, some st, uri ++ '?' :: env.lib.urlencode [(c!"state", [st])]⟩

/-- `Session.process_request` (oidc/session.py:220-317) up to the signing of the payload; `hint` is the verified ID token. -/
def endProcess (env : EndEnv) (cdb : Cdb) (s : Store) (raw : Option Str) (req : EndReq) (hint : Option Hint) :
    Except Exn EndPayload :=
  if req.postLogoutRedirectUri.isSome = true ∧ req.hint = none then .error .invalidRequest
  else match endSession env s raw with
  | .error e => .error e
  | .ok (sid, c, o) => match hintCheck c o hint with
    | .error e => .error e
    | .ok () => match cdb c with
      | none => .error .keyError
      | some _ => endTarget env cdb req sid c

/-- Both steps, for a request that passed client authentication. -/
def endSessionEndpoint (env : EndEnv) (cdb : Cdb) (s : Store) (raw : Option Str) (req : EndReq) : Except Exn EndPayload :=
  match endParse env req with
  | .error e => .error e
  | .ok hint => endProcess env cdb s raw req hint

end Verif
