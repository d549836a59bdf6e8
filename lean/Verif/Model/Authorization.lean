import Verif.Model.Uri
import Verif.Model.AuthzHandling
import Verif.Model.Manager
/-! `oauth2/authorization.py`, `oauth2/pushed_authorization.py`, `oidc/authorization.py`: the authorization endpoint. -/
namespace Verif

/-- The outcome of a request-handling method: a value, an error message for the client, or an exception. -/
inductive Out (α : Type) where
  | val (a : α)
  | errMsg (error : Str)
  | raise (e : Exn)
deriving DecidableEq, Repr

/-- PKCE configuration (oidc/add_on/pkce.py:131-164): whether it is required, and the transforms by method name; a transform
may raise (a verifier that is not ASCII). -/
structure Pkce where
  essential : Bool
  methods : Dict (Str → Except Exn Str)

/-- Pushed requests by their URN (`endpoint_context.par_db`). -/
abbrev ParDb := Str → Option AuthReq

/-- Configuration of the provider as far as the endpoints use it.  `fetch client uri req` stands for fetching and
verifying a request object and copying its parameters over the request (oauth2/authorization.py:360-393); it may raise. -/
structure Env where
  lib : UriLib
  parEnabled : Bool
  fetch : Str → Str → AuthReq → Except Exn AuthReq
  oidc : Bool
  pkce : Option Pkce
  denyUnknown : Bool
  scopesSupported : List Str
  gc : AuthzConfig
  ccfg : ClaimsCfg
  sf : SubFuncs
  cr : TokenCrypto
  th : TokenHandler

/-- Equality of the sets of elements of two lists. -/
def sameSet (a b : List Str) : Bool := (a.all fun x => b.contains x) && (b.all fun x => a.contains x)

/-- `verify_response_type` (oauth2/authorization.py:300-309). -/
def verifyResponseType (req : AuthReq) (c : Client) : Bool :=
  let registered := c.responseTypes.map fun rt => pySplit [' '] rt
  let registered := if registered.isEmpty then [[c!"code"]] else registered
  registered.any fun r => sameSet req.responseType r

/-- `_do_request_uri` (oauth2/authorization.py:334-395). `"urn:uuid:"` request URIs are looked up, and removed, in the
pushed requests if that endpoint is configured; all others are fetched, provided they are among the registered ones if
any are registered. -/
def doRequestUri (env : Env) (cdb : Cdb) (client : Str) (par : ParDb) (req : AuthReq) : ParDb × Out AuthReq :=
  match req.requestUri with
  | none => (par, .val req)
  | some [] => (par, .val req)
  | some uri =>
    if env.parEnabled ∧ c!"urn:uuid:".isPrefixOf uri then
      match par uri with
      | some r => ((fun k => if k = uri then none else par k), .val r)
      | none => (par, .raise .valueError)
    else match cdb client with
      | none => (par, .raise .keyError)
      | some c =>
        if c.requestUris ≠ [] ∧ (pySplit ['#'] uri).head? ∉ c.requestUris.map some then (par, .raise .valueError)
        else match env.fetch client uri req with
          | .error e => (par, .raise e)
          | .ok r => (par, .val r)

/-- The exceptions `_post_parse_request` turns into an error message (oauth2/authorization.py:434). -/
def uriErrCaught (e : Exn) : Bool := e == .redirectURIError || e == .parameterError || e == .unknownClient

/-- `_post_parse_request` (oauth2/authorization.py:397-442). -/
def postParse (env : Env) (cdb : Cdb) (client : Str) (par : ParDb) (req : AuthReq) : ParDb × Out AuthReq :=
  match cdb client with
  | none => (par, .errMsg c!"unauthorized_client")
  | some c =>
    if verifyResponseType req c = false then (par, .errMsg c!"invalid_request")
    else match getUri env.lib cdb .redirect req.clientId req.redirectUri with
      | .error e => (par, if uriErrCaught e then .errMsg c!"invalid_request" else .raise e)
      | .ok u => (par, .val { req with redirectUri := some u })

/-- `post_authn_parse` (oidc/add_on/pkce.py:31-68). -/
def pkceParse (p : Pkce) (req : AuthReq) : Out AuthReq :=
  if p.essential ∧ req.codeChallenge = none then .errMsg c!"invalid_request"
  else
    let m := req.codeChallengeMethod.getD c!"plain"
    if req.codeChallenge ≠ none ∧ p.methods.has m = false then .errMsg c!"invalid_request"
    else .val { req with codeChallengeMethod := some m }

/-- A step of request parsing. -/
abbrev ParseStep := ParDb → AuthReq → ParDb × Out AuthReq

/-- `do_post_parse_request` (endpoint.py:291-298): run the steps until one gives an error message (or raises). -/
def runSteps : List ParseStep → ParDb → AuthReq → ParDb × Out AuthReq
  | [], par, req => (par, .val req)
  | f :: fs, par, req =>
    match f par req with
    | (par', .val r) => runSteps fs par' r
    | (par', .errMsg e) => (par', .errMsg e)
    | (par', .raise e) => (par', .raise e)

/-- The steps of the authorization endpoint (oauth2/authorization.py:287-291; oidc/authorization.py:97-101, where both are
appended a second time; pkce.py:139). -/
def authzSteps (env : Env) (cdb : Cdb) (client : Str) : List ParseStep :=
  let two := [doRequestUri env cdb client, postParse env cdb client]
  two ++ (if env.oidc then two else []) ++ (match env.pkce with
    | some p => [fun par req => (par, pkceParse p req)]
    | none => [])

/-- `parse_request` of the authorization endpoint after client authentication and message verification (endpoint.py:
191-260): there is no client authentication, so the client id is the request's. -/
def authzParse (env : Env) (cdb : Cdb) (par : ParDb) (req : AuthReq) : ParDb × Out AuthReq :=
  runSteps (authzSteps env cdb req.clientId) par req

/-- `parse_request` of the pushed authorization endpoint for a client that authenticated as `client`, or named itself
(endpoint.py:228-252: `req["client_id"]` is set to it); pushed_authorization.py:20-24. -/
def pushParse (env : Env) (cdb : Cdb) (par : ParDb) (client : Str) (req : AuthReq) : ParDb × Out AuthReq :=
  runSteps [doRequestUri env cdb client, postParse env cdb client, postParse env cdb client] par
    { req with clientId := client }

/-- `PushedAuthorization.process_request` (pushed_authorization.py:26-38): store the parsed request under a fresh URN. -/
def pushStore (par : ParDb) (urn : Str) (req : AuthReq) : ParDb := fun k => if k = urn then some req else par k

/-- `check_unknown_scopes_policy` (oauth2/authorization.py:251-263). -/
def checkScopes (env : Env) (c : Client) (req : AuthReq) : Bool :=
  let allowed := if c.allowedScopes.isEmpty then env.scopesSupported else c.allowedScopes
  req.scope.all fun s => !(env.denyUnknown && !allowed.contains s)

/-- What the authentication method found in the cookie (oauth2/authorization.py:487-521): nobody; a plain user id; or
a base64-encoded JSON object with an optional `uid` and `sid`. -/
inductive Ident where
  | nobody
  | plain (uid : Str)
  | decoded (uid sid : Option Str)
deriving DecidableEq, Repr

/-- The inputs of `setup_auth` that come from the authentication method and the request's hints. -/
structure AuthnIn where
  ident : Ident
  ts : Int := 0
  acr : Str := []
  expiresIn : Option Int := none
  reqUser : Option Str := none
  reAuth : Bool := false

/-- What `setup_auth` decides: show the login page, report an error, or go on with a session. -/
inductive Setup where
  | login
  | loginRequired
  | session (sid user : Str)
deriving DecidableEq, Repr

/-- `create_authn_event(uid, authn_info=acr, time_stamp=ts)` (authn_event.py:30-67) as called at
oauth2/authorization.py:582-586: the function looks for `timestamp`, so `ts` is not used. -/
def createAuthnEvent (now : Int) (uid acr : Str) (_ts : Int) : AuthnEvent where
  uid := uid
  authnInfo := acr
  authnTime := now
  validUntil := now + 3600

/-- `get_authentication_event` (session/manager.py:270-272, 349-355). -/
def getAuthnEvent (s : Store) (sid : Str) : Except Exn (Option AuthnEvent) :=
  match unpack3 sid with
  | .error e => .error e
  | .ok (u, c, g) => match dbGet s [u, c, g] with
    | .error e => .error e
    | .ok (.info _) => .error .attributeError
    | .ok (.grant gr) => .ok gr.authnEvent

/-- `authn_event.is_valid()` (authn_event.py:19-23); `None` has no such method. -/
def eventValid (now : Int) : Option AuthnEvent → Except Exn Bool
  | none => .error .attributeError
  | some e => .ok (decide (e.validUntil > now))

/-- The last part of `setup_auth` when there is no session in the cookie (oauth2/authorization.py:581-599). -/
def startSession (env : Env) (cdb : Cdb) (s : Store) (now : Int) (gid : Str) (req : AuthReq) (a : AuthnIn) (uid : Str) :
    Store × Out Setup :=
  let ev := createAuthnEvent now uid a.acr a.ts
  let ev := match a.expiresIn with
    | some e => if e = 0 then ev else { ev with validUntil := now + e }
    | none => ev
  let r := createSession env.sf s now gid uid req.clientId
    { authnEvent := some ev, authReq := req, usageRules := usageRulesOf env.gc cdb req.clientId }
  match r.2 with
  | .error e => (r.1, .raise e)
  | .ok sid => (r.1, .val (.session sid uid))

/-- What `setup_auth` answers when the user has to log in (oauth2/authorization.py:531-541, 547-563). -/
def needLogin (req : AuthReq) : Setup := if c!"none" ∈ req.prompt then .loginRequired else .login

/-- `setup_auth` (oauth2/authorization.py:466-601).  `gid` is the id of a grant if one is created. -/
def setupAuth (env : Env) (cdb : Cdb) (s : Store) (now : Int) (gid : Str) (req : AuthReq) (a : AuthnIn) :
    Store × Out Setup :=
  match a.ident with
  | .nobody => (s, .val (needLogin req))
  | .plain uid =>
    if a.reAuth then (s, .val .login)
    else if a.reqUser.isSome ∧ a.reqUser ≠ some uid then (s, .val (needLogin req))
    else startSession env cdb s now gid req a uid
  | .decoded uid sid =>
    match sid with
    | none => (s, .raise .attributeError)
    | some sid =>
      match mgrGet s sid with
      | .error e => (s, .raise e)
      | .ok (.info _) => (s, .raise .attributeError)
      | .ok (.grant g0) =>
        if g0.isActive now = false then (s, .val (needLogin req))
        else if a.reAuth then (s, .val .login)
        else match uid with
        | none => (s, .raise .keyError)
        | some uid =>
          if a.reqUser.isSome ∧ a.reqUser ≠ some uid then (s, .val (needLogin req))
          else match unpack3 sid with
          | .error e => (s, .raise e)
          | .ok (_, c, _) =>
            if req.clientId ≠ c then (s, .val .login)
            else
              let r : Store × Out Str :=
                if g0.authReq = some req then (s, .val sid)
                else match eventValid now g0.authnEvent with
                  | .error e => (s, .raise e)
                  | .ok false => (s, .errMsg [])
                  | .ok true =>
                    let r := createGrant env.sf s now gid uid req.clientId { authnEvent := g0.authnEvent, authReq := req }
                    match r.2 with
                    | .error e => (r.1, .raise e)
                    | .ok sid' => (r.1, .val sid')
              match r.2 with
              | .raise e => (r.1, .raise e)
              | .errMsg _ => (r.1, .val .login)
              | .val sid' =>
                match getAuthnEvent r.1 sid' with
                | .error e => (r.1, .raise e)
                | .ok ev => match eventValid now ev with
                  | .error e => (r.1, .raise e)
                  | .ok false => (r.1, .val .login)
                  | .ok true => (r.1, .val (.session sid' uid))

/-! ### The response -/

/-- Randomness and side computations for minting one token: the handler's random part and nonce, the token's id, whether
computing the payload (session/grant.py:157-179) raises, and a user claim of the payload named "ttype", which ends up as
the handler's argument of that name (session/grant.py:223-226).  `Model/Payload.lean` has the computation. -/
structure MintIn where
  rnd : Str
  nonce : Str
  id : Str
  payload : Except Exn Unit := .ok ()
  ttype : Str := []

/-- The value of a token minted with handler `h` (session/grant.py:223-231). A handler that is not configured is a
`KeyError`. -/
def tokenString (env : Env) (h : Option Handler) (now : Int) (m : MintIn) (sid : Str) : Except Exn Str :=
  match m.payload with
  | .error e => .error e
  | .ok () => match h with
    | none => .error .keyError
    | some h => .ok (handlerCall env.cr h now m.rnd m.nonce sid m.ttype)

/-- Set the expiry time of the last token. -/
def setLastExpiry (exp : Int) (l : List Token) : List Token :=
  match l.getLast? with
  | none => l
  | some t => l.dropLast ++ [{ t with expiresAt := exp }]

/-- `mint_token` of the authorization endpoint (oauth2/authorization.py:311-332) and `_mint_token` of the token endpoint
(oidc/token.py:50-78), which differ only in the handler; the changed grant is stored.  If the grant is not active
`mint_token` returns `None` and the next attribute access raises `AttributeError`. -/
def mintAndStore (env : Env) (h : Option Handler) (s : Store) (now : Int) (m : MintIn) (sid tokenType : Str) (g : Grant)
    (basedOn : Option Token) : Store × Grant × Except Exn Token :=
  let rules := (g.usageRules.get? tokenType).getD {}
  let r := g.mintToken now m.id tokenType basedOn (some rules) [] {} (tokenString env h now m sid)
  match r.2 with
  | .error e => (s, r.1, .error e)
  | .ok none => (s, r.1, .error .attributeError)
  | .ok (some t) =>
    let e := rules.expiresIn.getD 0
    let g' : Grant := if e = 0 then r.1 else { r.1 with issuedToken := setLastExpiry (now + e) r.1.issuedToken }
    let t' : Token := if e = 0 then t else { t with expiresAt := now + e }
    let w := mgrSet s sid (.grant g')
    match w.2 with
    | .error e => (w.1, g', .error e)
    | .ok () => (w.1, g', .ok t')

/-- The parameters of an authorization response that carry anything. -/
structure RespArgs where
  state : Option Str := none
  scope : List Str := []
  code : Option Str := none
  accessToken : Option Str := none
  idToken : Option Str := none
  expiresIn : Option Int := none
deriving DecidableEq, Repr

/-- The state put in the response: `if request.get("state")` (oauth2/authorization.py:652-653), an empty one is left out. -/
def returnedState (req : AuthReq) : Option Str := if req.state = some [] then none else req.state

/-- The part of `create_authn_response` that mints the code (oauth2/authorization.py:675-684). -/
def codePart (env : Env) (s : Store) (now : Int) (mc : MintIn) (sid : Str) (g : Grant) (req : AuthReq) :
    Store × Grant × Except Exn (Option Token) :=
  if c!"code" ∈ req.responseType then
    let r := mintAndStore env env.th.code s now mc sid tAuthorizationCode g none
    (r.1, r.2.1, r.2.2.map some)
  else (s, g, .ok none)

/-- The part of `create_authn_response` that mints the access token (oauth2/authorization.py:686-703). -/
def tokenPart (env : Env) (s : Store) (now : Int) (ma : MintIn) (sid : Str) (g : Grant) (code : Option Token)
    (req : AuthReq) : Store × Grant × Except Exn (Option Token) :=
  if c!"token" ∈ req.responseType then
    let r := mintAndStore env env.th.accessToken s now ma sid tAccessToken g code
    (r.1, r.2.1, r.2.2.map some)
  else (s, g, .ok none)

/-- The part of `create_authn_response` that makes the ID token (oauth2/authorization.py:705-727). `idt` is the outcome
of `idtoken.make` (an error message stands for a signing failure).  `_mngr.update` writes back the client record; its
`id_token` entry is not modelled. -/
def idTokenPart (s : Store) (idt : Out Str) (sid : Str) (req : AuthReq) : Store × Out (Option Str) :=
  if c!"id_token" ∈ req.responseType then
    match idt with
    | .raise e => (s, .raise e)
    | .errMsg _ => (s, .errMsg c!"invalid_request")
    | .val i =>
      match unpack3 sid with
      | .error e => (s, .raise e)
      | .ok (u, c, _) => match dbGet s [u, c] with
        | .error e => (s, .raise e)
        | .ok o =>
          let w := dbSet s [u, c] o
          match w.2 with
          | .error e => (w.1, .raise e)
          | .ok () => (w.1, .val (some i))
  else (s, .val none)

/-- `create_authn_response` (oauth2/authorization.py:643-735): the response, or an error message, with the
`fragment_enc` flag.  Nothing is written back when something raises, except what was stored before. -/
def createAuthnResponse (env : Env) (s : Store) (now : Int) (mc ma : MintIn) (idt : Out Str) (req : AuthReq) (sid : Str) :
    Store × Except Exn (Out RespArgs × Bool) :=
  if req.responseType = [c!"none"] then (s, .ok (.val { state := returnedState req }, false))
  else match getGrant s sid with
  | .error e => (s, .error e)
  | .ok g =>
    let frag := !(sameSet req.responseType [c!"code"])
    let r1 := codePart env s now mc sid g req
    match r1.2.2 with
    | .error e => (r1.1, .error e)
    | .ok code =>
      let r2 := tokenPart env r1.1 now ma sid r1.2.1 code req
      match r2.2.2 with
      | .error e => (r2.1, .error e)
      | .ok tok =>
        let r3 := idTokenPart r2.1 idt sid req
        match r3.2 with
        | .raise e => (r3.1, .error e)
        | .errMsg m => (r3.1, .ok (.errMsg m, frag))
        | .val i =>
          if req.responseType.all (fun t => [c!"code", c!"token", c!"id_token"].contains t) then
            (r3.1, .ok (.val { state := returnedState req, scope := req.scope, code := code.map (·.value),
                               accessToken := tok.map (·.value), idToken := i,
                               expiresIn := tok.bind fun t => if t.expiresAt = 0 then none else some (t.expiresAt - now) }, frag))
          else (r3.1, .ok (.errMsg c!"invalid_request", frag))

/-- Where a response goes: encoded in the query or the fragment of the redirect URI, or as a form in the body. -/
inductive Placement where
  | query
  | fragment
  | formPost
deriving DecidableEq, Repr

/-- `response_mode` (oauth2/authorization.py:606-634) given the `fragment_enc` flag; `none` is "no response_mode". -/
def responseMode (mode : Option Str) (frag : Bool) : Except Exn Placement :=
  let dflt := if frag then Placement.fragment else .query
  match mode with
  | none => .ok dflt
  | some m =>
    if m = c!"form_post" then .ok .formPost
    else if m = c!"fragment" then (if frag then .ok .fragment else .error .invalidRequest)
    else if m = c!"query" then (if frag then .error .invalidRequest else .ok .query)
    else .error .invalidRequest

/-- What the browser finally gets: parameters (or an error), where, and to which URI (if known). -/
structure AuthzReply where
  content : Out RespArgs
  placement : Placement
  uri : Option Str
deriving DecidableEq, Repr

/-- An error reply without redirect URI. -/
def errReply (e : Str) : AuthzReply := { content := .errMsg e, placement := .query, uri := none }

/-- `post_authentication` and `authz_part2` (oauth2/authorization.py:737-815, 829-904): authorization decision, tokens,
redirect URI, response mode.  Exceptions become `server_error`; a wrong response mode or redirect URI turns the reply into an error.
Simplification: `check_session_iframe` is not configured, so no session state is added; cookies are left out here. -/
def authzPart2 (env : Env) (cdb : Cdb) (s : Store) (now : Int) (mc ma : MintIn) (idt : Out Str) (req : AuthReq)
    (sid : Str) : Cdb × Store × AuthzReply :=
  match getGrant s sid with
  | .error _ => (cdb, s, errReply c!"access_denied")
  | .ok g =>
    match unpack3 sid with
    | .error _ => (cdb, s, errReply c!"access_denied")
    | .ok (u, c, gi) =>
      let a := authzCall env.gc env.ccfg cdb now c g req
      match a.2 with
      | .error _ => (a.1, s, errReply c!"access_denied")
      | .ok g' =>
        let w := dbSet s [u, c, gi] (.grant g')
        match w.2 with
        | .error _ => (a.1, w.1, errReply c!"server_error")
        | .ok () =>
          let r := createAuthnResponse env w.1 now mc ma idt req sid
          match r.2 with
          | .error _ => (a.1, r.1, errReply c!"server_error")
          | .ok (content, frag) =>
            let dflt := if frag then Placement.fragment else .query
            match getUri env.lib a.1 .redirect req.clientId req.redirectUri with
            | .error e => (a.1, r.1, if e == .redirectURIError || e == .parameterError
                then { content := .errMsg c!"invalid_request", placement := dflt, uri := none }
                else errReply c!"server_error")
            | .ok uri =>
              match responseMode req.responseMode frag with
              | .error _ => (a.1, r.1, { content := .errMsg c!"invalid_request", placement := dflt, uri := some uri })
              | .ok pl => (a.1, r.1, { content := content, placement := pl, uri := some uri })

/-- The answers of the authorization endpoint. -/
inductive AuthzAnswer where
  | login
  | reply (r : AuthzReply)
  | error (e : Str)
  | raise (e : Exn)
deriving DecidableEq, Repr

/-- `process_request` (oauth2/authorization.py:909-953) on a parsed request. -/
def authzProcess (env : Env) (cdb : Cdb) (s : Store) (now : Int) (gid : Str) (mc ma : MintIn) (idt : Out Str)
    (a : AuthnIn) (req : AuthReq) : Cdb × Store × AuthzAnswer :=
  match cdb req.clientId with
  | none => (cdb, s, .raise .keyError)
  | some c =>
    if checkScopes env c req = false then (cdb, s, .raise .unAuthorizedClient)
    else
      let r := setupAuth env cdb s now gid req a
      match r.2 with
      | .raise e => (cdb, r.1, .raise e)
      | .errMsg e => (cdb, r.1, .error e)
      | .val .login => (cdb, r.1, .login)
      | .val .loginRequired => (cdb, r.1, .error c!"login_required")
      | .val (.session sid _) =>
        let p := authzPart2 env cdb r.1 now mc ma idt req sid
        (p.1, p.2.1, .reply p.2.2)

/-- A request at the authorization endpoint: parsed, and processed unless that gave an error message, which is the answer
then (endpoint.py:291-298, oauth2/authorization.py:916-917). -/
def authzEndpoint (env : Env) (cdb : Cdb) (par : ParDb) (s : Store) (now : Int) (gid : Str) (mc ma : MintIn)
    (idt : Out Str) (a : AuthnIn) (req : AuthReq) : ParDb × Cdb × Store × AuthzAnswer :=
  match authzParse env cdb par req with
  | (par', .val r) => (par', authzProcess env cdb s now gid mc ma idt a r)
  | (par', .errMsg e) => (par', cdb, s, .error e)
  | (par', .raise e) => (par', cdb, s, .raise e)

/-- What happens to the pushed requests: a client pushes one (which is stored under the fresh `urn` if it parses), or an
authorization request is parsed. -/
inductive ParOp where
  | push (cdb : Cdb) (client : Str) (req : AuthReq) (urn : Str)
  | authorize (cdb : Cdb) (req : AuthReq)

/-- One step (pushed_authorization.py:20-38, endpoint.py:191-298). -/
def parStep (env : Env) (par : ParDb) : ParOp → ParDb
  | .push cdb client req urn => match pushParse env cdb par client req with
    | (par', .val r) => pushStore par' urn r
    | (par', _) => par'
  | .authorize cdb req => (authzParse env cdb par req).1

end Verif
