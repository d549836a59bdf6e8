import Verif.Model.Authorization
import Verif.Model.SubId
/-! From what an endpoint decided to what is sent: `endpoint.py` `do_response`, and `post_authentication` and `authz_part2`
of the authorization endpoint in full (`oauth2/authorization.py`), with cookies and session state. -/
namespace Verif

/-- A protocol message as name/value pairs; values as the strings they are sent as. -/
abbrev Message := Dict Str

/-- HTTP headers. -/
abbrev Headers := List (Str × Str)

/-- `OAUTH2_NOCACHE_HEADERS` (util.py:13). -/
def noCacheHeaders : Headers := [(c!"Pragma", c!"no-cache"), (c!"Cache-Control", c!"no-store")]

/-- The header name used everywhere (endpoint.py:64-69). -/
def hContentType : Str := c!"Content-type"

/-- The serialisations of the library's messages: `to_json()` and `to_urlencoded()`.  Not modelled further. -/
structure MsgLib where
  toJson : Message → Str
  toUrl : Message → Str

/-- `Message.request` of the message library (called at endpoint.py:446-448): the parameters in the fragment, or in the
query, which is extended if there is one already. -/
def requestUrl (lib : MsgLib) (m : Message) (loc : Str) (frag : Bool) : Str :=
  if frag then loc ++ '#' :: lib.toUrl m
  else if '?' ∈ loc then loc ++ '&' :: lib.toUrl m else loc ++ '?' :: lib.toUrl m

/-- `set_content_type` (endpoint.py:63-70); the flag says that the list given is returned itself, not a copy. -/
def setContentType (h : Headers) (ct : Str) : Headers × Bool :=
  if (hContentType, ct) ∈ h then (h, true)
  else (h.filter (fun p => p.1 ≠ hContentType) ++ [(hContentType, ct)], false)

/-- `fragment_encoding` (endpoint.py:73-77). -/
def fragmentEncoding (returnType : List Str) : Bool := if returnType = [c!"code"] then false else true

/-- The class attributes of an endpoint that say how it answers (endpoint.py:165-168). -/
structure EpStyle where
  placement : Str
  format : Str
  reqFormat : Str

/-- What is sent: a text, or (request formats jws, jwe, jose) the message object. -/
inductive Body where
  | text (s : Str)
  | message (m : Message)
deriving DecidableEq, Repr

/-- The keyword arguments of `do_response` (endpoint.py:381-480) that are used; `none` is "not given".  `cookie` is
passed on untouched. -/
structure RespKw where
  args : Message := []
  error : Str := []
  errorDescription : Option Str := none
  responseMsg : Option Str := none
  responsePlacement : Option Str := none
  contentType : Option Str := none
  fragmentEnc : Option Bool := none
  returnType : List Str := []
  returnUri : Option Str := none
  httpHeaders : Option Headers := none
  cookie : Option (List (Option Str)) := none

/-- What `do_response` returns; `callers` is the caller's header list afterwards. -/
structure Delivered where
  response : Option Body
  headers : Headers
  placement : Option Str
  cookie : Option (List (Option Str))
  callers : Option Headers
deriving DecidableEq, Repr

/-- The formats for which the message object is passed on (endpoint.py:418,433). -/
def joseFormats : List Str := [c!"jws", c!"jwe", c!"jose"]

/-- The content type of a ready-made message (endpoint.py:412-422). -/
def msgContentType (st : EpStyle) : Option Str → Str
  | some ct => ct
  | none =>
    if st.format = c!"json" then c!"application/json"
    else if st.reqFormat ∈ joseFormats then c!"application/jose"
    else c!"application/x-www-form-urlencoded"

/-- The fragment flag (endpoint.py:438-446). -/
def fragFlag (kw : RespKw) : Bool :=
  match kw.fragmentEnc with
  | some b => b
  | none => if kw.returnType = [] then false else fragmentEncoding kw.returnType

/-- The placement of a message (endpoint.py:426-454): content type and body.  With a `content_type` argument nothing is
rendered at all. -/
def placeMessage (lib : MsgLib) (st : EpStyle) (kw : RespKw) (m : Message) : Except Exn (Str × Option Body) :=
  match kw.contentType with
  | some ct => .ok (ct, none)
  | none =>
    if st.placement = c!"body" then
      if st.format = c!"json" then .ok (c!"application/json; charset=utf-8", some (.text (lib.toJson m)))
      else if st.reqFormat ∈ joseFormats then .ok (c!"application/jose; charset=utf-8", some (.message m))
      else .ok (c!"application/x-www-form-urlencoded", some (.text (lib.toUrl m)))
    else if st.placement = c!"url" then
      match kw.returnUri with
      | none => .error .keyError
      | some u => .ok ([], some (.text (requestUrl lib m u (fragFlag kw))))
    else .error .valueError

/-- The error message (endpoint.py:402-407). -/
def errorMessage (kw : RespKw) : Message :=
  [(c!"error", kw.error)] ++ (match kw.errorDescription with
    | some d => [(c!"error_description", d)]
    | none => [])

/-- The headers (endpoint.py:456-470), and the caller's list afterwards: it is extended itself unless a new list was made. -/
def respHeaders (ct : Str) (given : Option Headers) : Headers × Option Headers :=
  match given with
  | none => ((if ct = [] then [] else [(hContentType, ct)]) ++ noCacheHeaders, none)
  | some h =>
    let r := if ct = [] then (h, true) else setContentType h ct
    (r.1 ++ noCacheHeaders, some (if r.2 then r.1 ++ noCacheHeaders else h))

/-- `do_response` (endpoint.py:381-480).  `construct` is `response_info` (endpoint.py:356-379): the response class made
from the arguments, with the endpoint's hooks; it may raise. -/
def doResponse (lib : MsgLib) (st : EpStyle) (construct : Message → Except Exn Message) (kw : RespKw) :
    Except Exn Delivered :=
  let r : Except Exn (Str × Option Body × Option Str) :=
    if kw.error ≠ [] then (placeMessage lib st kw (errorMessage kw)).map fun p => (p.1, p.2, none)
    else match kw.responseMsg with
    | some page => .ok (msgContentType st kw.contentType, some (.text page), kw.responsePlacement)
    | none => match construct kw.args with
      | .error e => .error e
      | .ok m => (placeMessage lib st kw m).map fun p => (p.1, p.2, none)
  match r with
  | .error e => .error e
  | .ok (ct, body, pl) =>
    let h := respHeaders ct kw.httpHeaders
    .ok { response := body, headers := h.1, placement := if pl = some [] then none else pl, cookie := kw.cookie,
          callers := h.2 }

/-- `UserInfo.do_response` for a request without error (oidc/userinfo.py:54-107): headers only; `jwt` says whether the client
registered for a signed or encrypted answer. -/
def userinfoHeaders (jwt : Bool) : Headers :=
  (hContentType, if jwt then c!"application/jwt" else c!"application/json") :: noCacheHeaders

/-- The headers of `Discovery.do_response` (oidc/discovery.py:28-34). -/
def discoveryHeaders : Headers := [(hContentType, c!"application/json")]

/-! ### The authorization endpoint -/

/-- `FORM_POST.format(inputs=…, action=…)` (oauth2/authorization.py:58-80). -/
def formPage (args : Message) (action : Str) : Str :=
  c!"<html>\n  <head>\n    <title>Submit This Form</title>\n  </head>\n  <body onload=\"javascript:document.forms[0].submit()\">\n    <form method=\"post\" action=\"" ++
    action ++ c!"\">\n        " ++ formInputs args ++ c!"\n    </form>\n  </body>\n</html>"

/-- The parameter if it has a value. -/
def optParam (k : Str) : Option Str → Message
  | some v => [(k, v)]
  | none => []

/-- The parameters of a response (oauth2/authorization.py:651-727). -/
def argsMessage (a : RespArgs) : Message :=
  optParam c!"state" a.state ++ (if a.scope = [] then [] else [(c!"scope", pyJoin c!" " a.scope)]) ++
  optParam c!"code" a.code ++ optParam c!"access_token" a.accessToken ++
  optParam c!"token_type" (a.accessToken.map fun _ => c!"Bearer") ++ optParam c!"expires_in" (a.expiresIn.map intStr) ++ optParam c!"id_token" a.idToken

/-- The parameters of a reply: those of the response, or of the error message made by `error_response` or
`create_authn_response` (oauth2/authorization.py:636-641, 715-733), whose description is `d`. -/
def contentMessage (d : Str) : Out RespArgs → Message
  | .val a => argsMessage a
  | .errMsg e => [(c!"error", e), (c!"error_description", d)]
  | .raise _ => []

/-- The dictionary that `post_authentication` and `authz_part2` return (oauth2/authorization.py:737-904). -/
structure RespInfo where
  content : Out RespArgs
  args : Message
  frag : Option Bool := none
  uri : Option Str := none
  page : Option Str := none
  cookies : Option (List (Option Str)) := none
deriving DecidableEq, Repr

/-- `error_response(response_info, error, …)` (oauth2/authorization.py:636-641). -/
def errInfo (i : RespInfo) (e d : Str) : RespInfo :=
  { i with
    content := .errMsg e
    args := contentMessage d (.errMsg e : Out RespArgs) }

/-- `{}`, the empty dictionary. -/
def emptyInfo : RespInfo := { content := .val {}, args := [] }

/-- `response_mode` (oauth2/authorization.py:606-634) on the dictionary. -/
def responseModeInfo (mode : Str) (uri : Str) (frag : Bool) (i : RespInfo) : Except Exn RespInfo :=
  if mode = c!"form_post" then .ok { i with page := some (formPage i.args uri) }
  else if mode = c!"fragment" then (if frag then .ok i else .error .invalidRequest)
  else if mode = c!"query" then (if frag then .error .invalidRequest else .ok i)
  else .error .invalidRequest

/-- `post_authentication` (oauth2/authorization.py:737-815).  `d` is the text of an error description, `cookie` the session
cookie `new_cookie` makes (none without a cookie dealer). -/
def postAuthn (env : Env) (cdb : Cdb) (s : Store) (now : Int) (mc ma : MintIn) (idt : Out Str) (d : Str)
    (cookie : Option Str) (req : AuthReq) (sid : Str) : Cdb × Store × Except Exn RespInfo :=
  match getGrant s sid with
  | .error _ => (cdb, s, .ok (errInfo emptyInfo c!"access_denied" d))
  | .ok g =>
    match unpack3 sid with
    | .error _ => (cdb, s, .ok (errInfo emptyInfo c!"access_denied" d))
    | .ok (u, c, gi) =>
      let a := authzCall env.gc env.ccfg cdb now c g req
      match a.2 with
      | .error _ => (a.1, s, .ok (errInfo emptyInfo c!"access_denied" d))
      | .ok g' =>
        let w := dbSet s [u, c, gi] (.grant g')
        match w.2 with
        | .error _ => (a.1, w.1, .ok (errInfo emptyInfo c!"server_error" d))
        | .ok () =>
          let r := createAuthnResponse env w.1 now mc ma idt req sid
          match r.2 with
          | .error e => (a.1, r.1, .error e)
          | .ok (content, frag) =>
            let i : RespInfo := { content := content, args := contentMessage d content, frag := some frag }
            match getUri env.lib a.1 .redirect req.clientId req.redirectUri with
            | .error e => (a.1, r.1, if e == .redirectURIError || e == .parameterError
                then .ok (errInfo i c!"invalid_request" d) else .error e)
            | .ok uri =>
              let i : RespInfo := { i with uri := some uri }
              match req.responseMode with
              | none => (a.1, r.1, .ok { i with cookies := some [cookie] })
              | some m =>
                match responseModeInfo m uri frag i with
                | .error _ => (a.1, r.1, .ok (errInfo i c!"invalid_request" d))
                | .ok i' => (a.1, r.1, .ok { i' with cookies := some [cookie] })

/-- Configuration of the reply: the issuer, whether `check_session_iframe` is configured, the cookie dealer if any (the
value of the session management cookie made from the authentication time), SHA-256 in hexadecimal, and `urlparse`'s
scheme and network location. -/
structure ReplyCfg where
  issuer : Str
  iframe : Bool
  dealer : Option (Int → Except Exn Str)
  hash : Str → Str
  origin : Str → Str × Str

/-- `compute_session_state` (cookie.py:547-563). -/
def computeSessionState (cfg : ReplyCfg) (opbs salt client uri : Str) : Str :=
  let o := cfg.origin uri
  let origin := o.1 ++ c!"://" ++ o.2
  cfg.hash (client ++ c!" " ++ origin ++ c!" " ++ opbs ++ c!" " ++ salt) ++ c!"." ++ salt

/-- `if opbs_value and session_cookie: …` (oauth2/authorization.py:885-893): the cookie is added to the list, or becomes it. -/
def addCookie (cookies : Option (List (Option Str))) (opbs : Str) : Option (List (Option Str)) :=
  if opbs = [] then cookies else some (cookies.getD [] ++ [some opbs])

/-- The session management part of `authz_part2` (oauth2/authorization.py:846-895): the dictionary with `session_state`
and cookie, an error, or an exception. -/
def sessionPart (cfg : ReplyCfg) (s : Store) (now : Int) (salt : Str) (req : AuthReq) (sid : Str) (i : RespInfo) :
    Out RespInfo :=
  if cfg.iframe = false then .val i
  else match getAuthnEvent s sid with
  | .error e => if e.isKeyError then .errMsg c!"server_error" else .raise e
  | .ok none => .raise .attributeError
  | .ok (some ev) =>
    if ev.validUntil ≤ now then .errMsg c!"server_error"
    else
      let opbs : Except Exn Str := match cfg.dealer with
        | none => .ok []
        | some mk => mk ev.authnTime
      match opbs with
      | .error e => .raise e
      | .ok opbs =>
        match i.uri with
        | none => .raise .keyError
        | some u => .val { i with
            args := i.args ++ [(c!"session_state", computeSessionState cfg opbs salt req.clientId u)]
            cookies := addCookie i.cookies opbs }

/-- `authz_part2` (oauth2/authorization.py:829-904). An exception in `post_authentication` is an error reply made from
an empty dictionary, returned at once. -/
def authzPart2Full (cfg : ReplyCfg) (env : Env) (cdb : Cdb) (s : Store) (now : Int) (mc ma : MintIn) (idt : Out Str)
    (d salt : Str) (cookie : Option Str) (req : AuthReq) (sid : Str) : Cdb × Store × Except Exn RespInfo :=
  let p := postAuthn env cdb s now mc ma idt d cookie req sid
  match p.2.2 with
  | .error _ => (p.1, p.2.1, .ok (errInfo emptyInfo c!"server_error" d))
  | .ok i =>
    match sessionPart cfg p.2.1 now salt req sid i with
    | .raise e => (p.1, p.2.1, .error e)
    | .errMsg e => (p.1, p.2.1, .ok (errInfo emptyInfo e d))
    | .val i' => (p.1, p.2.1, .ok { i' with args := i'.args ++ [(c!"iss", cfg.issuer), (c!"client_id", req.clientId)] })

/-- The style of the authorization endpoint (oauth2/authorization.py:270-272). -/
def authzStyle : EpStyle := { placement := c!"url", format := c!"urlencoded", reqFormat := c!"urlencoded" }

/-- `do_response(**resp_info)` of the authorization endpoint, which has no hooks; with a form page, `content_type` and
`response_placement` are set as well (oauth2/authorization.py:613-619). -/
def deliverAuthz (lib : MsgLib) (i : RespInfo) : Except Exn Delivered :=
  doResponse lib authzStyle .ok
    { args := i.args, fragmentEnc := i.frag, returnUri := i.uri, cookie := i.cookies, responseMsg := i.page,
      contentType := i.page.map fun _ => c!"text/html", responsePlacement := i.page.map fun _ => c!"body" }

/-- `do_response` on the `login_required` error of `setup_auth` (oauth2/authorization.py:531-536, 550-556): the second
place, where the user is not the one asked for, gives no `return_type`. -/
def deliverLoginRequired (lib : MsgLib) (otherUser : Bool) (uri : Str) (responseType : List Str) : Except Exn Delivered :=
  doResponse lib authzStyle .ok
    { error := c!"login_required", returnUri := some uri, returnType := if otherUser then [] else responseType }

end Verif
