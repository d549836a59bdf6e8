import Verif.Model.System
import Verif.Model.Resource
import Verif.Model.ClientAuthn
import Verif.Model.Registration
import Verif.Model.UserAuthn
import Verif.Model.Logout
/-! The provider as its users see it: HTTP requests at all endpoints that share state.  Each request goes through the
endpoint's own client authentication; client database, pushed requests, seen assertion ids and sessions are one state. -/
namespace Verif

/-- Configuration: the session side (`sys`), the libraries, and for each endpoint its authentication methods
(endpoint.py:192-203) and allowed targets (endpoint.py:210, oidc/userinfo.py:48). -/
structure ProvCfg where
  sys : SysCfg
  lib : AuthnLib
  regLib : RegLib
  regCfg : RegCfg
  acfg : AuthnCfg
  logout : LogoutEnv
  /-- the clients in the client database at the start (endpoint_context.py:101-115) -/
  clients : Dict RegRec
  /-- whether the stores of seen assertion ids and of pushed requests outlive the process (endpoint_context.py:104-115, 239-242) -/
  jtiDurable : Bool
  parDurable : Bool
  issuer : Str
  release : Bool
  userDb : Str → Dict Val
  tokenMethods : List (Option AuthnMethod)
  tokenTargets : List Str
  userinfoMethods : List (Option AuthnMethod)
  userinfoTargets : List Str
  introspectMethods : List (Option AuthnMethod)
  introspectTargets : List Str
  pushMethods : List (Option AuthnMethod)
  pushTargets : List Str

/-- The state of the provider (`endpoint_context`): client records as registered (`reg`) and as the other endpoints find them
(`cdb`, which they change in place, session/claims.py:46-51), pushed requests, seen assertion ids, sessions and parsed token
requests. -/
structure Prov where
  reg : RegState
  cdb : Cdb
  par : ParDb
  jtis : List Str
  sys : Sys

/-- The provider at the start: the configured clients, no sessions (endpoint_context.py:97-115, 239-242). -/
def Prov.init (cfg : ProvCfg) : Prov :=
  ⟨{ cdb := cfg.clients }, fun c => (cfg.clients.get? c).map RegRec.client, fun _ => none, [], Sys.init⟩

/-- An HTTP request, with what it needs from outside (clock, randomness).  `AuthnReq` has the credentials and the request's
`client_id`. -/
inductive HttpOp where
  /-- client registration (oidc/registration.py:457-476) -/
  | register (i : RegIn) (newId setSecret verified : Bool) (req : RegRec)
  /-- the pushed authorization request endpoint -/
  | push (now : Int) (r : AuthnReq) (req : AuthReq) (urn : Str)
  /-- the authorization endpoint, with the browser's session cookie -/
  | authorize (now : Int) (gid : Str) (mc ma : MintIn) (idt : Out Str) (raw : Option Str) (req : UserReq)
  /-- `parse_request` and `process_request` of the token endpoint; requests interleave between them -/
  | tokenParse (now : Int) (r : AuthnReq) (req : TokReq)
  | tokenProcess (i : TokIn) (req : TokReq)
  | userinfo (now : Int) (r : AuthnReq)
  | introspect (now : Int) (r : AuthnReq) (token : Option Str)
  /-- the logout that the user confirmed (oidc/session.py:365-391) -/
  | logout (post : Str → Str → Except Exn Unit) (sid : Str) (alla : Bool)
  /-- the process is stopped between requests and started again with the same client database -/
  | restart

/-! ### The endpoints -/

/-- `Endpoint.get_client_id_from_token` (endpoint.py:281-282). -/
def plainFromToken (_ : Str) : Except Exn Str := .ok []

/-- `UserInfo.get_client_id_from_token` (oidc/userinfo.py:50-52): the token is taken apart, nothing is looked up. -/
def userinfoFromToken (env : Env) (now : Int) (token : Str) : Except Exn Str :=
  match env.th.sid env.cr now token with
  | .error e => .error e
  | .ok sid => match unpack3 sid with
    | .error e => .error e
    | .ok (_, c, _) => .ok c

/-- `UserInfo.parse_request` (oidc/userinfo.py:156-184): the token to look at.  `auth_info` without "client_id" or "token" is
a `KeyError`. -/
def userinfoParse (cfg : ProvCfg) (st : Prov) (now : Int) (r : AuthnReq) : List Str × Out Str :=
  match clientAuthentication cfg.lib st.cdb now cfg.userinfoMethods cfg.userinfoTargets
      (userinfoFromToken cfg.sys.env now) st.jtis r with
  | (j, .error e) => (j, if e = .valueError ∨ e = .unknownToken then .errMsg c!"invalid_token" else .raise e)
  | (j, .ok none) => (j, .raise .keyError)
  | (j, .ok (some i)) => match i.token with
    | none => (j, .raise .keyError)
    | some t => (j, .val t)

/-- The userinfo endpoint (oidc/userinfo.py:105-184): parsed, and processed unless that gave an error message. -/
def userinfoEndpoint (cfg : ProvCfg) (st : Prov) (now : Int) (r : AuthnReq) : List Str × Out (Dict Val × Str) :=
  match userinfoParse cfg st now r with
  | (j, .errMsg e) => (j, .errMsg e)
  | (j, .raise e) => (j, .raise e)
  | (j, .val t) => (j, userinfoProcess cfg.sys.env cfg.userDb st.sys.store now t)

/-- `Endpoint.parse_request` (endpoint.py:213-279) of the token endpoint: the request gets the client id that was
authenticated, then come the steps of `tokParse`. -/
def tokenParseEndpoint (cfg : ProvCfg) (st : Prov) (now : Int) (r : AuthnReq) (req : TokReq) : List Str × Out TokReq :=
  match clientAuthentication cfg.lib st.cdb now cfg.tokenMethods cfg.tokenTargets plainFromToken st.jtis r with
  | (j, .error e) => (j, .raise e)
  | (j, .ok o) => (j, tokParse cfg.sys.env cfg.sys.helpers st.sys.store now { req with clientId := requestClient r o })

/-- The introspection endpoint (endpoint.py:213-279, oauth2/introspection.py:58-103).  A missing `token` fails the
verification of the request (endpoint.py:270-273). -/
def introspectEndpoint (cfg : ProvCfg) (st : Prov) (now : Int) (r : AuthnReq) (token : Option Str) : List Str × Out (Dict Val) :=
  match clientAuthentication cfg.lib st.cdb now cfg.introspectMethods cfg.introspectTargets plainFromToken st.jtis r with
  | (j, .error e) => (j, .raise e)
  | (j, .ok _) => match token with
    | none => (j, .errMsg c!"invalid_request")
    | some t => (j, introspectProcess cfg.sys.env cfg.issuer cfg.release cfg.userDb st.sys.store now t)

/-- The pushed authorization request endpoint (endpoint.py:213-279, pushed_authorization.py:20-38): the new pushed requests and
the parsed request, which is what is stored.  A request without client id fails the verification. -/
def pushEndpoint (cfg : ProvCfg) (st : Prov) (now : Int) (r : AuthnReq) (req : AuthReq) (urn : Str) :
    List Str × ParDb × Out AuthReq :=
  match clientAuthentication cfg.lib st.cdb now cfg.pushMethods cfg.pushTargets plainFromToken st.jtis r with
  | (j, .error e) => (j, st.par, .raise e)
  | (j, .ok o) => match requestClient r o with
    | none => (j, st.par, .errMsg c!"invalid_request")
    | some c => match pushParse cfg.sys.env st.cdb st.par c req with
      | (par, .val q) => (j, pushStore par urn q, .val q)
      | (par, .errMsg e) => (j, par, .errMsg e)
      | (par, .raise e) => (j, par, .raise e)

/-- The authorization endpoint (endpoint.py:213-279, oauth2/authorization.py:909-953) with the browser's cookie.  The
parameters that only matter for user authentication are those of the request as parsed. -/
def authorizeEndpoint (cfg : ProvCfg) (st : Prov) (now : Int) (gid : Str) (mc ma : MintIn) (idt : Out Str) (raw : Option Str)
    (req : UserReq) : ParDb × Cdb × Store × AuthzAnswer :=
  match authzParse cfg.sys.env st.cdb st.par req.areq with
  | (par, .errMsg e) => (par, st.cdb, st.sys.store, .error e)
  | (par, .raise e) => (par, st.cdb, st.sys.store, .raise e)
  | (par, .val q) => (par, authzBrowser cfg.sys.env cfg.acfg st.cdb st.sys.store now gid mc ma idt raw { req with areq := q })

/-- The client database for the other endpoints after a registration (oidc/registration.py:417-440): records that were written are replaced.
Simplification: a record that is written again exactly as it was counts as not written. -/
def cdbAfter (old : Cdb) (s s' : RegState) : Cdb := fun c =>
  if s'.cdb.get? c = s.cdb.get? c then old c else (s'.cdb.get? c).map RegRec.client

/-- One request (the functions above). -/
def provStep (cfg : ProvCfg) (st : Prov) : HttpOp → Prov
  | .register i newId setSecret verified req =>
    let s' := (registrationProcess cfg.regLib cfg.regCfg st.reg i newId setSecret verified req).1
    { st with reg := s', cdb := cdbAfter st.cdb st.reg s' }
  | .push now r req urn =>
    let x := pushEndpoint cfg st now r req urn
    { st with jtis := x.1, par := x.2.1 }
  | .authorize now gid mc ma idt raw req =>
    let x := authorizeEndpoint cfg st now gid mc ma idt raw req
    { st with par := x.1, cdb := x.2.1, sys := { st.sys with store := x.2.2.1 } }
  | .tokenParse now r req =>
    let x := tokenParseEndpoint cfg st now r req
    match x.2 with
    | .val q => { st with jtis := x.1, sys := { st.sys with pending := q :: st.sys.pending } }
    | _ => { st with jtis := x.1 }
  | .tokenProcess i req => { st with sys := sysStep cfg.sys st.sys (.tokProcess i req) }
  | .userinfo now r => { st with jtis := (userinfoEndpoint cfg st now r).1 }
  | .introspect now r token => { st with jtis := (introspectEndpoint cfg st now r token).1 }
  | .logout post sid alla =>
    { st with sys := { st.sys with store := (doVerifiedLogout cfg.logout st.cdb post st.sys.store sid alla).1 } }
  | .restart => { st with par := if cfg.parDurable then st.par else fun _ => none, jtis := if cfg.jtiDurable then st.jtis else [], sys := match cfg.sys.mode with
      | .aliased => Sys.init
      | .byValue => ⟨st.sys.store, []⟩ }

/-- The state after a history of requests. -/
def provRun (cfg : ProvCfg) (ops : List HttpOp) : Prov := ops.foldl (provStep cfg) (Prov.init cfg)

end Verif
