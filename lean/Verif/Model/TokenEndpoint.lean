import Verif.Model.Authorization
/-! `oidc/token.py`: the token endpoint, and the PKCE check of `oidc/add_on/pkce.py` on token requests. -/
namespace Verif

/-- A token request (parameters the code reads). -/
structure TokReq where
  grantType : Option Str
  code : Option Str := none
  refreshToken : Option Str := none
  redirectUri : Option Str := none
  codeVerifier : Option Str := none
  clientId : Option Str := none
deriving DecidableEq, Repr

/-- What a token request is processed with: the clock, the randomness for up to two tokens, and the outcome of making an
ID token (id_token.py; an error message stands for a signing or encryption failure). -/
structure TokIn where
  now : Int
  ma : MintIn
  mr : MintIn
  idt : Out Str

/-- A successful token response. -/
structure TokResp where
  accessToken : Str
  refreshToken : Option Str
  idToken : Option Str
  scope : List Str
  expiresIn : Option Int
deriving DecidableEq, Repr

/-- `req["code"].replace(" ", "+")` (oidc/token.py:100). -/
def plusForBlank (s : Str) : Str := s.map fun c => if c = ' ' then '+' else c

/-! ### Grant types -/

/-- The two built-in helper classes (oidc/token.py:308-311). -/
inductive HelperClass where
  | accessToken
  | refreshToken
deriving DecidableEq, Repr

/-- `HELPER_BY_GRANT_TYPE` (oidc/token.py:308-311). -/
def helperByGrantType : Dict HelperClass :=
  [(c!"authorization_code", .accessToken), (c!"refresh_token", .refreshToken)]

/-- An entry of `self.helper`: an instance, or the class itself, not instantiated. -/
inductive Helper where
  | inst (c : HelperClass)
  | bare (c : HelperClass)
deriving DecidableEq, Repr

/-- The value configured for a grant type: `True` or `None`, `False`, a dictionary with one of the two classes, or
something without a usable class.  Classes of other packages are not modelled. -/
inductive GrantTypeOpt where
  | on
  | off
  | cls (c : HelperClass)
  | bad
deriving DecidableEq, Repr

/-- The loop of `configure_grant_types` (oidc/token.py:344-374); `none` is a `ProcessError`. -/
def configureLoop : List (Str × GrantTypeOpt) → Dict Helper → Option (Dict Helper)
  | [], acc => some acc
  | (gt, .on) :: r, acc =>
    match helperByGrantType.get? gt with
    | some c => configureLoop r (acc.set gt (.bare c))
    | none => none
  | (_, .off) :: r, acc => configureLoop r acc
  | (gt, .cls c) :: r, acc => configureLoop r (acc.set gt (.inst c))
  | (_, .bad) :: _, _ => none

/-- `configure_grant_types` (oidc/token.py:337-374); no configuration at all means both built-in grant types. -/
def configureGrantTypes : Option (Dict GrantTypeOpt) → Option (Dict Helper)
  | none => some (helperByGrantType.map fun kv => (kv.1, .inst kv.2))
  | some d => configureLoop d []

/-! ### Parsing -/

/-- `AccessTokenHelper.post_parse_request` (oidc/token.py:168-207). -/
def codeParse (env : Env) (s : Store) (now : Int) (req : TokReq) : Out TokReq :=
  match req.code with
  | none => .errMsg c!"invalid_grant"
  | some code =>
    match sessionByToken env.th env.cr s now code with
    | .error e => if e.isKeyError || e == .unknownToken then .errMsg c!"invalid_grant" else .raise e
    | .ok (_, .info _) => .raise .attributeError
    | .ok (_, .grant g) =>
      match g.getToken code with
      | none => .errMsg c!"invalid_request"
      | some t =>
        if t.kind ≠ .authorizationCode then .errMsg c!"invalid_request"
        else if t.isActive now = false then .errMsg c!"invalid_request"
        else match req.clientId with
        | some _ => .val req
        | none => match g.authReq with
          | none => .raise .typeError
          | some ar => .val { req with clientId := some ar.clientId }

/-- `RefreshTokenHelper.post_parse_request` (oidc/token.py:265-305).  A missing `refresh_token` makes `verify` raise. -/
def refreshParse (env : Env) (s : Store) (now : Int) (req : TokReq) : Out TokReq :=
  match req.refreshToken with
  | none => .raise .missingRequiredAttribute
  | some v =>
    match sessionByToken env.th env.cr s now v with
    | .error e => if e.isKeyError then .errMsg c!"invalid_grant" else .raise e
    | .ok (_, .info _) => .raise .attributeError
    | .ok (_, .grant g) =>
      match g.getToken v with
      | none => .errMsg c!"invalid_request"
      | some t =>
        if t.kind ≠ .refreshToken then .errMsg c!"invalid_request"
        else if t.isActive now = false then .errMsg c!"invalid_request"
        else .val req

/-- `_post_parse_request` (oidc/token.py:376-385).  Calling a method of a class that was not instantiated passes the
request as `self`, which has no `endpoint_context` (or, for refresh tokens, the client id as the request, which has no
`to_dict`): `AttributeError`. -/
def helperParse (env : Env) (helpers : Dict Helper) (s : Store) (now : Int) (req : TokReq) : Out TokReq :=
  match req.grantType with
  | none => .raise .keyError
  | some gt => match helpers.get? gt with
    | none => .errMsg c!"invalid_request"
    | some (.bare _) => .raise .attributeError
    | some (.inst .accessToken) => codeParse env s now req
    | some (.inst .refreshToken) => refreshParse env s now req

/-- `verify_code_challenge` (pkce.py:71-87); an unknown method is a `KeyError`. -/
def verifyChallenge (methods : Dict (Str → Except Exn Str)) (verifier challenge method : Str) : Except Exn Bool :=
  match methods.get? method with
  | none => .error .keyError
  | some f => match f verifier with
    | .error e => .error e
    | .ok x => .ok (decide (x = challenge))

/-- `post_token_parse` (pkce.py:90-130). Simplification: methods are looked up among the configured ones, all of which
are in `CC_METHOD` with the same function (pkce.py:155-162). -/
def pkceTokenParse (p : Pkce) (env : Env) (s : Store) (now : Int) (req : TokReq) : Out TokReq :=
  match req.code with
  | none => .errMsg c!"invalid_grant"
  | some code =>
    match sessionByToken env.th env.cr s now code with
    | .error e => if e.isKeyError then .errMsg c!"invalid_grant" else .raise e
    | .ok (_, .info _) => .raise .attributeError
    | .ok (_, .grant g) =>
      match g.authReq with
      | none => .raise .typeError
      | some ar =>
        match ar.codeChallenge with
        | none => .val req
        | some ch =>
          match req.codeVerifier with
          | none => .errMsg c!"invalid_grant"
          | some v =>
            match ar.codeChallengeMethod with
            | none => .raise .keyError
            | some m =>
              match verifyChallenge p.methods v ch m with
              | .error e => .raise e
              | .ok true => .val req
              | .ok false => .errMsg c!"invalid_grant"

/-- The part of `parse_request` after client authentication (endpoint.py:291-298): the helper's step, then the PKCE step
if that add-on is configured (pkce.py:140). -/
def tokParse (env : Env) (helpers : Dict Helper) (s : Store) (now : Int) (req : TokReq) : Out TokReq :=
  match helperParse env helpers s now req with
  | .errMsg e => .errMsg e
  | .raise e => .raise e
  | .val r => match env.pkce with
    | none => .val r
    | some p => pkceTokenParse p env s now r

/-! ### Processing -/

/-- The redirect URI check (oidc/token.py:112-117). -/
def redirectCheck (ar : AuthReq) (req : TokReq) : Out Unit :=
  match ar.redirectUri with
  | none => .val ()
  | some u => match req.redirectUri with
    | none => .raise .keyError
    | some r => if r = u then .val () else .errMsg c!"invalid_request"

/-- Minting the refresh token, if one is to be issued (oidc/token.py:143-148, 245-249); the handler is the one for access
tokens. -/
def refreshPart (env : Env) (s : Store) (i : TokIn) (sid : Str) (g : Grant) (base : Option Token) (want : Bool) :
    Store × Grant × Except Exn (Option Token) :=
  if want then
    let r := mintAndStore env env.th.accessToken s i.now i.mr sid tRefreshToken g base
    (r.1, r.2.1, r.2.2.map some)
  else (s, g, .ok none)

/-- The ID token, if one is to be issued (oidc/token.py:156-167, 253-263). -/
def idTokenFor (want : Bool) (idt : Out Str) : Out (Option Str) :=
  if want then
    match idt with
    | .raise e => .raise e
    | .errMsg _ => .errMsg c!"invalid_request"
    | .val i => .val (some i)
  else .val none

/-- The end of `AccessTokenHelper.process_request` (oidc/token.py:151-166): the use of the code is registered and the grant
stored, before anything is returned.  If the code was not found (`None`) this raises. -/
def finishCode (s : Store) (i : TokIn) (sid : Str) (g : Grant) (base : Option Token) (ar : AuthReq) (tok : Token)
    (rt : Option Token) : Store × Out TokResp :=
  match base with
  | none => (s, .raise .attributeError)
  | some b =>
    let w := mgrSet s sid (.grant (g.registerUsage b.value))
    match w.2 with
    | .error e => (w.1, .raise e)
    | .ok () => match idTokenFor (decide (c!"openid" ∈ ar.scope)) i.idt with
      | .raise e => (w.1, .raise e)
      | .errMsg e => (w.1, .errMsg e)
      | .val idt => (w.1, .val { accessToken := tok.value, refreshToken := rt.map (·.value), idToken := idt,
                                 scope := g.scope, expiresIn := some (tok.expiresAt - i.now) })

/-- The part of `AccessTokenHelper.process_request` after the checks (oidc/token.py:121-166): mint an access token, mint a
refresh token if `offline_access` was granted, register the use of the code, store. -/
def exchangeCode (env : Env) (s : Store) (i : TokIn) (sid : Str) (g : Grant) (base : Option Token) (ar : AuthReq) :
    Store × Out TokResp :=
  let r1 := mintAndStore env env.th.accessToken s i.now i.ma sid tAccessToken g base
  match r1.2.2 with
  | .error e => (r1.1, .raise e)
  | .ok tok =>
    let r2 := refreshPart env r1.1 i sid r1.2.1 base (decide (c!"offline_access" ∈ g.scope))
    match r2.2.2 with
    | .error e => (r2.1, .raise e)
    | .ok rt => finishCode r2.1 i sid r2.2.1 base ar tok rt

/-- `AccessTokenHelper.process_request` (oidc/token.py:82-166). -/
def codeProcess (env : Env) (s : Store) (i : TokIn) (req : TokReq) : Store × Out TokResp :=
  if req.grantType ≠ some c!"authorization_code" then (s, .errMsg c!"invalid_request")
  else match req.code with
  | none => (s, .errMsg c!"invalid_request")
  | some c0 =>
    match sessionByToken env.th env.cr s i.now (plusForBlank c0) with
    | .error e => (s, .raise e)
    | .ok (_, .info _) => (s, .raise .attributeError)
    | .ok (sid, .grant g) =>
      match g.authReq with
      | none => (s, .raise .typeError)
      | some ar =>
        match redirectCheck ar req with
        | .raise e => (s, .raise e)
        | .errMsg e => (s, .errMsg e)
        | .val () => exchangeCode env s i sid g (g.getToken (plusForBlank c0)) ar

/-- Changing the object that was stored last under `sid`: visible in the storage only if the back end keeps the object
itself. -/
def touch (m : Mode) (s : Store) (sid : Str) (g : Grant) : Store :=
  match m with
  | .aliased => s.put sid (.grant g)
  | .byValue => s

/-- `refresh_token.usage_rules = token.usage_rules.copy()` for the token minted last (oidc/token.py:250). -/
def Grant.copyRulesToLast (g : Grant) (r : UsageRules) : Grant :=
  { g with issuedToken := g.issuedToken.modify (g.issuedToken.length - 1) fun t => { t with usageRules := r } }

/-- The end of `RefreshTokenHelper.process_request` (oidc/token.py:253-263); the use of the refresh token is not
registered. -/
def finishRefresh (s : Store) (i : TokIn) (g : Grant) (mints : List Str) (tok : Token) (rt : Option Token) :
    Store × Out TokResp :=
  match idTokenFor (decide (c!"id_token" ∈ mints)) i.idt with
  | .raise e => (s, .raise e)
  | .errMsg e => (s, .errMsg e)
  | .val idt => (s, .val { accessToken := tok.value, refreshToken := rt.map (·.value), idToken := idt,
                           scope := g.scope,
                           expiresIn := if tok.expiresAt = 0 then none else some (tok.expiresAt - i.now) })

/-- The part of `RefreshTokenHelper.process_request` that mints a new refresh token and copies the rules (oidc/token.py:
245-250). -/
def newRefresh (m : Mode) (env : Env) (s : Store) (i : TokIn) (sid : Str) (g : Grant) (base : Token) (want : Bool) :
    Store × Except Exn (Option Token) :=
  let r := refreshPart env s i sid g (some base) want
  match r.2.2 with
  | .error e => (r.1, .error e)
  | .ok none => (r.1, .ok none)
  | .ok (some t) => (touch m r.1 sid (r.2.1.copyRulesToLast base.usageRules), .ok (some t))

/-- `RefreshTokenHelper.process_request` after the session was found (oidc/token.py:223-263). -/
def exchangeRefresh (m : Mode) (env : Env) (s : Store) (i : TokIn) (sid : Str) (g : Grant) (base : Option Token) :
    Store × Out TokResp :=
  let r1 := mintAndStore env env.th.accessToken s i.now i.ma sid tAccessToken g base
  match r1.2.2 with
  | .error e => (r1.1, .raise e)
  | .ok tok =>
    match base with
    | none => (r1.1, .raise .attributeError)
    | some b => match b.usageRules.supportsMinting with
      | none => (r1.1, .raise .typeError)
      | some mints =>
        let r2 := newRefresh m env r1.1 i sid r1.2.1 b (decide (tRefreshToken ∈ mints))
        match r2.2 with
        | .error e => (r2.1, .raise e)
        | .ok rt => finishRefresh r2.1 i g mints tok rt

/-- `RefreshTokenHelper.process_request` (oidc/token.py:211-263). -/
def refreshProcess (m : Mode) (env : Env) (s : Store) (i : TokIn) (req : TokReq) : Store × Out TokResp :=
  if req.grantType ≠ some c!"refresh_token" then (s, .errMsg c!"invalid_request")
  else match req.refreshToken with
  | none => (s, .raise .keyError)
  | some v =>
    match sessionByToken env.th env.cr s i.now v with
    | .error e => (s, .raise e)
    | .ok (_, .info _) => (s, .raise .attributeError)
    | .ok (sid, .grant g) => exchangeRefresh m env s i sid g (g.getToken v)

/-- The helper's part of `Token.process_request` (oidc/token.py:399-409).  Calling `process_request` of a class that was
not instantiated is a `TypeError` (missing argument). -/
def helperProcess (m : Mode) (env : Env) (helpers : Dict Helper) (s : Store) (i : TokIn) (req : TokReq) :
    Store × Out TokResp :=
  match req.grantType with
  | none => (s, .raise .keyError)
  | some gt => match helpers.get? gt with
    | none => (s, .errMsg c!"invalid_request")
    | some (.bare _) => (s, .raise .typeError)
    | some (.inst .accessToken) => codeProcess env s i req
    | some (.inst .refreshToken) => refreshProcess m env s i req

/-- `Token.process_request` (oidc/token.py:387-429): after the helper the new access token is looked up once more, for the
subject in the cookie. -/
def tokProcess (m : Mode) (env : Env) (helpers : Dict Helper) (s : Store) (i : TokIn) (req : TokReq) :
    Store × Out TokResp :=
  let r := helperProcess m env helpers s i req
  match r.2 with
  | .raise e => (r.1, .raise e)
  | .errMsg e => (r.1, .errMsg e)
  | .val resp =>
    match sessionByToken env.th env.cr r.1 i.now resp.accessToken with
    | .error e => (r.1, .raise e)
    | .ok (_, .info _) => (r.1, .raise .attributeError)
    | .ok (_, .grant _) => (r.1, .val resp)

/-- A request at the token endpoint whose parsing and processing follow each other immediately. -/
def tokenEndpoint (m : Mode) (env : Env) (helpers : Dict Helper) (s : Store) (i : TokIn) (req : TokReq) :
    Store × Out TokResp :=
  match tokParse env helpers s i.now req with
  | .errMsg e => (s, .errMsg e)
  | .raise e => (s, .raise e)
  | .val r => tokProcess m env helpers s i r

end Verif
