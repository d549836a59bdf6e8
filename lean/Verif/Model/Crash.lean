import Verif.Model.TokenEndpoint
/-! Crash points.  A storage that survives the process (`shelve_db.py`, or any other object with the methods of a `dict`,
session/database.py:23-27) is changed by one item assignment or deletion at a time.  For every operation this file lists the
storage after each of these, in the order of the program; the process may die after any of them.  An assignment that the
program leaves out because nothing changes may appear as a repetition of the storage before it. -/
namespace Verif

/-- The storage after the last of these writes. -/
def lastOf (s : Store) (l : List Store) : Store := l.getLast?.getD s

/-- `Database.set` (session/database.py:41-68): grant, client record, user record. -/
def setTrace (s : Store) (path : List Str) (v : Obj) : List Store :=
  match evalPath path with
  | .error _ => []
  | .ok (u, c, g) =>
    let s1 := if truthy g then s.put (sessionKey [u, c.getD [], g.getD []]) v else s
    let r := if truthy c then dbSetClient s1 u (c.getD []) g v else (s1, .ok ())
    match r.2 with
    | .error _ => [s1, r.1]
    | .ok () => [s1, r.1, (dbSetUser r.1 u c v).1]

/-- `manager[session_id] = value` (session/manager.py:176-177). -/
def mgrSetTrace (s : Store) (sid : Str) (v : Obj) : List Store := setTrace s (unpackSessionKey sid) v

/-- The loop over the grants in `Database.delete` (session/database.py:121-124). -/
def delGrantsTrace (s : Store) (u c : Str) : List Str → List Store
  | [] => []
  | g :: gs => match s (sessionKey [u, c, g]) with
    | none => []
    | some _ => s.del (sessionKey [u, c, g]) :: delGrantsTrace (s.del (sessionKey [u, c, g])) u c gs

/-- `Database.delete` (session/database.py:102-141) on a storage of copies: grants, client record, user record. -/
def deleteTrace (s : Store) (path : List Str) : List Store :=
  match evalPath path with
  | .error _ => []
  | .ok (u, c, g) =>
    match s u with
    | none => []
    | some ui =>
      if truthy c = false then [s.del u]
      else
        let c := c.getD []
        match ui.subordinate with
        | .error _ => []
        | .ok usub =>
          if c ∉ usub then []
          else match s (sessionKey [u, c]) with
          | none => [dbDelUserPart s u ui usub]
          | some ci =>
            match ci.subordinate with
            | .error _ => []
            | .ok csub =>
              let r : List Store × List Str × Except Exn Unit :=
                if truthy g then
                  let g := g.getD []
                  if g ∈ csub then ([s.del (sessionKey [u, c, g])], csub.erase g, .ok ()) else ([], csub, .ok ())
                else (delGrantsTrace s u c csub, [], (dbDelGrants s u c csub).2)
              match r.2.2 with
              | .error _ => r.1
              | .ok () =>
                let s1 := lastOf s r.1
                if r.2.1 = [] then
                  r.1 ++ [s1.del (sessionKey [u, c]), dbDelUserPart (s1.del (sessionKey [u, c])) u ui (usub.erase c)]
                else
                  r.1 ++ [s1.put c (ci.setSubordinate r.2.1), dbDelUserPart (s1.put c (ci.setSubordinate r.2.1)) u ui usub]

/-- `create_grant` (session/manager.py:85-121). -/
def createGrantTrace (sf : SubFuncs) (s : Store) (now : Int) (gid u c : Str) (a : SessArgs) : List Store :=
  match newGrant sf now gid u a with
  | .error _ => []
  | .ok g => setTrace s [u, c, gid] (.grant g)

/-- First part of `create_session` (session/manager.py:149-153). -/
def ensureUserTrace (s : Store) (u : Str) : List Store :=
  match dbGet s [u] with
  | .ok _ => []
  | .error e => if e.isKeyError then setTrace s [u] (.info (SessInfo.user u)) else []

/-- `create_session` (session/manager.py:123-171). -/
def createSessionTrace (sf : SubFuncs) (s : Store) (now : Int) (gid u c : Str) (a : SessArgs) : List Store :=
  let s1 := ensureUser s u
  ensureUserTrace s u ++
  match s1.2 with
  | .error _ => []
  | .ok () =>
    let c := if c = [] then a.authReq.clientId else c
    let s2 := dbSet s1.1 [u, c] (.info (SessInfo.client c))
    setTrace s1.1 [u, c] (.info (SessInfo.client c)) ++
    match s2.2 with
    | .error _ => []
    | .ok () => createGrantTrace sf s2.1 now gid u c a

/-- `add_grant` (session/manager.py:394-409). -/
def addGrantTrace (s : Store) (now : Int) (gid u c : Str) (a : GrantArgs) : List Store :=
  let g := Grant.new now gid { a with claims := [] }
  let r := dbSet s [u, c, gid] (.grant g)
  setTrace s [u, c, gid] (.grant g) ++
  match r.2 with
  | .error _ => []
  | .ok () => match dbGet r.1 [u, c] with
    | .error _ => []
    | .ok (.grant _) => []
    | .ok (.info i) => setTrace r.1 [u, c] (.info { i with subordinate := i.subordinate ++ [gid] })

/-- `revoke_client_session` (session/manager.py:274-289). -/
def revokeClientTrace (s : Store) (sid : Str) : List Store :=
  let go (u c : Str) : List Store :=
    match dbGet s [u, c] with
    | .error _ => []
    | .ok (.grant _) => []
    | .ok (.info i) => setTrace s [u, c] (.info i.revoke)
  match unpackSessionKey sid with
  | [u, c] => go u c
  | [u, c, _] => go u c
  | _ => []

/-- `revoke_grant` (session/manager.py:291-300). -/
def revokeGrantTrace (s : Store) (sid : Str) : List Store :=
  match dbGet s (unpackSessionKey sid) with
  | .error _ => []
  | .ok o => setTrace s (unpackSessionKey sid) o.revoke

/-- `remove_session` (session/manager.py:430-432). -/
def removeTrace (s : Store) (sid : Str) : List Store :=
  match unpack3 sid with
  | .error _ => []
  | .ok (u, c, g) => deleteTrace s [u, c, g]

/-- Minting (oauth2/authorization.py:311-332, oidc/token.py:50-78). -/
def mintTrace (env : Env) (h : Option Handler) (s : Store) (now : Int) (m : MintIn) (sid tokenType : Str) (g : Grant)
    (basedOn : Option Token) : List Store :=
  match (g.mintToken now m.id tokenType basedOn (some ((g.usageRules.get? tokenType).getD {})) [] {} (tokenString env h now m sid)).2 with
  | .error _ => []
  | .ok none => []
  | .ok (some _) => mgrSetTrace s sid (.grant (mintAndStore env h s now m sid tokenType g basedOn).2.1)

/-- Minting the refresh token (oidc/token.py:143-148, 245-249). -/
def refreshPartTrace (env : Env) (s : Store) (i : TokIn) (sid : Str) (g : Grant) (base : Option Token) (want : Bool) : List Store :=
  if want then mintTrace env env.th.accessToken s i.now i.mr sid tRefreshToken g base else []

/-- The end of `AccessTokenHelper.process_request` (oidc/token.py:151-166). -/
def finishCodeTrace (s : Store) (sid : Str) (g : Grant) (base : Option Token) : List Store :=
  match base with
  | none => []
  | some b => mgrSetTrace s sid (.grant (g.registerUsage b.value))

/-- The part of `AccessTokenHelper.process_request` after the checks (oidc/token.py:121-166). -/
def exchangeCodeTrace (env : Env) (s : Store) (i : TokIn) (sid : Str) (g : Grant) (base : Option Token) : List Store :=
  let r1 := mintAndStore env env.th.accessToken s i.now i.ma sid tAccessToken g base
  mintTrace env env.th.accessToken s i.now i.ma sid tAccessToken g base ++
  match r1.2.2 with
  | .error _ => []
  | .ok _ =>
    let r2 := refreshPart env r1.1 i sid r1.2.1 base (decide (c!"offline_access" ∈ g.scope))
    refreshPartTrace env r1.1 i sid r1.2.1 base (decide (c!"offline_access" ∈ g.scope)) ++
    match r2.2.2 with
    | .error _ => []
    | .ok _ => finishCodeTrace r2.1 sid r2.2.1 base

/-- `RefreshTokenHelper.process_request` after the session was found (oidc/token.py:223-263). -/
def exchangeRefreshTrace (env : Env) (s : Store) (i : TokIn) (sid : Str) (g : Grant) (base : Option Token) : List Store :=
  let r1 := mintAndStore env env.th.accessToken s i.now i.ma sid tAccessToken g base
  mintTrace env env.th.accessToken s i.now i.ma sid tAccessToken g base ++
  match r1.2.2 with
  | .error _ => []
  | .ok _ => match base with
    | none => []
    | some b => match b.usageRules.supportsMinting with
      | none => []
      | some mints => refreshPartTrace env r1.1 i sid r1.2.1 (some b) (decide (tRefreshToken ∈ mints))

/-- `AccessTokenHelper.process_request` (oidc/token.py:82-166). -/
def codeTrace (env : Env) (s : Store) (i : TokIn) (req : TokReq) : List Store :=
  if req.grantType ≠ some c!"authorization_code" then []
  else match req.code with
  | none => []
  | some c0 =>
    match sessionByToken env.th env.cr s i.now (plusForBlank c0) with
    | .error _ => []
    | .ok (_, .info _) => []
    | .ok (sid, .grant g) =>
      match g.authReq with
      | none => []
      | some ar =>
        match redirectCheck ar req with
        | .raise _ => []
        | .errMsg _ => []
        | .val () => exchangeCodeTrace env s i sid g (g.getToken (plusForBlank c0))

/-- `RefreshTokenHelper.process_request` (oidc/token.py:211-263). -/
def refreshTrace (env : Env) (s : Store) (i : TokIn) (req : TokReq) : List Store :=
  if req.grantType ≠ some c!"refresh_token" then []
  else match req.refreshToken with
  | none => []
  | some v =>
    match sessionByToken env.th env.cr s i.now v with
    | .error _ => []
    | .ok (_, .info _) => []
    | .ok (sid, .grant g) => exchangeRefreshTrace env s i sid g (g.getToken v)

/-- `Token.process_request` (oidc/token.py:387-429). -/
def tokTrace (env : Env) (helpers : Dict Helper) (s : Store) (i : TokIn) (req : TokReq) : List Store :=
  match req.grantType with
  | none => []
  | some gt => match helpers.get? gt with
    | none => []
    | some (.bare _) => []
    | some (.inst .accessToken) => codeTrace env s i req
    | some (.inst .refreshToken) => refreshTrace env s i req

/-- The last part of `setup_auth` when there is no session in the cookie (oauth2/authorization.py:581-599). -/
def startSessionTrace (env : Env) (cdb : Cdb) (s : Store) (now : Int) (gid : Str) (req : AuthReq) (a : AuthnIn) (uid : Str) :
    List Store :=
  let ev := createAuthnEvent now uid a.acr a.ts
  let ev := match a.expiresIn with
    | some e => if e = 0 then ev else { ev with validUntil := now + e }
    | none => ev
  createSessionTrace env.sf s now gid uid req.clientId
    { authnEvent := some ev, authReq := req, usageRules := usageRulesOf env.gc cdb req.clientId }

/-- `setup_auth` (oauth2/authorization.py:466-601). -/
def setupTrace (env : Env) (cdb : Cdb) (s : Store) (now : Int) (gid : Str) (req : AuthReq) (a : AuthnIn) : List Store :=
  match a.ident with
  | .nobody => []
  | .plain uid =>
    if a.reAuth then []
    else if a.reqUser.isSome ∧ a.reqUser ≠ some uid then []
    else startSessionTrace env cdb s now gid req a uid
  | .decoded uid sid =>
    match sid with
    | none => []
    | some sid =>
      match mgrGet s sid with
      | .error _ => []
      | .ok (.info _) => []
      | .ok (.grant g0) =>
        if g0.isActive now = false then []
        else if a.reAuth then []
        else match uid with
        | none => []
        | some uid =>
          if a.reqUser.isSome ∧ a.reqUser ≠ some uid then []
          else match unpack3 sid with
          | .error _ => []
          | .ok (_, c, _) =>
            if req.clientId ≠ c then []
            else if g0.authReq = some req then []
            else match eventValid now g0.authnEvent with
              | .ok true => createGrantTrace env.sf s now gid uid req.clientId { authnEvent := g0.authnEvent, authReq := req }
              | _ => []

/-- The part of `create_authn_response` that mints the code (oauth2/authorization.py:675-684). -/
def codePartTrace (env : Env) (s : Store) (now : Int) (mc : MintIn) (sid : Str) (g : Grant) (req : AuthReq) : List Store :=
  if c!"code" ∈ req.responseType then mintTrace env env.th.code s now mc sid tAuthorizationCode g none else []

/-- The part of `create_authn_response` that mints the access token (oauth2/authorization.py:686-703). -/
def tokenPartTrace (env : Env) (s : Store) (now : Int) (ma : MintIn) (sid : Str) (g : Grant) (code : Option Token)
    (req : AuthReq) : List Store :=
  if c!"token" ∈ req.responseType then mintTrace env env.th.accessToken s now ma sid tAccessToken g code else []

/-- The part of `create_authn_response` that makes the ID token (oauth2/authorization.py:705-727). -/
def idTokenPartTrace (s : Store) (idt : Out Str) (sid : Str) (req : AuthReq) : List Store :=
  if c!"id_token" ∈ req.responseType then
    match idt with
    | .raise _ => []
    | .errMsg _ => []
    | .val _ =>
      match unpack3 sid with
      | .error _ => []
      | .ok (u, c, _) => match dbGet s [u, c] with
        | .error _ => []
        | .ok o => setTrace s [u, c] o
  else []

/-- `create_authn_response` (oauth2/authorization.py:643-735). -/
def responseTrace (env : Env) (s : Store) (now : Int) (mc ma : MintIn) (idt : Out Str) (req : AuthReq) (sid : Str) : List Store :=
  if req.responseType = [c!"none"] then []
  else match getGrant s sid with
  | .error _ => []
  | .ok g =>
    let r1 := codePart env s now mc sid g req
    codePartTrace env s now mc sid g req ++
    match r1.2.2 with
    | .error _ => []
    | .ok code =>
      let r2 := tokenPart env r1.1 now ma sid r1.2.1 code req
      tokenPartTrace env r1.1 now ma sid r1.2.1 code req ++
      match r2.2.2 with
      | .error _ => []
      | .ok _ => idTokenPartTrace r2.1 idt sid req

/-- `post_authentication` and `authz_part2` (oauth2/authorization.py:737-815, 829-904). -/
def part2Trace (env : Env) (cdb : Cdb) (s : Store) (now : Int) (mc ma : MintIn) (idt : Out Str) (req : AuthReq) (sid : Str) :
    List Store :=
  match getGrant s sid with
  | .error _ => []
  | .ok g =>
    match unpack3 sid with
    | .error _ => []
    | .ok (u, c, gi) =>
      match (authzCall env.gc env.ccfg cdb now c g req).2 with
      | .error _ => []
      | .ok g' =>
        let w := dbSet s [u, c, gi] (.grant g')
        setTrace s [u, c, gi] (.grant g') ++
        match w.2 with
        | .error _ => []
        | .ok () => responseTrace env w.1 now mc ma idt req sid

/-- `process_request` of the authorization endpoint (oauth2/authorization.py:909-953). -/
def authzTrace (env : Env) (cdb : Cdb) (s : Store) (now : Int) (gid : Str) (mc ma : MintIn) (idt : Out Str)
    (a : AuthnIn) (req : AuthReq) : List Store :=
  match cdb req.clientId with
  | none => []
  | some c =>
    if checkScopes env c req = false then []
    else
      let r := setupAuth env cdb s now gid req a
      setupTrace env cdb s now gid req a ++
      match r.2 with
      | .val (.session sid _) => part2Trace env cdb r.1 now mc ma idt req sid
      | _ => []

end Verif
