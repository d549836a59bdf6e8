import Verif.Model.System
import Verif.Model.Resource
/-! The session operations and endpoints as programs that read and write the storage one item at a time, so that threads can be
interrupted between any two of these.  Simplification: what `setup_auth`, `authz_part2` etc. do to the client database (C37) is
each thread's own.  What a thread has read is a copy: with a back end that keeps objects (`Mode.aliased`) this is right as long as no
other thread changes the same object before the thread is through; `Model/Threads.lean` is about that case. -/
namespace Verif

/-- A program that works on the storage: it ends, or reads an item (`_db.get(k)`, `_db[k]`) and goes on with what it found, or
assigns or deletes one (`_db[k] = v`, `del _db[k]`). -/
inductive Prog (α : Type) where
  | ret (a : α)
  | read (k : Str) (f : Option Obj → Prog α)
  | write (k : Str) (v : Option Obj) (p : Prog α)

/-- One program after the other. -/
def Prog.bind {α β : Type} : Prog α → (α → Prog β) → Prog β
  | .ret a, f => f a
  | .read k h, f => .read k fun o => (h o).bind f
  | .write k v p, f => .write k v (p.bind f)

/-- Without interruption. -/
def Prog.run {α : Type} : Prog α → Store → Store × α
  | .ret a, s => (s, a)
  | .read k f, s => (f (s k)).run s
  | .write k v p, s => p.run (fun k' => if k' = k then v else s k')

/-! ### `session/database.py` -/

/-- `Database.get` (session/database.py:70-100). -/
def getP (path : List Str) : Prog (Except Exn Obj) :=
  match evalPath path with
  | .error e => .ret (.error e)
  | .ok (u, c, g) => .read u fun
    | none => .ret (.error .keyError)
    | some ui =>
      match c with
      | none => .ret (.ok ui)
      | some c =>
        match ui.subordinate with
        | .error e => .ret (.error e)
        | .ok usub =>
          if c ∉ usub then .ret (.error .valueError)
          else .read (sessionKey [u, c]) fun
          | none => .ret (.error .noSuchClientSession)
          | some ci =>
            match g with
            | none => .ret (.ok ci)
            | some g =>
              match ci.subordinate with
              | .error e => .ret (.error e)
              | .ok csub =>
                if g ∉ csub then .ret (.error .valueError)
                else .read (sessionKey [u, c, g]) fun
                | none => .ret (.error .noSuchGrant)
                | some o => .ret (.ok o)

/-- Second block of `Database.set` (session/database.py:54-61). -/
def setClientP (u c : Str) (g : Option Str) (v : Obj) : Prog (Except Exn Unit) :=
  .read (sessionKey [u, c]) fun o =>
    match g with
    | some (g0 :: gs) =>
      match o with
      | none => .write (sessionKey [u, c]) (some (.info (SessInfo.client.addSubordinate (g0 :: gs)))) (.ret (.ok ()))
      | some (.grant _) => .ret (.error .typeError)
      | some (.info i) =>
        if g0 :: gs ∈ i.subordinate then .ret (.ok ())
        else .write (sessionKey [u, c]) (some (.info (i.addSubordinate (g0 :: gs)))) (.ret (.ok ()))
    | _ => .write (sessionKey [u, c]) (some v) (.ret (.ok ()))

/-- Last block of `Database.set` (session/database.py:63-68). -/
def setUserP (u : Str) (c : Option Str) (v : Obj) : Prog (Except Exn Unit) :=
  .read u fun o =>
    match c with
    | none => .write u (some v) (.ret (.ok ()))
    | some [] => .ret (.ok ())
    | some (c0 :: cs) =>
      match o with
      | none => .write u (some (.info (SessInfo.user.addSubordinate (c0 :: cs)))) (.ret (.ok ()))
      | some (.grant _) => .ret (.error .typeError)
      | some (.info i) =>
        if c0 :: cs ∈ i.subordinate then .ret (.ok ())
        else .write u (some (.info (i.addSubordinate (c0 :: cs)))) (.ret (.ok ()))

/-- The end of `Database.set`, after the grant was stored. -/
def setRestP (u : Str) (c g : Option Str) (v : Obj) : Prog (Except Exn Unit) :=
  (if truthy c then setClientP u (c.getD []) g v else .ret (.ok ())).bind fun
    | .error e => .ret (.error e)
    | .ok () => setUserP u c v

/-- `Database.set` (session/database.py:41-68). -/
def setP (path : List Str) (v : Obj) : Prog (Except Exn Unit) :=
  match evalPath path with
  | .error e => .ret (.error e)
  | .ok (u, c, g) =>
    if truthy g then .write (sessionKey [u, c.getD [], g.getD []]) (some v) (setRestP u c g v) else setRestP u c g v

/-! ### `session/manager.py` -/

/-- `create_grant` (session/manager.py:85-121). -/
def createGrantP (sf : SubFuncs) (now : Int) (gid u c : Str) (a : SessArgs) : Prog (Except Exn Str) :=
  match newGrant sf now gid u a with
  | .error e => .ret (.error e)
  | .ok g => (setP [u, c, gid] (.grant g)).bind fun
    | .error e => .ret (.error e)
    | .ok () => .ret (.ok (sessionKey [u, c, gid]))

/-- First part of `create_session` (session/manager.py:149-153). -/
def ensureUserP (u : Str) : Prog (Except Exn Unit) :=
  (getP [u]).bind fun
    | .ok _ => .ret (.ok ())
    | .error e => if e.isKeyError then setP [u] (.info (SessInfo.user u)) else .ret (.error e)

/-- `create_session` (session/manager.py:123-171). -/
def createSessionP (sf : SubFuncs) (now : Int) (gid u c : Str) (a : SessArgs) : Prog (Except Exn Str) :=
  (ensureUserP u).bind fun
    | .error e => .ret (.error e)
    | .ok () =>
      (setP [u, if c = [] then a.authReq.clientId else c] (.info (SessInfo.client (if c = [] then a.authReq.clientId else c)))).bind fun
        | .error e => .ret (.error e)
        | .ok () => createGrantP sf now gid u (if c = [] then a.authReq.clientId else c) a

/-- `manager[session_id]` (session/manager.py:173-174). -/
def mgrGetP (sid : Str) : Prog (Except Exn Obj) := getP (unpackSessionKey sid)

/-- `manager[session_id] = value` (session/manager.py:176-177). -/
def mgrSetP (sid : Str) (v : Obj) : Prog (Except Exn Unit) := setP (unpackSessionKey sid) v

/-- `get_grant` (session/manager.py:207-219). -/
def getGrantP (sid : Str) : Prog (Except Exn Grant) :=
  match unpack3 sid with
  | .error e => .ret (.error e)
  | .ok (u, c, g) => (getP [u, c, g]).bind fun
    | .error e => .ret (.error e)
    | .ok (.grant g) => .ret (.ok g)
    | .ok (.info _) => .ret (.error .valueError)

/-- `get_session_info_by_token` (session/manager.py:374-388, 322-372). -/
def byTokenP (th : TokenHandler) (cr : TokenCrypto) (now : Int) (value : Str) : Prog (Except Exn (Str × Obj)) :=
  match th.sid cr now value with
  | .error e => .ret (.error e)
  | .ok sid => match unpack3 sid with
    | .error e => .ret (.error e)
    | .ok (u, c, g) => (getP [u, c, g]).bind fun
      | .error e => .ret (.error e)
      | .ok o => .ret (.ok (sid, o))

/-- `revoke_client_session` (session/manager.py:274-289), for a user and a client. -/
def revokeClientAtP (u c : Str) : Prog (Except Exn Unit) :=
  (getP [u, c]).bind fun
    | .error e => .ret (.error e)
    | .ok (.grant _) => .ret (.error .typeError)
    | .ok (.info i) => setP [u, c] (.info i.revoke)

/-- `revoke_client_session` (session/manager.py:274-289). -/
def revokeClientP (sid : Str) : Prog (Except Exn Unit) :=
  match unpackSessionKey sid with
  | [u, c] => revokeClientAtP u c
  | [u, c, _] => revokeClientAtP u c
  | _ => .ret (.error .valueError)

/-- `revoke_grant` (session/manager.py:291-300). -/
def revokeGrantP (sid : Str) : Prog (Except Exn Unit) :=
  (getP (unpackSessionKey sid)).bind fun
    | .error e => .ret (.error e)
    | .ok o => setP (unpackSessionKey sid) o.revoke

/-- `add_grant` (session/manager.py:394-409). -/
def addGrantP (now : Int) (gid u c : Str) (a : GrantArgs) : Prog (Except Exn Grant) :=
  let g := Grant.new now gid { a with claims := [] }
  (setP [u, c, gid] (.grant g)).bind fun
    | .error e => .ret (.error e)
    | .ok () => (getP [u, c]).bind fun
      | .error e => .ret (.error e)
      | .ok (.grant _) => .ret (.error .typeError)
      | .ok (.info i) => (setP [u, c] (.info { i with subordinate := i.subordinate ++ [gid] })).bind fun
        | .error e => .ret (.error e)
        | .ok () => .ret (.ok g)

/-- `revoke_token` (session/manager.py:227-243).  With a back end that keeps objects the change of the stored object is one
write. -/
def revokeTokenP (m : Mode) (limit : Nat) (sid value : Str) (recursive : Bool) : Prog (Except Exn Unit) :=
  match unpack3 sid with
  | .error e => .ret (.error e)
  | .ok (u, c, g) => (getP [u, c, g]).bind fun
    | .error e => .ret (.error e)
    | .ok (.info _) => .ret (.error .attributeError)
    | .ok (.grant gr) => match gr.getToken value with
      | none => .ret (.error .unknownToken)
      | some _ =>
        let l1 := updateFirst value Token.revoke gr.issuedToken
        let r := if recursive then revokeDependentL limit value l1 else (l1, true)
        match m with
        | .aliased => .write sid (some (.grant { gr with issuedToken := r.1 })) (.ret (if r.2 then .ok () else .error .recursionError))
        | .byValue => .ret (if r.2 then .ok () else .error .recursionError)

/-- The loop over the grants in `Database.delete` (session/database.py:121-124): each is deleted, `KeyError` if it is missing. -/
def delGrantsP (u c : Str) : List Str → Prog (Except Exn Unit)
  | [] => .ret (.ok ())
  | g :: gs => .read (sessionKey [u, c, g]) fun
    | none => .ret (.error .keyError)
    | some _ => .write (sessionKey [u, c, g]) none (delGrantsP u c gs)

/-- The end of `Database.delete` (session/database.py:132-135). -/
def delUserPartP (u : Str) (ui : Obj) (usub : List Str) : Prog (Except Exn Unit) :=
  .write u (if usub = [] then none else some (ui.setSubordinate usub)) (.ret (.ok ()))

/-- `Database.delete` of a client session (session/database.py:102-141), without a grant id: the grants, the client record, the user
record.  Removing a single grant is `removeGrantP`. -/
def delClientP (u c : Str) (ui : Obj) (usub csub : List Str) : Prog (Except Exn Unit) :=
  (delGrantsP u c csub).bind fun
    | .error e => .ret (.error e)
    | .ok () => .write (sessionKey [u, c]) none (delUserPartP u ui (usub.erase c))

/-- What `Database.delete` does with the client record after a single grant was removed (session/database.py:126-135): what is
left is stored under the bare client id. -/
def afterGrantP (u c : Str) (ui ci : Obj) (usub csub : List Str) : Prog (Except Exn Unit) :=
  if csub = [] then .write (sessionKey [u, c]) none (delUserPartP u ui (usub.erase c))
  else .write c (some (ci.setSubordinate csub)) (delUserPartP u ui usub)

/-- `Database.delete` of a single grant (session/database.py:112-135). -/
def removeGrantP (m : Mode) (u c g : Str) (ui ci : Obj) (usub csub : List Str) : Prog (Except Exn Unit) :=
  if g ∈ csub then
    .write (sessionKey [u, c, g]) none
      (if m = .aliased then .write (sessionKey [u, c]) (some (ci.setSubordinate (csub.erase g))) (afterGrantP u c ui ci usub (csub.erase g))
       else afterGrantP u c ui ci usub (csub.erase g))
  else afterGrantP u c ui ci usub csub

/-- `Database.delete` (session/database.py:102-141). -/
def deleteP (m : Mode) (path : List Str) : Prog (Except Exn Unit) :=
  match evalPath path with
  | .error e => .ret (.error e)
  | .ok (u, c, g) => .read u fun
    | none => .ret (.ok ())
    | some ui =>
      if truthy c = false then .write u none (.ret (.ok ()))
      else
        let c := c.getD []
        match ui.subordinate with
        | .error e => .ret (.error e)
        | .ok usub =>
          if c ∉ usub then .ret (.ok ())
          else .read (sessionKey [u, c]) fun
          | none => delUserPartP u ui usub
          | some ci =>
            match ci.subordinate with
            | .error e => .ret (.error e)
            | .ok csub => if truthy g then removeGrantP m u c (g.getD []) ui ci usub csub else delClientP u c ui usub csub

/-- `remove_session` (session/manager.py:430-432). -/
def removeSessionP (m : Mode) (sid : Str) : Prog (Except Exn Unit) :=
  match unpack3 sid with
  | .error e => .ret (.error e)
  | .ok (u, c, g) => deleteP m [u, c, g]

/-! ### Minting and the token endpoint -/

/-- `mint_token`, `_mint_token` (oauth2/authorization.py:311-332, oidc/token.py:50-78). -/
def mintP (env : Env) (h : Option Handler) (now : Int) (m : MintIn) (sid tokenType : Str) (g : Grant) (basedOn : Option Token) :
    Prog (Grant × Except Exn Token) :=
  let rules := (g.usageRules.get? tokenType).getD {}
  let r := g.mintToken now m.id tokenType basedOn (some rules) [] {} (tokenString env h now m sid)
  match r.2 with
  | .error e => .ret (r.1, .error e)
  | .ok none => .ret (r.1, .error .attributeError)
  | .ok (some t) =>
    let e := rules.expiresIn.getD 0
    let g' : Grant := if e = 0 then r.1 else { r.1 with issuedToken := setLastExpiry (now + e) r.1.issuedToken }
    let t' : Token := if e = 0 then t else { t with expiresAt := now + e }
    (mgrSetP sid (.grant g')).bind fun
      | .error e => .ret (g', .error e)
      | .ok () => .ret (g', .ok t')

/-- Minting if asked to (oidc/token.py:143-148, 245-249; oauth2/authorization.py:675-703). -/
def mintIfP (want : Bool) (env : Env) (h : Option Handler) (now : Int) (m : MintIn) (sid tokenType : Str) (g : Grant) (basedOn : Option Token) :
    Prog (Grant × Except Exn (Option Token)) :=
  if want then (mintP env h now m sid tokenType g basedOn).bind fun r => .ret (r.1, r.2.map some) else .ret (g, .ok none)

/-- The end of `AccessTokenHelper.process_request` (oidc/token.py:151-166). -/
def finishCodeP (i : TokIn) (sid : Str) (g : Grant) (base : Option Token) (ar : AuthReq) (tok : Token) (rt : Option Token) : Prog (Out TokResp) :=
  match base with
  | none => .ret (.raise .attributeError)
  | some b => (mgrSetP sid (.grant (g.registerUsage b.value))).bind fun
    | .error e => .ret (.raise e)
    | .ok () => match idTokenFor (decide (c!"openid" ∈ ar.scope)) i.idt with
      | .raise e => .ret (.raise e)
      | .errMsg e => .ret (.errMsg e)
      | .val idt => .ret (.val { accessToken := tok.value, refreshToken := rt.map (·.value), idToken := idt,
                                 scope := g.scope, expiresIn := some (tok.expiresAt - i.now) })

/-- `AccessTokenHelper.process_request` after the checks (oidc/token.py:121-166). -/
def exchangeCodeP (env : Env) (i : TokIn) (sid : Str) (g : Grant) (base : Option Token) (ar : AuthReq) : Prog (Out TokResp) :=
  (mintP env env.th.accessToken i.now i.ma sid tAccessToken g base).bind fun r1 =>
    match r1.2 with
    | .error e => .ret (.raise e)
    | .ok tok =>
      (mintIfP (decide (c!"offline_access" ∈ g.scope)) env env.th.accessToken i.now i.mr sid tRefreshToken r1.1 base).bind fun r2 =>
        match r2.2 with
        | .error e => .ret (.raise e)
        | .ok rt => finishCodeP i sid r2.1 base ar tok rt

/-- `AccessTokenHelper.process_request` (oidc/token.py:82-166). -/
def codeProcessP (env : Env) (i : TokIn) (req : TokReq) : Prog (Out TokResp) :=
  if req.grantType ≠ some c!"authorization_code" then .ret (.errMsg c!"invalid_request")
  else match req.code with
  | none => .ret (.errMsg c!"invalid_request")
  | some c0 => (byTokenP env.th env.cr i.now (plusForBlank c0)).bind fun
    | .error e => .ret (.raise e)
    | .ok (_, .info _) => .ret (.raise .attributeError)
    | .ok (sid, .grant g) =>
      match g.authReq with
      | none => .ret (.raise .typeError)
      | some ar =>
        match redirectCheck ar req with
        | .raise e => .ret (.raise e)
        | .errMsg e => .ret (.errMsg e)
        | .val () => exchangeCodeP env i sid g (g.getToken (plusForBlank c0)) ar

/-- Changing the object that was stored last (see `touch`). -/
def touchP {α : Type} (m : Mode) (sid : Str) (g : Grant) (a : α) : Prog α :=
  match m with
  | .aliased => .write sid (some (.grant g)) (.ret a)
  | .byValue => .ret a

/-- A new refresh token with the rules of the old one (oidc/token.py:245-250). -/
def newRefreshP (m : Mode) (env : Env) (i : TokIn) (sid : Str) (g : Grant) (base : Token) (want : Bool) : Prog (Except Exn (Option Token)) :=
  (mintIfP want env env.th.accessToken i.now i.mr sid tRefreshToken g (some base)).bind fun r =>
    match r.2 with
    | .error e => .ret (.error e)
    | .ok none => .ret (.ok none)
    | .ok (some t) => touchP m sid (r.1.copyRulesToLast base.usageRules) (.ok (some t))

/-- The end of `RefreshTokenHelper.process_request` (oidc/token.py:253-263). -/
def finishRefreshP (i : TokIn) (g : Grant) (mints : List Str) (tok : Token) (rt : Option Token) : Prog (Out TokResp) :=
  match idTokenFor (decide (c!"id_token" ∈ mints)) i.idt with
  | .raise e => .ret (.raise e)
  | .errMsg e => .ret (.errMsg e)
  | .val idt => .ret (.val { accessToken := tok.value, refreshToken := rt.map (·.value), idToken := idt,
                             scope := g.scope,
                             expiresIn := if tok.expiresAt = 0 then none else some (tok.expiresAt - i.now) })

/-- `RefreshTokenHelper.process_request` after the session was found (oidc/token.py:223-263). -/
def exchangeRefreshP (m : Mode) (env : Env) (i : TokIn) (sid : Str) (g : Grant) (base : Option Token) : Prog (Out TokResp) :=
  (mintP env env.th.accessToken i.now i.ma sid tAccessToken g base).bind fun r1 =>
    match r1.2 with
    | .error e => .ret (.raise e)
    | .ok tok =>
      match base with
      | none => .ret (.raise .attributeError)
      | some b => match b.usageRules.supportsMinting with
        | none => .ret (.raise .typeError)
        | some mints => (newRefreshP m env i sid r1.1 b (decide (tRefreshToken ∈ mints))).bind fun
          | .error e => .ret (.raise e)
          | .ok rt => finishRefreshP i g mints tok rt

/-- `RefreshTokenHelper.process_request` (oidc/token.py:211-263). -/
def refreshProcessP (m : Mode) (env : Env) (i : TokIn) (req : TokReq) : Prog (Out TokResp) :=
  if req.grantType ≠ some c!"refresh_token" then .ret (.errMsg c!"invalid_request")
  else match req.refreshToken with
  | none => .ret (.raise .keyError)
  | some v => (byTokenP env.th env.cr i.now v).bind fun
    | .error e => .ret (.raise e)
    | .ok (_, .info _) => .ret (.raise .attributeError)
    | .ok (sid, .grant g) => exchangeRefreshP m env i sid g (g.getToken v)

/-- `AccessTokenHelper.post_parse_request` (oidc/token.py:168-207). -/
def codeParseP (env : Env) (now : Int) (req : TokReq) : Prog (Out TokReq) :=
  match req.code with
  | none => .ret (.errMsg c!"invalid_grant")
  | some code => (byTokenP env.th env.cr now code).bind fun
    | .error e => .ret (if e.isKeyError || e == .unknownToken then .errMsg c!"invalid_grant" else .raise e)
    | .ok (_, .info _) => .ret (.raise .attributeError)
    | .ok (_, .grant g) =>
      match g.getToken code with
      | none => .ret (.errMsg c!"invalid_request")
      | some t =>
        if t.kind ≠ .authorizationCode then .ret (.errMsg c!"invalid_request")
        else if t.isActive now = false then .ret (.errMsg c!"invalid_request")
        else match req.clientId with
        | some _ => .ret (.val req)
        | none => match g.authReq with
          | none => .ret (.raise .typeError)
          | some ar => .ret (.val { req with clientId := some ar.clientId })

/-- `RefreshTokenHelper.post_parse_request` (oidc/token.py:265-305). -/
def refreshParseP (env : Env) (now : Int) (req : TokReq) : Prog (Out TokReq) :=
  match req.refreshToken with
  | none => .ret (.raise .missingRequiredAttribute)
  | some v => (byTokenP env.th env.cr now v).bind fun
    | .error e => .ret (if e.isKeyError then .errMsg c!"invalid_grant" else .raise e)
    | .ok (_, .info _) => .ret (.raise .attributeError)
    | .ok (_, .grant g) =>
      match g.getToken v with
      | none => .ret (.errMsg c!"invalid_request")
      | some t =>
        if t.kind ≠ .refreshToken then .ret (.errMsg c!"invalid_request")
        else if t.isActive now = false then .ret (.errMsg c!"invalid_request")
        else .ret (.val req)

/-- `_post_parse_request` (oidc/token.py:376-385). -/
def helperParseP (env : Env) (helpers : Dict Helper) (now : Int) (req : TokReq) : Prog (Out TokReq) :=
  match req.grantType with
  | none => .ret (.raise .keyError)
  | some gt => match helpers.get? gt with
    | none => .ret (.errMsg c!"invalid_request")
    | some (.bare _) => .ret (.raise .attributeError)
    | some (.inst .accessToken) => codeParseP env now req
    | some (.inst .refreshToken) => refreshParseP env now req

/-- `post_token_parse` (pkce.py:90-130). -/
def pkceTokenParseP (p : Pkce) (env : Env) (now : Int) (req : TokReq) : Prog (Out TokReq) :=
  match req.code with
  | none => .ret (.errMsg c!"invalid_grant")
  | some code => (byTokenP env.th env.cr now code).bind fun
    | .error e => .ret (if e.isKeyError then .errMsg c!"invalid_grant" else .raise e)
    | .ok (_, .info _) => .ret (.raise .attributeError)
    | .ok (_, .grant g) =>
      match g.authReq with
      | none => .ret (.raise .typeError)
      | some ar =>
        match ar.codeChallenge with
        | none => .ret (.val req)
        | some ch =>
          match req.codeVerifier with
          | none => .ret (.errMsg c!"invalid_grant")
          | some v =>
            match ar.codeChallengeMethod with
            | none => .ret (.raise .keyError)
            | some m =>
              match verifyChallenge p.methods v ch m with
              | .error e => .ret (.raise e)
              | .ok true => .ret (.val req)
              | .ok false => .ret (.errMsg c!"invalid_grant")

/-- `parse_request` of the token endpoint after client authentication (endpoint.py:291-298, pkce.py:140). -/
def tokParseP (env : Env) (helpers : Dict Helper) (now : Int) (req : TokReq) : Prog (Out TokReq) :=
  (helperParseP env helpers now req).bind fun
    | .errMsg e => .ret (.errMsg e)
    | .raise e => .ret (.raise e)
    | .val r => match env.pkce with
      | none => .ret (.val r)
      | some p => pkceTokenParseP p env now r

/-- The helper's part of `Token.process_request` (oidc/token.py:399-409). -/
def helperProcessP (m : Mode) (env : Env) (helpers : Dict Helper) (i : TokIn) (req : TokReq) : Prog (Out TokResp) :=
  match req.grantType with
  | none => .ret (.raise .keyError)
  | some gt => match helpers.get? gt with
    | none => .ret (.errMsg c!"invalid_request")
    | some (.bare _) => .ret (.raise .typeError)
    | some (.inst .accessToken) => codeProcessP env i req
    | some (.inst .refreshToken) => refreshProcessP m env i req

/-- `Token.process_request` (oidc/token.py:387-429). -/
def tokProcessP (m : Mode) (env : Env) (helpers : Dict Helper) (i : TokIn) (req : TokReq) : Prog (Out TokResp) :=
  (helperProcessP m env helpers i req).bind fun
    | .raise e => .ret (.raise e)
    | .errMsg e => .ret (.errMsg e)
    | .val resp => (byTokenP env.th env.cr i.now resp.accessToken).bind fun
      | .error e => .ret (.raise e)
      | .ok (_, .info _) => .ret (.raise .attributeError)
      | .ok (_, .grant _) => .ret (.val resp)

/-- A token request: `parse_request`, then `process_request` (oidc/token.py:376-429). -/
def tokenEndpointP (m : Mode) (env : Env) (helpers : Dict Helper) (i : TokIn) (req : TokReq) : Prog (Out TokResp) :=
  (tokParseP env helpers i.now req).bind fun
    | .errMsg e => .ret (.errMsg e)
    | .raise e => .ret (.raise e)
    | .val r => tokProcessP m env helpers i r

/-! ### Userinfo and introspection -/

/-- `UserInfo.process_request` (oidc/userinfo.py:105-151) for the request's `access_token`. -/
def userinfoP (env : Env) (userDb : Str → Dict Val) (now : Int) (value : Str) : Prog (Out (Dict Val × Str)) :=
  (byTokenP env.th env.cr now value).bind fun
    | .error e => .ret (.raise e)
    | .ok (_, .info _) => .ret (.raise .attributeError)
    | .ok (sid, .grant g) =>
      match g.getToken value with
      | none => .ret (.errMsg c!"invalid_token")
      | some t =>
        if t.kind ≠ .accessToken then .ret (.errMsg c!"invalid_token")
        else if t.isActive now = false then .ret (.errMsg c!"invalid_token")
        else match authnLive now g.authnEvent with
        | .error e => .ret (.raise e)
        | .ok false => .ret (.errMsg c!"invalid_request")
        | .ok true =>
          match unpack3 sid with
          | .error e => .ret (.raise e)
          | .ok (user, client, _) =>
            match getUserClaims userDb user ((g.claims.get? c!"userinfo").getD []) with
            | .error e => .ret (.raise e)
            | .ok info => .ret (.val (Dict.set info c!"sub" (.str g.sub), client))

/-- `Introspection.process_request` (oauth2/introspection.py:58-103). -/
def introspectP (env : Env) (issuer : Str) (release : Bool) (userDb : Str → Dict Val) (now : Int) (value : Str) : Prog (Out (Dict Val)) :=
  (byTokenP env.th env.cr now value).bind fun
    | .error e => .ret (if e = .unknownToken then .val inactive else .raise e)
    | .ok (_, .info _) => .ret (.raise .attributeError)
    | .ok (sid, .grant g) =>
      match unpack3 sid with
      | .error e => .ret (.raise e)
      | .ok (user, client, _) =>
        match g.getToken value with
        | none => .ret (.raise .attributeError)
        | some t => match introspectInfo issuer now t client g with
          | none => .ret (.val inactive)
          | some info =>
            let info := if release then Dict.set info c!"username" (.str user) else info
            let resp := Dict.update inactive info
            match (g.claims.get? c!"introspection").getD [] with
            | [] => .ret (.val (Dict.set resp c!"active" (.bool true)))
            | restr => match getUserClaims userDb user restr with
              | .error e => .ret (.raise e)
              | .ok ui => .ret (.val (Dict.set (Dict.update resp ui) c!"active" (.bool true)))

/-! ### The authorization endpoint -/

/-- The last part of `setup_auth` without a session in the cookie (oauth2/authorization.py:581-599). -/
def startSessionP (env : Env) (cdb : Cdb) (now : Int) (gid : Str) (req : AuthReq) (a : AuthnIn) (uid : Str) : Prog (Out Setup) :=
  let ev := createAuthnEvent now uid a.acr a.ts
  let ev := match a.expiresIn with
    | some e => if e = 0 then ev else { ev with validUntil := now + e }
    | none => ev
  (createSessionP env.sf now gid uid req.clientId
    { authnEvent := some ev, authReq := req, usageRules := usageRulesOf env.gc cdb req.clientId }).bind fun
    | .error e => .ret (.raise e)
    | .ok sid => .ret (.val (.session sid uid))

/-- `get_authentication_event` (session/manager.py:270-272, 349-355). -/
def authnEventP (sid : Str) : Prog (Except Exn (Option AuthnEvent)) :=
  match unpack3 sid with
  | .error e => .ret (.error e)
  | .ok (u, c, g) => (getP [u, c, g]).bind fun
    | .error e => .ret (.error e)
    | .ok (.info _) => .ret (.error .attributeError)
    | .ok (.grant gr) => .ret (.ok gr.authnEvent)

/-- `setup_auth` with a session in the cookie: the session to go on with, a new one if the request is new
(oauth2/authorization.py:566-580). -/
def reuseP (env : Env) (now : Int) (gid : Str) (req : AuthReq) (uid sid : Str) (g0 : Grant) : Prog (Out Str) :=
  if g0.authReq = some req then .ret (.val sid)
  else match eventValid now g0.authnEvent with
    | .error e => .ret (.raise e)
    | .ok false => .ret (.errMsg [])
    | .ok true => (createGrantP env.sf now gid uid req.clientId { authnEvent := g0.authnEvent, authReq := req }).bind fun
      | .error e => .ret (.raise e)
      | .ok sid' => .ret (.val sid')

/-- `setup_auth` (oauth2/authorization.py:466-601). -/
def setupAuthP (env : Env) (cdb : Cdb) (now : Int) (gid : Str) (req : AuthReq) (a : AuthnIn) : Prog (Out Setup) :=
  match a.ident with
  | .nobody => .ret (.val (needLogin req))
  | .plain uid =>
    if a.reAuth then .ret (.val .login)
    else if a.reqUser.isSome ∧ a.reqUser ≠ some uid then .ret (.val (needLogin req))
    else startSessionP env cdb now gid req a uid
  | .decoded uid sid =>
    match sid with
    | none => .ret (.raise .attributeError)
    | some sid => (mgrGetP sid).bind fun
      | .error e => .ret (.raise e)
      | .ok (.info _) => .ret (.raise .attributeError)
      | .ok (.grant g0) =>
        if g0.isActive now = false then .ret (.val (needLogin req))
        else if a.reAuth then .ret (.val .login)
        else match uid with
        | none => .ret (.raise .keyError)
        | some uid =>
          if a.reqUser.isSome ∧ a.reqUser ≠ some uid then .ret (.val (needLogin req))
          else match unpack3 sid with
          | .error e => .ret (.raise e)
          | .ok (_, c, _) =>
            if req.clientId ≠ c then .ret (.val .login)
            else (reuseP env now gid req uid sid g0).bind fun
              | .raise e => .ret (.raise e)
              | .errMsg _ => .ret (.val .login)
              | .val sid' => (authnEventP sid').bind fun
                | .error e => .ret (.raise e)
                | .ok ev => match eventValid now ev with
                  | .error e => .ret (.raise e)
                  | .ok false => .ret (.val .login)
                  | .ok true => .ret (.val (.session sid' uid))

/-- The ID token part of `create_authn_response` (oauth2/authorization.py:705-727). -/
def idTokenPartP (idt : Out Str) (sid : Str) (req : AuthReq) : Prog (Out (Option Str)) :=
  if c!"id_token" ∈ req.responseType then
    match idt with
    | .raise e => .ret (.raise e)
    | .errMsg _ => .ret (.errMsg c!"invalid_request")
    | .val i =>
      match unpack3 sid with
      | .error e => .ret (.raise e)
      | .ok (u, c, _) => (getP [u, c]).bind fun
        | .error e => .ret (.raise e)
        | .ok o => (setP [u, c] o).bind fun
          | .error e => .ret (.raise e)
          | .ok () => .ret (.val (some i))
  else .ret (.val none)

/-- `create_authn_response` (oauth2/authorization.py:643-735). -/
def responseP (env : Env) (now : Int) (mc ma : MintIn) (idt : Out Str) (req : AuthReq) (sid : Str) : Prog (Except Exn (Out RespArgs × Bool)) :=
  if req.responseType = [c!"none"] then .ret (.ok (.val { state := returnedState req }, false))
  else (getGrantP sid).bind fun
  | .error e => .ret (.error e)
  | .ok g =>
    (mintIfP (decide (c!"code" ∈ req.responseType)) env env.th.code now mc sid tAuthorizationCode g none).bind fun r1 =>
    match r1.2 with
    | .error e => .ret (.error e)
    | .ok code =>
      (mintIfP (decide (c!"token" ∈ req.responseType)) env env.th.accessToken now ma sid tAccessToken r1.1 code).bind fun r2 =>
      match r2.2 with
      | .error e => .ret (.error e)
      | .ok tok => (idTokenPartP idt sid req).bind fun
        | .raise e => .ret (.error e)
        | .errMsg m => .ret (.ok (.errMsg m, !(sameSet req.responseType [c!"code"])))
        | .val i =>
          if req.responseType.all (fun t => [c!"code", c!"token", c!"id_token"].contains t) then
            .ret (.ok (.val { state := returnedState req, scope := req.scope, code := code.map (·.value),
                              accessToken := tok.map (·.value), idToken := i,
                              expiresIn := tok.bind fun t => if t.expiresAt = 0 then none else some (t.expiresAt - now) },
              !(sameSet req.responseType [c!"code"])))
          else .ret (.ok (.errMsg c!"invalid_request", !(sameSet req.responseType [c!"code"])))

/-- `post_authentication` and `authz_part2` (oauth2/authorization.py:737-815, 829-904). -/
def part2P (env : Env) (cdb : Cdb) (now : Int) (mc ma : MintIn) (idt : Out Str) (req : AuthReq) (sid : Str) : Prog (Cdb × AuthzReply) :=
  (getGrantP sid).bind fun
  | .error _ => .ret (cdb, errReply c!"access_denied")
  | .ok g =>
    match unpack3 sid with
    | .error _ => .ret (cdb, errReply c!"access_denied")
    | .ok (u, c, gi) =>
      let a := authzCall env.gc env.ccfg cdb now c g req
      match a.2 with
      | .error _ => .ret (a.1, errReply c!"access_denied")
      | .ok g' => (setP [u, c, gi] (.grant g')).bind fun
        | .error _ => .ret (a.1, errReply c!"server_error")
        | .ok () => (responseP env now mc ma idt req sid).bind fun
          | .error _ => .ret (a.1, errReply c!"server_error")
          | .ok (content, frag) =>
            let dflt := if frag then Placement.fragment else .query
            match getUri env.lib a.1 .redirect req.clientId req.redirectUri with
            | .error e => .ret (a.1, if e == .redirectURIError || e == .parameterError
                then { content := .errMsg c!"invalid_request", placement := dflt, uri := none }
                else errReply c!"server_error")
            | .ok uri =>
              match responseMode req.responseMode frag with
              | .error _ => .ret (a.1, { content := .errMsg c!"invalid_request", placement := dflt, uri := some uri })
              | .ok pl => .ret (a.1, { content := content, placement := pl, uri := some uri })

/-- `process_request` of the authorization endpoint (oauth2/authorization.py:909-953). -/
def authzProcessP (env : Env) (cdb : Cdb) (now : Int) (gid : Str) (mc ma : MintIn) (idt : Out Str) (a : AuthnIn) (req : AuthReq) :
    Prog (Cdb × AuthzAnswer) :=
  match cdb req.clientId with
  | none => .ret (cdb, .raise .keyError)
  | some c =>
    if checkScopes env c req = false then .ret (cdb, .raise .unAuthorizedClient)
    else (setupAuthP env cdb now gid req a).bind fun
      | .raise e => .ret (cdb, .raise e)
      | .errMsg e => .ret (cdb, .error e)
      | .val .login => .ret (cdb, .login)
      | .val .loginRequired => .ret (cdb, .error c!"login_required")
      | .val (.session sid _) => (part2P env cdb now mc ma idt req sid).bind fun p => .ret (p.1, .reply p.2)

/-! ### Threads -/

/-- Any number of threads and the storage they share. -/
structure Threads (α : Type) where
  store : Store
  prog : Nat → Prog α

/-- Thread `t` reads or writes its next item. -/
def Threads.step {α : Type} (x : Threads α) (t : Nat) : Threads α :=
  match x.prog t with
  | .ret _ => x
  | .read k f => { x with prog := fun i => if i = t then f (x.store k) else x.prog i }
  | .write k v p => { store := fun k' => if k' = k then v else x.store k', prog := fun i => if i = t then p else x.prog i }

/-- A schedule: which thread goes on, time after time. -/
def Threads.run {α : Type} (x : Threads α) (sched : List Nat) : Threads α := sched.foldl Threads.step x

end Verif
