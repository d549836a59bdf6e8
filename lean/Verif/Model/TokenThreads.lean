import Verif.Model.ManyThreads
/-! Any number of threads inside the token endpoint (oidc/token.py:82-166, 211-263), exchanging codes and refresh tokens, while grants
and tokens are revoked. -/
namespace Verif

/-- Where a thread inside `RefreshTokenHelper.process_request` is, with its local variables `_session_info["session_id"]`, `_grant`,
`token_value`, `access_token`. -/
inductive RfPc where
  | start
  | looked (sid : Str) (g : Grant) (value : Str)
  | mintedA (sid : Str) (g : Grant) (value : Str) (tok : Token)
  | done (o : Out TokResp)

/-- One piece of `RefreshTokenHelper.process_request` (oidc/token.py:211-222, 224-227, 229-263).  Simplification: interruptions inside
the pieces are not considered. -/
def rfStep (m : Mode) (env : Env) (i : TokIn) (req : TokReq) (s : Store) : RfPc → Store × RfPc
  | .start =>
    if req.grantType ≠ some c!"refresh_token" then (s, .done (.errMsg c!"invalid_request"))
    else match req.refreshToken with
    | none => (s, .done (.raise .keyError))
    | some v =>
      match sessionByToken env.th env.cr s i.now v with
      | .error e => (s, .done (.raise e))
      | .ok (_, .info _) => (s, .done (.raise .attributeError))
      | .ok (sid, .grant g) => (s, .looked sid g v)
  | .looked sid g0 v =>
    let g := seen m s sid g0
    let r := mintAndStore env env.th.accessToken s i.now i.ma sid tAccessToken g (g.getToken v)
    match r.2.2 with
    | .error e => (r.1, .done (.raise e))
    | .ok tok => (r.1, .mintedA sid r.2.1 v tok)
  | .mintedA sid g0 v tok =>
    let g := seen m s sid g0
    match g.getToken v with
    | none => (s, .done (.raise .attributeError))
    | some b => match b.usageRules.supportsMinting with
      | none => (s, .done (.raise .typeError))
      | some mints =>
        let r := newRefresh m env s i sid g b (decide (tRefreshToken ∈ mints))
        match r.2 with
        | .error e => (r.1, .done (.raise e))
        | .ok rt => let f := finishRefresh r.1 i g mints tok rt; (f.1, .done f.2)
  | .done o => (s, .done o)

/-- A thread in one of the two helpers. -/
inductive JobPc where
  | code (p : ThPc)
  | refresh (p : RfPc)

/-- The next piece of a thread (oidc/token.py:82-166, 211-263). -/
def jobPiece (m : Mode) (env : Env) (i : TokIn) (req : TokReq) (s : Store) : JobPc → Store × JobPc
  | .code p => let r := thStep m env i req s p; (r.1, .code r.2)
  | .refresh p => let r := rfStep m env i req s p; (r.1, .refresh r.2)

/-- The helper for the grant type of the request (oidc/token.py:400-408, `HELPER_BY_GRANT_TYPE` at 308-311). -/
def jobStart (req : TokReq) : JobPc :=
  if req.grantType = some c!"refresh_token" then .refresh .start else .code .start

/-- The storage and the threads. -/
structure Jobs where
  store : Store
  pc : Nat → JobPc

/-- A thread goes on to its next piece, a grant is revoked (session/manager.py:291-300), or a token is (session/manager.py:227-243,
with Python's recursion limit), a user logs in at a client (`create_session`, session/manager.py:123-171, with the new grant's id), or out
(`revoke_client_session`, session/manager.py:273-289).  Simplification: a login or logout happens at once. -/
inductive JobEv where
  | step (t : Nat)
  | login (sf : SubFuncs) (now : Int) (gid u c : Str) (a : SessArgs)
  | logout (sid : Str)
  | revokeGrant (sid : Str)
  | revokeToken (limit : Nat) (sid value : Str) (recursive : Bool)

/-- Thread `t` serves the request `req t` with the inputs `i t`. -/
def jobStep (m : Mode) (env : Env) (i : Nat → TokIn) (req : Nat → TokReq) (x : Jobs) : JobEv → Jobs
  | .step t => let r := jobPiece m env (i t) (req t) x.store (x.pc t)
    { store := r.1, pc := fun j => if j = t then r.2 else x.pc j }
  | .login sf now gid u c a => { x with store := (createSession sf x.store now gid u c a).1 }
  | .logout sid => { x with store := (revokeClientSession x.store sid).1 }
  | .revokeGrant sid => { x with store := (Verif.revokeGrant x.store sid).1 }
  | .revokeToken limit sid v r => { x with store := (Verif.revokeToken m x.store limit sid v r).1 }

/-- A schedule. -/
def jobRun (m : Mode) (env : Env) (i : Nat → TokIn) (req : Nat → TokReq) (x : Jobs) (evs : List JobEv) : Jobs :=
  evs.foldl (jobStep m env i req) x

/-- All threads are at the beginning. -/
def jobsAt (req : Nat → TokReq) (s : Store) : Jobs := { store := s, pc := fun t => jobStart (req t) }

end Verif
