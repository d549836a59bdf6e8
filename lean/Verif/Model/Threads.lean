import Verif.Model.TokenEndpoint
/-! `AccessTokenHelper.process_request` (oidc/token.py:82-166) in pieces, as a thread that can be interrupted between them. -/
namespace Verif

/-- Where a thread is, with its local variables: `_session_info["session_id"]`, `grant`, `_access_code`, `_authn_req`,
`issue_refresh`, `token`, `refresh_token`. -/
inductive ThPc where
  | start
  | looked (sid : Str) (g : Grant) (code : Str) (ar : AuthReq) (want : Bool)
  | mintedA (sid : Str) (g : Grant) (code : Str) (ar : AuthReq) (want : Bool) (tok : Token)
  | mintedR (sid : Str) (g : Grant) (code : Str) (ar : AuthReq) (tok : Token) (rt : Option Token)
  | done (o : Out TokResp)

/-- The grant object as the thread sees it now: the stored object itself if the back end keeps objects (other threads may
have changed it), the thread's own copy otherwise. -/
def seen (m : Mode) (s : Store) (sid : Str) (g : Grant) : Grant :=
  match m with
  | .byValue => g
  | .aliased => match s sid with
    | some (.grant g') => g'
    | _ => g

/-- One piece of `process_request` (oidc/token.py:82-120, 129-141, 143-148, 150-166).  Simplification: interruptions inside
the pieces are not considered. -/
def thStep (m : Mode) (env : Env) (i : TokIn) (req : TokReq) (s : Store) : ThPc → Store × ThPc
  | .start =>
    if req.grantType ≠ some c!"authorization_code" then (s, .done (.errMsg c!"invalid_request"))
    else match req.code with
    | none => (s, .done (.errMsg c!"invalid_request"))
    | some c0 =>
      match sessionByToken env.th env.cr s i.now (plusForBlank c0) with
      | .error e => (s, .done (.raise e))
      | .ok (_, .info _) => (s, .done (.raise .attributeError))
      | .ok (sid, .grant g) =>
        match g.authReq with
        | none => (s, .done (.raise .typeError))
        | some ar =>
          match redirectCheck ar req with
          | .raise e => (s, .done (.raise e))
          | .errMsg e => (s, .done (.errMsg e))
          | .val () => (s, .looked sid g (plusForBlank c0) ar (decide (c!"offline_access" ∈ g.scope)))
  | .looked sid g0 code ar want =>
    let g := seen m s sid g0
    let r := mintAndStore env env.th.accessToken s i.now i.ma sid tAccessToken g (g.getToken code)
    match r.2.2 with
    | .error e => (r.1, .done (.raise e))
    | .ok tok => (r.1, .mintedA sid r.2.1 code ar want tok)
  | .mintedA sid g0 code ar want tok =>
    let g := seen m s sid g0
    let r := refreshPart env s i sid g (g.getToken code) want
    match r.2.2 with
    | .error e => (r.1, .done (.raise e))
    | .ok rt => (r.1, .mintedR sid r.2.1 code ar tok rt)
  | .mintedR sid g0 code ar tok rt =>
    let g := seen m s sid g0
    let r := finishCode s i sid g (g.getToken code) ar tok rt
    (r.1, .done r.2)
  | .done o => (s, .done o)

/-- Two threads and the storage they share. -/
structure Two where
  store : Store
  a : ThPc
  b : ThPc

/-- One step of thread `true` or of thread `false`. -/
def twoStep (m : Mode) (env : Env) (ia ib : TokIn) (req : TokReq) (t : Two) : Bool → Two
  | true => let r := thStep m env ia req t.store t.a; { t with store := r.1, a := r.2 }
  | false => let r := thStep m env ib req t.store t.b; { t with store := r.1, b := r.2 }

/-- A schedule. -/
def twoRun (m : Mode) (env : Env) (ia ib : TokIn) (req : TokReq) (s : Store) (sched : List Bool) : Two :=
  sched.foldl (twoStep m env ia ib req) ⟨s, .start, .start⟩

end Verif
