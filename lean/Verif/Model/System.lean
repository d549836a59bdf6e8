import Verif.Model.Crash
/-! The provider as a whole: the session storage under any sequence of requests and session-manager calls. -/
namespace Verif

/-- One atomic step.  Parsing and processing a token request are separate steps, so that requests interleave between them;
what a request needs from outside (clock, randomness, client database, login) is part of the step. -/
inductive SysOp where
  /-- the authorization endpoint (oauth2/authorization.py:909-953) on a parsed request -/
  | authorize (cdb : Cdb) (now : Int) (gid : Str) (mc ma : MintIn) (idt : Out Str) (a : AuthnIn) (req : AuthReq)
  /-- `parse_request` of the token endpoint (oidc/token.py:376-385) -/
  | tokParse (now : Int) (req : TokReq)
  /-- `process_request` of the token endpoint (oidc/token.py:387-429) -/
  | tokProcess (i : TokIn) (req : TokReq)
  /-- session-manager calls (session/manager.py) -/
  | createSession (now : Int) (gid u c : Str) (a : SessArgs)
  | createGrant (now : Int) (gid u c : Str) (a : SessArgs)
  | addGrant (now : Int) (gid u c : Str) (a : GrantArgs)
  | revokeToken (limit : Nat) (sid value : Str) (recursive : Bool)
  | revokeGrant (sid : Str)
  | revokeClientSession (sid : Str)
  | removeSession (sid : Str)
  /-- `Database.delete` (session/database.py:102-141) of any path -/
  | delete (path : List Str)
  /-- the process is killed while it does `op`, after the first `n` writes of `op` to the storage, and started again -/
  | crash (op : SysOp) (n : Nat)

/-- The state: the storage, and the token requests that were parsed successfully (and may be processed at any later time,
even several times). -/
structure Sys where
  store : Store
  pending : List TokReq

/-- What the provider is configured with. -/
structure SysCfg where
  mode : Mode
  env : Env
  helpers : Dict Helper

/-- The initial state. -/
def Sys.init : Sys := ⟨Store.empty, []⟩

/-- The storage after each write of a step (see `Model/Crash.lean`), if the storage holds copies.  `revoke_token` changes
what it read and does not write it back (session/manager.py:255-272). -/
def stepTrace (cfg : SysCfg) (st : Sys) : SysOp → List Store
  | .authorize cdb now gid mc ma idt a req => authzTrace cfg.env cdb st.store now gid mc ma idt a req
  | .tokParse _ _ => []
  | .tokProcess i req => if req ∈ st.pending then tokTrace cfg.env cfg.helpers st.store i req else []
  | .createSession now gid u c a => createSessionTrace cfg.env.sf st.store now gid u c a
  | .createGrant now gid u c a => createGrantTrace cfg.env.sf st.store now gid u c a
  | .addGrant now gid u c a => addGrantTrace st.store now gid u c a
  | .revokeToken _ _ _ _ => []
  | .revokeGrant sid => revokeGrantTrace st.store sid
  | .revokeClientSession sid => revokeClientTrace st.store sid
  | .removeSession sid => removeTrace st.store sid
  | .delete path => deleteTrace st.store path
  | .crash op n => (stepTrace cfg st op).take n

/-- One step (the functions named in `SysOp`).  Only requests that were parsed are processed: `process_request` is called
with what `parse_request` returned.  A crash loses the requests that were parsed; with the default storage, a `dict`
(session/database.py:23-27), it loses the sessions too. -/
def sysStep (cfg : SysCfg) (st : Sys) : SysOp → Sys
  | .authorize cdb now gid mc ma idt a req =>
    { st with store := (authzProcess cfg.env cdb st.store now gid mc ma idt a req).2.1 }
  | .tokParse now req =>
    match tokParse cfg.env cfg.helpers st.store now req with
    | .val r => { st with pending := r :: st.pending }
    | _ => st
  | .tokProcess i req =>
    if req ∈ st.pending then { st with store := (tokProcess cfg.mode cfg.env cfg.helpers st.store i req).1 } else st
  | .createSession now gid u c a => { st with store := (createSession cfg.env.sf st.store now gid u c a).1 }
  | .createGrant now gid u c a => { st with store := (createGrant cfg.env.sf st.store now gid u c a).1 }
  | .addGrant now gid u c a => { st with store := (addGrant st.store now gid u c a).1 }
  | .revokeToken limit sid v r => { st with store := (revokeToken cfg.mode st.store limit sid v r).1 }
  | .revokeGrant sid => { st with store := (revokeGrant st.store sid).1 }
  | .revokeClientSession sid => { st with store := (revokeClientSession st.store sid).1 }
  | .removeSession sid => { st with store := (removeSession cfg.mode st.store sid).1 }
  | .delete path => { st with store := (dbDelete cfg.mode st.store path).1 }
  | .crash op n => match cfg.mode with
    | .aliased => Sys.init
    | .byValue => ⟨lastOf st.store ((stepTrace cfg st op).take n), []⟩

/-- The state after a history. -/
def sysRun (cfg : SysCfg) (ops : List SysOp) : Sys := ops.foldl (sysStep cfg) Sys.init

/-- The token response that a step produces, with the request it answers. -/
def sysResponse (cfg : SysCfg) (st : Sys) : SysOp → Option (TokReq × TokResp)
  | .tokProcess i req =>
    if req ∈ st.pending then
      match (tokProcess cfg.mode cfg.env cfg.helpers st.store i req).2 with
      | .val r => some (req, r)
      | _ => none
    else none
  | _ => none

end Verif
