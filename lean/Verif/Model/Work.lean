import Verif.Model.Pieces
/-! Requests and session operations that a thread may work on: each as one model function, and in pieces. -/
namespace Verif

/-- What the threads share besides the storage: configuration and the user database. -/
structure WorkCfg where
  mode : Mode
  env : Env
  helpers : Dict Helper
  issuer : Str
  release : Bool
  users : Str → Dict Val

/-- What a thread works on: a request to an endpoint, or a call of a session manager method.  (In `authorize`, `cdb` is the
client database as the thread sees it; what `setup_auth` etc. do to it (C37) is the thread's own: simplification.) -/
inductive Work where
  | authorize (cdb : Cdb) (now : Int) (gid : Str) (mc ma : MintIn) (idt : Out Str) (a : AuthnIn) (req : AuthReq)
  | token (i : TokIn) (req : TokReq)
  | userinfo (now : Int) (v : Str)
  | introspect (now : Int) (v : Str)
  | createSession (now : Int) (gid u c : Str) (a : SessArgs)
  | createGrant (now : Int) (gid u c : Str) (a : SessArgs)
  | addGrant (now : Int) (gid u c : Str) (a : GrantArgs)
  | revokeToken (limit : Nat) (sid v : Str) (recursive : Bool)
  | revokeGrant (sid : Str)
  | revokeClientSession (sid : Str)
  | removeSession (sid : Str)
  | delete (path : List Str)

/-- What comes out. -/
inductive WorkOut where
  | authz (cdb : Cdb) (a : AuthzAnswer)
  | token (o : Out TokResp)
  | info (o : Out (Dict Val × Str))
  | intro (o : Out (Dict Val))
  | sid (r : Except Exn Str)
  | grant (r : Except Exn Grant)
  | done (r : Except Exn Unit)

/-- The work done without any other thread: the functions of the model (`oauth2/authorization.py`:909-953,
`oidc/token.py`:376-429, `oidc/userinfo.py`:105-151, `oauth2/introspection.py`:58-103, `session/manager.py`,
`session/database.py`:102-141). -/
def serve (cfg : WorkCfg) (s : Store) : Work → Store × WorkOut
  | .authorize cdb now gid mc ma idt a req =>
    let r := authzProcess cfg.env cdb s now gid mc ma idt a req
    (r.2.1, .authz r.1 r.2.2)
  | .token i req =>
    let r := tokenEndpoint cfg.mode cfg.env cfg.helpers s i req
    (r.1, .token r.2)
  | .userinfo now v => (s, .info (userinfoProcess cfg.env cfg.users s now v))
  | .introspect now v => (s, .intro (introspectProcess cfg.env cfg.issuer cfg.release cfg.users s now v))
  | .createSession now gid u c a => let r := createSession cfg.env.sf s now gid u c a; (r.1, .sid r.2)
  | .createGrant now gid u c a => let r := createGrant cfg.env.sf s now gid u c a; (r.1, .sid r.2)
  | .addGrant now gid u c a => let r := addGrant s now gid u c a; (r.1, .grant r.2)
  | .revokeToken limit sid v b => let r := revokeToken cfg.mode s limit sid v b; (r.1, .done r.2)
  | .revokeGrant sid => let r := revokeGrant s sid; (r.1, .done r.2)
  | .revokeClientSession sid => let r := revokeClientSession s sid; (r.1, .done r.2)
  | .removeSession sid => let r := removeSession cfg.mode s sid; (r.1, .done r.2)
  | .delete path => let r := dbDelete cfg.mode s path; (r.1, .done r.2)

/-- The result of a program, packed. -/
def Prog.map {α β : Type} (f : α → β) (p : Prog α) : Prog β := p.bind fun a => .ret (f a)

/-- The same work, one read or write of a storage item at a time (the functions of `Model/Pieces.lean`). -/
def workP (cfg : WorkCfg) : Work → Prog WorkOut
  | .authorize cdb now gid mc ma idt a req => (authzProcessP cfg.env cdb now gid mc ma idt a req).map fun r => .authz r.1 r.2
  | .token i req => (tokenEndpointP cfg.mode cfg.env cfg.helpers i req).map .token
  | .userinfo now v => (userinfoP cfg.env cfg.users now v).map .info
  | .introspect now v => (introspectP cfg.env cfg.issuer cfg.release cfg.users now v).map .intro
  | .createSession now gid u c a => (createSessionP cfg.env.sf now gid u c a).map .sid
  | .createGrant now gid u c a => (createGrantP cfg.env.sf now gid u c a).map .sid
  | .addGrant now gid u c a => (addGrantP now gid u c a).map .grant
  | .revokeToken limit sid v b => (revokeTokenP cfg.mode limit sid v b).map .done
  | .revokeGrant sid => (revokeGrantP sid).map .done
  | .revokeClientSession sid => (revokeClientP sid).map .done
  | .removeSession sid => (removeSessionP cfg.mode sid).map .done
  | .delete path => (deleteP cfg.mode path).map .done

/-- Threads, each with its own work, on one storage. -/
def workers (cfg : WorkCfg) (s : Store) (w : Nat → Work) : Threads WorkOut := { store := s, prog := fun t => workP cfg (w t) }

end Verif
