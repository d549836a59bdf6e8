import Verif.Model.Manager
/-! Histories of session-manager calls. -/
namespace Verif

/-- One call of the session manager; sessions are named by user, client and grant id (the parts of the session id). -/
inductive MgrOp where
  | createSession (now : Int) (gid u c : Str) (a : SessArgs)
  | createGrant (now : Int) (gid u c : Str) (a : SessArgs)
  | addGrant (now : Int) (gid u c : Str) (a : GrantArgs)
  | revokeToken (limit : Nat) (u c g value : Str) (recursive : Bool)
  | revokeGrant (u c g : Str)
  | revokeClientSession (u c g : Str)
  /-- `manager[session_id] = grant`: how the endpoints store a changed grant (oidc/token.py:75-76, 154). -/
  | storeGrant (u c g : Str) (gr : Grant)

/-- The storage after a call, whether or not it raised (session/manager.py, the methods named in `MgrOp`). -/
def mgrStep (m : Mode) (sf : SubFuncs) (s : Store) : MgrOp → Store
  | .createSession now gid u c a => (createSession sf s now gid u c a).1
  | .createGrant now gid u c a => (createGrant sf s now gid u c a).1
  | .addGrant now gid u c a => (addGrant s now gid u c a).1
  | .revokeToken limit u c g v r => (revokeToken m s limit (sessionKey [u, c, g]) v r).1
  | .revokeGrant u c g => (revokeGrant s (sessionKey [u, c, g])).1
  | .revokeClientSession u c g => (revokeClientSession s (sessionKey [u, c, g])).1
  | .storeGrant u c g gr => (mgrSet s (sessionKey [u, c, g]) (.grant gr)).1

/-- The storage after a history. -/
def mgrRun (m : Mode) (sf : SubFuncs) (s : Store) (ops : List MgrOp) : Store := ops.foldl (mgrStep m sf) s

end Verif
