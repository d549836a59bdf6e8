import Verif.Model.Crash
import Verif.Model.ManagerOps
/-! Histories of session-manager calls, some of them interrupted because the process was killed; the storage survives. -/
namespace Verif

/-- A call of the session manager, or `Database.delete` (session/database.py:102-141). -/
inductive DbOp where
  | mgr (op : MgrOp)
  | delete (path : List Str)

/-- The storage after each write of a session-manager call (session/manager.py, the methods named in `MgrOp`), for a
storage of copies. -/
def mgrTrace (sf : SubFuncs) (s : Store) : MgrOp → List Store
  | .createSession now gid u c a => createSessionTrace sf s now gid u c a
  | .createGrant now gid u c a => createGrantTrace sf s now gid u c a
  | .addGrant now gid u c a => addGrantTrace s now gid u c a
  | .revokeToken _ _ _ _ _ _ => []
  | .revokeGrant u c g => revokeGrantTrace s (sessionKey [u, c, g])
  | .revokeClientSession u c g => revokeClientTrace s (sessionKey [u, c, g])
  | .storeGrant u c g gr => mgrSetTrace s (sessionKey [u, c, g]) (.grant gr)

/-- The same for any call. -/
def dbTrace (sf : SubFuncs) (s : Store) : DbOp → List Store
  | .mgr op => mgrTrace sf s op
  | .delete path => deleteTrace s path

/-- A call that is completed (`none`), or one that was interrupted after `n` writes (`some n`). -/
abbrev MaybeKilled := DbOp × Option Nat

/-- The storage after such a call (the functions named in `DbOp`). -/
def killStep (sf : SubFuncs) (s : Store) : MaybeKilled → Store
  | (.mgr op, none) => mgrStep .byValue sf s op
  | (.delete path, none) => (dbDelete .byValue s path).1
  | (op, some n) => lastOf s ((dbTrace sf s op).take n)

/-- The storage after a history with crashes. -/
def killRun (sf : SubFuncs) (s : Store) (ops : List MaybeKilled) : Store := ops.foldl (killStep sf) s

end Verif
