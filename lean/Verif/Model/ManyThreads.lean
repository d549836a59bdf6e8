import Verif.Model.Threads
import Verif.Model.Manager
/-! Any number of threads inside `AccessTokenHelper.process_request` (oidc/token.py:82-166), while grants are revoked. -/
namespace Verif

/-- The storage and the threads. -/
structure Many where
  store : Store
  pc : Nat → ThPc

/-- A thread goes on to its next piece, or a grant is revoked (session/manager.py:291-300), in one piece. -/
inductive ManyEv where
  | step (t : Nat)
  | revoke (sid : Str)

/-- Thread `t` serves the request `req t` with the inputs `i t`. -/
def manyStep (m : Mode) (env : Env) (i : Nat → TokIn) (req : Nat → TokReq) (x : Many) : ManyEv → Many
  | .step t => let r := thStep m env (i t) (req t) x.store (x.pc t)
    { store := r.1, pc := fun j => if j = t then r.2 else x.pc j }
  | .revoke sid => { x with store := (revokeGrant x.store sid).1 }

/-- A schedule. -/
def manyRun (m : Mode) (env : Env) (i : Nat → TokIn) (req : Nat → TokReq) (s : Store) (evs : List ManyEv) : Many :=
  evs.foldl (manyStep m env i req) { store := s, pc := fun _ => .start }

end Verif
