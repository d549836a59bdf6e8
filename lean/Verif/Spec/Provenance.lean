import Verif.Spec.System
import Verif.Spec.Isolation
/-! Where a session comes from. -/
namespace Verif.Spec

/-- The user and client names a step puts into a session id can be read back: no `;;` inside, no `;` at the end. -/
def LoginNames : SysOp → Prop
  | .authorize _ _ _ _ _ _ a req =>
    (∀ u, (a.ident = .plain u ∨ ∃ sid, a.ident = .decoded (some u) sid) → UserName u) ∧ UserName req.clientId
  | .createSession _ _ u c a => UserName u ∧ UserName (if c = [] then a.authReq.clientId else c)
  | .createGrant _ _ u c _ => UserName u ∧ UserName c
  | .addGrant _ _ u c _ => UserName u ∧ UserName c
  | .crash op _ => LoginNames op
  | _ => True

/-- The user is authenticated in this step: by an authentication method at the authorization endpoint; or by the application,
which tells the session manager.  `ev` records when and until when. -/
inductive Authenticates : SysOp → (u : Str) → (ev : Option AuthnEvent) → Prop
  | login : a.ident = .plain u → Authenticates (.authorize cdb now gid mc ma idt a req) u (some (loginEvent now u a))
  | session : Authenticates (.createSession now gid u c a) u a.authnEvent
  | grant : Authenticates (.createGrant now gid u c a) u a.authnEvent
  | add : Authenticates (.addGrant now gid u c a) u a.authnEvent
  | killed : Authenticates op u ev → Authenticates (.crash op n) u ev

/-- The user and the session that the cookie of a returning browser names belong together. -/
def HonestCookie : SysOp → Prop
  | .authorize _ _ _ _ _ _ a _ => ∀ u sid, a.ident = .decoded (some u) (some sid) → ownerOf sid = u
  | .crash op _ => HonestCookie op
  | _ => True

/-- In the history, before step `i`: the user `u` logged in at the client `c`, which made the session `sid` with the
subject identifier `sub`; and in the same step or earlier `u` was authenticated, as `ev` says. -/
structure LoggedIn (cfg : SysCfg) (ops : List SysOp) (i : Nat) (sid u c sub : Str) (ev : Option AuthnEvent) : Prop where
  login : ∃ j op gid, j < i ∧ ops[j]? = some op ∧ sid = sessionKey [u, c, gid] ∧
    LogsIn cfg.env (sysRun cfg (ops.take j)).store op u c gid ev sub
  authn : ∃ j op, j < i ∧ ops[j]? = some op ∧ Authenticates op u ev

end Verif.Spec
