import Verif.Model.Work
import Verif.Spec.Isolation
/-! Whose sessions a piece of work may touch. -/
namespace Verif.Spec

/-- The work names `u`, or a session or a token of `u`; or it deletes a single grant and so writes a record under the bare
client id, as if that were a user (C16). -/
def Touches (env : Env) : Work → Str → Prop
  | .authorize _ _ _ _ _ _ a _, u => IdentOf a.ident u
  | .token _ req, u => ReqOf env req u
  | .userinfo _ v, u => TokenOf env v u
  | .introspect _ v, u => TokenOf env v u
  | .createSession _ _ v _ _, u => u = v
  | .createGrant _ _ v _ _, u => u = v
  | .addGrant _ _ v _ _, u => u = v
  | .revokeToken _ sid _ _, u => u = ownerOf sid
  | .revokeGrant sid, u => u = ownerOf sid
  | .revokeClientSession sid, u => u = ownerOf sid
  | .removeSession sid, u => u = ownerOf sid ∨ ∃ c g, (unpackSessionKey sid).tail = [c, g] ∧ u = ownerOf c
  | .delete path, u => path.head? = some u ∨ ∃ c g r, path.tail = c :: g :: r ∧ u = ownerOf c

/-- The user names in it can be put in front of `;;`. -/
def WorkNames : Work → Prop
  | .authorize _ _ _ _ _ _ a _ => ∀ uid, (a.ident = .plain uid ∨ ∃ sid, a.ident = .decoded (some uid) sid) → UserName uid
  | .createSession _ _ v _ _ => UserName v
  | .createGrant _ _ v _ _ => UserName v
  | .addGrant _ _ v _ _ => UserName v
  | .delete path => ∀ u, path.head? = some u → UserName u
  | _ => True

/-- No two threads touch the same user. -/
def DifferentUsers (env : Env) (w : Nat → Work) : Prop := ∀ t t' u, t ≠ t' → Touches env (w t) u → ¬ Touches env (w t') u

/-- Thread `t` is through, with this result. -/
def Through (x : Threads WorkOut) (t : Nat) (r : WorkOut) : Prop := x.prog t = .ret r

end Verif.Spec
