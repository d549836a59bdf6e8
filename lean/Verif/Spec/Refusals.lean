import Verif.Model.Resource
import Verif.Spec.Grant
import Verif.Spec.Store
/-! Strings that do not entitle to anything. -/
namespace Verif.Spec

/-- None of the provider's handlers can open the string: it was not made with their keys. -/
def NotOurs (env : Env) (v : Str) : Prop :=
  ∀ h ∈ env.th.order, (h.cls = .default → env.cr.fernetOpen h.key v = none) ∧ (h.cls = .jwt → env.cr.jwtUnpack h.key v = none)

/-- The string opens at `now`, for a session that is stored, with this grant. -/
structure OfStored (env : Env) (s : Store) (now : Int) (v u c gid : Str) (g : Grant) : Prop where
  user : GoodId u
  client : GoodId c
  grantId : GoodId gid
  opens : env.th.sid env.cr now v = .ok (sessionKey [u, c, gid])
  stored : getGrant s (sessionKey [u, c, gid]) = .ok g

/-- No token of the grant with this value is of that kind and active: it is unknown, of another kind, revoked, used up, expired or
not valid yet. -/
def NotLive (g : Grant) (v : Str) (k : TokenKind) (now : Int) : Prop :=
  ∀ t ∈ g.issuedToken, t.value = v → t.kind = k → ¬ ActiveAt t.toItem t.usageRules.maxUsage now

/-- One token of the grant has this value; it is of that kind, and active. -/
def Live (g : Grant) (v : Str) (k : TokenKind) (now : Int) : Prop :=
  ∃ t ∈ g.issuedToken, t.value = v ∧ t.kind = k ∧ ActiveAt t.toItem t.usageRules.maxUsage now ∧
    ∀ t' ∈ g.issuedToken, t'.value = v → t' = t

end Verif.Spec
