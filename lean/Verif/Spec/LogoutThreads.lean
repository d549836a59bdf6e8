import Verif.Spec.TokenThreads
import Verif.Spec.Store
/-! What it means that a user is logged out of a client. -/
namespace Verif.Spec

/-- The user's session at the client is marked as revoked. -/
def LoggedOut (s : Store) (u c : Str) : Prop := ∃ i, s (sessionKey [u, c]) = some (.info i) ∧ i.revoked = true

/-- Names are names: revocations of grants are of session ids with three parts, and logins have usable ids. -/
def NamesGood (evs : List JobEv) : Prop :=
  (∀ sid, JobEv.revokeGrant sid ∈ evs → ∃ u c g, unpackSessionKey sid = [u, c, g] ∧ g ≠ []) ∧
  ∀ sf now gid u c a, JobEv.login sf now gid u c a ∈ evs → GoodId gid ∧ GoodId u ∧ GoodId c

/-- The user does not log in at the client. -/
def NoLoginAt (u c : Str) (evs : List JobEv) : Prop := ∀ sf now gid a, JobEv.login sf now gid u c a ∉ evs

end Verif.Spec
