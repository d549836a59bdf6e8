import Verif.Model.ManagerOps
import Verif.Spec.Strings
/-! What a well-formed session tree is. -/
namespace Verif.Spec

/-- A usable identifier: not empty, no `;`. -/
def GoodId (id : Str) : Prop := id ≠ [] ∧ SemicolonFree id

/-- A path of one or more usable identifiers. -/
def GoodPath (p : List Str) : Prop := p ≠ [] ∧ ∀ id ∈ p, GoodId id

/-- User and client records are session records, grants are grants. -/
structure Typed (s : Store) : Prop where
  user : ∀ u, GoodId u → ∀ g, s u ≠ some (.grant g)
  client : ∀ u c, GoodId u → GoodId c → ∀ g, s (sessionKey [u, c]) ≠ some (.grant g)
  grant : ∀ u c g, GoodId u → GoodId c → GoodId g → ∀ i, s (sessionKey [u, c, g]) ≠ some (.info i)

/-- No dangling references, in terms of reads: every client listed for a user has a readable client session, and every
grant listed there is readable. -/
def NoDangling (s : Store) : Prop :=
  ∀ u ui, GoodId u → dbGet s [u] = .ok (.info ui) →
    ∀ c ∈ ui.subordinate, ∃ ci, dbGet s [u, c] = .ok (.info ci) ∧
      ∀ g ∈ ci.subordinate, ∃ gr, dbGet s [u, c, g] = .ok (.grant gr)

/-- The call only uses usable identifiers. -/
def OpGood : MgrOp → Prop
  | .createSession _ gid u c a => GoodId gid ∧ GoodId u ∧ GoodId (if c = [] then a.authReq.clientId else c)
  | .createGrant _ gid u c _ => GoodId gid ∧ GoodId u ∧ GoodId c
  | .addGrant _ gid u c _ => GoodId gid ∧ GoodId u ∧ GoodId c
  | .revokeToken _ u c g _ _ => GoodId u ∧ GoodId c ∧ GoodId g
  | .revokeGrant u c g => GoodId u ∧ GoodId c ∧ GoodId g
  | .revokeClientSession u c g => GoodId u ∧ GoodId c ∧ GoodId g
  | .storeGrant u c g _ => GoodId u ∧ GoodId c ∧ GoodId g

end Verif.Spec
