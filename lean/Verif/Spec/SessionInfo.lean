import Verif.Model.SessionInfo
import Verif.Spec.Store
/-! What the lookups of the session manager are expected to return. -/
namespace Verif.Spec

/-- The session `(u, c, g)` exists: its grant, and the records of the client and of the user that lead to it. -/
structure SessionAt (s : Store) (u c g : Str) (gr : Grant) (ci ui : SessInfo) : Prop where
  grant : dbGet s [u, c, g] = .ok (.grant gr)
  client : dbGet s [u, c] = .ok (.info ci)
  user : dbGet s [u] = .ok (.info ui)
  listsGrant : g ∈ ci.subordinate
  listsClient : c ∈ ui.subordinate
  clientKind : ci.kind = .client
  userKind : ui.kind = .user

/-- What is returned if it is asked for. -/
def given {α : Type} (want : Bool) (v : α) : Option α := if want then some v else none

end Verif.Spec
