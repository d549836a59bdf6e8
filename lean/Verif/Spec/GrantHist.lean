import Verif.Model.GrantOps
import Verif.Spec.Grant
/-! Which grants can occur. -/
namespace Verif.Spec

/-- The token strings the handlers produce are non-empty and not already used in the grant (they contain random data). -/
def FreshFor (g : Grant) : GrantOp → Prop
  | .mint _ _ _ _ _ _ _ (.ok v) => v ≠ [] ∧ ∀ t ∈ g.issuedToken, t.value ≠ v
  | _ => True

/-- Grants that can occur: created without tokens, then changed by any history of operations. -/
inductive GrantReach : Grant → Prop
  | new (now : Int) (id : Str) (a : GrantArgs) : a.issuedToken = [] → GrantReach (Grant.new now id a)
  | step (g : Grant) (op : GrantOp) : GrantReach g → FreshFor g op → GrantReach (g.step op)

end Verif.Spec
