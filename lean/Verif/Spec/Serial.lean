import Verif.Spec.GrantHist
/-! Grants that occur when the clock is not at 0 and identifiers are non-empty. -/
namespace Verif.Spec

/-- The clock does not read 0, the generator of identifiers does not return the empty string, and usage rules are only copied
from a refresh token (what oidc/token.py:250 does with the token that is being refreshed). -/
def Ordinary (g : Grant) : GrantOp → Prop
  | .mint now id _ _ _ _ _ _ => now ≠ 0 ∧ id ≠ []
  | .copyRules s _ => ∀ t, g.issuedToken[s]? = some t → t.kind = .refreshToken
  | _ => True

/-- A grant made by the provider and changed by any history of ordinary operations. -/
inductive OrdinaryGrant : Grant → Prop
  | new (now : Int) (id : Str) (a : GrantArgs) : a.issuedToken = [] → OrdinaryGrant (Grant.new now id a)
  | step (g : Grant) (op : GrantOp) : OrdinaryGrant g → Ordinary g op → OrdinaryGrant (g.step op)

end Verif.Spec
