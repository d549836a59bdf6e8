import Verif.Model.Grant
/-! Lifetimes, in plain terms. -/
namespace Verif.Spec

/-- The lifetime (seconds) the grant's usage rules give to tokens of a type; 0 if they give none. -/
def lifetime (g : Grant) (tokenType : Str) : Int := ((g.usageRules.get? tokenType).bind (·.expiresIn)).getD 0

/-- The item is new: unused, not revoked, and valid from the start. -/
def Fresh (it : Item) : Prop := it.revoked = false ∧ it.used = 0 ∧ it.notBefore = 0

end Verif.Spec
