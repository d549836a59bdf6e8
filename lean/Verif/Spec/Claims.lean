import Verif.Model.Claims
/-! OpenID Connect Core section 5.5.1, and claims of scopes, in plain terms. -/
namespace Verif.Spec

/-- The user database has a value. -/
def HasValue (v : Option Val) (x : Val) : Prop := v = some x ∧ x ≠ .null

/-- Equal as far as Python can tell: `True` is 1 and `False` is 0.  (Simplification: dictionaries in the same order.) -/
inductive SameJson : Val → Val → Prop where
  | same (v) : SameJson v v
  | trueOne : SameJson (.bool true) (.int 1)
  | falseZero : SameJson (.bool false) (.int 0)
  | oneTrue : SameJson (.int 1) (.bool true)
  | zeroFalse : SameJson (.int 0) (.bool false)
  | list {h t h' t'} : SameJson h h' → SameJson t t' → SameJson (.lcons h t) (.lcons h' t')
  | dict {k v r v' r'} : SameJson v v' → SameJson r r' → SameJson (.dcons k v r) (.dcons k v' r')

/-- `x` is an element of the JSON list `l`. -/
inductive ElemOf (x : Val) : Val → Prop where
  | head (h t) : SameJson x h → ElemOf x (.lcons h t)
  | tail (h t) : ElemOf x t → ElemOf x (.lcons h t)

/-- `l` is a JSON list. -/
inductive IsList : Val → Prop where
  | nil : IsList .lnil
  | cons (h t) : IsList t → IsList (.lcons h t)

/-- `d` is a JSON dictionary. -/
inductive IsDict : Val → Prop where
  | nil : IsDict .dnil
  | cons (k v r) : IsDict r → IsDict (.dcons k v r)

/-- The claims specification allows the value `x`. -/
def Allows (spec : ClaimSpec) (x : Val) : Prop :=
  spec = none ∨ ∃ d, spec = some d ∧
    (d.keys = [c!"essential"] ∨ (∃ v, d.get? c!"value" = some v ∧ SameJson x v) ∨
      ∃ l, d.get? c!"values" = some l ∧ ElemOf x l)

/-- A well-formed specification: distinct keys, and `values` is a list. -/
def WellFormed (spec : ClaimSpec) : Prop :=
  ∀ d, spec = some d → d.keys.Nodup ∧ ∀ l, d.get? c!"values" = some l → IsList l

end Verif.Spec
