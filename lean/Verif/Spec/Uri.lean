import Verif.Model.Client
/-! When two queries are the same. -/
namespace Verif.Spec

/-- The values a query has for a key. -/
def values (q : Query) (k : Str) : List Str := (q.get? k).getD []

/-- Same keys, and for each key the same set of values. -/
def SameQuery (q r : Query) : Prop :=
  ∀ k, (q.has k ↔ r.has k) ∧ ∀ v, v ∈ values q k ↔ v ∈ values r k

/-- The keys are distinct (true of every Python dictionary). -/
def DistinctKeys (q : Query) : Prop := (q.map (·.1)).Nodup

end Verif.Spec
