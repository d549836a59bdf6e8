import Verif.Model.Broker
/-! What a registry of authentication methods is: a list of registrations. -/
namespace Verif.Spec

/-- The registrations after a change: a valid one is added at the end, removal removes it. -/
def regStep (l : List (Str × AuthnEntry)) : BrokerOp → List (Str × AuthnEntry)
  | .set k (some a) (some m) => l ++ [(k, ⟨a, m⟩)]
  | .set _ _ _ => l
  | .del k => l.filter fun p => decide (p.1 ≠ k)

def registrations (ops : List BrokerOp) : List (Str × AuthnEntry) := ops.foldl regStep []

/-- No id is registered again while it is in use. -/
def DistinctIds : List (Str × AuthnEntry) → List BrokerOp → Prop
  | _, [] => True
  | l, op :: ops => (∀ k a m, op = .set k a m → k ∉ l.map Prod.fst) ∧ DistinctIds (regStep l op) ops

/-- The methods registered with a class reference, in order of registration. -/
def registeredFor (acr : Str) (l : List (Str × AuthnEntry)) : List AuthnEntry :=
  (l.filter fun p => decide (p.2.acr = acr)).map Prod.snd

end Verif.Spec
