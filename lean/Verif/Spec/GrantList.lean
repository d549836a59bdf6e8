import Verif.Spec.Store
/-! Which grants a user has at a client, computed from the calls alone. -/
namespace Verif.Spec

/-- Add to the end unless it is there. -/
def addNew (l : List Str) (g : Str) : List Str := if g ∈ l then l else l ++ [g]

/-- How one call changes the ids of the grants of `(u, c)`: a new session starts afresh, a new (or stored) grant is added,
nothing else matters. -/
def grantIdsStep (u c : Str) (ids : List Str) : MgrOp → List Str
  | .createSession _ gid u' c' a => if u' = u ∧ (if c' = [] then a.authReq.clientId else c') = c then [gid] else ids
  | .createGrant _ gid u' c' _ => if u' = u ∧ c' = c then addNew ids gid else ids
  | .storeGrant u' c' gid _ => if u' = u ∧ c' = c then addNew ids gid else ids
  | _ => ids

/-- The ids of the grants of `(u, c)` after a history. -/
def grantIds (u c : Str) (ops : List MgrOp) : List Str := ops.foldl (grantIdsStep u c) []

/-- The subject type asked for is configured. -/
def KnownSubject (sf : SubFuncs) : MgrOp → Prop
  | .createSession _ _ _ _ a => ∃ f, sf a.subType = some f
  | .createGrant _ _ _ _ a => ∃ f, sf a.subType = some f
  | _ => True

end Verif.Spec
