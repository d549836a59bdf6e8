import Verif.Model.Client
/-! What it means for a request to use a registered combination of response types. -/
namespace Verif.Spec

/-- The words of a registered response type such as `code id_token`. -/
def words (s : Str) : List Str := pySplit [' '] s

/-- The set of requested response types is one of the client's registered sets; a client that registered none may use
`code` only. -/
def ResponseTypeRegistered (cl : Client) (requested : List Str) : Prop :=
  if cl.responseTypes = [] then ∀ x, x ∈ requested ↔ x = c!"code"
  else ∃ rt ∈ cl.responseTypes, ∀ x, x ∈ requested ↔ x ∈ words rt

/-- The response type is exactly the code flow's. -/
def OnlyCode (requested : List Str) : Prop := ∀ x, x ∈ requested ↔ x = c!"code"

/-- The response types the provider knows how to answer. -/
def supportedTypes : List Str := [c!"code", c!"token", c!"id_token"]

end Verif.Spec
