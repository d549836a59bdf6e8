import Verif.Py
/-! What "well formed" means for identifiers, in words independent of the code. -/
namespace Verif.Spec

/-- No `;;` anywhere inside the id. -/
def NoDivider (id : Str) : Prop := ¬ [';', ';'] <:+: id

/-- The id does not end in `;`. -/
def NotEndingInSemicolon (id : Str) : Prop := ¬ [';'] <:+ id

/-- A list of ids that a session identifier can carry. -/
def Encodable (ids : List Str) : Prop :=
  (∀ id ∈ ids, NoDivider id) ∧ (∀ id ∈ ids.dropLast, NotEndingInSemicolon id)

/-- An id without `;` at all: what `uuid` hex strings and ordinary user and client ids look like. -/
def SemicolonFree (id : Str) : Prop := ';' ∉ id

/-- The string ends in a whitespace character. -/
def EndsInSpace (s : Str) : Prop := ∃ c, s.getLast? = some c ∧ isPySpace c = true

end Verif.Spec
