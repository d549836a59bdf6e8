import Verif.Model.SelfJwt
/-! Vocabulary for C148–C150. -/
namespace Verif.Spec

/-- The assumptions about signatures: what was signed reads back and checks, and what checks with a key was signed with it. -/
structure GoodJws (J : JwsLib) : Prop where
  reads : ∀ k a d, J.read (J.sign k a d) = some (a, d)
  checks : ∀ k a d, J.check k (J.sign k a d) = true
  sound : ∀ k t, J.check k t = true → ∃ a d, t = J.sign k a d

/-- The provider's own keys are also filed under its issuer name. -/
def OwnKeysFiled (jar : KeyJar) (iss : Str) : Prop := ∀ kt k, k ∈ jar [] kt → k ∈ jar iss kt

/-- A value that is there and counts as true in Python. -/
def trueValue (v : Option Val) : Option Val := v.filter Val.truthy

/-- What the login page shows for a setting of the client (`args`), of the configuration (`conf`), or neither. -/
def shown (args conf : Dict Val) (k : Str) : Option Val :=
  match args.get? k with
  | some v => some v
  | none => match conf.get? k with
    | some v => some v
    | none => some (.str [])

end Verif.Spec
