import Verif.Model.IdToken
/-! How an algorithm is to be chosen. -/
namespace Verif.Spec

/-- The choice of a signing algorithm: the client's registered one; else the provider's default; else the standard one of
the payload type, if supported; else the first supported one. -/
inductive SignChoice (registered default : Option Str) (standard : Str) (supported : List Str) : Str → Prop where
  | registered (a : Str) : registered = some a → SignChoice registered default standard supported a
  | default (a : Str) : registered = none → default = some a → SignChoice registered default standard supported a
  | standard : registered = none → default = none → standard ∈ supported → SignChoice registered default standard supported standard
  | first (a : Str) (l : List Str) : registered = none → default = none → standard ∉ supported → supported = a :: l →
      SignChoice registered default standard supported a

/-- The choice of an encryption setting: the client's registered one; else the provider's default; else the first supported. -/
inductive EncChoice (registered default : Option Str) (supported : List Str) : Str → Prop where
  | registered (a : Str) : registered = some a → EncChoice registered default supported a
  | default (a : Str) : registered = none → default = some a → EncChoice registered default supported a
  | first (a : Str) (l : List Str) : registered = none → default = none → supported = a :: l → EncChoice registered default supported a

end Verif.Spec
