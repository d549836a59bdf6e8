import Verif.Model.Grant
/-! What it means for an item to be active, for tokens to form a derivation forest, and for one token to be derived
from another — independent of how the code computes it. -/
namespace Verif.Spec

/-- Not revoked, use count below the limit (if there is one), within its validity period (0 = no bound). -/
def ActiveAt (it : Item) (maxUsage : Option Int) (now : Int) : Prop :=
  it.revoked = false ∧ (∀ m, maxUsage = some m → (it.used : Int) < m) ∧
  (it.notBefore ≠ 0 → it.notBefore ≤ now) ∧ (it.expiresAt ≠ 0 → now ≤ it.expiresAt)

/-- `c` is the value of a token of `l` that was minted, directly or through a chain of tokens of `l`, from the token
whose value is `a`. -/
inductive DerivedFrom (l : List Token) (a : Str) : Str → Prop
  | direct (t : Token) : t ∈ l → t.basedOn = some a → DerivedFrom l a t.value
  | step (t : Token) (b : Str) : t ∈ l → t.basedOn = some b → DerivedFrom l a b → DerivedFrom l a t.value

/-- Token values are distinct and non-empty and every base is the value of an earlier token. -/
structure Forest (l : List Token) : Prop where
  nonempty : ∀ t ∈ l, t.value ≠ []
  distinct : (l.map Token.value).Nodup
  earlier : ∀ (j : Nat) (t : Token) (v : Str), l[j]? = some t → t.basedOn = some v →
    ∃ (i : Nat) (s : Token), i < j ∧ l[i]? = some s ∧ s.value = v

/-- Everything about a token except whether it is revoked. -/
def SameButRevoked (t t' : Token) : Prop := { t with revoked := false } = { t' with revoked := false }

end Verif.Spec
