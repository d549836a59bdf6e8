import Verif.Model.Resource
/-! What it means that a string is a live token. -/
namespace Verif.Spec

/-- The string `v` is a token `t` of the grant `g` that is stored as the session `sid` the string names. -/
def StoredToken (env : Env) (s : Store) (now : Int) (v sid : Str) (g : Grant) (t : Token) : Prop :=
  env.th.sid env.cr now v = .ok sid ∧ getGrant s sid = .ok g ∧ t ∈ g.issuedToken ∧ t.value = v

/-- The parameters of an introspection response that describe the token (RFC 7662, section 2.2). -/
def reserved : List Str :=
  [c!"active", c!"scope", c!"client_id", c!"token_type", c!"exp", c!"iat", c!"sub", c!"iss", c!"aud", c!"username"]

end Verif.Spec
