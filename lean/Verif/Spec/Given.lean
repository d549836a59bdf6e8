import Verif.Spec.Provider
/-! What the answers to HTTP requests gave away, and what the session storage holds. -/
namespace Verif.Spec

/-- The code and the tokens that the `k`-th request's answer contains, if that is a success: an authorization response (at the
authorization endpoint) or a token response (at the token endpoint). -/
def givenOut (cfg : ProvCfg) (ops : List HttpOp) (k : Nat) : Option (List (TokenKind × Str)) :=
  match ops[k]? with
  | some (.authorize now gid mc ma idt raw req) =>
    match (authorizeEndpoint cfg (provRun cfg (ops.take k)) now gid mc ma idt raw req).2.2.2 with
    | .reply r => match r.content with
      | .val a => some (a.code.toList.map (TokenKind.authorizationCode, ·) ++ a.accessToken.toList.map (TokenKind.accessToken, ·))
      | _ => none
    | _ => none
  | some (.tokenProcess _ _) =>
    (tokensAt cfg ops k).map fun x => (TokenKind.accessToken, x.2.accessToken) :: x.2.refreshToken.toList.map (TokenKind.refreshToken, ·)
  | _ => none

/-- After the first `n` requests the session storage has, in the session `sid`, a token of this kind with this string. -/
def StoredAfter (cfg : ProvCfg) (ops : List HttpOp) (n : Nat) (sid : Str) (kd : TokenKind) (v : Str) : Prop :=
  ∃ g t, (provRun cfg (ops.take n)).sys.store sid = some (.grant g) ∧ t ∈ g.issuedToken ∧ t.kind = kd ∧ t.value = v

/-- The `k`-th request made the token: it was not in the storage before, and is afterwards.  The request is one at the
authorization or the token endpoint; and if it was answered with a success, the string is in the answer. -/
structure MadeAt (cfg : ProvCfg) (ops : List HttpOp) (k : Nat) (sid : Str) (kd : TokenKind) (v : Str) : Prop where
  before : ¬ StoredAfter cfg ops k sid kd v
  after : StoredAfter cfg ops (k + 1) sid kd v
  endpoint : (∃ now gid mc ma idt raw req, ops[k]? = some (.authorize now gid mc ma idt raw req)) ∨
    ∃ inp req, ops[k]? = some (.tokenProcess inp req) ∧ kd ≠ .authorizationCode
  answer : ∀ l, givenOut cfg ops k = some l → (kd, v) ∈ l

end Verif.Spec
