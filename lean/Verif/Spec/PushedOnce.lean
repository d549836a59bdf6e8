import Verif.Spec.Provider
/-! Counting the uses of pushed requests. -/
namespace Verif.Spec
open Verif

/-- Request number `i` pushes an authorization request, and is answered with the request URI `u`. -/
def AnsweredWithUri (cfg : ProvCfg) (ops : List HttpOp) (u : Str) (i : Nat) : Prop :=
  ∃ now r req q, ops[i]? = some (HttpOp.push now r req u) ∧ (pushEndpoint cfg (provRun cfg (ops.take i)) now r req u).2.2 = .val q

/-- Request number `i` is an authorization request with the request URI `u` that is not refused when it is parsed. -/
def ServedForUri (cfg : ProvCfg) (ops : List HttpOp) (u : Str) (i : Nat) : Prop :=
  ∃ now gid mc ma idt raw ur q, ops[i]? = some (HttpOp.authorize now gid mc ma idt raw ur) ∧ ur.areq.requestUri = some u ∧
    Parsed cfg (provRun cfg (ops.take i)) ur.areq q

open Classical in
/-- How many of the numbers below `n` are such that. -/
noncomputable def howMany (P : Nat → Prop) (n : Nat) : Nat := (List.range n).countP (fun i => decide (P i))

end Verif.Spec
