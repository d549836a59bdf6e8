import Verif.Spec.Provider
/-! Client authentication over the whole life of a provider. -/
namespace Verif.Spec

/-- The client authentication of a request, with the endpoint's methods and targets (endpoint.py:237-258): what the endpoint
has then seen of `jti`s, and what it found. -/
def authnOf (cfg : ProvCfg) (st : Prov) : HttpOp → Option (List Str × Except Exn (Option AuthInfo))
  | .push now r _ _ => some (clientAuthentication cfg.lib st.cdb now cfg.pushMethods cfg.pushTargets plainFromToken st.jtis r)
  | .tokenParse now r _ => some (clientAuthentication cfg.lib st.cdb now cfg.tokenMethods cfg.tokenTargets plainFromToken st.jtis r)
  | .userinfo now r =>
    some (clientAuthentication cfg.lib st.cdb now cfg.userinfoMethods cfg.userinfoTargets (userinfoFromToken cfg.sys.env now) st.jtis r)
  | .introspect now r _ =>
    some (clientAuthentication cfg.lib st.cdb now cfg.introspectMethods cfg.introspectTargets plainFromToken st.jtis r)
  | _ => none

/-- The `i`-th request is accepted on the strength of this assertion (a signed statement of the client, RFC 7523). -/
def AssertionAccepted (cfg : ProvCfg) (ops : List HttpOp) (i : Nat) (a : Assertion) : Prop :=
  ∃ op j info, ops[i]? = some op ∧ authnOf cfg (provRun cfg (ops.take i)) op = some (j, .ok (some info)) ∧ info.assertion = some a

/-- Before request `i` somebody who showed the client's secret pushed an authorization request. -/
def PushedBy (cfg : ProvCfg) (ops : List HttpOp) (i : Nat) (c : Str) : Prop :=
  ∃ k now r req urn, k < i ∧ ops[k]? = some (.push now r req urn) ∧ ShowsSecret cfg (provRun cfg (ops.take k)) now r c

end Verif.Spec
