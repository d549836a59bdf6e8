import Verif.Spec.WebFlow
/-! A pushed request works as if it had been sent directly. -/
namespace Verif.Spec

/-- A request that refers to no request object (RFC 9126, 2.1 forbids `request_uri` in pushed requests). -/
def NoRequestUri (req : AuthReq) : Prop := req.requestUri = none ∨ req.requestUri = some []

/-- Request objects contain no `request_uri` (RFC 9101, 4): fetching one leaves that parameter of the request as it is. -/
def FetchKeepsUri (env : Env) : Prop := ∀ c uri req r, env.fetch c uri req = .ok r → r.requestUri = req.requestUri

/-- A request that does not refer to the pushed request `urn`, does not push another one under that name, and is no registration under an id that
somebody chose; nor a restart of a provider that keeps pushed requests in memory. -/
def LeavesPushed (cfg : ProvCfg) (urn : Str) : HttpOp → Prop
  | .register _ newId _ _ _ => newId = true
  | .push _ _ req urn' => req.requestUri ≠ some urn ∧ urn' ≠ urn
  | .authorize _ _ _ _ _ _ req => req.areq.requestUri ≠ some urn
  | .restart => cfg.parDurable = true
  | _ => True

end Verif.Spec
