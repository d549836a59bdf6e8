import Verif.Props.TokenEndpoint
import Verif.Props.ClientAuthn
/-! C29 with client authentication: the thief authenticates as himself, properly. -/
namespace Verif
open Spec

/-- **C29** is false of the code also with client authentication: client `c2` authenticates with its own valid secret, so that
the endpoint takes the request as `c2`'s, and redeems the code that was issued to `c1`. -/
theorem C29_authenticated_client_redeems_others_code (m : Mode) :
    ∃ (r : AuthnReq) (o : Option AuthInfo) (req : TokReq) (resp : TokResp),
      Presents authnLib r c!"c2" c!"s2" ∧ (authnCdb c!"c2").bind Client.clientSecret = some c!"s2" ∧
      clientAuthentication authnLib authnCdb 2 [some .clientSecretBasic, some .clientSecretPost] [] (fun _ => .ok []) [] r = ([], .ok o) ∧
      requestClient r o = req.clientId ∧ req.clientId = some c!"c2" ∧
      FreshRun otherClientOps ∧
      (∃ g, getGrant (sysRun (demoCfg m) (otherClientOps.take 2)).store c!"diana;;c1;;g1" = .ok g ∧
        g.authReq.map AuthReq.clientId = some c!"c1" ∧ g.issuedToken.map Token.value = [demoCode]) ∧
      responseAt (demoCfg m) otherClientOps 2 = some (req, resp) ∧ req.code = some demoCode := by
  obtain ⟨h1, h2, req, resp, h3, h4, h5⟩ := C29_code_redeemed_by_other_client m
  refine ⟨{ clientId := some c!"c2", clientSecret := some c!"s2" },
    some { method := c!"client_secret_post", clientId := some c!"c2" }, req, resp, .inr ⟨rfl, rfl⟩, by decide, by decide, ?_, h5, h1, h2, h3, h4⟩
  rw [h5]; rfl

end Verif
