import Verif.Props.Given
import Verif.Props.ProviderDemo
/-! The hypotheses of C136 and C137 are met, and their conclusions are not empty. -/
namespace Verif
open Spec

set_option maxRecDepth 32000 in
/-- C136: the code and the access token of diana's session were told in the answers of the second and the fourth request. -/
example : WebRun webCfg webOps ∧ givenOut webCfg webOps 1 = some [(.authorizationCode, webCode)] ∧
    (givenOut webCfg webOps 3).map (·.head?) = some (some (.accessToken, webAt)) ∧ (givenOut webCfg webOps 2).isNone = true ∧
    StoredAfter webCfg webOps 4 (sessionKey [c!"diana", c!"c1", c!"g1"]) .accessToken webAt := by
  refine ⟨webRun_demo, by decide, by decide, by decide, ?_⟩
  have h : (match (provRun webCfg (webOps.take 4)).sys.store (sessionKey [c!"diana", c!"c1", c!"g1"]) with
    | some (.grant g) => g.issuedToken.any (fun t => decide (t.kind = .accessToken ∧ t.value = webAt))
    | _ => false) = true := by decide
  unfold StoredAfter
  split at h
  · rename_i g hg
    obtain ⟨t, ht, hh⟩ := List.any_eq_true.1 h
    exact ⟨g, t, hg, ht, by simpa using hh⟩
  · cases h

/-- A client that wants the code with an ID token, which cannot be made. -/
def brokenOps : List HttpOp :=
  [ .register webRegIn true true true [(c!"redirect_uris", .strs [c!"https://rp/cb"]), (c!"response_types", .strs [c!"code id_token"])],
    .authorize 1000 c!"g1" (mintIn c!"n1") (mintIn c!"n2") (.errMsg c!"x") webCookie { areq := demoReq [c!"code", c!"id_token"] } ]

set_option maxRecDepth 32000 in
/-- C136: the code of that request is stored, but the answer is an error: the words "if it was answered with a success" are
needed. -/
example : (givenOut webCfg brokenOps 1).isNone = true ∧
    (match (provRun webCfg brokenOps).sys.store (sessionKey [c!"diana", c!"c1", c!"g1"]) with
      | some (.grant g) => g.issuedToken.map (fun t => (t.kind, t.value))
      | _ => []) = [(.authorizationCode, webCode)] := by
  refine ⟨by decide, by decide⟩

set_option maxRecDepth 32000 in
/-- C137: the code is redeemed by the fourth request; sent again, it is refused. -/
example : (tokensAt webCfg webOps 3).map (fun x => (x.1.grantType, x.1.code, x.2.scope)) =
      some (some c!"authorization_code", some webCode, webAreq.areq.scope) ∧
    (tokensAt webCfg (webOps.take 4 ++ [.tokenProcess (tokIn 1001 c!"n5" c!"n6") webTokParsed]) 4).isNone = true := by
  refine ⟨by decide, by decide⟩

end Verif
