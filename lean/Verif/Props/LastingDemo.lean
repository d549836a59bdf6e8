import Verif.Props.Lasting
import Verif.Props.ProviderDemo
import Verif.Props.WebTree
import Verif.Props.Honest
/-! The hypotheses of C154 are met. -/
namespace Verif
open Spec

set_option maxRecDepth 32000 in
/-- The access token of diana's session is new when the code is redeemed. -/
theorem webAt_new : ∀ sid kd, ¬ StoredAfter webCfg (webOps.take 3) (webOps.take 3).length sid kd webAt := by
  intro sid kd h
  have hw := webRun_demo.take 3
  obtain ⟨k, hk, M⟩ := C136_tokens_are_given_out _ _ hw _ _ _ _ h
  have hk' : k = 0 ∨ k = 1 ∨ k = 2 := by
    have : (webOps.take 3).length = 3 := rfl
    omega
  rcases hk' with rfl | rfl | rfl
  · rcases M.endpoint with ⟨_, _, _, _, _, _, _, e⟩ | ⟨_, _, e, _⟩ <;> cases e
  · have := M.answer [(.authorizationCode, webCode)] (by decide)
    simp only [List.mem_singleton, Prod.mk.injEq] at this
    exact absurd this.2 (by decide)
  · rcases M.endpoint with ⟨_, _, _, _, _, _, _, e⟩ | ⟨_, _, e, _⟩ <;> cases e

/-- Diana's token was shown and asked about since. -/
def webMid : List HttpOp := [.userinfo 1002 webBearer, .introspect 1002 webSecret (some webAt)]

theorem webOps_split : webOps = webOps.take 3 ++ [.tokenProcess (tokIn 1001 c!"n3" c!"n4") webTokParsed] ++ webMid := rfl

set_option maxRecDepth 32000 in
/-- C154: the token response of the demonstration, and the time it announces; what happens then is no new login. -/
example : IssuesTokens webCfg.sys.env ⟨.jwt, c!"A", 5, c!"k1"⟩ ⟨.jwt, c!"T", 5, c!"k2"⟩ ∧ WebRun webCfg webOps ∧ GoodNames webCfg webOps ∧
    (tokensAt webCfg (webOps.take 4) 3).map (fun x => (x.1 == webTokParsed, x.2.accessToken, x.2.expiresIn)) = some (true, webAt, some 4) ∧
    During webCfg (webOps.take 4) webMid (NoNewLogin webCfg c!"diana" c!"c1") := by
  refine ⟨demo_issues, webRun_demo, webNames_demo, by decide, ?_⟩
  intro pre op post e
  have : op ∈ webMid := by rw [e]; simp
  simp only [webMid, List.mem_cons, List.not_mem_nil, or_false] at this
  rcases this with rfl | rfl <;> exact trivial

set_option maxRecDepth 32000 in
/-- The token is shown again at the end of the announced four seconds, and one second later. -/
example : ((outVal (userinfoEndpoint webCfg (provRun webCfg webOps) 1005 webBearer).2).map (·.2)) = some c!"c1" ∧
    (outVal (userinfoEndpoint webCfg (provRun webCfg webOps) 1006 webBearer).2).isNone = true := by
  refine ⟨by decide, by decide⟩

end Verif
