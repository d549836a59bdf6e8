import Verif.Props.LastingRefresh
import Verif.Props.LastingDemo
/-! The hypotheses of C158 are met. -/
namespace Verif
open Spec

set_option maxRecDepth 32000 in
/-- The refresh token of diana's session is new when the code is redeemed. -/
theorem webRt_new : ∀ sid kd, ¬ StoredAfter webCfg (webOps.take 3) (webOps.take 3).length sid kd webRt := by
  intro sid kd h
  have hw := webRun_demo.take 3
  obtain ⟨k, hk, M⟩ := C136_tokens_are_given_out _ _ hw _ _ _ _ h
  have hk' : k = 0 ∨ k = 1 ∨ k = 2 := by
    have : (webOps.take 3).length = 3 := rfl
    omega
  rcases hk' with rfl | rfl | rfl
  · rcases M.endpoint with ⟨_, _, _, _, _, _, _, e⟩ | ⟨_, _, e, _⟩ <;> cases e
  · have := M.answer [(.authorizationCode, webCode)] (by decide)
    simp only [List.mem_singleton, Prod.mk.injEq] at this
    exact absurd this.2 (by decide)
  · rcases M.endpoint with ⟨_, _, _, _, _, _, _, e⟩ | ⟨_, _, e, _⟩ <;> cases e

/-- The grant of diana's session allows refreshing at this time, for a token made at 1001. -/
def livesCheck (g : Grant) (now : Int) : Bool :=
  decide (((g.usageRules.get? tRefreshToken).getD {}).maxUsage.all (fun m => decide (0 < m))) &&
  decide (((g.usageRules.get? tRefreshToken).getD {}).supportsMinting.all (fun l => decide (tAccessToken ∈ l))) &&
  decide (lifetime g tRefreshToken = 0 ∨ now ≤ 1001 + lifetime g tRefreshToken) && g.isActive now && decide (g.maxUsage = none)

set_option maxRecDepth 64000 in
/-- C158: the hypotheses hold for the token response of the demonstration, and for the refresh request that the client makes after its token was
shown and asked about; the rules of the session are as required and both are alive. -/
example : IssuesTokens webCfg.sys.env ⟨.jwt, c!"A", 5, c!"k1"⟩ ⟨.jwt, c!"T", 5, c!"k2"⟩ ∧ webCfg.sys.env.pkce = none ∧
    webCfg.sys.helpers.get? c!"refresh_token" = some (.inst .refreshToken) ∧
    WebRun webCfg webOps ∧ GoodNames webCfg webOps ∧
    (tokensAt webCfg (webOps.take 4) 3).map (fun x => (x.1 == webTokParsed, x.2.accessToken, x.2.refreshToken)) = some (true, webAt, some webRt) ∧
    webRt ≠ webAt ∧ During webCfg (webOps.take 4) webMid (NoNewLogin webCfg c!"diana" c!"c1") ∧
    (match getGrant (provRun webCfg (webOps.take 3)).sys.store (sessionKey [c!"diana", c!"c1", c!"g1"]) with
     | .ok g => livesCheck g 1003 && livesCheck g 1004
     | .error _ => false) = true ∧
    (clientAuthentication webCfg.lib (provRun webCfg webOps).cdb 1003 webCfg.tokenMethods webCfg.tokenTargets plainFromToken
      (provRun webCfg webOps).jtis webSecret).2.isOk = true := by
  refine ⟨demo_issues, rfl, by decide, webRun_demo, webNames_demo, by decide, by decide, ?_, by decide, by decide⟩
  intro pre op post e
  have : op ∈ webMid := by rw [e]; simp
  simp only [webMid, List.mem_cons, List.not_mem_nil, or_false] at this
  rcases this with rfl | rfl <;> exact trivial

set_option maxRecDepth 64000 in
/-- It is accepted then; later, when the token's time is over, it is not. -/
example : (outVal (tokenParseEndpoint webCfg (provRun webCfg webOps) 1003 webSecret webRefReq).2).isSome = true ∧
    (outVal (tokenParseEndpoint webCfg (provRun webCfg webOps) 1100 webSecret webRefReq).2).isNone = true ∧
    ((tokensAt webCfg webRefOps 7).map (·.2.scope)) = some [c!"openid", c!"offline_access"] := by
  refine ⟨by decide, by decide, by decide⟩

end Verif
