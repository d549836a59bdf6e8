import Verif.Props.LastingCode
import Verif.Props.LastingDemo
import Verif.Props.GivenTermsDemo
/-! The hypotheses of C159 are met. -/
namespace Verif
open Spec

/-- Before diana logs in, there are no tokens. -/
theorem webCode_new : ∀ sid kd, ¬ StoredAfter webCfg (webOps.take 1) (webOps.take 1).length sid kd webCode := by
  rintro sid kd ⟨g, t, h, -⟩
  cases h

/-- Somebody looks at the code between its issue and its redemption: a bearer of it at the userinfo endpoint, and a client at the introspection
endpoint. -/
def codeMid : List HttpOp := [.userinfo 1000 { authorization := some (c!"Bearer " ++ webCode) }, .introspect 1000 webSecret (some webCode)]

/-- What C159 asks of the grant of diana's session, for a code made at 1000. -/
def codeLivesCheck (g : Grant) (now : Int) : Bool :=
  decide (((g.usageRules.get? tAuthorizationCode).getD {}).supportsMinting.all (fun l => decide (tAccessToken ∈ l ∧ tRefreshToken ∈ l))) &&
  decide (lifetime g tAuthorizationCode = 0 ∨ now ≤ 1000 + lifetime g tAuthorizationCode) && g.isActive now && decide (g.maxUsage = none)

set_option maxRecDepth 64000 in
/-- C159: the hypotheses hold for the authorization response of the demonstration and the redemption by the client; the rules of the session are
as required and both are alive. -/
example : IssuesTokens webCfg.sys.env ⟨.jwt, c!"A", 5, c!"k1"⟩ ⟨.jwt, c!"T", 5, c!"k2"⟩ ∧
    webCfg.sys.helpers.get? c!"authorization_code" = some (.inst .accessToken) ∧
    WebRun webCfg (webOps.take 2 ++ codeMid) ∧ GoodNames webCfg (webOps.take 2) ∧
    replyCode (authorizeEndpoint webCfg (provRun webCfg (webOps.take 1)) 1000 c!"g1" (mintIn c!"n1") (mintIn c!"n2") (.val c!"IDT") webCookie webAreq).2.2.2 =
      some (some c!"https://rp/cb", some webCode) ∧
    During webCfg (webOps.take 2) codeMid (NotRedeemed webCfg c!"diana" c!"c1" webCode) ∧
    HonestCodeRequest webCfg.sys.env (demoReq [c!"code"]) webCode webTok ∧
    (match getGrant (provRun webCfg (webOps.take 2)).sys.store (sessionKey [c!"diana", c!"c1", c!"g1"]) with
     | .ok g => codeLivesCheck g 1001 && decide (g.authReq = some (demoReq [c!"code"]))
     | .error _ => false) = true ∧
    (clientAuthentication webCfg.lib (provRun webCfg (webOps.take 2 ++ codeMid)).cdb 1001 webCfg.tokenMethods webCfg.tokenTargets plainFromToken
      (provRun webCfg (webOps.take 2 ++ codeMid)).jtis webSecret).2.isOk = true := by
  refine ⟨demo_issues, by decide, ?_, ?_, by decide, ?_, ⟨rfl, rfl, rfl, fun p h => nomatch h⟩, by decide, by decide⟩
  · refine webRun_like _ (by decide) (by decide) ?_ ?_
    · intro now gid mc ma idt raw req hm
      simp only [webOps, codeMid, List.take_succ_cons, List.take_zero, List.cons_append, List.nil_append, List.mem_cons, List.not_mem_nil, or_false,
        HttpOp.authorize.injEq, reduceCtorEq, false_or] at hm
      exact hm.2.2.2.2.2.1
    · intro i n ss v req hm
      simp only [webOps, codeMid, List.take_succ_cons, List.take_zero, List.cons_append, List.nil_append, List.mem_cons, List.not_mem_nil, or_false,
        HttpOp.register.injEq, reduceCtorEq] at hm
      exact ⟨hm.1, hm.2.2.2.2⟩
  · have h := webNames_demo
    rw [← List.take_append_drop 2 webOps] at h
    exact Spec.GoodNames.prefix h
  · intro pre op post e
    have : op ∈ codeMid := by rw [e]; simp
    simp only [codeMid, List.mem_cons, List.not_mem_nil, or_false] at this
    rcases this with rfl | rfl <;> exact ⟨trivial, fun _ _ _ h => nomatch h⟩

set_option maxRecDepth 64000 in
/-- It is accepted then, and gives tokens; when its time is over, or once it was redeemed, it is not. -/
example : (outVal (tokenParseEndpoint webCfg (provRun webCfg (webOps.take 2 ++ codeMid)) 1001 webSecret webTok).2).isSome = true ∧
    (outVal (tokenParseEndpoint webCfg (provRun webCfg (webOps.take 2 ++ codeMid)) 1100 webSecret webTok).2).isNone = true ∧
    (outVal (tokenParseEndpoint webCfg (provRun webCfg (webOps.take 4)) 1001 webSecret webTok).2).isNone = true := by
  refine ⟨by decide, by decide, by decide⟩

end Verif
