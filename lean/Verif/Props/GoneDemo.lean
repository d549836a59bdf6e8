import Verif.Props.Gone
import Verif.Props.GivenTermsDemo
import Verif.Props.LastingDemo
/-! The hypotheses of C157 are met, and its conclusion says something. -/
namespace Verif
open Spec

/-- diana logs in again at the same client. -/
def againOp : HttpOp := .authorize 1002 c!"g2" (mintIn c!"n5") (mintIn c!"n6") (.val c!"IDT") webCookie webAreq
def againOps : List HttpOp := webOps ++ [againOp]

theorem againRun : WebRun webCfg againOps := by
  refine webRun_like _ (by decide) (by decide) ?_ ?_
  · intro now gid mc ma idt raw req hm
    simp only [againOps, againOp, webOps, List.cons_append, List.nil_append, List.mem_cons, List.not_mem_nil, or_false, HttpOp.authorize.injEq, reduceCtorEq, false_or] at hm
    rcases hm with hm | hm
    · exact hm.2.2.2.2.2.1
    · exact hm.2.2.2.2.2.1
  · intro i n ss v req hm
    simp only [againOps, againOp, webOps, List.cons_append, List.nil_append, List.mem_cons, List.not_mem_nil, or_false, HttpOp.register.injEq, reduceCtorEq] at hm
    exact ⟨hm.1, hm.2.2.2.2⟩

theorem againNames : GoodNames webCfg againOps where
  gids := by
    intro gid hg
    have : gid = c!"g1" ∨ gid = c!"g2" := by simpa [againOps, againOp, webOps, httpGid] using hg
    rcases this with rfl | rfl <;> simp [GoodId, SemicolonFree]
  users := by
    intro now gid mc ma idt raw req hm u hu
    have : raw = webCookie := by
      simp only [againOps, againOp, webOps, List.cons_append, List.nil_append, List.mem_cons, List.not_mem_nil, or_false, HttpOp.authorize.injEq, reduceCtorEq, false_or] at hm
      rcases hm with hm | hm
      · exact hm.2.2.2.2.2.1
      · exact hm.2.2.2.2.2.1
    subst this
    rcases hu with h | ⟨s, h⟩
    · rw [webCookie_says h.1]; simp [GoodId, SemicolonFree]
    · exact absurd h (webCookie_no_session u s)
  clients := by
    intro c hc
    rcases hc with h | ⟨i, n, ss, v, req, h, h'⟩
    · cases h
    · simp only [againOps, againOp, webOps, List.cons_append, List.nil_append, List.mem_cons, List.not_mem_nil, or_false, HttpOp.register.injEq, reduceCtorEq] at h
      obtain ⟨rfl, -, -, -, rfl⟩ := h
      have : c = c!"c1" := by simpa [webRegIn, webReg] using h'
      rw [this]; simp [GoodId, SemicolonFree]

set_option maxRecDepth 64000 in
/-- C157: the fourth request gave an access token, which works; then diana logs in again, gets an answer, and the token is
of no use: it does not open anything at the userinfo endpoint, and is not called active.  The code of the new session can be redeemed. -/
example : MadeAt webCfg webOps 3 (sessionKey [c!"diana", c!"c1", c!"g1"]) .accessToken webAt ∧
    isReply (authorizeEndpoint webCfg (provRun webCfg webOps) 1002 c!"g2" (mintIn c!"n5") (mintIn c!"n6") (.val c!"IDT") webCookie webAreq).2.2.2 = true ∧
    (outVal (userinfoEndpoint webCfg (provRun webCfg webOps) 1003 webBearer).2).isSome = true ∧
    (outVal (userinfoEndpoint webCfg (provRun webCfg againOps) 1003 webBearer).2).isNone = true ∧
    (outVal (introspectEndpoint webCfg (provRun webCfg againOps) 1003 webSecret (some webAt)).2).isNone = true ∧
    (getGrant (provRun webCfg againOps).sys.store (sessionKey [c!"diana", c!"c1", c!"g2"])).toOption.isSome = true := by
  refine ⟨step_made webRun_demo ?_ ?_, by decide, by decide, by decide, by decide, by decide⟩
  · intro h
    exact webAt_new _ _ (show StoredAfter webCfg (webOps.take 3) 3 _ _ _ from h)
  · have : ((provRun webCfg (webOps.take 4)).sys.store (sessionKey [c!"diana", c!"c1", c!"g1"])).map (fun o => match o with
        | .grant g => g.issuedToken.any fun t => decide (t.kind = .accessToken ∧ t.value = webAt)
        | .info _ => false) = some true := by decide
    unfold StoredAfter
    cases hs : (provRun webCfg (webOps.take 4)).sys.store (sessionKey [c!"diana", c!"c1", c!"g1"]) with
    | none => rw [hs] at this; cases this
    | some o =>
      rw [hs] at this
      cases o with
      | info i => simp at this
      | grant g =>
        simp only [Option.map_some, Option.some.injEq, List.any_eq_true, decide_eq_true_eq] at this
        obtain ⟨t, t1, t2, t3⟩ := this
        exact ⟨g, t, rfl, t1, t2, t3⟩

set_option maxRecDepth 64000 in
/-- Restarted in memory, the provider has forgotten the token. -/
example : (outVal (userinfoEndpoint { webCfg with sys := { webCfg.sys with mode := .aliased } } (provRun { webCfg with sys := { webCfg.sys with mode := .aliased } } webOps) 1003 webBearer).2).isSome = true ∧
    (outVal (userinfoEndpoint { webCfg with sys := { webCfg.sys with mode := .aliased } } (provRun { webCfg with sys := { webCfg.sys with mode := .aliased } } (webOps ++ [.restart])) 1003 webBearer).2).isNone = true := by decide

end Verif
