import Verif.Props.GivenClaims
/-! The hypotheses of C151 and C152 are met, and their conclusions are not empty. -/
namespace Verif
open Spec

/-- diana's browser and the client c1, whatever they do. -/
theorem webRun_like (ops : List HttpOp) (h1 : (ops.flatMap httpGid).Nodup) (h2 : ∀ gid ∈ ops.flatMap httpGid, gid ≠ [] ∧ ';' ∉ gid)
    (h3 : ∀ now gid mc ma idt raw req, HttpOp.authorize now gid mc ma idt raw req ∈ ops → raw = webCookie)
    (h4 : ∀ i n ss v req, HttpOp.register i n ss v req ∈ ops → i = webRegIn ∧ req = webReg) : WebRun webCfg ops where
  nodup := h1
  good := h2
  blank := demoEnv_blankFree
  users := by
    intro now gid mc ma idt raw req hm u hu
    have := h3 _ _ _ _ _ _ _ hm
    subst this
    rcases hu with h | ⟨s, h⟩
    · rw [webCookie_says h.1]; exact goodId_name (by simp [GoodId, SemicolonFree])
    · exact absurd h (webCookie_no_session u s)
  cookies := by
    intro now gid mc ma idt raw req hm u s hs
    have := h3 _ _ _ _ _ _ _ hm
    subst this
    exact absurd hs (webCookie_no_session u _)
  clients := by
    intro c hc
    rcases hc with h | ⟨i, n, ss, v, req, h, h'⟩
    · cases h
    · obtain ⟨rfl, rfl⟩ := h4 _ _ _ _ _ h
      have : c = c!"c1" := by simpa [webRegIn, webReg] using h'
      rw [this]; exact goodId_name (by simp [GoodId, SemicolonFree])

set_option maxRecDepth 32000 in
/-- C151: the refresh token that the fourth request gave is used in the eighth, for the scope of the authorization request. -/
example : WebRun webCfg webRefOps ∧ (tokensAt webCfg webRefOps 7).map (fun x => (x.1.grantType, x.1.refreshToken, x.2.scope)) =
      some (some c!"refresh_token", some webRt, webAreq.areq.scope) ∧
    (givenOut webCfg webRefOps 3).map (fun l => decide ((TokenKind.refreshToken, webRt) ∈ l)) = some true ∧ webCfg.sys.env.gc.implicit = false := by
  refine ⟨webRun_like _ (by decide) (by decide) ?_ ?_, by decide, by decide, rfl⟩
  · intro now gid mc ma idt raw req hm
    simp only [webRefOps, webOps, List.cons_append, List.nil_append, List.mem_cons, List.not_mem_nil, or_false, HttpOp.authorize.injEq, reduceCtorEq, false_or] at hm
    exact hm.2.2.2.2.2.1
  · intro i n ss v req hm
    simp only [webRefOps, webOps, List.cons_append, List.nil_append, List.mem_cons, List.not_mem_nil, or_false, HttpOp.register.injEq, reduceCtorEq] at hm
    exact ⟨hm.1, hm.2.2.2.2⟩

/-- A client that asks for two claims, each with a certain value. -/
def claimAreq : UserReq :=
  { areq := { demoReq [c!"code"] with claims := some [(c!"userinfo",
      [(c!"email", some [(c!"value", .str c!"d@x")]), (c!"scope", some [(c!"value", .str c!"user")])])] } }
def claimOps : List HttpOp :=
  [ .register webRegIn true true true webReg,
    .authorize 1000 c!"g1" (mintIn c!"n1") (mintIn c!"n2") (.val c!"IDT") webCookie claimAreq,
    .tokenParse 1001 webSecret webTok,
    .tokenProcess (tokIn 1001 c!"n3" c!"n4") webTokParsed ]

set_option maxRecDepth 32000 in
/-- C152: both claims are granted as asked; diana has both, but only for one the value asked for, so only that is told. -/
example : WebRun webCfg claimOps ∧
    (outVal (userinfoEndpoint webCfg (provRun webCfg (claimOps.take 4)) 1002 webBearer).2).map (fun x =>
      (x.1.get? c!"sub", x.1.get? c!"email", x.1.get? c!"scope", x.2)) = some (some (.str c!"pub-diana"), some (.str c!"d@x"), none, c!"c1") ∧
    (demoUsers c!"diana").get? c!"scope" = some (.str c!"admin") ∧
    DistinctNames claimAreq.areq.claims ((webCfg.sys.env.ccfg.modules.get? c!"userinfo").getD {}) := by
  refine ⟨webRun_like _ (by decide) (by decide) ?_ ?_, by decide, by decide, ?_⟩
  · intro now gid mc ma idt raw req hm
    simp only [claimOps, List.mem_cons, List.not_mem_nil, or_false, HttpOp.authorize.injEq, reduceCtorEq, false_or] at hm
    exact hm.2.2.2.2.2.1
  · intro i n ss v req hm
    simp only [claimOps, List.mem_cons, List.not_mem_nil, or_false, HttpOp.register.injEq, reduceCtorEq] at hm
    exact ⟨hm.1, hm.2.2.2.2⟩
  · refine ⟨by decide, ?_⟩
    intro d hd u cs hcs
    cases hd
    have := Dict.get?_mem hcs
    simp only [List.mem_singleton, Prod.mk.injEq] at this
    rw [this.2]
    decide

end Verif
