import Verif.Props.WebRefresh
import Verif.Lemmas.LocalToken
set_option linter.unusedSimpArgs false
set_option linter.unusedVariables false
/-! C135: what happens at one client does not change a user's sessions at the others. -/
namespace Verif
open Spec

/-- **C135** (storage) The session record and the grants of a user at a client are after any stretch of requests that concern
other users or other clients exactly what they were before: nothing is added, lost, revoked or changed. -/
theorem C135_sessions_of_other_clients_unchanged (cfg : ProvCfg) (L : TokenCryptoLaws cfg.sys.env.cr) (h mid : List HttpOp)
    (hn : GoodNames cfg (h ++ mid)) (u c : Str) (hu : GoodId u) (hc : GoodId c) (hm : During cfg h mid (ByOthersOrRestart cfg u c)) :
    (∀ o, dbGet (provRun cfg (h ++ mid)).sys.store [u, c] = .ok o ↔ dbGet (provRun cfg h).sys.store [u, c] = .ok o) ∧
    ∀ gid, GoodId gid → ∀ g, getGrant (provRun cfg (h ++ mid)).sys.store (sessionKey [u, c, gid]) = .ok g ↔
      getGrant (provRun cfg h).sys.store (sessionKey [u, c, gid]) = .ok g := by
  refine ⟨fun o => ?_, fun gid hg g => others_grant L h mid hn hu hc hg hm⟩
  induction mid using snocInd with
  | nil => simp
  | append_singleton m op ih =>
    rw [← List.append_assoc] at hn ⊢
    rw [← ih hn.snoc_left (During.init hm)]
    exact (others_kept L hn hu (During.last hm)).read hu hc o

/-- The token is found again. -/
theorem sessionByToken_kept {cfg : ProvCfg} {s s' : Store} {u c gid : Str} (hu : GoodId u) (hc : GoodId c) (hg : GoodId gid) {g : Grant}
    (h : getGrant s (sessionKey [u, c, gid]) = .ok g) (h' : getGrant s' (sessionKey [u, c, gid]) = .ok g) {now : Int} {v : Str}
    (hv : cfg.sys.env.th.sid cfg.sys.env.cr now v = .ok (sessionKey [u, c, gid])) :
    sessionByToken cfg.sys.env.th cfg.sys.env.cr s' now v = sessionByToken cfg.sys.env.th cfg.sys.env.cr s now v := by
  unfold sessionByToken
  simp only [hv, unpack3_good hu hc hg, (getGrant_iff hu hc hg g).1 h, (getGrant_iff hu hc hg g).1 h']

/-- **C135** (answers) For a token from a session of the user at a client, the userinfo endpoint and the introspection endpoint answer the
same before and after any stretch of requests that concern other users or other clients, and a token request with such a code or
refresh token is accepted or refused the same. -/
theorem C135_answers_about_other_clients_unchanged (cfg : ProvCfg) (L : TokenCryptoLaws cfg.sys.env.cr) (h mid : List HttpOp)
    (hn : GoodNames cfg (h ++ mid)) (u c : Str) (hu : GoodId u) (hc : GoodId c) (hm : During cfg h mid (ByOthersOrRestart cfg u c))
    (now : Int) :
    (∀ v, OfSession cfg (provRun cfg h) u c now v →
      userinfoProcess cfg.sys.env cfg.userDb (provRun cfg (h ++ mid)).sys.store now v =
        userinfoProcess cfg.sys.env cfg.userDb (provRun cfg h).sys.store now v ∧
      introspectProcess cfg.sys.env cfg.issuer cfg.release cfg.userDb (provRun cfg (h ++ mid)).sys.store now v =
        introspectProcess cfg.sys.env cfg.issuer cfg.release cfg.userDb (provRun cfg h).sys.store now v) ∧
    ∀ req : TokReq, (∀ v, (req.code = some v ∨ req.refreshToken = some v) → OfSession cfg (provRun cfg h) u c now v) →
      tokParse cfg.sys.env cfg.sys.helpers (provRun cfg (h ++ mid)).sys.store now req =
        tokParse cfg.sys.env cfg.sys.helpers (provRun cfg h).sys.store now req := by
  have same : ∀ v, OfSession cfg (provRun cfg h) u c now v →
      sessionByToken cfg.sys.env.th cfg.sys.env.cr (provRun cfg (h ++ mid)).sys.store now v =
        sessionByToken cfg.sys.env.th cfg.sys.env.cr (provRun cfg h).sys.store now v := by
    rintro v ⟨gid, g, hg, hv, hgr⟩
    exact sessionByToken_kept hu hc hg hgr ((others_grant L h mid hn hu hc hg hm).2 hgr) hv
  refine ⟨fun v hv => ⟨?_, ?_⟩, fun req hr => ?_⟩
  · unfold userinfoProcess
    rw [same v hv]
  · unfold introspectProcess
    rw [same v hv]
  · exact tokParse_byToken (fun v hv => same v (hr v (Or.inl hv))) (fun v hv => same v (hr v (Or.inr hv)))

/-! ### The hypotheses are met -/

/-- A second client registers, diana's browser goes there too, and she logs out from it. -/
def sideOps : List HttpOp :=
  [ .register { webRegIn with ids := [c!"c2"], secret := c!"s2" } true true true webReg,
    .authorize 1003 c!"g2" (mintIn c!"m1") (mintIn c!"m2") (.val c!"IDT") webCookie { areq := { demoReq [c!"code"] with clientId := c!"c2" } },
    .logout (fun _ _ => .ok ()) c!"diana;;c2;;g2" false ]

theorem sideNames : GoodNames webCfg (webOps ++ sideOps) where
  gids := by
    intro gid hg
    have : gid = c!"g1" ∨ gid = c!"g2" := by simpa [webOps, sideOps, httpGid] using hg
    rcases this with rfl | rfl <;> simp [GoodId, SemicolonFree]
  users := by
    intro now gid mc ma idt raw req hm u hu
    have hr : raw = webCookie := by
      simp only [webOps, sideOps, List.cons_append, List.nil_append, List.mem_cons, List.not_mem_nil, or_false, HttpOp.authorize.injEq, reduceCtorEq,
        false_or] at hm
      rcases hm with h | h
      · exact h.2.2.2.2.2.1
      · exact h.2.2.2.2.2.1
    subst hr
    rcases hu with h | ⟨s, h⟩
    · rw [webCookie_says h.1]; simp [GoodId, SemicolonFree]
    · exact absurd h (webCookie_no_session u s)
  clients := by
    intro c hc
    rcases hc with h | ⟨i, n, ss, v, req, h, h'⟩
    · cases h
    · simp only [webOps, sideOps, List.cons_append, List.nil_append, List.mem_cons, List.not_mem_nil, or_false, HttpOp.register.injEq, reduceCtorEq,
        false_or] at h
      have : c = c!"c1" ∨ c = c!"c2" := by
        rcases h with ⟨rfl, -, -, -, rfl⟩ | ⟨rfl, -, -, -, rfl⟩
        · exact Or.inl (by simpa [webRegIn, webReg] using h')
        · exact Or.inr (by simpa [webRegIn, webReg] using h')
      rcases this with rfl | rfl <;> simp [GoodId, SemicolonFree]

theorem sideOps_elsewhere (h : List HttpOp) : During webCfg h sideOps (ByOthersOrRestart webCfg c!"diana" c!"c1") := by
  have e : sideOps = [sideOps[0]] ++ [sideOps[1]] ++ [sideOps[2]] := rfl
  rw [e]
  refine During.append (During.append (During.one (Or.inl rfl)) (During.one (Or.inl ?_))) (During.one (Or.inl ?_))
  · intro _ q hq
    rw [authzParse_plain rfl hq]
    decide
  · intro c' gid h
    have : (unpackSessionKey c!"diana;;c2;;g2")[1]? = some c!"c2" := by decide
    rw [show unpackSessionKey c!"diana;;c2;;g2" = _ from h] at this
    simp only [List.getElem?_cons_succ, List.getElem?_cons_zero, Option.some.injEq] at this
    subst this
    exact ⟨rfl, by decide⟩

set_option maxRecDepth 32000 in
/-- The session at the second client is made and revoked; the first client's access token and refresh token are of a session
that is there, and the answers are not empty. -/
example : (match dbGet (provRun webCfg (webOps ++ sideOps)).sys.store [c!"diana", c!"c2"] with
      | .ok (.info i) => decide (i.revoked = true ∧ i.subordinate = [c!"g2"])
      | _ => false) = true ∧
    OfSession webCfg (provRun webCfg webOps) c!"diana" c!"c1" 1004 webAt ∧
    OfSession webCfg (provRun webCfg webOps) c!"diana" c!"c1" 1004 webRt ∧
    (outVal (userinfoProcess webCfg.sys.env webCfg.userDb (provRun webCfg (webOps ++ sideOps)).sys.store 1004 webAt)).isSome = true := by
  have of : ∀ v, (webCfg.sys.env.th.sid webCfg.sys.env.cr 1004 v).toOption = some (sessionKey [c!"diana", c!"c1", c!"g1"]) →
      (getGrant (provRun webCfg webOps).sys.store (sessionKey [c!"diana", c!"c1", c!"g1"])).toOption.isSome = true →
      OfSession webCfg (provRun webCfg webOps) c!"diana" c!"c1" 1004 v := by
    intro v h1 h2
    cases e1 : webCfg.sys.env.th.sid webCfg.sys.env.cr 1004 v with
    | error e => rw [e1] at h1; cases h1
    | ok sid =>
      rw [e1] at h1
      simp only [Except.toOption, Option.some.injEq] at h1
      subst h1
      cases e2 : getGrant (provRun webCfg webOps).sys.store (sessionKey [c!"diana", c!"c1", c!"g1"]) with
      | error e => rw [e2] at h2; cases h2
      | ok g => exact ⟨c!"g1", g, by simp [GoodId, SemicolonFree], e1, e2⟩
  exact ⟨by decide, of _ (by decide) (by decide), of _ (by decide) (by decide), by decide⟩

end Verif
