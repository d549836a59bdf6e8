import Verif.Lemmas.WebTree
import Verif.Lemmas.ProviderInv
import Verif.Props.ProviderDemo
set_option linter.unusedSimpArgs false
set_option linter.unusedVariables false
/-! C129: the session tree under any history of HTTP requests. -/
namespace Verif
open Spec

theorem Spec.GoodNames.snoc_left {cfg : ProvCfg} {l : List HttpOp} {op : HttpOp} (h : GoodNames cfg (l ++ [op])) : GoodNames cfg l where
  gids := fun g hg => h.gids g (by simp only [List.flatMap_append, List.mem_append]; exact Or.inl hg)
  users := fun now gid mc ma idt raw req hm => h.users now gid mc ma idt raw req (by simp [hm])
  clients := fun c hc => h.clients c (by
    rcases hc with hc | ⟨i, n, ss, v, req, hm, hx⟩
    · exact Or.inl hc
    · exact Or.inr ⟨i, n, ss, v, req, by simp [hm], hx⟩)

theorem sound_authorize {cfg : ProvCfg} {st : Prov} (h : Sound st.sys.store) (hcl : ∀ c, (st.cdb c).isSome = true → GoodId c)
    (now : Int) {gid : Str} (hg : GoodId gid) (mc ma : MintIn) (idt : Out Str) (raw : Option Str) (req : UserReq)
    (hu : ∀ u, (ShowsLogin cfg raw u ∨ ∃ s, ShowsSession cfg raw u s) → GoodId u) :
    Sound (authorizeEndpoint cfg st now gid mc ma idt raw req).2.2.1 := by
  unfold authorizeEndpoint
  generalize authzParse cfg.sys.env st.cdb st.par req.areq = r
  obtain ⟨par, o⟩ := r
  cases o with
  | errMsg e => exact h
  | raise e => exact h
  | val q =>
    simp only
    unfold authzBrowser
    split
    · exact h
    · split
      · exact h
      · split
        · exact h
        · rename_i a ha
          obtain ⟨-, -, h1, h2⟩ := authnIn_shows ha
          refine sound_authzProcess h _ _ _ _ _ _ _ _ hg (hcl _) ?_
          cases hid : a.ident with
          | nobody => trivial
          | plain u => exact hu u (Or.inl (h1 u hid))
          | decoded u sid =>
            rintro x rfl
            exact hu x (Or.inr ⟨sid, h2 x sid hid⟩)

theorem provRun_sound {cfg : ProvCfg} {ops : List HttpOp} (h : GoodNames cfg ops) : Sound (provRun cfg ops).sys.store := by
  induction ops using snocInd with
  | nil => exact sound_empty
  | append_singleton l op ih =>
    have ih := ih h.snoc_left
    have hcl : ∀ c, ((provRun cfg l).cdb c).isSome = true → GoodId c :=
      fun c hc => h.snoc_left.clients c (provRun_named cfg l c hc)
    rw [provRun_snoc]
    cases op with
    | register => exact ih
    | push => exact ih
    | userinfo => exact ih
    | introspect => exact ih
    | tokenParse now r req => simp only [provStep]; split <;> exact ih
    | tokenProcess i req =>
      simp only [provStep, sysStep]
      split
      · exact sound_tokProcess ih _ _ _ _ _
      · exact ih
    | logout post sid alla => exact sound_logout ih _ _ _ _ _
    | restart =>
      simp only [provStep]
      split
      · exact sound_empty
      · exact ih
    | authorize now gid mc ma idt raw req =>
      exact sound_authorize ih hcl now (h.gids gid (by simp [httpGid])) mc ma idt raw req
        (h.users now gid mc ma idt raw req (by simp))

/-- **C129** Whatever requests are made at the provider's endpoints, and however often it is restarted: every client listed for a
user has a readable record, every grant listed there can be read, and everything in the storage is a user, a client of a user or a
grant of a client, under its own key. -/
theorem C129_web_no_dangling (cfg : ProvCfg) (ops : List HttpOp) (h : GoodNames cfg ops) :
    NoDangling (provRun cfg ops).sys.store ∧
    ∀ k o, (provRun cfg ops).sys.store k = some o →
      (∃ u c g gr, GoodId u ∧ GoodId c ∧ GoodId g ∧ k = sessionKey [u, c, g] ∧ o = .grant gr) ∨
      (∃ u i, GoodId u ∧ k = u ∧ o = .info i) ∨ (∃ u c i, GoodId u ∧ GoodId c ∧ k = sessionKey [u, c] ∧ o = .info i) :=
  ⟨tree_noDangling (provRun_sound h).tree, (provRun_sound h).shape⟩

/-- The demo history has good names. -/
theorem webNames_demo : GoodNames webCfg webOps where
  gids := by
    intro gid hg
    have : gid = c!"g1" := by simpa [webOps, httpGid] using hg
    rw [this]; simp [GoodId, SemicolonFree]
  users := by
    intro now gid mc ma idt raw req hm u hu
    simp only [webOps, List.mem_cons, List.not_mem_nil, or_false, HttpOp.authorize.injEq, reduceCtorEq, false_or] at hm
    obtain ⟨-, -, -, -, -, rfl, -⟩ := hm
    rcases hu with h | ⟨s, h⟩
    · rw [webCookie_says h.1]; simp [GoodId, SemicolonFree]
    · exact absurd h (webCookie_no_session u s)
  clients := by
    intro c hc
    rcases hc with h | ⟨i, n, ss, v, req, h, h'⟩
    · cases h
    · simp only [webOps, List.mem_cons, List.not_mem_nil, or_false, HttpOp.register.injEq, reduceCtorEq] at h
      obtain ⟨rfl, -, -, -, rfl⟩ := h
      have : c = c!"c1" := by simpa [webRegIn, webReg] using h'
      rw [this]; simp [GoodId, SemicolonFree]

set_option maxRecDepth 16000 in
/-- There is something in the storage: a user, with a client, with a grant. -/
example : ((provRun webCfg webOps).sys.store c!"diana").isSome = true ∧
    ((provRun webCfg webOps).sys.store (sessionKey [c!"diana", c!"c1"])).isSome = true ∧
    ((provRun webCfg webOps).sys.store (sessionKey [c!"diana", c!"c1", c!"g1"])).isSome = true := by decide

end Verif
