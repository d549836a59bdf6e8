import Verif.Props.LastingAuthz
import Verif.Props.ProviderDemo
import Verif.Props.WebTree
/-! The hypotheses of C155 are met. -/
namespace Verif
open Spec

/-- A client of the hybrid flow. -/
def hybridReg : RegRec := [(c!"redirect_uris", .strs [c!"https://rp/cb"]), (c!"response_types", .strs [c!"code token"])]

/-- The provider of the demonstrations, with the hybrid flow. -/
def hybridCfg : ProvCfg := { webCfg with regCfg := { demoRegCfg with prov := Dict.set demoRegCfg.prov c!"response_types_supported" (.strs [c!"code", c!"code token"]) } }

def hybridAuthz : HttpOp :=
  .authorize 1000 c!"g1" (mintIn c!"n1") (mintIn c!"n2") (.errMsg c!"x") webCookie { areq := demoReq [c!"code", c!"token"] }

def hybridStart : List HttpOp := [.register webRegIn true true true hybridReg]

def hybridOps : List HttpOp := hybridStart ++ [hybridAuthz]

set_option maxRecDepth 32000 in
theorem hybridRun : WebRun hybridCfg hybridOps where
  nodup := by decide
  good := by decide
  blank := demoEnv_blankFree
  users := by
    intro now gid mc ma idt raw req hm u hu
    simp only [hybridOps, hybridStart, hybridAuthz, List.cons_append, List.nil_append, List.mem_cons, List.not_mem_nil, or_false,
      HttpOp.authorize.injEq, reduceCtorEq, false_or] at hm
    obtain ⟨-, -, -, -, -, rfl, -⟩ := hm
    rcases hu with h | ⟨s, h⟩
    · rw [webCookie_says (v := u) h.1]; exact goodId_name (by simp [GoodId, SemicolonFree])
    · exact absurd (show ShowsSession webCfg _ _ _ from h) (webCookie_no_session u s)
  cookies := by
    intro now gid mc ma idt raw req hm u s hs
    simp only [hybridOps, hybridStart, hybridAuthz, List.cons_append, List.nil_append, List.mem_cons, List.not_mem_nil, or_false,
      HttpOp.authorize.injEq, reduceCtorEq, false_or] at hm
    obtain ⟨-, -, -, -, -, rfl, -⟩ := hm
    exact absurd (show ShowsSession webCfg _ _ _ from hs) (webCookie_no_session u _)
  clients := by
    intro c hc
    rcases hc with h | ⟨i, n, ss, v, req, h, h'⟩
    · cases h
    · simp only [hybridOps, hybridStart, hybridAuthz, List.cons_append, List.nil_append, List.mem_cons, List.not_mem_nil, or_false,
        HttpOp.register.injEq, reduceCtorEq] at h
      obtain ⟨rfl, -, -, -, rfl⟩ := h
      have : c = c!"c1" := by simpa [webRegIn, hybridReg] using h'
      rw [this]; exact goodId_name (by simp [GoodId, SemicolonFree])

theorem hybridNames : GoodNames hybridCfg hybridOps where
  gids := by
    intro gid hg
    have : gid = c!"g1" := by simpa [hybridOps, hybridStart, hybridAuthz, httpGid] using hg
    rw [this]; simp [GoodId, SemicolonFree]
  users := by
    intro now gid mc ma idt raw req hm u hu
    simp only [hybridOps, hybridStart, hybridAuthz, List.cons_append, List.nil_append, List.mem_cons, List.not_mem_nil, or_false,
      HttpOp.authorize.injEq, reduceCtorEq, false_or] at hm
    obtain ⟨-, -, -, -, -, rfl, -⟩ := hm
    rcases hu with h | ⟨s, h⟩
    · rw [webCookie_says (v := u) h.1]; simp [GoodId, SemicolonFree]
    · exact absurd (show ShowsSession webCfg _ _ _ from h) (webCookie_no_session u s)
  clients := by
    intro c hc
    rcases hc with h | ⟨i, n, ss, v, req, h, h'⟩
    · cases h
    · simp only [hybridOps, hybridStart, hybridAuthz, List.cons_append, List.nil_append, List.mem_cons, List.not_mem_nil, or_false,
        HttpOp.register.injEq, reduceCtorEq] at h
      obtain ⟨rfl, -, -, -, rfl⟩ := h
      have : c = c!"c1" := by simpa [webRegIn, hybridReg] using h'
      rw [this]; simp [GoodId, SemicolonFree]

/-- The answer to the authorization request. -/
def hybridAnswer : AuthzAnswer :=
  (authorizeEndpoint hybridCfg (provRun hybridCfg hybridStart) 1000 c!"g1" (mintIn c!"n1") (mintIn c!"n2") (.errMsg c!"x") webCookie
    { areq := demoReq [c!"code", c!"token"] }).2.2.2

/-- The access token in an answer, and the time it announces. -/
def answerToken : AuthzAnswer → Option (Str × Option Int × List Str)
  | .reply r => match r.content with
    | .val a => a.accessToken.map (fun v => (v, a.expiresIn, a.scope))
    | _ => none
  | _ => none


set_option maxRecDepth 32000 in
/-- C155: the answer has an access token, for four seconds; the storage knew no token before. -/
example : IssuesTokens hybridCfg.sys.env ⟨.jwt, c!"A", 5, c!"k1"⟩ ⟨.jwt, c!"T", 5, c!"k2"⟩ ∧ WebRun hybridCfg (hybridStart ++ [hybridAuthz]) ∧
    GoodNames hybridCfg (hybridStart ++ [hybridAuthz]) ∧
    (answerToken hybridAnswer).map (·.2) = some (some 4, [c!"openid", c!"offline_access"]) ∧
    (∀ sid kd v, ¬ StoredAfter hybridCfg hybridStart hybridStart.length sid kd v) := by
  refine ⟨demo_issues, hybridRun, hybridNames, by decide, ?_⟩
  rintro sid kd v ⟨g, t, h, -⟩
  cases h

set_option maxRecDepth 32000 in
/-- The token is shown at the end of the announced four seconds, and one second later. -/
example : ((answerToken hybridAnswer).map (fun x =>
      ((outVal (userinfoEndpoint hybridCfg (provRun hybridCfg hybridOps) 1004 { authorization := some (c!"Bearer " ++ x.1) }).2).map (·.2),
       (outVal (userinfoEndpoint hybridCfg (provRun hybridCfg hybridOps) 1005 { authorization := some (c!"Bearer " ++ x.1) }).2).isNone))) =
    some (some c!"c1", true) := by
  decide

end Verif
