import Verif.Props.IdTokenFront
import Verif.Props.GivenTermsDemo
/-! The hypotheses of C162 are met. -/
namespace Verif
open Spec

/-- A client of the flow with a code and an ID token. -/
def idtReg : RegRec := [(c!"redirect_uris", .strs [c!"https://rp/cb"]), (c!"response_types", .strs [c!"code id_token"])]

/-- It asks for a code and an ID token with the user's e-mail address, and sends a nonce. -/
def idtAreq : UserReq :=
  { areq := { demoReq [c!"code", c!"id_token"] with
      nonce := some c!"xyz", claims := some [(c!"id_token", [(c!"email", none)])] } }

/-- A claim of what is signed, as text. -/
def shown (t : ToSign) (k : Str) : Str := match t.payload.get? k with
  | some (.str s) => s
  | _ => c!"-"

/-- A signer that shows what it signs. -/
def idtSign (t : ToSign) : Out Str :=
  .val (t.aud ++ c!"|" ++ shown t c!"sub" ++ c!"|" ++ shown t c!"nonce" ++ c!"|" ++ shown t c!"email" ++ c!"|" ++ shown t c!"c_hash")

def idtFront : Str := c!"c1|pub-diana|xyz|d@x|HS256(" ++ webCode ++ c!")"
def idtBack : Str := c!"c1|pub-diana|xyz|d@x|-"

def idtOps : List HttpOp :=
  [ .register webRegIn true true true idtReg,
    .authorize 1000 c!"g1" (mintIn c!"n1") (mintIn c!"n2") (.val idtFront) webCookie idtAreq,
    .tokenParse 1001 webSecret webTok,
    .tokenProcess { tokIn 1001 c!"n3" c!"n4" with idt := .val idtBack } webTokParsed ]

set_option maxRecDepth 32000 in
theorem idtRun : WebRun webCfg idtOps where
  nodup := by decide
  good := by decide
  blank := demoEnv_blankFree
  users := by
    intro now gid mc ma idt raw req hm u hu
    simp only [idtOps, List.mem_cons, List.not_mem_nil, or_false, HttpOp.authorize.injEq, reduceCtorEq, false_or] at hm
    obtain ⟨-, -, -, -, -, rfl, -⟩ := hm
    rcases hu with h | ⟨s, h⟩
    · rw [webCookie_says (v := u) h.1]; exact goodId_name (by simp [GoodId, SemicolonFree])
    · exact absurd h (webCookie_no_session u s)
  cookies := by
    intro now gid mc ma idt raw req hm u s hs
    simp only [idtOps, List.mem_cons, List.not_mem_nil, or_false, HttpOp.authorize.injEq, reduceCtorEq, false_or] at hm
    obtain ⟨-, -, -, -, -, rfl, -⟩ := hm
    exact absurd hs (webCookie_no_session u _)
  clients := by
    intro c hc
    rcases hc with h | ⟨i, n, ss, v, req, h, h'⟩
    · cases h
    · simp only [idtOps, List.mem_cons, List.not_mem_nil, or_false, HttpOp.register.injEq, reduceCtorEq] at h
      obtain ⟨rfl, -, -, -, rfl⟩ := h
      have : c = c!"c1" := by simpa [webRegIn, idtReg] using h'
      rw [this]; exact goodId_name (by simp [GoodId, SemicolonFree])

/-- The answer to the authorization request. -/
def idtAnswer : AuthzAnswer :=
  (authorizeEndpoint webCfg (provRun webCfg (idtOps.take 1)) 1000 c!"g1" (mintIn c!"n1") (mintIn c!"n2") (.val idtFront) webCookie idtAreq).2.2.2

/-- The code, the access token and the ID token in an answer. -/
def answerParts : AuthzAnswer → Option (Option Str × Option Str × Option Str)
  | .reply r => match r.content with
    | .val ra => some (ra.code, ra.accessToken, ra.idToken)
    | _ => none
  | _ => none

/-- The session that the authorization request is answered for. -/
def idtSession : Option Str :=
  match (authzParse webCfg.sys.env (provRun webCfg (idtOps.take 1)).cdb (provRun webCfg (idtOps.take 1)).par idtAreq.areq).2 with
  | .val q => match authnIn webCfg.sys.env webCfg.acfg 1000 webCookie { idtAreq with areq := q } with
    | .ok a => match (setupAuth webCfg.sys.env (provRun webCfg (idtOps.take 1)).cdb (provRun webCfg (idtOps.take 1)).sys.store 1000 c!"g1" q a).2 with
      | .val (.session sid _) => some sid
      | _ => none
    | .error _ => none
  | _ => none

set_option maxRecDepth 32000 in
theorem idtAnswer_parts : answerParts idtAnswer = some (some webCode, none, some idtFront) := by decide

set_option maxRecDepth 32000 in
theorem idtSession_is : idtSession = some c!"diana;;c1;;g1" := by decide

set_option maxRecDepth 64000 in
theorem idtFront_made : Out.val idtFront = idTokenSigned demoIdCfg idtSign (provRun webCfg (idtOps.take 2)).cdb (provRun webCfg (idtOps.take 2)).sys.store
    c!"diana;;c1;;g1" (some webCode) none := by decide

set_option maxRecDepth 64000 in
theorem idtBack_made : Out.val idtBack = idTokenSigned demoIdCfg idtSign (provRun webCfg (idtOps.take 3)).cdb (provRun webCfg (idtOps.take 4)).sys.store
    c!"diana;;c1;;g1" none none := by decide

set_option maxRecDepth 32000 in
theorem webCode_sid : (webCfg.sys.env.th.sid webCfg.sys.env.cr 1001 webCode).toOption = some c!"diana;;c1;;g1" := by decide

theorem idt_at {i : Nat} {op : HttpOp} (h : idtOps[i]? = some op) :
    (i = 0 ∧ op = .register webRegIn true true true idtReg) ∨
    (i = 1 ∧ op = .authorize 1000 c!"g1" (mintIn c!"n1") (mintIn c!"n2") (.val idtFront) webCookie idtAreq) ∨
    (i = 2 ∧ op = .tokenParse 1001 webSecret webTok) ∨
    (i = 3 ∧ op = .tokenProcess { tokIn 1001 c!"n3" c!"n4" with idt := .val idtBack } webTokParsed) := by
  rcases i with _ | _ | _ | _ | i <;> simp only [idtOps, List.getElem?_cons_zero, List.getElem?_cons_succ, Option.some.injEq] at h
  · exact Or.inl ⟨rfl, h.symm⟩
  · exact Or.inr (Or.inl ⟨rfl, h.symm⟩)
  · exact Or.inr (Or.inr (Or.inl ⟨rfl, h.symm⟩))
  · exact Or.inr (Or.inr (Or.inr ⟨rfl, h.symm⟩))
  · simp at h

/-- The ID tokens of this history are the ones that the provider makes. -/
theorem idt_made : IdTokensMade webCfg demoIdCfg idtSign idtOps := by
  intro i inp req v sid ho hv hs
  rcases idt_at ho with ⟨_, e⟩ | ⟨_, e⟩ | ⟨_, e⟩ | ⟨rfl, e⟩
  · cases e
  · cases e
  · cases e
  · cases e
    have e1 : v = webCode := by
      rcases hv with ⟨_, hv⟩ | ⟨hv, _⟩
      · exact (Option.some.inj hv).symm
      · exact absurd hv (by decide)
    subst e1
    have hs' : webCfg.sys.env.th.sid webCfg.sys.env.cr 1001 webCode = .ok sid := hs
    have := webCode_sid
    rw [hs'] at this
    cases (Option.some.inj this : sid = _)
    exact idtBack_made

theorem idt_front_made : FrontIdTokensMade webCfg demoIdCfg idtSign idtOps := by
  intro i now gid mc ma idt raw req r ra q sid u ho h hr hans
  rcases idt_at ho with ⟨_, e⟩ | ⟨rfl, e⟩ | ⟨_, e⟩ | ⟨_, e⟩
  · cases e
  · cases e
    have h1 := idtAnswer_parts
    rw [show idtAnswer = .reply r from h] at h1
    simp only [answerParts, hr, Option.some.injEq, Prod.mk.injEq] at h1
    rw [h1.1, h1.2.1]
    obtain ⟨a1, a, a2, a3⟩ := hans
    have h2 := idtSession_is
    unfold idtSession at h2
    rw [a1] at h2
    dsimp only at h2
    rw [a2] at h2
    dsimp only at h2
    rw [a3] at h2
    cases (Option.some.inj h2 : sid = _)
    exact idtFront_made
  · cases e
  · cases e

set_option maxRecDepth 32000 in
/-- C162: both ID tokens of this history are about diana's login and the client's request; the first also names the code. -/
example : WebRun webCfg idtOps ∧ IdTokensMade webCfg demoIdCfg idtSign idtOps ∧ FrontIdTokensMade webCfg demoIdCfg idtSign idtOps ∧
    answerParts idtAnswer = some (some webCode, none, some idtFront) ∧
    (tokensAt webCfg idtOps 3).map (fun x => x.2.idToken) = some (some idtBack) ∧ webCfg.sys.env.gc.implicit = false :=
  ⟨idtRun, idt_made, idt_front_made, idtAnswer_parts, by decide, rfl⟩

end Verif
