import Verif.Props.ProviderUri
import Verif.Props.Registration
import Verif.Props.Logout
import Verif.Props.UserAuthn
import Verif.Props.Resource
/-! A provider, a client that registers itself, a user who logs in: the hypotheses of C119–C124 are met and their conclusions
are not empty. -/
namespace Verif
open Spec

/-- A provider with the session side of the demo; the token endpoint and introspection want the client's secret. -/
def webCfg : ProvCfg where
  sys := demoCfg .aliased
  lib := authnLib
  regLib := { demoRegLib with uri := demoEnv.lib }
  regCfg := demoRegCfg
  acfg := demoAuthn
  logout := outEnv
  clients := []
  jtiDurable := false
  parDurable := false
  issuer := c!"https://op"
  release := true
  userDb := demoUsers
  tokenMethods := [some .clientSecretBasic, some .clientSecretPost]
  tokenTargets := []
  userinfoMethods := [some .bearerHeader]
  userinfoTargets := []
  introspectMethods := [some .clientSecretPost]
  introspectTargets := []
  pushMethods := [some .clientSecretBasic]
  pushTargets := []

def webReg : RegRec := [(c!"redirect_uris", .strs [c!"https://rp/cb"]), (c!"response_types", .strs [c!"code"])]
def webRegIn : RegIn := { now := 999, ids := [c!"c1"], salt := c!"salt", rat := c!"rat", secret := c!"s1" }

/-- The cookie that diana's browser has. -/
def webCookie : Option Str := (createCookieValue demoAuthn.cr demoAuthn.dealer 1000 [] c!"diana" c!"sso").toOption

def webCode : Str := handlerCall demoCrypto ⟨.jwt, c!"A", 5, c!"k1"⟩ 1000 [] c!"n1" c!"diana;;c1;;g1" []
def webAt : Str := handlerCall demoCrypto ⟨.jwt, c!"T", 5, c!"k2"⟩ 1001 [] c!"n3" c!"diana;;c1;;g1" []
def webTok : TokReq := { grantType := some c!"authorization_code", code := some webCode, redirectUri := some c!"https://rp/cb" }
def webTokParsed : TokReq := { webTok with clientId := some c!"c1" }
def webSecret : AuthnReq := { clientId := some c!"c1", clientSecret := some c!"s1" }
def webBearer : AuthnReq := { authorization := some (c!"Bearer " ++ webAt) }
def webAreq : UserReq := { areq := demoReq [c!"code"] }

/-- Registration, login, redemption of the code. -/
def webOps : List HttpOp :=
  [ .register webRegIn true true true webReg,
    .authorize 1000 c!"g1" (mintIn c!"n1") (mintIn c!"n2") (.val c!"IDT") webCookie webAreq,
    .tokenParse 1001 webSecret webTok,
    .tokenProcess (tokIn 1001 c!"n3" c!"n4") webTokParsed,
    .userinfo 1002 webBearer,
    .introspect 1002 webSecret (some webAt) ]

set_option maxRecDepth 16000 in
example : ((provRun webCfg (webOps.take 1)).cdb c!"c1").map (fun c => (c.redirectUris, c.responseTypes, c.clientSecret)) =
    some ([(c!"https://rp/cb", [])], [c!"code"], some c!"s1") := by decide

set_option maxRecDepth 16000 in
/-- Whose browser it is: the cookie says `diana`, which is not base64, so it is the cookie of a login. -/
theorem webCookie_says {v : Str} (h : CookieSays webCfg webCookie v) : v = c!"diana" := by
  obtain ⟨r, ts, typ, h1, h2⟩ := h
  have : webCookie.bind (fun r => (getCookieValue demoAuthn.cr demoAuthn.dealer r).toOption.join.map (·.1)) = some c!"diana" := by decide
  rw [h1] at this
  simp only [Option.bind_some] at this
  have h2' : getCookieValue demoAuthn.cr demoAuthn.dealer r = .ok (some (v, ts, typ)) := h2
  rw [h2'] at this
  simpa [Except.toOption] using this

theorem webCookie_no_session (u : Str) (s : Option Str) : ¬ ShowsSession webCfg webCookie u s := by
  rintro ⟨v, b, h1, h2, _⟩
  rw [webCookie_says h1] at h2
  revert h2
  have : webCfg.acfg.lib.b64d c!"diana" = none := by decide
  rw [this]; intro h; cases h

/-- The history is one of those considered. -/
theorem webRun_demo : WebRun webCfg webOps where
  nodup := by decide
  good := by decide
  blank := demoEnv_blankFree
  users := by
    intro now gid mc ma idt raw req hm u hu
    simp only [webOps, List.mem_cons, List.not_mem_nil, or_false, HttpOp.authorize.injEq, reduceCtorEq, false_or] at hm
    obtain ⟨-, -, -, -, -, rfl, -⟩ := hm
    rcases hu with h | ⟨s, h⟩
    · rw [webCookie_says h.1]; exact goodId_name (by simp [GoodId, SemicolonFree])
    · exact absurd h (webCookie_no_session u s)
  cookies := by
    intro now gid mc ma idt raw req hm u s hs
    simp only [webOps, List.mem_cons, List.not_mem_nil, or_false, HttpOp.authorize.injEq, reduceCtorEq, false_or] at hm
    obtain ⟨-, -, -, -, -, rfl, -⟩ := hm
    exact absurd hs (webCookie_no_session u _)
  clients := by
    intro c hc
    rcases hc with h | ⟨i, n, ss, v, req, h, h'⟩
    · cases h
    · simp only [webOps, List.mem_cons, List.not_mem_nil, or_false, HttpOp.register.injEq, reduceCtorEq] at h
      obtain ⟨rfl, -, -, -, rfl⟩ := h
      have : c = c!"c1" := by simpa [webRegIn, webReg] using h'
      rw [this]; exact goodId_name (by simp [GoodId, SemicolonFree])

def outVal {α : Type} : Out α → Option α
  | .val x => some x
  | _ => none

set_option maxRecDepth 16000 in
/-- C119: diana's session is there after her login. -/
example : ((provRun webCfg (webOps.take 2)).sys.store (sessionKey [c!"diana", c!"c1", c!"g1"])).isSome = true := by decide

set_option maxRecDepth 16000 in
/-- C120: her claims are given to who shows the access token. -/
example : ((outVal (userinfoEndpoint webCfg (provRun webCfg (webOps.take 4)) 1002 webBearer).2).map (fun x => (x.1.get? c!"sub", x.2))) =
    some (some (.str c!"pub-diana"), c!"c1") := by decide

set_option maxRecDepth 16000 in
/-- C121: the code is redeemed by the client, with its secret; with a wrong secret there is no response. -/
example : SecretOnly webCfg.tokenMethods ∧ webCfg.tokenMethods ≠ [] ∧
    (tokensAt webCfg webOps 3).map (fun x => x.2.accessToken) = some webAt ∧
    (tokensAt webCfg [webOps[0], webOps[1], .tokenParse 1001 { webSecret with clientSecret := some c!"s2" } webTok, webOps[3]] 3).isNone = true := by
  refine ⟨?_, by decide, by decide, by decide⟩
  unfold SecretOnly; decide

set_option maxRecDepth 16000 in
/-- C122: the client may ask about its token. -/
example : SecretOnly webCfg.introspectMethods ∧
    ((outVal (introspectEndpoint webCfg (provRun webCfg (webOps.take 4)) 1002 webSecret (some webAt)).2).map
      (fun d => (d.get? c!"active", d.get? c!"client_id", d.get? c!"username"))) =
    some (some (.bool true), some (.str c!"c1"), some (.str c!"diana")) := by
  refine ⟨?_, by decide⟩
  unfold SecretOnly; decide

def replyCode : AuthzAnswer → Option (Option Str × Option Str)
  | .reply r => (outVal r.content).map (fun ra => (r.uri, ra.code))
  | _ => none

set_option maxRecDepth 16000 in
/-- C123, C124: the code goes to the URI that the client registered. -/
example : replyCode (authorizeEndpoint webCfg (provRun webCfg (webOps.take 1)) 1000 c!"g1" (mintIn c!"n1") (mintIn c!"n2") (.val c!"IDT")
    webCookie webAreq).2.2.2 = some (some c!"https://rp/cb", some webCode) := by decide

/-- C124's other hypotheses. -/
example : webCfg.regLib.uri = webCfg.sys.env.lib ∧ webCfg.regLib.responseParam c!"client_id" = true ∧
    (∀ u, DistinctKeys (webCfg.sys.env.lib.splitUri u).2) ∧
    (∀ i n ss v req, HttpOp.register i n ss v req ∈ webOps → (req.map (·.1)).Nodup) := by
  refine ⟨rfl, by decide, ?_, ?_⟩
  · intro u
    simp only [webCfg, demoCfg, demoEnv, demoLib]
    split
    · split <;> simp [DistinctKeys]
    · simp [DistinctKeys]
  · intro i n ss v req h
    simp only [webOps, List.mem_cons, List.not_mem_nil, or_false, HttpOp.register.injEq, reduceCtorEq] at h
    obtain ⟨-, -, -, -, rfl⟩ := h
    decide

end Verif
