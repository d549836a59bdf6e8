import Verif.Props.TokenErrors
import Verif.Props.WebFlow
/-! How userinfo and introspection requests are refused over HTTP: C144. -/
namespace Verif
open Spec
set_option linter.unusedSimpArgs false

/-- The request that shows the access token `v` in the Authorization header, and nothing else. -/
def bearing (v : Str) : AuthnReq := { authorization := some (c!"Bearer " ++ v) }

theorem bearing_tried {lib : AuthnLib} {cdb : Cdb} {targets jtis : List Str} {ms : List (Option AuthnMethod)}
    (hm : some .bearerHeader ∈ ms) (v : Str) :
    tryMethods lib cdb targets (bearing v) jtis ms = (jtis, some { method := AuthnMethod.bearerHeader.tag, token := some v }) :=
  tryMethods_only hm rfl (by intro m' h; cases m' <;> first | rfl | cases h) (by simp only [AuthnMethod.verify]; rfl)

theorem bearing_error {cfg : ProvCfg} (hm : some .bearerHeader ∈ cfg.userinfoMethods) {cdb : Cdb} {targets jtis : List Str} {now : Int}
    {v : Str} {e : Exn} (he : e.isKeyError = false) (h : (v = [] ∧ e = .valueError) ∨ v ≠ [] ∧ userinfoFromToken cfg.sys.env now v = .error e) :
    clientAuthentication cfg.lib cdb now cfg.userinfoMethods targets (userinfoFromToken cfg.sys.env now) jtis (bearing v) =
      (jtis, .error e) := by
  unfold clientAuthentication verifyClient
  simp only [bearing_tried hm]
  unfold finishClient
  rcases h with ⟨rfl, rfl⟩ | ⟨h0, h⟩
  · rfl
  · obtain ⟨x, xs, rfl⟩ := List.exists_cons_of_ne_nil h0
    simp only [h, he, Bool.false_eq_true, if_false]
    rfl

theorem bearing_ok {cfg : ProvCfg} (hm : some .bearerHeader ∈ cfg.userinfoMethods) {cdb : Cdb} {targets jtis : List Str} {now : Int}
    {v c : Str} (h0 : v ≠ []) (h : userinfoFromToken cfg.sys.env now v = .ok c) :
    clientAuthentication cfg.lib cdb now cfg.userinfoMethods targets (userinfoFromToken cfg.sys.env now) jtis (bearing v) =
      (jtis, .ok (some { method := AuthnMethod.bearerHeader.tag, clientId := some c, token := some v })) := by
  unfold clientAuthentication verifyClient
  simp only [bearing_tried hm]
  unfold finishClient
  obtain ⟨x, xs, rfl⟩ := List.exists_cons_of_ne_nil h0
  simp only [h]
  rfl

/-- **C144** At a userinfo endpoint that takes bearer tokens, the answer is `invalid_token`, and nothing changes, for: an empty
token; a string the provider did not make; one of a stored session that is not a live access token of it. -/
theorem C144_userinfo_answers_partial (cfg : ProvCfg) (st : Prov) (hm : some .bearerHeader ∈ cfg.userinfoMethods) (now : Int) (v : Str)
    (h : v = [] ∨ NotOurs cfg.sys.env v ∨
      ∃ u c gid g, v ≠ [] ∧ OfStored cfg.sys.env st.sys.store now v u c gid g ∧ NotLive g v .accessToken now) :
    userinfoEndpoint cfg st now (bearing v) = (st.jtis, .errMsg c!"invalid_token") ∧
      provStep cfg st (.userinfo now (bearing v)) = st := by
  have hfirst : userinfoEndpoint cfg st now (bearing v) = (st.jtis, .errMsg c!"invalid_token") := by
    by_cases h0 : v = []
    · simp only [userinfoEndpoint, userinfoParse, bearing_error hm (e := .valueError) rfl (.inl ⟨h0, rfl⟩)]
      rfl
    rcases h with h | h | ⟨u, c, gid, g, -, ho, hu⟩
    · exact absurd h h0
    · have hft : userinfoFromToken cfg.sys.env now v = .error .unknownToken := by
        unfold userinfoFromToken; rw [notOurs_sid h]
      simp only [userinfoEndpoint, userinfoParse, bearing_error hm (e := .unknownToken) rfl (.inr ⟨h0, hft⟩)]
      rfl
    · have hft : userinfoFromToken cfg.sys.env now v = .ok c := by
        unfold userinfoFromToken; simp only [ho.opens, unpack3_good ho.user ho.client ho.grantId]
      simp only [userinfoEndpoint, userinfoParse, bearing_ok hm h0 hft, C144_userinfo_unusable _ _ _ _ _ _ _ _ _ ho hu]
  exact ⟨hfirst, by simp only [provStep, hfirst]⟩

/-- **C144** A live access token of a session whose login is not valid any more: the answer is `invalid_request`, and nothing
changes. -/
theorem C144_userinfo_login_over (cfg : ProvCfg) (st : Prov) (hm : some .bearerHeader ∈ cfg.userinfoMethods) (now : Int) (v u c gid : Str) (g : Grant)
    (ev : AuthnEvent) (h0 : v ≠ []) (ho : OfStored cfg.sys.env st.sys.store now v u c gid g) (hl : Live g v .accessToken now)
    (he : g.authnEvent = some ev) (hv : ev.validUntil ≤ now) :
    userinfoEndpoint cfg st now (bearing v) = (st.jtis, .errMsg c!"invalid_request") ∧
      provStep cfg st (.userinfo now (bearing v)) = st := by
  have hft : userinfoFromToken cfg.sys.env now v = .ok c := by
    unfold userinfoFromToken; simp only [ho.opens, unpack3_good ho.user ho.client ho.grantId]
  obtain ⟨t, e1, e2, e3⟩ := live_get hl
  have hp : userinfoProcess cfg.sys.env cfg.userDb st.sys.store now v = .errMsg c!"invalid_request" := by
    have hd : ¬ ev.validUntil > now := by omega
    simp only [userinfoProcess, ofStored_session ho, e1, e2, e3, he, authnLive, hd, decide_false, ne_eq, not_true, if_false, Bool.true_eq_false]
  have hfirst : userinfoEndpoint cfg st now (bearing v) = (st.jtis, .errMsg c!"invalid_request") := by
    simp only [userinfoEndpoint, userinfoParse, bearing_ok hm h0 hft, hp]
  exact ⟨hfirst, by simp only [provStep, hfirst]⟩

/-- **C144** is false of the code for three kinds of requests, in every configuration that takes bearer tokens and every state:
without any credentials (unless that is configured as allowed), an exception; with an access token in JWT form that has
expired, an exception; with a token of a user whose sessions have been removed, an exception. -/
theorem C144_userinfo_raises (cfg : ProvCfg) (st : Prov) (hm : some .bearerHeader ∈ cfg.userinfoMethods) (now : Int) :
    (none ∉ cfg.userinfoMethods → (userinfoEndpoint cfg st now {}).2 = .raise .unAuthorizedClient) ∧
    (∀ (h : Handler) (made : Int) (rnd nonce sid : Str), TokenCryptoLaws cfg.sys.env.cr → FactoryTypes cfg.sys.env.th →
      h ∈ cfg.sys.env.th.order → h.cls = .jwt → 0 ≤ made + h.lifetime → made + h.lifetime < now →
      handlerCall cfg.sys.env.cr h made rnd nonce sid [] ≠ [] →
      (userinfoEndpoint cfg st now (bearing (handlerCall cfg.sys.env.cr h made rnd nonce sid []))).2 = .raise .tooOld) ∧
    (∀ v u c gid, v ≠ [] → GoodId u → GoodId c → GoodId gid →
      cfg.sys.env.th.sid cfg.sys.env.cr now v = .ok (sessionKey [u, c, gid]) → st.sys.store u = none →
      (userinfoEndpoint cfg st now (bearing v)).2 = .raise .keyError) := by
  refine ⟨fun hn => ?_, fun h made rnd nonce sid hl hf hh hj h0 hlt hne => ?_, fun v u c gid h0 hu hc hg ho hs => ?_⟩
  · have ht : ∀ ms : List (Option AuthnMethod), tryMethods cfg.lib st.cdb cfg.userinfoTargets {} st.jtis ms = (st.jtis, none) := by
      intro ms
      induction ms with
      | nil => rfl
      | cons a ms ih => cases a with
        | none => simpa [tryMethods] using ih
        | some m => cases m <;> simpa [tryMethods, AuthnMethod.usable] using ih
    have hne : cfg.userinfoMethods ≠ [] := by intro e; rw [e] at hm; cases hm
    simp only [userinfoEndpoint, userinfoParse, clientAuthentication, verifyClient, ht, if_neg hn, if_neg hne]
    rfl
  · have hft : userinfoFromToken cfg.sys.env now (handlerCall cfg.sys.env.cr h made rnd nonce sid []) = .error .tooOld := by
      unfold userinfoFromToken TokenHandler.sid
      rw [C04_jwt_token_resolves cfg.sys.env.cr hl cfg.sys.env.th hf h hh hj, if_neg (by omega)]
    simp only [userinfoEndpoint, userinfoParse, bearing_error hm (e := .tooOld) rfl (.inr ⟨hne, hft⟩)]
    rfl
  · have hft : userinfoFromToken cfg.sys.env now v = .ok c := by
      unfold userinfoFromToken; simp only [ho, unpack3_good hu hc hg]
    have hsb : sessionByToken cfg.sys.env.th cfg.sys.env.cr st.sys.store now v = .error .keyError := by
      unfold sessionByToken
      rw [ho]
      simp only [unpack3_good hu hc hg]
      simp [dbGet, evalPath, truthy_good, hs, hu.1, hc.1, hg.1]
    simp only [userinfoEndpoint, userinfoParse, bearing_ok hm h0 hft, userinfoProcess, hsb]

/-- **C144** At the introspection endpoint an authenticated client is told `active: false`, and nothing else, about a string the
provider did not make and about a token of a stored session that is not a live access or refresh token; without a token the
answer is `invalid_request`. -/
theorem C144_introspect_answers (cfg : ProvCfg) (st : Prov) (now : Int) (r : AuthnReq) (j : List Str) (o : Option AuthInfo)
    (ha : clientAuthentication cfg.lib st.cdb now cfg.introspectMethods cfg.introspectTargets plainFromToken st.jtis r = (j, .ok o)) :
    introspectEndpoint cfg st now r none = (j, .errMsg c!"invalid_request") ∧
    (∀ v, NotOurs cfg.sys.env v → introspectEndpoint cfg st now r (some v) = (j, .val [(c!"active", .bool false)])) ∧
    (∀ v u c gid g t, OfStored cfg.sys.env st.sys.store now v u c gid g → g.getToken v = some t →
      ¬ ActiveAt t.toItem t.usageRules.maxUsage now →
      introspectEndpoint cfg st now r (some v) = (j, .val [(c!"active", .bool false)])) := by
  refine ⟨?_, fun v h => ?_, fun v u c gid g t ho ht hn => ?_⟩
  · simp only [introspectEndpoint, ha]
  · simp only [introspectEndpoint, ha, introspectProcess, notOurs_session h, if_true]
    rfl
  · have hf : t.isActive now = false := by
      cases hx : t.isActive now with
      | false => rfl
      | true => exact absurd ((C07_token_active_iff t now).1 hx) hn
    have hi : introspectInfo cfg.issuer now t c g = none := by
      simp [introspectInfo, hf]
    simp only [introspectEndpoint, ha, introspectProcess, ofStored_session ho, unpack3_good ho.user ho.client ho.grantId, ht, hi]
    rfl

set_option maxRecDepth 16000 in
/-- Hypotheses met on the web: the code, shown as if it were an access token; the access token, read too late; a removed session. -/
example : (∃ g, OfStored webCfg.sys.env (provRun webCfg webOps).sys.store 1002 webCode c!"diana" c!"c1" c!"g1" g ∧
      NotLive g webCode .accessToken 1002) ∧
    FactoryTypes webCfg.sys.env.th ∧ webAt ≠ [] ∧ (userinfoEndpoint webCfg (provRun webCfg webOps) 1007 (bearing webAt)).2 = .raise .tooOld ∧
    (userinfoEndpoint webCfg (provRun webCfg webOps) 1002 {}).2 = .raise .unAuthorizedClient := by
  refine ⟨?_, ⟨?_, ?_, ?_⟩, by decide, ?_, ?_⟩
  · obtain ⟨g, h1, h2⟩ := ofStored_check (env := webCfg.sys.env) (s := (provRun webCfg webOps).sys.store) (now := 1002) (v := webCode)
      (p := fun g => g.issuedToken.all fun t => !decide (t.value = webCode) || !decide (t.kind = .accessToken) || !t.isActive 1002)
      (u := c!"diana") (c := c!"c1") (gid := c!"g1") (by simp [GoodId, SemicolonFree]) (by simp [GoodId, SemicolonFree])
      (by simp [GoodId, SemicolonFree]) (by decide) (by decide)
    exact ⟨g, h1, notLive_check h2⟩
  · intro h e; cases e; rfl
  · intro h e; cases e; rfl
  · intro h e; cases e; rfl
  · refine (C144_userinfo_raises webCfg (provRun webCfg webOps) (by decide) 1007).2.1 ⟨.jwt, c!"T", 5, c!"k2"⟩ 1001 [] c!"n3"
      c!"diana;;c1;;g1" demoCrypto_laws ⟨?_, ?_, ?_⟩ (by decide) rfl (by decide) (by decide) (by decide)
    · intro h e; cases e; rfl
    · intro h e; cases e; rfl
    · intro h e; cases e; rfl
  · exact (C144_userinfo_raises webCfg (provRun webCfg webOps) (by decide) 1002).1 (by decide)

/-! A provider whose access tokens last longer than the login: the hypotheses of `C144_userinfo_login_over` are met at 4700, when
the token is still good and the login of 1000 (an hour) is not. -/

def lateCfg : ProvCfg :=
  { webCfg with sys := { demoCfg .aliased with env :=
    { demoEnv with th := { demoHandlers with accessToken := some ⟨.jwt, c!"T", 9000, c!"k2"⟩ },
                   gc := { usageRules := some [(tAuthorizationCode, { maxUsage := some 1, supportsMinting := some [tAccessToken], expiresIn := some 3 }),
                                               (tAccessToken, { expiresIn := some 8000 })], expiresIn := some 9000 } } } }

def lateAt : Str := handlerCall demoCrypto ⟨.jwt, c!"T", 9000, c!"k2"⟩ 1001 [] c!"n3" c!"diana;;c1;;g1" []

set_option maxRecDepth 16000 in
example : ∃ g ev, OfStored lateCfg.sys.env (provRun lateCfg (webOps.take 4)).sys.store 4700 lateAt c!"diana" c!"c1" c!"g1" g ∧
    Live g lateAt .accessToken 4700 ∧ g.authnEvent = some ev ∧ ev.validUntil ≤ 4700 ∧ lateAt ≠ [] := by
  obtain ⟨g, h1, h2⟩ := ofStored_check (env := lateCfg.sys.env) (s := (provRun lateCfg (webOps.take 4)).sys.store) (now := 4700) (v := lateAt)
    (p := fun g : Grant => ((g.issuedToken.any fun t => decide (t.value = lateAt) && decide (t.kind = .accessToken) && t.isActive 4700) &&
      decide ((g.issuedToken.map (fun t : Token => t.value)).Nodup)) && (g.authnEvent.any fun ev : AuthnEvent => decide (ev.validUntil ≤ 4700)))
    (u := c!"diana") (c := c!"c1") (gid := c!"g1") (by simp [GoodId, SemicolonFree]) (by simp [GoodId, SemicolonFree])
    (by simp [GoodId, SemicolonFree]) (by decide +kernel) (by decide +kernel)
  rw [Bool.and_eq_true] at h2
  cases he : g.authnEvent with
  | none => rw [he] at h2; exact absurd h2.2 (by simp)
  | some ev =>
    refine ⟨g, ev, h1, live_check h2.1, he, ?_, by decide⟩
    have := h2.2
    rw [he] at this
    simpa using this

end Verif
