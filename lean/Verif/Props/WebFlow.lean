import Verif.Lemmas.WebRefresh
import Verif.Props.ProviderDemo
set_option linter.unusedSimpArgs false
set_option linter.unusedVariables false
/-! C130: registration, login, code, tokens, userinfo over HTTP. -/
namespace Verif
open Spec

theorem byOthers_fresh {cfg : ProvCfg} {u c : Str} {st : Prov} {op : HttpOp} (h : ByOthersOrRestart cfg u c st op) : FreshIds op := by
  rcases h with h | ⟨rfl, _⟩
  · cases op with
    | register => exact h
    | _ => exact trivial
  · exact trivial

theorem During.fresh {cfg : ProvCfg} {h mid : List HttpOp} {u c : Str} (H : During cfg h mid (ByOthersOrRestart cfg u c)) :
    ∀ op ∈ mid, FreshIds op := by
  intro op ho
  obtain ⟨pre, post, e⟩ := List.append_of_mem ho
  exact byOthers_fresh (H pre op post e)

theorem Spec.HasLoginCookie.shows {cfg : ProvCfg} {raw u : Str} {t0 : Int} (C : HasLoginCookie cfg raw u t0) (L : CookieLaws cfg.acfg.cr)
    (hd : DealerOk cfg.acfg.dealer) : ShowsLogin cfg (some raw) u := by
  obtain ⟨typ, -, c2, c3, c4⟩ := C.cookie
  exact ⟨⟨raw, _, typ, rfl, loginCookie_read L hd C.value c2 c3 c4⟩, C.plain⟩

/-- **C130**: a client that registers itself for the code flow gets an id and a secret.  Whenever later a logged-in user's
browser brings its request, the answer is a code at the redirect URI.  When the client redeems the code, authenticating with its
secret, it gets an access token (a refresh token if offline access was asked for, an ID token if openid was), and with that
the user's data and subject identifier.  In between anything may happen that does not concern this user at this client:
registrations, logins, code exchanges and logouts of others and of the same user at other clients, and restarts of a provider that
keeps its sessions on disk. -/
theorem C130_registered_client_runs_code_flow (cfg : ProvCfg) (hc ha : Handler) (f : Str → Option Str → Str)
    (P : CodeFlowProvider cfg hc ha f) (uri : Str) (R : WebRedirect cfg.regLib uri)
    -- registration
    (past : List HttpOp) (reg : RegIn) (hid : ∃ c ∈ reg.ids, (provRun cfg past).reg.cdb.get? c = none) :
    ∃ c resp, c ∈ reg.ids ∧ (registrationProcess cfg.regLib cfg.regCfg (provRun cfg past).reg reg true true true (codeClient uri)).2 = .ok resp ∧
      resp.get? c!"client_id" = some (.str c) ∧ resp.get? c!"client_secret" = some (.str reg.secret) ∧
    -- authorization
    ∀ (mid1 h1 : List HttpOp) (now : Int) (gid : Str) (mc ma : MintIn) (idt : Out Str) (raw u : Str) (t0 : Int) (q : AuthReq) (areq : HttpOp),
      h1 = past ++ [.register reg true true true (codeClient uri)] ++ mid1 →
      areq = .authorize now gid mc ma idt (some raw) { areq := q } →
      (∀ op ∈ mid1, FreshIds op) → GoodNames cfg (h1 ++ [areq]) →
      CodeRequest cfg.sys.env c uri q → HasLoginCookie cfg raw u t0 → mc.payload = .ok () ∧ mc.ttype = [] →
    ∃ code pl g, (authorizeEndpoint cfg (provRun cfg h1) now gid mc ma idt (some raw) { areq := q }).2.2.2 = .reply
        { content := .val { state := returnedState q, scope := q.scope, code := some code }, placement := pl, uri := some uri } ∧
      getGrant (provRun cfg (h1 ++ [areq])).sys.store (sessionKey [u, c, gid]) = .ok g ∧
    -- the token request comes in
    ∀ (mid2 h2 : List HttpOp) (tp : Int) (t : TokReq),
      h2 = h1 ++ [areq] ++ mid2 → During cfg (h1 ++ [areq]) mid2 (ByOthersOrRestart cfg u c) → GoodNames cfg h2 →
      CodeRedemption cfg.sys.env q code t → (cfg.regCfg.secretExpires = false ∨ tp ≤ reg.now + cfg.regCfg.secretExpiresIn) →
      Within now (providerRules cfg tAuthorizationCode).expiresIn tp → Within now cfg.sys.env.gc.expiresIn tp → Readable hc now tp →
    ∃ parsed, (tokenParseEndpoint cfg (provRun cfg h2) tp { clientId := some c, clientSecret := some reg.secret } t).2 = .val parsed ∧
    -- the token request is processed
    ∀ (mid3 h3 : List HttpOp) (inp : TokIn),
      h3 = h2 ++ [.tokenParse tp { clientId := some c, clientSecret := some reg.secret } t] ++ mid3 →
      During cfg (h2 ++ [.tokenParse tp { clientId := some c, clientSecret := some reg.secret } t]) mid3 (ByOthers cfg u c) → GoodNames cfg h3 → NoFailure inp →
      Within now (providerRules cfg tAuthorizationCode).expiresIn inp.now → Within now cfg.sys.env.gc.expiresIn inp.now → Readable hc now inp.now →
    ∃ tokens, tokensAt cfg (h3 ++ [.tokenProcess inp parsed]) h3.length = some (parsed, tokens) ∧ tokens.scope = q.scope ∧
      (tokens.refreshToken.isSome = decide (c!"offline_access" ∈ q.scope)) ∧
      (tokens.idToken.isSome = decide (c!"openid" ∈ q.scope)) ∧
    -- the refresh token can be used while it and the session live
    (RefreshProvider cfg → ∀ (rt : Str) (later : Int), tokens.refreshToken = some rt → rt ≠ tokens.accessToken →
      Within inp.now (providerRules cfg tRefreshToken).expiresIn later → Within now cfg.sys.env.gc.expiresIn later → Readable ha inp.now later →
      Refreshable cfg (provRun cfg (h3 ++ [.tokenProcess inp parsed])).sys.store u c gid rt later) ∧
    -- the access token is used
    ∀ (mid4 : List HttpOp) (later : Int) (info : Dict Val),
      During cfg (h3 ++ [.tokenProcess inp parsed]) mid4 (ByOthersOrRestart cfg u c) → GoodNames cfg (h3 ++ [.tokenProcess inp parsed] ++ mid4) →
      Readable ha inp.now later → Within inp.now (providerRules cfg tAccessToken).expiresIn later →
      later < now + (if cfg.acfg.expiresIn = none ∨ cfg.acfg.expiresIn = some 0 then 3600 else cfg.acfg.expiresIn.getD 0) →
      getUserClaims cfg.userDb u ((g.claims.get? c!"userinfo").getD []) = .ok info →
      (userinfoEndpoint cfg (provRun cfg (h3 ++ [.tokenProcess inp parsed] ++ mid4)) later
        { authorization := some (c!"Bearer " ++ tokens.accessToken) }).2 =
        .val (Dict.set info c!"sub" (.str (f u q.sectorIdentifierUri)), c) := by
  obtain ⟨c, s', resp, rec, r1, r2, r3, r4, r5, r6, r7⟩ := codeClient_registers P R (provRun cfg past).reg reg hid
  refine ⟨c, resp, r2, by rw [r1], r5, r6, ?_⟩
  intro mid1 h1 now gid mc ma idt raw u t0 q areq e1 ea hf1 hn1 Q C hmc
  have hlibf : cfg.sys.env.lib.fragment uri = [] := by rw [← P.library]; exact R.fragment
  have hlibu : cfg.sys.env.lib.unquote uri = uri := by rw [← P.library]; exact R.plain
  have hu : GoodId u := hn1.users now gid mc ma idt (some raw) _ (by rw [← ea]; simp) u (Or.inl (C.shows P.cookieLaws P.dealer))
  have hg : GoodId gid := hn1.gids gid (by rw [ea]; simp [httpGid])
  have hgc : GoodId c := hn1.clients c (Or.inr ⟨reg, true, true, true, codeClient uri, by rw [e1]; simp, Or.inl r2⟩)
  -- the record, from then on
  have base : (provRun cfg (past ++ [.register reg true true true (codeClient uri)])).reg.cdb.get? c = some rec := by
    rw [provRun_snoc]
    simp only [provStep]
    rw [r1]
    exact r4
  have rec1 : (provRun cfg h1).reg.cdb.get? c = some rec := by rw [e1]; exact provRun_keeps _ _ hf1 base
  obtain ⟨cl1, k1, K1⟩ := codeRecord_found rec1 r7
  have hT1 := (provRun_sound hn1.prefix).tree
  obtain ⟨cdb', sA, g, tk, ev, a1, a2, I, a4, a5, a6⟩ := codeFlow_authorized P hT1 k1 K1 hgc hlibf hlibu Q hu C now hg mc ma hmc idt
  have gA : getGrant (provRun cfg (h1 ++ [areq])).sys.store (sessionKey [u, c, gid]) = .ok g := by
    rw [provRun_snoc, ea]
    simp only [provStep, a1]
    exact a2
  refine ⟨tk.value, _, g, by rw [a1], gA, ?_⟩
  intro mid2 h2 tp t e2 ho2 hn2 T hsec hw1 hw2 hrd
  have hr := fun tt => rulesFor_provider (cfg := cfg) k1 K1.rules tt
  have g2 : getGrant (provRun cfg h2).sys.store (sessionKey [u, c, gid]) = .ok g := by
    rw [e2]
    exact (others_grant P.tokens.laws _ mid2 (by rw [← e2]; exact hn2) hu hgc hg ho2).2 gA
  have rec2 : (provRun cfg h2).reg.cdb.get? c = some rec := by
    rw [e2]
    refine provRun_keeps _ _ (During.fresh ho2) ?_
    rw [provRun_snoc, provStep_reg (by rw [ea]; intros; simp)]
    exact rec1
  obtain ⟨cl2, k2, K2⟩ := codeRecord_found rec2 r7
  have hT2 := (provRun_sound hn2).tree
  have hauth : clientAuthentication cfg.lib (provRun cfg h2).cdb tp cfg.tokenMethods cfg.tokenTargets plainFromToken (provRun cfg h2).jtis
      { clientId := some c, clientSecret := some reg.secret } =
      ((provRun cfg h2).jtis, .ok (some { method := AuthnMethod.clientSecretPost.tag, clientId := some c })) := by
    refine secret_accepted _ P.tokenMethod hgc.1 k2 K2.secret ?_
    unfold NotExpired
    rw [K2.expires]
    by_cases hz : cfg.regCfg.secretEnd reg.now = 0
    · simp [hz]
    · rcases RegCfg.secretEnd_ok hsec with h | h
      · exact absurd h hz
      · simp only [hz, if_false]; exact Or.inr h
  have T' : CodeRedemption cfg.sys.env q tk.value { t with clientId := some c } := ⟨T.grantType, T.code, T.redirect, T.verifier⟩
  have hparse := (code_redeemed P hu hgc hg Q.client hr I hT2 g2 T' rfl
    { now := tp, ma := { rnd := [], nonce := [], id := [], payload := .ok (), ttype := [] }, mr := { rnd := [], nonce := [], id := [], payload := .ok (), ttype := [] }, idt := .val [] }
    ⟨⟨rfl, rfl⟩, ⟨rfl, rfl⟩, ⟨_, rfl⟩⟩ hw1 hw2 hrd).1
  have hep : tokenParseEndpoint cfg (provRun cfg h2) tp { clientId := some c, clientSecret := some reg.secret } t =
      ((provRun cfg h2).jtis, .val { t with clientId := some c }) := by
    unfold tokenParseEndpoint
    simp only [hauth]
    rw [show requestClient { clientId := some c, clientSecret := some reg.secret } (some { method := AuthnMethod.clientSecretPost.tag, clientId := some c }) = some c from rfl]
    rw [hparse]
  refine ⟨{ t with clientId := some c }, by rw [hep], ?_⟩
  intro mid3 h3 inp e3 ho3 hn3 hnf hw1' hw2' hrd'
  have gp : getGrant (provRun cfg (h2 ++ [.tokenParse tp { clientId := some c, clientSecret := some reg.secret } t])).sys.store (sessionKey [u, c, gid]) = .ok g ∧
      { t with clientId := some c } ∈ (provRun cfg (h2 ++ [.tokenParse tp { clientId := some c, clientSecret := some reg.secret } t])).sys.pending := by
    rw [provRun_snoc]
    simp only [provStep, hep]
    exact ⟨g2, by simp⟩
  have g3 : getGrant (provRun cfg h3).sys.store (sessionKey [u, c, gid]) = .ok g := by
    rw [e3]
    exact (others_grant P.tokens.laws _ mid3 (by rw [← e3]; exact hn3) hu hgc hg (During.mono ho3 fun _ _ => Or.inl)).2 gp.1
  have p3 : { t with clientId := some c } ∈ (provRun cfg h3).sys.pending := by
    rw [e3]; exact others_pending _ mid3 ho3 gp.2
  have hT3 := (provRun_sound hn3).tree
  obtain ⟨-, s4, tresp, at', new, m1, m2, M, m4, m5, m6, m7, m8, m9, m10⟩ := code_redeemed P hu hgc hg Q.client hr I hT3 g3 T' rfl inp hnf hw1' hw2' hrd'
  refine ⟨tresp, ?_, m5, m6, m7, ?_, ?_⟩
  · unfold tokensAt
    simp only [List.getElem?_append_right (Nat.le_refl _), Nat.sub_self, List.getElem?_cons_zero, List.take_left, sysResponse, p3, if_true, m1]
  · intro RP rt later hrt hne hw hwg hrd
    have gS : getGrant (provRun cfg (h3 ++ [.tokenProcess inp { t with clientId := some c }])).sys.store (sessionKey [u, c, gid]) =
        .ok (g.exchanged tk.value (at' :: new)) := by
      rw [provRun_snoc]
      simp only [provStep, sysStep, p3, if_true, m1]
      exact m2
    exact refreshable_after_code P RP Q.client hr I M m10 (by rw [← m9]; exact hrt) (by rw [← m4]; exact hne) gS hw hwg hrd
  intro mid4 later info ho4 hn4 hrl hwl hlt hinfo
  have g4 : getGrant (provRun cfg (h3 ++ [.tokenProcess inp { t with clientId := some c }] ++ mid4)).sys.store (sessionKey [u, c, gid]) =
      .ok (g.exchanged tk.value (at' :: new)) := by
    refine (others_grant P.tokens.laws _ mid4 hn4 hu hgc hg ho4).2 ?_
    rw [provRun_snoc]
    simp only [provStep, sysStep, p3, if_true, m1]
    exact m2
  rw [m4]
  have := token_shows P hu hgc hg Q.client hr I M m8 g4 hrl hwl a5 (by rw [a6]; exact hlt) hinfo
  rw [this, a4]

/-! ### The hypotheses are met -/

theorem webProvider : CodeFlowProvider webCfg ⟨.jwt, c!"A", 5, c!"k1"⟩ ⟨.jwt, c!"T", 5, c!"k2"⟩ (fun u _ => c!"pub-" ++ u) where
  tokens := demo_issues
  notEmpty := by
    intro now rnd nonce sid t h
    have := congrArg List.length h
    simp [handlerCall, webCfg, demoCfg, demoEnv, demoCrypto, esc, toyCrypto] at this
  alive := Or.inr (by decide)
  codeGrant := by decide
  policy := rfl
  lifetime := by rintro e ⟨⟩; decide
  mints := by decide
  uses := by rintro n ⟨⟩
  subject := rfl
  library := rfl
  queries := by
    intro u
    simp only [webCfg, demoCfg, demoEnv, demoLib]
    split
    · split <;> simp [DistinctKeys]
    · simp [DistinctKeys]
  codeSupported := ⟨_, rfl, by decide⟩
  keys := by decide
  announcesId := by decide
  announcesSecret := by decide
  tokenMethod := by decide
  userinfoMethod := by decide
  cookieLaws := toyCookieLaws
  dealer := by unfold DealerOk; exact ⟨Or.inl (by decide), by rintro ek ⟨⟩⟩

set_option maxRecDepth 16000 in
theorem webUri : WebRedirect webCfg.regLib c!"https://rp/cb" := ⟨by decide, Or.inr (by decide), by decide, by decide⟩

theorem webRequest : CodeRequest webCfg.sys.env c!"c1" c!"https://rp/cb" (demoReq [c!"code"]) :=
  ⟨rfl, rfl, rfl, rfl, by decide, by decide, Or.inl rfl, rfl, by rintro p ⟨⟩⟩

set_option maxRecDepth 16000 in
/-- What the browser has is the cookie set at diana's login. -/
theorem webLoginCookie : ∃ raw, webCookie = some raw ∧ HasLoginCookie webCfg raw c!"diana" 1000 := by
  cases h : createCookieValue demoAuthn.cr demoAuthn.dealer 1000 [] c!"diana" c!"sso" with
  | error e =>
    have : webCookie.isSome = true := by decide
    unfold webCookie at this
    rw [h] at this
    cases this
  | ok raw =>
    refine ⟨raw, by unfold webCookie; rw [h]; rfl, ⟨?_, by decide, c!"sso", by decide, ?_, fun _ => ⟨by decide, by decide⟩, [], h⟩⟩
    · refine ⟨?_, by decide⟩
      decide
    · unfold CookieTypeOk
      decide

/-- Others at work: a registration, a browser without cookie, diana's own browser at another client, bob's logout, diana's
logout from another client. -/
example (st : Prov) : ByOthers webCfg c!"diana" c!"c1" st (.register webRegIn true true true webReg) ∧
    ByOthers webCfg c!"diana" c!"c1" st (.authorize 1000 c!"g2" (mintIn c!"n1") (mintIn c!"n2") (.val c!"IDT") none webAreq) ∧
    ByOthers webCfg c!"diana" c!"c1" st (.authorize 1000 c!"g2" (mintIn c!"n1") (mintIn c!"n2") (.val c!"IDT") webCookie
      { areq := { demoReq [c!"code"] with clientId := c!"c2" } }) ∧
    ByOthers webCfg c!"diana" c!"c1" st (.logout (fun _ _ => .ok ()) c!"bob;;c1;;g3" true) ∧
    ByOthers webCfg c!"diana" c!"c1" st (.logout (fun _ _ => .ok ()) c!"diana;;c2;;g3" false) := by
  refine ⟨rfl, ?_, ?_, ?_, ?_⟩
  · rintro (⟨⟨r, _, _, h, _⟩, _⟩ | ⟨v, b, x, sid, ⟨r, _, _, h, _⟩, _⟩) <;> cases h
  · intro _ q hq
    rw [authzParse_plain rfl hq]
    decide
  · intro c' gid h
    have : (unpackSessionKey c!"bob;;c1;;g3").head? = some c!"bob" := by decide
    rw [h] at this
    simp at this
  · intro c' gid h
    have : (unpackSessionKey c!"diana;;c2;;g3")[1]? = some c!"c2" := by decide
    rw [h] at this
    simp only [List.getElem?_cons_succ, List.getElem?_cons_zero, Option.some.injEq] at this
    subst this
    exact ⟨rfl, by decide⟩

/-- Token requests bring no names. -/
theorem Spec.GoodNames.more {cfg : ProvCfg} {l : List HttpOp} {op : HttpOp} (h : GoodNames cfg l)
    (h1 : ∀ now gid mc ma idt raw req, op ≠ .authorize now gid mc ma idt raw req) (h2 : ∀ i n ss v req, op ≠ .register i n ss v req) :
    GoodNames cfg (l ++ [op]) where
  gids := by
    intro gid hg
    rw [List.flatMap_append, List.mem_append] at hg
    rcases hg with hg | hg
    · exact h.gids gid hg
    · cases op with
      | authorize now gid mc ma idt raw req => exact absurd rfl (h1 now gid mc ma idt raw req)
      | _ => cases hg
  users := by
    intro now gid mc ma idt raw req hm
    rcases List.mem_append.1 hm with hm | hm
    · exact h.users now gid mc ma idt raw req hm
    · exact absurd (List.mem_singleton.1 hm).symm (h1 now gid mc ma idt raw req)
  clients := by
    intro c hc
    rcases hc with hc | ⟨i, n, ss, v, req, hm, hc⟩
    · exact h.clients c (Or.inl hc)
    · rcases List.mem_append.1 hm with hm | hm
      · exact h.clients c (Or.inr ⟨i, n, ss, v, req, hm, hc⟩)
      · exact absurd (List.mem_singleton.1 hm).symm (h2 i n ss v req)

set_option maxRecDepth 16000 in
/-- The theorem applies to the demo provider, and its hypotheses can all be met, to the last stage: the code flow of `webOps`. -/
example : ∃ raw code parsed tokens, webCookie = some raw ∧
    (∃ pl, (authorizeEndpoint webCfg (provRun webCfg (webOps.take 1)) 1000 c!"g1" (mintIn c!"n1") (mintIn c!"n2") (.val c!"IDT") (some raw) webAreq).2.2.2 =
      .reply { content := .val { state := returnedState (demoReq [c!"code"]), scope := [c!"openid", c!"offline_access"], code := some code }, placement := pl, uri := some c!"https://rp/cb" }) ∧
    tokensAt webCfg (webOps.take 2 ++ [.tokenParse 1001 webSecret { webTok with code := some code }, .tokenProcess (tokIn 1002 c!"n3" c!"n4") parsed]) 3 = some (parsed, tokens) ∧
    (∀ (g : Grant) info, getGrant (provRun webCfg (webOps.take 2)).sys.store (sessionKey [c!"diana", c!"c1", c!"g1"]) = .ok g →
      getUserClaims webCfg.userDb c!"diana" ((g.claims.get? c!"userinfo").getD []) = .ok info →
      (userinfoEndpoint webCfg (provRun webCfg (webOps.take 2 ++ [.tokenParse 1001 webSecret { webTok with code := some code }, .tokenProcess (tokIn 1002 c!"n3" c!"n4") parsed])) 1003
        { authorization := some (c!"Bearer " ++ tokens.accessToken) }).2 = .val (Dict.set info c!"sub" (.str c!"pub-diana"), c!"c1")) := by
  obtain ⟨raw, hr, C⟩ := webLoginCookie
  obtain ⟨c, resp, hc, -, -, -, A⟩ := C130_registered_client_runs_code_flow webCfg _ _ _ webProvider c!"https://rp/cb" webUri [] webRegIn
    ⟨c!"c1", by decide, by decide⟩
  have hc1 : c = c!"c1" := by simpa [webRegIn] using hc
  subst hc1
  have n2 : GoodNames webCfg ([HttpOp.register webRegIn true true true webReg] ++ [HttpOp.authorize 1000 c!"g1" (mintIn c!"n1") (mintIn c!"n2") (.val c!"IDT") (some raw) webAreq]) := by
    have : webOps = ([HttpOp.register webRegIn true true true webReg] ++ [HttpOp.authorize 1000 c!"g1" (mintIn c!"n1") (mintIn c!"n2") (.val c!"IDT") (some raw) webAreq]) ++ webOps.drop 2 := by
      rw [← hr]; rfl
    have h := webNames_demo
    rw [this] at h
    exact h.prefix
  obtain ⟨code, pl, g, a1, a2, B⟩ := A [] [HttpOp.register webRegIn true true true webReg] 1000 c!"g1" (mintIn c!"n1") (mintIn c!"n2") (.val c!"IDT") raw c!"diana" 1000
    (demoReq [c!"code"]) _ rfl rfl (by intro op h; cases h) n2 webRequest C ⟨rfl, rfl⟩
  obtain ⟨parsed, p1, D⟩ := B [] _ 1001 { webTok with code := some code } rfl During.nil n2
    ⟨rfl, rfl, rfl, by rintro p ⟨⟩⟩ (Or.inr (by decide)) (Or.inr (by decide)) (Or.inr (by decide)) (Or.inr (by decide))
  have n3 : GoodNames webCfg _ := n2.more (op := .tokenParse 1001 webSecret { webTok with code := some code }) (by intros; simp) (by intros; simp)
  obtain ⟨tokens, q1, -, -, -, -, E⟩ := D [] _ (tokIn 1002 c!"n3" c!"n4") rfl During.nil n3
    ⟨⟨rfl, rfl⟩, ⟨rfl, rfl⟩, ⟨_, rfl⟩⟩ (Or.inr (by decide)) (Or.inr (by decide)) (Or.inr (by decide))
  have n4 : GoodNames webCfg _ := n3.more (op := .tokenProcess (tokIn 1002 c!"n3" c!"n4") parsed) (by intros; simp) (by intros; simp)
  have hw : webOps.take 2 = [HttpOp.register webRegIn true true true webReg, HttpOp.authorize 1000 c!"g1" (mintIn c!"n1") (mintIn c!"n2") (.val c!"IDT") (some raw) webAreq] := by
    rw [← hr]; rfl
  refine ⟨raw, code, parsed, tokens, hr, ⟨pl, a1⟩, by rw [hw]; exact q1, ?_⟩
  intro g' info hg' hi
  rw [hw] at hg'
  have : g' = g := by
    have e : Except.ok g' = Except.ok g := hg'.symm.trans a2
    cases e; rfl
  subst this
  rw [hw]
  have := E [] 1003 info During.nil n4 (Or.inr (by decide)) (Or.inr (by decide)) (by decide) hi
  exact this

end Verif
