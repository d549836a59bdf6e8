import Verif.Props.WebFlow
set_option linter.unusedSimpArgs false
set_option linter.unusedVariables false
/-! C133: refreshing over HTTP, as often as one likes. -/
namespace Verif
open Spec

/-- A refresh token stays usable while it and the session live, whatever others do, and the user at other clients, however often it or other refresh tokens
are used, and over restarts of a provider that keeps its sessions on disk. -/
theorem C133_stays_refreshable (cfg : ProvCfg) (L : TokenCryptoLaws cfg.sys.env.cr) (h1 mid : List HttpOp) (u c gid v : Str) (hu : GoodId u)
    (hc : GoodId c) (hg : GoodId gid) (hn : GoodNames cfg (h1 ++ mid)) (now : Int)
    (hmid : During cfg h1 mid fun st op => ByOthersOrRestart cfg u c st op ∨ RefreshProcessed op)
    (h : Refreshable cfg (provRun cfg h1).sys.store u c gid v now) : Refreshable cfg (provRun cfg (h1 ++ mid)).sys.store u c gid v now := by
  obtain ⟨g, t, a1, a2, a3, a4, a5, a6, a7, a8, a9⟩ := h
  obtain ⟨g', b1, b2⟩ := stretch_grows L h1 mid hn hu hc hg hmid a1
  refine ⟨g', t, b1, b2.getToken a2, a3, ?_, ?_, b2.active a4 a6, a7, a8, a9⟩
  · obtain ⟨l, n, rfl⟩ := b2; exact a4
  · obtain ⟨l, n, rfl⟩ := b2; exact a5

/-- **C133**: when a client authenticates with its secret and brings a refresh token that is usable, it gets new tokens for the
scope of the session; the access token gets the user's data and subject identifier, and the refresh token, if there is a new one,
is usable in its turn.  Before, in between and afterwards others may do what they want, and the client may refresh
any number of times, with this token or others. -/
theorem C133_refresh_served (cfg : ProvCfg) (hc ha : Handler) (f : Str → Option Str → Str) (P : CodeFlowProvider cfg hc ha f)
    (RP : RefreshProvider cfg) (h1 : List HttpOp) (u c gid v : Str) (hu : GoodId u) (hgc : GoodId c) (hg : GoodId gid) (g : Grant)
    (hgr : getGrant (provRun cfg h1).sys.store (sessionKey [u, c, gid]) = .ok g)
    -- the request comes in
    (mid2 h2 : List HttpOp) (tp : Int) (t : TokReq) (cl : Client) (secret : Str) (e2 : h2 = h1 ++ mid2)
    (ho2 : During cfg h1 mid2 fun st op => ByOthersOrRestart cfg u c st op ∨ RefreshProcessed op) (hn2 : GoodNames cfg h2)
    (hcl : (provRun cfg h2).cdb c = some cl) (hsec : cl.clientSecret = some secret) (hexp : NotExpired cl tp)
    (hgt : t.grantType = some c!"refresh_token") (hrt : t.refreshToken = some v)
    (hr2 : Refreshable cfg (provRun cfg h1).sys.store u c gid v tp) :
    ∃ parsed, (tokenParseEndpoint cfg (provRun cfg h2) tp { clientId := some c, clientSecret := some secret } t).2 = .val parsed ∧
    -- it is processed
    ∀ (mid3 h3 : List HttpOp) (inp : TokIn),
      h3 = h2 ++ [.tokenParse tp { clientId := some c, clientSecret := some secret } t] ++ mid3 →
      (During cfg (h2 ++ [.tokenParse tp { clientId := some c, clientSecret := some secret } t]) mid3 fun st op => ByOthers cfg u c st op ∨ RefreshProcessed op) → GoodNames cfg h3 → NoFailure inp →
      Refreshable cfg (provRun cfg h1).sys.store u c gid v inp.now →
    ∃ tokens, tokensAt cfg (h3 ++ [.tokenProcess inp parsed]) h3.length = some (parsed, tokens) ∧ tokens.scope = g.scope ∧
    -- the new refresh token can be used
    (∀ (rt : Str) (later : Int), tokens.refreshToken = some rt → rt ≠ tokens.accessToken →
      (∀ g3, getGrant (provRun cfg h3).sys.store (sessionKey [u, c, gid]) = .ok g3 → g3.getToken rt = none) →
      (∀ tt, (g.usageRules.get? tt).getD {} = providerRules cfg tt) →
      Within inp.now (providerRules cfg tRefreshToken).expiresIn later → ActiveAt g.toItem g.maxUsage later → Readable ha inp.now later →
      (∀ tk, g.getToken v = some tk → ∀ n, tk.usageRules.maxUsage = some n → 0 < n) →
      Refreshable cfg (provRun cfg (h3 ++ [.tokenProcess inp parsed])).sys.store u c gid rt later) ∧
    -- the access token is used
    ∀ (mid4 : List HttpOp) (later : Int) (ev : AuthnEvent) (info : Dict Val),
      (During cfg (h3 ++ [.tokenProcess inp parsed]) mid4 fun st op => ByOthersOrRestart cfg u c st op ∨ RefreshProcessed op) → GoodNames cfg (h3 ++ [.tokenProcess inp parsed] ++ mid4) →
      (∀ g3, getGrant (provRun cfg h3).sys.store (sessionKey [u, c, gid]) = .ok g3 → g3.getToken tokens.accessToken = none) →
      (∀ n, ((g.usageRules.get? tAccessToken).getD {}).maxUsage = some n → 0 < n) →
      Readable ha inp.now later → Within inp.now ((g.usageRules.get? tAccessToken).getD {}).expiresIn later →
      g.authnEvent = some ev → later < ev.validUntil →
      getUserClaims cfg.userDb u ((g.claims.get? c!"userinfo").getD []) = .ok info →
      (userinfoEndpoint cfg (provRun cfg (h3 ++ [.tokenProcess inp parsed] ++ mid4)) later
        { authorization := some (c!"Bearer " ++ tokens.accessToken) }).2 = .val (Dict.set info c!"sub" (.str g.sub), c) := by
  have hauth := secret_accepted (lib := cfg.lib) (targets := cfg.tokenTargets) (jtis := (provRun cfg h2).jtis) plainFromToken P.tokenMethod hgc.1 hcl hsec hexp
  have alive : ∀ now, Readable ha now now := by
    intro now
    rcases P.alive with h | h
    · exact Or.inl h
    · exact Or.inr (by omega)
  -- a refresh in a later state
  have served : ∀ (hist : List HttpOp) (inp : TokIn), GoodNames cfg hist → NoFailure inp →
      Refreshable cfg (provRun cfg hist).sys.store u c gid v inp.now →
      tokParse cfg.sys.env cfg.sys.helpers (provRun cfg hist).sys.store inp.now { t with clientId := some c } = .val { t with clientId := some c } ∧
      ∃ g3 tk s' resp a new n, getGrant (provRun cfg hist).sys.store (sessionKey [u, c, gid]) = .ok g3 ∧ g3.getToken v = some tk ∧ tk.value = v ∧
        tk.supportsMinting tAccessToken = true ∧
        tokProcess cfg.sys.mode cfg.sys.env cfg.sys.helpers (provRun cfg hist).sys.store inp { t with clientId := some c } = (s', .val resp) ∧
        getGrant s' (sessionKey [u, c, gid]) = .ok { g3 with issuedToken := g3.issuedToken ++ a :: new, used := n } ∧
        MadeBy cfg.sys.env ha g3 inp.now inp.ma (sessionKey [u, c, gid]) tAccessToken v .accessToken a ∧
        resp.accessToken = a.value ∧ resp.scope = g3.scope ∧ resp.refreshToken = (new.map Token.value).head? ∧
        ∀ r ∈ new, ∃ r0, MadeBy cfg.sys.env ha g3 inp.now inp.mr (sessionKey [u, c, gid]) tRefreshToken v .refreshToken r0 ∧
          (r = r0 ∨ r = { r0 with usageRules := tk.usageRules }) := by
    intro hist inp hn hnf hR
    obtain ⟨g3, tk, a1, a2, a3, a4, a5, a6, a7, a8, a9⟩ := hR
    have hv : tk.value = v := findValue_some_value a2
    have a2' := a2
    rw [← hv] at a2' a9
    obtain ⟨k1, s', resp, a, new, n, k2, k3, k4, k5, k6, k7, k8, k9⟩ := refresh_served (m := cfg.sys.mode) P.tokens RP.noPkce RP.helper (provRun_sound hn).tree hu hgc hg a1 a4 a5
      a2' a3 hnf a6 a7 a9 (alive _) a8 (req := { t with clientId := some c }) hgt (by rw [hv]; exact hrt)
    rw [hv] at k4 k9
    exact ⟨k1, g3, tk, s', resp, a, new, n, a1, a2, hv, a8, k2, k3, k4, k5, k6, k7, k9⟩
  have R2 : Refreshable cfg (provRun cfg h2).sys.store u c gid v tp := by
    rw [e2]; exact C133_stays_refreshable cfg P.tokens.laws h1 mid2 u c gid v hu hgc hg (by rw [← e2]; exact hn2) tp ho2 hr2
  have hparse := (served h2 { now := tp, ma := { rnd := [], nonce := [], id := [], payload := .ok (), ttype := [] }, mr := { rnd := [], nonce := [], id := [], payload := .ok (), ttype := [] }, idt := .val [] }
    hn2 ⟨⟨rfl, rfl⟩, ⟨rfl, rfl⟩, ⟨_, rfl⟩⟩ R2).1
  have hep : tokenParseEndpoint cfg (provRun cfg h2) tp { clientId := some c, clientSecret := some secret } t =
      ((provRun cfg h2).jtis, .val { t with clientId := some c }) := by
    unfold tokenParseEndpoint
    simp only [hauth]
    rw [show requestClient { clientId := some c, clientSecret := some secret } (some { method := AuthnMethod.clientSecretPost.tag, clientId := some c }) = some c from rfl]
    rw [hparse]
  refine ⟨{ t with clientId := some c }, by rw [hep], ?_⟩
  intro mid3 h3 inp e3 ho3 hn3 hnf hr3
  have e3' : h3 = h1 ++ (mid2 ++ [.tokenParse tp { clientId := some c, clientSecret := some secret } t] ++ mid3) := by
    rw [e3, e2]; simp [List.append_assoc]
  have hall : During cfg h1 (mid2 ++ [.tokenParse tp { clientId := some c, clientSecret := some secret } t] ++ mid3)
      fun st op => ByOthersOrRestart cfg u c st op ∨ RefreshProcessed op := by
    refine During.append (During.append ho2 (During.one (Or.inl (Or.inl trivial)))) ?_
    rw [← List.append_assoc, ← e2]
    exact During.mono ho3 fun st op h => h.imp Or.inl id
  have R3 : Refreshable cfg (provRun cfg h3).sys.store u c gid v inp.now := by
    rw [e3']; exact C133_stays_refreshable cfg P.tokens.laws h1 _ u c gid v hu hgc hg (by rw [← e3']; exact hn3) inp.now hall hr3
  have p3 : { t with clientId := some c } ∈ (provRun cfg h3).sys.pending := by
    rw [e3]
    refine pending_stays _ mid3 ho3 ?_
    rw [provRun_snoc]
    simp only [provStep, hep]
    simp
  obtain ⟨-, g3, tk, s4, resp, a, new, n, b1, b2, b3, b4, b5, b6, b7, b8, b9, b10, b11⟩ := served h3 inp hn3 hnf R3
  have hgrown : Grown g g3 := by
    obtain ⟨g', k1, k2⟩ := stretch_grows P.tokens.laws h1 _ (by rw [← e3']; exact hn3) hu hgc hg hall hgr
    rw [← e3', b1] at k1
    cases k1
    exact k2
  obtain ⟨l, m, hG⟩ := hgrown
  have gS : getGrant (provRun cfg (h3 ++ [.tokenProcess inp { t with clientId := some c }])).sys.store (sessionKey [u, c, gid]) =
      .ok { g3 with issuedToken := g3.issuedToken ++ a :: new, used := n } := by
    rw [provRun_snoc]
    simp only [provStep, sysStep, p3, if_true, b5]
    exact b6
  refine ⟨resp, ?_, by rw [b9, hG], ?_, ?_⟩
  · unfold tokensAt
    simp only [List.getElem?_append_right (Nat.le_refl _), Nat.sub_self, List.getElem?_cons_zero, List.take_left, sysResponse, p3, if_true, b5]
  · intro rt later hrt' hne hfresh hrules hw hga hrd huse
    cases new with
    | nil => rw [b10] at hrt'; cases hrt'
    | cons r new =>
      rw [b10] at hrt'
      simp only [List.map_cons, List.head?_cons, Option.some.injEq] at hrt'
      obtain ⟨r0, K, hr0⟩ := b11 r (by simp)
      have hru : (g3.usageRules.get? tRefreshToken).getD {} = providerRules cfg tRefreshToken := by rw [hG]; exact hrules _
      have hfr := hfresh g3 b1
      have hmx : g.maxUsage = none := by
        obtain ⟨gx, tx, x1, _, _, x4, _⟩ := hr2
        rw [hgr] at x1; cases x1; exact x4
      have htk0 : g.getToken v = some tk := by
        obtain ⟨gx, tx, x1, x2, _⟩ := hr2
        rw [hgr] at x1; cases x1
        have : g3.getToken v = some tx := Grown.getToken ⟨l, m, hG⟩ x2
        rw [b2] at this
        cases this
        exact x2
      have facts : r.value = r0.value ∧ r.kind = r0.kind ∧ r.toItem = r0.toItem := by rcases hr0 with rfl | rfl <;> exact ⟨rfl, rfl, rfl⟩
      refine ⟨_, r, gS, ?_, by rw [facts.2.1]; exact K.kind, by rw [hG]; exact hmx, ?_, ?_, ?_, ?_, ?_⟩
      · unfold Grant.getToken at hfr ⊢
        simp only
        rw [findValue_append_none hfr]
        have hne' : a.value ≠ rt := by rw [← b8]; exact Ne.symm hne
        simp [findValue, List.find?, hne', hrt']
      · obtain ⟨gx, tx, x1, _, _, _, x5, _⟩ := hr3
        rw [hgr] at x1; cases x1; rw [hG]; exact x5
      · rw [hG]
        rw [hmx] at hga
        simp only [ActiveAt, hmx] at hga ⊢
        exact ⟨hga.1, by simp, hga.2.2⟩
      · rw [facts.2.2]
        refine within_active (made := inp.now) (e := (providerRules cfg tRefreshToken).expiresIn) K.revoked ?_ K.notBefore ?_ hw
        · intro y hy
          rw [K.used]
          rcases hr0 with rfl | rfl
          · rw [K.rules, hru] at hy; exact RP.uses y hy
          · exact huse tk htk0 y hy
        · rw [show r0.toItem.expiresAt = _ from K.expiresAt, hru]
      · unfold Token.supportsMinting at b4 ⊢
        rcases hr0 with rfl | rfl
        · rw [K.rules, hru]
          simp only [setDefaults]
          cases hs : (providerRules cfg tRefreshToken).supportsMinting with
          | none => decide
          | some l => simpa using RP.mints l hs
        · exact b4
      · rw [← hrt', facts.1, K.value]; exact handler_resolves P.tokens (.inr rfl) hrd _ _ _
  · intro mid4 later ev info ho4 hn4 hfresh huse hrd hw hev hlt hinfo
    obtain ⟨g4, k1, l4, n4, k2⟩ := stretch_grows P.tokens.laws _ mid4 hn4 hu hgc hg ho4 gS
    rw [b8]
    have hfr := hfresh g3 b1
    rw [b8] at hfr
    have hat : g4.getToken a.value = some a := by
      rw [k2]
      unfold Grant.getToken at hfr ⊢
      simp only [List.append_assoc]
      rw [findValue_append_none hfr]
      simp [findValue]
    have hres : cfg.sys.env.th.sid cfg.sys.env.cr later a.value = .ok (sessionKey [u, c, gid]) := by
      rw [b7.value]; exact handler_resolves P.tokens (.inr rfl) hrd _ _ _
    have hact : ActiveAt a.toItem a.usageRules.maxUsage later := by
      refine within_active (made := inp.now) (e := ((g.usageRules.get? tAccessToken).getD {}).expiresIn) b7.revoked ?_ b7.notBefore ?_ hw
      · intro y hy
        rw [b7.rules, hG] at hy
        rw [b7.used]; exact huse y hy
      · rw [show a.toItem.expiresAt = _ from b7.expiresAt, hG]
    have h0 : a.value ≠ [] := by rw [b7.value]; exact P.notEmpty _ _ _ _ _
    unfold userinfoEndpoint userinfoParse
    simp only [bearer_accepted P.userinfoMethod (cdb := (provRun cfg (h3 ++ [.tokenProcess inp { t with clientId := some c }] ++ mid4)).cdb) (targets := cfg.userinfoTargets)
      (jtis := (provRun cfg (h3 ++ [.tokenProcess inp { t with clientId := some c }] ++ mid4)).jtis) h0 hu hgc hg hres]
    have := C84_userinfo_served cfg.sys.env cfg.userDb _ u c gid hu hgc hg _ k1 a hat b7.kind later hact hres ev (by rw [k2, hG]; exact hev) hlt info
      (by rw [k2, hG]; exact hinfo)
    rw [this, k2, hG]

/-! ### The hypotheses are met -/

def webRt : Str := handlerCall demoCrypto ⟨.jwt, c!"T", 5, c!"k2"⟩ 1001 [] c!"n4" c!"diana;;c1;;g1" []

/-- `Refreshable`, as a computation. -/
def refreshCheck (cfg : ProvCfg) (s : Store) (u c gid v : Str) (now : Int) : Bool :=
  match getGrant s (sessionKey [u, c, gid]) with
  | .error _ => false
  | .ok g => match g.getToken v with
    | none => false
    | some t => decide (t.kind = .refreshToken) && decide (g.maxUsage = none) && decide (g.tokenMap = defaultTokenMap) && g.isActive now && t.isActive now &&
        t.supportsMinting tAccessToken && decide ((cfg.sys.env.th.sid cfg.sys.env.cr now v).toOption = some (sessionKey [u, c, gid]))

theorem refreshable_of_check {cfg : ProvCfg} {s : Store} {u c gid v : Str} {now : Int} (h : refreshCheck cfg s u c gid v now = true) :
    Refreshable cfg s u c gid v now := by
  unfold refreshCheck at h
  cases hg : getGrant s (sessionKey [u, c, gid]) with
  | error e => simp [hg] at h
  | ok g =>
    cases ht : g.getToken v with
    | none => simp [hg, ht] at h
    | some t =>
      simp only [hg, ht, Bool.and_eq_true, decide_eq_true_eq] at h
      obtain ⟨⟨⟨⟨⟨⟨h1, h2⟩, h3⟩, h4⟩, h5⟩, h6⟩, h7⟩ := h
      refine ⟨g, t, hg, ht, h1, h2, h3, (C07_grant_active_iff g now).1 h4, (C07_token_active_iff t now).1 h5, h6, ?_⟩
      cases hs : cfg.sys.env.th.sid cfg.sys.env.cr now v with
      | error e => rw [hs] at h7; cases h7
      | ok x => rw [hs] at h7; simp only [Except.toOption, Option.some.injEq] at h7; rw [h7]

theorem webRefreshProvider : RefreshProvider webCfg := ⟨by decide, rfl, by decide, by decide⟩

set_option maxRecDepth 16000 in
/-- After the code flow the client holds a refresh token that can be used, at once and a little later. -/
theorem web_refreshable : Refreshable webCfg (provRun webCfg webOps).sys.store c!"diana" c!"c1" c!"g1" webRt 1003 ∧
    Refreshable webCfg (provRun webCfg webOps).sys.store c!"diana" c!"c1" c!"g1" webRt 1004 :=
  ⟨refreshable_of_check (by decide), refreshable_of_check (by decide)⟩

def webRefReq : TokReq := { grantType := some c!"refresh_token", refreshToken := some webRt }
def webRefOps : List HttpOp :=
  webOps ++ [.tokenParse 1003 webSecret webRefReq, .tokenProcess (tokIn 1004 c!"n5" c!"n6") { webRefReq with clientId := some c!"c1" }]

set_option maxRecDepth 32000 in
/-- The theorem applies to it: the request is answered. -/
example : ∃ g tokens, getGrant (provRun webCfg webOps).sys.store (sessionKey [c!"diana", c!"c1", c!"g1"]) = .ok g ∧
    tokensAt webCfg webRefOps 7 = some ({ webRefReq with clientId := some c!"c1" }, tokens) ∧ tokens.scope = g.scope := by
  obtain ⟨h1, h2⟩ := web_refreshable
  obtain ⟨g, tk, hg, -⟩ := h1
  have hcdb : ∃ cl, (provRun webCfg webOps).cdb c!"c1" = some cl ∧ cl.clientSecret = some c!"s1" ∧ NotExpired cl 1003 := by
    have : ((provRun webCfg webOps).cdb c!"c1").map (fun c => (c.clientSecret, c.clientSecretExpiresAt)) = some (some c!"s1", 1999) := by decide
    cases hc : (provRun webCfg webOps).cdb c!"c1" with
    | none => rw [hc] at this; cases this
    | some cl =>
      rw [hc] at this
      simp only [Option.map_some, Option.some.injEq, Prod.mk.injEq] at this
      exact ⟨cl, rfl, this.1, by unfold NotExpired; rw [this.2]; exact Or.inr (by decide)⟩
  obtain ⟨cl, c1, c2, c3⟩ := hcdb
  obtain ⟨parsed, p1, D⟩ := C133_refresh_served webCfg _ _ _ webProvider webRefreshProvider webOps c!"diana" c!"c1" c!"g1" webRt (by simp [GoodId, SemicolonFree])
    (by simp [GoodId, SemicolonFree]) (by simp [GoodId, SemicolonFree]) g hg [] webOps 1003 webRefReq cl c!"s1" (by simp) During.nil webNames_demo
    c1 c2 c3 rfl rfl web_refreshable.1
  have hp : parsed = { webRefReq with clientId := some c!"c1" } := by
    have : outVal (tokenParseEndpoint webCfg (provRun webCfg webOps) 1003 { clientId := some c!"c1", clientSecret := some c!"s1" } webRefReq).2 =
        some { webRefReq with clientId := some c!"c1" } := by decide
    rw [p1] at this
    simpa [outVal] using this
  subst hp
  obtain ⟨tokens, t1, t2, -⟩ := D [] _ (tokIn 1004 c!"n5" c!"n6") rfl During.nil
    (webNames_demo.more (by intros; simp) (by intros; simp)) ⟨⟨rfl, rfl⟩, ⟨rfl, rfl⟩, ⟨_, rfl⟩⟩ web_refreshable.2
  exact ⟨g, tokens, hg, t1, t2⟩

set_option maxRecDepth 32000 in
/-- The strings are new, the access token works, and both refresh tokens can be used again. -/
example : (tokensAt webCfg webRefOps 7).isSome = true ∧
    (match tokensAt webCfg webRefOps 7, getGrant (provRun webCfg webOps).sys.store (sessionKey [c!"diana", c!"c1", c!"g1"]) with
     | some (_, tokens), .ok g => decide (g.getToken tokens.accessToken = none) && decide (tokens.refreshToken.bind g.getToken = none) &&
        decide (tokens.refreshToken ≠ some tokens.accessToken) &&
        decide (((outVal (userinfoEndpoint webCfg (provRun webCfg webRefOps) 1005 { authorization := some (c!"Bearer " ++ tokens.accessToken) }).2).map
          (fun x => (x.1.get? c!"sub", x.2))) = some (some (.str c!"pub-diana"), c!"c1")) &&
        refreshCheck webCfg (provRun webCfg webRefOps).sys.store c!"diana" c!"c1" c!"g1" webRt 1005 &&
        (match tokens.refreshToken with
         | some rt => refreshCheck webCfg (provRun webCfg webRefOps).sys.store c!"diana" c!"c1" c!"g1" rt 1005
         | none => false)
     | _, _ => false) = true := by decide

end Verif
