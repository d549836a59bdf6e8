import Verif.Lemmas.Lasting
import Verif.Props.Lifetime
import Verif.Props.Provider
import Verif.Spec.Given
import Verif.Props.Given
set_option linter.unusedSimpArgs false
set_option linter.unusedVariables false
/-! C154: how long an access token that was given out can be used. -/
namespace Verif
open Spec

/-- The rules of a token that was minted. -/
theorem minted_rules {env : Env} {h : Option Handler} {s : Store} {now : Int} {m : MintIn} {sid tt : Str} {g : Grant}
    {b : Option Token} {t : Token} (hok : (mintAndStore env h s now m sid tt g b).2.2 = .ok t) :
    t.usageRules = setDefaults t.kind ((g.usageRules.get? tt).getD {}) := by
  unfold mintAndStore at hok
  simp only at hok
  rcases mintToken_cases g now m.id tt b (some ((g.usageRules.get? tt).getD {})) [] {} (tokenString env h now m sid)
    with ⟨h1, h2⟩ | ⟨v, k, hv, hact, hm, hb, item, hi, hr⟩
  · generalize g.mintToken now m.id tt b (some ((g.usageRules.get? tt).getD {})) [] {} (tokenString env h now m sid) = R at *
    obtain ⟨R1, R2⟩ := R
    cases R2 with
    | error e => simp at hok
    | ok o =>
      cases o with
      | none => simp at hok
      | some t => exact absurd rfl (h2 t)
  · rw [hr] at hok
    simp only at hok
    split at hok
    · cases hok
    · cases hok
      split <;> rw [hi] <;> rfl

/-- What a token response leaves in the storage: the access token of the response, in the session of the code or refresh token. -/
structure GivenIn (cfg : ProvCfg) (s s' : Store) (inp : TokIn) (resp : TokResp) (sid : Str) (g g' : Grant) (tok : Token) : Prop where
  before : getGrant s sid = .ok g
  after : getGrant s' sid = .ok g'
  lasts : Lasts g g'
  found : g'.getToken resp.accessToken = some tok
  kind : tok.kind = .accessToken
  typ : tok.typ = tAccessToken
  fresh : Fresh tok.toItem
  issued : tok.issuedAt = inp.now
  reported : resp.expiresIn = none ∧ tok.expiresAt = 0 ∨ resp.expiresIn = some (tok.expiresAt - inp.now)
  rules : tok.usageRules = setDefaults .accessToken ((g.usageRules.get? tAccessToken).getD {})
  ownScope : tok.scope = []
  scope : resp.scope = g.scope
  value : ∃ hd, cfg.sys.env.th.accessToken = some hd ∧ resp.accessToken = handlerCall cfg.sys.env.cr hd inp.now inp.ma.rnd inp.ma.nonce sid inp.ma.ttype

theorem given_in {cfg : ProvCfg} {ops : List HttpOp} (hw : WebRun cfg ops) {i : Nat} {req : TokReq} {resp : TokResp}
    (h : tokensAt cfg ops i = some (req, resp))
    (hnew : ∀ sid kd, ¬ StoredAfter cfg ops i sid kd resp.accessToken) :
    ∃ inp sid g g' tok, ops[i]? = some (.tokenProcess inp req) ∧
      GivenIn cfg (provRun cfg (ops.take i)).sys.store (provRun cfg (ops.take (i + 1))).sys.store inp resp sid g g' tok := by
  obtain ⟨inp, ho, e, hr⟩ := tokensAt_response h
  obtain ⟨hf, -, -⟩ := expand_ok (hw.take i)
  have hi := sysRun_inv cfg.sys (expand cfg (ops.take i)) hf hw.blank (expand cfg (ops.take i)).length
  rw [List.take_length, ← provRun_sys] at hi
  obtain ⟨inp', ho', hp, hv⟩ := responseAt_some hr
  rw [e, List.getElem?_append_right (Nat.le_refl _)] at ho'
  simp only [Nat.sub_self, List.getElem?_cons_zero, Option.some.injEq, SysOp.tokProcess.injEq, and_true] at ho'
  subst ho'
  rw [e, List.take_left, ← provRun_sys] at hp hv
  have hstep : (provRun cfg (ops.take (i + 1))).sys.store =
      (tokProcess cfg.sys.mode cfg.sys.env cfg.sys.helpers (provRun cfg (ops.take i)).sys.store inp req).1 := by
    rw [take_snoc ho, provRun_snoc]
    simp only [provStep, sysStep, hp, if_true]
  have hnone : ∀ sid g, (provRun cfg (ops.take i)).sys.store sid = some (.grant g) → findValue resp.accessToken g.issuedToken = none := by
    intro sid g hs
    cases hx : findValue resp.accessToken g.issuedToken with
    | none => rfl
    | some t =>
      exact absurd ⟨g, t, hs, (getToken_value hx).2, rfl, (getToken_value hx).1⟩ (hnew sid t.kind)
  rw [hstep]
  rcases response_grantType hr with hgt | hgt
  · obtain ⟨hx, c, sid, g, ar, h1, h2, h3, h4, h5, h6⟩ := tokProcess_code hi.noEmpty hgt hv
    obtain ⟨c', q1, q2, q3⟩ := (hi.pending req hp _ hgt).1 hx
    rw [h1] at q1
    cases q1
    rw [q2] at h2 h5 h6
    obtain ⟨k1, k2, k3⟩ := sessionByToken_key hi.noEmpty h2
    obtain ⟨t, e4, e5⟩ := (q3 _ _ k1).2 g k2
    rw [e4] at h5 h6
    obtain ⟨t0, tok, rt, g', f1, f2, f3, f4, f5, f6, f7, f8, f9, f10, f11, f12, f13, f14, f15, _, f17, f18⟩ := exchangeCode_val k3 h5
    cases f1
    have hgr := sessionByToken_getGrant h2
    have hopen := openAt_of_getGrant hi.noEmpty hgr
    obtain ⟨g1, m1, m2⟩ := exchangeCode_lasts (env := cfg.sys.env) (i := inp) (ar := ar) hopen k2 e4 e5
    have hg1 : g1 = g' := by
      rw [m1] at f5
      simpa [Store.put] using f5
    subst hg1
    obtain ⟨x1, x2, x3⟩ := mintAndStore_expiry f17
    have htyp := (mintAndStore_ok f17).2.2.2.2.2.1
    have hmap := ((hi.grants _ _ k2).2).tokenMap
    have hkind : tok.kind = .accessToken := by
      rw [hmap] at f10
      simp [defaultTokenMap, Dict.get?, tAccessToken, tAuthorizationCode] at f10
      exact f10.symm
    have hne : resp.accessToken ≠ t.value := by
      intro ee
      have := hnone sid g k2
      rw [ee] at this
      have e4' : findValue t.value g.issuedToken = some t := by rw [(getToken_value e4).1]; exact e4
      rw [e4'] at this
      cases this
    have hrules := minted_rules f17
    rw [hkind] at hrules
    refine ⟨inp, sid, g, g1, tok, ho, hgr, by rw [h6, m1]; exact hopen.getGrant g1, m2, ?_, hkind, htyp, x1, x2, Or.inr f18, hrules, f8, f15, ?_⟩
    · unfold Grant.getToken
      rw [f6, findValue_usedFirst, if_neg hne, findValue_append_none (hnone sid g k2), f13]
      simp [findValue]
    · rw [f13]; exact minted_value f17
  · obtain ⟨hx, v, sid, g, h1, h2, h5, h6⟩ := tokProcess_refresh hi.noEmpty hgt hv
    obtain ⟨k1, k2, k3⟩ := sessionByToken_key hi.noEmpty h2
    obtain ⟨t0, tok, rt, mints, f1, f2, f3, f4, f5, f6, f7, f8, f9, f10, f11, f12, f13, f14, f15, ⟨f17, f18⟩, g', r', f16, f19, _⟩ :=
      exchangeRefresh_val k3 h5
    have hgr := sessionByToken_getGrant h2
    have hopen := openAt_of_getGrant hi.noEmpty hgr
    obtain ⟨g1, m1, m2⟩ := exchangeRefresh_grown (m := cfg.sys.mode) (env := cfg.sys.env) (i := inp) (b := g.getToken v) hopen k2
    have hg1 : g1 = g' := by
      rw [m1] at f16
      simpa [Store.put] using f16
    subst hg1
    obtain ⟨x1, x2, x3⟩ := mintAndStore_expiry f17
    have htyp := (mintAndStore_ok f17).2.2.2.2.2.1
    have hmap := ((hi.grants _ _ k2).2).tokenMap
    have hkind : tok.kind = .accessToken := by
      rw [hmap] at f10
      simp [defaultTokenMap, Dict.get?, tAccessToken, tAuthorizationCode] at f10
      exact f10.symm
    have hrules := minted_rules f17
    rw [hkind] at hrules
    have hexp : resp.expiresIn = none ∧ tok.expiresAt = 0 ∨ resp.expiresIn = some (tok.expiresAt - inp.now) := by
      rw [f18]
      by_cases hz : tok.expiresAt = 0
      · exact Or.inl ⟨by simp [hz], hz⟩
      · exact Or.inr (by simp [hz])
    refine ⟨inp, sid, g, g1, tok, ho, hgr, by rw [h6, m1]; exact hopen.getGrant g1, m2.lasts, ?_, hkind, htyp, x1, x2,
      hexp, hrules, f8, f14, ?_⟩
    · unfold Grant.getToken
      rw [f19, findValue_append_none (hnone sid g k2), f12]
      simp [findValue]
    · rw [f12]; exact minted_value f17

/-- The session of a grant in the storage, and the login it comes from. -/
theorem grant_login {cfg : ProvCfg} {ops : List HttpOp} (hw : WebRun cfg ops) (hn : GoodNames cfg ops) {sid : Str} {g : Grant}
    (h : getGrant (provRun cfg ops).sys.store sid = .ok g) :
    ∃ u c gid, sid = sessionKey [u, c, gid] ∧ GoodId u ∧ GoodId c ∧ GoodId gid ∧ WebLogin cfg ops ops.length sid u c g.sub g.authnEvent := by
  have hS := provRun_sound hn
  have hk := (getGrant_key hS.noEmpty h).1
  obtain ⟨u, c, gid, hu, hc, hg, rfl⟩ := hS.sid hk
  obtain ⟨hf, hl, hh⟩ := expand_ok hw
  have hk' : (sysRun cfg.sys ((expand cfg ops).take (expand cfg ops).length)).store (sessionKey [u, c, gid]) = some (.grant g) := by
    rw [List.take_length, ← provRun_sys]; exact hk
  obtain ⟨u', c', gid', e1, e2⟩ := session_from_login hf hw.blank hl hh _ hk'
  rw [unpack_good (goodPath_three hu hc hg)] at e1
  simp only [List.cons.injEq, and_true] at e1
  obtain ⟨rfl, rfl, rfl⟩ := e1
  exact ⟨_, _, _, rfl, hu, hc, hg, webLogin_of e2⟩

/-- Whoever shows a usable access token at the userinfo endpoint gets the user's data. -/
theorem usable_userinfo {cfg : ProvCfg} (hum : some .bearerHeader ∈ cfg.userinfoMethods) {st : Prov} {u c gid v : Str} (hu : GoodId u) (hc : GoodId c)
    (hg : GoodId gid) (hv : v ≠ []) {now : Int} {g : Grant} (hgr : getGrant st.sys.store (sessionKey [u, c, gid]) = .ok g)
    (h : Usable cfg st.sys.store u c gid v now) {info : Dict Val}
    (hcl : getUserClaims cfg.userDb u ((g.claims.get? c!"userinfo").getD []) = .ok info) :
    (userinfoEndpoint cfg st now { authorization := some (c!"Bearer " ++ v) }).2 = .val (Dict.set info c!"sub" (.str g.sub), c) := by
  obtain ⟨g', t, ev, h1, h2, h3, h4, h5, h6, h7⟩ := h
  rw [hgr] at h1
  cases h1
  have hval := (getToken_value h2).1
  subst hval
  unfold userinfoEndpoint userinfoParse
  simp only [bearer_accepted hum (cdb := st.cdb) (targets := cfg.userinfoTargets) (jtis := st.jtis) hv hu hc hg h7]
  exact C84_userinfo_served cfg.sys.env cfg.userDb st.sys.store u c gid hu hc hg _ hgr t h2 h3 now h4 h7 ev h5 h6 info hcl

/-- Introspection calls it active. -/
theorem usable_introspected {cfg : ProvCfg} {st : Prov} {u c gid v : Str} (hu : GoodId u) (hc : GoodId c)
    (hg : GoodId gid) {now : Int} {g : Grant} (hgr : getGrant st.sys.store (sessionKey [u, c, gid]) = .ok g) {t : Token} (ht : g.getToken v = some t)
    (htyp : t.typ = tAccessToken) (h : Usable cfg st.sys.store u c gid v now) {ui : Dict Val}
    (hcl : getUserClaims cfg.userDb u ((g.claims.get? c!"introspection").getD []) = .ok ui)
    {r : AuthnReq} {j : List Str} {o : Option AuthInfo}
    (ha : clientAuthentication cfg.lib st.cdb now cfg.introspectMethods cfg.introspectTargets plainFromToken st.jtis r = (j, .ok o)) :
    ∃ d, introspectEndpoint cfg st now r (some v) = (j, .val d) ∧ d.get? c!"active" = some (.bool true) ∧
      ((∀ k ∈ reserved, k ∉ ((g.claims.get? c!"introspection").getD []).map Prod.fst) →
        d.get? c!"scope" = some (.str (joinBlank (if t.scope = [] then g.scope else t.scope))) ∧
        d.get? c!"client_id" = some (.str c) ∧ d.get? c!"token_type" = some (.str t.typ) ∧
        d.get? c!"exp" = some (.int t.expiresAt) ∧ d.get? c!"iat" = some (.int t.issuedAt) ∧
        d.get? c!"sub" = some (.str g.sub) ∧ d.get? c!"iss" = some (.str cfg.issuer) ∧
        d.get? c!"username" = (if cfg.release then some (.str u) else none)) := by
  obtain ⟨g', t', ev, h1, h2, h3, h4, h5, h6, h7⟩ := h
  rw [hgr] at h1
  cases h1
  rw [ht] at h2
  cases h2
  have hres := sessionByToken_resolves hu hc hg h7 hgr
  have hsome := (introspectInfo_isSome cfg.issuer now t c g).2 ⟨Or.inl htyp, (C07_token_active_iff t now).2 h4⟩
  obtain ⟨info, hinfo⟩ := Option.isSome_iff_exists.1 hsome
  have hd : ∃ d, introspectProcess cfg.sys.env cfg.issuer cfg.release cfg.userDb st.sys.store now v = .val d ∧
      d.get? c!"active" = some (.bool true) := by
    unfold introspectProcess
    simp only [hres, unpack3_good hu hc hg, ht, hinfo]
    split
    · exact ⟨_, rfl, by rw [Dict.get?_set]; simp⟩
    · rename_i _ _
      rw [hcl]
      exact ⟨_, rfl, by rw [Dict.get?_set]; simp⟩
  obtain ⟨d, e1, e2⟩ := hd
  refine ⟨d, ?_, e2, fun hr => ?_⟩
  · unfold introspectEndpoint
    simp only [ha, e1]
  · rcases introspectProcess_val e1 with ⟨rfl, -⟩ | ⟨sid, user, client, gid', g', t', info', ui', q1, q2, q3, q4, q5, q6⟩
    · simp [inactive, Dict.get?] at e2
    · rw [hres] at q1
      cases q1
      rw [unpack3_good hu hc hg] at q2
      cases q2
      rw [ht] at q3
      cases q3
      exact introspect_fields q4 q5 q6 hr

/-- An answer of the userinfo endpoint comes from a token that the request shows. -/
theorem userinfoEndpoint_val {cfg : ProvCfg} {st : Prov} {now : Int} {r : AuthnReq} {j : List Str} {x : Dict Val × Str}
    (h : userinfoEndpoint cfg st now r = (j, .val x)) :
    ∃ t, Bears cfg.userinfoMethods r t ∧ userinfoProcess cfg.sys.env cfg.userDb st.sys.store now t = .val x := by
  unfold userinfoEndpoint at h
  cases hp : userinfoParse cfg st now r with
  | mk j' o =>
    rw [hp] at h
    cases o with
    | errMsg e => cases h
    | raise e => cases h
    | val t =>
      simp only [Prod.mk.injEq] at h
      obtain ⟨rfl, h⟩ := h
      refine ⟨t, ?_, h⟩
      unfold userinfoParse at hp
      split at hp
      · simp only [Prod.mk.injEq] at hp
        have := hp.2
        split at this <;> cases this
      · cases hp
      · rename_i j2 i2 hca
        cases ht : i2.token with
        | none => rw [ht] at hp; cases hp
        | some t' =>
          rw [ht] at hp
          cases hp
          exact clientAuthentication_token hca ht

/-- A token of a session works until its time. -/
theorem works_until {cfg : ProvCfg} {hc ha : Handler} (I : IssuesTokens cfg.sys.env hc ha) {hist : List HttpOp} {u c gid v : Str}
    (hu : GoodId u) (hcl : GoodId c) (hg : GoodId gid) {g0 g : Grant} {tok : Token} {ev : AuthnEvent} {made : Int} {ex : Option Int} {rnd nonce : Str}
    (hgr : getGrant (provRun cfg hist).sys.store (sessionKey [u, c, gid]) = .ok g) (hl : Lasts g0 g) (found : g.getToken v = some tok)
    (kind : tok.kind = .accessToken) (typ : tok.typ = tAccessToken) (fresh : Fresh tok.toItem) (issued : tok.issuedAt = made)
    (hexp : tok.expiresAt = (ex.map (made + ·)).getD 0)
    (rules : tok.usageRules = setDefaults .accessToken ((g0.usageRules.get? tAccessToken).getD {})) (ownScope : tok.scope = [])
    (hval : v = handlerCall cfg.sys.env.cr ha made rnd nonce (sessionKey [u, c, gid]) []) (hne : v ≠ []) (hev : g0.authnEvent = some ev)
    (mid : List HttpOp) (later : Int) (hmid : During cfg hist mid (NoNewLogin cfg u c)) (hw : WebRun cfg (hist ++ mid))
    (hn : GoodNames cfg (hist ++ mid)) : WorksUntil cfg ha hist mid u c gid v g0 ev made ex later := by
  obtain ⟨g2, a1, a2⟩ := stretch_lasts I.laws _ mid hw hn hu hcl hg hmid hgr
  have ht2 : g2.getToken v = some tok := by
    obtain ⟨l, n, e, kk⟩ := a2
    have := (kk _ _ found).1 (by rw [kind]; simp)
    rw [e]; exact this
  have same : g2.authnEvent = g0.authnEvent ∧ g2.claims = g0.claims ∧ g2.sub = g0.sub ∧ g2.scope = g0.scope := by
    obtain ⟨l, n, rfl, -⟩ := hl.trans a2
    exact ⟨rfl, rfl, rfl, rfl⟩
  refine ⟨?_, ?_⟩
  · intro hlt hrd hmax htime
    have hsid : cfg.sys.env.th.sid cfg.sys.env.cr later v = .ok (sessionKey [u, c, gid]) := by
      rw [hval]; exact handler_resolves I (Or.inr rfl) hrd _ _ _
    have hact : ActiveAt tok.toItem tok.usageRules.maxUsage later := by
      obtain ⟨f1, f2, f3⟩ := fresh
      refine ⟨f1, ?_, fun hx => absurd f3 hx, ?_⟩
      · intro m hm
        rw [f2]
        rw [rules] at hm
        exact hmax m hm
      · intro hx
        rcases htime with e | ⟨e, e1, e2 | e2⟩
        · rw [e] at hexp; exact absurd hexp hx
        · rw [e1] at hexp
          simp only [Option.map_some, Option.getD_some] at hexp
          omega
        · rw [e1] at hexp
          simp only [Option.map_some, Option.getD_some] at hexp
          omega
    have U : Usable cfg (provRun cfg (hist ++ mid)).sys.store u c gid v later :=
      ⟨g2, tok, _, a1, ht2, kind, hact, by rw [same.1, hev], hlt, hsid⟩
    refine ⟨U, ?_, ?_⟩
    · intro hum info hinfo
      have := usable_userinfo hum hu hcl hg hne a1 U (info := info) (by rw [same.2.1]; exact hinfo)
      rw [same.2.2.1] at this
      exact this
    · intro ui hui r j o hauth
      obtain ⟨d, d1, d2, d3⟩ := usable_introspected hu hcl hg a1 ht2 typ U (ui := ui) (by rw [same.2.1]; exact hui) hauth
      refine ⟨d, d1, d2, fun hres => ?_⟩
      rw [same.2.1, same.2.2.1, same.2.2.2, ownScope, typ, issued, hexp] at d3
      obtain ⟨x1, x2, x3, x4, x5, x6, x7, -⟩ := d3 hres
      exact ⟨by simpa using x1, x2, x3, x5, x4, x6, x7⟩
  · intro e he hz hlate r hb j x hx
    obtain ⟨t, b1, b2⟩ := userinfoEndpoint_val hx
    rw [hb t b1] at b2
    obtain ⟨sid, user, gid', g', t', e', ui, h1, h2, h3, h4, h5, -⟩ := userinfoProcess_val b2
    have hS := provRun_sound hn
    have hk := sessionByToken_key hS.noEmpty h1
    have hs : sid = sessionKey [u, c, gid] := by
      have := hk.1
      rw [hval] at this
      exact minted_sid I.laws _ this
    subst hs
    have := sessionByToken_getGrant h1
    rw [a1] at this
    cases this
    rw [ht2] at h3
    cases h3
    rw [C07_token_active_iff] at h5
    rw [he] at hexp
    simp only [Option.map_some, Option.getD_some] at hexp
    have := h5.2.2.2 (by omega)
    omega

/-- **C154**: an access token from the token endpoint works until the time that was announced with it.  Say a token request is answered
with an access token that the storage did not have before.  Then the code or refresh token belongs to a session that a user
opened by logging in, the response tells its scope, and the token works until its time. -/
theorem C154_token_works_until_its_time (cfg : ProvCfg) (hc ha : Handler) (I : IssuesTokens cfg.sys.env hc ha)
    (hist : List HttpOp) (inp : TokIn) (req : TokReq) (resp : TokResp)
    (hw0 : WebRun cfg (hist ++ [.tokenProcess inp req])) (hn0 : GoodNames cfg hist)
    (hr : tokensAt cfg (hist ++ [.tokenProcess inp req]) hist.length = some (req, resp))
    (hnew : ∀ sid kd, ¬ StoredAfter cfg hist hist.length sid kd resp.accessToken) (hne : resp.accessToken ≠ [])
    (htt : inp.ma.ttype = []) :
    ∃ (u c gid : Str) (g : Grant) (ev : AuthnEvent), getGrant (provRun cfg hist).sys.store (sessionKey [u, c, gid]) = .ok g ∧
      WebLogin cfg hist hist.length (sessionKey [u, c, gid]) u c g.sub (some ev) ∧ resp.scope = g.scope ∧
    ∀ (mid : List HttpOp) (later : Int),
      During cfg (hist ++ [.tokenProcess inp req]) mid (NoNewLogin cfg u c) →
      WebRun cfg (hist ++ [.tokenProcess inp req] ++ mid) → GoodNames cfg (hist ++ [.tokenProcess inp req] ++ mid) →
      WorksUntil cfg ha (hist ++ [.tokenProcess inp req]) mid u c gid resp.accessToken g ev inp.now resp.expiresIn later := by
  obtain ⟨inp', sid, g, g1, tok, ho, G⟩ := given_in hw0 hr (by
    intro sid kd h
    refine hnew sid kd ?_
    unfold StoredAfter at h ⊢
    rw [List.take_left] at h
    rw [List.take_length]; exact h)
  rw [List.getElem?_append_right (Nat.le_refl _)] at ho
  simp only [Nat.sub_self, List.getElem?_cons_zero, Option.some.injEq, HttpOp.tokenProcess.injEq, and_true] at ho
  subst ho
  have eT : (hist ++ [HttpOp.tokenProcess inp req]).take (hist.length + 1) = hist ++ [HttpOp.tokenProcess inp req] := by
    rw [List.take_of_length_le]; simp
  rw [List.take_left, eT] at G
  have hwh : WebRun cfg hist := by
    have := hw0.take hist.length
    rwa [List.take_left] at this
  obtain ⟨u, c, gid, rfl, hu, hcl, hg, W⟩ := grant_login hwh hn0 G.before
  obtain ⟨k, now, gid', mc, ma, idt, raw, rq, k1, k2, k3, k4⟩ := W.authn
  rw [k4] at W
  refine ⟨u, c, gid, g, _, G.before, W, G.scope, ?_⟩
  intro mid later hmid hw hn
  obtain ⟨hd, v1, v2⟩ := G.value
  rw [I.access] at v1
  cases v1
  have hexp : tok.expiresAt = (resp.expiresIn.map (inp.now + ·)).getD 0 := by
    rcases G.reported with ⟨r1, r2⟩ | r1
    · rw [r1, r2]; rfl
    · rw [r1]; simp only [Option.map_some, Option.getD_some]; omega
  rw [htt] at v2
  exact works_until I hu hcl hg G.after G.lasts G.found G.kind G.typ G.fresh G.issued hexp G.rules G.ownScope v2 hne k4 mid later hmid hw hn

end Verif
