import Verif.Spec.LastingRefresh
import Verif.Lemmas.LastingRefresh
import Verif.Props.WebRefresh
set_option linter.unusedSimpArgs false
set_option linter.unusedVariables false
/-! C158: how long a refresh token that was given out can be used. -/
namespace Verif
open Spec

theorem lifetime_eq (g : Grant) (tt : Str) : lifetime g tt = (((g.usageRules.get? tt).getD {}).expiresIn).getD 0 := by
  unfold lifetime
  cases g.usageRules.get? tt <;> rfl

/-- Without a restart, a parsed request stays one. -/
theorem pending_kept {cfg : ProvCfg} {P : Prov → HttpOp → Prop} (l mid : List HttpOp) (h : During cfg l mid fun st op => P st op ∧ op ≠ .restart) {q : TokReq}
    (hq : q ∈ (provRun cfg l).sys.pending) : q ∈ (provRun cfg (l ++ mid)).sys.pending := by
  induction mid using snocInd with
  | nil => simpa using hq
  | append_singleton m op ih =>
    have hl := (During.last h).2
    rw [← List.append_assoc, provRun_snoc]
    have ih := ih (During.init h)
    generalize provRun cfg (l ++ m) = st at ih hl
    cases op with
    | tokenParse now r req =>
      simp only [provStep]
      split
      · exact List.mem_cons_of_mem _ ih
      · exact ih
    | restart => exact absurd rfl hl
    | tokenProcess i req =>
      simp only [provStep, sysStep]
      split <;> exact ih
    | _ => exact ih

/-- What a token response leaves in the storage of its refresh token. -/
theorem given_refresh {cfg : ProvCfg} {ops : List HttpOp} (hw : WebRun cfg ops) {i : Nat} {req : TokReq} {resp : TokResp} {rt : Str}
    (h : tokensAt cfg ops i = some (req, resp)) (hrt : resp.refreshToken = some rt) (hne : rt ≠ resp.accessToken)
    (hnew : ∀ sid kd, ¬ StoredAfter cfg ops i sid kd rt) :
    ∃ (inp : TokIn) (sid : Str) (g g' : Grant) (r t0 : Token), ops[i]? = some (.tokenProcess inp req) ∧ getGrant (provRun cfg (ops.take i)).sys.store sid = .ok g ∧
      getGrant (provRun cfg (ops.take (i + 1))).sys.store sid = .ok g' ∧ Lasts g g' ∧ g'.getToken rt = some r ∧
      RefreshMade cfg.sys.env g inp sid r ∧ resp.scope = g.scope ∧ t0.isActive inp.now = true ∧ t0.supportsMinting tAccessToken = true ∧
      (r.usageRules = setDefaults r.kind ((g.usageRules.get? tRefreshToken).getD {}) ∨ r.usageRules = t0.usageRules) := by
  obtain ⟨inp, ho, e, hr⟩ := tokensAt_response h
  obtain ⟨hf, -, -⟩ := expand_ok (hw.take i)
  have hi := sysRun_inv cfg.sys (expand cfg (ops.take i)) hf hw.blank (expand cfg (ops.take i)).length
  rw [List.take_length, ← provRun_sys] at hi
  obtain ⟨inp', ho', hp, hv⟩ := responseAt_some hr
  rw [e, List.getElem?_append_right (Nat.le_refl _)] at ho'
  simp only [Nat.sub_self, List.getElem?_cons_zero, Option.some.injEq, SysOp.tokProcess.injEq, and_true] at ho'
  subst ho'
  rw [e, List.take_left, ← provRun_sys] at hp hv
  have hstep : (provRun cfg (ops.take (i + 1))).sys.store =
      (tokProcess cfg.sys.mode cfg.sys.env cfg.sys.helpers (provRun cfg (ops.take i)).sys.store inp req).1 := by
    rw [take_snoc ho, provRun_snoc]
    simp only [provStep, sysStep, hp, if_true]
  have hnone : ∀ sid g, (provRun cfg (ops.take i)).sys.store sid = some (.grant g) → findValue rt g.issuedToken = none := by
    intro sid g hs
    cases hx : findValue rt g.issuedToken with
    | none => rfl
    | some t =>
      exact absurd ⟨g, t, hs, (getToken_value hx).2, rfl, (getToken_value hx).1⟩ (hnew sid t.kind)
  rw [hstep]
  rcases response_grantType hr with hgt | hgt
  · obtain ⟨hx, c, sid, g, ar, h1, h2, h3, h4, h5, h6⟩ := tokProcess_code hi.noEmpty hgt hv
    obtain ⟨c', q1, q2, q3⟩ := (hi.pending req hp _ hgt).1 hx
    rw [h1] at q1
    cases q1
    rw [q2] at h2 h5 h6
    obtain ⟨k1, k2, k3⟩ := sessionByToken_key hi.noEmpty h2
    obtain ⟨t, e4, e5⟩ := (q3 _ _ k1).2 g k2
    rw [e4] at h5 h6
    have hgr := sessionByToken_getGrant h2
    have hopen := openAt_of_getGrant hi.noEmpty hgr
    obtain ⟨t0, tok, rt', g', f1, f2, f3, f4, f5, f6, f7, f8, f9, f10, f11, f12, f13, f14, f15, _, f17, f18⟩ := exchangeCode_val k3 h5
    cases f1
    obtain ⟨g1, r, m1, m2, m3, m4, m5⟩ := code_gives_refresh hopen k2 e4 e5 (hnone _ _ k2) hne h5 hrt
    exact ⟨inp, sid, g, g1, r, t, ho, hgr, by rw [h6, m1]; exact hopen.getGrant g1, m2, m3, m4, f15, f3, f4, Or.inl m5⟩
  · obtain ⟨hx, v, sid, g, h1, h2, h5, h6⟩ := tokProcess_refresh hi.noEmpty hgt hv
    obtain ⟨k1, k2, k3⟩ := sessionByToken_key hi.noEmpty h2
    obtain ⟨t0, tok, rt', mints, f1, f2, f3, f4, f5, f6, f7, f8, f9, f10, f11, f12, f13, f14, -⟩ := exchangeRefresh_val k3 h5
    have hgr := sessionByToken_getGrant h2
    have hopen := openAt_of_getGrant hi.noEmpty hgr
    rw [f1] at h5 h6
    obtain ⟨g1, r, m1, m2, m3, m4, m5⟩ := refresh_gives_refresh hopen k2 (hnone _ _ k2) hne h5 hrt
    exact ⟨inp, sid, g, g1, r, t0, ho, hgr, by rw [h6, m1]; exact hopen.getGrant g1, m2, m3, m4, f14, f3, f4, m5⟩

/-- A stored refresh token of a session works until its time. -/
theorem refreshes_until {cfg : ProvCfg} {hc ha : Handler} (I : IssuesTokens cfg.sys.env hc ha) (hpk : cfg.sys.env.pkce = none)
    (hh : cfg.sys.helpers.get? c!"refresh_token" = some (.inst .refreshToken)) {hist : List HttpOp} {u c gid rt : Str}
    (hu : GoodId u) (hcl : GoodId c) (hg : GoodId gid) {g0 g : Grant} {tok : Token} {i : TokIn}
    (hgr : getGrant (provRun cfg hist).sys.store (sessionKey [u, c, gid]) = .ok g) (hl : Lasts g0 g) (found : g.getToken rt = some tok)
    (kind : tok.kind = .refreshToken) (fresh : Fresh tok.toItem) (uses : ∀ m, tok.usageRules.maxUsage = some m → 0 < m)
    (mints : tok.supportsMinting tAccessToken = true)
    (hexp : tok.expiresAt = if lifetime g0 tRefreshToken = 0 then 0 else i.now + lifetime g0 tRefreshToken)
    (hval : rt = handlerCall cfg.sys.env.cr ha i.now i.mr.rnd i.mr.nonce (sessionKey [u, c, gid]) [])
    (mid : List HttpOp) (tp : Int) (r : AuthnReq) (t : TokReq) (hgt : t.grantType = some c!"refresh_token") (hrt : t.refreshToken = some rt)
    (hmid : During cfg hist mid (NoNewLogin cfg u c)) (hw : WebRun cfg (hist ++ mid)) (hn : GoodNames cfg (hist ++ mid)) :
    RefreshesUntil cfg ha hist mid u c rt g0 i.now tp r t := by
  -- at any later time the token is what it was
  have later : ∀ mid, During cfg hist mid (NoNewLogin cfg u c) → WebRun cfg (hist ++ mid) → GoodNames cfg (hist ++ mid) →
      ∃ g2, getGrant (provRun cfg (hist ++ mid)).sys.store (sessionKey [u, c, gid]) = .ok g2 ∧ Lasts g0 g2 ∧ g2.getToken rt = some tok := by
    intro mid hmid hw hn
    obtain ⟨g2, a1, a2⟩ := stretch_lasts I.laws _ mid hw hn hu hcl hg hmid hgr
    refine ⟨g2, a1, hl.trans a2, ?_⟩
    obtain ⟨l, n, e, kk⟩ := a2
    rw [e]; exact (kk _ _ found).1 (by rw [kind]; simp)
  have tval : tok.value = rt := (getToken_value found).1
  -- at any later time it serves
  have serve : ∀ mid, During cfg hist mid (NoNewLogin cfg u c) → WebRun cfg (hist ++ mid) → GoodNames cfg (hist ++ mid) →
      ∀ inp cl, NoFailure inp → RefreshLives ha g0 i.now inp.now →
        (tokParse cfg.sys.env cfg.sys.helpers (provRun cfg (hist ++ mid)).sys.store inp.now { t with clientId := cl } = .val { t with clientId := cl } ∧
        (Readable ha inp.now inp.now →
          ∃ resp, (tokProcess cfg.sys.mode cfg.sys.env cfg.sys.helpers (provRun cfg (hist ++ mid)).sys.store inp { t with clientId := cl }).2 = .val resp ∧
            resp.scope = g0.scope)) := by
    intro mid hmid hw hn inp cl hnf lives
    obtain ⟨g2, a1, a2, a3⟩ := later mid hmid hw hn
    obtain ⟨wm, wt⟩ := web_unlimited hw a1
    have hsame : g2.scope = g0.scope ∧ ActiveAt g2.toItem g2.maxUsage inp.now := by
      obtain ⟨l, n, rfl, -⟩ := a2
      refine ⟨rfl, ?_⟩
      have := lives.session
      rw [wm]
      exact ⟨this.1, by simp, this.2.2⟩
    have hact : ActiveAt tok.toItem tok.usageRules.maxUsage inp.now := by
      obtain ⟨f1, f2, f3⟩ := fresh
      refine ⟨f1, fun m hm => by rw [f2]; exact uses m hm, fun hx => absurd f3 hx, fun hx => ?_⟩
      rw [hexp] at hx ⊢
      by_cases hz : lifetime g0 tRefreshToken = 0
      · simp [hz] at hx
      · rw [if_neg hz] at hx ⊢
        rcases lives.token with e | e
        · exact absurd e hz
        · exact e
    have hsid : cfg.sys.env.th.sid cfg.sys.env.cr inp.now tok.value = .ok (sessionKey [u, c, gid]) := by
      rw [tval, hval]; exact handler_resolves I (Or.inr rfl) lives.readable _ _ _
    rw [← tval] at a3
    have hsess := sessionByToken_resolves hu hcl hg hsid a1
    have hta' := (C07_token_active_iff tok inp.now).2 hact
    constructor
    · unfold tokParse helperParse
      rw [tval] at hsess a3
      simp only [hgt, hh, refreshParse, hrt, hsess, a3, kind, ne_eq, not_true_eq_false, if_false, hta', Bool.true_eq_false, hpk]
    · intro hrd
      obtain ⟨-, s', resp, a, new, n, k2, k3, k4, k5, k6, -⟩ := refresh_served (m := cfg.sys.mode) I hpk hh (provRun_sound hn).tree hu hcl hg a1 wm wt a3
        kind hnf hsame.2 hact hsid hrd mints (req := { t with clientId := cl }) hgt (by rw [tval]; exact hrt)
      exact ⟨resp, by rw [k2], by rw [k6, hsame.1]⟩
  have parses : ∀ j o, clientAuthentication cfg.lib (provRun cfg (hist ++ mid)).cdb tp cfg.tokenMethods cfg.tokenTargets plainFromToken
      (provRun cfg (hist ++ mid)).jtis r = (j, .ok o) → RefreshLives ha g0 i.now tp →
      tokenParseEndpoint cfg (provRun cfg (hist ++ mid)) tp r t = (j, .val { t with clientId := requestClient r o }) := by
    intro j o hauth lives
    unfold tokenParseEndpoint
    simp only [hauth]
    have := (serve mid hmid hw hn { now := tp, ma := { rnd := [], nonce := [], id := [], payload := .ok (), ttype := [] }, mr := { rnd := [], nonce := [], id := [], payload := .ok (), ttype := [] }, idt := .val [] }
      (requestClient r o) ⟨⟨rfl, rfl⟩, ⟨rfl, rfl⟩, ⟨_, rfl⟩⟩ lives).1
    simp only at this
    rw [this]
  refine ⟨parses, ?_, ?_⟩
  · intro j o hauth lives mid2 h2 inp e2 hmid2 hw2 hn2 hnf lives2 hrd
    have hep := parses j o hauth lives
    have e2' : h2 = hist ++ (mid ++ [.tokenParse tp r t] ++ mid2) := by rw [e2]; simp [List.append_assoc]
    have hall : During cfg hist (mid ++ [.tokenParse tp r t] ++ mid2) (NoNewLogin cfg u c) := by
      refine During.append (During.append hmid (During.one trivial)) ?_
      rw [← List.append_assoc]
      exact During.mono hmid2 fun _ _ h => h.1
    have hp : { t with clientId := requestClient r o } ∈ (provRun cfg h2).sys.pending := by
      rw [e2]
      refine pending_kept _ mid2 hmid2 ?_
      rw [provRun_snoc]
      simp only [provStep, hep]
      simp
    obtain ⟨resp, r1, r2⟩ := (serve _ hall (by rw [← e2']; exact hw2) (by rw [← e2']; exact hn2) inp (requestClient r o) hnf lives2).2 hrd
    rw [← e2'] at r1
    refine ⟨resp, ?_, r2⟩
    unfold tokensAt
    simp only [List.getElem?_append_right (Nat.le_refl _), Nat.sub_self, List.getElem?_cons_zero, List.take_left, sysResponse, hp, if_true, r1]
  · intro hz hz2 hlate j q hq
    unfold tokenParseEndpoint at hq
    split at hq
    · cases hq
    · rename_i j' o hauth
      simp only [Prod.mk.injEq] at hq
      have hq := hq.2
      obtain ⟨g2, a1, a2, a3⟩ := later mid hmid hw hn
      unfold tokParse helperParse at hq
      simp only [hgt, hh, refreshParse, hrt] at hq
      cases hs : sessionByToken cfg.sys.env.th cfg.sys.env.cr (provRun cfg (hist ++ mid)).sys.store tp rt with
      | error e =>
        rw [hs] at hq
        simp only at hq
        by_cases he : e.isKeyError = true <;> simp [he] at hq
      | ok x =>
        obtain ⟨sid, ob⟩ := x
        cases ob with
        | info _ => rw [hs] at hq; cases hq
        | grant g' =>
          have hS := provRun_sound hn
          have hk := sessionByToken_key hS.noEmpty hs
          have hsid : sid = sessionKey [u, c, gid] := by
            have := hk.1
            rw [hval] at this
            exact minted_sid I.laws _ this
          subst hsid
          have := sessionByToken_getGrant hs
          rw [a1] at this
          cases this
          have hna : tok.isActive tp = false := by
            cases hx : tok.isActive tp with
            | false => rfl
            | true =>
              rw [C07_token_active_iff] at hx
              rw [if_neg hz] at hexp
              have := hx.2.2.2 (by omega)
              omega
          simp [hs, a3, kind, hna] at hq

/-- **C158**: a refresh token from the token endpoint can be used, again and again, until its time.  Say a token request is answered with a
refresh token that the storage did not have before.  Then the code or refresh token that was brought belongs to a session that a
user opened by logging in, the response tells the session's scope, and the refresh token works until its time, provided the session's rules
for refresh tokens let them be used and give access tokens. -/
theorem C158_refresh_token_works_until_its_time (cfg : ProvCfg) (hc ha : Handler) (I : IssuesTokens cfg.sys.env hc ha)
    (hpk : cfg.sys.env.pkce = none) (hh : cfg.sys.helpers.get? c!"refresh_token" = some (.inst .refreshToken))
    (hist : List HttpOp) (inp : TokIn) (req : TokReq) (resp : TokResp) (rt : Str)
    (hw0 : WebRun cfg (hist ++ [.tokenProcess inp req])) (hn0 : GoodNames cfg hist)
    (hr : tokensAt cfg (hist ++ [.tokenProcess inp req]) hist.length = some (req, resp)) (hrt : resp.refreshToken = some rt)
    (hnew : ∀ sid kd, ¬ StoredAfter cfg hist hist.length sid kd rt) (hne : rt ≠ resp.accessToken)
    (htt : inp.mr.ttype = []) :
    ∃ (u c gid : Str) (g : Grant) (ev : AuthnEvent), getGrant (provRun cfg hist).sys.store (sessionKey [u, c, gid]) = .ok g ∧
      WebLogin cfg hist hist.length (sessionKey [u, c, gid]) u c g.sub (some ev) ∧ resp.scope = g.scope ∧
    ((∀ m, ((g.usageRules.get? tRefreshToken).getD {}).maxUsage = some m → 0 < m) →
     (∀ l, ((g.usageRules.get? tRefreshToken).getD {}).supportsMinting = some l → tAccessToken ∈ l) →
     ∀ (mid : List HttpOp) (tp : Int) (r : AuthnReq) (t : TokReq),
      During cfg (hist ++ [.tokenProcess inp req]) mid (NoNewLogin cfg u c) →
      WebRun cfg (hist ++ [.tokenProcess inp req] ++ mid) → GoodNames cfg (hist ++ [.tokenProcess inp req] ++ mid) →
      t.grantType = some c!"refresh_token" → t.refreshToken = some rt →
      RefreshesUntil cfg ha (hist ++ [.tokenProcess inp req]) mid u c rt g inp.now tp r t) := by
  obtain ⟨inp', sid, g, g1, tok, t0, ho, b1, b2, b3, b4, b5, b6, b7, b8, b9⟩ := given_refresh hw0 hr hrt hne (by
    intro sid kd h
    refine hnew sid kd ?_
    unfold StoredAfter at h ⊢
    rw [List.take_left] at h
    rw [List.take_length]; exact h)
  rw [List.getElem?_append_right (Nat.le_refl _)] at ho
  simp only [Nat.sub_self, List.getElem?_cons_zero, Option.some.injEq, HttpOp.tokenProcess.injEq, and_true] at ho
  subst ho
  have eT : (hist ++ [HttpOp.tokenProcess inp req]).take (hist.length + 1) = hist ++ [HttpOp.tokenProcess inp req] := by
    rw [List.take_of_length_le]; simp
  rw [List.take_left] at b1
  rw [eT] at b2
  have hwh : WebRun cfg hist := by
    have := hw0.take hist.length
    rwa [List.take_left] at this
  obtain ⟨u, c, gid, rfl, hu, hcl, hg, W⟩ := grant_login hwh hn0 b1
  obtain ⟨k, now, gid', mc, ma, idt, raw, rq, k1, k2, k3, k4⟩ := W.authn
  rw [k4] at W
  refine ⟨u, c, gid, g, _, b1, W, b6, ?_⟩
  intro huse hmint mid tp r t hmid hw hn hgt ht
  obtain ⟨hd, v1, v2⟩ := b5.value
  rw [I.access] at v1
  cases v1
  rw [htt, (getToken_value b4).1] at v2
  have hkind : tok.kind = .refreshToken := by
    have := b5.kind
    rw [(web_unlimited hwh b1).2] at this
    simp [defaultTokenMap, Dict.get?, tRefreshToken, tAccessToken, tAuthorizationCode] at this
    exact this.symm
  refine refreshes_until I hpk hh hu hcl hg b2 b3 b4 hkind b5.fresh ?_ ?_ b5.expiresAt v2 mid tp r t hgt ht hmid hw hn
  · intro m hm
    rcases b9 with e | e
    · rw [e, hkind] at hm; exact huse m hm
    · rw [e] at hm
      have := ((C07_token_active_iff t0 inp.now).1 b7).2.1 m hm
      omega
  · rcases b9 with e | e
    · unfold Token.supportsMinting
      rw [e, hkind]
      simp only [setDefaults]
      cases hs : ((g.usageRules.get? tRefreshToken).getD {}).supportsMinting with
      | none => decide
      | some l => simpa using hmint l hs
    · unfold Token.supportsMinting at b8 ⊢
      rw [e]; exact b8

end Verif
