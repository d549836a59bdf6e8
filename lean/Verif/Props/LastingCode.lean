import Verif.Spec.LastingCode
import Verif.Props.LastingRefresh
import Verif.Props.LastingAuthz
set_option linter.unusedSimpArgs false
set_option linter.unusedVariables false
/-! C159: how long a code that was given out can be redeemed. -/
namespace Verif
open Spec

/-- What `create_authn_response` stores when the response has a code: the code, then perhaps an access token. -/
theorem createAuthnResponse_code {env : Env} {s : Store} {now : Int} {mc ma : MintIn} {idt : Out Str} {req : AuthReq} {sid : Str} {g : Grant}
    {a : RespArgs} {frag : Bool} {v : Str} (ho : OpenAt s sid) (hs : s sid = some (.grant g)) (hn : NoEmpty s)
    (h : (createAuthnResponse env s now mc ma idt req sid).2 = .ok (.val a, frag)) (hv : a.code = some v) :
    ∃ tok l n, (mintAndStore env env.th.code s now mc sid tAuthorizationCode g none).2.2 = .ok tok ∧ tok.value = v ∧
      (createAuthnResponse env s now mc ma idt req sid).1 =
        s.put sid (.grant { g with issuedToken := g.issuedToken ++ tok :: l, used := n }) := by
  unfold createAuthnResponse at h ⊢
  by_cases hnone : req.responseType = [c!"none"]
  · simp only [hnone, if_true, Except.ok.injEq, Prod.mk.injEq, Out.val.injEq] at h
    obtain ⟨rfl, -⟩ := h
    cases hv
  · simp only [hnone, if_false] at h ⊢
    cases hg : getGrant s sid with
    | error e => simp [hg] at h
    | ok g0 =>
      obtain ⟨hk, _, _⟩ := getGrant_key hn hg
      rw [hs] at hk
      cases hk
      simp only [hg] at h ⊢
      have c1 : ∀ code, (codePart env s now mc sid g req).2.2 = .ok (some code) →
          (codePart env s now mc sid g req).1 = s.put sid (.grant (codePart env s now mc sid g req).2.1) ∧
          (codePart env s now mc sid g req).2.1 = { g with issuedToken := g.issuedToken ++ [code], used := g.used + 1 } ∧
          (mintAndStore env env.th.code s now mc sid tAuthorizationCode g none).2.2 = .ok code := by
        intro code hcode
        unfold codePart at hcode ⊢
        by_cases hc : c!"code" ∈ req.responseType
        · simp only [hc, if_true] at hcode ⊢
          cases hm : (mintAndStore env env.th.code s now mc sid tAuthorizationCode g none).2.2 with
          | error e => rw [hm] at hcode; simp [Except.map] at hcode
          | ok t =>
            obtain ⟨k1, k2⟩ := minted_token ho hs hm
            rw [hm] at hcode
            have : t = code := by simpa [Except.map] using hcode
            subst this
            exact ⟨k1, k2, rfl⟩
        · simp [hc] at hcode
      cases h1 : (codePart env s now mc sid g req).2.2 with
      | error e => simp [h1] at h
      | ok code =>
        simp only [h1] at h ⊢
        have tp : ∀ s1 g1, OpenAt s1 sid → s1 sid = some (.grant g1) → ∀ o, (tokenPart env s1 now ma sid g1 code req).2.2 = .ok o →
            ∃ l n, (tokenPart env s1 now ma sid g1 code req).1 = s1.put sid (.grant { g1 with issuedToken := g1.issuedToken ++ l, used := n }) := by
          intro s1 g1 ho1 hs1 o hto
          unfold tokenPart at hto ⊢
          by_cases hc : c!"token" ∈ req.responseType
          · simp only [hc, if_true] at hto ⊢
            cases hm : (mintAndStore env env.th.accessToken s1 now ma sid tAccessToken g1 code).2.2 with
            | error e => rw [hm] at hto; simp [Except.map] at hto
            | ok t =>
              obtain ⟨k1, k2⟩ := minted_token ho1 hs1 hm
              exact ⟨[t], g1.used + 1, by rw [k1, k2]⟩
          · simp only [hc, if_false]
            exact ⟨[], g1.used, by simpa using (put_same hs1).symm⟩
        cases code with
        | none =>
          exfalso
          split at h
          · cases h
          · split at h
            · cases h
            · cases h
            · split at h
              · simp only [Except.ok.injEq, Prod.mk.injEq, Out.val.injEq] at h
                obtain ⟨rfl, -⟩ := h
                simp at hv
              · cases h
        | some tok =>
          obtain ⟨d1, d2, d3⟩ := c1 tok h1
          generalize codePart env s now mc sid g req = r1 at h d1 d2 ⊢
          have ho1 : OpenAt r1.1 sid := by rw [d1]; exact ho.put _
          have hs1 : r1.1 sid = some (.grant r1.2.1) := by rw [d1]; exact put_self _ _ _
          cases h2 : (tokenPart env r1.1 now ma sid r1.2.1 (some tok) req).2.2 with
          | error e => simp [h2] at h
          | ok at' =>
            obtain ⟨l, n, e1⟩ := tp r1.1 r1.2.1 ho1 hs1 _ h2
            simp only [h2] at h ⊢
            generalize (tokenPart env r1.1 now ma sid r1.2.1 (some tok) req).1 = s2 at h e1 ⊢
            have e4 := idTokenPart_store s2 idt sid req
            cases h3 : (idTokenPart s2 idt sid req).2 with
            | raise e => simp [h3] at h
            | errMsg e => simp [h3] at h
            | val i =>
              simp only [h3] at h ⊢
              by_cases hall : req.responseType.all (fun t => [c!"code", c!"token", c!"id_token"].contains t) = true
              · rw [if_pos hall] at h
                rw [if_pos hall]
                simp only [Except.ok.injEq, Prod.mk.injEq, Out.val.injEq] at h
                obtain ⟨rfl, rfl⟩ := h
                refine ⟨tok, l, n, d3, by simpa using hv, ?_⟩
                simp only
                rw [e4, e1, d1, put_put, d2]
                simp [List.append_assoc]
              · rw [if_neg hall] at h
                simp at h

/-- What the authorization endpoint stores when the response has a code. -/
theorem authzPart2_code {env : Env} {cdb : Cdb} {s : Store} {now : Int} {mc ma : MintIn} {idt : Out Str} {req : AuthReq}
    {sid : Str} {a : RespArgs} {v : Str} (hO : Only (fun _ _ w => w ≠ v) s)
    (h : (authzPart2 env cdb s now mc ma idt req sid).2.2.content = .val a) (hv : a.code = some v) :
    ∃ sm gm tok l n, (∀ t ∈ gm.issuedToken, t.value ≠ v) ∧
      (mintAndStore env env.th.code sm now mc sid tAuthorizationCode gm none).2.2 = .ok tok ∧ tok.value = v ∧
      (authzPart2 env cdb s now mc ma idt req sid).2.1 =
        s.put sid (.grant { gm with issuedToken := gm.issuedToken ++ tok :: l, used := n }) ∧ OpenAt s sid := by
  have hn := hO.noEmpty
  unfold authzPart2 at h ⊢
  cases hg : getGrant s sid with
  | error e => simp [hg, errReply] at h
  | ok g =>
    obtain ⟨hk, hs, _⟩ := getGrant_key hn hg
    simp only [hg] at h ⊢
    cases hu : unpack3 sid with
    | error e => simp [hu, errReply] at h
    | ok ucg =>
      obtain ⟨u, c, gi⟩ := ucg
      obtain ⟨hu1, hu2⟩ := unpack3_key hu
      simp only [hu] at h ⊢
      cases ha : (authzCall env.gc env.ccfg cdb now c g req).2 with
      | error e => simp [ha, errReply] at h
      | ok g' =>
        simp only [ha] at h ⊢
        have hopen := openAt_of_getGrant hn hg
        have hset : dbSet s [u, c, gi] (.grant g') = (s.put sid (.grant g'), .ok ()) := by
          have := (hopen.mgrSet (.grant g')).1
          unfold mgrSet at this
          rw [hu1] at this
          exact this
        have hown : (s.put sid (.grant g')) sid = some (.grant g') := put_self _ _ _
        have hgo : GOnly (fun _ _ w => w ≠ v) sid g' := gonly_authzCall ha (hO.toks _ _ hk)
        have hne : NoEmpty (s.put sid (.grant g')) := (hO.putGrant hgo).noEmpty
        rw [hset] at h ⊢
        simp only at h ⊢
        cases hr : (createAuthnResponse env (s.put sid (.grant g')) now mc ma idt req sid).2 with
        | error e => simp [hr, errReply] at h
        | ok cf =>
          obtain ⟨content, frag⟩ := cf
          simp only [hr] at h ⊢
          cases hx : getUri env.lib (authzCall env.gc env.ccfg cdb now c g req).1 .redirect req.clientId req.redirectUri with
          | error e => simp only [hx] at h; split at h <;> simp [errReply] at h
          | ok uri =>
            simp only [hx] at h ⊢
            cases hm : responseMode req.responseMode frag with
            | error e => simp [hm] at h
            | ok pl =>
              simp only [hm] at h ⊢
              subst h
              obtain ⟨tok, l, n, k3, k4, k5⟩ := createAuthnResponse_code (hopen.put _) hown hne hr hv
              exact ⟨_, g', tok, l, n, fun t ht => hgo t ht, k3, k4, by rw [k5, put_put], hopen⟩

/-- A stored code of a session can be redeemed until its time. -/
theorem redeemable_until {cfg : ProvCfg} {hc ha : Handler} (I : IssuesTokens cfg.sys.env hc ha)
    (hh : cfg.sys.helpers.get? c!"authorization_code" = some (.inst .accessToken)) {hist : List HttpOp} {u c gid v : Str}
    (hu : GoodId u) (hcl : GoodId c) (hg : GoodId gid) {g : Grant} {tok : Token} {made : Int} {q : AuthReq} (hqc : q.clientId = c) {rnd nonce : Str}
    (hgr : getGrant (provRun cfg hist).sys.store (sessionKey [u, c, gid]) = .ok g) (found : g.getToken v = some tok) (har : g.authReq = some q)
    (kind : tok.kind = .authorizationCode) (fresh : Fresh tok.toItem) (uses : ∀ m, tok.usageRules.maxUsage = some m → 0 < m)
    (mints : tok.supportsMinting tAccessToken = true) (mintsR : c!"offline_access" ∈ g.scope → tok.supportsMinting tRefreshToken = true)
    (hexp : tok.expiresAt = if lifetime g tAuthorizationCode = 0 then 0 else made + lifetime g tAuthorizationCode)
    (hval : v = handlerCall cfg.sys.env.cr hc made rnd nonce (sessionKey [u, c, gid]) [])
    (mid : List HttpOp) (tp : Int) (r : AuthnReq) (t : TokReq) (hreq : HonestCodeRequest cfg.sys.env q v t)
    (hmid : During cfg hist mid (NotRedeemed cfg u c v)) (hw : WebRun cfg (hist ++ mid)) (hn : GoodNames cfg (hist ++ mid)) :
    RedeemableUntil cfg hc ha hist mid u v q g made tp r t := by
  have later : ∀ mid, During cfg hist mid (NotRedeemed cfg u c v) → WebRun cfg (hist ++ mid) → GoodNames cfg (hist ++ mid) →
      ∃ g2 l n, getGrant (provRun cfg (hist ++ mid)).sys.store (sessionKey [u, c, gid]) = .ok g2 ∧ g2 = { g with issuedToken := l, used := n } ∧
        g2.getToken v = some tok := by
    intro mid hmid hw hn
    obtain ⟨g2, a1, l, n, e, kk⟩ := stretch_lastsW (fun x => x ≠ v) I.laws _ mid hw hn hu hcl hg hmid hgr
    refine ⟨g2, l, n, a1, e, ?_⟩
    rw [e]; exact (kk _ _ found).1 (Or.inr (by simp))
  have tval : tok.value = v := (getToken_value found).1
  have hbl : ' ' ∉ v := by
    rw [hval]; exact I.blankFree hc (by simp [I.code]) _ _ _ _ _
  have active : ∀ now, CodeLives hc g made now → ActiveAt tok.toItem tok.usageRules.maxUsage now := by
    intro now lives
    obtain ⟨f1, f2, f3⟩ := fresh
    refine ⟨f1, fun m hm => by rw [f2]; exact uses m hm, fun hx => absurd f3 hx, fun hx => ?_⟩
    rw [hexp] at hx ⊢
    by_cases hz : lifetime g tAuthorizationCode = 0
    · simp [hz] at hx
    · rw [if_neg hz] at hx ⊢
      rcases lives.token with e | e
      · exact absurd e hz
      · exact e
  have serve : ∀ mid, During cfg hist mid (NotRedeemed cfg u c v) → WebRun cfg (hist ++ mid) → GoodNames cfg (hist ++ mid) →
      ∀ inp cl, NoFailure inp → CodeLives hc g made inp.now → Readable ha inp.now inp.now →
        (tokParse cfg.sys.env cfg.sys.helpers (provRun cfg (hist ++ mid)).sys.store inp.now { t with clientId := cl } =
          .val { t with clientId := some (cl.getD q.clientId) } ∧
          ∃ resp, (tokProcess cfg.sys.mode cfg.sys.env cfg.sys.helpers (provRun cfg (hist ++ mid)).sys.store inp { t with clientId := some (cl.getD q.clientId) }).2 = .val resp ∧
            resp.scope = g.scope ∧ (resp.refreshToken.isSome = true ↔ c!"offline_access" ∈ g.scope) ∧ (resp.idToken.isSome = true ↔ c!"openid" ∈ q.scope)) := by
    intro mid hmid hw hn inp cl hnf lives hrd
    obtain ⟨g2, l, n, a1, a2, a3⟩ := later mid hmid hw hn
    obtain ⟨wm, wt⟩ := web_unlimited hw a1
    have hact2 : ActiveAt g2.toItem g2.maxUsage inp.now := by
      have := lives.session
      rw [wm, a2]
      exact ⟨this.1, by simp, this.2.2⟩
    have hact := active inp.now lives
    have hsid : cfg.sys.env.th.sid cfg.sys.env.cr inp.now tok.value = .ok (sessionKey [u, c, gid]) := by
      rw [tval, hval]; exact handler_resolves I (Or.inl rfl) lives.readable _ _ _
    rw [← tval] at a3
    have hsc : g2.scope = g.scope := by rw [a2]
    obtain ⟨k1, s', resp, at', new, k2, k3, k4, k5, k6, k7, k8, k9, k10, k11, k12⟩ := C84_code_request_served cfg.sys.mode cfg.sys.env hc ha I cfg.sys.helpers hh _
      (provRun_sound hn).tree u c gid hu hcl hg g2 a1 wm wt tok a3 kind (by rw [tval]; exact hbl) q (by rw [a2]; exact har) inp hnf hact2 hact hsid hrd mints
      (by rw [hsc]; exact mintsR) { t with clientId := cl } (by rw [tval]; exact ⟨hreq.grantType, hreq.code, hreq.redirect, hreq.pkce⟩)
    refine ⟨k1, resp, ?_, by rw [k10, hsc], ?_, by rw [k11]; simp⟩
    · have : tokProcess cfg.sys.mode cfg.sys.env cfg.sys.helpers (provRun cfg (hist ++ mid)).sys.store inp { t with clientId := some (cl.getD q.clientId) } = (s', .val resp) := k2
      rw [this]
    · rw [k9]
      rw [hsc] at k7
      by_cases ho : c!"offline_access" ∈ g.scope
      · rw [if_pos ho] at k7
        cases new with
        | nil => cases k7
        | cons x y => simp [ho]
      · rw [if_neg ho] at k7
        have := List.eq_nil_of_length_eq_zero k7
        subst this
        simp [ho]
  have tparse : ∀ cl, CodeLives hc g made tp → tokParse cfg.sys.env cfg.sys.helpers (provRun cfg (hist ++ mid)).sys.store tp { t with clientId := cl } =
      .val { t with clientId := some (cl.getD q.clientId) } := by
    intro cl lives
    obtain ⟨g2, l, n, a1, a2, a3⟩ := later mid hmid hw hn
    have har2 : g2.authReq = some q := by rw [a2]; exact har
    have hta' := (C07_token_active_iff tok tp).2 (active tp lives)
    have hsid : cfg.sys.env.th.sid cfg.sys.env.cr tp v = .ok (sessionKey [u, c, gid]) := by
      rw [hval]; exact handler_resolves I (Or.inl rfl) lives.readable _ _ _
    have hsess := sessionByToken_resolves hu hcl hg hsid a1
    have hcp : codeParse cfg.sys.env (provRun cfg (hist ++ mid)).sys.store tp { t with clientId := cl } =
        .val { t with clientId := some (cl.getD q.clientId) } := by
      unfold codeParse
      simp only [hreq.code, hsess, a3, kind, ne_eq, not_true_eq_false, if_false, hta', Bool.true_eq_false]
      cases cl with
      | none => simp [har2]
      | some x => rfl
    have hgt : ({ t with clientId := cl } : TokReq).grantType = some c!"authorization_code" := hreq.grantType
    generalize ({ t with clientId := cl } : TokReq) = w at hcp hgt ⊢
    unfold tokParse helperParse
    simp only [hgt, hh, hcp]
    cases hpk : cfg.sys.env.pkce with
    | none => rfl
    | some p =>
      exact pkce_passes (req := { t with clientId := some (cl.getD q.clientId) }) hreq.code hsess har2 (fun p' hp' => hreq.pkce p' hp') p hpk
  have parses : ∀ j o, clientAuthentication cfg.lib (provRun cfg (hist ++ mid)).cdb tp cfg.tokenMethods cfg.tokenTargets plainFromToken
      (provRun cfg (hist ++ mid)).jtis r = (j, .ok o) → CodeLives hc g made tp →
      tokenParseEndpoint cfg (provRun cfg (hist ++ mid)) tp r t = (j, .val { t with clientId := some ((requestClient r o).getD q.clientId) }) := by
    intro j o hauth lives
    unfold tokenParseEndpoint
    simp only [hauth]
    rw [tparse _ lives]
  refine ⟨parses, ?_, ?_⟩
  · intro j o hauth lives mid2 h2 inp e2 hmid2 hw2 hn2 hnf lives2 hrd
    have hep := parses j o hauth lives
    have e2' : h2 = hist ++ (mid ++ [.tokenParse tp r t] ++ mid2) := by rw [e2]; simp [List.append_assoc]
    have hall : During cfg hist (mid ++ [.tokenParse tp r t] ++ mid2) (NotRedeemed cfg u c v) := by
      refine During.append (During.append hmid (During.one ⟨trivial, fun _ _ _ e => nomatch e⟩)) ?_
      rw [← List.append_assoc]
      rw [hqc] at hmid2
      exact During.mono hmid2 fun _ _ h => h.1
    have hp : { t with clientId := some ((requestClient r o).getD q.clientId) } ∈ (provRun cfg h2).sys.pending := by
      rw [e2]
      refine pending_kept _ mid2 hmid2 ?_
      rw [provRun_snoc]
      simp only [provStep, hep]
      simp
    obtain ⟨-, resp, r1, r2⟩ := serve _ hall (by rw [← e2']; exact hw2) (by rw [← e2']; exact hn2) inp (requestClient r o) hnf lives2 hrd
    rw [← e2'] at r1
    refine ⟨resp, ?_, r2⟩
    unfold tokensAt
    simp only [List.getElem?_append_right (Nat.le_refl _), Nat.sub_self, List.getElem?_cons_zero, List.take_left, sysResponse, hp, if_true, r1]
  · intro hz hz2 hlate j x hq
    unfold tokenParseEndpoint at hq
    split at hq
    · cases hq
    · rename_i j' o hauth
      simp only [Prod.mk.injEq] at hq
      have hq := hq.2
      obtain ⟨g2, l, n, a1, a2, a3⟩ := later mid hmid hw hn
      unfold tokParse helperParse at hq
      simp only [hreq.grantType, hh, codeParse, hreq.code] at hq
      cases hs : sessionByToken cfg.sys.env.th cfg.sys.env.cr (provRun cfg (hist ++ mid)).sys.store tp v with
      | error e =>
        rw [hs] at hq
        simp only at hq
        by_cases he : (e.isKeyError || e == .unknownToken) = true <;> simp [he] at hq
      | ok x =>
        obtain ⟨sid, ob⟩ := x
        cases ob with
        | info _ => rw [hs] at hq; cases hq
        | grant g' =>
          have hS := provRun_sound hn
          have hk := sessionByToken_key hS.noEmpty hs
          have hsid : sid = sessionKey [u, c, gid] := by
            have := hk.1
            rw [hval] at this
            exact minted_sid I.laws _ this
          subst hsid
          have := sessionByToken_getGrant hs
          rw [a1] at this
          cases this
          have hna : tok.isActive tp = false := by
            cases hx : tok.isActive tp with
            | false => rfl
            | true =>
              rw [C07_token_active_iff] at hx
              rw [if_neg hz] at hexp
              have := hx.2.2.2 (by omega)
              omega
          simp [hs, a3, kind, hna] at hq

/-- **C159**: a code can be redeemed, once, until its time.  Say an authorization request is answered with a code that the storage did not
have before.  Then it belongs to the session of the browser's user at the requesting client, which has the request on record; and the code can be
redeemed until its time, provided the session's rules for codes let them be used for what comes of them. -/
theorem C159_code_works_until_its_time (cfg : ProvCfg) (hc ha : Handler) (I : IssuesTokens cfg.sys.env hc ha)
    (hh : cfg.sys.helpers.get? c!"authorization_code" = some (.inst .accessToken))
    (hist : List HttpOp) (now : Int) (gid0 : Str) (mc ma : MintIn) (idt : Out Str) (raw : Option Str) (req : UserReq)
    (op : HttpOp) (hop : op = .authorize now gid0 mc ma idt raw req)
    (hw0 : WebRun cfg (hist ++ [op])) (hn0 : GoodNames cfg (hist ++ [op]))
    (r : AuthzReply) (ra : RespArgs) (v : Str)
    (h : (authorizeEndpoint cfg (provRun cfg hist) now gid0 mc ma idt raw req).2.2.2 = .reply r) (hr : r.content = .val ra)
    (hv : ra.code = some v) (hnew : ∀ sid kd, ¬ StoredAfter cfg hist hist.length sid kd v) (htt : mc.ttype = []) :
    ∃ (u gid : Str) (q : AuthReq) (g : Grant), Parsed cfg (provRun cfg hist) req.areq q ∧
      (ShowsLogin cfg raw u ∨ ∃ s, ShowsSession cfg raw u (some s)) ∧
      getGrant (provRun cfg (hist ++ [op])).sys.store (sessionKey [u, q.clientId, gid]) = .ok g ∧ g.authReq = some q ∧
    ((∀ l, ((g.usageRules.get? tAuthorizationCode).getD {}).supportsMinting = some l →
       tAccessToken ∈ l ∧ (c!"offline_access" ∈ g.scope → tRefreshToken ∈ l)) →
     ∀ (mid : List HttpOp) (tp : Int) (r : AuthnReq) (t : TokReq), During cfg (hist ++ [op]) mid (NotRedeemed cfg u q.clientId v) →
      WebRun cfg (hist ++ [op] ++ mid) → GoodNames cfg (hist ++ [op] ++ mid) → HonestCodeRequest cfg.sys.env q v t →
      RedeemableUntil cfg hc ha (hist ++ [op]) mid u v q g now tp r t) := by
  subst hop
  have eT : (hist ++ [HttpOp.authorize now gid0 mc ma idt raw req]).take (hist.length + 1) =
      hist ++ [HttpOp.authorize now gid0 mc ma idt raw req] := by
    rw [List.take_of_length_le]; simp
  have ho : (hist ++ [HttpOp.authorize now gid0 mc ma idt raw req])[hist.length]? = some (.authorize now gid0 mc ma idt raw req) := by
    rw [List.getElem?_append_right (Nat.le_refl _)]; simp
  obtain ⟨q, a, p1, p2, p3, p4⟩ := authorizeEndpoint_reply h
  obtain ⟨s', sid, u0, s1, s2, s3⟩ := authzProcess_reply p4
  have hS := provRun_sound hn0.snoc_left
  have hgid : gid0 ≠ [] := (hn0.gids gid0 (by simp [httpGid])).1
  have hO : Only (fun _ _ w => w ≠ v) (provRun cfg hist).sys.store := by
    refine ⟨hS.noEmpty, fun k g hk t ht e => ?_⟩
    exact hnew k t.kind ⟨g, t, by rw [List.take_length]; exact hk, ht, rfl, e⟩
  have hO' : Only (fun _ _ w => w ≠ v) s' := by
    have := only_setupAuth (env := cfg.sys.env) hO (provRun cfg hist).cdb now gid0 q a hgid
    rw [s1] at this
    exact this
  have hcon : (authzPart2 cfg.sys.env (provRun cfg hist).cdb s' now mc ma idt q sid).2.2.content = .val ra := by rw [← s2]; exact hr
  obtain ⟨sm, gm, tok, l, n, k1, k2, k3, k4, k5⟩ := authzPart2_code hO' hcon hv
  have hst : (provRun cfg (hist ++ [.authorize now gid0 mc ma idt raw req])).sys.store =
      s'.put sid (.grant { gm with issuedToken := gm.issuedToken ++ tok :: l, used := n }) := by
    rw [provRun_snoc, provStep_sys, p3]
    simp only [List.foldl_cons, List.foldl_nil, sysStep]
    rw [s3, k4]
  obtain ⟨u, q', sid', sub, ev', g2, c1, c2, c3, c4, c5⟩ := C123_response_on_the_web cfg I.laws _ hw0 hist.length now gid0 mc ma idt raw req ho r ra
    (by rw [List.take_left]; exact h) hr
  rw [List.take_left] at c1
  have hq : q' = q := by
    have := p1
    unfold Parsed at c1
    rw [this] at c1
    simpa using c1.symm
  subst hq
  obtain ⟨hd, v1, v2⟩ := minted_value k2
  rw [I.code] at v1
  cases v1
  rw [k3, htt] at v2
  have hsid : sid = sid' := by
    have := handler_resolves I (Or.inl rfl) (made := now) (now := now + hc.lifetime) (h := hc) (Or.inr (Int.le_refl _)) mc.rnd mc.nonce sid
    rw [← v2] at this
    exact (c5 v (Or.inl hv)).2 _ _ this
  subst hsid
  rw [eT] at c4
  obtain ⟨u2, c2', gid, e1, hu, hcl, hg, W⟩ := grant_login hw0 hn0 c4
  obtain ⟨k, nowk, gidk, mck, mak, idtk, rawk, reqk, qk, fk, l1, l2, l3, l4, l5, l6, l7, l8, l9⟩ := c3.login
  have hu' : GoodId u := by
    refine hn0.users now gid0 mc ma idt raw req (by simp) u ?_
    rcases c2 with h1 | ⟨x, h1⟩
    · exact Or.inl h1
    · exact Or.inr ⟨_, h1⟩
  have hcl' : GoodId q'.clientId := by
    have hpre : GoodNames cfg ((hist ++ [HttpOp.authorize now gid0 mc ma idt raw req]).take k) := by
      refine Spec.GoodNames.prefix (mid := (hist ++ [HttpOp.authorize now gid0 mc ma idt raw req]).drop k) ?_
      rw [List.take_append_drop]; exact hn0
    exact hpre.clients _ (provRun_named cfg _ _ l5)
  have hg' : GoodId gidk := hn0.gids _ (List.mem_flatMap.2 ⟨_, List.mem_of_getElem? l2, by simp [httpGid]⟩)
  have hkey := (key_inj (goodPath_three hu hcl hg) (goodPath_three hu' hcl' hg')).1 (e1.symm.trans l6)
  simp only [List.cons.injEq, and_true] at hkey
  obtain ⟨rfl, rfl, rfl⟩ := hkey
  subst e1
  have hgrant : g2 = { gm with issuedToken := gm.issuedToken ++ tok :: l, used := n } := by
    rw [hst] at c4
    rw [k5.getGrant] at c4
    exact (Except.ok.inj c4).symm
  obtain ⟨y1, y2, y3, y4, y5, y6, y7, y8, y9, y10, -⟩ := mintAndStore_ok k2
  have hkind : tok.kind = .authorizationCode := by
    have hmap := (web_unlimited hw0 c4).2
    rw [hgrant] at hmap
    simp only at hmap
    rw [hmap] at y10
    simp [defaultTokenMap, Dict.get?, tAccessToken, tAuthorizationCode] at y10
    exact y10.symm
  have hstored := (getGrant_key (provRun_sound hn0).noEmpty c4).1
  have made : MadeAt cfg (hist ++ [HttpOp.authorize now gid0 mc ma idt raw req]) hist.length (sessionKey [u2, q'.clientId, gid]) .authorizationCode v := by
    refine ⟨?_, ⟨g2, tok, by rw [eT]; exact hstored, by rw [hgrant]; simp, hkind, k3⟩, Or.inl ⟨_, _, _, _, _, _, _, ho⟩, ?_⟩
    · intro hx
      refine hnew (sessionKey [u2, q'.clientId, gid]) .authorizationCode ?_
      unfold StoredAfter at hx ⊢
      rw [List.take_left] at hx
      rw [List.take_length]; exact hx
    · intro lst hl
      unfold givenOut at hl
      simp only [ho, List.take_left, h, hr, hv] at hl
      cases hl
      simp
  obtain ⟨_, _, _, _, _, _, _, q2, _, _, w1, w2, w3, -, -⟩ := code_made_for hw0 made (by rw [eT]; exact hstored)
  rw [ho] at w1
  simp only [Option.some.injEq, HttpOp.authorize.injEq] at w1
  obtain ⟨rfl, rfl, rfl, rfl, rfl, rfl, rfl⟩ := w1
  rw [List.take_left] at w2
  have hq2 : q2 = q' := by
    unfold Parsed at w2
    rw [p1] at w2
    simpa using w2.symm
  subst hq2
  refine ⟨u2, gid, q2, g2, p1, c2, c4, w3, ?_⟩
  intro hrules mid tp r t hmid hw hn hreq
  obtain ⟨x1, x2, x3⟩ := mintAndStore_expiry k2
  have hr' := minted_rules k2
  rw [hkind] at hr'
  have hu2 : g2.usageRules = gm.usageRules := by rw [hgrant]
  have hsupp : ∀ tt, (tt = tAccessToken ∨ (tt = tRefreshToken ∧ c!"offline_access" ∈ g2.scope)) → tok.supportsMinting tt = true := by
    intro tt htt
    unfold Token.supportsMinting
    rw [hr', ← hu2]
    simp only [setDefaults]
    cases hs : ((g2.usageRules.get? tAuthorizationCode).getD {}).supportsMinting with
    | none => rcases htt with rfl | ⟨rfl, -⟩ <;> decide
    | some l =>
      have := hrules l hs
      rcases htt with rfl | ⟨rfl, hoff⟩
      · simpa using this.1
      · simpa using this.2 hoff
  refine redeemable_until I hh hu hcl hg rfl c4 ?_ w3 hkind x1 ?_ (hsupp _ (Or.inl rfl)) (fun hoff => hsupp _ (Or.inr ⟨rfl, hoff⟩)) ?_ v2 mid tp r t hreq hmid hw hn
  · show findValue v g2.issuedToken = some tok
    rw [hgrant]
    show findValue v (gm.issuedToken ++ tok :: l) = some tok
    have hnone : findValue v gm.issuedToken = none := by
      cases hx : findValue v gm.issuedToken with
      | none => rfl
      | some t' => exact absurd (getToken_value hx).1 (k1 _ (getToken_value hx).2)
    rw [findValue_append_none hnone]
    simp [findValue, k3]
  · intro m hm
    rw [hr'] at hm
    simp [setDefaults] at hm
    omega
  · rw [x3, hgrant]; rfl

end Verif
