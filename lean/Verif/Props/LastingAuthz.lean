import Verif.Props.Lasting
import Verif.Props.ProviderUri
import Verif.Props.Honest
import Verif.Lemmas.OnlyTokens
set_option linter.unusedSimpArgs false
set_option linter.unusedVariables false
/-! C155: access tokens from the authorization endpoint. -/
namespace Verif
open Spec

theorem minted_token {env : Env} {h : Option Handler} {s : Store} {now : Int} {m : MintIn} {sid tt : Str} {g : Grant}
    {b : Option Token} {t : Token} (ho : OpenAt s sid) (hs : s sid = some (.grant g)) (hok : (mintAndStore env h s now m sid tt g b).2.2 = .ok t) :
    (mintAndStore env h s now m sid tt g b).1 = s.put sid (.grant (mintAndStore env h s now m sid tt g b).2.1) ∧
    (mintAndStore env h s now m sid tt g b).2.1 = { g with issuedToken := g.issuedToken ++ [t], used := g.used + 1 } := by
  obtain ⟨h1, h2, h3⟩ := mint_grown (env := env) (h := h) (now := now) (m := m) (tt := tt) (b := b) ho hs
  refine ⟨h1, ?_⟩
  obtain ⟨t', e⟩ := h3 t hok
  have := (mintAndStore_ok hok).2.2.2.1
  rw [e] at this
  simp only at this
  rw [e]
  have e2 : t' = t := by simpa using this
  rw [e2]

/-- What `create_authn_response` stores when the response has an access token: perhaps the code, then the access token. -/
theorem createAuthnResponse_token {env : Env} {s : Store} {now : Int} {mc ma : MintIn} {idt : Out Str} {req : AuthReq} {sid : Str} {g : Grant}
    {a : RespArgs} {frag : Bool} {v : Str} (ho : OpenAt s sid) (hs : s sid = some (.grant g)) (hn : NoEmpty s)
    (h : (createAuthnResponse env s now mc ma idt req sid).2 = .ok (.val a, frag)) (hv : a.accessToken = some v) :
    ∃ sm gm b tok l n, gm = { g with issuedToken := g.issuedToken ++ l, used := n } ∧
      (∀ t ∈ l, tokenString env env.th.code now mc sid = .ok t.value) ∧
      (mintAndStore env env.th.accessToken sm now ma sid tAccessToken gm b).2.2 = .ok tok ∧ tok.value = v ∧
      (createAuthnResponse env s now mc ma idt req sid).1 =
        s.put sid (.grant { gm with issuedToken := gm.issuedToken ++ [tok], used := gm.used + 1 }) ∧
      a.expiresIn = (if tok.expiresAt = 0 then none else some (tok.expiresAt - now)) ∧ a.scope = req.scope := by
  unfold createAuthnResponse at h ⊢
  by_cases hnone : req.responseType = [c!"none"]
  · simp only [hnone, if_true, Except.ok.injEq, Prod.mk.injEq, Out.val.injEq] at h
    obtain ⟨rfl, -⟩ := h
    cases hv
  · simp only [hnone, if_false] at h ⊢
    cases hg : getGrant s sid with
    | error e => simp [hg] at h
    | ok g0 =>
      obtain ⟨hk, _, _⟩ := getGrant_key hn hg
      rw [hs] at hk
      cases hk
      simp only [hg] at h ⊢
      have c1 : ∀ code, (codePart env s now mc sid g req).2.2 = .ok code →
          (codePart env s now mc sid g req).1 = s.put sid (.grant (codePart env s now mc sid g req).2.1) ∧
          ∃ l n, (codePart env s now mc sid g req).2.1 = { g with issuedToken := g.issuedToken ++ l, used := n } ∧
          ∀ t ∈ l, tokenString env env.th.code now mc sid = .ok t.value := by
        intro code hcode
        unfold codePart at hcode ⊢
        by_cases hc : c!"code" ∈ req.responseType
        · simp only [hc, if_true] at hcode ⊢
          cases hm : (mintAndStore env env.th.code s now mc sid tAuthorizationCode g none).2.2 with
          | error e => rw [hm] at hcode; simp [Except.map] at hcode
          | ok t =>
            obtain ⟨k1, k2⟩ := minted_token ho hs hm
            refine ⟨k1, [t], g.used + 1, k2, ?_⟩
            intro t' ht'
            rw [List.mem_singleton.1 ht']
            exact (mintAndStore_ok hm).1
        · simp only [hc, if_false]
          refine ⟨(put_same hs).symm, [], g.used, by simp, by simp⟩
      cases h1 : (codePart env s now mc sid g req).2.2 with
      | error e => simp [h1] at h
      | ok code =>
        obtain ⟨d1, l, n, d2, d3⟩ := c1 code h1
        simp only [h1] at h ⊢
        generalize codePart env s now mc sid g req = r1 at h d1 d2 ⊢
        have ho1 : OpenAt r1.1 sid := by rw [d1]; exact ho.put _
        have hs1 : r1.1 sid = some (.grant r1.2.1) := by rw [d1]; exact put_self _ _ _
        by_cases hc : c!"token" ∈ req.responseType
        · cases hm : (mintAndStore env env.th.accessToken r1.1 now ma sid tAccessToken r1.2.1 code).2.2 with
          | error e => simp [tokenPart, hc, hm, Except.map] at h
          | ok tok =>
            obtain ⟨k1, k2⟩ := minted_token ho1 hs1 hm
            have e2 : (tokenPart env r1.1 now ma sid r1.2.1 code req).2.2 = .ok (some tok) := by
              simp [tokenPart, hc, hm, Except.map]
            have e1 : (tokenPart env r1.1 now ma sid r1.2.1 code req).1 =
                s.put sid (.grant { r1.2.1 with issuedToken := r1.2.1.issuedToken ++ [tok], used := r1.2.1.used + 1 }) := by
              simp only [tokenPart, hc, if_true]
              rw [k1, k2, d1, put_put]
            simp only [e2] at h ⊢
            generalize (tokenPart env r1.1 now ma sid r1.2.1 code req).1 = s2 at h e1 ⊢
            have e4 := idTokenPart_store s2 idt sid req
            cases h3 : (idTokenPart s2 idt sid req).2 with
            | raise e => simp [h3] at h
            | errMsg e => simp [h3] at h
            | val i =>
              simp only [h3] at h ⊢
              by_cases hall : req.responseType.all (fun t => [c!"code", c!"token", c!"id_token"].contains t) = true
              · rw [if_pos hall] at h
                rw [if_pos hall]
                simp only [Except.ok.injEq, Prod.mk.injEq, Out.val.injEq] at h
                obtain ⟨rfl, rfl⟩ := h
                refine ⟨r1.1, r1.2.1, code, tok, l, n, d2, d3, hm, by simpa using hv, by rw [e4, e1], rfl, rfl⟩
              · rw [if_neg hall] at h
                simp at h
        · simp only [tokenPart, hc, if_false] at h ⊢
          exfalso
          cases h3 : (idTokenPart r1.1 idt sid req).2 with
          | raise e => simp [h3] at h
          | errMsg e => simp [h3] at h
          | val i =>
            simp only [h3] at h
            split at h
            · simp only [Except.ok.injEq, Prod.mk.injEq, Out.val.injEq] at h
              obtain ⟨rfl, rfl⟩ := h
              simp at hv
            · simp at h

theorem authzCall_scope {gc : AuthzConfig} {ccfg : ClaimsCfg} {cdb : Cdb} {now : Int} {client : Str} {g g' : Grant} {req : AuthReq}
    (hi : gc.implicit = false) (h : (authzCall gc ccfg cdb now client g req).2 = .ok g') : g'.scope = req.scope := by
  unfold authzCall at h
  simp only [hi, Bool.false_eq_true, if_false] at h
  split at h
  · cases h
  · split at h
    · cases h
    · split at h
      · cases h
      · simp only [Except.ok.injEq] at h
        rw [← h]

/-- What the authorization endpoint stores when the response has an access token. -/
theorem authzPart2_token {env : Env} {cdb : Cdb} {s : Store} {now : Int} {mc ma : MintIn} {idt : Out Str} {req : AuthReq}
    {sid : Str} {a : RespArgs} {v : Str} (hO : Only (fun _ _ w => w ≠ v) s)
    (h : (authzPart2 env cdb s now mc ma idt req sid).2.2.content = .val a) (hv : a.accessToken = some v) :
    ∃ sm gm b tok, (∀ t ∈ gm.issuedToken, t.value ≠ v ∨ tokenString env env.th.code now mc sid = .ok t.value) ∧
      (mintAndStore env env.th.accessToken sm now ma sid tAccessToken gm b).2.2 = .ok tok ∧ tok.value = v ∧
      (authzPart2 env cdb s now mc ma idt req sid).2.1 =
        s.put sid (.grant { gm with issuedToken := gm.issuedToken ++ [tok], used := gm.used + 1 }) ∧ OpenAt s sid ∧
      a.expiresIn = (if tok.expiresAt = 0 then none else some (tok.expiresAt - now)) ∧ a.scope = req.scope ∧
      (env.gc.implicit = false → gm.scope = req.scope) := by
  have hn := hO.noEmpty
  unfold authzPart2 at h ⊢
  cases hg : getGrant s sid with
  | error e => simp [hg, errReply] at h
  | ok g =>
    obtain ⟨hk, hs, _⟩ := getGrant_key hn hg
    simp only [hg] at h ⊢
    cases hu : unpack3 sid with
    | error e => simp [hu, errReply] at h
    | ok ucg =>
      obtain ⟨u, c, gi⟩ := ucg
      obtain ⟨hu1, hu2⟩ := unpack3_key hu
      have hgi : gi ≠ [] := by
        obtain ⟨u', c', gi', e1, e2⟩ := hs
        rw [hu1] at e1
        cases e1
        exact e2
      simp only [hu] at h ⊢
      cases ha : (authzCall env.gc env.ccfg cdb now c g req).2 with
      | error e => simp [ha, errReply] at h
      | ok g' =>
        simp only [ha] at h ⊢
        have hopen := openAt_of_getGrant hn hg
        have hset : dbSet s [u, c, gi] (.grant g') = (s.put sid (.grant g'), .ok ()) := by
          have := (hopen.mgrSet (.grant g')).1
          unfold mgrSet at this
          rw [hu1] at this
          exact this
        have hown : (s.put sid (.grant g')) sid = some (.grant g') := put_self _ _ _
        have hgo : GOnly (fun _ _ w => w ≠ v) sid g' := gonly_authzCall ha (hO.toks _ _ hk)
        have hne : NoEmpty (s.put sid (.grant g')) := (hO.putGrant hgo).noEmpty
        rw [hset] at h ⊢
        simp only at h ⊢
        cases hr : (createAuthnResponse env (s.put sid (.grant g')) now mc ma idt req sid).2 with
        | error e => simp [hr, errReply] at h
        | ok cf =>
          obtain ⟨content, frag⟩ := cf
          simp only [hr] at h ⊢
          cases hx : getUri env.lib (authzCall env.gc env.ccfg cdb now c g req).1 .redirect req.clientId req.redirectUri with
          | error e => simp only [hx] at h; split at h <;> simp [errReply] at h
          | ok uri =>
            simp only [hx] at h ⊢
            cases hm : responseMode req.responseMode frag with
            | error e => simp [hm] at h
            | ok pl =>
              simp only [hm] at h ⊢
              subst h
              obtain ⟨sm, gm, b, tok, l, n, k1, k2, k3, k4, k5, k6, k7⟩ := createAuthnResponse_token (hopen.put _) hown hne hr hv
              refine ⟨sm, gm, b, tok, ?_, k3, k4, by rw [k5, put_put], hopen, k6, k7, fun hi => ?_⟩
              · intro t ht
                rw [k1] at ht
                rcases List.mem_append.1 ht with ht | ht
                · exact Or.inl (hgo t ht)
                · exact Or.inr (k2 t ht)
              · rw [k1]; show g'.scope = _; exact authzCall_scope hi ha

/-- **C155**: an access token from the authorization endpoint (implicit and hybrid flows) works until the time that was announced with
it.  Say an authorization request is answered with an access token that the storage did not have before.  Then it belongs to
the session of the browser's user at the requesting client, the response tells its scope, and the token works until its time. -/
theorem C155_implicit_token_works_until_its_time (cfg : ProvCfg) (hc ha : Handler) (I : IssuesTokens cfg.sys.env hc ha)
    (hist : List HttpOp) (now : Int) (gid0 : Str) (mc ma : MintIn) (idt : Out Str) (raw : Option Str) (req : UserReq)
    (op : HttpOp) (hop : op = .authorize now gid0 mc ma idt raw req)
    (hw0 : WebRun cfg (hist ++ [op])) (hn0 : GoodNames cfg (hist ++ [op]))
    (r : AuthzReply) (ra : RespArgs) (v : Str)
    (h : (authorizeEndpoint cfg (provRun cfg hist) now gid0 mc ma idt raw req).2.2.2 = .reply r) (hr : r.content = .val ra)
    (hv : ra.accessToken = some v)
    (hnew : ∀ sid kd, ¬ StoredAfter cfg hist hist.length sid kd v) (hne : v ≠ []) (htt : mc.ttype = [] ∧ ma.ttype = []) :
    ∃ (u gid : Str) (q : AuthReq) (g : Grant) (ev : AuthnEvent), Parsed cfg (provRun cfg hist) req.areq q ∧
      (ShowsLogin cfg raw u ∨ ∃ s, ShowsSession cfg raw u (some s)) ∧
      getGrant (provRun cfg (hist ++ [op])).sys.store (sessionKey [u, q.clientId, gid]) = .ok g ∧
      WebLogin cfg (hist ++ [op]) (hist.length + 1) (sessionKey [u, q.clientId, gid]) u q.clientId g.sub (some ev) ∧
      ra.scope = q.scope ∧ (cfg.sys.env.gc.implicit = false → g.scope = q.scope) ∧
    ∀ (mid : List HttpOp) (later : Int), During cfg (hist ++ [op]) mid (NoNewLogin cfg u q.clientId) →
      WebRun cfg (hist ++ [op] ++ mid) → GoodNames cfg (hist ++ [op] ++ mid) →
      WorksUntil cfg ha (hist ++ [op]) mid u q.clientId gid v g ev now ra.expiresIn later := by
  subst hop
  have eT : (hist ++ [HttpOp.authorize now gid0 mc ma idt raw req]).take (hist.length + 1) =
      hist ++ [HttpOp.authorize now gid0 mc ma idt raw req] := by
    rw [List.take_of_length_le]; simp
  have ho : (hist ++ [HttpOp.authorize now gid0 mc ma idt raw req])[hist.length]? = some (.authorize now gid0 mc ma idt raw req) := by
    rw [List.getElem?_append_right (Nat.le_refl _)]; simp
  -- the endpoint
  obtain ⟨q, a, p1, p2, p3, p4⟩ := authorizeEndpoint_reply h
  obtain ⟨s', sid, u0, s1, s2, s3⟩ := authzProcess_reply p4
  have hS := provRun_sound hn0.snoc_left
  have hgid : gid0 ≠ [] := (hn0.gids gid0 (by simp [httpGid])).1
  have hO : Only (fun _ _ w => w ≠ v) (provRun cfg hist).sys.store := by
    refine ⟨hS.noEmpty, fun k g hk t ht e => ?_⟩
    exact hnew k t.kind ⟨g, t, by rw [List.take_length]; exact hk, ht, rfl, e⟩
  have hO' : Only (fun _ _ w => w ≠ v) s' := by
    have := only_setupAuth (env := cfg.sys.env) hO (provRun cfg hist).cdb now gid0 q a hgid
    rw [s1] at this
    exact this
  have hcon : (authzPart2 cfg.sys.env (provRun cfg hist).cdb s' now mc ma idt q sid).2.2.content = .val ra := by rw [← s2]; exact hr
  obtain ⟨sm, gm, b, tok, k1, k2, k3, k4, k5, k6, k7, k8⟩ := authzPart2_token hO' hcon hv
  have hst : (provRun cfg (hist ++ [.authorize now gid0 mc ma idt raw req])).sys.store =
      s'.put sid (.grant { gm with issuedToken := gm.issuedToken ++ [tok], used := gm.used + 1 }) := by
    rw [provRun_snoc, provStep_sys, p3]
    simp only [List.foldl_cons, List.foldl_nil, sysStep]
    rw [s3, k4]
  obtain ⟨u, q', sid', sub, ev', g2, c1, c2, c3, c4, c5⟩ := C123_response_on_the_web cfg I.laws _ hw0 hist.length now gid0 mc ma idt raw req ho r ra
    (by rw [List.take_left]; exact h) hr
  rw [List.take_left] at c1
  have hq : q' = q := by
    have := p1
    unfold Parsed at c1
    rw [this] at c1
    simpa using c1.symm
  subst hq
  -- the string of the token
  obtain ⟨hd, v1, v2⟩ := minted_value k2
  rw [I.access] at v1
  cases v1
  rw [k3, htt.2] at v2
  have hsid : sid = sid' := by
    have := handler_resolves I (Or.inr rfl) (made := now) (now := now + ha.lifetime) (h := ha) (Or.inr (Int.le_refl _)) ma.rnd ma.nonce sid
    rw [← v2] at this
    exact (c5 v (Or.inr hv)).2 _ _ this
  subst hsid
  rw [eT] at c4
  obtain ⟨u2, c2', gid, e1, hu, hcl, hg, W⟩ := grant_login hw0 hn0 c4
  obtain ⟨k, nowk, gidk, mck, mak, idtk, rawk, reqk, qk, fk, l1, l2, l3, l4, l5, l6, l7, l8, l9⟩ := c3.login
  have hu' : GoodId u := by
    refine hn0.users now gid0 mc ma idt raw req (by simp) u ?_
    rcases c2 with h1 | ⟨x, h1⟩
    · exact Or.inl h1
    · exact Or.inr ⟨_, h1⟩
  have hcl' : GoodId q'.clientId := by
    have hpre : GoodNames cfg ((hist ++ [HttpOp.authorize now gid0 mc ma idt raw req]).take k) := by
      refine Spec.GoodNames.prefix (mid := (hist ++ [HttpOp.authorize now gid0 mc ma idt raw req]).drop k) ?_
      rw [List.take_append_drop]; exact hn0
    exact hpre.clients _ (provRun_named cfg _ _ l5)
  have hg' : GoodId gidk := hn0.gids _ (List.mem_flatMap.2 ⟨_, List.mem_of_getElem? l2, by simp [httpGid]⟩)
  have hkey := (key_inj (goodPath_three hu hcl hg) (goodPath_three hu' hcl' hg')).1 (e1.symm.trans l6)
  simp only [List.cons.injEq, and_true] at hkey
  obtain ⟨rfl, rfl, rfl⟩ := hkey
  subst e1
  -- the grant that is stored
  have hgrant : g2 = { gm with issuedToken := gm.issuedToken ++ [tok], used := gm.used + 1 } := by
    rw [hst] at c4
    rw [k5.getGrant] at c4
    exact (Except.ok.inj c4).symm
  obtain ⟨k', now', gid', mc', ma', idt', raw', rq', m1, m2, m3, m4⟩ := W.authn
  rw [m4] at W
  have hlen : (hist ++ [HttpOp.authorize now gid0 mc ma idt raw req]).length = hist.length + 1 := by simp
  rw [hlen] at W
  refine ⟨u2, gid, q', g2, _, p1, c2, c4, W, k7, fun hi => by rw [hgrant]; exact k8 hi, ?_⟩
  intro mid later hmid hw hn
  obtain ⟨x1, x2, x3⟩ := mintAndStore_expiry k2
  obtain ⟨y1, y2, y3, y4, y5, y6, y7, y8, y9, y10, -⟩ := mintAndStore_ok k2
  have hkind : tok.kind = .accessToken := by
    obtain ⟨hf, -, -⟩ := expand_ok hw0
    have hi := sysRun_inv cfg.sys _ hf hw0.blank (expand cfg (hist ++ [HttpOp.authorize now gid0 mc ma idt raw req])).length
    rw [List.take_length, ← provRun_sys] at hi
    have hmap := ((hi.grants _ _ (getGrant_key hi.noEmpty c4).1).2).tokenMap
    rw [hgrant] at hmap
    simp only at hmap
    rw [hmap] at y10
    simp [defaultTokenMap, Dict.get?, tAccessToken, tAuthorizationCode] at y10
    exact y10.symm
  have hrules := minted_rules k2
  rw [hkind] at hrules
  have hexp : tok.expiresAt = (ra.expiresIn.map (now + ·)).getD 0 := by
    rw [k6]
    by_cases hz : tok.expiresAt = 0
    · simp [hz]
    · simp only [hz, if_false, Option.map_some, Option.getD_some]; omega
  refine works_until I hu hcl hg c4 (Lasts.refl _) (tok := tok) ?_ hkind y6 x1 x2 hexp (by rw [hgrant]; exact hrules) y7 v2 hne m4 mid later hmid hw hn
  rw [hgrant]
  unfold Grant.getToken
  have hnone : findValue v gm.issuedToken = none := by
    unfold findValue
    rw [List.find?_eq_none]
    intro t ht hx
    have hx : t.value = v := by simpa using hx
    rcases k1 t ht with h1 | h1
    · exact h1 hx
    · rw [hx] at h1
      unfold tokenString at h1
      split at h1
      · cases h1
      · rw [I.code] at h1
        simp only [Except.ok.injEq] at h1
        rw [htt.1, v2] at h1
        exact code_ne_access I _ _ _ _ _ _ _ _ h1
  show findValue v (gm.issuedToken ++ [tok]) = _
  rw [findValue_append_none hnone, ← k3]
  simp [findValue]

end Verif
