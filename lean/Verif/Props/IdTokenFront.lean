import Verif.Props.IdTokenWeb
import Verif.Props.ProviderUri
/-! C162 at the authorization endpoint. -/
set_option linter.unusedSimpArgs false
namespace Verif
open Spec

/-- The ID token of an authorization response is the one that was made. -/
theorem authzPart2_idt {env : Env} {cdb : Cdb} {s : Store} {now : Int} {mc ma : MintIn} {idt : Out Str} {req : AuthReq}
    {sid : Str} {a : RespArgs} {w : Str} (h : (authzPart2 env cdb s now mc ma idt req sid).2.2.content = .val a) (hw : a.idToken = some w) :
    idt = .val w := by
  unfold authzPart2 at h
  cases hg : getGrant s sid with
  | error e => simp [hg, errReply] at h
  | ok g =>
    simp only [hg] at h
    cases hu : unpack3 sid with
    | error e => simp [hu, errReply] at h
    | ok ucg =>
      obtain ⟨u, c, gi⟩ := ucg
      simp only [hu] at h
      cases ha : (authzCall env.gc env.ccfg cdb now c g req).2 with
      | error e => simp [ha, errReply] at h
      | ok g' =>
        simp only [ha] at h
        cases hd : (dbSet s [u, c, gi] (.grant g')).2 with
        | error e => simp [hd, errReply] at h
        | ok _ =>
          simp only [hd] at h
          cases hx : (createAuthnResponse env (dbSet s [u, c, gi] (.grant g')).1 now mc ma idt req sid).2 with
          | error e => simp [hx, errReply] at h
          | ok cf =>
            obtain ⟨content, frag⟩ := cf
            simp only [hx] at h
            have hcon : content = .val a := by
              cases hgu : getUri env.lib (authzCall env.gc env.ccfg cdb now c g req).1 .redirect req.clientId req.redirectUri with
              | error e =>
                rw [hgu] at h
                simp only at h
                split at h <;> simp [errReply] at h
              | ok uri =>
                rw [hgu] at h
                simp only at h
                cases hm : responseMode req.responseMode frag with
                | error e => rw [hm] at h; cases h
                | ok pl => rw [hm] at h; exact h
            subst hcon
            unfold createAuthnResponse at hx
            split at hx
            · simp only [Except.ok.injEq, Prod.mk.injEq, Out.val.injEq] at hx
              rw [← hx.1] at hw
              cases hw
            · split at hx
              · cases hx
              · simp only at hx
                split at hx
                · cases hx
                · split at hx
                  · cases hx
                  · split at hx
                    · cases hx
                    · cases hx
                    · rename_i x hx3
                      split at hx
                      · simp only [Except.ok.injEq, Prod.mk.injEq, Out.val.injEq] at hx
                        rw [← hx.1] at hw
                        simp only at hw
                        subst hw
                        unfold idTokenPart at hx3
                        split at hx3
                        · split at hx3
                          · cases hx3
                          · cases hx3
                          · split at hx3
                            · cases hx3
                            · split at hx3
                              · cases hx3
                              · simp only at hx3
                                split at hx3
                                · cases hx3
                                · cases hx3; rfl
                        · cases hx3
                      · cases hx

/-- The session that a request is answered for has this request on record. -/
theorem setupAuth_request {env : Env} {cdb : Cdb} {s s' : Store} {now : Int} {gid : Str} {req : AuthReq} {a : AuthnIn} {sid u : Str}
    (hn : NoEmpty s) (hgid : gid ≠ []) (hfresh : ∀ u c g, s (sessionKey [u, c, gid]) ≠ some (.grant g))
    (h : setupAuth env cdb s now gid req a = (s', .val (.session sid u))) {g : Grant} (hgg : getGrant s' sid = .ok g) :
    g.authReq = some req := by
  have h1 := setupAuth_st (env := env) (req := req) hn hgid cdb now a
  rw [h] at h1
  obtain ⟨hg, _, u1, c1, gi, hu1⟩ := getGrant_key h1.1.noEmpty hgg
  rcases h1.2 sid u rfl with ⟨u', c', hk⟩ | ⟨g0, h2, h3, h4⟩
  · obtain ⟨g0, h5, h6⟩ := h1.1.moves _ _ hg
    rcases h5 with h5 | h5
    · rw [hk] at h5
      exact absurd h5 (hfresh _ _ _)
    · rw [h6.authReq]
      exact h5.2.2.2.2.1
  · have h4' : s' = s := h4
    rw [h4'] at hg
    dsimp only at hg
    have h5 := (dbGet_key hn h2).1
    rw [(unpack3_key hu1).1] at h5
    have h6 : s (sessionKey [u1, c1, gi]) = some (.grant g0) := h5
    rw [(unpack3_key hu1).2, hg] at h6
    cases h6
    exact h3

/-- What stands behind an authorization response: the session that it is for, as the request leaves it. -/
theorem front_session {cfg : SysCfg} (hb : BlankFree cfg.env) {ops : List SysOp} (hf : FreshRun ops) (hn : ∀ op ∈ ops, LoginNames op)
    (hc : ∀ op ∈ ops, HonestCookie op) {i : Nat} {cdb : Cdb} {now : Int} {gid : Str} {mc ma : MintIn} {idt : Out Str} {a : AuthnIn}
    {req : AuthReq} (ho : ops[i]? = some (.authorize cdb now gid mc ma idt a req)) {r : AuthzReply} {ra : RespArgs}
    (h : (authzProcess cfg.env cdb (sysRun cfg (ops.take i)).store now gid mc ma idt a req).2.2 = .reply r) (hr : r.content = .val ra) :
    ∃ sid u gid' g, (setupAuth cfg.env cdb (sysRun cfg (ops.take i)).store now gid req a).2 = .val (.session sid u) ∧
      (a.ident = .plain u ∨ ∃ x, a.ident = .decoded (some u) (some x)) ∧ unpackSessionKey sid = [u, req.clientId, gid'] ∧
      LoggedIn cfg ops (i + 1) sid u req.clientId g.sub g.authnEvent ∧ (sysRun cfg (ops.take (i + 1))).store sid = some (.grant g) ∧
      g.authReq = some req ∧ ∀ w, ra.idToken = some w → idt = .val w := by
  obtain ⟨s', sid, u, h1, h2, h3⟩ := authzProcess_reply h
  have hi := sysRun_inv cfg ops hf hb i
  obtain ⟨f1, f2, f3, f4⟩ := freshAt hf ho
  have hgid := f1 gid (by simp [newGid])
  have hne : NoEmpty s' := by
    have := (setupAuth_st (env := cfg.env) (req := req) hi.noEmpty hgid.1 cdb now a).1.noEmpty
    rw [h1] at this
    exact this
  have hcon : (authzPart2 cfg.env cdb s' now mc ma idt req sid).2.2.content = .val ra := by rw [← h2]; exact hr
  obtain ⟨g, k1, k2, k3⟩ := authzPart2_stored hne hcon
  have hst : (sysRun cfg (ops.take (i + 1))).store = s'.put sid (.grant g) := by
    rw [f4, sysRun_snoc]
    simp only [sysStep]
    rw [h3, k1]
  have hsid : (sysRun cfg (ops.take (i + 1))).store sid = some (.grant g) := by rw [hst]; exact put_self _ _ _
  obtain ⟨u', c', gid', r1, r2⟩ := session_from_login hf hb hn hc (i + 1) hsid
  have hm := List.mem_of_getElem? ho
  have hnm := hn _ hm
  have hwho : u' = u ∧ c' = req.clientId := by
    rcases setupAuth_sid h1 with ⟨e1, e2⟩ | ⟨e1, u2, g2, e2⟩
    · have hu : UserName u := by
        rcases e2 with e2 | ⟨x, e2⟩
        · exact hnm.1 _ (Or.inl e2)
        · exact hnm.1 _ (Or.inr ⟨_, e2⟩)
      rw [e1, unpack_names hu hnm.2 hgid.2] at r1
      cases r1
      exact ⟨rfl, rfl⟩
    · have h5 := hc _ hm u sid e1
      rw [ownerOf, r1] at h5
      rw [unpack3_list e2] at r1
      cases r1
      exact ⟨h5, rfl⟩
  obtain ⟨rfl, rfl⟩ := hwho
  have hreq : ∀ g0, getGrant s' sid = .ok g0 → g0.authReq = some req := fun g0 => setupAuth_request hi.noEmpty hgid.1 (by
    intro u c g0 hg0
    obtain ⟨⟨u', c', gid', e1, e2⟩, _⟩ := hi.grants _ _ hg0
    have := key_gid hgid.2 (f1 gid' (by simp [e1])).2 e2
    subst this
    exact f2 gid (by simp [newGid]) e1) h1
  have hst2 := authzPart2_terms (C := fun _ _ => False) (St.start (env := cfg.env.lax) hne) (sid := sid) cdb now mc ma idt req hreq (by
    intro u1 c1 gi hu1
    have := unpack3_list hu1
    rw [r1] at this
    simp only [List.cons.injEq] at this
    exact this.2.1.symm)
  rw [k1] at hst2
  obtain ⟨g0, m1, m2⟩ := hst2.moves sid g (put_self _ _ _)
  have hauth : g.authReq = some req := by
    rw [m2.authReq]
    rcases m1 with m1 | m1 | m1
    · cases hgg : getGrant s' sid with
      | error e =>
        have := hcon
        unfold authzPart2 at this
        rw [hgg] at this
        simp [errReply] at this
      | ok g2 =>
        have e := (getGrant_key hne hgg).1
        rw [m1] at e
        cases e
        exact hreq _ hgg
    · exact m1.elim
    · exact m1.1
  refine ⟨sid, u', gid', g, by rw [h1], ?_, r1, r2, hsid, hauth, fun w hw => authzPart2_idt hcon hw⟩
  rcases setupAuth_sid h1 with ⟨_, e2⟩ | ⟨e1, _⟩
  · exact e2
  · exact Or.inr ⟨_, e1⟩

/-- C162: the ID token of an authorization response is about this request and the user of this browser: audience is the client
of the request, `nonce` the one of the request, `sub` the subject identifier of the user whose browser brought it, `auth_time`
and `acr` those of a login of that user; and it names (by hash) the code and the access token that are sent along. -/
theorem C162_front_channel (cfg : ProvCfg) (icfg : IdTokenCfg) (sign : ToSign → Out Str) (ops : List HttpOp) (hw : WebRun cfg ops)
    (hm : FrontIdTokensMade cfg icfg sign ops) (i : Nat) (now : Int) (gid : Str) (mc ma : MintIn) (idt : Out Str) (raw : Option Str) (req : UserReq)
    (ho : ops[i]? = some (.authorize now gid mc ma idt raw req)) (r : AuthzReply) (ra : RespArgs) (w : Str)
    (h : (authorizeEndpoint cfg (provRun cfg (ops.take i)) now gid mc ma idt raw req).2.2.2 = .reply r) (hr : r.content = .val ra)
    (hi : ra.idToken = some w) :
    ∃ u q sid sub ev t, Parsed cfg (provRun cfg (ops.take i)) req.areq q ∧
      (ShowsLogin cfg raw u ∨ ∃ s, ShowsSession cfg raw u (some s)) ∧ WebLogin cfg ops (i + 1) sid u q.clientId sub (some ev) ∧
      sign t = .val w ∧ t.aud = q.clientId ∧ t.payload.get? c!"sub" = some (.str sub) ∧ t.payload.get? c!"nonce" = q.nonce.map Val.str ∧
      t.payload.get? c!"auth_time" = (if ev.authnTime = 0 then none else some (.int ev.authnTime)) ∧
      t.payload.get? c!"acr" = (if ev.authnInfo = [] then none else some (.str ev.authnInfo)) ∧
      (∀ c, ra.code = some c → c ≠ [] →
        t.payload.get? c!"c_hash" = some (.str (icfg.leftHash c (c!"HS" ++ pyDrop (-3) (t.algs.signAlg.getD []))))) ∧
      (∀ x, ra.accessToken = some x → x ≠ [] →
        t.payload.get? c!"at_hash" = some (.str (icfg.leftHash x (c!"HS" ++ pyDrop (-3) (t.algs.signAlg.getD []))))) := by
  obtain ⟨q, a, h1, h2, h3, h4⟩ := authorizeEndpoint_reply h
  obtain ⟨hf, hn, hc⟩ := expand_ok (hw.take (i + 1))
  have e : expand cfg (ops.take (i + 1)) = expand cfg (ops.take i) ++
      [.authorize (provRun cfg (ops.take i)).cdb now gid mc ma idt a q] := by
    rw [take_snoc ho, expand_snoc, h3]
  have hat : (expand cfg (ops.take (i + 1)))[(expand cfg (ops.take i)).length]? =
      some (.authorize (provRun cfg (ops.take i)).cdb now gid mc ma idt a q) := by
    rw [e, List.getElem?_append_right (Nat.le_refl _)]; simp
  obtain ⟨sid, u, gid', g, k1, k2, k3, k4, k5, k6, k7⟩ := front_session hw.blank hf hn hc hat (r := r) (ra := ra)
    (by rw [e, List.take_left, ← provRun_sys]; exact h4) hr
  rw [e, List.take_left, ← provRun_sys] at k1
  have hlen : (expand cfg (ops.take i)).length + 1 = (expand cfg (ops.take (i + 1))).length := by rw [e]; simp
  rw [hlen, List.take_length, ← provRun_sys] at k5
  have hs := hm i now gid mc ma idt raw req r ra q sid u ho h hr ⟨h1, a, h2, k1⟩
  rw [k7 w hi] at hs
  unfold idTokenSigned at hs
  cases hmk : idTokenMake icfg (provRun cfg (ops.take (i + 1))).cdb (provRun cfg (ops.take (i + 1))).sys.store sid ra.code ra.accessToken with
  | error e => rw [hmk] at hs; cases hs
  | ok t =>
    rw [hmk] at hs
    obtain ⟨g', c1, c2, c3, c4, c5, c6, c7, _⟩ := C38_security_claims _ _ _ _ _ _ _ hmk
    obtain ⟨user, client, gid0, cl, g'', m1, _, _, _, _, _, m7, _⟩ := idTokenMake_ok hmk
    have hg := (getGrant_key (webNoEmpty hw (i + 1)) c1).1
    rw [k5] at hg
    cases hg
    have ecl : client = q.clientId := by
      have := unpack3_list m1
      rw [k3] at this
      simp only [List.cons.injEq] at this
      exact this.2.1.symm
    have hwl := (webLogin_of k4).of_take
    obtain ⟨_, _, _, _, _, _, _, _, _, _, _, hev⟩ := hwl.authn
    rw [hev] at hwl
    obtain ⟨-, -, hl, hss⟩ := authnIn_shows h2
    refine ⟨u, q, sid, g.sub, _, t, h1, ?_, hwl, hs.symm, by rw [m7, ecl], c2, ?_, ?_, ?_, c6, c7⟩
    · rcases k2 with k2 | ⟨x, k2⟩
      · exact Or.inl (hl u k2)
      · exact Or.inr ⟨x, hss u _ k2⟩
    · rw [c3, k6]; rfl
    · rw [c5, hev]; rfl
    · rw [c4, hev]; rfl

end Verif
