import Verif.Spec.IdTokenWeb
import Verif.Props.GivenClaims
import Verif.Props.IdToken
/-! C162: the ID tokens that clients get over HTTP are about the login and the request. -/
set_option linter.unusedSimpArgs false
namespace Verif
open Spec

/-- The ID token of a code redemption is the one that was made. -/
theorem exchangeCode_idt {env : Env} {s : Store} {i : TokIn} {sid : Str} {g : Grant} {b : Option Token} {ar : AuthReq}
    {resp : TokResp} {v : Str} (h : (exchangeCode env s i sid g b ar).2 = .val resp) (hv : resp.idToken = some v) : i.idt = .val v := by
  unfold exchangeCode at h
  simp only at h
  split at h
  · cases h
  · split at h
    · cases h
    · unfold finishCode at h
      cases b with
      | none => cases h
      | some b =>
        simp only at h
        split at h
        · cases h
        · split at h
          · cases h
          · cases h
          · rename_i x hx
            cases h
            simp only at hv
            subst hv
            unfold idTokenFor at hx
            split at hx
            · split at hx <;> cases hx
              assumption
            · cases hx

theorem exchangeRefresh_idt {m : Mode} {env : Env} {s : Store} {i : TokIn} {sid : Str} {g : Grant} {b : Option Token}
    {resp : TokResp} {v : Str} (h : (exchangeRefresh m env s i sid g b).2 = .val resp) (hv : resp.idToken = some v) : i.idt = .val v := by
  unfold exchangeRefresh at h
  simp only at h
  split at h
  · cases h
  · cases b with
    | none => cases h
    | some b =>
      simp only at h
      split at h
      · cases h
      · split at h
        · cases h
        · unfold finishRefresh at h
          split at h
          · cases h
          · cases h
          · rename_i x hx
            cases h
            simp only at hv
            subst hv
            unfold idTokenFor at hx
            split at hx
            · split at hx <;> cases hx
              assumption
            · cases hx

/-- What is signed for a stored session that has its request on record. -/
theorem made_about {cfg : ProvCfg} {icfg : IdTokenCfg} {ops : List HttpOp} (hw : WebRun cfg ops) {n : Nat} {cdb : Cdb} {sid : Str}
    {code tok : Option Str} {t : ToSign} (h : idTokenMake icfg cdb (provRun cfg (ops.take n)).sys.store sid code tok = .ok t)
    {g : Grant} (hst : (provRun cfg (ops.take n)).sys.store sid = some (.grant g)) (har : g.authReq.isSome = true) :
    AboutLogin cfg ops n sid t := by
  obtain ⟨g', h1, h2, h3, h4, h5, _⟩ := C38_security_claims _ _ _ _ _ _ _ h
  obtain ⟨user, client, gid0, c, g'', m1, _, _, _, _, _, m7, _⟩ := idTokenMake_ok h
  have hg := (getGrant_key (webNoEmpty hw n) h1).1
  rw [hst] at hg
  cases hg
  obtain ⟨k, now, gid, mc, ma, idt, raw, areq, q, u, a1, a2, a3, ac, a4, a5, a6⟩ := session_request hw hst
  obtain ⟨u', c', gid', b1, b2, _⟩ := C119_sessions_only_from_logins cfg ops hw n sid g hst
  have hu0 : UserName u := hw.users _ _ _ _ _ _ _ (List.mem_of_getElem? a2) u (a5.imp_right fun ⟨s, hs⟩ => ⟨_, hs⟩)
  have hc0 : UserName q.clientId := (hw.take k).clients _ (provRun_named cfg (ops.take k) _ ac)
  have hk := unpack_names hu0 hc0 (hw.good gid (List.mem_flatMap.2 ⟨_, List.mem_of_getElem? a2, by simp [httpGid]⟩)).2
  rw [← a4] at hk
  have e1 : u' = u ∧ c' = q.clientId := by
    rw [hk] at b1
    simp only [List.cons.injEq, and_true] at b1
    exact ⟨b1.1.symm, b1.2.1.symm⟩
  obtain ⟨rfl, rfl⟩ := e1
  have e2 : client = q.clientId := by
    unfold unpack3 at m1
    rw [hk] at m1
    simp only [Except.ok.injEq, Prod.mk.injEq] at m1
    exact m1.2.1.symm
  obtain ⟨k', now', gid2, mc', ma', idt', raw', req', _, _, _, hev⟩ := b2.authn
  obtain ⟨ar, har'⟩ := Option.isSome_iff_exists.1 har
  have := a6 ar har'
  subst this
  rw [hev] at b2
  refine ⟨u', g.sub, _, k, now, gid, mc, ma, idt, raw, areq, ar, a1, a2, a3, a4, a5, b2, by rw [m7, e2], h2, ?_, ?_, ?_⟩
  · rw [h3, har']; rfl
  · rw [h5, hev]; rfl
  · rw [h4, hev]; rfl

/-- The claims of the payload that the provider does not set itself are the user's. -/
theorem payload_user {lh : Str → Str → Str} {db : Str → Dict Val} {user : Str} {g : Grant} {alg : Str}
    {p : Dict Val} (h : idTokenPayload lh db user g alg none none [] = .ok p) :
    ∃ ui, getUserClaims db user ((g.claims.get? c!"id_token").getD []) = .ok ui ∧
      ((((g.claims.get? c!"id_token").getD []).map Prod.fst).Nodup → ∀ n, n ∉ idTokenReserved → p.get? n = ui.get? n) := by
  unfold idTokenPayload at h
  simp only at h
  cases h1 : getUserClaims db user ((g.claims.get? c!"id_token").getD []) with
  | error e => simp [h1] at h
  | ok ui =>
    simp only [h1] at h
    cases h2 : acrCheck ((c!"sub", .str g.sub) :: eventClaims g.authnEvent) ((g.claims.get? c!"id_token").getD []) with
    | error e => simp [h2] at h
    | ok _ =>
      simp only [h2, Except.ok.injEq] at h
      subst h
      refine ⟨ui, rfl, fun hnd n hn => ?_⟩
      have hnn : n ≠ c!"nonce" := by rintro rfl; exact hn (by decide)
      rw [addNonce_get, if_neg hnn, addHash_get]
      simp only
      rw [addHash_get]
      simp only
      have e1 : ∀ d : Dict Val, Dict.update d [] = d := fun _ => rfl
      rw [e1]
      have hk := (getUserClaims_keys h1).nodup hnd
      have hkf : ((ui.filter fun p => !(idTokenReserved.contains p.1)).map Prod.fst).Nodup :=
        nodup_filter_keys hk _
      rw [Dict.get?_update _ _ _ hkf]
      have hc : (!(idTokenReserved.contains n)) = true := by
        have : ¬ (idTokenReserved.contains n = true) := fun e => hn (List.contains_iff_mem.1 e)
        simpa using this
      rw [get?_filter_key ui (fun k => !(idTokenReserved.contains k)) n, if_pos hc]
      have e2 : Dict.get? ((c!"sub", Val.str g.sub) :: eventClaims g.authnEvent) n = none := by
        have n1 : n ≠ c!"sub" := by rintro rfl; exact hn (by decide)
        have n2 : n ≠ c!"auth_time" := by rintro rfl; exact hn (by decide)
        have n3 : n ≠ c!"acr" := by rintro rfl; exact hn (by decide)
        rw [Dict.get?_cons, if_neg (Ne.symm n1)]
        cases g.authnEvent with
        | none => rfl
        | some e =>
          simp only [eventClaims]
          by_cases a1 : e.authnTime = 0 <;> by_cases a2 : e.authnInfo = [] <;>
            simp [Dict.get?_cons, a1, a2, Ne.symm n2, Ne.symm n3, Dict.get?]
      rw [e2]
      cases Dict.get? ui n <;> rfl

/-- The session behind an ID token of a token response, as the request leaves it, and what was signed for it. -/
theorem id_token_whole {cfg : ProvCfg} {icfg : IdTokenCfg} {sign : ToSign → Out Str} {ops : List HttpOp} (hw : WebRun cfg ops)
    (hm : IdTokensMade cfg icfg sign ops) {i : Nat} {req : TokReq} {resp : TokResp} {w : Str}
    (h : tokensAt cfg ops i = some (req, resp)) (hi : resp.idToken = some w) :
    ∃ inp v sid t g, ops[i]? = some (.tokenProcess inp req) ∧ Redeems req v ∧ cfg.sys.env.th.sid cfg.sys.env.cr inp.now v = .ok sid ∧
      sign t = .val w ∧ idTokenMake icfg (provRun cfg (ops.take i)).cdb (provRun cfg (ops.take (i + 1))).sys.store sid none none = .ok t ∧
      (provRun cfg (ops.take (i + 1))).sys.store sid = some (.grant g) ∧ ScopeOk cfg.sys.env g := by
  obtain ⟨hf, _, _⟩ := expand_ok hw
  obtain ⟨a1, a2, a3⟩ := tokensAt_whole h
  obtain ⟨inp, o1, o2, _⟩ := tokensAt_response h
  have hinp : ∀ inp', (expand cfg ops)[(expand cfg (ops.take i)).length]? = some (SysOp.tokProcess inp' req) → inp' = inp := by
    intro inp' h'
    obtain ⟨rest, hr⟩ := expand_take cfg ops (i + 1)
    rw [hr, o2, List.append_assoc, List.getElem?_append_right (Nat.le_refl _)] at h'
    simp at h'
    exact h'.symm
  have hinv := sysRun_inv cfg.sys (expand cfg ops) hf hw.blank (expand cfg (ops.take i)).length
  have main : ∃ v sid g g', Redeems req v ∧ cfg.sys.env.th.sid cfg.sys.env.cr inp.now v = .ok sid ∧
      (provRun cfg (ops.take (i + 1))).sys.store sid = some (.grant g') ∧ ScopeOk cfg.sys.env g ∧
      (provRun cfg (ops.take i)).sys.store sid = some (.grant g) ∧ inp.idt = .val w := by
    obtain ⟨inp0, p1, p2, p3⟩ := responseAt_some a1
    cases hinp inp0 p1
    rcases response_grantType a1 with hgt | hgt
    · obtain ⟨inp', c, sid, g, t, ar, g', c1, c2, c3, c4, c5, c6, c7, c8, c9, c10, c11, c12, c13, c14, _⟩ :=
        code_response hw.blank hf a1 hgt
      cases hinp inp' c1
      obtain ⟨hx, c', sid', g2, ar', d1, d2, d3, d4, d5, d6⟩ := tokProcess_code hinv.noEmpty hgt p3
      refine ⟨c, sid, g, g', Or.inl ⟨hgt, c2⟩, byToken_sid c3, ?_, c5.scope (getToken_nonempty c7), ?_, exchangeCode_idt d5 hi⟩
      · rw [provRun_sys, ← a3]; exact c14
      · rw [provRun_sys, ← a2]; exact c4
    · obtain ⟨inp', v, sid, g, t, g', c1, c2, c3, c4, c5, c6, c7, c8, c9, c10, c11, c12, _⟩ := refresh_response hw.blank hf a1 hgt
      cases hinp inp' c1
      obtain ⟨hx, v', sid', g2, d1, d2, d3, d4⟩ := tokProcess_refresh hinv.noEmpty hgt p3
      refine ⟨v, sid, g, g', Or.inr ⟨hgt, c2⟩, byToken_sid c3, ?_, c5.scope (getToken_nonempty c6), ?_, exchangeRefresh_idt d3 hi⟩
      · rw [provRun_sys, ← a3]; exact c12
      · rw [provRun_sys, ← a2]; exact c4
  obtain ⟨v, sid, g, g', m1, m2, m3, m4, m5, m6⟩ := main
  have hs := hm i inp req v sid o1 m1 m2
  rw [m6] at hs
  unfold idTokenSigned at hs
  cases hmk : idTokenMake icfg (provRun cfg (ops.take i)).cdb (provRun cfg (ops.take (i + 1))).sys.store sid none none with
  | error e => rw [hmk] at hs; cases hs
  | ok t =>
    rw [hmk] at hs
    refine ⟨inp, v, sid, t, g', o1, m1, m2, hs.symm, hmk, m3, ?_⟩
    obtain ⟨hfi, _, _⟩ := expand_ok (hw.take (i + 1))
    have hevo : Evo cfg.sys.env sid g g' := by
      rw [provRun_sys] at m3 m5
      refine evo_later hfi hw.blank (i := (expand cfg (ops.take i)).length) (j := (expand cfg (ops.take (i + 1))).length) ?_ ?_ ?_
      · rw [o2]; simp
      · rw [o2, List.take_left]; exact m5
      · rw [List.take_length]; exact m3
    exact hevo.scopeOk m4

/-- C162: an ID token in a token response was signed for the session of the redeemed code or refresh token, and is about the
login and the authorization request that made that session. -/
theorem C162_id_token_about_login (cfg : ProvCfg) (icfg : IdTokenCfg) (sign : ToSign → Out Str) (ops : List HttpOp) (hw : WebRun cfg ops)
    (hm : IdTokensMade cfg icfg sign ops) (i : Nat) (req : TokReq) (resp : TokResp) (w : Str)
    (h : tokensAt cfg ops i = some (req, resp)) (hi : resp.idToken = some w) :
    ∃ inp v sid t, ops[i]? = some (.tokenProcess inp req) ∧ Redeems req v ∧ cfg.sys.env.th.sid cfg.sys.env.cr inp.now v = .ok sid ∧
      sign t = .val w ∧ AboutLogin cfg ops i sid t := by
  obtain ⟨inp, v, sid, t, g, o1, m1, m2, m3, m4, m5, ar, m6, _⟩ := id_token_whole hw hm h hi
  obtain ⟨⟨u, sub, ev, k, now, gid, mc, ma, idt, raw, areq, q, x1, x2, x3, x4, x5, x6, x7⟩⟩ :=
    made_about hw m4 m5 (by rw [m6]; rfl)
  have lt : ∀ (j : Nat) (o : HttpOp), j < i + 1 → ops[j]? = some o → (∀ a b, o ≠ .tokenProcess a b) → j < i := by
    intro j o hj ho hne
    rcases Nat.lt_succ_iff_lt_or_eq.1 hj with h' | rfl
    · exact h'
    · rw [o1] at ho; exact absurd (Option.some.inj ho).symm (hne _ _)
  refine ⟨inp, v, sid, t, o1, m1, m2, m3, ⟨u, sub, ev, k, now, gid, mc, ma, idt, raw, areq, q, lt _ _ x1 x2 (by simp), x2, x3, x4, x5, ?_, x7⟩⟩
  obtain ⟨⟨k1, n1, g1, mc1, ma1, i1, r1, q1, p1, f1, y1, y2, y3⟩, ⟨k2, n2, g2, mc2, ma2, i2, r2, q2, z1, z2, z3⟩⟩ := x6
  exact ⟨⟨k1, n1, g1, mc1, ma1, i1, r1, q1, p1, f1, lt _ _ y1 y2 (by simp), y2, y3⟩,
    ⟨k2, n2, g2, mc2, ma2, i2, r2, q2, lt _ _ z1 z2 (by simp), z2, z3⟩⟩

/-- C162: the other claims of that ID token were settled by an authorization request of the client: they are those that this
request's claims parameter and scope, the provider's configuration and the client's record (as it was then) give it
(`GrantedAs`) for the ID token, as far as the user has a value that the request allows; and these claims are all there. -/
theorem C162_id_token_claims (cfg : ProvCfg) (himp : cfg.sys.env.gc.implicit = false) (icfg : IdTokenCfg) (sign : ToSign → Out Str)
    (ops : List HttpOp) (hw : WebRun cfg ops) (hm : IdTokensMade cfg icfg sign ops) (i : Nat) (req : TokReq) (resp : TokResp) (w : Str)
    (h : tokensAt cfg ops i = some (req, resp)) (hi : resp.idToken = some w) :
    ∃ inp v sid t u gid' k now gid mc ma idt raw areq q granted, ops[i]? = some (.tokenProcess inp req) ∧ Redeems req v ∧
      cfg.sys.env.th.sid cfg.sys.env.cr inp.now v = .ok sid ∧ sign t = .val w ∧ sid = sessionKey [u, t.aud, gid'] ∧
      k < i ∧ ops[k]? = some (.authorize now gid mc ma idt raw areq) ∧ Parsed cfg (provRun cfg (ops.take k)) areq.areq q ∧
      q.clientId = t.aud ∧
      (DistinctNames q.claims ((cfg.sys.env.ccfg.modules.get? c!"id_token").getD {}) → ∀ n,
        GrantedAs cfg.sys.env.ccfg ((cfg.sys.env.ccfg.modules.get? c!"id_token").getD {}) (provRun cfg (ops.take k)).cdb t.aud q.claims q.scope
          c!"id_token" n (Dict.get? granted n)) ∧
      ((∀ p ∈ granted, WellFormed p.2) → (granted.map Prod.fst).Nodup → ∀ n x, n ∉ idTokenReserved → (t.payload.get? n = some x ↔
        ∃ spec, Dict.get? granted n = some spec ∧ HasValue ((icfg.userDb u).get? n) x ∧ Allows spec x)) := by
  obtain ⟨inp, v, sid, t, g, o1, m1, m2, m3, m4, m5, ar, m6, m7⟩ := id_token_whole hw hm h hi
  obtain ⟨user, client, gid0, c, g'', i1, _, _, _, i5, i6, i7, _⟩ := idTokenMake_ok m4
  have hg := (getGrant_key (webNoEmpty hw (i + 1)) i5).1
  rw [m5] at hg
  cases hg
  obtain ⟨k0, now0, gid1, mc0, ma0, idt0, raw0, areq0, q0, u0, a1, a2, a3, ac, a4, a5, a6⟩ := session_request hw m5
  have hu0 : UserName u0 := hw.users _ _ _ _ _ _ _ (List.mem_of_getElem? a2) u0 (a5.imp_right fun ⟨s, hs⟩ => ⟨_, hs⟩)
  have hc0 : UserName q0.clientId := (hw.take k0).clients _ (provRun_named cfg (ops.take k0) _ ac)
  have hk := unpack_names hu0 hc0 (hw.good gid1 (List.mem_flatMap.2 ⟨_, List.mem_of_getElem? a2, by simp [httpGid]⟩)).2
  rw [← a4] at hk
  have e2 : user = u0 ∧ client = q0.clientId := by
    unfold unpack3 at i1
    rw [hk] at i1
    simp only [Except.ok.injEq, Prod.mk.injEq] at i1
    exact ⟨i1.1.symm, i1.2.1.symm⟩
  obtain ⟨rfl, rfl⟩ := e2
  obtain ⟨s2, s3⟩ := m7 himp
  rcases session_terms hw m5 with ⟨e1, _⟩ | ⟨k, now', gid, mc, ma, idt, raw, areq, q, b1, b2, b3, b4, nw, g0, g1, b5, b6, b7, b8⟩
  · exact absurd (s2.symm.trans e1) s3
  · have hq : q.clientId = t.aud := by rw [i7, a6 q b4]
    have hki : k < i := by
      rcases Nat.lt_succ_iff_lt_or_eq.1 b1 with h' | rfl
      · exact h'
      · rw [o1] at b2; cases b2
    rw [hq] at b6
    refine ⟨inp, v, sid, t, user, gid1, k, now', gid, mc, ma, idt, raw, areq, q, (g.claims.get? c!"id_token").getD [],
      o1, m1, m2, m3, by rw [i7]; exact a4, hki, b2, b3, hq, ?_, ?_⟩
    · intro hd n
      obtain ⟨cl, c1, c2⟩ := C139_granted_claims cfg.sys.env.gc himp cfg.sys.env.ccfg (provRun cfg (ops.take k)).cdb _ nw t.aud g0 g1 q q b5
        (Prod.ext rfl b6) c!"id_token" (by simp) hd
      rw [b8, c1]
      exact c2 n
    · intro hwf hnd n x hn
      obtain ⟨ui, u1, u2⟩ := payload_user i6
      rw [u2 hnd n hn]
      obtain ⟨res, r1, r2⟩ := C36_user_claims_exact icfg.userDb user _ hwf
      rw [u1] at r1
      cases r1
      have hui := (getUserClaims_keys u1).nodup hnd
      constructor
      · intro hx
        obtain ⟨spec, x1, x2⟩ := (r2 n x).1 (Dict.get?_mem hx)
        exact ⟨spec, Dict.mem_get? hnd x1, x2⟩
      · rintro ⟨spec, x1, x2⟩
        exact Dict.mem_get? hui ((r2 n x).2 ⟨spec, Dict.get?_mem x1, x2⟩)

end Verif
