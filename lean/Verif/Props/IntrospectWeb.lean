import Verif.Props.GivenClaims
import Verif.Props.Given
import Verif.Props.ProviderDemo
/-! C163: what introspection tells about an active token was settled at authorization. -/
set_option linter.unusedSimpArgs false
namespace Verif
open Spec

/-- The entries of the answer that are not parameters of the token are the user's claims. -/
theorem introspect_user {issuer : Str} {release : Bool} {db : Str → Dict Val} {now : Int} {user client : Str} {g : Grant} {t : Token}
    {info ui d : Dict Val} (h4 : introspectInfo issuer now t client g = some info)
    (h5 : getUserClaims db user ((g.claims.get? c!"introspection").getD []) = .ok ui)
    (h6 : d = @Dict.set Val (Dict.update (Dict.update inactive (if release then Dict.set info c!"username" (.str user) else info)) ui) c!"active" (.bool true))
    (hnd : (((g.claims.get? c!"introspection").getD []).map Prod.fst).Nodup) {n : Str} (hn : n ∉ reserved) : d.get? n = ui.get? n := by
  have na : n ≠ c!"active" := by rintro rfl; exact hn (by decide)
  have nu : n ≠ c!"username" := by rintro rfl; exact hn (by decide)
  have hui := (getUserClaims_keys h5).nodup hnd
  rw [h6, Dict.get?_set, if_neg na, Dict.get?_update _ _ _ hui, Dict.get?_update _ _ _ (by
      cases release with
      | false => exact introspectInfo_nodup h4
      | true => exact Dict.keys_set_nodup (introspectInfo_nodup h4) _ _)]
  have hi : inactive.get? n = none := by simp [inactive, Dict.get?, Ne.symm na]
  have hin : info.get? n = none := by
    cases hx : info.get? n with
    | none => rfl
    | some x =>
      exfalso
      have hm := Dict.get?_mem hx
      have hk : n ∈ info.map Prod.fst := List.mem_map.2 ⟨_, hm, rfl⟩
      apply hn
      obtain ⟨tail, h1, rfl⟩ := introspectInfo_some h4
      rcases h1 with rfl | ⟨x, rfl⟩ <;>
      · simp only [List.cons_append, List.nil_append, List.map_cons, List.map_nil, List.mem_cons, List.not_mem_nil, or_false] at hk
        revert hk
        rintro hk
        repeat (first | (rcases hk with rfl | hk; · decide) | (subst hk; decide))
  have hin' : (if release then Dict.set info c!"username" (.str user) else info).get? n = none := by
    cases release with
    | false => exact hin
    | true => simp only [if_true]; rw [Dict.get?_set, if_neg nu]; exact hin
  rw [hin', hi]
  cases ui.get? n <;> rfl

/-- C163: what introspection tells about an active token was settled by the authorization request of the session that the token
belongs to, and the token was made in a request of that session.  Unless a claim with the name of a parameter is granted, the
parameters are: the client and the scope of that request, the subject identifier of the user who logged in, the token's own type
and times, and the issuer.  All else are the claims that this request, the provider's configuration and the client's record give
for introspection (`GrantedAs`), as far as the user has a value that the request allows; and these are all there. -/
theorem C163_introspection_as_authorized (cfg : ProvCfg) (himp : cfg.sys.env.gc.implicit = false) (ops : List HttpOp) (hw : WebRun cfg ops)
    (i : Nat) (now : Int) (r : AuthnReq) (token : Option Str) (j : List Str) (d : Dict Val)
    (h : introspectEndpoint cfg (provRun cfg (ops.take i)) now r token = (j, .val d)) (ha : d.get? c!"active" = some (.bool true)) :
    ∃ (v sid u gid' sub : Str) (ev : Option AuthnEvent) (g : Grant) (t : Token) (m k : Nat) (now' : Int) (gid : Str) (mc ma : MintIn)
      (idt : Out Str) (raw : Option Str) (areq : UserReq) (q : AuthReq) (granted : Claims),
      token = some v ∧ StoredToken cfg.sys.env (provRun cfg (ops.take i)).sys.store now v sid g t ∧
      (t.kind = .accessToken ∨ t.kind = .refreshToken) ∧ t.isActive now = true ∧
      m < i ∧ MadeAt cfg ops m sid t.kind v ∧ sid = sessionKey [u, q.clientId, gid'] ∧ WebLogin cfg ops i sid u q.clientId sub ev ∧
      k < i ∧ ops[k]? = some (.authorize now' gid mc ma idt raw areq) ∧ Parsed cfg (provRun cfg (ops.take k)) areq.areq q ∧
      (DistinctNames q.claims ((cfg.sys.env.ccfg.modules.get? c!"introspection").getD {}) → ∀ n,
        GrantedAs cfg.sys.env.ccfg ((cfg.sys.env.ccfg.modules.get? c!"introspection").getD {}) (provRun cfg (ops.take k)).cdb q.clientId q.claims
          q.scope c!"introspection" n (Dict.get? granted n)) ∧
      ((∀ n ∈ reserved, Dict.get? granted n = none) →
        d.get? c!"scope" = some (.str (joinBlank q.scope)) ∧ d.get? c!"client_id" = some (.str q.clientId) ∧
        d.get? c!"token_type" = some (.str t.typ) ∧ d.get? c!"exp" = some (.int t.expiresAt) ∧ d.get? c!"iat" = some (.int t.issuedAt) ∧
        d.get? c!"sub" = some (.str sub) ∧ d.get? c!"iss" = some (.str cfg.issuer) ∧
        d.get? c!"username" = (if cfg.release then some (.str u) else none)) ∧
      ((∀ p ∈ granted, WellFormed p.2) → (granted.map Prod.fst).Nodup → ∀ n x, n ∉ reserved → (d.get? n = some x ↔
        ∃ spec, Dict.get? granted n = some spec ∧ HasValue ((cfg.userDb u).get? n) x ∧ Allows spec x)) := by
  unfold introspectEndpoint at h
  split at h
  · cases h
  · cases token with
    | none => cases h
    | some v =>
      simp only [Prod.mk.injEq] at h
      obtain ⟨_, h⟩ := h
      rcases introspectProcess_val h with ⟨rfl, _⟩ | ⟨sid, user, client, gid0, g, t, info, ui, h1, h2, h3, h4, h5, h6⟩
      · simp [inactive, Dict.get?] at ha
      · have hst := storedToken_of h1 h3
        have hg := (getGrant_key (webNoEmpty hw i) hst.2.1).1
        obtain ⟨hty, hact⟩ := (introspectInfo_isSome cfg.issuer now t client g).1 (by rw [h4]; rfl)
        obtain ⟨hf, _, _⟩ := expand_ok (hw.take i)
        have hi := sysRun_inv cfg.sys (expand cfg (ops.take i)) hf hw.blank (expand cfg (ops.take i)).length
        rw [List.take_length, ← provRun_sys] at hi
        have hgi := (hi.grants _ _ hg).2
        obtain ⟨ts, _, tk⟩ := hgi.tokens t hst.2.2.1
        have hkd : t.kind = .accessToken ∨ t.kind = .refreshToken := by
          rcases hty with e | e
          · rw [e] at tk
            exact Or.inl (Option.some.inj tk).symm
          · rw [e] at tk
            exact Or.inr (Option.some.inj tk).symm
        obtain ⟨m, hm1, hm2⟩ := C136_tokens_are_given_out cfg ops hw i sid t.kind v ⟨g, t, hg, hst.2.2.1, rfl, hst.2.2.2⟩
        obtain ⟨u', c', gid', b1, b2, _⟩ := C119_sessions_only_from_logins cfg ops hw i sid g hg
        obtain ⟨k0, now0, gid1, mc0, ma0, idt0, raw0, areq0, q0, u0, a1, a2, a3, ac, a4, a5, a6⟩ := session_request hw hg
        have hu0 : UserName u0 := hw.users _ _ _ _ _ _ _ (List.mem_of_getElem? a2) u0 (a5.imp_right fun ⟨s, hs⟩ => ⟨_, hs⟩)
        have hc0 : UserName q0.clientId := (hw.take k0).clients _ (provRun_named cfg (ops.take k0) _ ac)
        have hk := unpack_names hu0 hc0 (hw.good gid1 (List.mem_flatMap.2 ⟨_, List.mem_of_getElem? a2, by simp [httpGid]⟩)).2
        rw [← a4] at hk
        have e1 : u' = u0 ∧ c' = q0.clientId := by
          rw [hk] at b1
          simp only [List.cons.injEq, and_true] at b1
          exact ⟨b1.1.symm, b1.2.1.symm⟩
        have e2 : user = u0 ∧ client = q0.clientId := by
          unfold unpack3 at h2
          rw [hk] at h2
          simp only [Except.ok.injEq, Prod.mk.injEq] at h2
          exact ⟨h2.1.symm, h2.2.1.symm⟩
        obtain ⟨rfl, rfl⟩ := e1
        obtain ⟨rfl, rfl⟩ := e2
        obtain ⟨ar, s1, s2⟩ := hgi.scope (List.ne_nil_of_mem hst.2.2.1)
        obtain ⟨s2, s3⟩ := s2 himp
        rcases session_terms hw hg with ⟨e1, _⟩ | ⟨k, now', gid, mc, ma, idt, raw, areq, q, c1, c2, c3, c4, nw, g0, g1, c5, c6, c7, c8⟩
        · exact absurd (s2.symm.trans e1) s3
        · have hq := a6 q c4
          subst hq
          have hscope : g.scope = q.scope := by
            rw [s1] at c4
            cases c4
            exact s2
          refine ⟨v, sid, user, gid1, g.sub, g.authnEvent, g, t, m, k, now', gid, mc, ma, idt, raw, areq, q, (g.claims.get? c!"introspection").getD [],
            rfl, hst, hkd, hact, hm1, hm2, a4, b2, c1, c2, c3, ?_, ?_, ?_⟩
          · intro hd n
            obtain ⟨cl, x1, x2⟩ := C139_granted_claims cfg.sys.env.gc himp cfg.sys.env.ccfg (provRun cfg (ops.take k)).cdb _ nw q.clientId g0 g1 q q c5
              (Prod.ext rfl c6) c!"introspection" (by simp) hd
            rw [c8, x1]
            exact x2 n
          · intro hres
            have := introspect_fields h4 h5 h6 (fun n hn hm => by
              have hnone := hres n hn
              have := Dict.get?_isSome.2 hm
              rw [hnone] at this
              cases this)
            rw [ts, if_pos rfl, hscope] at this
            exact this
          · intro hwf hnd n x hn
            rw [introspect_user h4 h5 h6 hnd hn]
            obtain ⟨res, r1, r2⟩ := C36_user_claims_exact cfg.userDb user _ hwf
            rw [h5] at r1
            cases r1
            have hui := (getUserClaims_keys h5).nodup hnd
            constructor
            · intro hx
              obtain ⟨spec, x1, x2⟩ := (r2 n x).1 (Dict.get?_mem hx)
              exact ⟨spec, Dict.mem_get? hnd x1, x2⟩
            · rintro ⟨spec, x1, x2⟩
              exact Dict.mem_get? hui ((r2 n x).2 ⟨spec, Dict.get?_mem x1, x2⟩)

set_option maxRecDepth 16000 in
/-- The client asks about the token it got. -/
example : WebRun webCfg webOps ∧ webCfg.sys.env.gc.implicit = false ∧
    ((outVal (introspectEndpoint webCfg (provRun webCfg (webOps.take 4)) 1002 webSecret (some webAt)).2).map
      (fun d => (d.get? c!"active", d.get? c!"client_id", d.get? c!"username"))) =
    some (some (.bool true), some (.str c!"c1"), some (.str c!"diana")) :=
  ⟨webRun_demo, by decide, by decide⟩

end Verif
