import Verif.Lemmas.HonestAuthz
import Verif.Props.AuthzSession
import Verif.Props.AuthzResponse
import Verif.Props.Resource
set_option linter.unusedSimpArgs false
/-! C84: an honest client is served. -/
namespace Verif
open Spec

/-- The client id that the parsed request has (oidc/token.py:201-204). -/
def TokReq.withClient (req : TokReq) (ar : AuthReq) : TokReq :=
  { req with clientId := some (req.clientId.getD ar.clientId) }

theorem pkce_passes {env : Env} {s : Store} {now : Int} {code sid : Str} {g : Grant} {ar : AuthReq} {req : TokReq}
    (hcode : req.code = some code) (hs : sessionByToken env.th env.cr s now code = .ok (sid, .grant g))
    (har : g.authReq = some ar) (hp : PkceSatisfied env ar req) (p : Pkce) (hpk : env.pkce = some p) :
    pkceTokenParse p env s now req = .val req := by
  unfold pkceTokenParse
  simp only [hcode, hs, har]
  cases hch : ar.codeChallenge with
  | none => rfl
  | some ch =>
    obtain ⟨v, m, f, h1, h2, h3, h4⟩ := hp p hpk ch hch
    simp [h1, h2, verifyChallenge, h3, h4]

/-- **C84**, token endpoint: whatever the state of the provider, if the session holds an active grant with a code that is
active and may be exchanged, a request for it (with the redirect URI and the PKCE verifier that belong to it) is parsed
and answered: with an access token for the session, with the granted scope, with a refresh token if offline access was
granted, with an ID token if openid was asked for; the new tokens are stored, and the code is used. -/
theorem C84_code_request_served (m : Mode) (env : Env) (hc0 ha : Handler) (hi : IssuesTokens env hc0 ha) (helpers : Dict Helper)
    (hh : helpers.get? c!"authorization_code" = some (.inst .accessToken)) (s : Store) (ht : Tree s) (u c gid : Str)
    (hu : GoodId u) (hc : GoodId c) (hg : GoodId gid) (g : Grant) (hgr : getGrant s (sessionKey [u, c, gid]) = .ok g)
    (hmax : g.maxUsage = none) (hmap : g.tokenMap = defaultTokenMap) (t : Token) (htok : g.getToken t.value = some t)
    (hkind : t.kind = .authorizationCode) (hbl : ' ' ∉ t.value) (ar : AuthReq) (har : g.authReq = some ar)
    (i : TokIn) (hn : NoFailure i) (hga : ActiveAt g.toItem g.maxUsage i.now)
    (hta : ActiveAt t.toItem t.usageRules.maxUsage i.now)
    (hres : env.th.sid env.cr i.now t.value = .ok (sessionKey [u, c, gid])) (hlife : Readable ha i.now i.now)
    (hm : t.supportsMinting tAccessToken = true)
    (hoff : c!"offline_access" ∈ g.scope → t.supportsMinting tRefreshToken = true)
    (req : TokReq) (hreq : HonestCodeRequest env ar t.value req) :
    tokParse env helpers s i.now req = .val (req.withClient ar) ∧
    ∃ s' resp at' new, tokProcess m env helpers s i (req.withClient ar) = (s', .val resp) ∧ Tree s' ∧
      getGrant s' (sessionKey [u, c, gid]) = .ok (g.exchanged t.value (at' :: new)) ∧
      MadeBy env ha g i.now i.ma (sessionKey [u, c, gid]) tAccessToken t.value .accessToken at' ∧
      (∀ r ∈ new, MadeBy env ha g i.now i.mr (sessionKey [u, c, gid]) tRefreshToken t.value .refreshToken r) ∧
      new.length = (if c!"offline_access" ∈ g.scope then 1 else 0) ∧
      resp.accessToken = at'.value ∧ resp.refreshToken = (new.map Token.value).head? ∧ resp.scope = g.scope ∧
      (resp.idToken.isSome = decide (c!"openid" ∈ ar.scope)) ∧ resp.expiresIn = some (at'.expiresAt - i.now) := by
  have hga' := (C07_grant_active_iff g i.now).2 hga
  have hta' := (C07_token_active_iff t i.now).2 hta
  have hsess := sessionByToken_resolves hu hc hg hres hgr
  constructor
  · have hcp : codeParse env s i.now req = .val (req.withClient ar) := by
      unfold codeParse
      simp only [hreq.code, hsess, htok, hkind, ne_eq, not_true_eq_false, if_false, hta', Bool.true_eq_false]
      cases hcl : req.clientId with
      | none => simp [har, TokReq.withClient, hcl, hreq.code]
      | some x => simp [TokReq.withClient, hcl]; rw [← hcl]
    unfold tokParse helperParse
    simp only [hreq.grantType, hh, hcp]
    cases hpk : env.pkce with
    | none => rfl
    | some p =>
      exact pkce_passes (req := req.withClient ar) hreq.code hsess har (fun p' hp' => hreq.pkce p' hp') p hpk
  · obtain ⟨s', resp, a, new, h1, h2, h3, h4, h5, h6, h7, h8⟩ := exchangeCode_succeeds hi ht hu hc hg hga' hmax hmap htok hta' hm
      hoff hn (ar := ar)
    refine ⟨s', resp, a, new, ?_, h2, h3, h4, h5, h6, h7, h8⟩
    have hrc : redirectCheck ar (req.withClient ar) = .val () := by
      unfold redirectCheck
      cases hr : ar.redirectUri with
      | none => rfl
      | some r =>
        have : (req.withClient ar).redirectUri = some r := by
          simp only [TokReq.withClient]; rw [hreq.redirect, hr]
        simp [this]
    have hcp : codeProcess env s i (req.withClient ar) = (s', .val resp) := by
      unfold codeProcess
      have e1 : (req.withClient ar).grantType = some c!"authorization_code" := hreq.grantType
      have e2 : (req.withClient ar).code = some t.value := hreq.code
      simp only [e1, e2, ne_eq, not_true_eq_false, if_false, plusForBlank_id hbl, hsess, har, hrc, htok, h1]
    unfold tokProcess helperProcess
    have e1 : (req.withClient ar).grantType = some c!"authorization_code" := hreq.grantType
    simp only [e1, hh, hcp]
    have hat : sessionByToken env.th env.cr s' i.now resp.accessToken = .ok (sessionKey [u, c, gid], .grant (g.exchanged t.value (a :: new))) := by
      apply sessionByToken_resolves hu hc hg _ h3
      rw [h7, h4.value]
      exact handler_resolves hi (.inr rfl) hlife _ _ _
    rw [hat]

/-- What the session of a code-flow request looks like after the authorization endpoint answered at `now` with the code
`t`: one code, not used or revoked, with the rules of the provider; the grant lives as long as configured. -/
structure CodeIssued (env : Env) (hc : Handler) (cdb : Cdb) (req : AuthReq) (now : Int) (sid : Str) (g : Grant) (t : Token) : Prop where
  request : g.authReq = some req
  scope : g.scope = req.scope
  tokens : g.issuedToken = [t]
  unlimited : g.maxUsage = none
  unrevoked : g.revoked = false
  notBefore : g.notBefore = 0
  expiry : g.expiresAt = (match env.gc.expiresIn with | some e => now + e | none => 0)
  map : g.tokenMap = defaultTokenMap
  rules : ∀ tt, (g.usageRules.get? tt).getD {} = rulesFor env cdb req.clientId tt
  codeKind : t.kind = .authorizationCode
  codeUsed : t.used = 0
  codeRevoked : t.revoked = false
  codeNotBefore : t.notBefore = 0
  codeExpiry : t.expiresAt = (if (rulesFor env cdb req.clientId tAuthorizationCode).expiresIn.getD 0 = 0 then 0
    else now + (rulesFor env cdb req.clientId tAuthorizationCode).expiresIn.getD 0)
  codeRules : t.usageRules = setDefaults .authorizationCode (rulesFor env cdb req.clientId tAuthorizationCode)
  codeValue : ∃ rnd nonce, t.value = handlerCall env.cr hc now rnd nonce sid []

/-- **C84**, authorization endpoint: a user who is logged in and a code-flow request of a known client get a code, in the
query (or a form) at the client's redirect URI, with the state of the request; the code is stored in a new session. -/
theorem C84_authorization_served (env : Env) (hc0 ha : Handler) (hi : IssuesTokens env hc0 ha) (hdec : env.gc.implicit = false)
    (hlife : ∀ e, env.gc.expiresIn = some e → 0 ≤ e)
    (f : Str → Option Str → Str) (hsf : env.sf c!"public" = some f) (cdb : Cdb) (s : Store) (ht : Tree s) (now : Int)
    (gid uid : Str) (mc ma : MintIn) (hmc : mc.payload = .ok () ∧ mc.ttype = []) (idt : Out Str) (a : AuthnIn)
    (h1 : a.ident = .plain uid) (h2 : a.reAuth = false) (h3 : a.reqUser = none) (hu : GoodId uid) (hg : GoodId gid) (req : AuthReq)
    (hc : GoodId req.clientId) (c : Client) (uri : Str) (hreq : CodeFlowRequest env cdb c req uri) :
    ∃ cdb' s' g t ev, authzProcess env cdb s now gid mc ma idt a req = (cdb', s', .reply
        { content := .val { state := returnedState req, scope := req.scope, code := some t.value },
          placement := if req.responseMode = some c!"form_post" then .formPost else .query, uri := some uri }) ∧ Tree s' ∧
      getGrant s' (sessionKey [uid, req.clientId, gid]) = .ok g ∧
      CodeIssued env hc0 cdb req now (sessionKey [uid, req.clientId, gid]) g t ∧
      g.sub = f uid req.sectorIdentifierUri ∧ g.authnEvent = some ev ∧
      ev.validUntil = now + (if a.expiresIn = none ∨ a.expiresIn = some 0 then 3600 else a.expiresIn.getD 0) := by
  obtain ⟨s1, ev, k1, t1, k2, _, _, k3⟩ := startSession_succeeds env f hsf cdb s ht now gid hg req hc a uid hu
  have hscope : checkScopes env c req = true := by
    unfold checkScopes
    simp only [List.all_eq_true, Bool.not_eq_true', Bool.and_eq_false_iff, Bool.not_eq_false']
    intro x hx
    by_cases hd : env.denyUnknown = true
    · right
      have := hreq.scopeKnown hd x hx
      unfold mayAsk at this
      by_cases he : c.allowedScopes = []
      · simp only [he, if_true] at this; simpa [he] using this
      · simp only [he, if_false] at this
        have he' : c.allowedScopes.isEmpty = false := by simpa using he
        simpa [he'] using this
    · left; simpa using hd
  generalize hgr : Grant.new now gid { authReq := some req, authnEvent := some ev, sub := f uid req.sectorIdentifierUri, usageRules := usageRulesOf env.gc cdb req.clientId } = gr at k2
  obtain ⟨cdb', cl, k4, k5⟩ := authzCall_succeeds hreq hdec now gr (by rw [← hgr]; rfl)
  generalize hg2 : ({ gr with scope := req.scope, claims := cl, usageRules := env.gc.usageRules.getD gr.usageRules, expiresAt := (match env.gc.expiresIn with | some e => now + e | none => gr.expiresAt), resources := [req.clientId] } : Grant) = g2 at k4
  obtain ⟨s2, _, t2, k6, k7⟩ := set_grant t1 hu hc hg g2
  obtain ⟨s2', w1, w2⟩ := tree_set3 t1 hu hc hg g2
  obtain ⟨s2'', w3, w4⟩ := C13_read_own_write s1 t1.typed [uid, req.clientId, gid] (goodPath_three hu hc hg) (by simp) (.grant g2)
  rw [w1] at w3
  cases w3
  have w5 : getGrant s2' (sessionKey [uid, req.clientId, gid]) = .ok g2 := (getGrant_iff hu hc hg g2).2 w4
  have hexp : g2.expiresAt = (match env.gc.expiresIn with | some e => now + e | none => 0) := by
    rw [← hg2, ← hgr]; simp only [Grant.new, Item.mk']; cases env.gc.expiresIn <;> simp
  have hact : g2.isActive now = true := by
    rw [C07_grant_active_iff]
    refine ⟨by rw [← hg2, ← hgr]; rfl, ?_, ?_, ?_⟩
    · intro m hm; rw [← hg2, ← hgr] at hm; cases hm
    · intro h; rw [← hg2, ← hgr] at h; exact absurd rfl h
    · intro h
      have : g2.toItem.expiresAt = (match env.gc.expiresIn with | some e => now + e | none => 0) := hexp
      rw [this] at h ⊢
      cases he : env.gc.expiresIn with
      | none => simp [he] at h
      | some e => have := hlife e he; simp only; omega
  obtain ⟨s3, t, m1, m2, m3, m4, m5, m6, m7, m8, m9, m10, m11, m12⟩ := mint_succeeds (env := env) (h := env.th.code) (m := mc) (b := none)
    w2 hu hc hg hact (by simp) (by rw [← hg2, ← hgr]; rfl : g2.tokenMap.get? tAuthorizationCode = some .authorizationCode) hi.code hmc.1
  have hrules : ∀ tt, (g2.usageRules.get? tt).getD {} = rulesFor env cdb req.clientId tt := by
    intro tt
    rw [← rulesFor_eq, ← hg2, ← hgr]
    rfl
  refine ⟨cdb', s3, _, t, ev, ?_, m2, m3, ?_, ?_, ?_, k3⟩
  · unfold authzProcess
    simp only [hreq.client, hscope, Bool.true_eq_false, if_false]
    rw [setupAuth_plain env cdb s now gid req a uid h1 h2 h3]
    simp only [k1]
    have hur := k5.getUri env.lib .redirect req.clientId req.redirectUri
    rw [hreq.redirect] at hur
    unfold authzPart2
    simp only [k2, unpack3_good hu hc hg, k4, w1]
    have hcr : createAuthnResponse env s2' now mc ma idt req (sessionKey [uid, req.clientId, gid]) =
        (s3, .ok (.val { state := returnedState req, scope := req.scope, code := some t.value }, false)) := by
      unfold createAuthnResponse
      have e1 : ¬ (req.responseType = [c!"none"]) := by rw [hreq.responseType]; decide
      rw [if_neg e1]
      simp only [w5]
      simp only [codePart, hreq.responseType, List.mem_singleton, if_true, m1, Except.map, tokenPart, idTokenPart]
      simp only [show ¬ (c!"token" = c!"code") by decide, show ¬ (c!"id_token" = c!"code") by decide, if_false]
      rfl
    simp only [hcr, ← hur]
    rcases hreq.mode with hm | hm | hm <;> (rw [hm]; rfl)
  · refine ⟨by rw [← hg2, ← hgr]; rfl, by rw [← hg2], by rw [← hg2, ← hgr]; rfl, by rw [← hg2, ← hgr]; rfl, by rw [← hg2, ← hgr]; rfl,
      by rw [← hg2, ← hgr]; rfl, hexp, by rw [← hg2, ← hgr]; rfl, hrules, m5, m9, m10, m11, ?_, ?_, ⟨mc.rnd, mc.nonce, ?_⟩⟩
    · rw [m12, hrules]
    · rw [m8, hrules]
    · rw [m4, hmc.2]
  · rw [← hg2, ← hgr]; rfl
  · rw [← hg2, ← hgr]; rfl

theorem within_active {it : Item} {mu : Option Int} {made now : Int} {e : Option Int} (h1 : it.revoked = false)
    (h2 : ∀ m, mu = some m → (it.used : Int) < m) (h3 : it.notBefore = 0)
    (h4 : it.expiresAt = if e.getD 0 = 0 then 0 else made + e.getD 0) (h : Within made e now) : ActiveAt it mu now := by
  refine ⟨h1, h2, fun h => absurd h3 h, fun hne => ?_⟩
  rw [h4] at hne ⊢
  by_cases he : e.getD 0 = 0
  · simp [he] at hne
  · rw [if_neg he]
    rcases h with h | h
    · exact absurd h he
    · exact h

/-- Code strings and access token strings are different, whatever went into them. -/
theorem code_ne_access {env : Env} {hc ha : Handler} (hi : IssuesTokens env hc ha) (n1 n2 : Int) (r1 r2 o1 o2 s1 s2 : Str) :
    handlerCall env.cr hc n1 r1 o1 s1 [] ≠ handlerCall env.cr ha n2 r2 o2 s2 [] := by
  intro heq
  have hf : FactoryTypes env.th := by
    refine ⟨fun x hx => ?_, fun x hx => ?_, hi.refreshType⟩
    · rw [hi.code] at hx; cases hx; exact hi.codeType
    · rw [hi.access] at hx; cases hx; exact hi.accessType
  have typ : ∀ (h : Handler), h ∈ env.th.order → ∀ (n l : Int) (r o s : Str), l ≤ n + h.lifetime →
      ∃ i, env.th.info env.cr l (handlerCall env.cr h n r o s []) = .ok i ∧ i.typ = h.typ := by
    intro h hm n l r o s hl
    cases hcl : h.cls with
    | default => rw [C04_default_token_resolves env.cr hi.laws env.th hf h hm hcl]; exact ⟨_, rfl, rfl⟩
    | jwt => rw [C04_jwt_token_resolves env.cr hi.laws env.th hf h hm hcl, if_pos (.inr hl)]; exact ⟨_, rfl, rfl⟩
  obtain ⟨i1, e1, t1⟩ := typ hc (by simp [TokenHandler.order, hi.code]) n1 (min (n1 + hc.lifetime) (n2 + ha.lifetime)) r1 o1 s1
    (Int.min_le_left _ _)
  obtain ⟨i2, e2, t2⟩ := typ ha (by simp [TokenHandler.order, hi.access]) n2 (min (n1 + hc.lifetime) (n2 + ha.lifetime)) r2 o2 s2
    (Int.min_le_right _ _)
  rw [heq, e2] at e1
  cases e1
  rw [t1, hi.codeType, hi.accessType] at t2
  exact absurd t2 (by decide)

/-- **C84**, the userinfo endpoint: an access token that is stored and active, in a session whose authentication is valid, is answered
with the subject of the session (and the claims that match). -/
theorem C84_userinfo_served (env : Env) (userDb : Str → Dict Val) (s : Store) (u c gid : Str)
    (hu : GoodId u) (hc : GoodId c) (hg : GoodId gid) (g : Grant) (hgr : getGrant s (sessionKey [u, c, gid]) = .ok g)
    (t : Token) (htok : g.getToken t.value = some t) (hkind : t.kind = .accessToken) (now : Int)
    (hta : ActiveAt t.toItem t.usageRules.maxUsage now) (hres : env.th.sid env.cr now t.value = .ok (sessionKey [u, c, gid]))
    (ev : AuthnEvent) (hev : g.authnEvent = some ev) (hvalid : now < ev.validUntil) (info : Dict Val)
    (hcl : getUserClaims userDb u ((g.claims.get? c!"userinfo").getD []) = .ok info) :
    userinfoProcess env userDb s now t.value = .val (Dict.set info c!"sub" (.str g.sub), c) := by
  unfold userinfoProcess
  have hd : authnLive now (some ev) = .ok true := by simp [authnLive, hvalid]
  simp only [sessionByToken_resolves hu hc hg hres hgr, htok, hkind, ne_eq, not_true_eq_false, if_false,
    (C07_token_active_iff t now).2 hta, Bool.true_eq_false, hev, hd, unpack3_good hu hc hg, hcl]

/-- **C84**, the code flow: if the authorization endpoint has answered a request with a code, and nothing has happened to
that session since (other sessions may have come and gone), then the client's token request is answered with an access
token, as long as the code and the grant live. -/
theorem C84_code_flow (m : Mode) (env : Env) (hc0 ha : Handler) (hi : IssuesTokens env hc0 ha) (helpers : Dict Helper)
    (hh : helpers.get? c!"authorization_code" = some (.inst .accessToken)) (hdec : env.gc.implicit = false)
    (hlife : ∀ e, env.gc.expiresIn = some e → 0 < e)
    (f : Str → Option Str → Str) (hsf : env.sf c!"public" = some f) (cdb : Cdb) (s : Store) (ht : Tree s) (now : Int)
    (gid uid : Str) (mc ma : MintIn) (hmc : mc.payload = .ok () ∧ mc.ttype = []) (idt : Out Str) (a : AuthnIn)
    (h1 : a.ident = .plain uid) (h2 : a.reAuth = false) (h3 : a.reqUser = none) (hu : GoodId uid) (hg : GoodId gid) (req : AuthReq)
    (hc : GoodId req.clientId) (c : Client) (uri : Str) (hreq : CodeFlowRequest env cdb c req uri)
    (hmint : ∀ l, (rulesFor env cdb req.clientId tAuthorizationCode).supportsMinting = some l → tAccessToken ∈ l ∧ tRefreshToken ∈ l) :
    ∃ cdb' s' g code pl, authzProcess env cdb s now gid mc ma idt a req = (cdb', s', .reply
        { content := .val { state := returnedState req, scope := req.scope, code := some code }, placement := pl, uri := some uri }) ∧
      Tree s' ∧ getGrant s' (sessionKey [uid, req.clientId, gid]) = .ok g ∧
      ∀ (s2 : Store) (i : TokIn) (treq : TokReq), Tree s2 → getGrant s2 (sessionKey [uid, req.clientId, gid]) = .ok g →
        NoFailure i → HonestCodeRequest env req code treq →
        Within now (rulesFor env cdb req.clientId tAuthorizationCode).expiresIn i.now → Within now env.gc.expiresIn i.now →
        Readable hc0 now i.now → Readable ha i.now i.now →
        ∃ s3 resp, tokenEndpoint m env helpers s2 i treq = (s3, .val resp) ∧ resp.scope = req.scope ∧
          (resp.refreshToken.isSome = decide (c!"offline_access" ∈ req.scope)) ∧
          (resp.idToken.isSome = decide (c!"openid" ∈ req.scope)) ∧
          ∀ (s4 : Store) (later : Int) (userDb : Str → Dict Val) (info : Dict Val),
            getGrant s4 (sessionKey [uid, req.clientId, gid]) = getGrant s3 (sessionKey [uid, req.clientId, gid]) →
            Readable ha i.now later → Within i.now (rulesFor env cdb req.clientId tAccessToken).expiresIn later →
            (∀ n, (rulesFor env cdb req.clientId tAccessToken).maxUsage = some n → 0 < n) →
            later < now + (if a.expiresIn = none ∨ a.expiresIn = some 0 then 3600 else a.expiresIn.getD 0) →
            getUserClaims userDb uid ((g.claims.get? c!"userinfo").getD []) = .ok info →
            userinfoProcess env userDb s4 later resp.accessToken =
              .val (Dict.set info c!"sub" (.str (f uid req.sectorIdentifierUri)), req.clientId) := by
  obtain ⟨cdb', s', g, t, ev, k1, k2, k3, k4, k5, k6, k7⟩ := C84_authorization_served env hc0 ha hi hdec (fun e he => Int.le_of_lt (hlife e he)) f hsf cdb s ht
    now gid uid mc ma hmc idt a h1 h2 h3 hu hg req hc c uri hreq
  refine ⟨cdb', s', g, t.value, _, k1, k2, k3, ?_⟩
  intro s2 i treq ht2 hgr hn htr hw1 hw2 hr1 hr2
  have hsup : ∀ tt, tt = tAccessToken ∨ tt = tRefreshToken → t.supportsMinting tt = true := by
    intro tt htt
    unfold Token.supportsMinting
    rw [k4.codeRules]
    simp only [setDefaults]
    cases hs : (rulesFor env cdb req.clientId tAuthorizationCode).supportsMinting with
    | none => rcases htt with rfl | rfl <;> decide
    | some l =>
      have := hmint l hs
      rcases htt with rfl | rfl
      · simpa using this.1
      · simpa using this.2
  have hga : ActiveAt g.toItem g.maxUsage i.now := by
    refine within_active (made := now) (e := env.gc.expiresIn) k4.unrevoked ?_ k4.notBefore ?_ hw2
    · intro x hx; rw [k4.unlimited] at hx; cases hx
    · have := k4.expiry
      rw [show g.toItem.expiresAt = _ from this]
      cases he : env.gc.expiresIn with
      | none => rfl
      | some e =>
        have : e ≠ 0 := by have := hlife e he; omega
        simp [this]
  have hta : ActiveAt t.toItem t.usageRules.maxUsage i.now := by
    refine within_active (made := now) (e := (rulesFor env cdb req.clientId tAuthorizationCode).expiresIn) k4.codeRevoked ?_ k4.codeNotBefore k4.codeExpiry hw1
    intro x hx
    rw [k4.codeRules] at hx
    simp only [setDefaults, Option.some.injEq] at hx
    rw [← hx, k4.codeUsed]; decide
  obtain ⟨rnd, nonce, hval⟩ := k4.codeValue
  have hres : env.th.sid env.cr i.now t.value = .ok (sessionKey [uid, req.clientId, gid]) := by
    rw [hval]; exact handler_resolves hi (.inl rfl) hr1 _ _ _
  have hblank : ' ' ∉ t.value := by
    rw [hval]; exact hi.blankFree hc0 (by simp [TokenHandler.order, hi.code]) _ _ _ _ _
  have htok : g.getToken t.value = some t := by
    unfold Grant.getToken; rw [k4.tokens]; simp [findValue]
  obtain ⟨p1, s3, resp, at', new, p2, _, p3, p4, _, p5, pa, p6, p7, p8, _⟩ := C84_code_request_served m env hc0 ha hi helpers hh s2 ht2 uid req.clientId gid
    hu hc hg g hgr k4.unlimited k4.map t htok k4.codeKind hblank req k4.request i hn hga hta hres hr2 (hsup _ (.inl rfl))
    (fun _ => hsup _ (.inr rfl)) treq htr
  refine ⟨s3, resp, ?_, by rw [p7, k4.scope], ?_, p8, ?_⟩
  · unfold tokenEndpoint
    simp only [p1, p2]
  · rw [p6]
    rw [k4.scope] at p5
    by_cases ho : c!"offline_access" ∈ req.scope
    · simp only [ho, if_true] at p5
      obtain ⟨x, rfl⟩ := List.length_eq_one_iff.1 p5
      simp [ho]
    · simp only [ho, if_false] at p5
      rw [List.length_eq_zero_iff.1 p5]
      simp [ho]
  · intro s4 later userDb info hs4 hrd hwi hmu hlt hcl
    rw [p3] at hs4
    have hne : t.value ≠ at'.value := by
      rw [hval, p4.value]; exact code_ne_access hi _ _ _ _ _ _ _ _
    have hat : (g.exchanged t.value (at' :: new)).getToken at'.value = some at' := by
      unfold Grant.getToken Grant.exchanged
      simp only [k4.tokens, updateFirst, if_true, List.cons_append, List.nil_append, findValue, Token.registerUsage]
      simp [hne]
    have hact : ActiveAt at'.toItem at'.usageRules.maxUsage later := by
      have hx : ∀ y, at'.usageRules.maxUsage = some y → (at'.used : Int) < y := by
        intro y hy
        rw [p4.rules, k4.rules] at hy
        rw [p4.used]; exact hmu y hy
      have hz : at'.toItem.expiresAt = if (rulesFor env cdb req.clientId tAccessToken).expiresIn.getD 0 = 0 then 0 else i.now + (rulesFor env cdb req.clientId tAccessToken).expiresIn.getD 0 := by
        rw [show at'.toItem.expiresAt = _ from p4.expiresAt, k4.rules]
      exact within_active p4.revoked hx p4.notBefore hz hwi
    rw [pa]
    rw [C84_userinfo_served env userDb s4 uid req.clientId gid hu hc hg _ hs4 at' hat p4.kind later hact
      (by rw [p4.value]; exact handler_resolves hi (.inr rfl) hrd _ _ _) ev (by show g.authnEvent = _; exact k6) (by rw [k7]; exact hlt) info
      (by show getUserClaims userDb uid ((g.claims.get? _).getD []) = _; exact hcl)]
    show Out.val (Dict.set info _ (.str g.sub), _) = _
    rw [k5]

/-- What a refresh does, for a refresh token that is stored, active and may mint access tokens. -/
theorem refresh_served {m : Mode} {env : Env} {hc0 ha : Handler} (hi : IssuesTokens env hc0 ha) (hpk : env.pkce = none)
    {helpers : Dict Helper} (hh : helpers.get? c!"refresh_token" = some (.inst .refreshToken)) {s : Store} (ht : Tree s) {u c gid : Str}
    (hu : GoodId u) (hc : GoodId c) (hg : GoodId gid) {g : Grant} (hgr : getGrant s (sessionKey [u, c, gid]) = .ok g)
    (hmax : g.maxUsage = none) (hmap : g.tokenMap = defaultTokenMap) {t : Token} (htok : g.getToken t.value = some t)
    (hkind : t.kind = .refreshToken) {i : TokIn} (hn : NoFailure i) (hga : ActiveAt g.toItem g.maxUsage i.now)
    (hta : ActiveAt t.toItem t.usageRules.maxUsage i.now)
    (hres : env.th.sid env.cr i.now t.value = .ok (sessionKey [u, c, gid])) (hlife : Readable ha i.now i.now)
    (hm : t.supportsMinting tAccessToken = true) {req : TokReq} (hgt : req.grantType = some c!"refresh_token")
    (hrt : req.refreshToken = some t.value) :
    tokParse env helpers s i.now req = .val req ∧
    ∃ s' resp a new n, tokProcess m env helpers s i req = (s', .val resp) ∧
      getGrant s' (sessionKey [u, c, gid]) = .ok { g with issuedToken := g.issuedToken ++ a :: new, used := n } ∧
      MadeBy env ha g i.now i.ma (sessionKey [u, c, gid]) tAccessToken t.value .accessToken a ∧
      resp.accessToken = a.value ∧ resp.scope = g.scope ∧ resp.refreshToken = (new.map Token.value).head? ∧
      (resp.refreshToken.isSome = t.supportsMinting tRefreshToken) ∧
      ∀ r ∈ new, ∃ r0, MadeBy env ha g i.now i.mr (sessionKey [u, c, gid]) tRefreshToken t.value .refreshToken r0 ∧
        (r = r0 ∨ r = { r0 with usageRules := t.usageRules }) := by
  have hga' := (C07_grant_active_iff g i.now).2 hga
  have hta' := (C07_token_active_iff t i.now).2 hta
  have hsess := sessionByToken_resolves hu hc hg hres hgr
  obtain ⟨s1, a, h1, h2, h3, h4⟩ := mint_based (m := i.ma) ht hu hc hg hga' ⟨hm, hta'⟩
    (by rw [hmap]; rfl : g.tokenMap.get? tAccessToken = some .accessToken) hi.access hn.ma
  have hparse : tokParse env helpers s i.now req = .val req := by
    unfold tokParse helperParse
    simp only [hgt, hh, refreshParse, hrt, hsess, htok, hkind, ne_eq, not_true_eq_false, if_false, hta', Bool.true_eq_false, hpk]
  obtain ⟨mints, hmints⟩ : ∃ l, t.usageRules.supportsMinting = some l := by
    unfold Token.supportsMinting at hm
    cases hx : t.usageRules.supportsMinting with
    | none => rw [hx] at hm; cases hm
    | some l => exact ⟨l, rfl⟩
  obtain ⟨x, hx⟩ := hn.idt
  have hid : ∃ y, idTokenFor (decide (c!"id_token" ∈ mints)) i.idt = .val y := by
    unfold idTokenFor
    rw [hx]
    by_cases ho : c!"id_token" ∈ mints <;> simp [ho]
  obtain ⟨y, hy⟩ := hid
  have hsup : t.supportsMinting tRefreshToken = decide (tRefreshToken ∈ mints) := by
    unfold Token.supportsMinting; rw [hmints]; simp
  have hnew : ∃ s2 rt new n, newRefresh m env s1 i (sessionKey [u, c, gid]) { g with issuedToken := g.issuedToken ++ [a], used := g.used + 1 } t (decide (tRefreshToken ∈ mints)) =
      (s2, .ok rt) ∧ (rt.isSome = decide (tRefreshToken ∈ mints)) ∧ rt.map Token.value = (new.map Token.value).head? ∧
      getGrant s2 (sessionKey [u, c, gid]) = .ok { g with issuedToken := g.issuedToken ++ a :: new, used := n } ∧
      ∀ r ∈ new, ∃ r0, MadeBy env ha g i.now i.mr (sessionKey [u, c, gid]) tRefreshToken t.value .refreshToken r0 ∧
        (r = r0 ∨ r = { r0 with usageRules := t.usageRules }) := by
    by_cases ho : tRefreshToken ∈ mints
    · obtain ⟨s2, r, k1, k2, k3, k4⟩ := mint_based (m := i.mr) h2 hu hc hg
        (g := { g with issuedToken := g.issuedToken ++ [a], used := g.used + 1 }) (by rw [active_more hmax]; exact hga')
        ⟨by rw [hsup]; simpa using ho, hta'⟩ (by simp only; rw [hmap]; rfl : _ = some TokenKind.refreshToken) hi.access hn.mr
      have k4' : MadeBy env ha g i.now i.mr (sessionKey [u, c, gid]) tRefreshToken t.value .refreshToken r :=
        ⟨k4.value, k4.kind, k4.typ, k4.basedOn, k4.rules, k4.used, k4.revoked, k4.notBefore, k4.expiresAt⟩
      unfold newRefresh refreshPart
      simp only [ho, decide_true, if_true, k1, Except.map]
      cases m with
      | byValue =>
        refine ⟨_, _, [r], g.used + 1 + 1, rfl, rfl, rfl, ?_, ?_⟩
        · show getGrant s2 _ = _; rw [k3]; simp [List.append_assoc]
        · intro r' hr'
          simp only [List.mem_singleton] at hr'
          subst hr'
          exact ⟨r', k4', Or.inl rfl⟩
      | aliased =>
        have hcopy : Grant.copyRulesToLast { g with issuedToken := g.issuedToken ++ [a] ++ [r], used := g.used + 1 + 1 } t.usageRules =
            { g with issuedToken := g.issuedToken ++ a :: [{ r with usageRules := t.usageRules }], used := g.used + 1 + 1 } := by
          unfold Grant.copyRulesToLast
          have : (g.issuedToken ++ [a] ++ [r]).length - 1 = (g.issuedToken ++ [a]).length := by simp
          simp only [this, modify_append_last]
          simp [List.append_assoc]
        refine ⟨_, _, [{ r with usageRules := t.usageRules }], g.used + 1 + 1, rfl, rfl, rfl, ?_, ?_⟩
        · rw [← hcopy]
          refine (getGrant_iff hu hc hg (Grant.copyRulesToLast { g with issuedToken := g.issuedToken ++ [a] ++ [r], used := g.used + 1 + 1 } t.usageRules)).2 ?_
          have := (getGrant_iff hu hc hg _).1 k3
          obtain ⟨ui, ci, d1, d2, d3, d4, _⟩ := (dbGet3 _ _ _ _ _).1 this
          refine (dbGet3 _ _ _ _ _).2 ⟨ui, ci, ?_, d2, ?_, d4, ?_⟩
          · show (s2.put _ _).at [u] = _
            rw [put_at _ _ (goodPath_three hu hc hg) (goodPath_one hu)]; simpa using d1
          · show (s2.put _ _).at [u, c] = _
            rw [put_at _ _ (goodPath_three hu hc hg) (goodPath_two hu hc)]; simpa using d3
          · show (s2.put _ _).at [u, c, gid] = _
            rw [put_at _ _ (goodPath_three hu hc hg) (goodPath_three hu hc hg)]; simp
        · intro r' hr'
          simp only [List.mem_singleton] at hr'
          exact ⟨r, k4', Or.inr hr'⟩
    · unfold newRefresh refreshPart
      simp only [ho, decide_false, Bool.false_eq_true, if_false]
      exact ⟨_, _, [], _, rfl, rfl, rfl, h3, by simp⟩
  obtain ⟨s2, rt, new, n, n1, n2, n3, n4, n5⟩ := hnew
  refine ⟨hparse, s2, { accessToken := a.value, refreshToken := rt.map (·.value), idToken := y, scope := g.scope, expiresIn := if a.expiresAt = 0 then none else some (a.expiresAt - i.now) },
    a, new, n, ?_, n4, h4, rfl, rfl, n3, ?_, n5⟩
  · unfold tokProcess helperProcess
    simp only [hgt, hh, refreshProcess, ne_eq, not_true_eq_false, if_false, hrt, hsess, htok, exchangeRefresh, h1, hmints, n1, finishRefresh, hy]
    rw [sessionByToken_resolves hu hc hg (by rw [h4.value]; exact handler_resolves hi (.inr rfl) hlife _ _ _) n4]
  · rw [hsup, ← n2]; cases rt <;> rfl

/-- **C84**, refreshing: a refresh token that is stored, active and may mint access tokens is exchanged for a new access
token, without PKCE (see C31 for that), with a new refresh token if it may mint those. -/
theorem C84_refresh_request_served (m : Mode) (env : Env) (hc0 ha : Handler) (hi : IssuesTokens env hc0 ha) (hpk : env.pkce = none)
    (helpers : Dict Helper) (hh : helpers.get? c!"refresh_token" = some (.inst .refreshToken)) (s : Store) (ht : Tree s) (u c gid : Str)
    (hu : GoodId u) (hc : GoodId c) (hg : GoodId gid) (g : Grant) (hgr : getGrant s (sessionKey [u, c, gid]) = .ok g)
    (hmax : g.maxUsage = none) (hmap : g.tokenMap = defaultTokenMap) (t : Token) (htok : g.getToken t.value = some t)
    (hkind : t.kind = .refreshToken) (i : TokIn) (hn : NoFailure i) (hga : ActiveAt g.toItem g.maxUsage i.now)
    (hta : ActiveAt t.toItem t.usageRules.maxUsage i.now)
    (hres : env.th.sid env.cr i.now t.value = .ok (sessionKey [u, c, gid])) (hlife : Readable ha i.now i.now)
    (hm : t.supportsMinting tAccessToken = true) (req : TokReq) (hgt : req.grantType = some c!"refresh_token")
    (hrt : req.refreshToken = some t.value) :
    ∃ s' resp, tokenEndpoint m env helpers s i req = (s', .val resp) ∧ resp.scope = g.scope ∧
      resp.accessToken = handlerCall env.cr ha i.now i.ma.rnd i.ma.nonce (sessionKey [u, c, gid]) [] ∧
      (resp.refreshToken.isSome = t.supportsMinting tRefreshToken) := by
  obtain ⟨h1, s', resp, a, new, n, h2, h3, h4, h5, h6, h7, h8, h9⟩ := refresh_served (m := m) hi hpk hh ht hu hc hg hgr hmax hmap htok hkind hn hga hta hres hlife hm hgt hrt
  refine ⟨s', resp, ?_, h6, by rw [h5, h4.value], h8⟩
  unfold tokenEndpoint
  simp only [h1, h2]

/-! ### A concrete case -/

theorem demo_issues : IssuesTokens demoEnv ⟨.jwt, c!"A", 5, c!"k1"⟩ ⟨.jwt, c!"T", 5, c!"k2"⟩ :=
  ⟨demoCrypto_laws, demoEnv_blankFree, rfl, rfl, rfl, rfl, by rintro h ⟨⟩; rfl⟩

set_option maxRecDepth 8000 in
theorem demo_codeFlow : CodeFlowRequest demoEnv demoDb (demoClient c!"https://rp/cb") (demoReq [c!"code"]) c!"https://rp/cb" :=
  ⟨by decide, by decide, by decide, by decide, rfl, by decide, .inl rfl⟩

set_option maxRecDepth 16000 in
/-- The hypotheses of the code flow theorem are met by the demo provider; in particular its token request is answered. -/
example : ∃ cdb' s' g code pl, authzProcess demoEnv demoDb Store.empty 1 c!"g1" (mintIn c!"n1") (mintIn c!"n2") (.val c!"IDT")
      { ident := .plain c!"diana" } (demoReq [c!"code"]) = (cdb', s', .reply
        { content := .val { state := some c!"st", scope := [c!"openid", c!"offline_access"], code := some code }, placement := pl,
          uri := some c!"https://rp/cb" }) ∧ Tree s' ∧ getGrant s' (sessionKey [c!"diana", c!"c1", c!"g1"]) = .ok g ∧
      ∃ s3 resp, tokenEndpoint .aliased demoEnv demoHelpers s' (tokIn 3 c!"m" c!"n") { grantType := some c!"authorization_code", code := some code, redirectUri := some c!"https://rp/cb" } =
        (s3, .val resp) ∧ resp.refreshToken.isSome = true ∧ resp.idToken.isSome = true := by
  obtain ⟨cdb', s', g, code, pl, h1, h2, h3, h4⟩ := C84_code_flow .aliased demoEnv _ _ demo_issues demoHelpers (by decide) rfl
    (by rintro e ⟨⟩; decide) _ rfl demoDb Store.empty tree_empty 1 c!"g1" c!"diana" (mintIn c!"n1") (mintIn c!"n2") ⟨rfl, rfl⟩
    (.val c!"IDT") { ident := .plain c!"diana" } rfl rfl rfl (by simp [GoodId, SemicolonFree]) (by simp [GoodId, SemicolonFree])
    (demoReq [c!"code"]) (by simp [GoodId, SemicolonFree, demoReq]) _ _ demo_codeFlow (by decide)
  refine ⟨cdb', s', g, code, pl, h1, h2, h3, ?_⟩
  obtain ⟨s3, resp, k1, _, k2, k3, _⟩ := h4 s' (tokIn 3 c!"m" c!"n") { grantType := some c!"authorization_code", code := some code, redirectUri := some c!"https://rp/cb" }
    h2 h3 ⟨⟨rfl, rfl⟩, ⟨rfl, rfl⟩, ⟨_, rfl⟩⟩ ⟨rfl, rfl, rfl, by rintro p ⟨⟩⟩ (.inr (by decide)) (.inr (by decide)) (.inr (by decide)) (.inr (by decide))
  exact ⟨s3, resp, k1, by rw [k2]; decide, by rw [k3]; decide⟩

/-- A session with one refresh token, as the token endpoint makes them. -/
def honestRt : Token :=
  Token.new .refreshToken 2 c!"n4" { typ := tRefreshToken, value := demoRt 2 c!"n4", basedOn := some demoCode, expiresAt := 22 }
def honestGrant : Grant :=
  { Grant.new 1 c!"g1" { authReq := some (demoReq [c!"code"]), scope := [c!"openid", c!"offline_access"], usageRules := demoRules } with issuedToken := [honestRt] }

set_option maxRecDepth 16000 in
/-- The hypotheses of the refresh theorem are met. -/
example : ∃ s, Tree s ∧ ∃ s' resp, tokenEndpoint .aliased demoEnv demoHelpers s (tokIn 3 c!"n5" c!"n6") demoRefReq = (s', .val resp) ∧
    resp.refreshToken.isSome = true := by
  obtain ⟨s, _, h2, h3, _⟩ := set_grant tree_empty (u := c!"diana") (c := c!"c1") (gid := c!"g1") (by simp [GoodId, SemicolonFree])
    (by simp [GoodId, SemicolonFree]) (by simp [GoodId, SemicolonFree]) honestGrant
  obtain ⟨s', resp, k1, _, _, k2⟩ := C84_refresh_request_served .aliased demoEnv _ _ demo_issues rfl demoHelpers (by decide) s h2 c!"diana" c!"c1" c!"g1"
    (by simp [GoodId, SemicolonFree]) (by simp [GoodId, SemicolonFree]) (by simp [GoodId, SemicolonFree]) honestGrant h3 rfl rfl honestRt
    (by decide) rfl (tokIn 3 c!"n5" c!"n6") ⟨⟨rfl, rfl⟩, ⟨rfl, rfl⟩, ⟨_, rfl⟩⟩ (by simp [ActiveAt, honestGrant, Grant.new, Item.mk'])
    (by simp [ActiveAt, honestRt, Token.new, Item.mk', setDefaults, tokIn]) (by decide) (.inr (by decide)) (by decide) demoRefReq rfl rfl
  exact ⟨s, h2, s', resp, k1, by rw [k2]; decide⟩

end Verif
