import Verif.Spec.Refusals
import Verif.Props.Honest
import Verif.Props.TokenEndpoint
import Verif.Props.Resource
/-! How unusable codes, refresh tokens and access tokens are refused: C143, C144. -/
namespace Verif
open Spec
set_option linter.unusedSimpArgs false

theorem notOurs_sid {env : Env} {v : Str} (h : NotOurs env v) (now : Int) : env.th.sid env.cr now v = .error .unknownToken := by
  have hl : ∀ l : List Handler, (∀ h ∈ l, (h.cls = .default → env.cr.fernetOpen h.key v = none) ∧
      (h.cls = .jwt → env.cr.jwtUnpack h.key v = none)) → infoLoop env.cr now v l = .error .unknownToken := by
    intro l hl
    induction l with
    | nil => rfl
    | cons a l ih =>
      have ha := hl a (by simp)
      have he : handlerInfo env.cr a now v = .error .unknownToken := by
        unfold handlerInfo
        cases hc : a.cls with
        | default => simp [splitToken, cryptDecrypt, ha.1 hc]
        | jwt => simp [ha.2 hc]
      unfold infoLoop
      rw [he]
      exact ih (fun h hh => hl h (by simp [hh]))
  unfold TokenHandler.sid TokenHandler.info
  rw [hl _ h]

theorem notOurs_session {env : Env} {v : Str} (h : NotOurs env v) (s : Store) (now : Int) :
    sessionByToken env.th env.cr s now v = .error .unknownToken := by
  unfold sessionByToken
  rw [notOurs_sid h]

theorem ofStored_session {env : Env} {s : Store} {now : Int} {v u c gid : Str} {g : Grant} (h : OfStored env s now v u c gid g) :
    sessionByToken env.th env.cr s now v = .ok (sessionKey [u, c, gid], .grant g) :=
  sessionByToken_resolves h.user h.client h.grantId h.opens h.stored

theorem notLive_cases {g : Grant} {v : Str} {k : TokenKind} {now : Int} (h : NotLive g v k now) :
    g.getToken v = none ∨ ∃ t, g.getToken v = some t ∧ (t.kind ≠ k ∨ t.kind = k ∧ t.isActive now = false) := by
  unfold Grant.getToken
  cases hf : findValue v g.issuedToken with
  | none => exact .inl rfl
  | some t =>
    refine .inr ⟨t, rfl, ?_⟩
    have hm : t ∈ g.issuedToken := List.mem_of_find?_eq_some hf
    have hv : t.value = v := by have := List.find?_some hf; simpa using this
    by_cases hk : t.kind = k
    · refine .inr ⟨hk, ?_⟩
      cases ha : t.isActive now with
      | false => rfl
      | true => exact absurd ((C07_token_active_iff t now).1 ha) (h t hm hv hk)
    · exact .inl hk

theorem live_get {g : Grant} {v : Str} {k : TokenKind} {now : Int} (h : Live g v k now) :
    ∃ t, g.getToken v = some t ∧ t.kind = k ∧ t.isActive now = true := by
  obtain ⟨t, hm, hv, hk, ha, hu⟩ := h
  refine ⟨t, ?_, hk, (C07_token_active_iff t now).2 ha⟩
  unfold Grant.getToken
  cases hf : findValue v g.issuedToken with
  | none => exact absurd hv (by have := List.find?_eq_none.1 hf t hm; simpa using this)
  | some t' =>
    have hm' : t' ∈ g.issuedToken := List.mem_of_find?_eq_some hf
    have hv' : t'.value = v := by have := List.find?_some hf; simpa using this
    rw [hu t' hm' hv']

/-- A way to see that a string is of a stored session, by evaluation. -/
theorem ofStored_check {env : Env} {s : Store} {now : Int} {v u c gid : Str} {p : Grant → Bool} (hu : GoodId u) (hc : GoodId c)
    (hg : GoodId gid) (ho : env.th.sid env.cr now v = .ok (sessionKey [u, c, gid]))
    (h : (match getGrant s (sessionKey [u, c, gid]) with | .ok g => p g | .error _ => false) = true) :
    ∃ g, OfStored env s now v u c gid g ∧ p g = true := by
  cases hs : getGrant s (sessionKey [u, c, gid]) with
  | error e => rw [hs] at h; cases h
  | ok g => rw [hs] at h; exact ⟨g, ⟨hu, hc, hg, ho, hs⟩, h⟩

/-- A way to see that it is not usable. -/
theorem notLive_check {g : Grant} {v : Str} {k : TokenKind} {now : Int}
    (h : (g.issuedToken.all fun t => !decide (t.value = v) || !decide (t.kind = k) || !t.isActive now) = true) : NotLive g v k now := by
  intro t ht hv hk ha
  have := (List.all_eq_true.1 h) t ht
  rw [(C07_token_active_iff t now).2 ha] at this
  simp [hv, hk] at this

theorem live_check {g : Grant} {v : Str} {k : TokenKind} {now : Int}
    (h : ((g.issuedToken.any fun t => decide (t.value = v) && decide (t.kind = k) && t.isActive now) &&
      decide ((g.issuedToken.map (·.value)).Nodup)) = true) : Live g v k now := by
  simp only [Bool.and_eq_true, decide_eq_true_eq, List.any_eq_true] at h
  obtain ⟨⟨t, ht, ⟨hv, hk⟩, ha⟩, hn⟩ := h
  refine ⟨t, ht, hv, hk, (C07_token_active_iff t now).1 ha, fun t' ht' hv' => ?_⟩
  obtain ⟨i, hi, rfl⟩ := List.getElem_of_mem ht
  obtain ⟨j, hj, rfl⟩ := List.getElem_of_mem ht'
  have : j = i := by
    rcases Nat.lt_trichotomy j i with h | h | h
    · exact absurd (hv'.trans hv.symm) (by have := List.pairwise_iff_getElem.1 hn j i (by simpa using hj) (by simpa using hi) h; simpa using this)
    · exact h
    · exact absurd (hv.trans hv'.symm) (by have := List.pairwise_iff_getElem.1 hn i j (by simpa using hi) (by simpa using hj) h; simpa using this)
  subst this
  rfl

/-! ### C143 -/

/-- C143: how the token endpoint answers a code that cannot be redeemed.  Without a code, with a string the provider did not
make, or with one of a user it does not know (any more), `invalid_grant`; with one of a stored session that is not a live code of
it, `invalid_request`.  The configuration is any with the built-in code grant. -/
theorem C143_code_answers_partial (env : Env) (helpers : Dict Helper) (s : Store) (now : Int) (req : TokReq)
    (hh : helpers.get? c!"authorization_code" = some (.inst .accessToken)) (hg : req.grantType = some c!"authorization_code") :
    (req.code = none → tokParse env helpers s now req = .errMsg c!"invalid_grant") ∧
    (∀ v, req.code = some v → NotOurs env v → tokParse env helpers s now req = .errMsg c!"invalid_grant") ∧
    (∀ v u c gid, req.code = some v → GoodId u → GoodId c → GoodId gid → env.th.sid env.cr now v = .ok (sessionKey [u, c, gid]) →
      s u = none → tokParse env helpers s now req = .errMsg c!"invalid_grant") ∧
    (∀ v u c gid g, req.code = some v → OfStored env s now v u c gid g → NotLive g v .authorizationCode now →
      tokParse env helpers s now req = .errMsg c!"invalid_request") := by
  have hp : ∀ e, codeParse env s now req = .errMsg e → tokParse env helpers s now req = .errMsg e := by
    intro e he
    simp only [tokParse, helperParse, hg, hh, he]
  refine ⟨fun h => hp _ ?_, fun v h hn => hp _ ?_, fun v u c gid h hu hc hgi ho hs => hp _ ?_, fun v u c gid g h ho hun => hp _ ?_⟩
  · simp only [codeParse, h]
  · simp only [codeParse, h, notOurs_session hn]; rfl
  · have : sessionByToken env.th env.cr s now v = .error .keyError := by
      unfold sessionByToken
      rw [ho]
      simp only [unpack3_good hu hc hgi]
      simp [dbGet, evalPath, truthy_good, hs, hu.1, hc.1, hgi.1]
    simp only [codeParse, h, this]; rfl
  · simp only [codeParse, h, ofStored_session ho]
    rcases notLive_cases hun with e | ⟨t, e, hk | ⟨hk, ha⟩⟩
    · simp only [e]
    · simp only [e, if_pos hk]
    · simp only [e, hk, ha, ne_eq, not_true, if_false, if_true]

/-- C143: the same for refresh tokens: a string of a stored session that is not a live refresh token of it is answered with
`invalid_request`, one of an unknown user with `invalid_grant`. -/
theorem C143_refresh_answers_partial (env : Env) (helpers : Dict Helper) (s : Store) (now : Int) (req : TokReq)
    (hh : helpers.get? c!"refresh_token" = some (.inst .refreshToken)) (hg : req.grantType = some c!"refresh_token") :
    (∀ v u c gid, req.refreshToken = some v → GoodId u → GoodId c → GoodId gid →
      env.th.sid env.cr now v = .ok (sessionKey [u, c, gid]) →
      s u = none → tokParse env helpers s now req = .errMsg c!"invalid_grant") ∧
    (∀ v u c gid g, req.refreshToken = some v → OfStored env s now v u c gid g → NotLive g v .refreshToken now →
      tokParse env helpers s now req = .errMsg c!"invalid_request") := by
  have hp : ∀ e, refreshParse env s now req = .errMsg e → tokParse env helpers s now req = .errMsg e := by
    intro e he
    simp only [tokParse, helperParse, hg, hh, he]
  refine ⟨fun v u c gid h hu hc hgi ho hs => hp _ ?_, fun v u c gid g h ho hun => hp _ ?_⟩
  · have : sessionByToken env.th env.cr s now v = .error .keyError := by
      unfold sessionByToken
      rw [ho]
      simp only [unpack3_good hu hc hgi]
      simp [dbGet, evalPath, truthy_good, hs, hu.1, hc.1, hgi.1]
    simp only [refreshParse, h, this]; rfl
  · simp only [refreshParse, h, ofStored_session ho]
    rcases notLive_cases hun with e | ⟨t, e, hk | ⟨hk, ha⟩⟩
    · simp only [e]
    · simp only [e, if_pos hk]
    · simp only [e, hk, ha, ne_eq, not_true, if_false, if_true]

/-- C143 is false of the code for refresh tokens the provider did not make (and requests without one): for every configuration
with the refresh grant, store and time, an exception instead of an answer.  The code looks for `KeyError` only. -/
theorem C143_foreign_refresh_raises (env : Env) (helpers : Dict Helper) (s : Store) (now : Int) (req : TokReq)
    (hh : helpers.get? c!"refresh_token" = some (.inst .refreshToken)) (hg : req.grantType = some c!"refresh_token") :
    (∀ v, req.refreshToken = some v → NotOurs env v → tokParse env helpers s now req = .raise .unknownToken) ∧
    (req.refreshToken = none → tokParse env helpers s now req = .raise .missingRequiredAttribute) := by
  constructor
  · intro v h hn
    simp only [tokParse, helperParse, hg, hh, refreshParse, h, notOurs_session hn]; rfl
  · intro h
    simp only [tokParse, helperParse, hg, hh, refreshParse, h]

/-- C143: a grant type that is not configured is answered with `invalid_request`; a request without one raises `KeyError`. -/
theorem C143_grant_type_answers (env : Env) (helpers : Dict Helper) (s : Store) (now : Int) (req : TokReq) :
    (∀ gt, req.grantType = some gt → helpers.get? gt = none → tokParse env helpers s now req = .errMsg c!"invalid_request") ∧
    (req.grantType = none → tokParse env helpers s now req = .raise .keyError) :=
  ⟨fun gt h h' => by simp only [tokParse, helperParse, h, h'], fun h => by simp only [tokParse, helperParse, h]⟩

/-- C143: a helper that the configuration files under another grant type than its own serves nothing: the request is called
invalid. -/
theorem C143_misfiled_helper (m : Mode) (env : Env) (helpers : Dict Helper) (s : Store) (i : TokIn) (req : TokReq) (gt : Str)
    (hg : req.grantType = some gt) :
    (helpers.get? gt = some (.inst .refreshToken) → gt ≠ c!"refresh_token" →
      tokProcess m env helpers s i req = (s, .errMsg c!"invalid_request")) ∧
    (helpers.get? gt = some (.inst .accessToken) → gt ≠ c!"authorization_code" →
      tokProcess m env helpers s i req = (s, .errMsg c!"invalid_request")) := by
  refine ⟨fun hh hn => ?_, fun hh hn => ?_⟩
  · have : helperProcess m env helpers s i req = (s, .errMsg c!"invalid_request") := by
      unfold helperProcess
      simp only [hg, hh, refreshProcess]
      rw [if_pos]
      simpa using hn
    unfold tokProcess
    simp only [this]
  · have : helperProcess m env helpers s i req = (s, .errMsg c!"invalid_request") := by
      unfold helperProcess
      simp only [hg, hh, codeProcess]
      rw [if_pos]
      simpa using hn
    unfold tokProcess
    simp only [this]

/-- C143: a live code whose verifier is missing, or does not fit the challenge, is answered with `invalid_grant`. -/
theorem C143_verifier_answers (env : Env) (helpers : Dict Helper) (s : Store) (now : Int) (req : TokReq)
    (hh : helpers.get? c!"authorization_code" = some (.inst .accessToken)) (hg : req.grantType = some c!"authorization_code")
    (v u c gid : Str) (g : Grant) (hc : req.code = some v) (ho : OfStored env s now v u c gid g)
    (hu : Live g v .authorizationCode now) (ar : AuthReq) (har : g.authReq = some ar) (p : Pkce) (hp : env.pkce = some p)
    (ch : Str) (hch : ar.codeChallenge = some ch) :
    (req.codeVerifier = none → tokParse env helpers s now req = .errMsg c!"invalid_grant") ∧
    (∀ w m f x, req.codeVerifier = some w → ar.codeChallengeMethod = some m → p.methods.get? m = some f → f w = .ok x → x ≠ ch →
      tokParse env helpers s now req = .errMsg c!"invalid_grant") := by
  obtain ⟨t, ht, hk, ha⟩ := live_get hu
  have hcp : ∃ q : TokReq, codeParse env s now req = .val q ∧ q.code = req.code ∧ q.codeVerifier = req.codeVerifier := by
    simp only [codeParse, hc, ofStored_session ho, ht, hk, ha, ne_eq, not_true, if_false, Bool.true_eq_false, har]
    cases hi : req.clientId with
    | none => exact ⟨_, rfl, by simp [hc], rfl⟩
    | some ci => exact ⟨_, rfl, hc, rfl⟩
  obtain ⟨q, hq, q1, q2⟩ := hcp
  have htp : tokParse env helpers s now req = pkceTokenParse p env s now q := by
    simp only [tokParse, helperParse, hg, hh, hq, hp]
  rw [htp]
  constructor
  · intro h
    simp only [pkceTokenParse, q1, hc, ofStored_session ho, har, hch, q2, h]
  · intro w m f x h h1 h2 h3 hx
    have hvc : verifyChallenge p.methods w ch m = .ok false := by
      simp [verifyChallenge, h2, h3, hx]
    simp only [pkceTokenParse, q1, hc, ofStored_session ho, har, hch, q2, h, h1, hvc]

/-- C143: another redirect URI than that of the authorization request is answered with `invalid_request`, and nothing is changed;
if it is missing there is an exception instead. -/
theorem C143_redirect_answers (env : Env) (s : Store) (i : TokIn) (req : TokReq)
    (hg : req.grantType = some c!"authorization_code") (v u c gid : Str) (g : Grant) (hc : req.code = some v) (hb : ' ' ∉ v)
    (ho : OfStored env s i.now v u c gid g) (ar : AuthReq) (har : g.authReq = some ar) (uri : Str) (hr : ar.redirectUri = some uri) :
    (∀ r, req.redirectUri = some r → r ≠ uri → codeProcess env s i req = (s, .errMsg c!"invalid_request")) ∧
    (req.redirectUri = none → codeProcess env s i req = (s, .raise .keyError)) := by
  have hb' : plusForBlank v = v := plusForBlank_id hb
  constructor
  · intro r h hne
    have : redirectCheck ar req = .errMsg c!"invalid_request" := by simp [redirectCheck, hr, h, hne]
    simp only [codeProcess, hg, hc, hb', ofStored_session ho, har, this, ne_eq, not_true, if_false]
  · intro h
    have : redirectCheck ar req = .raise .keyError := by simp [redirectCheck, hr, h]
    simp only [codeProcess, hg, hc, hb', ofStored_session ho, har, this, ne_eq, not_true, if_false]

/-- The store of the demo after the login (0 requests), after the redemption of the code (1). -/
def errStore (n : Nat) : Store := (sysRun (demoCfg .aliased) (demoOps.take (if n = 0 then 1 else 5))).store

set_option maxRecDepth 16000 in
/-- Hypotheses met: a string of nobody; the demo's code, after its use, is of a stored session and unusable; so is the access token
as a code or refresh token. -/
example : NotOurs demoEnv c!"junk" ∧
    (∃ g, OfStored demoEnv (errStore 1) 3 demoCode c!"diana" c!"c1" c!"g1" g ∧ NotLive g demoCode .authorizationCode 3) ∧
    (∃ g, OfStored demoEnv (errStore 1) 3 demoAt c!"diana" c!"c1" c!"g1" g ∧ NotLive g demoAt .authorizationCode 3 ∧
      NotLive g demoAt .refreshToken 3) ∧
    (demoEnv.th.sid demoEnv.cr 3 demoAt = .ok (sessionKey [c!"diana", c!"c1", c!"g1"]) ∧
      (sysRun (demoCfg .aliased) []).store c!"diana" = none) := by
  have gd : GoodId c!"diana" := by simp [GoodId, SemicolonFree]
  have gc : GoodId c!"c1" := by simp [GoodId, SemicolonFree]
  have gg : GoodId c!"g1" := by simp [GoodId, SemicolonFree]
  refine ⟨?_, ?_, ?_, by decide, rfl⟩
  · intro h hh
    have hl : h = ⟨.jwt, c!"A", 5, c!"k1"⟩ ∨ h = ⟨.jwt, c!"T", 5, c!"k2"⟩ ∨ h = ⟨.jwt, c!"R", 5, c!"k3"⟩ := by
      simpa [TokenHandler.order, demoEnv, demoHandlers] using hh
    rcases hl with rfl | rfl | rfl <;> exact ⟨(fun e => nomatch e), (fun _ => by decide)⟩
  · obtain ⟨g, h1, h2⟩ := ofStored_check (env := demoEnv) (s := errStore 1) (now := 3) (v := demoCode)
      (p := fun g => g.issuedToken.all fun t => !decide (t.value = demoCode) || !decide (t.kind = .authorizationCode) || !t.isActive 3)
      gd gc gg (by decide) (by decide)
    exact ⟨g, h1, notLive_check h2⟩
  · obtain ⟨g, h1, h2⟩ := ofStored_check (env := demoEnv) (s := errStore 1) (now := 3) (v := demoAt)
      (p := fun g => (g.issuedToken.all fun t => !decide (t.value = demoAt) || !decide (t.kind = .authorizationCode) || !t.isActive 3) &&
        (g.issuedToken.all fun t => !decide (t.value = demoAt) || !decide (t.kind = .refreshToken) || !t.isActive 3))
      gd gc gg (by decide) (by decide)
    rw [Bool.and_eq_true] at h2
    exact ⟨g, h1, notLive_check h2.1, notLive_check h2.2⟩

set_option maxRecDepth 16000 in
/-- With PKCE: the code of the demo is usable after the login, and the challenge needs a verifier. -/
example : ∃ g, OfStored pkceEnv (sysRun (pkceCfg .aliased) (pkceOps.take 1)).store 2 demoCode c!"diana" c!"c1" c!"g1" g ∧
    Live g demoCode .authorizationCode 2 ∧ (g.authReq.bind (·.codeChallenge)) = some c!"hxyz" ∧
    tokParse pkceEnv demoHelpers (sysRun (pkceCfg .aliased) (pkceOps.take 1)).store 2 demoTokReq = .errMsg c!"invalid_grant" := by
  obtain ⟨g, h1, h2⟩ := ofStored_check (env := pkceEnv) (s := (sysRun (pkceCfg .aliased) (pkceOps.take 1)).store) (now := 2) (v := demoCode)
    (p := fun g => ((g.issuedToken.any fun t => decide (t.value = demoCode) && decide (t.kind = .authorizationCode) && t.isActive 2) &&
      decide ((g.issuedToken.map (fun t : Token => t.value)).Nodup)) && decide ((g.authReq.bind (·.codeChallenge)) = some c!"hxyz"))
    (u := c!"diana") (c := c!"c1") (gid := c!"g1") (by simp [GoodId, SemicolonFree]) (by simp [GoodId, SemicolonFree])
    (by simp [GoodId, SemicolonFree]) (by decide) (by decide)
  rw [Bool.and_eq_true, decide_eq_true_eq] at h2
  exact ⟨g, h1, live_check h2.1, h2.2, by decide⟩

/-! ### C144 -/

/-- C144: the userinfo endpoint answers a string of a stored session that is not a live access token of it with `invalid_token`. -/
theorem C144_userinfo_unusable (env : Env) (userDb : Str → Dict Val) (s : Store) (now : Int) (v u c gid : Str) (g : Grant)
    (ho : OfStored env s now v u c gid g) (hu : NotLive g v .accessToken now) :
    userinfoProcess env userDb s now v = .errMsg c!"invalid_token" := by
  simp only [userinfoProcess, ofStored_session ho]
  rcases notLive_cases hu with e | ⟨t, e, hk | ⟨hk, ha⟩⟩
  · simp only [e]
  · simp only [e, if_pos hk]
  · simp only [e, hk, ha, ne_eq, not_true, if_false, if_true]

end Verif
