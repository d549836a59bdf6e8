import Verif.Spec.UserAuthn
import Verif.Props.AuthzSession
import Verif.Props.Cookie
set_option linter.unusedSimpArgs false
/-! C76–C80, C82: who is logged in. -/
namespace Verif
open Spec

/-- What the provider reads from a cookie that it set. -/
theorem loginCookie_read {c : AuthnCfg} (L : CookieLaws c.cr) (hd : DealerOk c.dealer) {t0 : Int} {value typ raw : Str}
    (hv : CookieValueOk value) (ht : CookieTypeOk typ) (hb : c.dealer.encKey = none → '|' ∉ value ∧ '|' ∉ typ)
    (h : LoginCookie c t0 value typ raw) : getCookieValue c.cr c.dealer raw = .ok (some (value, intStr t0, typ)) := by
  obtain ⟨iv, h⟩ := h
  obtain ⟨raw', h1, h2⟩ := C05_cookie_roundtrip c.cr L c.dealer hd t0 iv value typ hv ht hb
  rw [h] at h1
  cases h1
  exact h2

theorem maxAgeOf_demand {r : UserReq} {m : Int} (hm : m ≠ 0) (h : DemandsAge r m) : maxAgeOf r = m := by
  unfold maxAgeOf
  rcases h with h | ⟨h | h, h2⟩
  · simp [h, hm]
  · simp [h, h2]
  · simp [h, h2]

theorem authzBrowser_nobody (env : Env) (c : AuthnCfg) (cdb : Cdb) (s : Store) (now : Int) (gid : Str) (mc ma : MintIn)
    (idt : Out Str) (raw : Option Str) (r : UserReq) (h : identity c now raw r = .ok .nobody) :
    (authzBrowser env c cdb s now gid mc ma idt raw r).1 = cdb ∧ (authzBrowser env c cdb s now gid mc ma idt raw r).2.1 = s ∧
      (AsksForLogin r (authzBrowser env c cdb s now gid mc ma idt raw r).2.2 ∨
        ∃ e, (authzBrowser env c cdb s now gid mc ma idt raw r).2.2 = .raise e) := by
  suffices hs : ∃ ans, authzBrowser env c cdb s now gid mc ma idt raw r = (cdb, s, ans) ∧
      (AsksForLogin r ans ∨ ∃ e, ans = .raise e) by
    obtain ⟨ans, h1, h2⟩ := hs
    rw [h1]
    exact ⟨rfl, rfl, h2⟩
  unfold authzBrowser
  cases hc : cdb r.areq.clientId with
  | none => exact ⟨_, rfl, Or.inr ⟨_, rfl⟩⟩
  | some cl =>
    by_cases hs : checkScopes env cl r.areq = false
    · simp only [hs, if_true]; exact ⟨_, rfl, Or.inr ⟨_, rfl⟩⟩
    · simp only [hs, if_false]
      unfold authnIn
      cases hr : requestUser env.oidc c.hintLookup r with
      | error e => exact ⟨_, rfl, Or.inr ⟨_, rfl⟩⟩
      | ok u =>
        simp only [h]
        unfold authzProcess
        simp only [hc, hs, if_false, setupAuth, needLogin, AsksForLogin]
        by_cases hp : c!"none" ∈ r.areq.prompt
        · rw [if_pos hp]; exact ⟨_, rfl, Or.inl (by rw [if_pos hp])⟩
        · rw [if_neg hp]; exact ⟨_, rfl, Or.inl (by rw [if_neg hp])⟩

/-! ### C76 -/

/-- **C76** (part) If the request demands a login that is at most `m` seconds old, `m ≠ 0`, and the session cookie was set
more than `m` seconds ago, the user is sent to log in (or the request fails); nothing is stored.  Missing: cookies of type
"uam", `max_age=0` and requests with `upm_answer=true`, see below. -/
theorem C76_old_login_refused_partial (env : Env) (c : AuthnCfg) (L : CookieLaws c.cr) (hd : DealerOk c.dealer) (cdb : Cdb)
    (s : Store) (now : Int) (gid : Str) (mc ma : MintIn) (idt : Out Str) (t0 : Int) (value typ raw : Str)
    (hv : CookieValueOk value) (ht : CookieTypeOk typ) (hb : c.dealer.encKey = none → '|' ∉ value ∧ '|' ∉ typ)
    (hck : LoginCookie c t0 value typ raw) (hty : typ ≠ c!"uam") (r : UserReq) (hu : r.upmAnswer ≠ some c!"true")
    (m : Int) (hm : m ≠ 0) (hdm : DemandsAge r m) (hold : now - t0 > m) :
    (authzBrowser env c cdb s now gid mc ma idt (some raw) r).2.1 = s ∧
      (AsksForLogin r (authzBrowser env c cdb s now gid mc ma idt (some raw) r).2.2 ∨
        ∃ e, (authzBrowser env c cdb s now gid mc ma idt (some raw) r).2.2 = .raise e) := by
  have hi : identity c now (some raw) r = .ok .nobody := by
    unfold identity authenticatedAs demandedAge
    have h1 : now > t0 + m := by omega
    simp only [loginCookie_read L hd hv ht hb hck, hty, hu, if_false, maxAgeOf_demand hm hdm, hm, pyInt_intStr, h1, if_true]
    rfl
  exact (authzBrowser_nobody env c cdb s now gid mc ma idt (some raw) r hi).2

/-- A user who is recognised is served, if the identifiers are legal. -/
theorem authzBrowser_plain (env : Env) (f : Str → Option Str → Str) (hsf : env.sf c!"public" = some f) (c : AuthnCfg)
    (cdb : Cdb) (cl : Client) (s : Store) (hT : Tree s) (now : Int) (gid : Str) (hg : GoodId gid) (mc ma : MintIn)
    (idt : Out Str) (raw : Option Str) (r : UserReq) (hc : GoodId r.areq.clientId) (hcl : cdb r.areq.clientId = some cl)
    (hsc : checkScopes env cl r.areq = true) (hru : requestUser env.oidc c.hintLookup r = .ok none) (uid : Str)
    (hu : GoodId uid) (hi : identity c now raw r = .ok (.plain uid)) :
    TakenAsLoggedIn (authzBrowser env c cdb s now gid mc ma idt raw r).2.2 ∧
      ∃ a s', authnIn env c now raw r = .ok a ∧
        setupAuth env cdb s now gid r.areq a = (s', .val (.session (sessionKey [uid, r.areq.clientId, gid]) uid)) := by
  have hsc' : ¬ (checkScopes env cl r.areq = false) := by simp [hsc]
  have ha : authnIn env c now raw r =
      .ok { ident := .plain uid, acr := c.acr, expiresIn := c.expiresIn, reqUser := none, reAuth := false } := by
    unfold authnIn reAuthenticate
    simp only [hru, hi]
  have hset := setupAuth_plain env cdb s now gid r.areq
    { ident := .plain uid, acr := c.acr, expiresIn := c.expiresIn, reqUser := none, reAuth := false } uid rfl rfl rfl
  obtain ⟨s', gr, e1, _⟩ := startSession_grant env f hsf cdb s hT now gid hg r.areq hc
    { ident := .plain uid, acr := c.acr, expiresIn := c.expiresIn, reqUser := none, reAuth := false } uid hu
  rw [e1] at hset
  refine ⟨?_, _, s', ha, hset⟩
  unfold authzBrowser authzProcess
  simp only [hcl, hsc', if_false, ha, hset]
  exact ⟨_, rfl⟩

/-- Who is recognised by a cookie that is not base64url. -/
theorem identity_plain {c : AuthnCfg} (L : CookieLaws c.cr) (hd : DealerOk c.dealer) {t0 now : Int} {uid typ raw : Str}
    (hv : CookieValueOk uid) (ht : CookieTypeOk typ) (hb : c.dealer.encKey = none → '|' ∉ uid ∧ '|' ∉ typ)
    (hck : LoginCookie c t0 uid typ raw) (hnb : c.lib.b64d uid = none) (r : UserReq)
    (hok : if typ = c!"uam" then now ≤ t0 + c.ttl * 60 else (demandedAge r = 0 ∨ now ≤ t0 + demandedAge r)) :
    identity c now (some raw) r = .ok (.plain uid) := by
  unfold identity authenticatedAs
  simp only [loginCookie_read L hd hv ht hb hck]
  by_cases hty : typ = c!"uam"
  · simp only [hty, if_true] at hok
    have : ¬ now > t0 + c.ttl * 60 := by omega
    simp only [hty, if_true, pyInt_intStr, this, if_false, hnb]
  · simp only [hty, if_false] at hok
    by_cases h0 : demandedAge r = 0
    · simp only [hty, if_false, h0, if_true, hnb]
    · have h1 : now ≤ t0 + demandedAge r := by rcases hok with h | h; exact absurd h h0; exact h
      have : ¬ now > t0 + demandedAge r := by omega
      simp only [hty, if_false, h0, pyInt_intStr, this, hnb]

/-- What the following theorems have in common: a provider that knows the client, a request within the allowed scopes, a
session cookie set at `t0` for a user whose name is legal and not base64url, and no hint about who the user should be. -/
structure Browser (env : Env) (c : AuthnCfg) (cdb : Cdb) (s : Store) (gid uid typ raw : Str) (t0 : Int) (r : UserReq) : Prop where
  laws : CookieLaws c.cr
  dealer : DealerOk c.dealer
  sub : ∃ f, env.sf c!"public" = some f
  tree : Tree s
  gid : GoodId gid
  client : GoodId r.areq.clientId
  known : ∃ cl, cdb r.areq.clientId = some cl ∧ checkScopes env cl r.areq = true
  user : GoodId uid
  value : CookieValueOk uid
  type : CookieTypeOk typ
  bar : c.dealer.encKey = none → '|' ∉ uid ∧ '|' ∉ typ
  cookie : LoginCookie c t0 uid typ raw
  plain : c.lib.b64d uid = none

theorem Browser.served {env : Env} {c : AuthnCfg} {cdb : Cdb} {s : Store} {gid uid typ raw : Str} {t0 : Int} {r : UserReq}
    (B : Browser env c cdb s gid uid typ raw t0 r) (now : Int) (mc ma : MintIn) (idt : Out Str)
    (hru : requestUser env.oidc c.hintLookup r = .ok none)
    (hok : if typ = c!"uam" then now ≤ t0 + c.ttl * 60 else (demandedAge r = 0 ∨ now ≤ t0 + demandedAge r)) :
    TakenAsLoggedIn (authzBrowser env c cdb s now gid mc ma idt (some raw) r).2.2 := by
  obtain ⟨f, hsf⟩ := B.sub
  obtain ⟨cl, h1, h2⟩ := B.known
  exact (authzBrowser_plain env f hsf c cdb cl s B.tree now gid B.gid mc ma idt (some raw) r B.client h1 h2 hru uid B.user
    (identity_plain B.laws B.dealer B.value B.type B.bar B.cookie B.plain r hok)).1

/-- **C76** (part) A login that is recent enough is accepted. -/
theorem C76_recent_login_accepted (env : Env) (c : AuthnCfg) (cdb : Cdb) (s : Store) (gid uid typ raw : Str) (t0 : Int)
    (r : UserReq) (B : Browser env c cdb s gid uid typ raw t0 r) (hh : r.loginHint = none ∧ r.hints = []) (hty : typ ≠ c!"uam")
    (now : Int) (mc ma : MintIn) (idt : Out Str) (m : Int) (hm : m ≠ 0) (hdm : DemandsAge r m) (hrec : now - t0 ≤ m) :
    TakenAsLoggedIn (authzBrowser env c cdb s now gid mc ma idt (some raw) r).2.2 := by
  apply B.served now mc ma idt
  · unfold requestUser; rw [hh.1, hh.2]; split <;> rfl
  · rw [if_neg hty]
    unfold demandedAge
    split
    · exact Or.inl rfl
    · rw [maxAgeOf_demand hm hdm]; right; omega

/-- C76 is false for `max_age=0`, which should force a new login: a login of any age is accepted. -/
theorem C76_max_age_zero_ignored (env : Env) (c : AuthnCfg) (cdb : Cdb) (s : Store) (gid uid typ raw : Str) (t0 : Int)
    (r : UserReq) (B : Browser env c cdb s gid uid typ raw t0 r) (hh : r.loginHint = none ∧ r.hints = []) (hty : typ ≠ c!"uam")
    (hobj : r.objMaxAge = none) (h0 : r.areq.maxAge = 0) (now : Int) (mc ma : MintIn) (idt : Out Str) :
    TakenAsLoggedIn (authzBrowser env c cdb s now gid mc ma idt (some raw) r).2.2 := by
  apply B.served now mc ma idt
  · unfold requestUser; rw [hh.1, hh.2]; split <;> rfl
  · rw [if_neg hty]
    left
    simp [demandedAge, maxAgeOf, hobj, h0]

/-- C76 is false for requests with the parameter `upm_answer=true`, which whoever makes the request can add: a login of any age
is accepted whatever `max_age` is. -/
theorem C76_upm_answer_disables (env : Env) (c : AuthnCfg) (cdb : Cdb) (s : Store) (gid uid typ raw : Str) (t0 : Int)
    (r : UserReq) (B : Browser env c cdb s gid uid typ raw t0 r) (hh : r.loginHint = none ∧ r.hints = []) (hty : typ ≠ c!"uam")
    (hu : r.upmAnswer = some c!"true") (now : Int) (mc ma : MintIn) (idt : Out Str) :
    TakenAsLoggedIn (authzBrowser env c cdb s now gid mc ma idt (some raw) r).2.2 := by
  apply B.served now mc ma idt
  · unfold requestUser; rw [hh.1, hh.2]; split <;> rfl
  · rw [if_neg hty]
    left
    simp [demandedAge, hu]

/-- C76 is false for cookies of type "uam": they are measured by the dealer's own lifetime, whatever the request demands. -/
theorem C76_uam_cookie_ignores_max_age (env : Env) (c : AuthnCfg) (cdb : Cdb) (s : Store) (gid uid raw : Str) (t0 : Int)
    (r : UserReq) (B : Browser env c cdb s gid uid c!"uam" raw t0 r) (hh : r.loginHint = none ∧ r.hints = []) (now : Int)
    (hn : now ≤ t0 + c.ttl * 60) (mc ma : MintIn) (idt : Out Str) :
    TakenAsLoggedIn (authzBrowser env c cdb s now gid mc ma idt (some raw) r).2.2 := by
  apply B.served now mc ma idt
  · unfold requestUser; rw [hh.1, hh.2]; split <;> rfl
  · rw [if_pos rfl]; exact hn

/-- **C76** (part) A cookie of type "uam" is refused after the dealer's lifetime. -/
theorem C76_uam_cookie_expires (env : Env) (c : AuthnCfg) (L : CookieLaws c.cr) (hd : DealerOk c.dealer) (cdb : Cdb)
    (s : Store) (now : Int) (gid : Str) (mc ma : MintIn) (idt : Out Str) (t0 : Int) (value raw : Str)
    (hv : CookieValueOk value) (hb : c.dealer.encKey = none → '|' ∉ value)
    (hck : LoginCookie c t0 value c!"uam" raw) (r : UserReq) (hold : now - t0 > c.ttl * 60) :
    (authzBrowser env c cdb s now gid mc ma idt (some raw) r).2.1 = s ∧
      (AsksForLogin r (authzBrowser env c cdb s now gid mc ma idt (some raw) r).2.2 ∨
        ∃ e, (authzBrowser env c cdb s now gid mc ma idt (some raw) r).2.2 = .raise e) := by
  have ht : CookieTypeOk c!"uam" := by
    intro h
    have := h.subset (a := ':') (by simp)
    revert this; decide
  have hi : identity c now (some raw) r = .ok .nobody := by
    unfold identity authenticatedAs
    have h1 : now > t0 + c.ttl * 60 := by omega
    simp only [loginCookie_read L hd hv ht (fun e => ⟨hb e, by decide⟩) hck, if_true, pyInt_intStr, h1]
    rfl
  exact (authzBrowser_nobody env c cdb s now gid mc ma idt (some raw) r hi).2

/-! ### C77 -/

/-- C77 is false: whatever `prompt` says, a user with a valid cookie is not asked to log in. -/
theorem C77_prompt_login_ignored (env : Env) (c : AuthnCfg) (cdb : Cdb) (s : Store) (gid uid typ raw : Str) (t0 : Int)
    (r : UserReq) (B : Browser env c cdb s gid uid typ raw t0 r) (hh : r.loginHint = none ∧ r.hints = [])
    (_hp : c!"login" ∈ r.areq.prompt) (hty : typ ≠ c!"uam") (now : Int)
    (hok : demandedAge r = 0 ∨ now ≤ t0 + demandedAge r) (mc ma : MintIn) (idt : Out Str) :
    TakenAsLoggedIn (authzBrowser env c cdb s now gid mc ma idt (some raw) r).2.2 := by
  apply B.served now mc ma idt
  · unfold requestUser; rw [hh.1, hh.2]; split <;> rfl
  · rw [if_neg hty]; exact hok

/-- **C77** (part) With `prompt=none` no login page is ever shown to a browser without a session cookie. -/
theorem C77_prompt_none_partial (env : Env) (c : AuthnCfg) (cdb : Cdb) (s : Store) (now : Int) (gid : Str) (mc ma : MintIn)
    (idt : Out Str) (r : UserReq) (hp : c!"none" ∈ r.areq.prompt) :
    (authzBrowser env c cdb s now gid mc ma idt none r).2.1 = s ∧
      ((authzBrowser env c cdb s now gid mc ma idt none r).2.2 = .error c!"login_required" ∨
        ∃ e, (authzBrowser env c cdb s now gid mc ma idt none r).2.2 = .raise e) := by
  have h := authzBrowser_nobody env c cdb s now gid mc ma idt none r (by rfl)
  refine ⟨h.2.1, ?_⟩
  rcases h.2.2 with h | h
  · left; rw [AsksForLogin, if_pos hp] at h; exact h
  · exact Or.inr h

/-- C77 is false for `prompt=none` if the session in the cookie is another client's: the login page is shown. -/
theorem C77_prompt_none_shows_login (env : Env) (cdb : Cdb) (s : Store) (now : Int) (gid : Str) (req : AuthReq)
    (_hp : c!"none" ∈ req.prompt) (a : AuthnIn) (hru : a.reqUser = none) (user u c g : Str) (hu : GoodId u) (hc : GoodId c)
    (hg : GoodId g) (hi : a.ident = .decoded (some user) (some (sessionKey [u, c, g]))) (g0 : Grant)
    (h0 : getGrant s (sessionKey [u, c, g]) = .ok g0) (hact : g0.isActive now = true) (hother : c ≠ req.clientId) :
    setupAuth env cdb s now gid req a = (s, .val .login) := by
  have hd : dbGet s [u, c, g] = .ok (.grant g0) := (getGrant_iff hu hc hg g0).1 h0
  have hm : mgrGet s (sessionKey [u, c, g]) = .ok (.grant g0) := by
    unfold mgrGet; rw [unpack_good (goodPath_three hu hc hg)]; exact hd
  have hun : unpack3 (sessionKey [u, c, g]) = .ok (u, c, g) := by
    unfold unpack3; rw [unpack_good (goodPath_three hu hc hg)]
  unfold setupAuth
  have ho : req.clientId ≠ c := fun e => hother e.symm
  simp only [hi, hm, hact, Bool.true_eq_false, if_false, hru, Option.isSome_none, Bool.false_eq_true, false_and, hun, ne_eq, ho,
    not_false_eq_true, if_true, ite_self]

/-! ### C78 -/

/-- C78 is false: a user whose name happens to be base64url text that does not decode to a JSON object cannot use the
provider; the exception of the decoder is what every request ends in. -/
theorem C78_decodable_user_raises (env : Env) (c : AuthnCfg) (L : CookieLaws c.cr) (hd : DealerOk c.dealer) (cdb : Cdb)
    (s : Store) (now : Int) (gid : Str) (mc ma : MintIn) (idt : Out Str) (t0 : Int) (uid typ raw bytes : Str) (e : Exn)
    (hv : CookieValueOk uid) (ht : CookieTypeOk typ) (hb : c.dealer.encKey = none → '|' ∉ uid ∧ '|' ∉ typ)
    (hck : LoginCookie c t0 uid typ raw) (hty : typ ≠ c!"uam") (hbd : c.lib.b64d uid = some bytes)
    (hj : c.lib.json bytes = .error e) (r : UserReq) (hh : r.loginHint = none ∧ r.hints = [])
    (hok : demandedAge r = 0 ∨ now ≤ t0 + demandedAge r) (cl : Client)
    (hcl : cdb r.areq.clientId = some cl) (hsc : checkScopes env cl r.areq = true) :
    authzBrowser env c cdb s now gid mc ma idt (some raw) r = (cdb, s, .raise e) := by
  have hsc' : ¬ (checkScopes env cl r.areq = false) := by simp [hsc]
  have hru : requestUser env.oidc c.hintLookup r = .ok none := by
    unfold requestUser; rw [hh.1, hh.2]; split <;> rfl
  have hi : identity c now (some raw) r = .error e := by
    unfold identity authenticatedAs
    simp only [loginCookie_read L hd hv ht hb hck, hty, if_false]
    by_cases h0 : demandedAge r = 0
    · simp only [h0, if_true, hbd, hj]
    · have h1 : now ≤ t0 + demandedAge r := by rcases hok with h | h; exact absurd h h0; exact h
      have : ¬ now > t0 + demandedAge r := by omega
      simp only [h0, if_false, pyInt_intStr, this, hbd, hj]
  unfold authzBrowser authnIn
  simp only [hcl, hru, hi]
  rw [if_neg hsc']

/-- **C78** (part) A user whose name is legal and not base64url is served.  Missing: the names that are. -/
theorem C78_plain_user_served_partial (env : Env) (c : AuthnCfg) (cdb : Cdb) (s : Store) (gid uid typ raw : Str) (t0 : Int)
    (r : UserReq) (B : Browser env c cdb s gid uid typ raw t0 r) (hh : r.loginHint = none ∧ r.hints = []) (hty : typ ≠ c!"uam")
    (now : Int) (hok : demandedAge r = 0 ∨ now ≤ t0 + demandedAge r) (mc ma : MintIn) (idt : Out Str) :
    TakenAsLoggedIn (authzBrowser env c cdb s now gid mc ma idt (some raw) r).2.2 := by
  apply B.served now mc ma idt
  · unfold requestUser; rw [hh.1, hh.2]; split <;> rfl
  · rw [if_neg hty]; exact hok

/-! ### C79 -/

/-- Whoever a session is for, the cookie named or carried them. -/
theorem setupAuth_user (env : Env) (cdb : Cdb) (s s' : Store) (now : Int) (gid : Str) (req : AuthReq) (a : AuthnIn)
    (sid user : Str) (h : setupAuth env cdb s now gid req a = (s', .val (.session sid user))) :
    ((a.ident = .plain user ∧ startSession env cdb s now gid req a user = (s', .val (.session sid user))) ∨
      (∃ x, a.ident = .decoded (some user) (some x)) ∧ ∃ ev, getAuthnEvent s' sid = .ok ev ∧ eventValid now ev = .ok true) ∧
    (a.reqUser = none ∨ a.reqUser = some user) := by
  unfold setupAuth at h
  cases hi : a.ident with
  | nobody => rw [hi] at h; simp only [Prod.mk.injEq, Out.val.injEq] at h; exact absurd h.2 (needLogin_ne req sid user)
  | plain uid =>
    rw [hi] at h; simp only at h
    by_cases h1 : a.reAuth = true
    · simp [h1] at h
    · simp only [h1, Bool.false_eq_true, if_false] at h
      by_cases h2 : a.reqUser.isSome ∧ a.reqUser ≠ some uid
      · rw [if_pos h2] at h; simp only [Prod.mk.injEq, Out.val.injEq] at h; exact absurd h.2 (needLogin_ne req sid user)
      · simp only [if_neg h2] at h
        have hkeep := h
        unfold startSession at h
        dsimp only at h
        generalize createSession env.sf s now gid uid req.clientId _ = q at h
        obtain ⟨q1, q2⟩ := q
        cases q2 with
        | error e => simp at h
        | ok sid' =>
          simp only [Bool.false_eq_true, if_false, Prod.mk.injEq, Out.val.injEq, Setup.session.injEq] at h
          have hu := h.2.2
          rw [hu] at hkeep h2
          rw [hu]
          refine ⟨Or.inl ⟨rfl, hkeep⟩, ?_⟩
          cases hq : a.reqUser with
          | none => exact Or.inl rfl
          | some v =>
            right
            simp only [hq, Option.isSome_some, true_and, ne_eq, Classical.not_not] at h2
            exact h2
  | decoded uid sid0 =>
    rw [hi] at h; simp only at h
    cases sid0 with
    | none => simp at h
    | some sid0 =>
      simp only at h
      cases hm : mgrGet s sid0 with
      | error e => simp [hm] at h
      | ok o => cases o with
        | info i => simp [hm] at h
        | grant g0 =>
          simp only [hm] at h
          by_cases h0 : g0.isActive now = false
          · rw [if_pos h0] at h; simp only [Prod.mk.injEq, Out.val.injEq] at h; exact absurd h.2 (needLogin_ne req sid user)
          · simp only [if_neg h0] at h
            by_cases h1 : a.reAuth = true
            · simp [h1] at h
            · simp only [h1, Bool.false_eq_true, if_false] at h
              cases uid with
              | none => simp at h
              | some uid =>
                simp only at h
                by_cases h2 : a.reqUser.isSome ∧ a.reqUser ≠ some uid
                · rw [if_pos h2] at h; simp only [Bool.false_eq_true, if_false, Prod.mk.injEq, Out.val.injEq] at h
                  exact absurd h.2 (needLogin_ne req sid user)
                · simp only [if_neg h2] at h
                  have hreq : a.reqUser = none ∨ a.reqUser = some uid := by
                    cases hq : a.reqUser with
                    | none => exact Or.inl rfl
                    | some v =>
                      right
                      simp only [hq, Option.isSome_some, true_and, ne_eq, Classical.not_not] at h2
                      exact h2
                  suffices e : uid = user ∧ ∃ ev, getAuthnEvent s' sid = .ok ev ∧ eventValid now ev = .ok true by
                    rw [e.1] at hreq; exact ⟨Or.inr ⟨⟨sid0, by rw [e.1]⟩, e.2⟩, hreq⟩
                  cases hun : unpack3 sid0 with
                  | error e => simp [hun] at h
                  | ok t =>
                    obtain ⟨x, cc, y⟩ := t
                    simp only [hun] at h
                    by_cases hcid : req.clientId ≠ cc
                    · simp [hcid] at h
                    · simp only [if_neg hcid] at h
                      generalize (if g0.authReq = some req then (s, Out.val sid0) else _) = q at h
                      obtain ⟨q1, q2⟩ := q
                      cases q2 with
                      | raise e => simp at h
                      | errMsg e => simp at h
                      | val sid1 =>
                        simp only at h
                        cases he : getAuthnEvent q1 sid1 with
                        | error e => simp [he] at h
                        | ok ev =>
                          simp only [he] at h
                          cases hv : eventValid now ev with
                          | error e => simp [hv] at h
                          | ok b => cases b with
                            | false => simp [hv] at h
                            | true =>
                              simp only [hv, Bool.false_eq_true, if_false, Prod.mk.injEq, Out.val.injEq, Setup.session.injEq] at h
                              obtain ⟨h1, h2, h3⟩ := h
                              rw [← h1, ← h2]
                              exact ⟨h3, ev, he, hv⟩

/-- **C79** (part) If the cookie was set for a user name that is not base64url, a session that the authorization endpoint
continues with is that user's.  Missing: names that are base64url, see below. -/
theorem C79_session_of_cookie_user_partial (env : Env) (c : AuthnCfg) (L : CookieLaws c.cr) (hd : DealerOk c.dealer)
    (cdb : Cdb) (s s' : Store) (now : Int) (gid : Str) (t0 : Int) (uid typ raw : Str)
    (hv : CookieValueOk uid) (ht : CookieTypeOk typ) (hb : c.dealer.encKey = none → '|' ∉ uid ∧ '|' ∉ typ)
    (hck : LoginCookie c t0 uid typ raw) (hnb : c.lib.b64d uid = none) (r : UserReq) (a : AuthnIn)
    (ha : authnIn env c now (some raw) r = .ok a) (sid user : Str)
    (h : setupAuth env cdb s now gid r.areq a = (s', .val (.session sid user))) : user = uid := by
  have hu := (setupAuth_user env cdb s s' now gid r.areq a sid user h).1
  unfold authnIn at ha
  cases hr : requestUser env.oidc c.hintLookup r with
  | error e => simp [hr] at ha
  | ok u =>
    simp only [hr] at ha
    cases hi : identity c now (some raw) r with
    | error e => simp [hi] at ha
    | ok i =>
      simp only [hi, Except.ok.injEq] at ha
      have e : a.ident = i := by rw [← ha]
      rw [e] at hu
      unfold identity at hi
      cases hx : authenticatedAs c now (some raw) (demandedAge r) with
      | error e =>
        simp only [hx] at hi
        cases hn : nobodyExn e with
        | true => simp only [hn, if_true, Except.ok.injEq] at hi; rw [← hi] at hu; simp at hu
        | false => simp [hn] at hi
      | ok o =>
        cases o with
        | none => simp only [hx, Except.ok.injEq] at hi; rw [← hi] at hu; simp at hu
        | some p =>
          obtain ⟨p1, p2⟩ := p
          have hp : p1 = uid := by
            unfold authenticatedAs at hx
            simp only [loginCookie_read L hd hv ht hb hck, pyInt_intStr] at hx
            split at hx
            · split at hx <;> simp at hx; exact hx.1.symm
            · split at hx
              · simp at hx; exact hx.1.symm
              · split at hx <;> simp at hx; exact hx.1.symm
          simp only [hx, hp, hnb, Except.ok.injEq] at hi
          rw [← hi] at hu
          simp at hu
          exact hu.1.symm

/-- C79 is false: a user may be called anything.  If the name is the base64url text of a JSON object with the session id of
an active session of this client (the user's own, say) and somebody else's user id, then a new request leads to a session,
and so to a code and tokens, of that other user, who need not have logged in ever. -/
theorem C79_impersonation (env : Env) (f : Str → Option Str → Str) (hsf : env.sf c!"public" = some f) (c : AuthnCfg)
    (L : CookieLaws c.cr) (hd : DealerOk c.dealer) (cdb : Cdb) (s : Store) (hT : Tree s) (now : Int) (gid : Str)
    (hg : GoodId gid) (t0 : Int) (name typ raw bytes : Str) (hv : CookieValueOk name) (ht : CookieTypeOk typ)
    (hb : c.dealer.encKey = none → '|' ∉ name ∧ '|' ∉ typ) (hck : LoginCookie c t0 name typ raw) (hty : typ ≠ c!"uam")
    (r : UserReq) (hok : demandedAge r = 0 ∨ now ≤ t0 + demandedAge r) (hh : r.loginHint = none ∧ r.hints = [])
    (own g victim : Str) (ho : GoodId own) (hcl : GoodId r.areq.clientId) (hgi : GoodId g) (hvi : GoodId victim)
    (hbd : c.lib.b64d name = some bytes)
    (hj : c.lib.json bytes = .ok (some victim, some (sessionKey [own, r.areq.clientId, g])))
    (g0 : Grant) (h0 : getGrant s (sessionKey [own, r.areq.clientId, g]) = .ok g0) (hact : g0.isActive now = true)
    (hreq : g0.authReq ≠ some r.areq) (ev : AuthnEvent) (hev : g0.authnEvent = some ev) (hval : ev.validUntil > now) :
    ∃ a s' gr, authnIn env c now (some raw) r = .ok a ∧
      setupAuth env cdb s now gid r.areq a = (s', .val (.session (sessionKey [victim, r.areq.clientId, gid]) victim)) ∧
      getGrant s' (sessionKey [victim, r.areq.clientId, gid]) = .ok gr ∧ gr.sub = f victim r.areq.sectorIdentifierUri := by
  have hru : requestUser env.oidc c.hintLookup r = .ok none := by
    unfold requestUser; rw [hh.1, hh.2]; split <;> rfl
  have hi : identity c now (some raw) r =
      .ok (.decoded (some victim) (some (sessionKey [own, r.areq.clientId, g]))) := by
    unfold identity authenticatedAs
    simp only [loginCookie_read L hd hv ht hb hck, hty, if_false]
    by_cases h0 : demandedAge r = 0
    · simp only [h0, if_true, hbd, hj]
    · have h1 : now ≤ t0 + demandedAge r := by rcases hok with h | h; exact absurd h h0; exact h
      have : ¬ now > t0 + demandedAge r := by omega
      simp only [h0, if_false, pyInt_intStr, this, hbd, hj]
  have hd3 : dbGet s [own, r.areq.clientId, g] = .ok (.grant g0) := (getGrant_iff ho hcl hgi g0).1 h0
  have hm : mgrGet s (sessionKey [own, r.areq.clientId, g]) = .ok (.grant g0) := by
    unfold mgrGet; rw [unpack_good (goodPath_three ho hcl hgi)]; exact hd3
  have hun : unpack3 (sessionKey [own, r.areq.clientId, g]) = .ok (own, r.areq.clientId, g) := by
    unfold unpack3; rw [unpack_good (goodPath_three ho hcl hgi)]
  have hun2 : unpack3 (sessionKey [victim, r.areq.clientId, gid]) = .ok (victim, r.areq.clientId, gid) := by
    unfold unpack3; rw [unpack_good (goodPath_three hvi hcl hg)]
  generalize hG : Grant.new now gid { authReq := some r.areq, authnEvent := g0.authnEvent, sub := f victim r.areq.sectorIdentifierUri, usageRules := [], maxUsage := none, scope := [] } = G
  have hGe : G.authnEvent = some ev := by rw [← hG, ← hev]; rfl
  have hGs : G.sub = f victim r.areq.sectorIdentifierUri := by rw [← hG]; rfl
  obtain ⟨s', h1, h2⟩ := C13_read_own_write s hT.typed [victim, r.areq.clientId, gid] (goodPath_three hvi hcl hg)
    (by simp) (.grant G)
  have hcg : createGrant env.sf s now gid victim r.areq.clientId { authnEvent := g0.authnEvent, authReq := r.areq } =
      (s', .ok (sessionKey [victim, r.areq.clientId, gid])) := by
    unfold createGrant newGrant
    simp only [hsf, hG, h1]
  have hge : getAuthnEvent s' (sessionKey [victim, r.areq.clientId, gid]) = .ok (some ev) := by
    unfold getAuthnEvent; simp only [hun2, h2, hGe]
  refine ⟨{ ident := .decoded (some victim) (some (sessionKey [own, r.areq.clientId, g])), acr := c.acr, expiresIn := c.expiresIn, reqUser := none, reAuth := false },
    s', G, ?_, ?_, (getGrant_iff hvi hcl hg G).2 h2, hGs⟩
  · unfold authnIn
    simp only [hru, hi]
    rfl
  · unfold setupAuth
    have e1 : eventValid now (some ev) = .ok true := by simp [eventValid, hval]
    have e2 : eventValid now g0.authnEvent = .ok true := by rw [hev]; exact e1
    simp only [hm, hact, Bool.true_eq_false, if_false, reAuthenticate, Bool.false_eq_true, Option.isSome_none, false_and,
      hun, ne_eq, not_true_eq_false, hreq, e2, hcg, hge, e1]

/-! ### C80 -/

/-- C80 is false for `id_token_hint`: the provider looks for a hint of another name, so the user named by the hint (the only
one there is) is not asked for, and whoever is logged in is served. -/
theorem C80_id_token_hint_ignored (env : Env) (c : AuthnCfg) (cdb : Cdb) (s : Store) (gid uid typ raw : Str) (t0 : Int)
    (r : UserReq) (B : Browser env c cdb s gid uid typ raw t0 r) (hty : typ ≠ c!"uam") (hh : r.loginHint = none) (hinted : Str)
    (_hother : hinted ≠ uid) (hhint : r.hints = [(c!"id_token_hint", hinted)])
    (now : Int) (hok : demandedAge r = 0 ∨ now ≤ t0 + demandedAge r) (mc ma : MintIn) (idt : Out Str) :
    TakenAsLoggedIn (authzBrowser env c cdb s now gid mc ma idt (some raw) r).2.2 := by
  apply B.served now mc ma idt
  · unfold requestUser
    have : Dict.get? r.hints c!"it_token_hint" = none := by rw [hhint]; rfl
    rw [hh, this]; split <;> rfl
  · rw [if_neg hty]; exact hok

/-- C80 is false for `login_hint`: without a configured lookup it is ignored … -/
theorem C80_login_hint_ignored (env : Env) (c : AuthnCfg) (cdb : Cdb) (s : Store) (gid uid typ raw : Str) (t0 : Int)
    (r : UserReq) (B : Browser env c cdb s gid uid typ raw t0 r) (hty : typ ≠ c!"uam") (hc : c.hintLookup = false)
    (hhint : r.hints = []) (now : Int) (hok : demandedAge r = 0 ∨ now ≤ t0 + demandedAge r) (mc ma : MintIn) (idt : Out Str) :
    TakenAsLoggedIn (authzBrowser env c cdb s now gid mc ma idt (some raw) r).2.2 := by
  apply B.served now mc ma idt
  · unfold requestUser
    rw [hc, hhint]
    split
    · rfl
    · simp only [Dict.get?, Bool.false_eq_true, if_false]
      split <;> rfl
  · rw [if_neg hty]; exact hok

/-- … and with one every request of a known client that has a login hint ends in an exception. -/
theorem C80_login_hint_raises (env : Env) (ho : env.oidc = true) (c : AuthnCfg) (hc : c.hintLookup = true) (cdb : Cdb)
    (s : Store) (now : Int) (gid : Str) (mc ma : MintIn) (idt : Out Str) (raw : Option Str) (r : UserReq)
    (x : Char) (xs : Str) (hl : r.loginHint = some (x :: xs)) (hhint : Dict.get? r.hints c!"it_token_hint" = none)
    (cl : Client) (hcl : cdb r.areq.clientId = some cl) (hsc : checkScopes env cl r.areq = true) :
    authzBrowser env c cdb s now gid mc ma idt raw r = (cdb, s, .raise .typeError) := by
  have hsc' : ¬ (checkScopes env cl r.areq = false) := by simp [hsc]
  have hru : requestUser env.oidc c.hintLookup r = .error .typeError := by
    unfold requestUser; rw [hl, hhint, hc, ho]; rfl
  unfold authzBrowser authnIn
  simp only [hcl, hru]
  rw [if_neg hsc']

/-- **C80** (part) If a particular user is asked for (by an application that passes `req_user` on), the session is that
user's, whatever the cookie says.  Missing: the hints in the request, which never get that far. -/
theorem C80_asked_for_user_partial (env : Env) (cdb : Cdb) (s s' : Store) (now : Int) (gid : Str) (req : AuthReq) (a : AuthnIn)
    (u : Str) (ha : a.reqUser = some u) (sid user : Str)
    (h : setupAuth env cdb s now gid req a = (s', .val (.session sid user))) : user = u := by
  rcases (setupAuth_user env cdb s s' now gid req a sid user h).2 with e | e
  · rw [ha] at e; exact absurd e (by simp)
  · rw [ha] at e; exact (Option.some.inj e).symm

/-- **C80** (part) At the authorization endpoint: a verified hint under the one name that is looked at which names somebody else
than the user of the cookie leads to the login page (or the request fails), and nothing is stored. -/
theorem C80_other_user_sent_to_login_partial (env : Env) (ho : env.oidc = true) (c : AuthnCfg) (L : CookieLaws c.cr) (hd : DealerOk c.dealer) (cdb : Cdb)
    (s : Store) (now : Int) (gid : Str) (t0 : Int) (uid typ raw : Str) (hv : CookieValueOk uid) (ht : CookieTypeOk typ)
    (hb : c.dealer.encKey = none → '|' ∉ uid ∧ '|' ∉ typ) (hck : LoginCookie c t0 uid typ raw) (hnb : c.lib.b64d uid = none) (r : UserReq)
    (w : Str) (hw : w ≠ []) (hhint : Dict.get? r.hints c!"it_token_hint" = some w) (hother : w ≠ uid) (mc ma : MintIn) (idt : Out Str) :
    (authzBrowser env c cdb s now gid mc ma idt (some raw) r).1 = cdb ∧ (authzBrowser env c cdb s now gid mc ma idt (some raw) r).2.1 = s ∧
      (AsksForLogin r (authzBrowser env c cdb s now gid mc ma idt (some raw) r).2.2 ∨
        ∃ e, (authzBrowser env c cdb s now gid mc ma idt (some raw) r).2.2 = .raise e) := by
  suffices hs : ∃ ans, authzBrowser env c cdb s now gid mc ma idt (some raw) r = (cdb, s, ans) ∧
      (AsksForLogin r ans ∨ ∃ e, ans = .raise e) by
    obtain ⟨ans, h1, h2⟩ := hs
    rw [h1]
    exact ⟨rfl, rfl, h2⟩
  have hru : requestUser env.oidc c.hintLookup r = .ok (some w) := by
    unfold requestUser
    rw [ho, hhint]
    cases w with
    | nil => exact absurd rfl hw
    | cons x xs => rfl
  have hid : (∃ e, identity c now (some raw) r = .error e) ∨ identity c now (some raw) r = .ok .nobody ∨ identity c now (some raw) r = .ok (.plain uid) := by
    unfold identity
    cases hx : authenticatedAs c now (some raw) (demandedAge r) with
    | error e => cases hn : nobodyExn e <;> simp [hn]
    | ok o =>
      cases o with
      | none => exact Or.inr (Or.inl rfl)
      | some p =>
        obtain ⟨p1, p2⟩ := p
        have hp : p1 = uid := by
          unfold authenticatedAs at hx
          simp only [loginCookie_read L hd hv ht hb hck, pyInt_intStr] at hx
          split at hx
          · split at hx <;> simp at hx; exact hx.1.symm
          · split at hx
            · simp at hx; exact hx.1.symm
            · split at hx <;> simp at hx; exact hx.1.symm
        dsimp only
        rw [hp, hnb]
        exact Or.inr (Or.inr rfl)
  unfold authzBrowser
  cases hc : cdb r.areq.clientId with
  | none => exact ⟨_, rfl, Or.inr ⟨_, rfl⟩⟩
  | some cl =>
    by_cases hs : checkScopes env cl r.areq = false
    · simp only [hs, if_true]; exact ⟨_, rfl, Or.inr ⟨_, rfl⟩⟩
    · simp only [hs, if_false]
      unfold authnIn
      simp only [hru]
      rcases hid with ⟨e, hid⟩ | hid | hid
      · rw [hid]; exact ⟨_, rfl, Or.inr ⟨_, rfl⟩⟩
      · rw [hid]
        simp only [authzProcess, hc, hs, if_false, setupAuth, needLogin, AsksForLogin]
        by_cases hp : c!"none" ∈ r.areq.prompt
        · rw [if_pos hp]; exact ⟨_, rfl, Or.inl (by rw [if_pos hp])⟩
        · rw [if_neg hp]; exact ⟨_, rfl, Or.inl (by rw [if_neg hp])⟩
      · rw [hid]
        have hne : ¬ (some w = some uid) := fun h => hother (Option.some.inj h)
        simp only [authzProcess, hc, hs, if_false, setupAuth, reAuthenticate, Bool.false_eq_true, Option.isSome_some, ne_eq, hne,
          not_false_eq_true, and_self, if_true, needLogin, AsksForLogin]
        by_cases hp : c!"none" ∈ r.areq.prompt
        · rw [if_pos hp]; exact ⟨_, rfl, Or.inl (by rw [if_pos hp])⟩
        · rw [if_neg hp]; exact ⟨_, rfl, Or.inl (by rw [if_neg hp])⟩

/-! ### C82 -/

/-- **C82** (part) The password form lets in exactly the users of its database with their passwords. -/
theorem C82_password_form (db : Dict Str) (user pw u : Str) :
    userPassVerify db user pw = some u ↔ u = user ∧ Dict.get? db user = some pw := by
  unfold userPassVerify
  split
  · rename_i h; simp [h, eq_comm]
  · rename_i h; simp [h]

/-- C82 is false for HTTP Basic and for symmetric-key tokens: no header lets anybody in, whatever the decoder does. -/
theorem C82_basic_lets_nobody_in (b64decode : Str → Except Exn Str) (authorization : Str) :
    ∀ x, basicAuthenticatedAs b64decode authorization ≠ .ok x := by
  intro x
  unfold basicAuthenticatedAs
  dsimp only
  split <;> simp

/-- C82: how it fails, for a header of the standard form: what follows "Basic " is decoded, and then there is a `TypeError`. -/
theorem C82_basic_fails_so (b64decode : Str → Except Exn Str) (credentials : Str) :
    (∀ e, b64decode credentials = .error e → basicAuthenticatedAs b64decode (c!"Basic " ++ credentials) = .error e) ∧
    (∀ b, b64decode credentials = .ok b → basicAuthenticatedAs b64decode (c!"Basic " ++ credentials) = .error .typeError) := by
  have hp : (c!"Basic").isPrefixOf (c!"Basic " ++ credentials) = true := by simp [List.isPrefixOf]
  have hd : (c!"Basic " ++ credentials).drop 6 = credentials := rfl
  unfold basicAuthenticatedAs
  simp only [hp, if_true, hd]
  exact ⟨fun e h => by rw [h], fun b h => by rw [h]⟩

/-! ### Witnesses -/

/-- The base64url alphabet. -/
def b64val (ch : Char) : Option Nat :=
  let n := ch.toNat
  if 65 ≤ n ∧ n ≤ 90 then some (n - 65)
  else if 97 ≤ n ∧ n ≤ 122 then some (n - 71)
  else if 48 ≤ n ∧ n ≤ 57 then some (n + 4)
  else if ch = '-' then some 62
  else if ch = '_' then some 63
  else none

/-- Decoding base64url without padding into bytes. -/
def b64urlGo : Str → Option Str
  | [] => some []
  | [_] => none
  | [a, b] => match b64val a, b64val b with
    | some x, some y => some [Char.ofNat (x * 4 + y / 16)]
    | _, _ => none
  | [a, b, d] => match b64val a, b64val b, b64val d with
    | some x, some y, some z => some [Char.ofNat (x * 4 + y / 16), Char.ofNat (y % 16 * 16 + z / 4)]
    | _, _, _ => none
  | a :: b :: d :: e :: rest => match b64val a, b64val b, b64val d, b64val e, b64urlGo rest with
    | some x, some y, some z, some w, some r =>
      some (Char.ofNat (x * 4 + y / 16) :: Char.ofNat (y % 16 * 16 + z / 4) :: Char.ofNat (z % 4 * 64 + w) :: r)
    | _, _, _, _, _ => none

/-- A JSON parser that knows one object. -/
def demoJson (s : Str) : Except Exn (Option Str × Option Str) :=
  if s = c!"{\"uid\":\"alice\",\"sid\":\"mal.lory;;c1;;g1\"}" then .ok (some c!"alice", some c!"mal.lory;;c1;;g1")
  else .error .valueError

def demoAuthn : AuthnCfg where
  cr := toyCookieCrypto
  dealer := ⟨some c!"k", none⟩
  ttl := 5
  lib := ⟨b64urlGo, demoJson⟩
  acr := c!"pw"

/-- `lisa` and `diana1` are base64url, `lisa.b` and `diana` (five characters) are not. -/
example : (b64urlGo c!"lisa").isSome ∧ (b64urlGo c!"diana1").isSome ∧ b64urlGo c!"lisa.b" = none ∧ b64urlGo c!"diana" = none := by
  decide

def demoUserReq : UserReq := { areq := demoReq [c!"code"] }

theorem noDouble {v : Str} (h : ':' ∉ v) : CookieValueOk v ∧ CookieTypeOk v := by
  refine ⟨⟨fun hi => h (hi.subset (by simp)), fun hs => h (hs.subset (by simp))⟩, fun hi => h (hi.subset (by simp))⟩

/-- The hypotheses of C76–C80 are met: diana's cookie, set at time 1000, of type "sso". -/
theorem demoBrowser (r : UserReq) (hr : r.areq.clientId = c!"c1" ∧ r.areq.scope = [c!"openid", c!"offline_access"]) (typ : Str)
    (ht : ':' ∉ typ ∧ '|' ∉ typ) :
    ∃ raw, Browser demoEnv demoAuthn demoDb Store.empty c!"g1" c!"diana" typ raw 1000 r := by
  refine ⟨_, ⟨toyCookieLaws, ⟨Or.inl (by simp [demoAuthn]), by simp [demoAuthn]⟩, ⟨_, rfl⟩, tree_empty, ?_, ?_, ⟨demoClient c!"https://rp/cb", ?_, ?_⟩, ?_,
    (noDouble (by decide)).1, (noDouble ht.1).2, fun _ => ⟨by decide, ht.2⟩, ⟨[], rfl⟩, by decide⟩⟩
  · simp [GoodId, SemicolonFree]
  · rw [hr.1]; simp [GoodId, SemicolonFree]
  · rw [hr.1]; rfl
  · unfold checkScopes; rw [hr.2]; decide
  · simp [GoodId, SemicolonFree]

example : ∃ raw, Browser demoEnv demoAuthn demoDb Store.empty c!"g1" c!"diana" c!"sso" raw 1000
    { demoUserReq with upmAnswer := some c!"true", areq := { demoReq [c!"code"] with maxAge := 10, prompt := [c!"login"] } } :=
  demoBrowser _ ⟨rfl, rfl⟩ _ ⟨by decide, by decide⟩

/-- What the demo provider answers at time `now` to a browser with a cookie of type `typ` set at 1000 for `name`. -/
def demoBrowse (now : Int) (name typ : Str) (r : UserReq) : Option AuthzAnswer :=
  match createCookieValue demoAuthn.cr demoAuthn.dealer 1000 [] name typ with
  | .ok raw => some (authzBrowser demoEnv demoAuthn demoDb Store.empty now c!"g1" (mintIn c!"n1") (mintIn c!"n2") (.val c!"IDT")
      (some raw) r).2.2
  | .error _ => none

def isReply : Option AuthzAnswer → Bool
  | some (.reply _) => true
  | _ => false

def withAge (m : Int) : UserReq := { demoUserReq with areq := { demoReq [c!"code"] with maxAge := m } }

set_option maxRecDepth 16000 in
/-- `max_age=10`: accepted 10 seconds after the login, refused after 11. -/
example : isReply (demoBrowse 1010 c!"diana" c!"sso" (withAge 10)) = true ∧
    demoBrowse 1011 c!"diana" c!"sso" (withAge 10) = some .login := by decide

set_option maxRecDepth 16000 in
/-- A hint that names the user herself, and one that names somebody else. -/
example : isReply (demoBrowse 1010 c!"diana" c!"sso" { demoUserReq with hints := [(c!"it_token_hint", c!"diana")] }) = true ∧
    demoBrowse 1010 c!"diana" c!"sso" { demoUserReq with hints := [(c!"it_token_hint", c!"bob")] } = some .login := by decide

set_option maxRecDepth 16000 in
/-- `lisa` cannot use the provider. -/
example : demoBrowse 1010 c!"lisa" c!"sso" demoUserReq = some (.raise .valueError) ∧
    isReply (demoBrowse 1010 c!"lisa.b" c!"sso" demoUserReq) = true := by decide

set_option maxRecDepth 16000 in
/-- `mal.lory` logs in, and comes back as a user called "eyJ1aWQi…", the base64url text of an object that names alice. -/
example :
    let s1 := (authzProcess demoEnv demoDb Store.empty 1000 c!"g1" (mintIn c!"n1") (mintIn c!"n2") (.val c!"IDT")
      { ident := .plain c!"mal.lory" } (demoReq [c!"code"])).2.1
    let r : UserReq := { areq := { demoReq [c!"code"] with state := some c!"other" } }
    let raw := createCookieValue demoAuthn.cr demoAuthn.dealer 1000 []
      c!"eyJ1aWQiOiJhbGljZSIsInNpZCI6Im1hbC5sb3J5OztjMTs7ZzEifQ" c!"sso"
    (match raw with
      | .ok raw => match authnIn demoEnv demoAuthn 1001 (some raw) r with
        | .ok a => some (setupAuth demoEnv demoDb s1 1001 c!"g2" r.areq a).2
        | .error _ => none
      | .error _ => none) = some (.val (.session (sessionKey [c!"alice", c!"c1", c!"g2"]) c!"alice")) := by decide

end Verif
