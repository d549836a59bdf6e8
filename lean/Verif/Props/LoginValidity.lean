import Verif.Props.UserAuthn
set_option linter.unusedSimpArgs false
/-! C83: a login is relied on only while it is valid. -/
namespace Verif
open Spec

/-- **C83** Whenever the authorization endpoint goes on with a session, the login recorded for it is still valid. -/
theorem C83_session_login_valid (env : Env) (f : Str → Option Str → Str) (hsf : env.sf c!"public" = some f) (cdb : Cdb)
    (s s' : Store) (hT : Tree s) (now : Int) (gid : Str) (hg : GoodId gid) (req : AuthReq) (hc : GoodId req.clientId)
    (a : AuthnIn) (hexp : ∀ e, a.expiresIn = some e → 0 ≤ e) (hu : ∀ u, a.ident = .plain u → GoodId u) (sid user : Str)
    (h : setupAuth env cdb s now gid req a = (s', .val (.session sid user))) :
    ∃ ev, getAuthnEvent s' sid = .ok (some ev) ∧ now < ev.validUntil := by
  rcases (setupAuth_user env cdb s s' now gid req a sid user h).1 with ⟨h1, h2⟩ | ⟨_, ev, h2, h3⟩
  · have hgu := hu user h1
    obtain ⟨s1, gr, e1, e2, _, ⟨ev, e4, _, _, _, e5⟩, _⟩ := startSession_grant env f hsf cdb s hT now gid hg req hc a user hgu
    rw [h2] at e1
    simp only [Prod.mk.injEq, Out.val.injEq, Setup.session.injEq] at e1
    obtain ⟨rfl, rfl, _⟩ := e1
    refine ⟨ev, ?_, ?_⟩
    · unfold getAuthnEvent unpack3
      rw [unpack_good (goodPath_three hgu hc hg)]
      simp only [(getGrant_iff hgu hc hg gr).1 e2, e4]
    · rw [e5]
      split
      · omega
      · rename_i hn
        cases hx : a.expiresIn with
        | none => exact absurd (Or.inl hx) hn
        | some e =>
          have := hexp e hx
          have h0 : e ≠ 0 := fun h0 => hn (Or.inr (by rw [hx, h0]))
          simp only [Option.getD_some]
          omega
  · cases ev with
    | none => simp [eventValid] at h3
    | some ev =>
      simp only [eventValid, Except.ok.injEq, decide_eq_true_eq] at h3
      exact ⟨ev, h2, h3⟩

/-- **C83** A login recorded for a new session is valid for the configured time, an hour if none is configured, counted from now. -/
theorem C83_validity_period (env : Env) (f : Str → Option Str → Str) (hsf : env.sf c!"public" = some f) (cdb : Cdb)
    (s : Store) (hT : Tree s) (now : Int) (gid : Str) (hg : GoodId gid) (req : AuthReq) (hc : GoodId req.clientId)
    (a : AuthnIn) (uid : Str) (hu : GoodId uid) (h1 : a.ident = .plain uid) (h2 : a.reAuth = false) (h3 : a.reqUser = none) :
    ∃ s' sid gr ev, setupAuth env cdb s now gid req a = (s', .val (.session sid uid)) ∧ getGrant s' sid = .ok gr ∧
      gr.authnEvent = some ev ∧
      ev.validUntil = now + (if a.expiresIn = none ∨ a.expiresIn = some 0 then 3600 else a.expiresIn.getD 0) := by
  rw [setupAuth_plain env cdb s now gid req a uid h1 h2 h3]
  obtain ⟨s', gr, e1, e2, _, ⟨ev, e4, _, _, _, e5⟩, _⟩ := startSession_grant env f hsf cdb s hT now gid hg req hc a uid hu
  exact ⟨s', _, gr, ev, e1, e2, e4, e5⟩

/-- **C83** If the login of the session in the cookie has expired, the user is sent to log in and nothing is stored. -/
theorem C83_expired_login_refused (env : Env) (cdb : Cdb) (s : Store) (now : Int) (gid : Str) (req : AuthReq) (a : AuthnIn)
    (user u g : Str) (hu : GoodId u) (hc : GoodId req.clientId) (hg : GoodId g)
    (hi : a.ident = .decoded (some user) (some (sessionKey [u, req.clientId, g]))) (hr : a.reqUser = none) (g0 : Grant)
    (h0 : getGrant s (sessionKey [u, req.clientId, g]) = .ok g0) (hact : g0.isActive now = true) (ev : AuthnEvent)
    (hev : g0.authnEvent = some ev) (hx : ev.validUntil ≤ now) :
    setupAuth env cdb s now gid req a = (s, .val .login) := by
  have hd : dbGet s [u, req.clientId, g] = .ok (.grant g0) := (getGrant_iff hu hc hg g0).1 h0
  have hun : unpack3 (sessionKey [u, req.clientId, g]) = .ok (u, req.clientId, g) := by
    unfold unpack3; rw [unpack_good (goodPath_three hu hc hg)]
  have hm : mgrGet s (sessionKey [u, req.clientId, g]) = .ok (.grant g0) := by
    unfold mgrGet; rw [unpack_good (goodPath_three hu hc hg)]; exact hd
  have hinv : eventValid now (some ev) = .ok false := by
    have : ¬ ev.validUntil > now := by omega
    simp [eventValid, this]
  have hge : getAuthnEvent s (sessionKey [u, req.clientId, g]) = .ok (some ev) := by
    unfold getAuthnEvent; simp only [hun, hd, hev]
  unfold setupAuth
  by_cases hra : a.reAuth = true
  · simp only [hi, hm, hact, Bool.true_eq_false, if_false, hra, if_true]
  · simp only [hi, hm, hact, Bool.true_eq_false, if_false, hra, Bool.false_eq_true, hr, Option.isSome_none, false_and, hun, ne_eq,
      not_true_eq_false, hev, hinv]
    by_cases hq : g0.authReq = some req
    · simp only [hq, if_true, hge, hinv]
    · simp only [hq, if_false]

/-! ### Witnesses -/

set_option maxRecDepth 16000 in
/-- The session of the demo authorization (made at 1, valid until 3601): taken up again at 100, refused at 3601, where it would
still be active if the grant did not expire before. -/
example :
    let s1 := (demoAuthz [c!"code"] none).2.1
    let again := fun now => (setupAuth demoEnv demoDb s1 now c!"g2" (demoReq [c!"code"])
      { ident := .decoded (some c!"diana") (some (sessionKey [c!"diana", c!"c1", c!"g1"])) }).2
    again 100 = .val (.session (sessionKey [c!"diana", c!"c1", c!"g1"]) c!"diana") ∧ again 3601 = .val .login := by decide

/-- The hypotheses of `C83_expired_login_refused` are met by a grant that does not expire. -/
example : ∃ g0 ev, getGrant (createSession demoEnv.sf Store.empty 1 c!"g1" c!"diana" c!"c1"
      { authReq := demoReq [c!"code"], authnEvent := some (createAuthnEvent 1 c!"diana" [] 0) }).1
      (sessionKey [c!"diana", c!"c1", c!"g1"]) = .ok g0 ∧ g0.isActive 3601 = true ∧ g0.authnEvent = some ev ∧
      ev.validUntil ≤ 3601 := ⟨_, _, rfl, by decide, rfl, by decide⟩

end Verif
