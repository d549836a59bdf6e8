import Verif.Spec.NoAuthn
import Verif.Props.UserAuthn
import Verif.Props.Provenance
import Verif.Lemmas.Gone
/-! C161: a provider that asks nobody to log in. -/
set_option linter.unusedSimpArgs false
namespace Verif
open Spec

/-- What the theorems have in common: the client is known, the request within the allowed scopes, nobody in particular is
asked for, and the configured user's name is legal and not base64url. -/
structure OpenDoor (env : Env) (c : NoAuthnCfg) (cdb : Cdb) (s : Store) (gid : Str) (r : UserReq) : Prop where
  sub : ∃ f, env.sf c!"public" = some f
  tree : Tree s
  gid : GoodId gid
  client : GoodId r.areq.clientId
  known : ∃ cl, cdb r.areq.clientId = some cl ∧ checkScopes env cl r.areq = true
  user : GoodId c.user
  plain : c.lib.b64d c.user = none
  nobody : requestUser env.oidc false r = .ok none

/-- A cookie that the provider set and can read. -/
structure ReadCookie (c : NoAuthnCfg) (t0 : Int) (value typ raw : Str) : Prop where
  laws : CookieLaws c.cr
  dealer : DealerOk c.dealer
  okValue : CookieValueOk value
  okType : CookieTypeOk typ
  bar : c.dealer.encKey = none → '|' ∉ value ∧ '|' ∉ typ
  set : SetCookie c t0 value typ raw

theorem ReadCookie.read {c : NoAuthnCfg} {t0 : Int} {value typ raw : Str} (h : ReadCookie c t0 value typ raw) :
    getCookieValue c.cr c.dealer raw = .ok (some (value, intStr t0, typ)) :=
  loginCookie_read (c := { cr := c.cr, dealer := c.dealer, ttl := 0, lib := c.lib }) h.laws h.dealer h.okValue h.okType h.bar h.set

theorem noAuthnProcess_session {env : Env} {c : NoAuthnCfg} {cdb : Cdb} {s s' : Store} {now : Int} {gid : Str} {jar : Cookies}
    {r : UserReq} (D : OpenDoor env c cdb s gid r) {sid u : Str} (mc ma : MintIn) (idt : Out Str)
    (h : setupNoAuthn env c cdb s now gid jar r = (s', .val (.session sid u))) :
    noAuthnProcess env c cdb s now gid mc ma idt jar r =
      ((authzPart2 env cdb s' now mc ma idt r.areq sid).1, (authzPart2 env cdb s' now mc ma idt r.areq sid).2.1,
        .answer (.reply (authzPart2 env cdb s' now mc ma idt r.areq sid).2.2)) := by
  obtain ⟨cl, h1, h2⟩ := D.known
  unfold noAuthnProcess
  simp only [h1, h2, Bool.true_eq_false, if_false, h]

theorem noAuthnProcess_login {env : Env} {c : NoAuthnCfg} {cdb : Cdb} {s s' : Store} {now : Int} {gid : Str} {jar : Cookies}
    {r : UserReq} (D : OpenDoor env c cdb s gid r) (mc ma : MintIn) (idt : Out Str)
    (h : setupNoAuthn env c cdb s now gid jar r = (s', .val .login)) :
    noAuthnProcess env c cdb s now gid mc ma idt jar r = (cdb, s', .internalError) := by
  obtain ⟨cl, h1, h2⟩ := D.known
  unfold noAuthnProcess
  simp only [h1, h2, Bool.true_eq_false, if_false, h]

/-- Whoever the method takes for the configured user without a session gets a new one. -/
theorem openDoor_new {env : Env} {c : NoAuthnCfg} {cdb : Cdb} {s : Store} {gid : Str} {r : UserReq}
    (D : OpenDoor env c cdb s gid r) (now : Int) {jar : Cookies} (hj : noAuthnAs c jar = .ok (some (c.user, none))) :
    ∃ s' g, setupNoAuthn env c cdb s now gid jar r = (s', .val (.session (sessionKey [c.user, r.areq.clientId, gid]) c.user)) ∧
      getGrant s' (sessionKey [c.user, r.areq.clientId, gid]) = .ok g ∧ g.authReq = some r.areq := by
  obtain ⟨f, hf⟩ := D.sub
  have hset := setupAuth_plain env cdb s now gid r.areq
    { ident := .plain c.user, acr := c.acr, reqUser := none, reAuth := false } c.user rfl rfl rfl
  obtain ⟨s', g, e1, e2, e3, _⟩ := startSession_grant env f hf cdb s D.tree now gid D.gid r.areq D.client
    { ident := .plain c.user, acr := c.acr, reqUser := none, reAuth := false } c.user D.user
  refine ⟨s', g, ?_, e2, e3⟩
  unfold setupNoAuthn reAuthenticate
  simp only [D.nobody, hj, D.plain]
  rw [hset, e1]

/-- **C161** (part) A browser that comes without cookies is taken for the configured user, gets a session of that user with
the client, and an answer. -/
theorem C161_first_visit_partial (env : Env) (c : NoAuthnCfg) (cdb : Cdb) (s : Store) (gid : Str) (r : UserReq)
    (D : OpenDoor env c cdb s gid r) (now : Int) (mc ma : MintIn) (idt : Out Str) :
    Answered (noAuthnProcess env c cdb s now gid mc ma idt .empty r).2.2 ∧
      ∃ s' g, setupNoAuthn env c cdb s now gid .empty r =
          (s', .val (.session (sessionKey [c.user, r.areq.clientId, gid]) c.user)) ∧
        getGrant s' (sessionKey [c.user, r.areq.clientId, gid]) = .ok g ∧ g.authReq = some r.areq := by
  obtain ⟨s', g, h1, h2, h3⟩ := openDoor_new D now (jar := .empty) rfl
  refine ⟨?_, s', g, h1, h2, h3⟩
  rw [noAuthnProcess_session D mc ma idt h1]
  exact ⟨_, rfl⟩

theorem noAuthnAs_nothing {c : NoAuthnCfg} {t0 : Int} {value typ raw : Str} (K : ReadCookie c t0 value typ raw)
    (hn : NamesNothing c.lib value) : noAuthnAs c (.session raw) = .ok (some (c.user, none)) := by
  unfold noAuthnAs cookieObject
  simp only [K.read]
  cases hb : c.lib.b64d value with
  | none => rfl
  | some bytes =>
    cases hj : c.lib.json bytes with
    | error e => simp only [hj]
    | ok o => simp only [hj, hn bytes o hb hj]; rfl

theorem noAuthnAs_names {c : NoAuthnCfg} {t0 : Int} {value typ raw sid : Str} (K : ReadCookie c t0 value typ raw)
    (hn : NamesOnlySession c.lib value sid) : noAuthnAs c (.session raw) = .ok (some (c.user, some sid)) := by
  obtain ⟨bytes, h1, h2⟩ := hn
  unfold noAuthnAs cookieObject
  simp only [K.read, h1, h2]
  rfl

/-- **C161** (part) So is a browser whose session cookie names neither a user nor a session, however old it is. -/
theorem C161_plain_cookie_partial (env : Env) (c : NoAuthnCfg) (cdb : Cdb) (s : Store) (gid : Str) (r : UserReq)
    (D : OpenDoor env c cdb s gid r) (now t0 : Int) (value typ raw : Str) (K : ReadCookie c t0 value typ raw)
    (hn : NamesNothing c.lib value) (mc ma : MintIn) (idt : Out Str) :
    Answered (noAuthnProcess env c cdb s now gid mc ma idt (.session raw) r).2.2 ∧
      ∃ s' g, setupNoAuthn env c cdb s now gid (.session raw) r =
          (s', .val (.session (sessionKey [c.user, r.areq.clientId, gid]) c.user)) ∧
        getGrant s' (sessionKey [c.user, r.areq.clientId, gid]) = .ok g ∧ g.authReq = some r.areq := by
  obtain ⟨s', g, h1, h2, h3⟩ := openDoor_new D now (noAuthnAs_nothing K hn)
  refine ⟨?_, s', g, h1, h2, h3⟩
  rw [noAuthnProcess_session D mc ma idt h1]
  exact ⟨_, rfl⟩

/-- What `setup_auth` does with a cookie that names a session. -/
theorem setupNoAuthn_continue {env : Env} {c : NoAuthnCfg} {cdb : Cdb} {s : Store} {gid : Str} {r : UserReq}
    (D : OpenDoor env c cdb s gid r) (now : Int) {t0 : Int} {value typ raw sid : Str} (K : ReadCookie c t0 value typ raw)
    (hn : NamesOnlySession c.lib value sid) :
    setupNoAuthn env c cdb s now gid (.session raw) r =
      continueSession env s now gid r.areq { ident := .nobody, acr := c.acr } c.user sid := by
  unfold setupNoAuthn reAuthenticate
  simp only [D.nobody, noAuthnAs_names K hn, D.plain]

/-- **C161** (part) A browser that returns with the authorization endpoint's cookie and the same request continues its
session while the grant is active and the login valid: no grant is added, and nothing is changed before the answer is made. -/
theorem C161_same_request_partial (env : Env) (c : NoAuthnCfg) (cdb : Cdb) (s : Store) (gid : Str) (r : UserReq)
    (D : OpenDoor env c cdb s gid r) (now t0 : Int) (value typ raw : Str) (K : ReadCookie c t0 value typ raw) (u d : Str)
    (hu : GoodId u) (hd : GoodId d) (hn : NamesOnlySession c.lib value (sessionKey [u, r.areq.clientId, d])) (g : Grant)
    (hg : getGrant s (sessionKey [u, r.areq.clientId, d]) = .ok g) (hact : g.isActive now = true)
    (hreq : g.authReq = some r.areq) (ev : AuthnEvent) (hev : g.authnEvent = some ev) (hval : now < ev.validUntil)
    (mc ma : MintIn) (idt : Out Str) :
    Answered (noAuthnProcess env c cdb s now gid mc ma idt (.session raw) r).2.2 ∧
      setupNoAuthn env c cdb s now gid (.session raw) r = (s, .val (.session (sessionKey [u, r.areq.clientId, d]) c.user)) := by
  have hgd := (getGrant_iff hu D.client hd g).1 hg
  have hm : mgrGet s (sessionKey [u, r.areq.clientId, d]) = .ok (.grant g) := by
    unfold mgrGet; rw [unpack_good (goodPath_three hu D.client hd)]; exact hgd
  have h1 : setupNoAuthn env c cdb s now gid (.session raw) r =
      (s, .val (.session (sessionKey [u, r.areq.clientId, d]) c.user)) := by
    rw [setupNoAuthn_continue D now K hn]
    unfold continueSession
    simp only [unpack3_good hu D.client hd, hm, hact, hreq, hev, eventValid, hval, gt_iff_lt, decide_true, ne_eq,
      not_true_eq_false, if_false, if_true, Bool.false_eq_true, Option.isSome_none, false_and, Bool.true_eq_false]
  refine ⟨?_, h1⟩
  rw [noAuthnProcess_session D mc ma idt h1]
  exact ⟨_, rfl⟩

/-- Writing a grant keeps the other grants readable. -/
theorem set3_keeps {s s' : Store} (ht : Tree s) {u c g : Str} (hu : GoodId u) (hc : GoodId c) (hg : GoodId g) (v : Obj)
    (h : dbSet s [u, c, g] v = (s', .ok ())) {u' c' g' : Str} (hu' : GoodId u') (hc' : GoodId c') (hg' : GoodId g')
    (hne : ¬ (u' = u ∧ c' = c ∧ g' = g)) {o : Obj} (ho : dbGet s [u', c', g'] = .ok o) : dbGet s' [u', c', g'] = .ok o := by
  obtain ⟨s1, e1, hat⟩ := dbSet3 s v hu hc hg (ht.typed.user' hu) (ht.typed.client' hu hc)
  rw [h] at e1
  cases e1
  obtain ⟨ui, ci, a1, a2, a3, a4, a5⟩ := (dbGet3 _ _ _ _ _).1 ho
  have k3 : s'.at [u', c', g'] = some o := by
    rw [hat _ (goodPath_three hu' hc' hg')]
    have : ([u', c', g'] : List Str) ≠ [u, c, g] := by simpa using hne
    simp [this, a5]
  have k2 : ∃ ci', s'.at [u', c'] = some (.info ci') ∧ g' ∈ ci'.subordinate := by
    rw [hat _ (goodPath_two hu' hc')]
    by_cases e : u' = u ∧ c' = c
    · obtain ⟨rfl, rfl⟩ := e
      refine ⟨(clientOr s u' c').addSubordinate g, by simp, ?_⟩
      unfold clientOr
      rw [a3]
      dsimp only [SessInfo.addSubordinate]
      by_cases e' : g ∈ ci.subordinate
      · rw [if_pos e']; exact a4
      · rw [if_neg e']; exact List.mem_append_left _ a4
    · have : ([u', c'] : List Str) ≠ [u, c] := by simpa using e
      exact ⟨ci, by simp [this, a3], a4⟩
  have k1 : ∃ ui', s'.at [u'] = some (.info ui') ∧ c' ∈ ui'.subordinate := by
    rw [hat _ (goodPath_one hu')]
    by_cases e : u' = u
    · subst e
      refine ⟨(userOr s u').addSubordinate c, by simp, ?_⟩
      unfold userOr
      rw [a1]
      dsimp only [SessInfo.addSubordinate]
      by_cases e' : c ∈ ui.subordinate
      · rw [if_pos e']; exact a2
      · rw [if_neg e']; exact List.mem_append_left _ a2
    · have : ([u'] : List Str) ≠ [u] := by simpa using e
      exact ⟨ui, by simp [this, a1], a2⟩
  obtain ⟨ci', b3, b4⟩ := k2
  obtain ⟨ui', b1, b2⟩ := k1
  exact (dbGet3 _ _ _ _ _).2 ⟨ui', ci', b1, b2, b3, b4, k3⟩

/-- **C161** (part) With another request it gets a new grant, made from the same login, and every other session stays as it was. -/
theorem C161_new_request_partial (env : Env) (c : NoAuthnCfg) (cdb : Cdb) (s : Store) (gid : Str) (r : UserReq)
    (D : OpenDoor env c cdb s gid r) (now t0 : Int) (value typ raw : Str) (K : ReadCookie c t0 value typ raw) (u d : Str)
    (hu : GoodId u) (hd : GoodId d) (hn : NamesOnlySession c.lib value (sessionKey [u, r.areq.clientId, d])) (g : Grant)
    (hg : getGrant s (sessionKey [u, r.areq.clientId, d]) = .ok g) (hact : g.isActive now = true)
    (hreq : g.authReq ≠ some r.areq) (ev : AuthnEvent) (hev : g.authnEvent = some ev) (hval : now < ev.validUntil)
    (mc ma : MintIn) (idt : Out Str) :
    Answered (noAuthnProcess env c cdb s now gid mc ma idt (.session raw) r).2.2 ∧
      ∃ s' g', setupNoAuthn env c cdb s now gid (.session raw) r =
          (s', .val (.session (sessionKey [c.user, r.areq.clientId, gid]) c.user)) ∧
        getGrant s' (sessionKey [c.user, r.areq.clientId, gid]) = .ok g' ∧ g'.authReq = some r.areq ∧ g'.authnEvent = some ev ∧
        ∀ x y z g'', GoodId x → GoodId y → GoodId z → ¬ (x = c.user ∧ y = r.areq.clientId ∧ z = gid) →
          getGrant s (sessionKey [x, y, z]) = .ok g'' → getGrant s' (sessionKey [x, y, z]) = .ok g'' := by
  have hgd := (getGrant_iff hu D.client hd g).1 hg
  have hm : mgrGet s (sessionKey [u, r.areq.clientId, d]) = .ok (.grant g) := by
    unfold mgrGet; rw [unpack_good (goodPath_three hu D.client hd)]; exact hgd
  obtain ⟨f, hf⟩ := D.sub
  obtain ⟨g', hng, q1, q2⟩ : ∃ g', newGrant env.sf now gid c.user { authnEvent := g.authnEvent, authReq := r.areq } = .ok g' ∧
      g'.authReq = some r.areq ∧ g'.authnEvent = some ev := by
    rw [hev]
    refine ⟨_, by unfold newGrant; simp only [hf]; rfl, rfl, rfl⟩
  obtain ⟨s', e1, e2⟩ := C13_read_own_write s D.tree.typed [c.user, r.areq.clientId, gid]
    (goodPath_three D.user D.client D.gid) (by simp) (.grant g')
  have h1 : setupNoAuthn env c cdb s now gid (.session raw) r =
      (s', .val (.session (sessionKey [c.user, r.areq.clientId, gid]) c.user)) := by
    rw [setupNoAuthn_continue D now K hn]
    unfold continueSession
    simp only [unpack3_good hu D.client hd, hm, hact, hreq, hev, eventValid, hval, gt_iff_lt, decide_true, ne_eq,
      not_true_eq_false, if_false, if_true, Bool.false_eq_true, Option.isSome_none, false_and, Bool.true_eq_false]
    rw [hev] at hng
    unfold createGrant
    simp only [hng, e1, getAuthnEvent, unpack3_good D.user D.client D.gid, e2, q2, eventValid, hval, gt_iff_lt, decide_true]
  refine ⟨?_, s', g', h1, (getGrant_iff D.user D.client D.gid g').2 e2, q1, q2, ?_⟩
  · rw [noAuthnProcess_session D mc ma idt h1]
    exact ⟨_, rfl⟩
  · intro x y z g'' hx hy hz hne hget
    exact (getGrant_iff hx hy hz g'').2
      (set3_keeps D.tree D.user D.client D.gid _ e1 hx hy hz hne ((getGrant_iff hx hy hz g'').1 hget))

/-- C161 is false: a browser that was served by one client gets an error page from every other client, whatever it asks,
whenever it comes. -/
theorem C161_other_client_locked_out (env : Env) (c : NoAuthnCfg) (cdb : Cdb) (s : Store) (gid : Str) (r : UserReq)
    (D : OpenDoor env c cdb s gid r) (now t0 : Int) (value typ raw : Str) (K : ReadCookie c t0 value typ raw) (u x d : Str)
    (hu : GoodId u) (hx : GoodId x) (hd : GoodId d) (hn : NamesOnlySession c.lib value (sessionKey [u, x, d]))
    (hne : r.areq.clientId ≠ x) (mc ma : MintIn) (idt : Out Str) :
    noAuthnProcess env c cdb s now gid mc ma idt (.session raw) r = (cdb, s, .internalError) := by
  refine noAuthnProcess_login D mc ma idt ?_
  rw [setupNoAuthn_continue D now K hn]
  unfold continueSession
  simp only [unpack3_good hu hx hd, hne, ne_eq, not_false_eq_true, if_true, if_false, Bool.false_eq_true, Option.isSome_none, false_and]

/-- C161 is false: so does a browser whose grant has ended (as after a logout), or whose login is not valid any more (an hour
after it was made). -/
theorem C161_ended_session_locked_out (env : Env) (c : NoAuthnCfg) (cdb : Cdb) (s : Store) (gid : Str) (r : UserReq)
    (D : OpenDoor env c cdb s gid r) (now t0 : Int) (value typ raw : Str) (K : ReadCookie c t0 value typ raw) (u d : Str)
    (hu : GoodId u) (hd : GoodId d) (hn : NamesOnlySession c.lib value (sessionKey [u, r.areq.clientId, d])) (g : Grant)
    (hg : getGrant s (sessionKey [u, r.areq.clientId, d]) = .ok g)
    (hend : g.isActive now = false ∨ ∃ ev, g.authnEvent = some ev ∧ ev.validUntil ≤ now) (mc ma : MintIn) (idt : Out Str) :
    noAuthnProcess env c cdb s now gid mc ma idt (.session raw) r = (cdb, s, .internalError) := by
  have hgd := (getGrant_iff hu D.client hd g).1 hg
  have hm : mgrGet s (sessionKey [u, r.areq.clientId, d]) = .ok (.grant g) := by
    unfold mgrGet; rw [unpack_good (goodPath_three hu D.client hd)]; exact hgd
  refine noAuthnProcess_login D mc ma idt ?_
  rw [setupNoAuthn_continue D now K hn]
  unfold continueSession
  simp only [unpack3_good hu D.client hd, hm, ne_eq, not_true_eq_false, if_false, Bool.false_eq_true, Option.isSome_none, false_and]
  rcases hend with h | ⟨ev, h1, h2⟩
  · simp [h]
  · have : decide (ev.validUntil > now) = false := by simp; omega
    simp only [h1, eventValid, this]
    by_cases h3 : g.isActive now = false <;> by_cases h4 : g.authReq = some r.areq <;> simp [h3, h4]

/-- C161 is false: a browser that sends only cookies of other applications gets the error page too. -/
theorem C161_stray_cookie_locked_out (env : Env) (c : NoAuthnCfg) (cdb : Cdb) (s : Store) (gid : Str) (r : UserReq)
    (D : OpenDoor env c cdb s gid r) (now : Int) (hp : c!"none" ∉ r.areq.prompt) (mc ma : MintIn) (idt : Out Str) :
    noAuthnProcess env c cdb s now gid mc ma idt .others r = (cdb, s, .internalError) := by
  refine noAuthnProcess_login D mc ma idt ?_
  unfold setupNoAuthn noAuthnAs setupAuth needLogin
  simp only [D.nobody, hp, if_false]

/-- C161 is false: so does a browser whose session cookie cannot be read, be it forged, damaged or made with an older key;
if it is malformed in a way that the reader does not expect, there is not even an error page. -/
theorem C161_unreadable_cookie_locked_out (env : Env) (c : NoAuthnCfg) (cdb : Cdb) (s : Store) (gid : Str) (r : UserReq)
    (D : OpenDoor env c cdb s gid r) (now : Int) (raw : Str) (hraw : ∀ x, getCookieValue c.cr c.dealer raw ≠ .ok (some x))
    (hp : c!"none" ∉ r.areq.prompt) (mc ma : MintIn) (idt : Out Str) :
    noAuthnProcess env c cdb s now gid mc ma idt (.session raw) r = (cdb, s, .internalError) ∨
      ∃ e, getCookieValue c.cr c.dealer raw = .error e ∧ e ≠ .attributeError ∧
        noAuthnProcess env c cdb s now gid mc ma idt (.session raw) r = (cdb, s, .answer (.raise e)) := by
  have key : noAuthnAs c (.session raw) = .ok none →
      noAuthnProcess env c cdb s now gid mc ma idt (.session raw) r = (cdb, s, .internalError) := by
    intro h
    refine noAuthnProcess_login D mc ma idt ?_
    unfold setupNoAuthn setupAuth needLogin
    simp only [D.nobody, h, hp, if_false]
  cases hc : getCookieValue c.cr c.dealer raw with
  | ok o => cases o with
    | none => exact Or.inl (key (by unfold noAuthnAs; simp only [hc]))
    | some x => exact absurd hc (hraw x)
  | error e =>
    by_cases he : e = .attributeError
    · exact Or.inl (key (by unfold noAuthnAs; simp only [hc, he, if_true]))
    · refine Or.inr ⟨e, rfl, he, ?_⟩
      obtain ⟨cl, h1, h2⟩ := D.known
      unfold noAuthnProcess setupNoAuthn noAuthnAs
      simp only [h1, h2, Bool.true_eq_false, if_false, D.nobody, hc, he]

/-- C161 is false: everybody is the same user, and a new visitor's session replaces that of the visitors before: none of
their grants with this client can be read any more. -/
theorem C161_next_visitor_ends_sessions (env : Env) (c : NoAuthnCfg) (cdb : Cdb) (s : Store) (gid : Str) (r : UserReq)
    (D : OpenDoor env c cdb s gid r) (S : Sound s) (now : Int) (d : Str) (hd : GoodId d) (hne : gid ≠ d) (g : Grant) :
    getGrant (setupNoAuthn env c cdb s now gid .empty r).1 (sessionKey [c.user, r.areq.clientId, d]) ≠ .ok g := by
  intro h
  have hset := setupAuth_plain env cdb s now gid r.areq
    { ident := .plain c.user, acr := c.acr, reqUser := none, reAuth := false } c.user rfl rfl rfl
  have e : (setupNoAuthn env c cdb s now gid .empty r).1 =
      (startSession env cdb s now gid r.areq { ident := .plain c.user, acr := c.acr, reqUser := none, reAuth := false } c.user).1 := by
    rw [← hset]
    unfold setupNoAuthn reAuthenticate noAuthnAs
    simp only [D.nobody, D.plain]
  rw [e] at h
  have h3 := (getGrant_iff D.user D.client hd g).1 h
  obtain ⟨ui, ci, _, _, a3, a4, _⟩ := (dbGet3 _ _ _ _ _).1 h3
  have hl : Lists (startSession env cdb s now gid r.areq
      { ident := .plain c.user, acr := c.acr, reqUser := none, reAuth := false } c.user).1 c.user r.areq.clientId d := ⟨ci, a3, a4⟩
  unfold startSession at hl
  dsimp only at hl
  have hg := fun a => gone_createSession (sf := env.sf) D.user D.client S now (gid := gid) (d := d) a D.gid hne
  revert hl
  have := hg { authnEvent := some (createAuthnEvent now c.user c.acr 0), authReq := r.areq, usageRules := usageRulesOf env.gc cdb r.areq.clientId }
  generalize createSession env.sf s now gid c.user r.areq.clientId _ = q at this ⊢
  obtain ⟨q1, q2⟩ := q
  cases q2 <;> exact this

/-- **C161** (part) Whatever the cookies, the session that a request is answered from is one with the client that asks. -/
theorem C161_session_of_client_partial (env : Env) (c : NoAuthnCfg) (cdb : Cdb) (s s' : Store) (now : Int) (gid : Str) (jar : Cookies)
    (r : UserReq) (sid user : Str) (h : setupNoAuthn env c cdb s now gid jar r = (s', .val (.session sid user))) :
    (∃ x, sid = sessionKey [x, r.areq.clientId, gid]) ∨ ∃ x d, unpack3 sid = .ok (x, r.areq.clientId, d) := by
  unfold setupNoAuthn at h
  cases hru : requestUser env.oidc false r with
  | error e => simp [hru] at h
  | ok ru =>
    simp only [hru] at h
    cases hn : noAuthnAs c jar with
    | error e => simp [hn] at h
    | ok o =>
      simp only [hn] at h
      have key : ∀ {a : AuthnIn}, setupAuth env cdb s now gid r.areq a = (s', .val (.session sid user)) →
          (∃ x, sid = sessionKey [x, r.areq.clientId, gid]) ∨ ∃ x d, unpack3 sid = .ok (x, r.areq.clientId, d) := by
        intro a ha
        rcases setupAuth_sid ha with ⟨h1, _⟩ | ⟨_, u, g, h2⟩
        · exact Or.inl ⟨_, h1⟩
        · exact Or.inr ⟨u, g, h2⟩
      cases o with
      | none => exact key h
      | some p =>
        obtain ⟨uid, sid0⟩ := p
        simp only at h
        cases hb : c.lib.b64d uid with
        | some bytes =>
          simp only [hb] at h
          cases hj : c.lib.json bytes with
          | error e => simp [hj] at h
          | ok o => simp only [hj] at h; exact key h
        | none =>
          simp only [hb] at h
          cases sid0 with
          | none => exact key h
          | some sid0 =>
            simp only at h
            unfold continueSession reAuthenticate at h
            simp only [Bool.false_eq_true, if_false] at h
            by_cases h2 : ru.isSome ∧ ru ≠ some uid
            · rw [if_pos h2] at h
              simp only [Prod.mk.injEq, Out.val.injEq] at h
              exact absurd h.2 (needLogin_ne _ sid user)
            · simp only [if_neg h2] at h
              cases hu : unpack3 sid0 with
              | error e => simp [hu] at h
              | ok t =>
                obtain ⟨x, y, z⟩ := t
                simp only [hu] at h
                by_cases hy : r.areq.clientId = y
                · simp only [hy, ne_eq, not_true_eq_false, if_false] at h
                  cases hm : mgrGet s sid0 with
                  | error e => simp [hm] at h
                  | ok o => cases o with
                    | info i => simp [hm] at h
                    | grant g0 =>
                      simp only [hm] at h
                      by_cases ha : g0.isActive now = false
                      · simp [ha] at h
                      · simp only [ha, if_false] at h
                        cases hv : eventValid now g0.authnEvent with
                        | error e => simp [hv] at h
                        | ok b => cases b with
                          | false => simp [hv] at h
                          | true =>
                            by_cases hq : g0.authReq = some r.areq
                            · simp only [hq, if_true, hv, Bool.true_eq_false, if_false, Prod.mk.injEq, Out.val.injEq, Setup.session.injEq] at h
                              refine Or.inr ⟨x, z, ?_⟩
                              rw [← h.2.1, hu, hy]
                            · simp only [hq, if_false, hv, Bool.true_eq_false] at h
                              have hcs := fun x => createGrant_sid env.sf s now gid uid y { authnEvent := g0.authnEvent, authReq := r.areq } (sid := x)
                              generalize createGrant env.sf s now gid uid y { authnEvent := g0.authnEvent, authReq := r.areq } = w at h hcs
                              obtain ⟨w1, w2⟩ := w
                              cases w2 with
                              | error e => simp at h
                              | ok sid' =>
                                simp only at h
                                cases hge : getAuthnEvent w1 sid' with
                                | error e => simp [hge] at h
                                | ok e2 =>
                                  simp only [hge] at h
                                  cases hv2 : eventValid now e2 with
                                  | error e => simp [hv2] at h
                                  | ok b => cases b with
                                    | false => simp [hv2] at h
                                    | true =>
                                      simp only [hv2, Prod.mk.injEq, Out.val.injEq, Setup.session.injEq] at h
                                      left
                                      exact ⟨uid, by rw [← h.2.1, hy]; exact hcs _ rfl⟩
                · simp [hy] at h

/-! ### Witnesses -/

/-- The value of the cookie that the authorization endpoint sets for `{"sid": "diana;;c1;;g1", "state": "S"}`. -/
def noCookieValue : Str := c!"eyJzaWQiOiAiZGlhbmE7O2MxOztnMSIsICJzdGF0ZSI6ICJTIn0"

/-- A provider that takes everybody for diana. -/
def noCfg : NoAuthnCfg where
  cr := toyCookieCrypto
  dealer := ⟨some c!"k", none⟩
  lib := ⟨b64urlGo, fun s => if s = c!"{\"sid\": \"diana;;c1;;g1\", \"state\": \"S\"}" then .ok (none, some c!"diana;;c1;;g1")
    else .error .valueError⟩
  acr := c!"none"
  user := c!"diana"

theorem openDoor_demo (s : Store) (hs : Tree s) (gid : Str) (hg : GoodId gid) : OpenDoor demoEnv noCfg demoDb s gid demoUserReq where
  sub := ⟨_, rfl⟩
  tree := hs
  gid := hg
  client := by simp [GoodId, SemicolonFree, demoUserReq, demoReq]
  known := ⟨demoClient c!"https://rp/cb", rfl, by decide⟩
  user := by simp [GoodId, SemicolonFree, noCfg]
  plain := by decide
  nobody := by decide

theorem readCookie_demo (value typ : Str) (hv : ':' ∉ value ∧ '|' ∉ value) (ht : ':' ∉ typ ∧ '|' ∉ typ) :
    ∃ raw, ReadCookie noCfg 1000 value typ raw :=
  ⟨_, ⟨toyCookieLaws, ⟨Or.inl (by simp [noCfg]), by simp [noCfg]⟩, (noDouble hv.1).1, (noDouble ht.1).2, fun _ => ⟨hv.2, ht.2⟩, ⟨[], rfl⟩⟩⟩

set_option maxRecDepth 32000 in
theorem noCookie_names : NamesOnlySession noCfg.lib noCookieValue c!"diana;;c1;;g1" := ⟨_, rfl, by decide⟩

/-- A bare user name names nothing. -/
example : NamesNothing noCfg.lib c!"diana" := fun bytes o h _ => by
  have : noCfg.lib.b64d c!"diana" = none := by decide
  rw [this] at h; cases h

/-- The store after diana's first visit. -/
def noStore : Store := (setupNoAuthn demoEnv noCfg demoDb Store.empty 1000 c!"g1" .empty demoUserReq).1

/-- The session that a visit led to. -/
def sessionOf : Out Setup → Option Str
  | .val (.session sid _) => some sid
  | _ => none

/-- A visit with the cookie of the first one. -/
def noVisit (now : Int) (req : AuthReq) : Option (Out Setup) :=
  match createCookieValue noCfg.cr noCfg.dealer 1000 [] noCookieValue c!"sso" with
  | .ok raw => some (setupNoAuthn demoEnv noCfg demoDb noStore now c!"g2" (.session raw) { areq := req }).2
  | .error _ => none

set_option maxRecDepth 64000 in
/-- A second visitor without cookies: diana's first session is gone. -/
example : (match getGrant (setupNoAuthn demoEnv noCfg demoDb noStore 1100 c!"g2" .empty demoUserReq).1 c!"diana;;c1;;g1" with
    | .ok _ => true | .error _ => false) = false ∧
    (match getGrant noStore c!"diana;;c1;;g1" with | .ok _ => true | .error _ => false) = true := by
  decide

set_option maxRecDepth 64000 in
/-- The first visit, the same request again, another request, the same request an hour later, another client. -/
example : (setupNoAuthn demoEnv noCfg demoDb Store.empty 1000 c!"g1" .empty demoUserReq).2 =
      .val (.session c!"diana;;c1;;g1" c!"diana") ∧
    noVisit 1100 (demoReq [c!"code"]) = some (.val (.session c!"diana;;c1;;g1" c!"diana")) ∧
    noVisit 1100 { demoReq [c!"code"] with state := some c!"other" } = some (.val (.session c!"diana;;c1;;g2" c!"diana")) ∧
    noVisit 4600 (demoReq [c!"code"]) = some (.val .login) ∧
    noVisit 1100 { demoReq [c!"code"] with clientId := c!"c2" } = some (.val .login) := by
  decide

/-- Two cookies that cannot be read: one of another shape, one with a wrong signature. -/
example : (∀ x, getCookieValue noCfg.cr noCfg.dealer c!"junk" ≠ .ok (some x)) ∧
    (∀ x, getCookieValue noCfg.cr noCfg.dealer c!"diana::1000::sso|1000|nosig" ≠ .ok (some x)) := by
  have h1 : (match getCookieValue noCfg.cr noCfg.dealer c!"junk" with | .ok (some _) => true | _ => false) = false := by decide
  have h2 : (match getCookieValue noCfg.cr noCfg.dealer c!"diana::1000::sso|1000|nosig" with | .ok (some _) => true | _ => false) = false := by decide
  exact ⟨fun x h => (by rw [h] at h1; cases h1), fun x h => (by rw [h] at h2; cases h2)⟩

end Verif
