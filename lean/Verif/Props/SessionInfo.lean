import Verif.Lemmas.SessionInfo
import Verif.Spec.SessionInfo
import Verif.Props.StoreDelete
import Verif.Props.TokenString
set_option linter.unusedSimpArgs false
/-! C134: looking up a session. -/
namespace Verif
open Spec

/-- A session that can be read is complete: its client and user records exist, are of the right kind and list it. -/
theorem C134_session_complete (m : Mode) (sf : SubFuncs) (ops : List MgrOp) (hops : ∀ op ∈ ops, OpGood op) (u c g : Str) (hu : GoodId u)
    (hc : GoodId c) (hg : GoodId g) (gr : Grant) (h : getGrant (mgrRun m sf Store.empty ops) (sessionKey [u, c, g]) = .ok gr) :
    ∃ ci ui, SessionAt (mgrRun m sf Store.empty ops) u c g gr ci ui := by
  have hk := kinds_run (m := m) (sf := sf) tree_empty kinds_empty ops hops
  generalize mgrRun m sf Store.empty ops = s at h hk
  unfold getGrant at h
  rw [unpack3_good hu hc hg] at h
  simp only at h
  cases hd : dbGet s [u, c, g] with
  | error e => simp [hd] at h
  | ok o =>
    cases o with
    | info i => simp [hd] at h
    | grant g' =>
      simp only [hd, Except.ok.injEq] at h
      subst h
      obtain ⟨ui, ci, a1, a2, a3, a4, a5⟩ := (dbGet3 _ _ _ _ _).1 hd
      exact ⟨ci, ui, hd, (dbGet2 _ _ _ _).2 ⟨ui, a1, a2, a3⟩, (dbGet1 _ _ _).2 a1, a4, a2, (hk.cli u c ci hu hc a3).1, (hk.usr u ui hu a1).1⟩

/-- **C134**, the part that holds: asked about an existing session for any parts, but not for the grant and the authentication
event at once, `get_session_info` names the session, user, client and grant, and returns exactly the parts asked for,
each as it is stored.  What is missing: `C134_grant_and_event`. -/
theorem C134_session_info_partial (s : Store) (u c g : Str) (hu : GoodId u) (hc : GoodId c) (hg : GoodId g) (gr : Grant) (ci ui : SessInfo)
    (h : SessionAt s u c g gr ci ui) (w : InfoWants) (hw : ¬ (w.grant = true ∧ w.authnEvent = true)) :
    getSessionInfo s (sessionKey [u, c, g]) w =
      .ok { sid := sessionKey [u, c, g], userId := u, clientId := c, grantId := g,
            userInfo := given w.userInfo (.info ui), clientInfo := given w.clientInfo (.info ci), grant := given w.grant (.grant gr),
            authnEvent := given w.authnEvent gr.authnEvent, authReq := given w.authReq gr.authReq } := by
  obtain ⟨w1, w2, w3, w4, w5⟩ := w
  simp only [getSessionInfo, unpack3_good hu hc hg, h.grant, h.client, h.user, readIf, eventPart, requestPart, Obj.authnEvent, Obj.authReq, given]
  cases w1 <;> cases w2 <;> cases w3 <;> cases w4 <;> cases w5 <;> first | rfl | exact absurd ⟨rfl, rfl⟩ hw

/-- C134 is false: asked for the grant and the authentication event, it raises `TypeError` for every existing session. -/
theorem C134_grant_and_event (s : Store) (u c g : Str) (hu : GoodId u) (hc : GoodId c) (hg : GoodId g) (gr : Grant) (ci ui : SessInfo)
    (h : SessionAt s u c g gr ci ui) (w : InfoWants) (h1 : w.grant = true) (h2 : w.authnEvent = true) :
    getSessionInfo s (sessionKey [u, c, g]) w = .error .typeError := by
  obtain ⟨w1, w2, w3, w4, w5⟩ := w
  cases h1; cases h2
  simp only [getSessionInfo, unpack3_good hu hc hg, h.grant, h.client, h.user, readIf, eventPart, requestPart, Obj.eventItem]
  cases w1 <;> cases w2 <;> rfl

/-- The other lookups: the records of client and user, the authentication event, the request. -/
theorem C134_single_lookups (s : Store) (u c g : Str) (hu : GoodId u) (hc : GoodId c) (hg : GoodId g) (gr : Grant) (ci ui : SessInfo)
    (h : SessionAt s u c g gr ci ui) :
    getUserSessionInfo s (sessionKey [u, c, g]) = .ok ui ∧ getClientSessionInfo s (sessionKey [u, c, g]) = .ok ci ∧
    getAuthenticationEvent s (sessionKey [u, c, g]) = .ok gr.authnEvent ∧ getAuthorizationRequest s (sessionKey [u, c, g]) = .ok gr.authReq := by
  refine ⟨?_, ?_, ?_, ?_⟩
  · simp only [getUserSessionInfo, unpack3_good hu hc hg, h.user, h.userKind, if_true]
  · simp only [getClientSessionInfo, unpack3_good hu hc hg, h.client, h.clientKind, if_true]
  · simp only [getAuthenticationEvent, C134_session_info_partial s u c g hu hc hg gr ci ui h { authnEvent := true } (by simp), given, if_true]
  · simp only [getAuthorizationRequest, C134_session_info_partial s u c g hu hc hg gr ci ui h { authReq := true } (by simp), given, if_true]

/-- An answer with a part of the session in it is only given for sessions that exist; what is asked for nothing but
the names is not looked up at all. -/
theorem C134_answer_only_if (s : Store) (sid : Str) (w : InfoWants) (a : SessionAnswer) (h : getSessionInfo s sid w = .ok a) :
    unpackSessionKey sid = [a.userId, a.clientId, a.grantId] ∧ a.sid = sid ∧
    (w.userInfo = true → ∃ o, dbGet s [a.userId] = .ok o ∧ a.userInfo = some o) ∧
    (w.clientInfo = true → ∃ o, dbGet s [a.userId, a.clientId] = .ok o ∧ a.clientInfo = some o) ∧
    (w.grant = true → ∃ o, dbGet s [a.userId, a.clientId, a.grantId] = .ok o ∧ a.grant = some o) ∧
    (w.authnEvent = true → ∃ g, dbGet s [a.userId, a.clientId, a.grantId] = .ok (.grant g) ∧ a.authnEvent = some g.authnEvent) ∧
    (w.authReq = true → ∃ g, dbGet s [a.userId, a.clientId, a.grantId] = .ok (.grant g) ∧ a.authReq = some g.authReq) := by
  unfold getSessionInfo at h
  cases hk : unpack3 sid with
  | error e => simp [hk] at h
  | ok x =>
    obtain ⟨u, c, g⟩ := x
    have hun : unpackSessionKey sid = [u, c, g] := by
      unfold unpack3 at hk
      split at hk
      · rename_i e; cases hk; exact e
      · cases hk
    simp only [hk] at h
    cases h1 : readIf w.userInfo (dbGet s [u]) with
    | error e => simp [h1] at h
    | ok ui =>
      cases h2 : readIf w.clientInfo (dbGet s [u, c]) with
      | error e => simp [h1, h2] at h
      | ok ci =>
        cases h3 : readIf w.grant (dbGet s [u, c, g]) with
        | error e => simp [h1, h2, h3] at h
        | ok gr =>
          cases h4 : eventPart w (dbGet s [u, c, g]) with
          | error e => simp [h1, h2, h3, h4] at h
          | ok ev =>
            cases h5 : requestPart w (dbGet s [u, c, g]) with
            | error e => simp [h1, h2, h3, h4, h5] at h
            | ok rq =>
              simp only [h1, h2, h3, h4, h5, Except.ok.injEq] at h
              subst h
              have rd : ∀ {b : Bool} {r : Except Exn Obj} {x : Option Obj}, readIf b r = .ok x → b = true → ∃ o, r = .ok o ∧ x = some o := by
                intro b r x hr hb
                subst hb
                cases r with
                | error e => simp [readIf] at hr
                | ok o => simp only [readIf, if_true, Except.ok.injEq] at hr; exact ⟨o, rfl, hr.symm⟩
              refine ⟨hun, rfl, rd h1, rd h2, rd h3, ?_, ?_⟩
              · intro hw
                cases hd : dbGet s [u, c, g] with
                | error e => simp [eventPart, hw, hd] at h4
                | ok o =>
                  cases o with
                  | info i => cases hwg : w.grant <;> simp [eventPart, hw, hd, hwg, Obj.eventItem, Obj.authnEvent] at h4
                  | grant gg =>
                    cases hwg : w.grant
                    · simp [eventPart, hw, hd, hwg, Obj.eventItem, Obj.authnEvent] at h4
                      exact ⟨gg, rfl, h4.symm⟩
                    · simp [eventPart, hw, hd, hwg, Obj.eventItem, Obj.authnEvent] at h4
              · intro hw
                cases hd : dbGet s [u, c, g] with
                | error e => simp [requestPart, hw, hd] at h5
                | ok o =>
                  cases o with
                  | info i => simp [requestPart, hw, hd, Obj.authReq] at h5
                  | grant gg =>
                    simp [requestPart, hw, hd, Obj.authReq] at h5
                    exact ⟨gg, rfl, h5.symm⟩

theorem eventsIn_grants (gs : List Grant) : eventsIn (gs.map .grant) = .ok (gs.map Grant.authnEvent) := by
  induction gs with
  | nil => rfl
  | cons g gs ih => simp only [List.map_cons, eventsIn, Obj.authnEvent, ih]

/-- The grants and the authentication events of a user at a client are those of the sessions listed there, in order; it makes no
difference whether one asks with a session id or with the names. -/
theorem C134_listings (m : Mode) (sf : SubFuncs) (ops : List MgrOp) (hops : ∀ op ∈ ops, OpGood op) (u c : Str) (hu : GoodId u) (hc : GoodId c)
    (ci : SessInfo) (h : dbGet (mgrRun m sf Store.empty ops) [u, c] = .ok (.info ci)) :
    ∃ gs : List Grant, gs.length = ci.subordinate.length ∧
      (∀ (i : Nat) g, ci.subordinate[i]? = some g → ∃ gr, gs[i]? = some gr ∧ dbGet (mgrRun m sf Store.empty ops) [u, c, g] = .ok (.grant gr)) ∧
      grantsOf (mgrRun m sf Store.empty ops) [] u c = .ok (gs.map .grant) ∧
      getAuthenticationEvents (mgrRun m sf Store.empty ops) [] u c = .ok (gs.map Grant.authnEvent) ∧
      ∀ g, GoodId g → ∀ x y, grantsOf (mgrRun m sf Store.empty ops) (sessionKey [u, c, g]) x y = .ok (gs.map .grant) ∧
        getAuthenticationEvents (mgrRun m sf Store.empty ops) (sessionKey [u, c, g]) x y = .ok (gs.map Grant.authnEvent) := by
  have ht := tree_run (m := m) (sf := sf) tree_empty ops hops
  generalize mgrRun m sf Store.empty ops = s at h ht
  obtain ⟨ui, a1, a2, a3⟩ := (dbGet2 _ _ _ _).1 h
  have hall : ∀ g ∈ ci.subordinate, ∃ gr, dbGet s [u, c, g] = .ok (.grant gr) := by
    intro g hg
    obtain ⟨-, gr, hgr⟩ := ht.cli u c ci hu hc a3 g hg
    exact ⟨gr, (dbGet3 _ _ _ _ _).2 ⟨ui, ci, a1, a2, a3, hg, hgr⟩⟩
  obtain ⟨gs, h1, h2, h3⟩ := readAll_ok ci.subordinate hall
  have hsub : subordinates s u c = .ok (gs.map .grant) := by simp only [subordinates, h, Obj.subordinate, h1]
  have w1 : whoAsked [] u c = .ok (u, c) := by simp [whoAsked, hu.1, hc.1]
  refine ⟨gs, h2, h3, by simp only [grantsOf, w1, hsub], by simp only [getAuthenticationEvents, w1, hsub, eventsIn_grants], ?_⟩
  intro g hg x y
  have hne : sessionKey [u, c, g] ≠ [] := by
    intro e
    have := congrArg unpackSessionKey e
    rw [unpack_good (goodPath_three hu hc hg)] at this
    exact absurd this (by
      have : unpackSessionKey [] = [[]] := by decide
      rw [this]; simp)
  have w2 : whoAsked (sessionKey [u, c, g]) x y = .ok (u, c) := by
    simp only [whoAsked, ne_eq, hne, not_false_eq_true, if_true, unpack3_good hu hc hg]
  exact ⟨by simp only [grantsOf, w2, hsub], by simp only [getAuthenticationEvents, w2, hsub, eventsIn_grants]⟩

/-- When there is an answer: the id names three things, every part asked for can be read (and nothing else is looked at), and not
both the grant and its authentication event are asked for. -/
theorem C134_answered_exactly_when (s : Store) (sid : Str) (w : InfoWants) :
    (∃ a, getSessionInfo s sid w = .ok a) ↔
      ∃ u c g, unpackSessionKey sid = [u, c, g] ∧
        (w.userInfo = true → ∃ o, dbGet s [u] = .ok o) ∧
        (w.clientInfo = true → ∃ o, dbGet s [u, c] = .ok o) ∧
        (w.grant = true → ∃ o, dbGet s [u, c, g] = .ok o) ∧
        (w.authnEvent = true → ∃ gr, dbGet s [u, c, g] = .ok (.grant gr)) ∧
        (w.authReq = true → ∃ gr, dbGet s [u, c, g] = .ok (.grant gr)) ∧
        ¬ (w.grant = true ∧ w.authnEvent = true) := by
  constructor
  · rintro ⟨a, h⟩
    obtain ⟨h1, -, h3, h4, h5, h6, h7⟩ := C134_answer_only_if s sid w a h
    refine ⟨_, _, _, h1, fun hw => ⟨_, (h3 hw).choose_spec.1⟩, fun hw => ⟨_, (h4 hw).choose_spec.1⟩, fun hw => ⟨_, (h5 hw).choose_spec.1⟩,
      fun hw => ⟨_, (h6 hw).choose_spec.1⟩, fun hw => ⟨_, (h7 hw).choose_spec.1⟩, ?_⟩
    rintro ⟨b1, b2⟩
    obtain ⟨gr, hg, -⟩ := h6 b2
    have hu : unpack3 sid = .ok (a.userId, a.clientId, a.grantId) := by simp only [unpack3, h1]
    simp only [getSessionInfo, hu, hg, eventPart, b1, b2, if_true, Obj.eventItem] at h
    revert h
    cases readIf w.userInfo (dbGet s [a.userId]) <;> cases readIf w.clientInfo (dbGet s [a.userId, a.clientId]) <;> simp [readIf]
  · rintro ⟨u, c, g, h1, h2, h3, h4, h5, h6, h7⟩
    have hu : unpack3 sid = .ok (u, c, g) := by simp only [unpack3, h1]
    have rd : ∀ {b : Bool} {r : Except Exn Obj}, (b = true → ∃ o, r = .ok o) → ∃ x, readIf b r = .ok x := by
      intro b r h
      cases b with
      | false => exact ⟨none, rfl⟩
      | true => obtain ⟨o, rfl⟩ := h rfl; exact ⟨some o, rfl⟩
    obtain ⟨x1, e1⟩ := rd h2
    obtain ⟨x2, e2⟩ := rd h3
    obtain ⟨x3, e3⟩ := rd h4
    have e4 : ∃ x, eventPart w (dbGet s [u, c, g]) = .ok x := by
      unfold eventPart
      cases hw : w.authnEvent with
      | false => exact ⟨none, rfl⟩
      | true =>
        obtain ⟨gr, hg⟩ := h5 hw
        have hn : w.grant = false := by
          cases hh : w.grant with
          | false => rfl
          | true => exact absurd ⟨hh, hw⟩ h7
        exact ⟨some gr.authnEvent, by simp [hg, hn, Obj.authnEvent]⟩
    have e5 : ∃ x, requestPart w (dbGet s [u, c, g]) = .ok x := by
      unfold requestPart
      cases hw : w.authReq with
      | false => exact ⟨none, rfl⟩
      | true =>
        obtain ⟨gr, hg⟩ := h6 hw
        exact ⟨some gr.authReq, by simp [hg, Obj.authReq]⟩
    obtain ⟨x4, e4⟩ := e4
    obtain ⟨x5, e5⟩ := e5
    refine ⟨⟨sid, u, c, g, x1, x2, x3, x4, x5⟩, ?_⟩
    simp only [getSessionInfo, hu, e1, e2, e3, e4, e5]

/-- Looking up a session by one of its tokens is looking it up by its id; a JWT token must not have expired. -/
theorem C134_lookup_by_token (cr : TokenCrypto) (L : TokenCryptoLaws cr) (t : TokenHandler) (hf : FactoryTypes t) (h : Handler)
    (hh : h ∈ t.order) (now later : Int) (rnd nonce sid : Str) (s : Store) (w : InfoWants)
    (ht : h.cls = .jwt → now + h.lifetime < 0 ∨ later ≤ now + h.lifetime) :
    getSessionInfoByToken t cr s later (handlerCall cr h now rnd nonce sid []) w = getSessionInfo s sid w := by
  have e : t.sid cr later (handlerCall cr h now rnd nonce sid []) = .ok sid := by
    unfold TokenHandler.sid
    cases hc : h.cls with
    | default => rw [C04_default_token_resolves cr L t hf h hh hc now later rnd nonce sid]
    | jwt => rw [C04_jwt_token_resolves cr L t hf h hh hc now later rnd nonce sid, if_pos (ht hc)]
  simp only [getSessionInfoByToken, e]

/-- Without a session id the listings want both a user and a client. -/
theorem C134_listings_want_names (s : Store) (u c : Str) (h : u = [] ∨ c = []) :
    grantsOf s [] u c = .error .attributeError ∧ getAuthenticationEvents s [] u c = .error .attributeError := by
  have e : whoAsked [] u c = .error .attributeError := by
    unfold whoAsked
    rcases h with h | h <;> subst h <;> simp
  exact ⟨by simp only [grantsOf, e], by simp only [getAuthenticationEvents, e]⟩

/-- Two grants of one user at one client, and a session at another client. -/
example : (∀ op ∈ opsSample, OpGood op) ∧ ∃ gr ci ui, SessionAt (mgrRun .byValue sfSample Store.empty opsSample) c!"diana" c!"c1" c!"g2" gr ci ui ∧
    ci.subordinate = [c!"g1", c!"g2"] ∧ ui.subordinate = [c!"c1", c!"c2"] := by
  constructor
  · simp [opsSample, OpGood, GoodId, SemicolonFree]
  · exact ⟨_, _, _, ⟨rfl, rfl, rfl, by decide, by decide, rfl, rfl⟩, rfl, rfl⟩

end Verif
