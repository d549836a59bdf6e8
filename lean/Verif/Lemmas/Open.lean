import Verif.Lemmas.CrashLast
import Verif.Lemmas.TokenSuccess
import Verif.Props.TokenHistory
set_option linter.unusedSimpArgs false
set_option linter.unusedVariables false
/-! Sessions that can be read: storing a grant is then a single write. -/
namespace Verif
open Spec

/-- The user is there and lists the client, which is there and lists the grant. -/
def OpenAt (s : Store) (sid : Str) : Prop :=
  ∃ u c g ui ci, unpackSessionKey sid = [u, c, g] ∧ g ≠ [] ∧ s u = some (.info ui) ∧ c ∈ ui.subordinate ∧
    s (sessionKey [u, c]) = some (.info ci) ∧ g ∈ ci.subordinate

theorem sid_key {sid u c g : Str} (h : unpackSessionKey sid = [u, c, g]) : sid = sessionKey [u, c, g] := by
  have := session_key_unpack sid
  rw [h] at this
  exact this.symm

theorem openAt_of_get {s : Store} {u c g sid : Str} {o : Obj} (hu : unpackSessionKey sid = [u, c, g]) (hg : g ≠ [])
    (h : dbGet s [u, c, g] = .ok o) : OpenAt s sid := by
  obtain ⟨ui, ci, h1, h2, h3, h4, _⟩ := (dbGet3 _ _ _ _ _).1 h
  exact ⟨u, c, g, ui, ci, hu, hg, h1, h2, h3, h4⟩

theorem openAt_of_getGrant {s : Store} (hn : NoEmpty s) {sid : Str} {g : Grant} (h : getGrant s sid = .ok g) : OpenAt s sid := by
  obtain ⟨_, ⟨u, c, gi, h1, h2⟩, _⟩ := getGrant_key hn h
  unfold getGrant unpack3 at h
  rw [h1] at h
  dsimp only at h
  cases hd : dbGet s [u, c, gi] with
  | error e => simp [hd] at h
  | ok o => exact openAt_of_get h1 h2 hd

theorem OpenAt.put {s : Store} {sid : Str} (h : OpenAt s sid) (v : Obj) : OpenAt (s.put sid v) sid := by
  obtain ⟨u, c, g, ui, ci, h1, h2, h3, h4, h5, h6⟩ := h
  have hk := sid_key h1
  refine ⟨u, c, g, ui, ci, h1, h2, ?_, h4, ?_, h6⟩
  · unfold Store.put
    rw [if_neg, h3]
    rw [hk]
    intro e
    have := congrArg List.length e
    simp [sessionKey, pyJoin, divider] at this
  · unfold Store.put
    rw [if_neg, h5]
    rw [hk]
    intro e
    have := congrArg List.length e
    simp [sessionKey, pyJoin, divider] at this

theorem OpenAt.read {s : Store} {sid : Str} (h : OpenAt s sid) (v : Obj) :
    ∃ u c g, unpackSessionKey sid = [u, c, g] ∧ dbGet (s.put sid v) [u, c, g] = .ok v := by
  have hp := h.put v
  obtain ⟨u, c, g, ui, ci, h1, h2, h3, h4, h5, h6⟩ := hp
  refine ⟨u, c, g, h1, (dbGet3 _ _ _ _ _).2 ⟨ui, ci, h3, h4, h5, h6, ?_⟩⟩
  show s.put sid v (sessionKey [u, c, g]) = some v
  rw [← sid_key h1]
  simp [Store.put]

theorem OpenAt.getGrant {s : Store} {sid : Str} (h : OpenAt s sid) (g : Grant) : getGrant (s.put sid (.grant g)) sid = .ok g := by
  obtain ⟨u, c, gi, h1, h2⟩ := h.read (.grant g)
  unfold Verif.getGrant unpack3
  simp only [h1, h2]

/-- Storing a grant in a readable session: one write, no failure. -/
theorem OpenAt.mgrSet {s : Store} {sid : Str} (h : OpenAt s sid) (v : Obj) :
    mgrSet s sid v = (s.put sid v, .ok ()) ∧ ∀ s' ∈ mgrSetTrace s sid v, s' = s.put sid v := by
  have hp := h.put v
  obtain ⟨u, c, g, ui, ci, h1, h2, h3, h4, h5, h6⟩ := hp
  have hk := sid_key h1
  have htg : truthy (some g) = true := by
    cases g with
    | nil => exact absurd rfl h2
    | cons a l => rfl
  have hcli : (if truthy (some c) = true then dbSetClient (s.put sid v) u c (some g) v else (s.put sid v, .ok ())) =
      (s.put sid v, .ok ()) := by
    split
    · cases g with
      | nil => exact absurd rfl h2
      | cons a l =>
        unfold dbSetClient
        simp only [h5, h6, if_true]
    · rfl
  have husr : dbSetUser (s.put sid v) u (some c) v = (s.put sid v, .ok ()) := by
    unfold dbSetUser
    cases c with
    | nil => rfl
    | cons a l => simp only [h3, h4, if_true]
  have hset : dbSet s [u, c, g] v = (s.put sid v, .ok ()) := by
    unfold dbSet
    simp only [evalPath, htg, if_true, Option.getD_some, ← hk, hcli, husr]
  constructor
  · unfold Verif.mgrSet
    rw [h1, hset]
  · unfold mgrSetTrace
    rw [h1]
    unfold setTrace
    simp only [evalPath, htg, if_true, Option.getD_some, ← hk, hcli, husr]
    simp

/-- Minting in a readable session. -/
theorem mint_open {env : Env} {h : Option Handler} {s : Store} {now : Int} {m : MintIn} {sid tt : Str} {g : Grant}
    {b : Option Token} (ho : OpenAt s sid) :
    let r := mintAndStore env h s now m sid tt g b
    (r.1 = s ∨ r.1 = s.put sid (.grant r.2.1)) ∧
    (∃ l, r.2.1.issuedToken = g.issuedToken ++ l) ∧ r.2.1.authReq = g.authReq ∧
    (∀ s' ∈ mintTrace env h s now m sid tt g b, s' = s.put sid (.grant r.2.1)) ∧
    (∀ t, r.2.2 = .ok t → r.1 = s.put sid (.grant r.2.1)) ∧ r.2.1.scope = g.scope := by
  intro r
  have htr : ∀ s' ∈ mintTrace env h s now m sid tt g b, s' = s.put sid (.grant r.2.1) := by
    intro s' hs'
    unfold mintTrace at hs'
    generalize (g.mintToken now m.id tt b (some ((g.usageRules.get? tt).getD {})) [] {} (tokenString env h now m sid)).2 = R at hs'
    match R, hs' with
    | .error _, hs' => cases hs'
    | .ok none, hs' => cases hs'
    | .ok (some _), hs' => exact (ho.mgrSet _).2 s' hs'
  rcases mintAndStore_spec env h s now m sid tt g b with ⟨h1, h2, e, h3⟩ | ⟨v, t', hrest⟩
  · refine ⟨Or.inl h1, ⟨[], by show r.2.1.issuedToken = _; rw [show r.2.1 = g from h2]; simp⟩, by rw [show r.2.1 = g from h2], htr, ?_,
      by rw [show r.2.1 = g from h2]⟩
    intro t ht
    rw [show r.2.2 = .error e from h3] at ht
    cases ht
  · obtain ⟨a1, a2, a3, a4, a5, a6, a7, a8, a9, a10, a11, a12, a13, a14, a15, _⟩ := hrest
    have e1 : r.1 = s.put sid (.grant r.2.1) := by
      have := (ho.mgrSet (.grant r.2.1)).1
      rw [show r.1 = _ from a14, this]
    exact ⟨Or.inr e1, ⟨[t'], a4⟩, a13, htr, fun _ _ => e1, a12⟩

theorem put_put (s : Store) (k : Str) (a b : Obj) : (s.put k a).put k b = s.put k b := by
  funext x
  unfold Store.put
  split <;> rfl

/-- The grant is the old one with more tokens. -/
def MoreTokens (g g' : Grant) : Prop := (∃ l, g'.issuedToken = g.issuedToken ++ l) ∧ g'.authReq = g.authReq ∧ g'.scope = g.scope

theorem MoreTokens.refl (g : Grant) : MoreTokens g g := ⟨⟨[], by simp⟩, rfl, rfl⟩

theorem MoreTokens.trans {a b c : Grant} (h : MoreTokens a b) (h2 : MoreTokens b c) : MoreTokens a c := by
  obtain ⟨⟨l, e⟩, e2, e3⟩ := h
  obtain ⟨⟨l', e'⟩, e2', e3'⟩ := h2
  exact ⟨⟨l ++ l', by rw [e', e, List.append_assoc]⟩, by rw [e2', e2], by rw [e3', e3]⟩

theorem MoreTokens.getToken {g g' : Grant} (h : MoreTokens g g') {v : Str} {t : Token} (ht : g.getToken v = some t) :
    g'.getToken v = some t := by
  obtain ⟨⟨l, e⟩, _⟩ := h
  unfold Grant.getToken
  rw [e]
  exact findValue_append_left ht

theorem refreshPart_open {env : Env} {s : Store} {i : TokIn} {sid : Str} {g : Grant} {b : Option Token} {want : Bool}
    (ho : OpenAt s sid) (hs : s sid = some (.grant g)) :
    let r := refreshPart env s i sid g b want
    r.1 sid = some (.grant r.2.1) ∧ (r.1 = s ∨ r.1 = s.put sid (.grant r.2.1)) ∧ MoreTokens g r.2.1 ∧
    (∀ s' ∈ refreshPartTrace env s i sid g b want, s' = s.put sid (.grant r.2.1)) ∨
    (∃ e, r.2.2 = .error e) ∧ (r.1 = s ∨ r.1 = s.put sid (.grant r.2.1)) ∧ MoreTokens g r.2.1 ∧
      (∀ s' ∈ refreshPartTrace env s i sid g b want, s' = s.put sid (.grant r.2.1)) := by
  intro r
  cases want with
  | false => left; exact ⟨hs, Or.inl rfl, MoreTokens.refl g, by simp [refreshPartTrace]⟩
  | true =>
    obtain ⟨h1, h2, h3, h4, h5, h6⟩ := mint_open (env := env) (h := env.th.accessToken) (now := i.now) (m := i.mr) (tt := tRefreshToken)
      (g := g) (b := b) ho
    have hmore : MoreTokens g r.2.1 := ⟨h2, h3, h6⟩
    have htr : ∀ s' ∈ refreshPartTrace env s i sid g b true, s' = s.put sid (.grant r.2.1) := by
      intro s' hs'
      exact h4 s' hs'
    cases he : (mintAndStore env env.th.accessToken s i.now i.mr sid tRefreshToken g b).2.2 with
    | error e =>
      right
      refine ⟨⟨e, ?_⟩, h1, hmore, htr⟩
      show ((mintAndStore env env.th.accessToken s i.now i.mr sid tRefreshToken g b).2.2.map some) = _
      rw [he]; rfl
    | ok t =>
      left
      have e1 : r.1 = s.put sid (.grant r.2.1) := h5 t he
      exact ⟨by rw [e1]; simp [Store.put], Or.inr e1, hmore, htr⟩

/-- The crash points of a code exchange in a readable session: the session has more tokens, or everything is done. -/
theorem exchangeCode_points {env : Env} {s : Store} {i : TokIn} {sid : Str} {g : Grant} {b : Option Token} (ar : AuthReq)
    (ho : OpenAt s sid) (hs : s sid = some (.grant g)) {s' : Store} (h : s' ∈ exchangeCodeTrace env s i sid g b) :
    ∃ g', s' = s.put sid (.grant g') ∧ (MoreTokens g g' ∨ s' = (exchangeCode env s i sid g b ar).1) := by
  unfold exchangeCodeTrace at h
  simp only [List.mem_append] at h
  obtain ⟨h1, h2, h3, h4, h5, h6⟩ := mint_open (env := env) (h := env.th.accessToken) (now := i.now) (m := i.ma) (tt := tAccessToken)
    (g := g) (b := b) ho
  rcases h with h | h
  · exact ⟨_, h4 s' h, Or.inl ⟨h2, h3, h6⟩⟩
  · cases he : (mintAndStore env env.th.accessToken s i.now i.ma sid tAccessToken g b).2.2 with
    | error e => simp [he] at h
    | ok tok =>
      have e1 := h5 tok he
      unfold exchangeCode
      simp only [he] at h ⊢
      have hm1 : MoreTokens g (mintAndStore env env.th.accessToken s i.now i.ma sid tAccessToken g b).2.1 := ⟨h2, h3, h6⟩
      generalize mintAndStore env env.th.accessToken s i.now i.ma sid tAccessToken g b = M at *
      obtain ⟨M1, M2, M3⟩ := M
      simp only at *
      subst e1
      have ho1 := ho.put (.grant M2)
      have hs1 : (s.put sid (.grant M2)) sid = some (.grant M2) := by simp [Store.put]
      rw [List.mem_append] at h
      have hrp := refreshPart_open (env := env) (i := i) (b := b) (want := decide (c!"offline_access" ∈ g.scope)) ho1 hs1
      rcases h with h | h
      · have : s' = (s.put sid (.grant M2)).put sid
            (.grant (refreshPart env (s.put sid (.grant M2)) i sid M2 b (decide (c!"offline_access" ∈ g.scope))).2.1) ∧
            MoreTokens M2 (refreshPart env (s.put sid (.grant M2)) i sid M2 b (decide (c!"offline_access" ∈ g.scope))).2.1 := by
          rcases hrp with ⟨_, _, hmore, htr⟩ | ⟨_, _, hmore, htr⟩
          · exact ⟨htr s' h, hmore⟩
          · exact ⟨htr s' h, hmore⟩
        rw [put_put] at this
        exact ⟨_, this.1, Or.inl (hm1.trans this.2)⟩
      · generalize refreshPart env (s.put sid (.grant M2)) i sid M2 b (decide (c!"offline_access" ∈ g.scope)) = R at *
        obtain ⟨R1, R2, R3⟩ := R
        cases R3 with
        | error e => simp at h
        | ok rt =>
          simp only at h hrp ⊢
          rcases hrp with ⟨_, hR, _, _⟩ | ⟨⟨e, he⟩, _⟩
          · have ho2 : OpenAt R1 sid := by
              rcases hR with e | e
              · rw [e]; exact ho1
              · rw [e]; exact ho1.put _
            unfold finishCodeTrace at h
            unfold finishCode
            cases b with
            | none => simp at h
            | some b =>
              simp only at h ⊢
              obtain ⟨w1, w2⟩ := ho2.mgrSet (.grant (R2.registerUsage b.value))
              refine ⟨R2.registerUsage b.value, ?_, Or.inr ?_⟩
              · rw [w2 s' h]
                rcases hR with e | e
                · rw [e, put_put]
                · rw [e, put_put, put_put]
              · rw [w2 s' h, w1]
                simp only
                split <;> rfl
          · cases he

/-- The crash points of a refresh in a readable session: the session has more tokens. -/
theorem exchangeRefresh_points {env : Env} {s : Store} {i : TokIn} {sid : Str} {g : Grant} {b : Option Token}
    (ho : OpenAt s sid) {s' : Store} (h : s' ∈ exchangeRefreshTrace env s i sid g b) :
    ∃ g', s' = s.put sid (.grant g') ∧ MoreTokens g g' := by
  unfold exchangeRefreshTrace at h
  simp only [List.mem_append] at h
  obtain ⟨h1, h2, h3, h4, h5, h6⟩ := mint_open (env := env) (h := env.th.accessToken) (now := i.now) (m := i.ma) (tt := tAccessToken)
    (g := g) (b := b) ho
  rcases h with h | h
  · exact ⟨_, h4 s' h, h2, h3, h6⟩
  · cases he : (mintAndStore env env.th.accessToken s i.now i.ma sid tAccessToken g b).2.2 with
    | error e => simp [he] at h
    | ok tok =>
      have e1 := h5 tok he
      simp only [he] at h
      have hm1 : MoreTokens g (mintAndStore env env.th.accessToken s i.now i.ma sid tAccessToken g b).2.1 := ⟨h2, h3, h6⟩
      generalize mintAndStore env env.th.accessToken s i.now i.ma sid tAccessToken g b = M at *
      obtain ⟨M1, M2, M3⟩ := M
      simp only at *
      subst e1
      have ho1 := ho.put (.grant M2)
      have hs1 : (s.put sid (.grant M2)) sid = some (.grant M2) := by simp [Store.put]
      cases b with
      | none => simp at h
      | some b =>
        simp only at h
        cases hb : b.usageRules.supportsMinting with
        | none => simp [hb] at h
        | some mints =>
          simp only [hb] at h
          have hrp := refreshPart_open (env := env) (i := i) (b := some b) (want := decide (tRefreshToken ∈ mints)) ho1 hs1
          have : s' = (s.put sid (.grant M2)).put sid
              (.grant (refreshPart env (s.put sid (.grant M2)) i sid M2 (some b) (decide (tRefreshToken ∈ mints))).2.1) ∧
              MoreTokens M2 (refreshPart env (s.put sid (.grant M2)) i sid M2 (some b) (decide (tRefreshToken ∈ mints))).2.1 := by
            rcases hrp with ⟨_, _, hmore, htr⟩ | ⟨_, _, hmore, htr⟩
            · exact ⟨htr s' h, hmore⟩
            · exact ⟨htr s' h, hmore⟩
          rw [put_put] at this
          exact ⟨_, this.1, hm1.trans this.2⟩

/-! ### Which session a token string belongs to does not depend on the time -/

theorem infoLoop_time (cr : TokenCrypto) (v : Str) (hs : List Handler) (now now' : Int) {r : TokenInfo}
    (h : infoLoop cr now v hs = .ok r) : infoLoop cr now' v hs = .ok r ∨ ∃ e, infoLoop cr now' v hs = .error e := by
  induction hs with
  | nil => simp [infoLoop] at h
  | cons hd tl ih =>
    unfold infoLoop at h ⊢
    have key : handlerInfo cr hd now' v = handlerInfo cr hd now v ∨ handlerInfo cr hd now' v = .error .tooOld ∨
        handlerInfo cr hd now v = .error .tooOld := by
      unfold handlerInfo
      cases hd.cls with
      | default => exact Or.inl rfl
      | jwt =>
        simp only
        cases cr.jwtUnpack hd.key v with
        | none => exact Or.inl rfl
        | some p =>
          obtain ⟨sid, t, e⟩ := p
          simp only
          by_cases h1 : isExpired e now' = true
          · right; left; simp [h1]
          · by_cases h2 : isExpired e now = true
            · right; right; simp [h2]
            · left; simp [h1, h2]
    rcases key with k | k | k
    · rw [k]
      cases hx : handlerInfo cr hd now v with
      | ok x => rw [hx] at h; simp only at h ⊢; exact Or.inl h
      | error e =>
        rw [hx] at h
        simp only at h ⊢
        by_cases hc : handlerCaught e = true
        · simp only [hc, if_true] at h ⊢; exact ih h
        · simp only [hc] at h; cases h
    · rw [k]; right; simp [handlerCaught, Exn.isKeyError]
    · rw [k] at h; simp [handlerCaught, Exn.isKeyError] at h

theorem sid_time {th : TokenHandler} {cr : TokenCrypto} {now now' : Int} {v sid sid' : Str} (h : th.sid cr now v = .ok sid)
    (h' : th.sid cr now' v = .ok sid') : sid' = sid := by
  unfold TokenHandler.sid TokenHandler.info at h h'
  cases hi : infoLoop cr now v th.order with
  | error e => simp [hi] at h
  | ok r =>
    rcases infoLoop_time cr v th.order now now' hi with e | ⟨x, e⟩
    · rw [e] at h'
      rw [hi] at h
      simp only at h h'
      cases hr : r.sid with
      | none => simp [hr] at h
      | some x => simp only [hr] at h h'; cases h; cases h'; rfl
    · rw [e] at h'; cases h'

/-- Looking up a token of the session in the changed storage. -/
theorem sessionByToken_put {th : TokenHandler} {cr : TokenCrypto} {s : Store} (hn : NoEmpty s) {now now' : Int} {v sid : Str} {g g' : Grant}
    (h : sessionByToken th cr s now v = .ok (sid, .grant g)) :
    (∃ e, sessionByToken th cr s now' v = .error e ∧ sessionByToken th cr (s.put sid (.grant g')) now' v = .error e) ∨
    (sessionByToken th cr s now' v = .ok (sid, .grant g) ∧
      sessionByToken th cr (s.put sid (.grant g')) now' v = .ok (sid, .grant g')) := by
  obtain ⟨k1, k2, k3⟩ := sessionByToken_key hn h
  have hg := sessionByToken_getGrant h
  have ho := openAt_of_getGrant hn hg
  obtain ⟨u, c, gi, e1, e2⟩ := ho.read (.grant g')
  unfold sessionByToken
  cases hx : th.sid cr now' v with
  | error e => left; exact ⟨e, rfl, rfl⟩
  | ok sid' =>
    have := sid_time k1 hx
    subst this
    right
    simp only
    unfold getGrant at hg
    have hu : unpack3 sid' = .ok (u, c, gi) := by unfold unpack3; rw [e1]
    rw [hu] at hg
    simp only at hg
    simp only [hu, e2]
    cases hd : dbGet s [u, c, gi] with
    | error e => simp [hd] at hg
    | ok o =>
      cases o with
      | info i => simp [hd] at hg
      | grant g0 => simp only [hd] at hg; cases hg; exact ⟨rfl, trivial⟩

end Verif
