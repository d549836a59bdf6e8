import Verif.Spec.TokenThreads
import Verif.Props.ThreadRaces
set_option linter.unusedSimpArgs false
set_option linter.unusedVariables false
/-! Threads inside the token endpoint, with revocations (C174, C175). -/
namespace Verif
open Spec

theorem Spec.LaterToken.refl (t : Token) : LaterToken t t := ⟨rfl, rfl, rfl, id, Nat.le_refl _⟩
theorem Spec.LaterToken.trans {a b c : Token} (h : LaterToken a b) (k : LaterToken b c) : LaterToken a c :=
  ⟨k.value.trans h.value, k.kind.trans h.kind, k.basedOn.trans h.basedOn, fun x => k.staysRevoked (h.staysRevoked x), Nat.le_trans h.usesCount k.usesCount⟩
theorem Spec.LaterToken.ofPres {t t' : Token} (h : Pres t t') : LaterToken t t' := ⟨h.value, h.kind, h.basedOn, h.revoked, h.used⟩

theorem Spec.LaterGrant.refl (g : Grant) : LaterGrant g g := ⟨id, rfl, rfl, fun n t h => ⟨t, h, LaterToken.refl t, fun _ _ => rfl⟩⟩
theorem Spec.LaterGrant.trans {a b c : Grant} (h : LaterGrant a b) (k : LaterGrant b c) : LaterGrant a c :=
  ⟨fun x => k.staysRevoked (h.staysRevoked x), k.scope.trans h.scope, k.tokenMap.trans h.tokenMap, fun n t ht => by
    obtain ⟨t1, h1, p1, q1⟩ := h.tokens n t ht
    obtain ⟨t2, h2, p2, q2⟩ := k.tokens n t1 h1
    exact ⟨t2, h2, p1.trans p2, fun hm hk => (q2 (h.tokenMap.trans hm) (p1.kind.trans hk)).trans (q1 hm hk)⟩⟩

theorem Spec.LaterStore.refl (s : Store) : LaterStore s s := fun sid g h => ⟨g, h, LaterGrant.refl g⟩
theorem Spec.LaterStore.trans {a b c : Store} (h : LaterStore a b) (k : LaterStore b c) : LaterStore a c := by
  intro sid g hg
  obtain ⟨g1, h1, p1⟩ := h sid g hg
  obtain ⟨g2, h2, p2⟩ := k sid g1 h1
  exact ⟨g2, h2, p1.trans p2⟩

theorem Spec.LaterStore.stored {s s' : Store} (h : LaterStore s s') {v : Str} (hv : TokenStored s v) : TokenStored s' v := by
  obtain ⟨sid, g, t, h1, h2, h3⟩ := hv
  obtain ⟨g', h4, h5⟩ := h sid g h1
  obtain ⟨n, hn⟩ := List.getElem?_of_mem h2
  obtain ⟨t', h6, h7, _⟩ := h5.tokens n t hn
  exact ⟨sid, g', t', h4, List.mem_of_getElem? h6, h7.value.trans h3⟩

/-- The first token with a value stays the first. -/
theorem Spec.LaterGrant.getToken {g g' : Grant} (h : LaterGrant g g') {v : Str} {t : Token} (ht : g.getToken v = some t) :
    ∃ t', g'.getToken v = some t' ∧ LaterToken t t' ∧
      (g.tokenMap = defaultTokenMap → t.kind = .authorizationCode → t'.usageRules = t.usageRules) := by
  obtain ⟨i, h1, h2, h3⟩ := findValue_pos ht
  obtain ⟨t', h4, h5, h6⟩ := h.tokens i t h1
  refine ⟨t', findValue_of_pos h4 (h5.value.trans h2) ?_, h5, h6⟩
  intro j u' hj hu'
  have hil : i < g.issuedToken.length := (List.getElem?_eq_some_iff.1 h1).1
  have hjl : j < g.issuedToken.length := by omega
  obtain ⟨u2, h8, h7, _⟩ := h.tokens j g.issuedToken[j] (by simp [hjl])
  rw [hu'] at h8
  cases h8
  rw [h7.value]
  exact h3 j _ hj (by simp [hjl])

theorem Spec.LaterStore.revokedIn {s s' : Store} (h : LaterStore s s') {sid v : Str} (hr : RevokedIn s sid v) : RevokedIn s' sid v := by
  obtain ⟨g, h1, h2⟩ := hr
  obtain ⟨g', h3, h4⟩ := h sid g h1
  refine ⟨g', h3, ?_⟩
  rcases h2 with h2 | ⟨t, h2, h5⟩
  · exact Or.inl (h4.staysRevoked h2)
  · obtain ⟨t', h6, h7, _⟩ := h4.getToken h2
    exact Or.inr ⟨t', h6, h7.staysRevoked h5⟩

theorem Spec.LaterStore.spentIn {s s' : Store} (h : LaterStore s s') {sid v : Str} (hr : SpentIn s sid v) : SpentIn s' sid v := by
  obtain ⟨g, t, h1, hm, h2, h3, h4, h5⟩ := hr
  obtain ⟨g', h6, h7⟩ := h sid g h1
  obtain ⟨t', h8, h9, h10⟩ := h7.getToken h2
  exact ⟨g', t', h6, h7.tokenMap.trans hm, h8, h9.kind.trans h3, by rw [h10 hm h3]; exact h4, Nat.le_trans h5 h9.usesCount⟩

/-- Storing a later version of a stored grant. -/
theorem later_set {s : Store} {sid : Str} (hs : Sid3 sid) {g g' : Grant} (hg : s sid = some (.grant g)) (h : LaterGrant g g') :
    LaterStore s (mgrSet s sid (.grant g')).1 := by
  intro k g0 hk
  by_cases e : k = sid
  · subst e
    rw [hg] at hk
    cases hk
    exact ⟨g', mgrSet_own _ _ hs _, h⟩
  · exact ⟨g0, mgrSet_keeps _ hs hk e, LaterGrant.refl _⟩

theorem later_put {s : Store} {sid : Str} {g g' : Grant} (hg : s sid = some (.grant g)) (h : LaterGrant g g') :
    LaterStore s (s.put sid (.grant g')) := by
  intro k g0 hk
  by_cases e : k = sid
  · subst e
    rw [hg] at hk
    cases hk
    exact ⟨g', by simp [Store.put], h⟩
  · exact ⟨g0, by simpa [Store.put, e] using hk, LaterGrant.refl _⟩

theorem noEmpty_put {s : Store} (hn : NoEmpty s) (sid : Str) (g : Grant) : NoEmpty (s.put sid (.grant g)) := by
  intro k i h
  by_cases e : k = sid
  · subst e; simp [Store.put] at h
  · exact hn k i (by simpa [Store.put, e] using h)

theorem mint_later (env : Env) (h : Option Handler) {s : Store} (hn : NoEmpty s) (now : Int) (mi : MintIn) {sid : Str} (hs : Sid3 sid) (tt : Str)
    {g : Grant} (hg : s sid = some (.grant g)) (b : Option Token) :
    LaterStore s (mintAndStore env h s now mi sid tt g b).1 ∧ NoEmpty (mintAndStore env h s now mi sid tt g b).1 ∧
    ∀ tok, (mintAndStore env h s now mi sid tt g b).2.2 = .ok tok →
      (mintAndStore env h s now mi sid tt g b).1 sid = some (.grant (mintAndStore env h s now mi sid tt g b).2.1) ∧
      tok ∈ (mintAndStore env h s now mi sid tt g b).2.1.issuedToken := by
  rcases mintAndStore_spec env h s now mi sid tt g b with ⟨h1, h2, e, h3⟩ | ⟨v, t, _, ha, _, a4, _, _, _, _, _, _, _, a12, _, a14, a15, _⟩
  · refine ⟨by rw [h1]; exact LaterStore.refl s, by rw [h1]; exact hn, fun tok hk => ?_⟩
    rw [h3] at hk; cases hk
  · have hl : LaterGrant g (mintAndStore env h s now mi sid tt g b).2.1 := by
      refine ⟨fun hr => ?_, a12, mintAndStore_tokenMap env h s now mi sid tt g b, fun n t' ht => ⟨t', ?_, LaterToken.refl _, fun _ _ => rfl⟩⟩
      · simp [Grant.isActive, Item.isActive, hr] at ha
      · rw [a4, List.getElem?_append_left (List.getElem?_eq_some_iff.1 ht).1]; exact ht
    refine ⟨?_, ?_, fun tok hk => ⟨?_, ?_⟩⟩
    · rw [a14]; exact later_set hs hg hl
    · rw [a14]; exact mgrSet_noEmpty hn hs _
    · rw [a14]; exact mgrSet_own _ _ hs _
    · rcases a15 with ⟨e, a15⟩ | ⟨a15, _⟩
      · rw [a15] at hk; cases hk
      · rw [a15] at hk; cases hk
        rw [a4]; simp

theorem refreshPart_later (env : Env) {s : Store} (hn : NoEmpty s) (i : TokIn) {sid : Str} (hs : Sid3 sid) {g : Grant}
    (hg : s sid = some (.grant g)) (b : Option Token) (want : Bool) :
    LaterStore s (refreshPart env s i sid g b want).1 ∧ NoEmpty (refreshPart env s i sid g b want).1 ∧
    ∀ rt, (refreshPart env s i sid g b want).2.2 = .ok rt →
      (refreshPart env s i sid g b want).1 sid = some (.grant (refreshPart env s i sid g b want).2.1) ∧
      ∀ t, rt = some t → t ∈ (refreshPart env s i sid g b want).2.1.issuedToken ∧
        ((refreshPart env s i sid g b want).2.1.tokenMap = defaultTokenMap →
          ∀ u, (refreshPart env s i sid g b want).2.1.issuedToken.getLast? = some u → u.kind ≠ .authorizationCode) := by
  unfold refreshPart
  cases want with
  | false =>
    simp only [Bool.false_eq_true, if_false]
    refine ⟨LaterStore.refl s, hn, fun rt h => ⟨hg, fun t e => ?_⟩⟩
    cases h; cases e
  | true =>
    simp only [if_true]
    obtain ⟨h1, h2, h3⟩ := mint_later env env.th.accessToken hn i.now i.mr hs tRefreshToken hg b
    refine ⟨h1, h2, fun rt h => ?_⟩
    have hmap := mintAndStore_tokenMap env env.th.accessToken s i.now i.mr sid tRefreshToken g b
    have hlast : ∀ tok, (mintAndStore env env.th.accessToken s i.now i.mr sid tRefreshToken g b).2.2 = .ok tok → g.tokenMap = defaultTokenMap →
        ∀ u, (mintAndStore env env.th.accessToken s i.now i.mr sid tRefreshToken g b).2.1.issuedToken.getLast? = some u → u.kind ≠ .authorizationCode := by
      intro tok hk hm u hu
      obtain ⟨_, _, _, a4, _, _, _, _, _, a10, _⟩ := mintAndStore_ok hk
      rw [a4] at hu
      simp only [List.getLast?_append, List.getLast?_singleton, Option.some_or, Option.some.injEq] at hu
      subst hu
      rw [hm] at a10
      simp [defaultTokenMap, Dict.get?, tRefreshToken, tAuthorizationCode, tAccessToken] at a10
      rw [← a10]; simp
    generalize mintAndStore env env.th.accessToken s i.now i.mr sid tRefreshToken g b = M at *
    obtain ⟨m1, m2, m3⟩ := M
    cases m3 with
    | error e => simp [Except.map] at h
    | ok tok =>
      simp only [Except.map, Except.ok.injEq] at h
      subst h
      obtain ⟨h4, h5⟩ := h3 tok rfl
      exact ⟨h4, fun t e => by cases e; exact ⟨h5, fun hm => hlast tok rfl (hmap.symm.trans hm)⟩⟩

theorem copyRules_later (g : Grant) (r : UsageRules)
    (hl : g.tokenMap = defaultTokenMap → ∀ u, g.issuedToken.getLast? = some u → u.kind ≠ .authorizationCode) : LaterGrant g (g.copyRulesToLast r) := by
  refine ⟨id, rfl, rfl, fun n t h => ?_⟩
  simp only [Grant.copyRulesToLast]
  rw [List.getElem?_modify]
  by_cases e : g.issuedToken.length - 1 = n
  · subst e
    rw [h]
    exact ⟨{ t with usageRules := r }, by simp, ⟨rfl, rfl, rfl, id, Nat.le_refl _⟩, fun hm hk => absurd hk (hl hm t (by rw [List.getLast?_eq_getElem?]; exact h))⟩
  · rw [h]
    exact ⟨t, by simp [e], LaterToken.refl t, fun _ _ => rfl⟩

theorem newRefresh_later (m : Mode) (env : Env) {s : Store} (hn : NoEmpty s) (i : TokIn) {sid : Str} (hs : Sid3 sid) {g : Grant}
    (hg : s sid = some (.grant g)) (b : Token) (want : Bool) :
    LaterStore s (newRefresh m env s i sid g b want).1 ∧ NoEmpty (newRefresh m env s i sid g b want).1 ∧
    ∀ rt, (newRefresh m env s i sid g b want).2 = .ok rt → ∀ t, rt = some t → TokenStored (newRefresh m env s i sid g b want).1 t.value := by
  obtain ⟨h1, h2, h3⟩ := refreshPart_later env hn i hs hg (some b) want
  unfold newRefresh
  simp only
  generalize refreshPart env s i sid g (some b) want = R at *
  obtain ⟨r1, r2, r3⟩ := R
  cases r3 with
  | error e => exact ⟨h1, h2, fun rt h => by cases h⟩
  | ok o =>
    cases o with
    | none => exact ⟨h1, h2, fun rt h t e => by cases h; cases e⟩
    | some tok =>
      obtain ⟨h4, h5⟩ := h3 _ rfl
      have hst : TokenStored r1 tok.value := ⟨sid, r2, tok, h4, (h5 tok rfl).1, rfl⟩
      cases m with
      | byValue => exact ⟨h1, h2, fun rt h t e => by cases h; cases e; exact hst⟩
      | aliased =>
        have hl := later_put h4 (copyRules_later r2 b.usageRules (h5 tok rfl).2)
        exact ⟨h1.trans hl, noEmpty_put h2 _ _, fun rt h t e => by cases h; cases e; exact hl.stored hst⟩

theorem use_later (g : Grant) (v : Str) : LaterGrant g (g.registerUsage v) := by
  refine ⟨id, rfl, rfl, fun n t h => ?_⟩
  obtain ⟨t', h1, h2⟩ := step_pres g (.use v) n t h
  exact ⟨t', h1, LaterToken.ofPres h2, fun _ hk => h2.rules hk⟩

theorem finishCode_later {s : Store} (hn : NoEmpty s) (i : TokIn) {sid : Str} (hs : Sid3 sid) {g : Grant} (hg : s sid = some (.grant g))
    (b : Option Token) (ar : AuthReq) (tok : Token) (rt : Option Token) :
    LaterStore s (finishCode s i sid g b ar tok rt).1 ∧ NoEmpty (finishCode s i sid g b ar tok rt).1 ∧
    ∀ r, (finishCode s i sid g b ar tok rt).2 = .val r → r.accessToken = tok.value ∧ r.refreshToken = rt.map (·.value) := by
  unfold finishCode
  cases b with
  | none => exact ⟨LaterStore.refl s, hn, fun r h => by cases h⟩
  | some b =>
    simp only
    have hl := later_set hs hg (use_later g b.value)
    have hn' := mgrSet_noEmpty hn hs (g.registerUsage b.value)
    generalize mgrSet s sid (.grant (g.registerUsage b.value)) = w at *
    obtain ⟨w1, w2⟩ := w
    cases w2 with
    | error e => exact ⟨hl, hn', fun r h => by cases h⟩
    | ok _ =>
      simp only
      cases idTokenFor (decide (c!"openid" ∈ ar.scope)) i.idt with
      | raise e => exact ⟨hl, hn', fun r h => by cases h⟩
      | errMsg e => exact ⟨hl, hn', fun r h => by cases h⟩
      | val x => exact ⟨hl, hn', fun r h => by cases h; exact ⟨rfl, rfl⟩⟩

theorem finishRefresh_tokens {s : Store} {i : TokIn} {g : Grant} {mints : List Str} {tok : Token} {rt : Option Token} {r : TokResp}
    (h : (finishRefresh s i g mints tok rt).2 = .val r) : r.accessToken = tok.value ∧ r.refreshToken = rt.map (·.value) := by
  unfold finishRefresh at h
  split at h
  · cases h
  · cases h
  · cases h; exact ⟨rfl, rfl⟩

/-! ### Threads -/

/-- The session a thread works on. -/
def JobPc.sidOf : JobPc → Option Str
  | .code p => p.sidOf
  | .refresh (.looked sid ..) => some sid
  | .refresh (.mintedA sid ..) => some sid
  | .refresh _ => none

/-- The tokens a thread has made. -/
def JobPc.made : JobPc → List Str
  | .code (.mintedA _ _ _ _ _ tok) => [tok.value]
  | .code (.mintedR _ _ _ _ tok rt) => tok.value :: (rt.map (·.value)).toList
  | .code (.done (.val r)) => r.accessToken :: r.refreshToken.toList
  | .refresh (.mintedA _ _ _ tok) => [tok.value]
  | .refresh (.done (.val r)) => r.accessToken :: r.refreshToken.toList
  | _ => []

/-- What holds of a thread all the time, if objects are kept. -/
structure JobOk (s : Store) (p : JobPc) : Prop where
  session : ∀ sid, p.sidOf = some sid → Sid3 sid ∧ ∃ g, s sid = some (.grant g)
  made : ∀ v ∈ p.made, TokenStored s v

theorem JobOk.later {s s' : Store} {p : JobPc} (h : JobOk s p) (hl : LaterStore s s') : JobOk s' p := by
  refine ⟨fun sid hs => ?_, fun v hv => hl.stored (h.made v hv)⟩
  obtain ⟨h1, g, h2⟩ := h.session sid hs
  obtain ⟨g', h3, _⟩ := hl sid g h2
  exact ⟨h1, g', h3⟩

theorem seen_aliased {s : Store} {sid : Str} {g g0 : Grant} (h : s sid = some (.grant g)) : seen .aliased s sid g0 = g := by
  simp [seen, h]

theorem JobOk.raised (s : Store) (e : Exn) : JobOk s (.code (.done (.raise e))) ∧ JobOk s (.refresh (.done (.raise e))) :=
  ⟨⟨(fun sid h => by cases h), (fun v h => by cases h)⟩, ⟨(fun sid h => by cases h), (fun v h => by cases h)⟩⟩

theorem JobOk.errMsg (s : Store) (e : Str) : JobOk s (.code (.done (.errMsg e))) ∧ JobOk s (.refresh (.done (.errMsg e))) :=
  ⟨⟨(fun sid h => by cases h), (fun v h => by cases h)⟩, ⟨(fun sid h => by cases h), (fun v h => by cases h)⟩⟩

theorem code_piece (env : Env) (i : TokIn) (req : TokReq) {s : Store} (hn : NoEmpty s) (p : ThPc) (hp : JobOk s (.code p)) :
    LaterStore s (thStep .aliased env i req s p).1 ∧ NoEmpty (thStep .aliased env i req s p).1 ∧
    JobOk (thStep .aliased env i req s p).1 (.code (thStep .aliased env i req s p).2) := by
  cases p with
  | done o => exact ⟨LaterStore.refl s, hn, hp⟩
  | start =>
    have hst : (thStep .aliased env i req s .start).1 = s := by
      simp only [thStep]
      repeat' split
      all_goals rfl
    refine ⟨by rw [hst]; exact LaterStore.refl s, by rw [hst]; exact hn, ?_⟩
    rw [hst]
    simp only [thStep]
    repeat' split
    all_goals first
      | exact (JobOk.raised s _).1
      | exact (JobOk.errMsg s _).1
      | skip
    obtain ⟨_, h2, h3⟩ := sessionByToken_key hn (by assumption)
    refine ⟨fun sid h => ?_, (fun v h => by cases h)⟩
    cases h
    exact ⟨h3, _, h2⟩
  | looked sid g0 code ar want =>
    obtain ⟨h3, g, hg⟩ := hp.session sid rfl
    simp only [thStep, seen_aliased hg]
    obtain ⟨h4, h5, h6⟩ := mint_later env env.th.accessToken hn i.now i.ma h3 tAccessToken hg (g.getToken code)
    generalize mintAndStore env env.th.accessToken s i.now i.ma sid tAccessToken g (g.getToken code) = M at *
    obtain ⟨m1, m2, m3⟩ := M
    cases m3 with
    | error e => exact ⟨h4, h5, (JobOk.raised _ _).1⟩
    | ok tok =>
      obtain ⟨h7, h8⟩ := h6 tok rfl
      refine ⟨h4, h5, fun sid' h => ?_, fun v h => ?_⟩
      · cases h; exact ⟨h3, _, h7⟩
      · simp only [JobPc.made, List.mem_singleton] at h
        subst h
        exact ⟨sid, m2, tok, h7, h8, rfl⟩
  | mintedA sid g0 code ar want tok =>
    obtain ⟨h3, g, hg⟩ := hp.session sid rfl
    have hmade := hp.made tok.value (by simp [JobPc.made])
    simp only [thStep, seen_aliased hg]
    obtain ⟨h4, h5, h6⟩ := refreshPart_later env hn i h3 hg (g.getToken code) want
    generalize refreshPart env s i sid g (g.getToken code) want = M at *
    obtain ⟨m1, m2, m3⟩ := M
    cases m3 with
    | error e => exact ⟨h4, h5, (JobOk.raised _ _).1⟩
    | ok rt =>
      obtain ⟨h7, h8⟩ := h6 rt rfl
      refine ⟨h4, h5, fun sid' h => ?_, fun v h => ?_⟩
      · cases h; exact ⟨h3, _, h7⟩
      · simp only [JobPc.made, List.mem_cons, Option.mem_toList, Option.map_eq_some_iff] at h
        rcases h with rfl | ⟨t, rfl, rfl⟩
        · exact h4.stored hmade
        · exact ⟨sid, m2, t, h7, (h8 t rfl).1, rfl⟩
  | mintedR sid g0 code ar tok rt =>
    obtain ⟨h3, g, hg⟩ := hp.session sid rfl
    simp only [thStep, seen_aliased hg]
    obtain ⟨h4, h5, h6⟩ := finishCode_later hn i h3 hg (g.getToken code) ar tok rt
    generalize finishCode s i sid g (g.getToken code) ar tok rt = M at *
    obtain ⟨m1, m2⟩ := M
    refine ⟨h4, h5, (fun sid' h => by cases h), fun v h => ?_⟩
    cases m2 with
    | raise e => cases h
    | errMsg e => cases h
    | val r =>
      obtain ⟨e1, e2⟩ := h6 r rfl
      simp only [JobPc.made, e1, e2] at h
      exact h4.stored (hp.made v (by simpa [JobPc.made] using h))

theorem refresh_piece (env : Env) (i : TokIn) (req : TokReq) {s : Store} (hn : NoEmpty s) (p : RfPc) (hp : JobOk s (.refresh p)) :
    LaterStore s (rfStep .aliased env i req s p).1 ∧ NoEmpty (rfStep .aliased env i req s p).1 ∧
    JobOk (rfStep .aliased env i req s p).1 (.refresh (rfStep .aliased env i req s p).2) := by
  cases p with
  | done o => exact ⟨LaterStore.refl s, hn, hp⟩
  | start =>
    have hst : (rfStep .aliased env i req s .start).1 = s := by
      simp only [rfStep]
      repeat' split
      all_goals rfl
    refine ⟨by rw [hst]; exact LaterStore.refl s, by rw [hst]; exact hn, ?_⟩
    rw [hst]
    simp only [rfStep]
    repeat' split
    all_goals first
      | exact (JobOk.raised s _).2
      | exact (JobOk.errMsg s _).2
      | skip
    obtain ⟨_, h2, h3⟩ := sessionByToken_key hn (by assumption)
    refine ⟨fun sid h => ?_, (fun v h => by cases h)⟩
    cases h
    exact ⟨h3, _, h2⟩
  | looked sid g0 v =>
    obtain ⟨h3, g, hg⟩ := hp.session sid rfl
    simp only [rfStep, seen_aliased hg]
    obtain ⟨h4, h5, h6⟩ := mint_later env env.th.accessToken hn i.now i.ma h3 tAccessToken hg (g.getToken v)
    generalize mintAndStore env env.th.accessToken s i.now i.ma sid tAccessToken g (g.getToken v) = M at *
    obtain ⟨m1, m2, m3⟩ := M
    cases m3 with
    | error e => exact ⟨h4, h5, (JobOk.raised _ _).2⟩
    | ok tok =>
      obtain ⟨h7, h8⟩ := h6 tok rfl
      refine ⟨h4, h5, fun sid' h => ?_, fun v h => ?_⟩
      · cases h; exact ⟨h3, _, h7⟩
      · simp only [JobPc.made, List.mem_singleton] at h
        subst h
        exact ⟨sid, m2, tok, h7, h8, rfl⟩
  | mintedA sid g0 v tok =>
    obtain ⟨h3, g, hg⟩ := hp.session sid rfl
    have hmade := hp.made tok.value (by simp [JobPc.made])
    simp only [rfStep, seen_aliased hg]
    cases g.getToken v with
    | none => exact ⟨LaterStore.refl s, hn, (JobOk.raised _ _).2⟩
    | some b =>
      simp only
      cases b.usageRules.supportsMinting with
      | none => exact ⟨LaterStore.refl s, hn, (JobOk.raised _ _).2⟩
      | some mints =>
        simp only
        obtain ⟨h4, h5, h6⟩ := newRefresh_later .aliased env hn i h3 hg b (decide (tRefreshToken ∈ mints))
        generalize newRefresh .aliased env s i sid g b (decide (tRefreshToken ∈ mints)) = M at *
        obtain ⟨m1, m2⟩ := M
        cases m2 with
        | error e => exact ⟨h4, h5, (JobOk.raised _ _).2⟩
        | ok rt =>
          simp only [finishRefresh_store]
          refine ⟨h4, h5, (fun sid' h => by cases h), fun w h => ?_⟩
          cases hf : (finishRefresh m1 i g mints tok rt).2 with
          | raise e => rw [hf] at h; cases h
          | errMsg e => rw [hf] at h; cases h
          | val r =>
            obtain ⟨e1, e2⟩ := finishRefresh_tokens hf
            rw [hf] at h
            simp only [JobPc.made, e1, e2, List.mem_cons, Option.mem_toList, Option.map_eq_some_iff] at h
            rcases h with rfl | ⟨t, rfl, rfl⟩
            · exact h4.stored hmade
            · exact h6 _ rfl t rfl

theorem revokeToken_later {s : Store} (hn : NoEmpty s) (limit : Nat) (sid v : Str) (r : Bool) :
    LaterStore s (revokeToken .aliased s limit sid v r).1 ∧ NoEmpty (revokeToken .aliased s limit sid v r).1 := by
  unfold Verif.revokeToken
  cases hf : findToken s sid v with
  | error e => exact ⟨LaterStore.refl s, hn⟩
  | ok x =>
    obtain ⟨g, t⟩ := x
    cases t with
    | none => exact ⟨LaterStore.refl s, hn⟩
    | some t =>
      simp only
      have hk : s sid = some (.grant g) := by
        unfold findToken at hf
        cases hu : unpack3 sid with
        | error e => simp [hu] at hf
        | ok y =>
          obtain ⟨u, c, gi⟩ := y
          simp only [hu] at hf
          cases hd : dbGet s [u, c, gi] with
          | error e => simp [hd] at hf
          | ok o =>
            cases o with
            | info _ => simp [hd] at hf
            | grant g' =>
              simp only [hd, Except.ok.injEq, Prod.mk.injEq] at hf
              obtain ⟨rfl, _⟩ := hf
              exact (read3 hn hu hd).1
      refine ⟨later_put hk ?_, noEmpty_put hn _ _⟩
      have h1 : LaterGrant g { g with issuedToken := updateFirst v Token.revoke g.issuedToken } :=
        ⟨id, rfl, rfl, fun n t h => (step_pres g (.revokeOne v) n t h).elim fun t' h => ⟨t', h.1, LaterToken.ofPres h.2, fun _ hk => h.2.rules hk⟩⟩
      cases r with
      | false => exact h1
      | true =>
        refine h1.trans ⟨id, rfl, rfl, fun n t h => ?_⟩
        obtain ⟨t', h2, h3⟩ := step_pres { g with issuedToken := updateFirst v Token.revoke g.issuedToken } (.revokeDependent limit v) n t h
        exact ⟨t', h2, LaterToken.ofPres h3, fun _ hk => h3.rules hk⟩

theorem revokeGrant_later {s : Store} (hn : NoEmpty s) {sid : Str} (hs : Sid3 sid) :
    LaterStore s (revokeGrant s sid).1 ∧ NoEmpty (revokeGrant s sid).1 := by
  refine ⟨?_, (many_ok_step .aliased demoEnv (fun _ => tokIn 0 [] []) (fun _ => demoTokReq) (x := ⟨s, fun _ => .start⟩)
    ⟨hn, fun _ _ h => by cases h⟩ (.revoke sid) (fun sid' e => by cases e; exact hs)).noEmpty⟩
  rcases revokeGrant_three hn hs with e | ⟨o, ho, e⟩
  · rw [e]; exact LaterStore.refl s
  · rw [e]
    cases o with
    | grant g => exact later_set hs ho ⟨fun _ => rfl, rfl, rfl, fun n t h => ⟨t, h, LaterToken.refl t, fun _ _ => rfl⟩⟩
    | info j =>
      intro k g hk
      refine ⟨g, mgrSet_keeps _ hs hk ?_, LaterGrant.refl g⟩
      rintro rfl
      rw [ho] at hk; cases hk

/-- A grant is overwritten only by what is stored under its own key. -/
theorem dbSet_keeps {s : Store} {k : Str} {g : Grant} (path : List Str) (v : Obj) (hp : ∀ u c gi r, path = u :: c :: gi :: r → gi ≠ [])
    (hk : s k = some (.grant g)) (hne : k ≠ sessionKey (path.take 3)) : (dbSet s path v).1 k = some (.grant g) := by
  have husr : ∀ (s1 : Store) u c, s1 k = some (.grant g) → (dbSetUser s1 u (some c) v).1 k = some (.grant g) := by
    intro s1 u c h
    unfold dbSetUser
    cases c with
    | nil => exact h
    | cons x l =>
      simp only
      split
      · rename_i hn
        have : k ≠ u := by rintro rfl; rw [h] at hn; cases hn
        simpa [Store.put, this] using h
      · exact h
      · rename_i i hn
        have : k ≠ u := by rintro rfl; rw [h] at hn; cases hn
        split
        · exact h
        · simpa [Store.put, this] using h
  match path, hp, hne with
  | [], _, _ => exact hk
  | [u], _, hne =>
    have hne : k ≠ u := hne
    simp only [dbSet, evalPath, truthy, dbSetUser]
    simpa [Store.put, hne] using hk
  | [u, c], _, hne =>
    have hne : k ≠ sessionKey [u, c] := by simpa using hne
    cases c with
    | nil => exact hk
    | cons x l =>
      have h1 : (s.put (sessionKey [u, x :: l]) v) k = some (.grant g) := by simpa [Store.put, hne] using hk
      have := husr _ u (x :: l) h1
      simpa [dbSet, evalPath, truthy, dbSetClient] using this
  | u :: c :: gi :: r, hp, hne =>
    have hne : k ≠ sessionKey [u, c, gi] := by simpa using hne
    obtain ⟨x, l, rfl⟩ : ∃ x l, gi = x :: l := by
      cases gi with
      | nil => exact absurd rfl (hp u c _ r rfl)
      | cons x l => exact ⟨x, l, rfl⟩
    have h1 : (s.put (sessionKey [u, c, x :: l]) v) k = some (.grant g) := by simpa [Store.put, hne] using hk
    have hcl : ∀ (s1 : Store), s1 k = some (.grant g) → (dbSetClient s1 u c (some (x :: l)) v).1 k = some (.grant g) := by
      intro s1 h
      unfold dbSetClient
      simp only
      split
      · rename_i hn
        have : k ≠ sessionKey [u, c] := by rintro rfl; rw [h] at hn; cases hn
        simpa [Store.put, this] using h
      · exact h
      · rename_i i hn
        have : k ≠ sessionKey [u, c] := by rintro rfl; rw [h] at hn; cases hn
        split
        · exact h
        · simpa [Store.put, this] using h
    unfold dbSet
    simp only [evalPath, Option.getD_some, truthy, if_true]
    by_cases hc : truthy (some c) = true
    · have h4 := hcl _ h1
      simp only [truthy] at hc
      simp only [hc, if_true]
      split
      · exact h4
      · exact husr _ u c h4
    · have : c = [] := by
        cases c with
        | nil => rfl
        | cons _ _ => exact absurd rfl hc
      subst this
      exact h1

theorem noEmpty_set {s : Store} (hn : NoEmpty s) (path : List Str) (v : Obj) (hp : ∀ u c g r, path = u :: c :: g :: r → g ≠ [])
    (hi : ∀ i, v = .info i → [] ∉ i.subordinate) : NoEmpty (dbSet s path v).1 :=
  ((St.start (env := demoEnv) (C := fun _ _ => True) hn).set path v hp hi (fun g _ => ⟨g, Or.inr trivial, Evo.refl g⟩)).noEmpty

theorem logout_later {s : Store} (hn : NoEmpty s) (sid : Str) :
    LaterStore s (revokeClientSession s sid).1 ∧ NoEmpty (revokeClientSession s sid).1 := by
  refine ⟨?_, (revokeClientSession_st (env := demoEnv) (C := fun _ _ => True) (St.start hn) sid).noEmpty⟩
  have go : ∀ u c, LaterStore s (match dbGet s [u, c] with
      | .error e => ((s, .error e) : Store × Except Exn Unit)
      | .ok (.grant _) => (s, .error .typeError)
      | .ok (.info i) => dbSet s [u, c] (.info i.revoke)).1 := by
    intro u c
    cases hd : dbGet s [u, c] with
    | error e => exact LaterStore.refl s
    | ok o =>
      cases o with
      | grant g => exact LaterStore.refl s
      | info i =>
        obtain ⟨hk, hp⟩ := dbGet_key hn hd
        intro k g hg
        refine ⟨g, dbSet_keeps _ _ hp hg ?_, LaterGrant.refl g⟩
        rintro rfl
        rw [hk] at hg; cases hg
  unfold revokeClientSession
  simp only
  split
  · exact go _ _
  · exact go _ _
  · exact LaterStore.refl s

theorem login_later {s : Store} (hn : NoEmpty s) (sf : SubFuncs) (now : Int) {gid u c : Str} (a : SessArgs) (hc : c ≠ []) (hgid : gid ≠ [])
    (hf : ∀ g, s (sessionKey [u]) ≠ some (.grant g) ∧ s (sessionKey [u, c]) ≠ some (.grant g) ∧ s (sessionKey [u, c, gid]) ≠ some (.grant g)) :
    LaterStore s (createSession sf s now gid u c a).1 ∧ NoEmpty (createSession sf s now gid u c a).1 := by
  have h1 : (∀ k g, s k = some (.grant g) → (ensureUser s u).1 k = some (.grant g)) ∧ NoEmpty (ensureUser s u).1 := by
    unfold ensureUser
    split
    · exact ⟨fun _ _ h => h, hn⟩
    · split
      · refine ⟨fun k g h => dbSet_keeps _ _ (by rintro _ _ _ _ ⟨⟩) h ?_, noEmpty_set hn _ _ (by rintro _ _ _ _ ⟨⟩) ?_⟩
        · rintro rfl; exact (hf g).1 h
        · rintro i ⟨⟩; simp [SessInfo.user]
      · exact ⟨fun _ _ h => h, hn⟩
  unfold createSession
  simp only [if_neg hc]
  generalize ensureUser s u = e at *
  obtain ⟨s1, r1⟩ := e
  cases r1 with
  | error e => exact ⟨fun k g h => ⟨g, h1.1 k g h, LaterGrant.refl g⟩, h1.2⟩
  | ok _ =>
    have h2 : (∀ k g, s k = some (.grant g) → (dbSet s1 [u, c] (.info (SessInfo.client c))).1 k = some (.grant g)) ∧
        NoEmpty (dbSet s1 [u, c] (.info (SessInfo.client c))).1 := by
      refine ⟨fun k g h => dbSet_keeps _ _ (by rintro _ _ _ _ ⟨⟩) (h1.1 k g h) ?_, noEmpty_set h1.2 _ _ (by rintro _ _ _ _ ⟨⟩) ?_⟩
      · rintro rfl; exact (hf g).2.1 h
      · rintro i ⟨⟩; simp [SessInfo.client]
    simp only
    generalize dbSet s1 [u, c] (.info (SessInfo.client c)) = e at *
    obtain ⟨s2, r2⟩ := e
    cases r2 with
    | error e => exact ⟨fun k g h => ⟨g, h2.1 k g h, LaterGrant.refl g⟩, h2.2⟩
    | ok _ =>
      have hp : ∀ u' c' g' r, [u, c, gid] = u' :: c' :: g' :: r → g' ≠ [] := by rintro _ _ _ _ ⟨⟩; exact hgid
      simp only [createGrant]
      cases newGrant sf now gid u a with
      | error e => exact ⟨fun k g h => ⟨g, h2.1 k g h, LaterGrant.refl g⟩, h2.2⟩
      | ok ng =>
        have h3 : (∀ k g, s k = some (.grant g) → (dbSet s2 [u, c, gid] (.grant ng)).1 k = some (.grant g)) ∧
            NoEmpty (dbSet s2 [u, c, gid] (.grant ng)).1 := by
          refine ⟨fun k g h => dbSet_keeps _ _ hp (h2.1 k g h) ?_, noEmpty_set h2.2 _ _ hp (by rintro i ⟨⟩)⟩
          rintro rfl; exact (hf g).2.2 h
        simp only
        generalize dbSet s2 [u, c, gid] (.grant ng) = e at *
        obtain ⟨s3, r3⟩ := e
        cases r3 <;> exact ⟨fun k g h => ⟨g, h3.1 k g h, LaterGrant.refl g⟩, h3.2⟩

/-! ### Schedules -/

/-- What holds of the storage and the threads all the time. -/
structure JobsOk (x : Jobs) : Prop where
  noEmpty : NoEmpty x.store
  job : ∀ t, JobOk x.store (x.pc t)

theorem jobsOk_start (req : Nat → TokReq) {s : Store} (hn : NoEmpty s) : JobsOk (jobsAt req s) := by
  refine ⟨hn, fun t => ?_⟩
  simp only [jobsAt, jobStart]
  split
  · exact ⟨(fun sid h => by cases h), (fun v h => by cases h)⟩
  · exact ⟨(fun sid h => by cases h), (fun v h => by cases h)⟩

theorem job_step (env : Env) (i : Nat → TokIn) (req : Nat → TokReq) {x : Jobs} (h : JobsOk x) (ev : JobEv) (hg : EventOk x.store ev) :
    LaterStore x.store (jobStep .aliased env i req x ev).store ∧ JobsOk (jobStep .aliased env i req x ev) := by
  cases ev with
  | step t =>
    have h1 : LaterStore x.store (jobPiece .aliased env (i t) (req t) x.store (x.pc t)).1 ∧
        NoEmpty (jobPiece .aliased env (i t) (req t) x.store (x.pc t)).1 ∧
        JobOk (jobPiece .aliased env (i t) (req t) x.store (x.pc t)).1 (jobPiece .aliased env (i t) (req t) x.store (x.pc t)).2 := by
      have := h.job t
      cases hp : x.pc t with
      | code p => rw [hp] at this; exact code_piece env (i t) (req t) h.noEmpty p this
      | refresh p => rw [hp] at this; exact refresh_piece env (i t) (req t) h.noEmpty p this
    obtain ⟨a, b, c⟩ := h1
    refine ⟨a, b, fun t' => ?_⟩
    simp only [jobStep]
    split
    · exact c
    · exact (h.job t').later a
  | login sf now gid u c a =>
    obtain ⟨a, b⟩ := login_later h.noEmpty sf now a hg.1 hg.2.1 hg.2.2
    exact ⟨a, b, fun t => (h.job t).later a⟩
  | logout sid =>
    obtain ⟨a, b⟩ := logout_later h.noEmpty sid
    exact ⟨a, b, fun t => (h.job t).later a⟩
  | revokeGrant sid =>
    obtain ⟨a, b⟩ := revokeGrant_later h.noEmpty hg
    exact ⟨a, b, fun t => (h.job t).later a⟩
  | revokeToken limit sid v r =>
    obtain ⟨a, b⟩ := revokeToken_later h.noEmpty limit sid v r
    exact ⟨a, b, fun t => (h.job t).later a⟩

theorem job_run (env : Env) (i : Nat → TokIn) (req : Nat → TokReq) (evs : List JobEv) {x : Jobs} (h : JobsOk x) (hg : Orderly .aliased env i req x evs) :
    LaterStore x.store (jobRun .aliased env i req x evs).store ∧ JobsOk (jobRun .aliased env i req x evs) := by
  induction evs generalizing x with
  | nil => exact ⟨LaterStore.refl _, h⟩
  | cons ev evs ih =>
    obtain ⟨a, b⟩ := job_step env i req h ev hg.1
    obtain ⟨c, d⟩ := ih b hg.2
    exact ⟨a.trans c, d⟩

theorem jobRun_append (m : Mode) (env : Env) (i : Nat → TokIn) (req : Nat → TokReq) (x : Jobs) (evs more : List JobEv) :
    jobRun m env i req x (evs ++ more) = jobRun m env i req (jobRun m env i req x evs) more := by
  unfold jobRun; rw [List.foldl_append]

theorem orderly_append {m : Mode} {env : Env} {i : Nat → TokIn} {req : Nat → TokReq} {evs more : List JobEv} {x : Jobs} :
    Orderly m env i req x (evs ++ more) ↔ Orderly m env i req x evs ∧ Orderly m env i req (jobRun m env i req x evs) more := by
  induction evs generalizing x with
  | nil => simp [Orderly, jobRun]
  | cons ev evs ih =>
    simp only [List.cons_append, Orderly, ih, and_assoc]
    rfl

/-- C174, with a back end that keeps objects: however many threads exchange codes and refresh tokens, in whatever order they are
interrupted, and whatever is revoked meanwhile: no stored grant and no stored token is ever lost, none is un-revoked, no use is forgotten. -/
theorem C174_nothing_taken_back_partial (env : Env) (i : Nat → TokIn) (req : Nat → TokReq) (s : Store) (hn : NoEmpty s)
    (evs more : List JobEv) (hg : Orderly .aliased env i req (jobsAt req s) (evs ++ more)) :
    LaterStore (jobRun .aliased env i req (jobsAt req s) evs).store (jobRun .aliased env i req (jobsAt req s) (evs ++ more)).store := by
  rw [jobRun_append]
  exact (job_run env i req more (job_run env i req evs (jobsOk_start req hn) (orderly_append.1 hg).1).2 (orderly_append.1 hg).2).1

/-- C174, with a back end that keeps objects: every token in an answer is stored, from then on for ever. -/
theorem C174_answers_are_stored_partial (env : Env) (i : Nat → TokIn) (req : Nat → TokReq) (s : Store) (hn : NoEmpty s)
    (evs more : List JobEv) (hg : Orderly .aliased env i req (jobsAt req s) (evs ++ more)) (t : Nat) (v : Str)
    (hv : v ∈ answerTokens ((jobRun .aliased env i req (jobsAt req s) evs).pc t)) :
    TokenStored (jobRun .aliased env i req (jobsAt req s) (evs ++ more)).store v := by
  obtain ⟨_, h1⟩ := job_run env i req evs (jobsOk_start req hn) (orderly_append.1 hg).1
  rw [jobRun_append]
  obtain ⟨h2, _⟩ := job_run env i req more h1 (orderly_append.1 hg).2
  refine h2.stored ((h1.job t).made v ?_)
  cases hp : (jobRun .aliased env i req (jobsAt req s) evs).pc t with
  | code p =>
    rw [hp] at hv
    cases p with
    | done o => cases o with
      | val r => exact hv
      | _ => cases hv
    | _ => cases hv
  | refresh p =>
    rw [hp] at hv
    cases p with
    | done o => cases o with
      | val r => exact hv
      | _ => cases hv
    | _ => cases hv

/-- The session and the token a thread is about to exchange. -/
def exchanging : JobPc → Option (Str × Str)
  | .code (.looked sid _ code _ _) => some (sid, code)
  | .refresh (.looked sid _ v) => some (sid, v)
  | _ => none

/-- A thread that is about to mint from a token that is revoked or used up raises, and stores nothing. -/
theorem piece_refused (env : Env) (i : TokIn) (req : TokReq) {s : Store} {p : JobPc} {sid v : Str} (hp : exchanging p = some (sid, v))
    (hr : RevokedIn s sid v ∨ SpentIn s sid v) :
    (jobPiece .aliased env i req s p).1 = s ∧ (∃ e, (jobPiece .aliased env i req s p).2 = .code (.done (.raise e)) ∨
      (jobPiece .aliased env i req s p).2 = .refresh (.done (.raise e))) := by
  have hr : ∃ g, s sid = some (.grant g) ∧ ∀ now, g.isActive now = false ∨ ∃ t, g.getToken v = some t ∧ t.isActive now = false := by
    rcases hr with ⟨g, hg, hr | ⟨t, ht, hr⟩⟩ | ⟨g, t, hg, _, ht, _, hu, hr⟩
    · exact ⟨g, hg, fun now => Or.inl (by simp [Grant.isActive, Item.isActive, hr])⟩
    · exact ⟨g, hg, fun now => Or.inr ⟨t, ht, by simp [Token.isActive, Item.isActive, hr]⟩⟩
    · exact ⟨g, hg, fun now => Or.inr ⟨t, ht, by
        have : ¬ (t.used : Int) < 1 := by omega
        simp [Token.isActive, Item.isActive, hu, Item.maxUsageReached, this]⟩⟩
  obtain ⟨g, hg, hr⟩ := hr
  have key : ∀ h now mi, ∃ e, mintAndStore env h s now mi sid tAccessToken g (g.getToken v) =
      (s, (mintAndStore env h s now mi sid tAccessToken g (g.getToken v)).2.1, .error e) := by
    intro h now mi
    rcases mintAndStore_spec env h s now mi sid tAccessToken g (g.getToken v) with ⟨h1, _, e, h3⟩ | ⟨w, t, _, ha, hb, _⟩
    · exact ⟨e, by
        generalize mintAndStore env h s now mi sid tAccessToken g (g.getToken v) = M at *
        obtain ⟨m1, m2, m3⟩ := M
        cases h1; cases h3; rfl⟩
    · rcases hr now with hr | ⟨t', ht, hr⟩
      · rw [hr] at ha; cases ha
      · rw [(hb t' ht).2] at hr; cases hr
  cases p with
  | code p =>
    cases p with
    | looked sid' g0 code ar want =>
      cases hp
      obtain ⟨e, he⟩ := key env.th.accessToken i.now i.ma
      simp only [jobPiece, thStep, seen_aliased hg]
      rw [he]
      exact ⟨rfl, e, Or.inl rfl⟩
    | _ => cases hp
  | refresh p =>
    cases p with
    | looked sid' g0 v' =>
      cases hp
      obtain ⟨e, he⟩ := key env.th.accessToken i.now i.ma
      simp only [jobPiece, rfStep, seen_aliased hg]
      rw [he]
      exact ⟨rfl, e, Or.inr rfl⟩
    | _ => cases hp

/-- A thread that has looked up a token which is dead before a token has been made from it never answers with a token. -/
theorem dead_in_time (env : Env) (i : Nat → TokIn) (req : Nat → TokReq) (s : Store) (hn : NoEmpty s)
    (evs more : List JobEv) (hg : Orderly .aliased env i req (jobsAt req s) (evs ++ more)) (t : Nat) (sid v : Str)
    (hp : exchanging ((jobRun .aliased env i req (jobsAt req s) evs).pc t) = some (sid, v))
    (hr : RevokedIn (jobRun .aliased env i req (jobsAt req s) evs).store sid v ∨ SpentIn (jobRun .aliased env i req (jobsAt req s) evs).store sid v) :
    answerTokens ((jobRun .aliased env i req (jobsAt req s) (evs ++ more)).pc t) = [] := by
  obtain ⟨_, h1⟩ := job_run env i req evs (jobsOk_start req hn) (orderly_append.1 hg).1
  have hm := (orderly_append.1 hg).2
  rw [jobRun_append]
  generalize jobRun .aliased env i req (jobsAt req s) evs = x at *
  have key : ∀ (more : List JobEv) (x : Jobs), JobsOk x → Orderly .aliased env i req x more →
      (exchanging (x.pc t) = some (sid, v) ∧ (RevokedIn x.store sid v ∨ SpentIn x.store sid v) ∨
        ∃ e, x.pc t = .code (.done (.raise e)) ∨ x.pc t = .refresh (.done (.raise e))) →
      answerTokens ((jobRun .aliased env i req x more).pc t) = [] := by
    intro more
    induction more with
    | nil =>
      intro x _ _ hx
      show answerTokens (x.pc t) = []
      rcases hx with ⟨h2, _⟩ | ⟨e, h2 | h2⟩
      · cases hpc : x.pc t with
        | code p => rw [hpc] at h2; cases p <;> first | rfl | cases h2
        | refresh p => rw [hpc] at h2; cases p <;> first | rfl | cases h2
      · rw [h2]; rfl
      · rw [h2]; rfl
    | cons ev more ih =>
      intro x hx hgn hst
      obtain ⟨a, b⟩ := job_step env i req hx ev hgn.1
      refine ih _ b hgn.2 ?_
      rcases hst with ⟨h2, h3⟩ | h2
      · by_cases e : ev = .step t
        · subst e
          obtain ⟨_, e, h4⟩ := piece_refused env (i t) (req t) h2 h3
          right
          exact ⟨e, by simpa only [jobStep, if_true] using h4⟩
        · left
          refine ⟨?_, h3.imp a.revokedIn a.spentIn⟩
          cases ev with
          | step t' =>
            simp only [jobStep]
            rw [if_neg (by rintro rfl; exact e rfl)]
            exact h2
          | _ => exact h2
      · right
        obtain ⟨e, h2⟩ := h2
        refine ⟨e, ?_⟩
        cases ev with
        | step t' =>
          simp only [jobStep]
          split
          · rename_i e'
            subst e'
            rcases h2 with h2 | h2 <;> rw [h2]
            · exact Or.inl rfl
            · exact Or.inr rfl
          · exact h2
        | _ => exact h2
  exact key more x h1 hm (Or.inl ⟨hp, hr⟩)

/-- C175, with a back end that keeps objects: if the code or refresh token (or the whole grant) that a thread has looked up is revoked before
the thread has made a token from it, the thread never answers with a token, whatever happens next. -/
theorem C175_revoked_in_time_partial (env : Env) (i : Nat → TokIn) (req : Nat → TokReq) (s : Store) (hn : NoEmpty s)
    (evs more : List JobEv) (hg : Orderly .aliased env i req (jobsAt req s) (evs ++ more)) (t : Nat) (sid v : Str)
    (hp : exchanging ((jobRun .aliased env i req (jobsAt req s) evs).pc t) = some (sid, v))
    (hr : RevokedIn (jobRun .aliased env i req (jobsAt req s) evs).store sid v) :
    answerTokens ((jobRun .aliased env i req (jobsAt req s) (evs ++ more)).pc t) = [] :=
  dead_in_time env i req s hn evs more hg t sid v hp (Or.inl hr)

/-- When a thread answers a code exchange, the code is used up. -/
theorem finished_spent (env : Env) (i : TokIn) (req : TokReq) {s : Store} {sid code : Str} {g g0 : Grant} {ar : AuthReq} {tok : Token} {rt : Option Token}
    (hs : Sid3 sid) (hg : s sid = some (.grant g)) (hm : g.tokenMap = defaultTokenMap) {c : Token} (hc : g.getToken code = some c)
    (hk : c.kind = .authorizationCode) (hu : c.usageRules.maxUsage = some 1) :
    SpentIn (thStep .aliased env i req s (.mintedR sid g0 code ar tok rt)).1 sid code := by
  have hv : c.value = code := by
    obtain ⟨_, _, h, _⟩ := findValue_pos hc
    exact h
  have hst : (thStep .aliased env i req s (.mintedR sid g0 code ar tok rt)).1 = (mgrSet s sid (.grant (g.registerUsage code))).1 := by
    simp only [thStep, seen_aliased hg, hc, finishCode, hv]
    repeat' split
    all_goals rfl
  rw [hst]
  refine ⟨g.registerUsage code, c.registerUsage, mgrSet_own _ _ hs _, hm, ?_, hk, hu, by simp [Token.registerUsage]⟩
  show findValue code (updateFirst code Token.registerUsage g.issuedToken) = some c.registerUsage
  have h : findValue code g.issuedToken = some c := hc
  generalize g.issuedToken = l at h ⊢
  unfold findValue at h ⊢
  induction l with
  | nil => cases h
  | cons a l ih =>
    unfold updateFirst
    rw [List.find?_cons] at h
    by_cases ha : a.value = code
    · simp only [ha, decide_true] at h
      cases h
      simp [ha, Token.registerUsage]
    · simp only [ha, decide_false] at h
      rw [if_neg ha, List.find?_cons]
      simp only [ha, decide_false]
      exact ih h

/-- C56, with a back end that keeps objects: once some thread has answered the exchange of a code, no thread that has looked up the code but
made no token from it answers with a token.  So a code is exchanged twice only by threads that all made their tokens before any of them
answered. -/
theorem C56_too_late_partial (env : Env) (i : Nat → TokIn) (req : Nat → TokReq) (s : Store) (hn : NoEmpty s)
    (evs more : List JobEv) (a : Nat) (hg : Orderly .aliased env i req (jobsAt req s) (evs ++ .step a :: more)) (sid code : Str)
    (hcodes : ∀ g, (jobRun .aliased env i req (jobsAt req s) evs).store sid = some (.grant g) → g.tokenMap = defaultTokenMap ∧
      ∃ c, g.getToken code = some c ∧ c.kind = .authorizationCode ∧ c.usageRules.maxUsage = some 1)
    (g : Grant) (ar : AuthReq) (tok : Token) (rt : Option Token)
    (ha : (jobRun .aliased env i req (jobsAt req s) evs).pc a = .code (.mintedR sid g code ar tok rt))
    (t : Nat) (hne : t ≠ a) (ht : exchanging ((jobRun .aliased env i req (jobsAt req s) evs).pc t) = some (sid, code)) :
    answerTokens ((jobRun .aliased env i req (jobsAt req s) (evs ++ .step a :: more)).pc t) = [] := by
  have e : evs ++ .step a :: more = (evs ++ [.step a]) ++ more := by simp
  have hg' : Orderly .aliased env i req (jobsAt req s) ((evs ++ [.step a]) ++ more) := by rw [← e]; exact hg
  rw [e]
  obtain ⟨_, h1⟩ := job_run env i req evs (jobsOk_start req hn) (orderly_append.1 hg).1
  have h2 := (h1.job a).session sid (by rw [ha]; rfl)
  obtain ⟨h3, g1, h4⟩ := h2
  obtain ⟨hm, c, hc, hk, hu⟩ := hcodes g1 h4
  have hfin := finished_spent env (i a) (req a) (g0 := g) (ar := ar) (tok := tok) (rt := rt) h3 h4 hm hc hk hu
  have hstep : jobRun .aliased env i req (jobsAt req s) (evs ++ [.step a]) =
      jobStep .aliased env i req (jobRun .aliased env i req (jobsAt req s) evs) (.step a) := by rw [jobRun_append]; rfl
  refine dead_in_time env i req s hn (evs ++ [.step a]) more hg' t sid code ?_ (Or.inr ?_)
  · rw [hstep]
    simp only [jobStep]
    rw [if_neg hne]
    exact ht
  · rw [hstep]
    simp only [jobStep, ha, jobPiece]
    exact hfin

/-! ### The pieces are the function -/

/-- Three steps of one thread without interruption. -/
def threePieces (m : Mode) (env : Env) (i : TokIn) (req : TokReq) (s : Store) : Store × RfPc :=
  let a := rfStep m env i req s .start
  let b := rfStep m env i req a.1 a.2
  rfStep m env i req b.1 b.2

/-- The pieces, run without interruption, are `RefreshTokenHelper.process_request` (for a refresh token that is found in its grant). -/
theorem C174_pieces_are_process_request (m : Mode) (env : Env) (i : TokIn) (req : TokReq) (s : Store) (hn : NoEmpty s)
    (hfound : ∀ v sid g, req.refreshToken = some v → sessionByToken env.th env.cr s i.now v = .ok (sid, .grant g) → ∃ t, g.getToken v = some t) :
    threePieces m env i req s = ((refreshProcess m env s i req).1, .done (refreshProcess m env s i req).2) := by
  have fin : ∀ s' o, rfStep m env i req s .start = (s', .done o) → refreshProcess m env s i req = (s', o) →
      threePieces m env i req s = ((refreshProcess m env s i req).1, .done (refreshProcess m env s i req).2) := by
    intro s' o h1 h2
    unfold threePieces
    rw [h1, h2]
    rfl
  by_cases hgt : req.grantType ≠ some c!"refresh_token"
  · apply fin s (.errMsg c!"invalid_request")
    · simp only [rfStep]; rw [if_pos hgt]
    · unfold refreshProcess; rw [if_pos hgt]
  · cases hv : req.refreshToken with
    | none =>
      apply fin s (.raise .keyError)
      · simp only [rfStep]; rw [if_neg hgt]; simp only [hv]
      · unfold refreshProcess; rw [if_neg hgt]; simp only [hv]
    | some v =>
      cases hs : sessionByToken env.th env.cr s i.now v with
      | error e =>
        apply fin s (.raise e)
        · simp only [rfStep]; rw [if_neg hgt]; simp only [hv, hs]
        · unfold refreshProcess; rw [if_neg hgt]; simp only [hv, hs]
      | ok x =>
        obtain ⟨sid, o⟩ := x
        cases o with
        | info _ =>
          apply fin s (.raise .attributeError)
          · simp only [rfStep]; rw [if_neg hgt]; simp only [hv, hs]
          · unfold refreshProcess; rw [if_neg hgt]; simp only [hv, hs]
        | grant g =>
          obtain ⟨b, hb⟩ := hfound v sid g hv hs
          obtain ⟨k1, k2, k3⟩ := sessionByToken_key hn hs
          have s1 : rfStep m env i req s .start = (s, .looked sid g v) := by
            simp only [rfStep]; rw [if_neg hgt]; simp only [hv, hs]
          have c1 : refreshProcess m env s i req = exchangeRefresh m env s i sid g (some b) := by
            unfold refreshProcess; rw [if_neg hgt]; simp only [hv, hs, hb]
          rw [c1]
          unfold threePieces exchangeRefresh
          rw [s1]
          have e1 : seen m s sid g = g := seen_own m k2 (fun _ => rfl)
          simp only
          cases hm : (mintAndStore env env.th.accessToken s i.now i.ma sid tAccessToken g (some b)).2.2 with
          | error e => simp only [rfStep, e1, hb, hm]
          | ok tok =>
            obtain ⟨_, _, _, a4, _, _, _, _, _, _, a11, _, a13⟩ := mintAndStore_ok hm
            have s2 : rfStep m env i req s (.looked sid g v) =
                ((mintAndStore env env.th.accessToken s i.now i.ma sid tAccessToken g (some b)).1,
                  .mintedA sid (mintAndStore env env.th.accessToken s i.now i.ma sid tAccessToken g (some b)).2.1 v tok) := by
              simp only [rfStep, e1, hb, hm]
            rw [s2]
            generalize mintAndStore env env.th.accessToken s i.now i.ma sid tAccessToken g (some b) = M at *
            have hM : M.1 sid = some (.grant M.2.1) := by rw [a13]; exact mgrSet_own _ _ k3 _
            have e2 : seen m M.1 sid M.2.1 = M.2.1 := seen_own m hM (fun _ => rfl)
            have t2 : M.2.1.getToken v = some b := by unfold Grant.getToken; rw [a4]; exact findValue_append_left hb
            simp only [rfStep, e2, t2]
            cases b.usageRules.supportsMinting with
            | none => rfl
            | some mints =>
              simp only
              cases (newRefresh m env M.1 i sid M.2.1 b (decide (tRefreshToken ∈ mints))).2 with
              | error e => rfl
              | ok rt =>
                simp only [finishRefresh, a11]

/-! ### Copies -/

/-- The storage after the demo's code was exchanged. -/
def exchangedStore (m : Mode) : Store := (sysRun (demoCfg m) (demoOps.take 4)).store

/-- Two threads exchange the demo's refresh token: both look up the grant before either has stored anything. -/
def refreshRace : List JobEv := [.step 0, .step 1, .step 0, .step 0, .step 1, .step 1]

/-- The inputs of the two threads. -/
def raceIn : Nat → TokIn
  | 0 => tokIn 3 c!"n7" c!"n8"
  | _ => tokIn 3 c!"n9" c!"n10"

/-- The two threads. -/
def raceRun (m : Mode) (evs : List JobEv) : Jobs := jobRun m demoEnv raceIn (fun _ => demoRefReq) (jobsAt (fun _ => demoRefReq) (exchangedStore m)) evs

set_option maxRecDepth 16000 in
/-- C174 is false of the code with a back end that stores copies: both threads answer with tokens, but those of the first are gone: its
access token is not good for anything, and its refresh token cannot be exchanged. -/
theorem C174_tokens_lost :
    let x := raceRun .byValue refreshRace
    answerTokens (x.pc 0) = [demoRt 3 c!"n7", demoRt 3 c!"n8"] ∧ answerTokens (x.pc 1) = [demoRt 3 c!"n9", demoRt 3 c!"n10"] ∧
    isVal (userinfoProcess demoEnv demoUsers x.store 4 (demoRt 3 c!"n7")) = false ∧
    isVal (tokenEndpoint .byValue demoEnv demoHelpers x.store (tokIn 4 c!"n11" c!"n12")
      { demoRefReq with refreshToken := some (demoRt 3 c!"n8") }).2 = false ∧
    isVal (userinfoProcess demoEnv demoUsers x.store 4 (demoRt 3 c!"n9")) = true := by
  refine ⟨by decide +kernel, by decide +kernel, by decide +kernel, by decide +kernel, by decide +kernel⟩

set_option maxRecDepth 16000 in
/-- The same schedule with a back end that keeps objects: all four tokens are good. -/
example : let x := raceRun .aliased refreshRace
    answerTokens (x.pc 0) = [demoRt 3 c!"n7", demoRt 3 c!"n8"] ∧ answerTokens (x.pc 1) = [demoRt 3 c!"n9", demoRt 3 c!"n10"] ∧
    isVal (userinfoProcess demoEnv demoUsers x.store 4 (demoRt 3 c!"n7")) = true ∧
    isVal (tokenEndpoint .aliased demoEnv demoHelpers x.store (tokIn 4 c!"n11" c!"n12")
      { demoRefReq with refreshToken := some (demoRt 3 c!"n8") }).2 = true ∧
    isVal (userinfoProcess demoEnv demoUsers x.store 4 (demoRt 3 c!"n9")) = true := by
  refine ⟨by decide +kernel, by decide +kernel, by decide +kernel, by decide +kernel, by decide +kernel⟩

/-- The refresh token is looked up; then it is revoked; then the thread goes on. -/
def revokeTokenRace : List JobEv := [.step 0, .revokeToken 100 c!"diana;;c1;;g1" (demoRt 2 c!"n4") true, .step 0, .step 0]

set_option maxRecDepth 16000 in
/-- C175 is false of the code with a back end that stores copies: the thread answers with tokens that are good. -/
theorem C175_copies_ignore_revocation :
    let x := raceRun .byValue revokeTokenRace
    answerTokens (x.pc 0) = [demoRt 3 c!"n7", demoRt 3 c!"n8"] ∧
    isVal (userinfoProcess demoEnv demoUsers x.store 4 (demoRt 3 c!"n7")) = true := by
  refine ⟨by decide +kernel, by decide +kernel⟩

/-- Is the token with this value revoked? -/
def tokenRevoked (s : Store) (sid v : Str) : Bool := match s sid with
  | some (.grant g) => (g.getToken v).any (·.revoked)
  | _ => false

set_option maxRecDepth 16000 in
/-- With a back end that keeps objects the hypotheses of the theorems are met after the first two events, and the thread answers with no token. -/
example : exchanging ((raceRun .aliased (revokeTokenRace.take 2)).pc 0) = some (c!"diana;;c1;;g1", demoRt 2 c!"n4") ∧
    tokenRevoked (raceRun .aliased (revokeTokenRace.take 2)).store c!"diana;;c1;;g1" (demoRt 2 c!"n4") = true ∧
    answerTokens ((raceRun .aliased revokeTokenRace).pc 0) = [] := by
  refine ⟨by decide +kernel, by decide +kernel, by decide +kernel⟩

/-- The schedules are orderly. -/
def OrderlyRace (evs : List JobEv) : Prop :=
  Orderly .aliased demoEnv raceIn (fun _ => demoRefReq) (jobsAt (fun _ => demoRefReq) (exchangedStore .aliased)) evs

example : NoEmpty (exchangedStore .aliased) ∧ OrderlyRace revokeTokenRace ∧ OrderlyRace refreshRace := by
  refine ⟨(sysRun_inv (demoCfg .aliased) demoOps demoOps_fresh demoEnv_blankFree 4).noEmpty, ?_, ?_⟩ <;>
    simp [OrderlyRace, revokeTokenRace, refreshRace, Orderly, EventOk]

/-- While two threads exchange the refresh token, the user logs in again at the client, and then out. -/
def busyRace : List JobEv := [.step 0, .step 1, .login demoEnv.sf 3 c!"g2" c!"diana" c!"c1" { authReq := demoReq [c!"code"] }, .step 0,
  .logout c!"diana;;c1;;g2", .step 0, .step 1, .step 1]

/-- No grant is stored here. -/
def noGrantAt (s : Store) (k : Str) : Bool := match s k with
  | some (.grant _) => false
  | _ => true

theorem noGrantAt_ne {s : Store} {k : Str} (h : noGrantAt s k = true) (g : Grant) : s k ≠ some (.grant g) := by
  intro e; simp [noGrantAt, e] at h

set_option maxRecDepth 16000 in
/-- The schedule with a login and a logout is orderly, the login makes a session, and both threads answer. -/
example : OrderlyRace busyRace ∧ noGrantAt (raceRun .aliased busyRace).store c!"diana;;c1;;g2" = false ∧
    answerTokens ((raceRun .aliased busyRace).pc 0) = [demoRt 3 c!"n7", demoRt 3 c!"n8"] ∧
    answerTokens ((raceRun .aliased busyRace).pc 1) = [demoRt 3 c!"n9", demoRt 3 c!"n10"] := by
  refine ⟨⟨trivial, trivial, ⟨by decide, by decide, fun g => ⟨?_, ?_, ?_⟩⟩, trivial, trivial, trivial, trivial, trivial, trivial⟩,
    by decide +kernel, by decide +kernel, by decide +kernel⟩
  all_goals exact noGrantAt_ne (by decide +kernel) g

/-- Two threads exchange the demo's code; the first answers before the second has made a token. -/
def lateRun (m : Mode) (evs : List JobEv) : Jobs := jobRun m demoEnv raceIn (fun _ => demoTokReq) (jobsAt (fun _ => demoTokReq) racedStore) evs

/-- The code's grant in a storage has a code that can be used once. -/
def oneUse (s : Store) (sid code : Str) : Bool := match s sid with
  | some (.grant g) => decide (g.tokenMap = defaultTokenMap) && (g.getToken code).any fun c => decide (c.kind = .authorizationCode ∧ c.usageRules.maxUsage = some 1)
  | _ => false

set_option maxRecDepth 16000 in
/-- The hypotheses of `C56_too_late_partial` are met after four pieces. -/
example : let x := lateRun .aliased [.step 0, .step 1, .step 0, .step 0]
    exchanging (x.pc 1) = some (c!"diana;;c1;;g1", demoCode) ∧ oneUse x.store c!"diana;;c1;;g1" demoCode = true ∧
    (match x.pc 0 with | .code (.mintedR sid _ code _ _ _) => decide (sid = c!"diana;;c1;;g1" ∧ code = demoCode) | _ => false) = true ∧
    answerTokens ((lateRun .aliased [.step 0, .step 1, .step 0, .step 0, .step 0]).pc 0) ≠ [] := by
  refine ⟨by decide +kernel, by decide +kernel, by decide +kernel, by decide +kernel⟩

end Verif
