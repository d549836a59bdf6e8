import Verif.Lemmas.Unlimited
import Verif.Props.Lasting
set_option linter.unusedSimpArgs false
set_option linter.unusedVariables false
/-! What a token response leaves in the storage of the refresh token it has. -/
namespace Verif
open Spec

/-- A refresh token that was made at `i.now` for the session `sid` with the grant `g`; its rules may be replaced. -/
structure RefreshMade (env : Env) (g : Grant) (i : TokIn) (sid : Str) (r : Token) : Prop where
  kind : g.tokenMap.get? tRefreshToken = some r.kind
  fresh : Fresh r.toItem
  expiresAt : r.expiresAt = if lifetime g tRefreshToken = 0 then 0 else i.now + lifetime g tRefreshToken
  value : ∃ hd, env.th.accessToken = some hd ∧ r.value = handlerCall env.cr hd i.now i.mr.rnd i.mr.nonce sid i.mr.ttype

theorem refreshPart_new {env : Env} {s : Store} {i : TokIn} {sid : Str} {g : Grant} {b : Option Token} {r : Token}
    (ho : OpenAt s sid) (hs : s sid = some (.grant g)) (h : (refreshPart env s i sid g b true).2.2 = .ok (some r)) :
    (refreshPart env s i sid g b true).1 = s.put sid (.grant (refreshPart env s i sid g b true).2.1) ∧
    (∃ n, (refreshPart env s i sid g b true).2.1 = { g with issuedToken := g.issuedToken ++ [r], used := n }) ∧
    RefreshMade env g i sid r ∧ r.usageRules = setDefaults r.kind ((g.usageRules.get? tRefreshToken).getD {}) := by
  unfold refreshPart at h ⊢
  simp only [if_true] at h ⊢
  obtain ⟨h1, h2, h3⟩ := mint_grown (env := env) (h := env.th.accessToken) (now := i.now) (m := i.mr) (tt := tRefreshToken) (b := b) ho hs
  cases hm : (mintAndStore env env.th.accessToken s i.now i.mr sid tRefreshToken g b).2.2 with
  | error e => rw [hm] at h; cases h
  | ok r' =>
    rw [hm] at h
    have : r' = r := by simpa [Except.map] using h
    subst this
    obtain ⟨x1, x2, x3⟩ := mintAndStore_expiry hm
    have hok := mintAndStore_ok hm
    refine ⟨h1, ?_, ⟨hok.2.2.2.2.2.2.2.2.2.1, x1, x3, minted_value hm⟩, minted_rules hm⟩
    obtain ⟨t, ht⟩ := h3 _ hm
    have he := hok.2.2.2.1
    rw [ht] at he
    have : t = r' := by simpa using he
    subst this
    exact ⟨_, ht⟩

/-- The refresh token from a code. -/
theorem code_gives_refresh {env : Env} {s : Store} {i : TokIn} {sid w rt : Str} {g : Grant} {t : Token} {ar : AuthReq} {resp : TokResp}
    (ho : OpenAt s sid) (hs : s sid = some (.grant g)) (ht : g.getToken w = some t) (hk : t.kind = .authorizationCode)
    (hnone : findValue rt g.issuedToken = none) (hne : rt ≠ resp.accessToken)
    (h : (exchangeCode env s i sid g (some t) ar).2 = .val resp) (hr : resp.refreshToken = some rt) :
    ∃ g' r, (exchangeCode env s i sid g (some t) ar).1 = s.put sid (.grant g') ∧ Lasts g g' ∧ g'.getToken rt = some r ∧
      RefreshMade env g i sid r ∧ r.usageRules = setDefaults r.kind ((g.usageRules.get? tRefreshToken).getD {}) := by
  unfold exchangeCode at h ⊢
  obtain ⟨h1, h2, h3⟩ := mint_grown (env := env) (h := env.th.accessToken) (now := i.now) (m := i.ma) (tt := tAccessToken) (b := some t) ho hs
  have hok := fun tk => mintAndStore_ok (env := env) (h := env.th.accessToken) (s := s) (now := i.now) (m := i.ma) (sid := sid) (tt := tAccessToken) (g := g) (b := some t) (t := tk)
  generalize mintAndStore env env.th.accessToken s i.now i.ma sid tAccessToken g (some t) = M at h1 h2 h3 hok h ⊢
  obtain ⟨M1, M2, M3⟩ := M
  simp only at h1 h2 h3 hok h ⊢
  cases M3 with
  | error e => cases h
  | ok tok =>
    simp only at h ⊢
    have hok := (hok tok rfl).2.2.2.1
    obtain ⟨t1, h4⟩ := h3 tok rfl
    have : t1 = tok := by rw [h4] at hok; simpa using hok
    subst this
    have hgr := grown_mint h2
    subst h1
    have hw : decide (c!"offline_access" ∈ g.scope) = true := by
      by_cases hx : decide (c!"offline_access" ∈ g.scope) = true
      · exact hx
      · exfalso
        rw [Bool.not_eq_true] at hx
        rw [hx] at h
        simp only [refreshPart, Bool.false_eq_true, if_false, finishCode] at h
        split at h
        · cases h
        · split at h
          · cases h
          · cases h
          · cases h; cases hr
    rw [hw] at h ⊢
    obtain ⟨k1, k2⟩ := refreshPart_grown (env := env) (i := i) (g := M2) (b := some t) (want := true) (ho.put (.grant M2)) (by simp [Store.put])
    have hnew := fun r => refreshPart_new (env := env) (s := s.put sid (.grant M2)) (i := i) (sid := sid) (g := M2) (b := some t) (r := r)
      (ho.put (.grant M2)) (by simp [Store.put])
    generalize refreshPart env (s.put sid (.grant M2)) i sid M2 (some t) true = R at k1 k2 hnew h ⊢
    obtain ⟨R1, R2, R3⟩ := R
    simp only at k1 k2 hnew h ⊢
    rw [put_put] at k1
    cases R3 with
    | error e => cases h
    | ok o =>
      simp only [finishCode] at h ⊢
      subst k1
      simp only [((ho.put (.grant R2)).mgrSet (.grant (R2.registerUsage t.value))).1,
        ((ho.put (.grant R2)).mgrSet (.grant (R2.registerUsage t.value))).2, put_put] at h ⊢
      split at h
      · cases h
      · cases h
      · simp only [Out.val.injEq] at h
        cases o with
        | none => rw [← h] at hr; cases hr
        | some r =>
          have hrv : r.value = rt := by rw [← h] at hr; simpa using hr
          have hat : resp.accessToken = t1.value := by rw [← h]
          obtain ⟨-, ⟨n, e2⟩, e3, e4⟩ := hnew r rfl
          refine ⟨R2.registerUsage t.value, r, rfl, ?_, ?_, ?_, ?_⟩
          · rw [(getToken_value ht).1]; exact lasts_used (hgr.trans k2) ht hk
          · have hne2 : rt ≠ t.value := by
              intro e
              have h5 : findValue t.value g.issuedToken = some t := by rw [(getToken_value ht).1]; exact ht
              rw [e, h5] at hnone
              cases hnone
            unfold Grant.getToken Grant.registerUsage
            simp only
            rw [findValue_usedFirst, if_neg hne2, e2, h4]
            simp only [List.append_assoc]
            rw [findValue_append_none hnone]
            have : t1.value ≠ rt := by rw [← hat]; exact Ne.symm hne
            simp [findValue, this, hrv]
          · rw [h4] at e3
            exact ⟨e3.kind, e3.fresh, e3.expiresAt, e3.value⟩
          · rw [h4] at e4; exact e4

/-- The refresh token from a refresh token: it has the rules of the session or those of its predecessor. -/
theorem refresh_gives_refresh {m : Mode} {env : Env} {s : Store} {i : TokIn} {sid rt : Str} {g : Grant} {t : Token} {resp : TokResp}
    (ho : OpenAt s sid) (hs : s sid = some (.grant g))
    (hnone : findValue rt g.issuedToken = none) (hne : rt ≠ resp.accessToken)
    (h : (exchangeRefresh m env s i sid g (some t)).2 = .val resp) (hr : resp.refreshToken = some rt) :
    ∃ g' r, (exchangeRefresh m env s i sid g (some t)).1 = s.put sid (.grant g') ∧ Lasts g g' ∧ g'.getToken rt = some r ∧
      RefreshMade env g i sid r ∧
      (r.usageRules = setDefaults r.kind ((g.usageRules.get? tRefreshToken).getD {}) ∨ r.usageRules = t.usageRules) := by
  obtain ⟨g1, m1, m2⟩ := exchangeRefresh_grown (m := m) (env := env) (i := i) (b := some t) ho hs
  refine ⟨g1, ?_⟩
  rw [m1]
  refine (fun ⟨r, e⟩ => ⟨r, rfl, m2.lasts, e⟩ : (∃ r, g1.getToken rt = some r ∧ RefreshMade env g i sid r ∧
      (r.usageRules = setDefaults r.kind ((g.usageRules.get? tRefreshToken).getD {}) ∨ r.usageRules = t.usageRules)) → _) ?_
  have hst : (exchangeRefresh m env s i sid g (some t)).1 sid = some (.grant g1) := by rw [m1]; simp [Store.put]
  clear m1 m2
  unfold exchangeRefresh at h hst
  obtain ⟨h1, h2, h3⟩ := mint_grown (env := env) (h := env.th.accessToken) (now := i.now) (m := i.ma) (tt := tAccessToken) (b := some t) ho hs
  have hok := fun tk => mintAndStore_ok (env := env) (h := env.th.accessToken) (s := s) (now := i.now) (m := i.ma) (sid := sid) (tt := tAccessToken) (g := g) (b := some t) (t := tk)
  generalize mintAndStore env env.th.accessToken s i.now i.ma sid tAccessToken g (some t) = M at h1 h2 h3 hok h hst
  obtain ⟨M1, M2, M3⟩ := M
  simp only at h1 h2 h3 hok h hst
  cases M3 with
  | error e => cases h
  | ok tok =>
    simp only at h hst
    have hok := (hok tok rfl).2.2.2.1
    obtain ⟨t1, h4⟩ := h3 tok rfl
    have : t1 = tok := by rw [h4] at hok; simpa using hok
    subst this
    subst h1
    cases hmm : t.usageRules.supportsMinting with
    | none => rw [hmm] at h; cases h
    | some mints =>
      rw [hmm] at h hst
      simp only at h hst
      have hw : decide (tRefreshToken ∈ mints) = true := by
        by_cases hx : decide (tRefreshToken ∈ mints) = true
        · exact hx
        · exfalso
          rw [Bool.not_eq_true] at hx
          rw [hx] at h
          simp only [newRefresh, refreshPart, Bool.false_eq_true, if_false, finishRefresh] at h
          split at h
          · cases h
          · cases h
          · cases h; cases hr
      rw [hw] at h hst
      have hnew := fun r => refreshPart_new (env := env) (s := s.put sid (.grant M2)) (i := i) (sid := sid) (g := M2) (b := some t) (r := r)
        (ho.put (.grant M2)) (by simp [Store.put])
      have hsome : ∀ o, (refreshPart env (s.put sid (.grant M2)) i sid M2 (some t) true).2.2 = .ok o → o.isSome = true :=
        fun o ho => (refreshPart_ok ho).2.1
      unfold newRefresh at h hst
      generalize refreshPart env (s.put sid (.grant M2)) i sid M2 (some t) true = R at hnew hsome h hst
      obtain ⟨R1, R2, R3⟩ := R
      simp only at hnew hsome h hst
      cases R3 with
      | error e => cases h
      | ok o =>
        cases o with
        | none => have := hsome none rfl; cases this
        | some r =>
          simp only [finishRefresh] at h hst
          obtain ⟨e1, ⟨n, e2⟩, e3, e4⟩ := hnew r rfl
          rw [h4] at e3 e4
          split at h
          · cases h
          · cases h
          · rename_i idt hidt
            simp only [hidt, e1] at hst
            simp only [Out.val.injEq] at h
            have hrv : r.value = rt := by rw [← h] at hr; simpa using hr
            have hat : resp.accessToken = t1.value := by rw [← h]
            have hne' : t1.value ≠ rt := by rw [← hat]; exact Ne.symm hne
            cases m with
            | byValue =>
              simp only [touch, put_put, Store.put, if_true, Option.some.injEq, Obj.grant.injEq] at hst
              subst hst
              refine ⟨r, ?_, ⟨e3.kind, e3.fresh, e3.expiresAt, e3.value⟩, Or.inl e4⟩
              unfold Grant.getToken
              rw [e2, h4]
              simp only [List.append_assoc]
              rw [findValue_append_none hnone]
              simp [findValue, hne', hrv]
            | aliased =>
              simp only [touch, Store.put, if_true, Option.some.injEq, Obj.grant.injEq] at hst
              subst hst
              refine ⟨{ r with usageRules := t.usageRules }, ?_, ⟨e3.kind, e3.fresh, e3.expiresAt, e3.value⟩, Or.inr rfl⟩
              unfold Grant.getToken
              simp only [Grant.copyRulesToLast, e2, h4]
              rw [show (g.issuedToken ++ [t1] ++ [r]).length - 1 = (g.issuedToken ++ [t1]).length by
                simp only [List.length_append, List.length_singleton]; omega]
              rw [modify_append_last]
              simp only [List.append_assoc]
              rw [findValue_append_none hnone]
              simp [findValue, hne', hrv]

end Verif
