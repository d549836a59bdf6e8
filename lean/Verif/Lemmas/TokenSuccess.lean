import Verif.Lemmas.SysInv
set_option linter.unusedSimpArgs false
set_option linter.unusedVariables false
/-! What a successful token response implies. -/
namespace Verif
open Spec

theorem findValue_updateFirst {v : Str} {f : Token → Token} (hf : ∀ t, (f t).value = t.value) (l : List Token) :
    findValue v (updateFirst v f l) = (findValue v l).map f := by
  induction l with
  | nil => rfl
  | cons a l ih =>
    unfold updateFirst findValue
    by_cases h : a.value = v
    · simp [h, hf]
    · simp only [h, if_false, List.find?_cons, decide_false]
      exact ih

theorem findValue_append_left {v : Str} {l r : List Token} {t : Token} (h : findValue v l = some t) :
    findValue v (l ++ r) = some t := by
  unfold findValue at h ⊢
  rw [List.find?_append, h]
  rfl

theorem updateFirst_append {v : Str} {f : Token → Token} {l r : List Token} {t : Token} (h : findValue v l = some t) :
    updateFirst v f (l ++ r) = updateFirst v f l ++ r := by
  induction l with
  | nil => simp [findValue] at h
  | cons a l ih =>
    unfold updateFirst
    by_cases ha : a.value = v
    · simp [ha]
    · have : findValue v l = some t := by
        unfold findValue at h ⊢
        simpa [ha] using h
      simp only [List.cons_append, ha, if_false]
      rw [ih this]

theorem modify_append_last {α : Type} (l : List α) (r : α) (f : α → α) : (l ++ [r]).modify l.length f = l ++ [f r] := by
  induction l with
  | nil => rfl
  | cons a l ih => simp [ih]

/-- A successful mint. -/
theorem mintAndStore_ok {env : Env} {h : Option Handler} {s : Store} {now : Int} {m : MintIn} {sid tt : Str} {g : Grant}
    {b : Option Token} {t : Token} (hok : (mintAndStore env h s now m sid tt g b).2.2 = .ok t) :
    tokenString env h now m sid = .ok t.value ∧ g.isActive now = true ∧
      (∀ bt, b = some bt → bt.supportsMinting tt = true ∧ bt.isActive now = true) ∧
      (mintAndStore env h s now m sid tt g b).2.1.issuedToken = g.issuedToken ++ [t] ∧
      t.basedOn = b.map Token.value ∧ t.typ = tt ∧ t.scope = [] ∧ t.revoked = false ∧ t.used = 0 ∧
      g.tokenMap.get? tt = some t.kind ∧
      (mintAndStore env h s now m sid tt g b).2.1.scope = g.scope ∧
      (mintAndStore env h s now m sid tt g b).2.1.authReq = g.authReq ∧
      (mintAndStore env h s now m sid tt g b).1 = (mgrSet s sid (.grant (mintAndStore env h s now m sid tt g b).2.1)).1 := by
  rcases mintAndStore_spec env h s now m sid tt g b with ⟨_, _, e, h1⟩ | ⟨v, t', hrest⟩
  · rw [h1] at hok; cases hok
  · obtain ⟨a1, a2, a3, a4, a5, a6, a7, a8, a9, a10, a11, a12, a13, a14, a15, _⟩ := hrest
    rcases a15 with ⟨e, a15⟩ | ⟨a15, _⟩
    · rw [a15] at hok; cases hok
    · rw [a15] at hok
      cases hok
      exact ⟨by rw [a5]; exact a1, a2, a3, a4, a6, a7, a8, a9, a10, a11, a12, a13, a14⟩

theorem mintAndStore_tokenMap (env : Env) (h : Option Handler) (s : Store) (now : Int) (m : MintIn) (sid tt : Str) (g : Grant)
    (b : Option Token) : (mintAndStore env h s now m sid tt g b).2.1.tokenMap = g.tokenMap := by
  unfold mintAndStore
  simp only
  have hm : (g.mintToken now m.id tt b (some ((g.usageRules.get? tt).getD {})) [] {} (tokenString env h now m sid)).1.tokenMap
      = g.tokenMap := by
    rcases mintToken_cases g now m.id tt b (some ((g.usageRules.get? tt).getD {})) [] {} (tokenString env h now m sid) with h1 | h1
    · rw [h1.1]
    · obtain ⟨_, _, _, _, _, _, _, _, hr⟩ := h1; rw [hr]
  generalize g.mintToken now m.id tt b (some ((g.usageRules.get? tt).getD {})) [] {} (tokenString env h now m sid) = R at hm ⊢
  obtain ⟨R1, R2⟩ := R
  cases R2 with
  | error e => exact hm
  | ok o =>
    cases o with
    | none => exact hm
    | some t =>
      simp only
      split <;> split <;> exact hm

/-- A successful (or unwanted) refresh token. -/
theorem refreshPart_ok {env : Env} {s : Store} {i : TokIn} {sid : Str} {g : Grant} {b : Option Token} {want : Bool}
    {rt : Option Token} (h : (refreshPart env s i sid g b want).2.2 = .ok rt) :
    (refreshPart env s i sid g b want).2.1.issuedToken = g.issuedToken ++ rt.toList ∧ (rt.isSome = want) ∧
    (refreshPart env s i sid g b want).2.1.scope = g.scope ∧
    (∀ t, rt = some t → t.basedOn = b.map Token.value ∧ t.scope = [] ∧ t.revoked = false ∧ t.used = 0 ∧
      g.tokenMap.get? tRefreshToken = some t.kind ∧ ∀ bt, b = some bt → bt.supportsMinting tRefreshToken = true) := by
  unfold refreshPart at h ⊢
  cases want with
  | false =>
    simp only [Bool.false_eq_true, if_false] at h ⊢
    cases h
    simp
  | true =>
    simp only [if_true] at h ⊢
    cases hm : (mintAndStore env env.th.accessToken s i.now i.mr sid tRefreshToken g b).2.2 with
    | error e => simp [hm, Except.map] at h
    | ok t =>
      simp only [hm, Except.map, Except.ok.injEq] at h
      subst h
      obtain ⟨_, _, a3, a4, a6, _, a8, a9, a10, a11, a12, _, _⟩ := mintAndStore_ok hm
      refine ⟨a4, rfl, a12, ?_⟩
      rintro t' ⟨⟩
      exact ⟨a6, a8, a9, a10, a11, fun bt hbt => (a3 bt hbt).1⟩

/-- Everything about a successful exchange of a code. -/
theorem exchangeCode_val {env : Env} {s : Store} {i : TokIn} {sid : Str} {g : Grant} {b : Option Token} {ar : AuthReq}
    {resp : TokResp} (hs : Sid3 sid) (h : (exchangeCode env s i sid g b ar).2 = .val resp) :
    ∃ t tok rt g', b = some t ∧ g.isActive i.now = true ∧ t.isActive i.now = true ∧ t.supportsMinting tAccessToken = true ∧
      (exchangeCode env s i sid g b ar).1 sid = some (.grant g') ∧
      g'.issuedToken = updateFirst t.value Token.registerUsage (g.issuedToken ++ tok :: rt.toList) ∧
      tok.basedOn = some t.value ∧ tok.scope = [] ∧ tok.revoked = false ∧ g.tokenMap.get? tAccessToken = some tok.kind ∧
      (∀ r, rt = some r → r.basedOn = some t.value ∧ r.scope = [] ∧ r.revoked = false ∧
        g.tokenMap.get? tRefreshToken = some r.kind ∧ t.supportsMinting tRefreshToken = true) ∧
      (rt.isSome = decide (c!"offline_access" ∈ g.scope)) ∧
      resp.accessToken = tok.value ∧ resp.refreshToken = rt.map Token.value ∧ resp.scope = g.scope ∧
      (resp.idToken.isSome = decide (c!"openid" ∈ ar.scope)) ∧
      (mintAndStore env env.th.accessToken s i.now i.ma sid tAccessToken g b).2.2 = .ok tok ∧
      resp.expiresIn = some (tok.expiresAt - i.now) := by
  unfold exchangeCode at h ⊢
  simp only at h ⊢
  cases he : (mintAndStore env env.th.accessToken s i.now i.ma sid tAccessToken g b).2.2 with
  | error e => simp [he] at h
  | ok tok =>
    simp only [he] at h ⊢
    obtain ⟨_, a2, a3, a4, a6, _, a8, a9, _, a11, a12, _, _⟩ := mintAndStore_ok he
    have htm := mintAndStore_tokenMap env env.th.accessToken s i.now i.ma sid tAccessToken g b
    generalize mintAndStore env env.th.accessToken s i.now i.ma sid tAccessToken g b = M at *
    cases hr : (refreshPart env M.1 i sid M.2.1 b (decide (c!"offline_access" ∈ g.scope))).2.2 with
    | error e => simp [hr] at h
    | ok rt =>
      simp only [hr] at h ⊢
      obtain ⟨b1, b2, b3, b4⟩ := refreshPart_ok hr
      generalize refreshPart env M.1 i sid M.2.1 b (decide (c!"offline_access" ∈ g.scope)) = R at *
      unfold finishCode at h ⊢
      cases b with
      | none => simp at h
      | some t =>
        simp only at h ⊢
        obtain ⟨c1, c2⟩ := a3 t rfl
        have hown := mgrSet_own R.1 sid hs (.grant (R.2.1.registerUsage t.value))
        generalize mgrSet R.1 sid (.grant (R.2.1.registerUsage t.value)) = W at *
        cases hw : W.2 with
        | error e => simp [hw] at h
        | ok _ =>
          simp only [hw] at h ⊢
          cases hid : idTokenFor (decide (c!"openid" ∈ ar.scope)) i.idt with
          | raise e => simp [hid] at h
          | errMsg e => simp [hid] at h
          | val idt =>
            simp only [hid] at h ⊢
            cases h
            refine ⟨t, tok, rt, _, rfl, a2, c2, c1, hown, ?_, a6, a8, a9, a11, ?_, b2, rfl, rfl, ?_, ?_, rfl, rfl⟩
            · simp only [Grant.registerUsage, b1, a4, List.append_assoc, List.singleton_append]
            · intro r hr'
              obtain ⟨d1, d2, d3, d4, d5, d6⟩ := b4 r hr'
              exact ⟨d1, d2, d3, by rw [← htm]; exact d5, d6 t rfl⟩
            · simp only [b3, a12]
            · unfold idTokenFor at hid
              by_cases ho : c!"openid" ∈ ar.scope
              · simp only [ho, decide_true, if_true] at hid ⊢
                cases hi : i.idt with
                | raise e => simp [hi] at hid
                | errMsg e => simp [hi] at hid
                | val x => simp only [hi] at hid; cases hid; rfl
              · simp only [ho, decide_false, Bool.false_eq_true, if_false] at hid ⊢
                cases hid; rfl

/-- What a successful response to a code request implies about the state before it, and what is stored afterwards. -/
theorem tokProcess_code {m : Mode} {env : Env} {helpers : Dict Helper} {s : Store} {i : TokIn} {req : TokReq} {resp : TokResp}
    (hn : NoEmpty s) (hgt : req.grantType = some c!"authorization_code")
    (h : (tokProcess m env helpers s i req).2 = .val resp) :
    helpers.get? c!"authorization_code" = some (.inst .accessToken) ∧
    ∃ c sid g ar, req.code = some c ∧ sessionByToken env.th env.cr s i.now (plusForBlank c) = .ok (sid, .grant g) ∧
      g.authReq = some ar ∧ redirectCheck ar req = .val () ∧
      (exchangeCode env s i sid g (g.getToken (plusForBlank c)) ar).2 = .val resp ∧
      (tokProcess m env helpers s i req).1 = (exchangeCode env s i sid g (g.getToken (plusForBlank c)) ar).1 := by
  have hh : (helperProcess m env helpers s i req).2 = .val resp ∧
      (tokProcess m env helpers s i req).1 = (helperProcess m env helpers s i req).1 := by
    unfold tokProcess at h ⊢
    simp only at h ⊢
    cases h1 : (helperProcess m env helpers s i req).2 with
    | raise e => simp [h1] at h
    | errMsg e => simp [h1] at h
    | val r =>
      simp only [h1] at h ⊢
      cases h2 : sessionByToken env.th env.cr (helperProcess m env helpers s i req).1 i.now r.accessToken with
      | error e => simp [h2] at h
      | ok x =>
        obtain ⟨a, b⟩ := x
        cases b with
        | info _ => simp [h2] at h
        | grant _ => simp only [h2] at h ⊢; exact ⟨h, trivial⟩
  obtain ⟨h1, h2⟩ := hh
  rw [h2]
  unfold helperProcess at h1 ⊢
  simp only [hgt] at h1 ⊢
  cases hx : helpers.get? c!"authorization_code" with
  | none => simp [hx] at h1
  | some hc =>
    cases hc with
    | bare c => simp [hx] at h1
    | inst c =>
      cases c with
      | refreshToken => simp [hx, refreshProcess, hgt] at h1
      | accessToken =>
        simp only [hx] at h1 ⊢
        refine ⟨trivial, ?_⟩
        unfold codeProcess at h1 ⊢
        simp only [hgt, ne_eq, not_true_eq_false, if_false] at h1 ⊢
        cases hc : req.code with
        | none => simp [hc] at h1
        | some c =>
          simp only [hc] at h1 ⊢
          cases hs : sessionByToken env.th env.cr s i.now (plusForBlank c) with
          | error e => simp [hs] at h1
          | ok x =>
            obtain ⟨sid, o⟩ := x
            cases o with
            | info _ => simp [hs] at h1
            | grant g =>
              simp only [hs] at h1 ⊢
              cases ha : g.authReq with
              | none => simp [ha] at h1
              | some ar =>
                simp only [ha] at h1 ⊢
                cases hr : redirectCheck ar req with
                | raise e => simp [hr] at h1
                | errMsg e => simp [hr] at h1
                | val _ =>
                  simp only [hr] at h1 ⊢
                  exact ⟨c, sid, g, ar, rfl, hs, ha, hr, h1, rfl⟩

/-- Everything about a successful exchange of a refresh token. -/
theorem exchangeRefresh_val {m : Mode} {env : Env} {s : Store} {i : TokIn} {sid : Str} {g : Grant} {b : Option Token}
    {resp : TokResp} (hs : Sid3 sid) (h : (exchangeRefresh m env s i sid g b).2 = .val resp) :
    ∃ t tok rt mints, b = some t ∧ g.isActive i.now = true ∧ t.isActive i.now = true ∧ t.supportsMinting tAccessToken = true ∧
      t.usageRules.supportsMinting = some mints ∧ (rt.isSome = decide (tRefreshToken ∈ mints)) ∧
      tok.basedOn = some t.value ∧ tok.scope = [] ∧ tok.revoked = false ∧ g.tokenMap.get? tAccessToken = some tok.kind ∧
      (∀ r, rt = some r → r.basedOn = some t.value ∧ r.scope = [] ∧ r.revoked = false ∧
        g.tokenMap.get? tRefreshToken = some r.kind) ∧
      resp.accessToken = tok.value ∧ resp.refreshToken = rt.map Token.value ∧ resp.scope = g.scope ∧
      (resp.idToken.isSome = decide (c!"id_token" ∈ mints)) ∧
      ((mintAndStore env env.th.accessToken s i.now i.ma sid tAccessToken g b).2.2 = .ok tok ∧
        resp.expiresIn = if tok.expiresAt = 0 then none else some (tok.expiresAt - i.now)) ∧
      ∃ g' r', (exchangeRefresh m env s i sid g b).1 sid = some (.grant g') ∧
        g'.issuedToken = g.issuedToken ++ tok :: r' ∧
        (r'.map Token.value = (rt.map Token.value).toList) ∧ (r'.map Token.basedOn = (rt.map Token.basedOn).toList) ∧
        (r'.map Token.kind = (rt.map Token.kind).toList) := by
  unfold exchangeRefresh at h ⊢
  simp only at h ⊢
  cases he : (mintAndStore env env.th.accessToken s i.now i.ma sid tAccessToken g b).2.2 with
  | error e => simp [he] at h
  | ok tok =>
    simp only [he] at h ⊢
    obtain ⟨_, a2, a3, a4, a6, _, a8, a9, _, a11, a12, _, a14⟩ := mintAndStore_ok he
    have htm := mintAndStore_tokenMap env env.th.accessToken s i.now i.ma sid tAccessToken g b
    generalize mintAndStore env env.th.accessToken s i.now i.ma sid tAccessToken g b = M at *
    cases b with
    | none => simp at h
    | some t =>
      simp only at h ⊢
      obtain ⟨c1, c2⟩ := a3 t rfl
      cases hm : t.usageRules.supportsMinting with
      | none => simp [hm] at h
      | some mints =>
        simp only [hm] at h ⊢
        cases hn : (newRefresh m env M.1 i sid M.2.1 t (decide (tRefreshToken ∈ mints))).2 with
        | error e => simp [hn] at h
        | ok rt =>
          simp only [hn] at h ⊢
          -- the refresh part
          have hrp : (refreshPart env M.1 i sid M.2.1 (some t) (decide (tRefreshToken ∈ mints))).2.2 = .ok rt := by
            unfold newRefresh at hn
            simp only at hn
            cases hx : (refreshPart env M.1 i sid M.2.1 (some t) (decide (tRefreshToken ∈ mints))).2.2 with
            | error e => simp [hx] at hn
            | ok o => cases o <;> simp [hx] at hn <;> simp [hn]
          obtain ⟨b1, b2, b3, b4⟩ := refreshPart_ok hrp
          -- what is stored
          have hst : ∃ g' r', (newRefresh m env M.1 i sid M.2.1 t (decide (tRefreshToken ∈ mints))).1 sid = some (.grant g') ∧
              g'.issuedToken = g.issuedToken ++ tok :: r' ∧
              (r'.map Token.value = (rt.map Token.value).toList) ∧ (r'.map Token.basedOn = (rt.map Token.basedOn).toList) ∧
              (r'.map Token.kind = (rt.map Token.kind).toList) := by
            unfold newRefresh
            simp only [hrp]
            cases rt with
            | none =>
              simp only [Option.isSome_none] at b2
              refine ⟨M.2.1, [], ?_, by rw [a4], rfl, rfl, rfl⟩
              rw [← b2]
              simp only [refreshPart, Bool.false_eq_true, if_false]
              rw [a14]
              exact mgrSet_own _ _ hs _
            | some r =>
              simp only [Option.isSome_some] at b2
              simp only
              have hst2 : (refreshPart env M.1 i sid M.2.1 (some t) (decide (tRefreshToken ∈ mints))).1 sid =
                  some (.grant (refreshPart env M.1 i sid M.2.1 (some t) (decide (tRefreshToken ∈ mints))).2.1) := by
                rw [← b2] at hrp ⊢
                simp only [refreshPart, if_true] at hrp ⊢
                cases hmr : (mintAndStore env env.th.accessToken M.1 i.now i.mr sid tRefreshToken M.2.1 (some t)).2.2 with
                | error e => simp [hmr, Except.map] at hrp
                | ok t2 =>
                  obtain ⟨_, _, _, _, _, _, _, _, _, _, _, _, d14⟩ := mintAndStore_ok hmr
                  rw [d14]
                  exact mgrSet_own _ _ hs _
              generalize refreshPart env M.1 i sid M.2.1 (some t) (decide (tRefreshToken ∈ mints)) = R at *
              rw [a4] at b1
              simp only [Option.toList_some, List.append_assoc, List.singleton_append] at b1
              cases m with
              | byValue =>
                simp only [touch]
                exact ⟨R.2.1, [r], hst2, b1, rfl, rfl, rfl⟩
              | aliased =>
                simp only [touch]
                refine ⟨R.2.1.copyRulesToLast t.usageRules, [{ r with usageRules := t.usageRules }], by simp [Store.put], ?_, rfl, rfl, rfl⟩
                simp only [Grant.copyRulesToLast, b1]
                rw [show g.issuedToken ++ [tok, r] = (g.issuedToken ++ [tok]) ++ [r] by simp]
                rw [show ((g.issuedToken ++ [tok]) ++ [r]).length - 1 = (g.issuedToken ++ [tok]).length by
                  simp only [List.length_append, List.length_singleton]; omega]
                rw [modify_append_last]
                simp
          rw [finishRefresh_store]
          refine ⟨t, tok, rt, mints, rfl, a2, c2, c1, hm, b2, a6, a8, a9, a11, ?_, ?_⟩
          · intro r hr'
            obtain ⟨d1, d2, d3, d4, d5, d6⟩ := b4 r hr'
            exact ⟨d1, d2, d3, by rw [← htm]; exact d5⟩
          · unfold finishRefresh at h
            cases hid : idTokenFor (decide (c!"id_token" ∈ mints)) i.idt with
            | raise e => simp [hid] at h
            | errMsg e => simp [hid] at h
            | val idt =>
              simp only [hid] at h
              cases h
              refine ⟨rfl, rfl, rfl, ?_, ⟨rfl, rfl⟩, hst⟩
              unfold idTokenFor at hid
              by_cases ho : c!"id_token" ∈ mints
              · simp only [ho, decide_true, if_true] at hid ⊢
                cases hi : i.idt with
                | raise e => simp [hi] at hid
                | errMsg e => simp [hi] at hid
                | val x => simp only [hi] at hid; cases hid; rfl
              · simp only [ho, decide_false, Bool.false_eq_true, if_false] at hid ⊢
                cases hid; rfl

/-- What a successful response to a refresh request implies. -/
theorem tokProcess_refresh {m : Mode} {env : Env} {helpers : Dict Helper} {s : Store} {i : TokIn} {req : TokReq} {resp : TokResp}
    (hn : NoEmpty s) (hgt : req.grantType = some c!"refresh_token")
    (h : (tokProcess m env helpers s i req).2 = .val resp) :
    helpers.get? c!"refresh_token" = some (.inst .refreshToken) ∧
    ∃ v sid g, req.refreshToken = some v ∧ sessionByToken env.th env.cr s i.now v = .ok (sid, .grant g) ∧
      (exchangeRefresh m env s i sid g (g.getToken v)).2 = .val resp ∧
      (tokProcess m env helpers s i req).1 = (exchangeRefresh m env s i sid g (g.getToken v)).1 := by
  have hh : (helperProcess m env helpers s i req).2 = .val resp ∧
      (tokProcess m env helpers s i req).1 = (helperProcess m env helpers s i req).1 := by
    unfold tokProcess at h ⊢
    simp only at h ⊢
    cases h1 : (helperProcess m env helpers s i req).2 with
    | raise e => simp [h1] at h
    | errMsg e => simp [h1] at h
    | val r =>
      simp only [h1] at h ⊢
      cases h2 : sessionByToken env.th env.cr (helperProcess m env helpers s i req).1 i.now r.accessToken with
      | error e => simp [h2] at h
      | ok x =>
        obtain ⟨a, b⟩ := x
        cases b with
        | info _ => simp [h2] at h
        | grant _ => simp only [h2] at h ⊢; exact ⟨h, trivial⟩
  obtain ⟨h1, h2⟩ := hh
  rw [h2]
  unfold helperProcess at h1 ⊢
  simp only [hgt] at h1 ⊢
  cases hx : helpers.get? c!"refresh_token" with
  | none => simp [hx] at h1
  | some hc =>
    cases hc with
    | bare c => simp [hx] at h1
    | inst c =>
      cases c with
      | accessToken => simp [hx, codeProcess, hgt] at h1
      | refreshToken =>
        simp only [hx] at h1 ⊢
        refine ⟨trivial, ?_⟩
        unfold refreshProcess at h1 ⊢
        simp only [hgt, ne_eq, not_true_eq_false, if_false] at h1 ⊢
        cases hc : req.refreshToken with
        | none => simp [hc] at h1
        | some v =>
          simp only [hc] at h1 ⊢
          cases hs : sessionByToken env.th env.cr s i.now v with
          | error e => simp [hs] at h1
          | ok x =>
            obtain ⟨sid, o⟩ := x
            cases o with
            | info _ => simp [hs] at h1
            | grant g =>
              simp only [hs] at h1 ⊢
              exact ⟨v, sid, g, rfl, hs, h1, rfl⟩

end Verif
