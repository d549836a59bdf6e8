import Verif.Lemmas.LocalOps
set_option linter.unusedSimpArgs false
set_option linter.unusedVariables false
/-! The same for the token endpoint, userinfo and introspection. -/
namespace Verif
open Spec

variable {P W : Str → Prop} {s s' : Store}

/-- Sessions the string resolves to belong to users in `P`. -/
def In (env : Env) (P : Str → Prop) (now : Int) (v : Str) : Prop := ∀ sid, env.th.sid env.cr now v = .ok sid → P (ownerOf sid)

theorem agree_byToken (ha : Agree P s s') (env : Env) (now : Int) (v : Str) (hv : In env P now v) :
    sessionByToken env.th env.cr s now v = sessionByToken env.th env.cr s' now v := by
  unfold sessionByToken
  cases hs : env.th.sid env.cr now v with
  | error e => rfl
  | ok sid =>
    dsimp only
    cases h : unpack3 sid with
    | error e => rfl
    | ok p =>
      obtain ⟨u, c, g⟩ := p
      obtain ⟨e, hp, _⟩ := unpack3_owner h
      dsimp only
      rw [ha.get hp (headIn (e ▸ hv sid hs))]

theorem byToken_sid {env : Env} {now : Int} {v sid : Str} {o : Obj} (h : sessionByToken env.th env.cr s now v = .ok (sid, o)) :
    env.th.sid env.cr now v = .ok sid := by
  unfold sessionByToken at h
  split at h
  · cases h
  · rename_i x hx
    split at h
    · cases h
    · split at h
      · cases h
      · simp only [Except.ok.injEq, Prod.mk.injEq] at h
        rw [← h.1]
        exact hx

theorem agree_userinfo (ha : Agree P s s') (env : Env) (db : Str → Dict Val) (now : Int) (v : Str) (hv : In env P now v) :
    userinfoProcess env db s now v = userinfoProcess env db s' now v := by
  unfold userinfoProcess
  rw [agree_byToken ha env now v hv]

theorem agree_introspect (ha : Agree P s s') (env : Env) (iss : Str) (rel : Bool) (db : Str → Dict Val) (now : Int) (v : Str)
    (hv : In env P now v) : introspectProcess env iss rel db s now v = introspectProcess env iss rel db s' now v := by
  unfold introspectProcess
  rw [agree_byToken ha env now v hv]

/-- What parsing a token request needs of the storage. -/
theorem tokParse_byToken {s s' : Store} {env : Env} {hs : Dict Helper} {now : Int} {req : TokReq}
    (hc : ∀ v, req.code = some v → sessionByToken env.th env.cr s now v = sessionByToken env.th env.cr s' now v)
    (hr : ∀ v, req.refreshToken = some v → sessionByToken env.th env.cr s now v = sessionByToken env.th env.cr s' now v) :
    tokParse env hs s now req = tokParse env hs s' now req := by
  have h1 : codeParse env s now req = codeParse env s' now req := by
    unfold codeParse
    cases h : req.code with
    | none => rfl
    | some v => dsimp only; rw [hc v h]
  have h2 : refreshParse env s now req = refreshParse env s' now req := by
    unfold refreshParse
    cases h : req.refreshToken with
    | none => rfl
    | some v => dsimp only; rw [hr v h]
  have h3 : helperParse env hs s now req = helperParse env hs s' now req := by
    unfold helperParse
    rw [h1, h2]
  have h4 : ∀ r p, helperParse env hs s' now req = .val r → pkceTokenParse p env s now r = pkceTokenParse p env s' now r := by
    intro r p h
    have hcode : r.code = req.code := by
      unfold helperParse at h
      split at h
      · cases h
      · split at h
        · cases h
        · cases h
        · unfold codeParse at h
          repeat' split at h
          all_goals (cases h <;> rfl)
        · unfold refreshParse at h
          repeat' split at h
          all_goals (cases h <;> rfl)
    unfold pkceTokenParse
    cases h : r.code with
    | none => rfl
    | some v => dsimp only; rw [hc v (hcode ▸ h)]
  unfold tokParse
  rw [h3]
  cases h : helperParse env hs s' now req with
  | errMsg e => rfl
  | raise e => rfl
  | val r =>
    dsimp only
    cases env.pkce with
    | none => rfl
    | some p => exact h4 r p h

theorem agree_tokParse (ha : Agree P s s') (env : Env) (hs : Dict Helper) (now : Int) (req : TokReq)
    (hc : ∀ v, req.code = some v → In env P now v) (hr : ∀ v, req.refreshToken = some v → In env P now v) :
    tokParse env hs s now req = tokParse env hs s' now req :=
  tokParse_byToken (fun v h => agree_byToken ha env now v (hc v h)) (fun v h => agree_byToken ha env now v (hr v h))

/-- A parsed request carries the token strings of the request. -/
theorem tokParse_tokens {env : Env} {hs : Dict Helper} {now : Int} {req r : TokReq} (h : tokParse env hs s now req = .val r) :
    r.code = req.code ∧ r.refreshToken = req.refreshToken := by
  have key : ∀ r, helperParse env hs s now req = .val r → r.code = req.code ∧ r.refreshToken = req.refreshToken := by
    intro r h
    unfold helperParse at h
    split at h
    · cases h
    · split at h
      · cases h
      · cases h
      · unfold codeParse at h
        repeat' split at h
        all_goals (cases h <;> exact ⟨rfl, rfl⟩)
      · unfold refreshParse at h
        repeat' split at h
        all_goals (cases h <;> exact ⟨rfl, rfl⟩)
  unfold tokParse at h
  split at h
  · cases h
  · cases h
  · rename_i r' hr
    split at h
    · simp only [Out.val.injEq] at h
      rw [← h]
      exact key _ hr
    · unfold pkceTokenParse at h
      repeat' split at h
      all_goals (cases h <;> exact key _ hr)

theorem simRefreshPart (ha : Agree P s s') (env : Env) (i : TokIn) (sid : Str) (g : Grant) (b : Option Token) (want : Bool)
    (hu : P (ownerOf sid)) (hw : W (ownerOf sid)) : Sim W s s' (refreshPart env s i sid g b want) (refreshPart env s' i sid g b want) := by
  unfold refreshPart
  split
  · exact (simMint ha env env.th.accessToken i.now i.mr sid tRefreshToken g b hu hw).post fun x => (x.1, x.2.map some)
  · exact Sim.pure _

theorem simFinishCode (ha : Agree P s s') (i : TokIn) (sid : Str) (g : Grant) (b : Option Token) (ar : AuthReq) (tok : Token)
    (rt : Option Token) (hu : P (ownerOf sid)) (hw : W (ownerOf sid)) :
    Sim W s s' (finishCode s i sid g b ar tok rt) (finishCode s' i sid g b ar tok rt) := by
  unfold finishCode
  cases b with
  | none => exact Sim.pure _
  | some b =>
    dsimp only
    have d := simMgrSet (W := W) ha sid (.grant (g.registerUsage b.value)) hu hw
    generalize mgrSet s sid (.grant (g.registerUsage b.value)) = q at d ⊢
    generalize mgrSet s' sid (.grant (g.registerUsage b.value)) = q' at d ⊢
    rw [← d.out]
    cases q.2 with
    | error e => exact d.map _
    | ok x =>
      dsimp only
      split <;> exact d.map _

theorem simExchangeCode (ha : Agree P s s') (env : Env) (i : TokIn) (sid : Str) (g : Grant) (b : Option Token) (ar : AuthReq)
    (hu : P (ownerOf sid)) (hw : W (ownerOf sid)) :
    Sim W s s' (exchangeCode env s i sid g b ar) (exchangeCode env s' i sid g b ar) := by
  unfold exchangeCode
  dsimp only
  have d := simMint (W := W) ha env env.th.accessToken i.now i.ma sid tAccessToken g b hu hw
  generalize mintAndStore env env.th.accessToken s i.now i.ma sid tAccessToken g b = q at d ⊢
  generalize mintAndStore env env.th.accessToken s' i.now i.ma sid tAccessToken g b = q' at d ⊢
  rw [← d.out]
  cases q.2.2 with
  | error e => exact d.map _
  | ok tok =>
    dsimp only
    have d2 := simRefreshPart (W := W) (d.agree ha) env i sid q.2.1 b (decide (c!"offline_access" ∈ g.scope)) hu hw
    generalize refreshPart env q.1 i sid q.2.1 b (decide (c!"offline_access" ∈ g.scope)) = p at d2 ⊢
    generalize refreshPart env q'.1 i sid q.2.1 b (decide (c!"offline_access" ∈ g.scope)) = p' at d2 ⊢
    rw [← d2.out]
    cases p.2.2 with
    | error e => exact d.trans (d2.map _)
    | ok rt => exact d.trans (d2.trans (simFinishCode (d2.agree (d.agree ha)) i sid p.2.1 b ar tok rt hu hw))

theorem simCodeProcess (ha : Agree P s s') (env : Env) (i : TokIn) (req : TokReq)
    (hc : ∀ v, req.code = some v → In env (fun u => P u ∧ W u) i.now (plusForBlank v)) :
    Sim W s s' (codeProcess env s i req) (codeProcess env s' i req) := by
  unfold codeProcess
  by_cases hg : req.grantType ≠ some c!"authorization_code"
  · rw [if_pos hg, if_pos hg]; exact Sim.pure _
  · rw [if_neg hg, if_neg hg]
    cases h : req.code with
    | none => exact Sim.pure _
    | some v =>
      dsimp only
      rw [agree_byToken ha env i.now _ (fun sid hs => (hc v h sid hs).1)]
      cases hb : sessionByToken env.th env.cr s' i.now (plusForBlank v) with
      | error e => exact Sim.pure _
      | ok p =>
        obtain ⟨sid, o⟩ := p
        cases o with
        | info x => exact Sim.pure _
        | grant g =>
          obtain ⟨x1, x2⟩ := hc v h sid (byToken_sid hb)
          dsimp only
          cases g.authReq with
          | none => exact Sim.pure _
          | some ar =>
            dsimp only
            cases redirectCheck ar req with
            | raise e => exact Sim.pure _
            | errMsg e => exact Sim.pure _
            | val x => exact simExchangeCode ha env i sid g _ ar x1 x2

theorem simNewRefresh (m : Mode) (ha : Agree P s s') (env : Env) (i : TokIn) (sid : Str) (g : Grant) (b : Token) (want : Bool)
    (hu : P (ownerOf sid)) (hw : W (ownerOf sid)) :
    Sim W s s' (newRefresh m env s i sid g b want) (newRefresh m env s' i sid g b want) := by
  unfold newRefresh
  dsimp only
  have d := simRefreshPart (W := W) ha env i sid g (some b) want hu hw
  generalize refreshPart env s i sid g (some b) want = q at d ⊢
  generalize refreshPart env s' i sid g (some b) want = q' at d ⊢
  rw [← d.out]
  cases q.2.2 with
  | error e => exact d.map _
  | ok o =>
    cases o with
    | none => exact d.map _
    | some t =>
      dsimp only
      unfold touch
      cases m with
      | aliased => exact d.trans (Sim.put hw _ _)
      | byValue => exact d.map _

theorem simExchangeRefresh (m : Mode) (ha : Agree P s s') (env : Env) (i : TokIn) (sid : Str) (g : Grant) (b : Option Token)
    (hu : P (ownerOf sid)) (hw : W (ownerOf sid)) :
    Sim W s s' (exchangeRefresh m env s i sid g b) (exchangeRefresh m env s' i sid g b) := by
  unfold exchangeRefresh
  dsimp only
  have d := simMint (W := W) ha env env.th.accessToken i.now i.ma sid tAccessToken g b hu hw
  generalize mintAndStore env env.th.accessToken s i.now i.ma sid tAccessToken g b = q at d ⊢
  generalize mintAndStore env env.th.accessToken s' i.now i.ma sid tAccessToken g b = q' at d ⊢
  rw [← d.out]
  cases q.2.2 with
  | error e => exact d.map _
  | ok tok =>
    dsimp only
    cases b with
    | none => exact d.map _
    | some b =>
      dsimp only
      cases b.usageRules.supportsMinting with
      | none => exact d.map _
      | some mints =>
        dsimp only
        have d2 := simNewRefresh (W := W) m (d.agree ha) env i sid q.2.1 b (decide (tRefreshToken ∈ mints)) hu hw
        generalize newRefresh m env q.1 i sid q.2.1 b (decide (tRefreshToken ∈ mints)) = p at d2 ⊢
        generalize newRefresh m env q'.1 i sid q.2.1 b (decide (tRefreshToken ∈ mints)) = p' at d2 ⊢
        rw [← d2.out]
        cases p.2 with
        | error e => exact d.trans (d2.map _)
        | ok rt =>
          dsimp only
          unfold finishRefresh
          split <;> exact d.trans (d2.map _)

theorem simRefreshProcess (m : Mode) (ha : Agree P s s') (env : Env) (i : TokIn) (req : TokReq)
    (hc : ∀ v, req.refreshToken = some v → In env (fun u => P u ∧ W u) i.now v) :
    Sim W s s' (refreshProcess m env s i req) (refreshProcess m env s' i req) := by
  unfold refreshProcess
  by_cases hg : req.grantType ≠ some c!"refresh_token"
  · rw [if_pos hg, if_pos hg]; exact Sim.pure _
  · rw [if_neg hg, if_neg hg]
    cases h : req.refreshToken with
    | none => exact Sim.pure _
    | some v =>
      dsimp only
      rw [agree_byToken ha env i.now _ (fun sid hs => (hc v h sid hs).1)]
      cases hb : sessionByToken env.th env.cr s' i.now v with
      | error e => exact Sim.pure _
      | ok p =>
        obtain ⟨sid, o⟩ := p
        cases o with
        | info x => exact Sim.pure _
        | grant g =>
          obtain ⟨x1, x2⟩ := hc v h sid (byToken_sid hb)
          exact simExchangeRefresh m ha env i sid g _ x1 x2

/-! ### The new access token -/

theorem minted_sid {cr : TokenCrypto} (L : TokenCryptoLaws cr) (t : TokenHandler) {h : Handler} {now later : Int}
    {rnd nonce sid tt x : Str} (hx : t.sid cr later (handlerCall cr h now rnd nonce sid tt) = .ok x) : x = sid := by
  have key : ∀ (hs : List Handler) (r : TokenInfo), infoLoop cr later (handlerCall cr h now rnd nonce sid tt) hs = .ok r →
      r.sid = some sid := by
    intro hs
    induction hs with
    | nil => intro r hr; cases hr
    | cons h' hs ih =>
      intro r hr
      unfold infoLoop at hr
      cases hi : handlerInfo cr h' later (handlerCall cr h now rnd nonce sid tt) with
      | error e =>
        rw [hi] at hr
        dsimp only at hr
        split at hr
        · exact ih r hr
        · cases hr
      | ok q =>
        rw [hi] at hr
        simp only [Except.ok.injEq] at hr
        subst hr
        unfold handlerInfo at hi
        cases hc' : h'.cls with
        | default =>
          simp only [hc'] at hi
          cases hc : h.cls with
          | default =>
            by_cases hk : h'.key = h.key
            · rw [splitToken_call cr L h h' hc hk] at hi
              simp only [List.getElem?_cons_succ, List.getElem?_cons_zero] at hi
              split at hi
              · cases hi
              · simp only [Except.ok.injEq] at hi
                rw [← hi]
            · rw [splitToken_other cr L h h' hc hk] at hi
              cases hi
          | jwt =>
            unfold splitToken handlerCall cryptDecrypt at hi
            simp only [hc, L.open_pack, Option.map_none] at hi
            cases hi
        | jwt =>
          simp only [hc'] at hi
          cases hc : h.cls with
          | default =>
            unfold handlerCall cryptEncrypt at hi
            simp only [hc, L.unpack_seal] at hi
            cases hi
          | jwt =>
            unfold handlerCall at hi
            simp only [hc] at hi
            by_cases hk : h.key = h'.key
            · rw [hk, L.unpack_pack] at hi
              dsimp only at hi
              split at hi
              · cases hi
              · simp only [Except.ok.injEq] at hi
                rw [← hi]
            · rw [L.unpack_other _ _ _ _ _ _ hk] at hi
              cases hi
  unfold TokenHandler.sid at hx
  split at hx
  · cases hx
  · rename_i r hr
    have := key _ r hr
    rw [this] at hx
    simp only [Except.ok.injEq] at hx
    exact hx.symm

theorem minted_value {env : Env} {h : Option Handler} {now : Int} {m : MintIn} {sid tt : Str} {g : Grant} {b : Option Token} {t : Token}
    (ht : (mintAndStore env h s now m sid tt g b).2.2 = .ok t) :
    ∃ hd, h = some hd ∧ t.value = handlerCall env.cr hd now m.rnd m.nonce sid m.ttype := by
  rcases mintAndStore_spec env h s now m sid tt g b with ⟨_, _, e, h3⟩ | ⟨v, t', hrest⟩
  · rw [h3] at ht; cases ht
  · obtain ⟨a1, _, _, _, a5, _, _, _, _, _, _, _, _, _, a15, _⟩ := hrest
    rcases a15 with ⟨e, a15⟩ | ⟨a15, _⟩
    · rw [a15] at ht; cases ht
    · rw [a15] at ht
      cases ht
      unfold tokenString at a1
      split at a1
      · cases a1
      · cases h with
        | none => cases a1
        | some hd =>
          simp only [Except.ok.injEq] at a1
          exact ⟨hd, rfl, by rw [a5, ← a1]⟩

theorem exchangeCode_value {env : Env} {i : TokIn} {sid : Str} {g : Grant} {b : Option Token} {ar : AuthReq} {resp : TokResp}
    (h : (exchangeCode env s i sid g b ar).2 = .val resp) :
    ∃ hd, resp.accessToken = handlerCall env.cr hd i.now i.ma.rnd i.ma.nonce sid i.ma.ttype := by
  unfold exchangeCode at h
  dsimp only at h
  split at h
  · cases h
  · rename_i tok ht
    obtain ⟨hd, _, hv⟩ := minted_value ht
    split at h
    · cases h
    · unfold finishCode at h
      split at h
      · cases h
      · dsimp only at h
        split at h
        · cases h
        · split at h
          · cases h
          · cases h
          · cases h
            exact ⟨hd, hv⟩

theorem exchangeRefresh_value {m : Mode} {env : Env} {i : TokIn} {sid : Str} {g : Grant} {b : Option Token} {resp : TokResp}
    (h : (exchangeRefresh m env s i sid g b).2 = .val resp) :
    ∃ hd, resp.accessToken = handlerCall env.cr hd i.now i.ma.rnd i.ma.nonce sid i.ma.ttype := by
  unfold exchangeRefresh at h
  dsimp only at h
  split at h
  · cases h
  · rename_i tok ht
    obtain ⟨hd, _, hv⟩ := minted_value ht
    split at h
    · cases h
    · split at h
      · cases h
      · split at h
        · cases h
        · unfold finishRefresh at h
          split at h
          · cases h
          · cases h
          · cases h
            exact ⟨hd, hv⟩

/-- The session of the new access token is that of the token in the request. -/
theorem helperProcess_in {m : Mode} {env : Env} (L : TokenCryptoLaws env.cr) {hs : Dict Helper} {i : TokIn} {req : TokReq} {resp : TokResp}
    {Q : Str → Prop}
    (hc : ∀ v, req.code = some v → In env Q i.now (plusForBlank v))
    (hr : ∀ v, req.refreshToken = some v → In env Q i.now v)
    (h : (helperProcess m env hs s i req).2 = .val resp) : In env Q i.now resp.accessToken := by
  unfold helperProcess at h
  split at h
  · cases h
  · split at h
    · cases h
    · cases h
    · unfold codeProcess at h
      split at h
      · cases h
      · split at h
        · cases h
        · rename_i v hv
          split at h
          · cases h
          · cases h
          · rename_i sid g hb
            split at h
            · cases h
            · split at h
              · cases h
              · cases h
              · obtain ⟨hd, e⟩ := exchangeCode_value h
                intro x hx
                rw [e] at hx
                rw [minted_sid L _ hx]
                exact hc v hv sid (byToken_sid hb)
    · unfold refreshProcess at h
      split at h
      · cases h
      · split at h
        · cases h
        · rename_i v hv
          split at h
          · cases h
          · cases h
          · rename_i sid g hb
            obtain ⟨hd, e⟩ := exchangeRefresh_value h
            intro x hx
            rw [e] at hx
            rw [minted_sid L _ hx]
            exact hr v hv sid (byToken_sid hb)

theorem simTokProcess (m : Mode) (ha : Agree P s s') {env : Env} (L : TokenCryptoLaws env.cr) (hs : Dict Helper) (i : TokIn)
    (req : TokReq) (hc : ∀ v, req.code = some v → In env (fun u => P u ∧ W u) i.now (plusForBlank v))
    (hr : ∀ v, req.refreshToken = some v → In env (fun u => P u ∧ W u) i.now v) :
    Sim W s s' (tokProcess m env hs s i req) (tokProcess m env hs s' i req) := by
  have d : Sim W s s' (helperProcess m env hs s i req) (helperProcess m env hs s' i req) := by
    unfold helperProcess
    split
    · exact Sim.pure _
    · split
      · exact Sim.pure _
      · exact Sim.pure _
      · exact simCodeProcess ha env i req hc
      · exact simRefreshProcess m ha env i req hr
  have hin : ∀ resp, (helperProcess m env hs s i req).2 = .val resp → In env (fun u => P u ∧ W u) i.now resp.accessToken :=
    fun resp h => helperProcess_in L hc hr h
  unfold tokProcess
  dsimp only
  generalize helperProcess m env hs s i req = q at d hin ⊢
  generalize helperProcess m env hs s' i req = q' at d ⊢
  rw [← d.out]
  cases hq : q.2 with
  | raise e => exact d.map _
  | errMsg e => exact d.map _
  | val resp =>
    dsimp only
    rw [agree_byToken (d.agree ha) env i.now _ (fun sid h => (hin resp hq sid h).1)]
    cases sessionByToken env.th env.cr q'.1 i.now resp.accessToken with
    | error e => exact d.map _
    | ok p =>
      obtain ⟨sid, o⟩ := p
      cases o with
      | info x => exact d.map _
      | grant g => exact d.map _

end Verif
