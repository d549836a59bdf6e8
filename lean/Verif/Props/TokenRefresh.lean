import Verif.Props.TokenEndpoint
set_option linter.unusedSimpArgs false
set_option linter.unusedVariables false
/-! Refresh tokens (C32), revoked grants (C20), configured grant types (C55). -/
namespace Verif
open Spec

/-! ### C32 -/

/-- C32 (partial): a refresh request succeeds only with a refresh token that is stored in a stored grant, both active, and the
new tokens record it as their base.  The clause about `max_usage` is false, see below. -/
theorem C32_refresh_needs_active_token_partial (cfg : SysCfg) (hb : BlankFree cfg.env) (ops : List SysOp) (hf : FreshRun ops)
    (i : Nat) (req : TokReq) (resp : TokResp) (h : responseAt cfg ops i = some (req, resp))
    (hgt : req.grantType = some c!"refresh_token") :
    ∃ inp v sid g t g', ops[i]? = some (.tokProcess inp req) ∧ req.refreshToken = some v ∧
      cfg.env.th.sid cfg.env.cr inp.now v = .ok sid ∧ getGrant (sysRun cfg (ops.take i)).store sid = .ok g ∧
      g.isActive inp.now = true ∧ t ∈ g.issuedToken ∧ t.value = v ∧ t.kind = .refreshToken ∧ t.isActive inp.now = true ∧
      (sysRun cfg (ops.take (i + 1))).store sid = some (.grant g') ∧
      ∃ tok new, g'.issuedToken = g.issuedToken ++ tok :: new ∧ resp.accessToken = tok.value ∧
        resp.refreshToken.toList = new.map Token.value ∧ ∀ x ∈ tok :: new, x.basedOn = some v := by
  obtain ⟨inp, v, sid, g, t, g', b0, b1, b2, b3, b4, b6, b7, b8, b9, b10, b11, b12, tok, r', d1, d2, d3, d4, d5, d6⟩ :=
    refresh_response hb hf h hgt
  have hi := sysRun_inv cfg ops hf hb i
  obtain ⟨e1, e2⟩ := getToken_value b6
  refine ⟨inp, v, sid, g, t, g', b0, b1, (sessionByToken_key hi.noEmpty b2).1, sessionByToken_getGrant b2, b9, e2, e1, b7, b8,
    b12, tok, r', d1, d4, d5.symm, ?_⟩
  intro x hx
  rcases List.mem_cons.1 hx with rfl | hx
  · exact d2
  · exact (d6 x hx).1

/-- Refreshing does not register a use of the refresh token: afterwards it is stored exactly as before. -/
theorem C32_use_not_registered (cfg : SysCfg) (hb : BlankFree cfg.env) (ops : List SysOp) (hf : FreshRun ops)
    (i : Nat) (req : TokReq) (resp : TokResp) (h : responseAt cfg ops i = some (req, resp))
    (hgt : req.grantType = some c!"refresh_token") :
    ∃ inp v sid g t g', ops[i]? = some (.tokProcess inp req) ∧ req.refreshToken = some v ∧
      cfg.env.th.sid cfg.env.cr inp.now v = .ok sid ∧ getGrant (sysRun cfg (ops.take i)).store sid = .ok g ∧
      g.getToken v = some t ∧ (sysRun cfg (ops.take (i + 1))).store sid = some (.grant g') ∧ g'.getToken v = some t := by
  obtain ⟨inp, v, sid, g, t, g', b0, b1, b2, b3, b4, b6, b7, b8, b9, b10, b11, b12, tok, r', d1, _⟩ := refresh_response hb hf h hgt
  have hi := sysRun_inv cfg ops hf hb i
  refine ⟨inp, v, sid, g, t, g', b0, b1, (sessionByToken_key hi.noEmpty b2).1, sessionByToken_getGrant b2, b6, b12, ?_⟩
  unfold Grant.getToken
  rw [d1]
  exact findValue_append_left b6

/-- A provider whose refresh tokens may be used once. -/
def onceRules : Dict UsageRules :=
  [(tAuthorizationCode, { maxUsage := some 1, supportsMinting := some [tAccessToken, tRefreshToken], expiresIn := some 3 }),
   (tAccessToken, { expiresIn := some 4 }),
   (tRefreshToken, { maxUsage := some 1, supportsMinting := some [tAccessToken, tRefreshToken], expiresIn := some 20 })]
def onceGc : AuthzConfig := { usageRules := some onceRules, expiresIn := some 1000 }
def onceEnv : Env := { demoEnv with gc := onceGc }
def onceCfg (m : Mode) : SysCfg := ⟨m, onceEnv, demoHelpers⟩
def onceOps : List SysOp :=
  demoOps.take 4 ++ [.tokParse 3 demoRefReq, .tokProcess (tokIn 3 c!"n5" c!"n6") demoRefReq,
    .tokParse 4 demoRefReq, .tokProcess (tokIn 4 c!"n7" c!"n8") demoRefReq]

set_option maxRecDepth 4000 in
/-- C32 is false of the code in its last clause: a refresh token with `max_usage` 1 gives two token responses. -/
theorem C32_limit_not_enforced (m : Mode) :
    FreshRun onceOps ∧ BlankFree (onceCfg m).env ∧
    (∃ g t, (sysRun (onceCfg m) (onceOps.take 4)).store c!"diana;;c1;;g1" = some (.grant g) ∧
      g.getToken (demoRt 2 c!"n4") = some t ∧ t.kind = .refreshToken ∧ t.usageRules.maxUsage = some 1) ∧
    demoRefReq.refreshToken = some (demoRt 2 c!"n4") ∧
    (∃ r1, responseAt (onceCfg m) onceOps 5 = some (demoRefReq, r1)) ∧
    (∃ r2, responseAt (onceCfg m) onceOps 7 = some (demoRefReq, r2)) := by
  refine ⟨⟨by decide, by decide, ?_⟩, demoEnv_blankFree, ?_, rfl, ?_, ?_⟩
  · intro op hop
    simp only [onceOps, demoOps, List.take_succ_cons, List.take_zero, List.cons_append, List.nil_append, List.mem_cons,
      List.not_mem_nil, or_false] at hop
    rcases hop with rfl | rfl | rfl | rfl | rfl | rfl | rfl | rfl <;> trivial
  · have : ((match (sysRun (onceCfg m) (onceOps.take 4)).store c!"diana;;c1;;g1" with
        | some (.grant g) => some g
        | _ => none).bind fun (g : Grant) => (g.getToken (demoRt 2 c!"n4")).map fun (t : Token) => (t.kind, t.usageRules.maxUsage)) =
        some (TokenKind.refreshToken, some 1) := by cases m <;> decide
    cases hs : (sysRun (onceCfg m) (onceOps.take 4)).store c!"diana;;c1;;g1" with
    | none => rw [hs] at this; cases this
    | some o =>
      cases o with
      | info _ => rw [hs] at this; cases this
      | grant g =>
        rw [hs] at this
        simp only [Option.bind_some] at this
        cases ht : g.getToken (demoRt 2 c!"n4") with
        | none => rw [ht] at this; cases this
        | some t =>
          rw [ht] at this
          simp only [Option.map_some, Option.some.injEq, Prod.mk.injEq] at this
          exact ⟨g, t, rfl, ht, this.1, this.2⟩
  · have : (responseAt (onceCfg m) onceOps 5).map Prod.fst = some demoRefReq := by cases m <;> decide
    cases h : responseAt (onceCfg m) onceOps 5 with
    | none => rw [h] at this; cases this
    | some x => obtain ⟨a, b⟩ := x; rw [h] at this; simp only [Option.map_some, Option.some.injEq] at this; exact ⟨b, by rw [this]⟩
  · have : (responseAt (onceCfg m) onceOps 7).map Prod.fst = some demoRefReq := by cases m <;> decide
    cases h : responseAt (onceCfg m) onceOps 7 with
    | none => rw [h] at this; cases this
    | some x => obtain ⟨a, b⟩ := x; rw [h] at this; simp only [Option.map_some, Option.some.injEq] at this; exact ⟨b, by rw [this]⟩

/-! ### C20 -/

theorem step_revoked_tokens (g : Grant) (op : GrantOp) (h : g.revoked = true) :
    (g.step op).issuedToken.length = g.issuedToken.length := by
  rcases step_tokens g op with he | ⟨now, id, tt, b, rules, scope, args, v, k0, a, rfl, _⟩
  · exact he.1
  · rcases mintToken_cases g now id tt (b.bind g.tokenAt) rules scope args (.ok v) with h' | h'
    · simp only [Grant.step]; rw [h'.1]
    · obtain ⟨v', k', hv, hact, _⟩ := h'
      simp [Grant.isActive, Item.isActive, h] at hact

theorem Evo.revoked_tokens {env : Env} {k : Str} {g g' : Grant} (h : Evo env k g g') (hr : g.revoked = true) :
    g'.issuedToken.length = g.issuedToken.length := by
  induction h with
  | refl => rfl
  | step op he _ ih => rw [step_revoked_tokens _ _ (he.revoked hr), ih]

/-- C20 (partial): once a grant is revoked it stays revoked as long as it is stored, no token is ever added to it by any
endpoint or session-manager call, and its tokens are the ones it had. -/
theorem C20_revoked_grant_mints_nothing_partial (cfg : SysCfg) (hb : BlankFree cfg.env) (ops : List SysOp) (hf : FreshRun ops)
    (i j : Nat) (hij : i ≤ j) (sid : Str) (g g' : Grant) (hg : getGrant (sysRun cfg (ops.take i)).store sid = .ok g)
    (hr : g.revoked = true) (hg' : getGrant (sysRun cfg (ops.take j)).store sid = .ok g') :
    g'.revoked = true ∧ g'.issuedToken.map Token.value = g.issuedToken.map Token.value := by
  have hi := sysRun_inv cfg ops hf hb i
  have hj := sysRun_inv cfg ops hf hb j
  have hev := evo_later hf hb hij (getGrant_key hi.noEmpty hg).1 (getGrant_key hj.noEmpty hg').1
  refine ⟨hev.revoked hr, ?_⟩
  have hl := hev.revoked_tokens hr
  apply List.ext_getElem?
  intro n
  rw [List.getElem?_map, List.getElem?_map]
  by_cases hn : n < g.issuedToken.length
  · obtain ⟨t', h1, h2⟩ := hev.pres n g.issuedToken[n] (by simp [hn])
    rw [h1]
    simp [hn, h2.value]
  · have h1 : g.issuedToken[n]? = none := by simp; omega
    have h2 : g'.issuedToken[n]? = none := by simp; omega
    rw [h1, h2]

/-- C20: and no token request for it is answered with tokens. -/
theorem C20_revoked_grant_no_response (cfg : SysCfg) (hb : BlankFree cfg.env) (ops : List SysOp) (hf : FreshRun ops)
    (i j : Nat) (hij : i ≤ j) (sid : Str) (g : Grant) (hg : getGrant (sysRun cfg (ops.take i)).store sid = .ok g)
    (hr : g.revoked = true) (req : TokReq) (resp : TokResp) (h : responseAt cfg ops j = some (req, resp)) (v : Str)
    (hv : (req.grantType = some c!"authorization_code" ∧ req.code = some v) ∨
      (req.grantType = some c!"refresh_token" ∧ req.refreshToken = some v)) (now : Int) :
    cfg.env.th.sid cfg.env.cr now v ≠ .ok sid := by
  intro hsid
  have hi := sysRun_inv cfg ops hf hb i
  have hj := sysRun_inv cfg ops hf hb j
  have key : ∀ {v' sid' g'} {now' : Int}, sessionByToken cfg.env.th cfg.env.cr (sysRun cfg (ops.take j)).store now' v' = .ok (sid', .grant g') →
      v' = v → g'.isActive now' = true → False := by
    intro v' sid' g' now' hs hv' ha
    subst hv'
    obtain ⟨k1, k2, _⟩ := sessionByToken_key hj.noEmpty hs
    have := sid_det k1 hsid
    subst this
    have hev := evo_later hf hb hij (getGrant_key hi.noEmpty hg).1 k2
    have := hev.revoked hr
    simp [Grant.isActive, Item.isActive, this] at ha
  rcases hv with ⟨hgt, hc⟩ | ⟨hgt, hc⟩
  · obtain ⟨inp, c, sid', g', t, ar, _, b0, b1, b2, b3, b4, b5, b6, b7, b8, b9, _⟩ := code_response hb hf h hgt
    rw [hc] at b1
    cases b1
    exact key b2 rfl b9
  · obtain ⟨inp, c, sid', g', t, _, b0, b1, b2, b3, b4, b6, b7, b8, b9, _⟩ := refresh_response hb hf h hgt
    rw [hc] at b1
    cases b1
    exact key b2 rfl b9

set_option maxRecDepth 4000 in
/-- A grant revoked in the middle of the demo history: the code is not redeemed any more. -/
example : (List.range 5).map (fun i => (responseAt (demoCfg .byValue)
    (demoOps.take 3 ++ [.revokeGrant c!"diana;;c1;;g1"] ++ (demoOps.drop 3).take 1) i).isSome) =
    [false, false, false, false, false] := by decide

/-! ### C55 -/

theorem configureLoop_get {d : List (Str × GrantTypeOpt)} (hn : (d.map Prod.fst).Nodup) {acc h : Dict Helper}
    (hl : configureLoop d acc = some h) (gt : Str) :
    h.get? gt = match Dict.get? d gt with
      | none => acc.get? gt
      | some .on => (helperByGrantType.get? gt).map Helper.bare
      | some .off => acc.get? gt
      | some (.cls c) => some (.inst c)
      | some .bad => none := by
  induction d generalizing acc with
  | nil => simp only [configureLoop, Option.some.injEq] at hl; subst hl; rfl
  | cons kv d ih =>
    obtain ⟨k, o⟩ := kv
    rw [List.map_cons, List.nodup_cons] at hn
    have hnk : ∀ k', k' = k → Dict.get? d k' = none := by
      intro k' hk'
      cases h : Dict.get? d k' with
      | none => rfl
      | some x =>
        exfalso
        have := Dict.get?_mem h
        rw [hk'] at this
        exact hn.1 (List.mem_map.2 ⟨_, this, rfl⟩)
    cases o with
    | on =>
      simp only [configureLoop] at hl
      cases hc : helperByGrantType.get? k with
      | none => simp [hc] at hl
      | some c =>
        simp only [hc] at hl
        rw [ih hn.2 hl, Dict.get?_set]
        by_cases e : gt = k
        · rw [hnk gt e]
          simp [Dict.get?, e, hc]
        · have e' : k ≠ gt := fun h => e h.symm
          simp only [Dict.get?, e', e, if_false]
    | off =>
      simp only [configureLoop] at hl
      rw [ih hn.2 hl]
      by_cases e : gt = k
      · rw [hnk gt e]; simp [Dict.get?, e]
      · have e' : k ≠ gt := fun h => e h.symm
        simp only [Dict.get?, e', if_false]
    | cls c =>
      simp only [configureLoop] at hl
      rw [ih hn.2 hl, Dict.get?_set]
      by_cases e : gt = k
      · rw [hnk gt e]
        simp [Dict.get?, e]
      · have e' : k ≠ gt := fun h => e h.symm
        simp only [Dict.get?, e', e, if_false]
    | bad => simp [configureLoop] at hl

/-- C55 (partial): after a configuration that is accepted, a token request is answered with tokens only for a grant type that
is configured and not switched off; all others get an `invalid_request` error. -/
theorem C55_only_configured_served_partial (mode : Mode) (env : Env) (d : Dict GrantTypeOpt) (hn : (d.map Prod.fst).Nodup)
    (helpers : Dict Helper) (hc : configureGrantTypes (some d) = some helpers) (gt : Str)
    (hoff : Dict.get? d gt = none ∨ Dict.get? d gt = some .off) (s : Store) (i : TokIn) (now : Int) (req : TokReq)
    (hg : req.grantType = some gt) :
    tokParse env helpers s now req = .errMsg c!"invalid_request" ∧
    tokProcess mode env helpers s i req = (s, .errMsg c!"invalid_request") := by
  have h := configureLoop_get hn hc gt
  have hx : helpers.get? gt = none := by
    rcases hoff with h' | h' <;> rw [h'] at h <;> simpa [Dict.get?] using h
  refine ⟨by simp [tokParse, helperParse, hg, hx], ?_⟩
  simp [tokProcess, helperProcess, hg, hx]

/-- C55: without configuration, and with a class named explicitly, the built-in helpers are used. -/
theorem C55_default_and_explicit_class :
    (∀ h, configureGrantTypes none = some h →
      h.get? c!"authorization_code" = some (.inst .accessToken) ∧ h.get? c!"refresh_token" = some (.inst .refreshToken) ∧
      ∀ gt, gt ≠ c!"authorization_code" → gt ≠ c!"refresh_token" → h.get? gt = none) ∧
    (∀ (d : Dict GrantTypeOpt), (d.map Prod.fst).Nodup → ∀ h, configureGrantTypes (some d) = some h → ∀ gt c,
      Dict.get? d gt = some (.cls c) → h.get? gt = some (.inst c)) := by
  refine ⟨?_, ?_⟩
  · intro h hh
    simp only [configureGrantTypes, helperByGrantType, List.map_cons, List.map_nil, Option.some.injEq] at hh
    subst hh
    refine ⟨by decide, by decide, ?_⟩
    intro gt h1 h2
    simp only [Dict.get?]
    rw [if_neg (fun h => h1 h.symm), if_neg (fun h => h2 h.symm)]
  · intro d hn h hh gt c hc
    rw [configureLoop_get hn hh gt, hc]

/-- C55 is false of the code in its second half: a grant type enabled with `True` (or `None`) makes every request for it
raise, in any state. -/
theorem C55_enabled_with_true_raises (mode : Mode) (env : Env) (d : Dict GrantTypeOpt) (hn : (d.map Prod.fst).Nodup)
    (helpers : Dict Helper) (hc : configureGrantTypes (some d) = some helpers) (gt : Str) (hon : Dict.get? d gt = some .on)
    (s : Store) (i : TokIn) (now : Int) (req : TokReq) (hg : req.grantType = some gt) :
    tokParse env helpers s now req = .raise .attributeError ∧
    tokProcess mode env helpers s i req = (s, .raise .typeError) := by
  have h := configureLoop_get hn hc gt
  rw [hon] at h
  have hx : ∃ c, helperByGrantType.get? gt = some c := by
    cases hb : helperByGrantType.get? gt with
    | some c => exact ⟨c, rfl⟩
    | none =>
      exfalso
      have key : ∀ (d : List (Str × GrantTypeOpt)) (acc : Dict Helper), Dict.get? d gt = some .on → configureLoop d acc = none := by
        intro d
        induction d with
        | nil => intro acc h; simp [Dict.get?] at h
        | cons kv d ih =>
          intro acc h
          obtain ⟨k, o⟩ := kv
          by_cases e : k = gt
          · subst e
            simp [Dict.get?] at h
            subst h
            simp [configureLoop, hb]
          · simp only [Dict.get?, e, if_false] at h
            cases o with
            | on =>
              simp only [configureLoop]
              cases helperByGrantType.get? k with
              | none => rfl
              | some c => exact ih _ h
            | off => exact ih _ h
            | cls c => exact ih _ h
            | bad => rfl
      simp only [configureGrantTypes] at hc
      rw [key d [] hon] at hc
      cases hc
  obtain ⟨c, hc'⟩ := hx
  rw [hc'] at h
  simp only [Option.map_some] at h
  refine ⟨by simp [tokParse, helperParse, hg, h], ?_⟩
  simp [tokProcess, helperProcess, hg, h]

/-- The hypotheses are met by the configuration of the documentation. -/
example : ((configureGrantTypes (some [(c!"authorization_code", .on), (c!"refresh_token", .off), (c!"x", .cls .accessToken)])).map
    fun h => (h.get? c!"authorization_code", h.get? c!"refresh_token", h.get? c!"x")) =
    some (some (.bare .accessToken), none, some (.inst .accessToken)) := by decide

end Verif
