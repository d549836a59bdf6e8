import Verif.Props.Resource
set_option linter.unusedSimpArgs false
set_option linter.unusedVariables false
/-! The default authorization policy: C75. -/
namespace Verif
open Spec

/-- Under the default policy no step changes what a grant covers. -/
theorem step_implicit {env : Env} {k : Str} {g : Grant} {op : GrantOp} (hp : env.gc.implicit = true) (ha : Allowed env k g op) :
    (g.step op).scope = g.scope ∧ (g.step op).claims = g.claims ∧ (g.step op).usageRules = g.usageRules := by
  cases op with
  | mint now id tt b rules scope args value =>
    simp only [Grant.step]
    rcases mintToken_cases g now id tt (b.bind g.tokenAt) rules scope args value with h | h
    · rw [h.1]; exact ⟨rfl, rfl, rfl⟩
    · obtain ⟨v, k, rfl, _, _, _, item, hi, hr⟩ := h; rw [hr]; exact ⟨rfl, rfl, rfl⟩
  | configure c => obtain ⟨h, _⟩ := ha; rw [hp] at h; cases h
  | copyRules s d => simp only [Grant.step]; cases g.tokenAt s <;> exact ⟨rfl, rfl, rfl⟩
  | _ => exact ⟨rfl, rfl, rfl⟩

theorem Evo.implicit {env : Env} {k : Str} {g g' : Grant} (hp : env.gc.implicit = true) (h : Evo env k g g') :
    g'.scope = g.scope ∧ g'.claims = g.claims ∧ g'.usageRules = g.usageRules := by
  induction h with
  | refl => exact ⟨rfl, rfl, rfl⟩
  | step op _ ha ih =>
    obtain ⟨h1, h2, h3⟩ := step_implicit hp ha
    exact ⟨h1.trans ih.1, h2.trans ih.2.1, h3.trans ih.2.2⟩

/-- C75, refuted for every history: with the default policy every stored grant has an empty scope and no claims, whatever
was asked for. -/
theorem C75_default_policy_grants_nothing (cfg : SysCfg) (hp : cfg.env.gc.implicit = true) (hb : BlankFree cfg.env)
    (ops : List SysOp) (hf : FreshRun ops) (hs : ∀ op ∈ ops, NoScopeGiven op) (i : Nat) (sid : Str) (g : Grant)
    (hg : getGrant (sysRun cfg (ops.take i)).store sid = .ok g) : g.scope = [] ∧ g.claims = [] := by
  have hi := sysRun_inv cfg ops hf hb i
  obtain ⟨hk, _⟩ := getGrant_key hi.noEmpty hg
  obtain ⟨j, op, g0, _, hj, hc, hev⟩ := grant_origin hf hb i hk
  obtain ⟨h1, h2⟩ := hc.2.2.2.2.2.1 (hs op (List.mem_of_getElem? hj))
  obtain ⟨e1, e2, _⟩ := hev.implicit hp
  exact ⟨e1.trans h1, e2.trans h2⟩

/-- C75: so every token response has an empty scope, and a code never gives a refresh token. -/
theorem C75_no_scope_no_refresh_token (cfg : SysCfg) (hp : cfg.env.gc.implicit = true) (hb : BlankFree cfg.env)
    (ops : List SysOp) (hf : FreshRun ops) (hs : ∀ op ∈ ops, NoScopeGiven op) (i : Nat) (req : TokReq) (resp : TokResp)
    (h : responseAt cfg ops i = some (req, resp)) :
    resp.scope = [] ∧ (req.grantType = some c!"authorization_code" → resp.refreshToken = none) := by
  obtain ⟨inp, v, sid, g, ar, t, a1, a2, a3, a4, a5, a6, a7, a8, _⟩ := C33_scope_never_grows cfg hb ops hf i req resp h
  have hsc := (C75_default_policy_grants_nothing cfg hp hb ops hf hs i sid g a4).1
  refine ⟨by rw [a8, hsc], fun hgt => ?_⟩
  obtain ⟨inp, c, sid, g, t, ar, g', b0, b1, b2, b3, b4, b5, b6, b7, b8, b9, b10, b11, b12, b13, b14, tok, rt, c1, c2, c3, c4, c5,
    c6, c7⟩ := code_response hb hf h hgt
  have hsc := (C75_default_policy_grants_nothing cfg hp hb ops hf hs i sid g (sessionByToken_getGrant b2)).1
  rw [c6]
  rw [hsc] at c7
  cases rt with
  | none => rfl
  | some r => simp at c7

/-- C75: and the userinfo endpoint tells nothing but the subject. -/
theorem C75_userinfo_only_sub (cfg : SysCfg) (hp : cfg.env.gc.implicit = true) (hb : BlankFree cfg.env)
    (ops : List SysOp) (hf : FreshRun ops) (hs : ∀ op ∈ ops, NoScopeGiven op) (i : Nat) (db : Str → Dict Val) (now : Int)
    (v client : Str) (info : Dict Val)
    (h : userinfoProcess cfg.env db (sysRun cfg (ops.take i)).store now v = .val (info, client)) :
    ∃ sub, info = [(c!"sub", .str sub)] := by
  unfold userinfoProcess at h
  cases hsess : sessionByToken cfg.env.th cfg.env.cr (sysRun cfg (ops.take i)).store now v with
  | error e => simp [hsess] at h
  | ok x =>
    obtain ⟨sid, o⟩ := x
    cases o with
    | info _ => simp [hsess] at h
    | grant g =>
      have hcl := (C75_default_policy_grants_nothing cfg hp hb ops hf hs i sid g (sessionByToken_getGrant hsess)).2
      simp only [hsess] at h
      split at h
      · cases h
      · split at h
        · cases h
        · split at h
          · cases h
          · split at h
            · cases h
            · cases h
            · split at h
              · cases h
              · rw [hcl] at h
                simp only [Dict.get?, Option.getD_none, getUserClaims, List.isEmpty_nil, if_true] at h
                cases h
                exact ⟨g.sub, rfl⟩

/-- C75: any configuration given to the default policy makes every authorization fail. -/
theorem C75_configured_default_policy_denies (env : Env) (hp : env.gc.implicit = true)
    (hc : env.gc.usageRules ≠ none ∨ env.gc.expiresIn ≠ none) (cdb : Cdb) (s : Store) (now : Int) (mc ma : MintIn)
    (idt : Out Str) (req : AuthReq) (sid : Str) :
    authzPart2 env cdb s now mc ma idt req sid = (cdb, s, errReply c!"access_denied") := by
  have he : ∀ c g, authzCall env.gc env.ccfg cdb now c g req = (cdb, .error .valueError) := by
    intro c g
    unfold authzCall implicitCall
    rw [if_pos hp]
    have : (env.gc.usageRules.isSome || env.gc.expiresIn.isSome) = true := by
      rcases hc with h | h
      · cases hx : env.gc.usageRules with
        | none => exact absurd hx h
        | some x => rfl
      · cases hx : env.gc.expiresIn with
        | none => exact absurd hx h
        | some x => simp
    rw [if_pos this]
  unfold authzPart2
  cases getGrant s sid with
  | error e => rfl
  | ok g =>
    simp only
    cases unpack3 sid with
    | error e => rfl
    | ok t =>
      obtain ⟨u, c, gi⟩ := t
      simp only [he]

/-- C75, the part that holds: with the other policy, a grant that has given out a token has the scope that was asked for.
(Missing: the default policy, for which it is false.) -/
theorem C75_granted_as_asked_partial (cfg : SysCfg) (hp : cfg.env.gc.implicit = false) (hb : BlankFree cfg.env)
    (ops : List SysOp) (hf : FreshRun ops) (i : Nat) (sid : Str) (g : Grant)
    (hg : getGrant (sysRun cfg (ops.take i)).store sid = .ok g) (hne : g.issuedToken ≠ []) :
    ∃ ar, g.authReq = some ar ∧ g.scope = ar.scope :=
  (C33_stored_scopes cfg hb ops hf i sid g hg).2 hp hne

/-! ### The hypotheses are met: the demo with the default policy. -/

def defaultPolicyCfg : SysCfg := ⟨.aliased, { demoEnv with gc := { implicit := true } }, demoHelpers⟩

example : ∀ op ∈ demoOps, NoScopeGiven op := by
  intro op hop
  simp only [demoOps, List.mem_cons, List.not_mem_nil, or_false] at hop
  rcases hop with rfl | rfl | rfl | rfl | rfl | rfl | rfl <;> trivial

set_option maxRecDepth 4000 in
/-- The request asked for "openid offline_access"; the response has no scope and no refresh token (but an ID token). -/
example : (responseAt defaultPolicyCfg demoOps 3).map (fun r => (r.2.scope, r.2.refreshToken, r.2.idToken)) =
    some ([], none, some c!"IDT") := by decide

set_option maxRecDepth 8000 in
example : (match userinfoProcess defaultPolicyCfg.env demoUsers (sysRun defaultPolicyCfg loginOps).store 3 demoAt with
    | .val (d, c) => some (d.map Prod.fst, c)
    | _ => none) = some ([c!"sub"], c!"c1") := by decide

end Verif
