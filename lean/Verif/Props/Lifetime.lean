import Verif.Props.TokenHistory
import Verif.Props.Grant
import Verif.Spec.Lifetime
set_option linter.unusedSimpArgs false
set_option linter.unusedVariables false
/-! How long tokens and grants live: C74. -/
namespace Verif
open Spec

theorem fresh_active {it : Item} (h : Fresh it) (later : Int) :
    ActiveAt it none later ↔ it.expiresAt = 0 ∨ later ≤ it.expiresAt := by
  obtain ⟨h1, h2, h3⟩ := h
  constructor
  · rintro ⟨_, _, _, h⟩
    by_cases he : it.expiresAt = 0
    · exact .inl he
    · exact .inr (h he)
  · intro h
    refine ⟨h1, fun m hm => (by cases hm), fun h' => absurd h3 h', fun he => ?_⟩
    rcases h with h | h
    · exact absurd h he
    · exact h

/-- The token a successful mint returns. -/
theorem mintAndStore_expiry {env : Env} {h : Option Handler} {s : Store} {now : Int} {m : MintIn} {sid tt : Str} {g : Grant}
    {b : Option Token} {t : Token} (hok : (mintAndStore env h s now m sid tt g b).2.2 = .ok t) :
    Fresh t.toItem ∧ t.issuedAt = now ∧ t.expiresAt = if lifetime g tt = 0 then 0 else now + lifetime g tt := by
  have hl : lifetime g tt = (((g.usageRules.get? tt).getD {}).expiresIn).getD 0 := by
    unfold lifetime
    cases g.usageRules.get? tt <;> rfl
  unfold mintAndStore at hok
  simp only at hok
  rcases mintToken_cases g now m.id tt b (some ((g.usageRules.get? tt).getD {})) [] {} (tokenString env h now m sid)
    with ⟨h1, h2⟩ | ⟨v, k, hv, hact, hm, hb, item, hi, hr⟩
  · generalize g.mintToken now m.id tt b (some ((g.usageRules.get? tt).getD {})) [] {} (tokenString env h now m sid) = R at *
    obtain ⟨R1, R2⟩ := R
    cases R2 with
    | error e => simp at hok
    | ok o =>
      cases o with
      | none => simp at hok
      | some t => exact absurd rfl (h2 t)
  · rw [hr] at hok
    simp only at hok
    rw [← hl] at hok
    have hitem : Fresh item.toItem ∧ item.issuedAt = now ∧ item.expiresAt = 0 := by
      rw [hi]
      simp [Fresh, Token.new, Item.mk']
    split at hok
    · cases hok
    · cases hok
      by_cases he : lifetime g tt = 0
      · simp only [he, if_true]
        exact hitem
      · simp only [he, if_false]
        exact ⟨hitem.1, hitem.2.1, trivial⟩

/-- C74: a token minted at either endpoint at time `now` with a configured lifetime is usable up to and including
`now + lifetime`, counted from the moment it is made, and not afterwards; without one it does not expire. -/
theorem C74_minted_token_lifetime (env : Env) (h : Option Handler) (s : Store) (now : Int) (m : MintIn) (sid tt : Str)
    (g : Grant) (b : Option Token) (t : Token) (hok : (mintAndStore env h s now m sid tt g b).2.2 = .ok t)
    (hnow : 0 < now) :
    (0 < lifetime g tt → ∀ later, ActiveAt t.toItem none later ↔ later ≤ now + lifetime g tt) ∧
    (lifetime g tt = 0 → ∀ later, ActiveAt t.toItem none later) := by
  obtain ⟨h1, _, h3⟩ := mintAndStore_expiry hok
  constructor
  · intro hp later
    rw [if_neg (by omega)] at h3
    rw [fresh_active h1, h3]
    constructor
    · rintro (h | h)
      · omega
      · exact h
    · exact .inr
  · intro hz later
    rw [if_pos hz] at h3
    exact (fresh_active h1 later).2 (.inl h3)

/-- C74: grants and tokens made with `expires_in` expire that many seconds after the clock at that moment, whatever
`issued_at` says. -/
theorem C74_constructor_lifetime (now issuedAt e : Int) (hnow : 0 < now) (he : 0 < e) :
    (∀ k id value later, ActiveAt (Token.new k now id { value := value, issuedAt := issuedAt, expiresIn := e }).toItem none later ↔
      later ≤ now + e) ∧
    (∀ id later, ActiveAt (Grant.new now id { issuedAt := issuedAt, expiresIn := e }).toItem none later ↔ later ≤ now + e) := by
  have key : ∀ (it : Item), Fresh it → it.expiresAt = now + e → ∀ later, ActiveAt it none later ↔ later ≤ now + e := by
    intro it h1 h2 later
    rw [fresh_active h1, h2]
    constructor
    · rintro (h | h)
      · omega
      · exact h
    · exact .inr
  constructor
  · intro k id value later
    refine key _ ⟨rfl, rfl, rfl⟩ ?_ later
    simp only [Token.new, Item.mk']
    rw [if_pos ⟨trivial, by omega⟩]
  · intro id later
    refine key _ ⟨rfl, rfl, rfl⟩ ?_ later
    simp only [Grant.new, Item.mk']
    rw [if_pos ⟨trivial, by omega⟩]

/-- C74: the grant itself expires the configured time after the authorization. -/
theorem C74_grant_lifetime (gc : AuthzConfig) (ccfg : ClaimsCfg) (cdb : Cdb) (now e : Int) (client : Str) (g g' : Grant)
    (req : AuthReq) (h : (authzCall gc ccfg cdb now client g req).2 = .ok g') (hnow : 0 < now) (he : 0 ≤ e)
    (hc : gc.expiresIn = some e) (later : Int) (hl : now + e < later) : g'.isActive later = false := by
  have hx : g'.expiresAt = now + e := by
    unfold authzCall at h
    by_cases hi : gc.implicit = true
    · simp [hi, implicitCall, hc] at h
    simp only [hi, Bool.false_eq_true, if_false] at h
    by_cases hs : req.scope = []
    · simp [hs] at h
    · simp only [hs, if_false] at h
      cases ha : g.authReq with
      | none => simp [ha] at h
      | some ar =>
        simp only [ha, hc] at h
        split at h
        · cases h
        · cases h; rfl
  cases hb : g'.isActive later with
  | false => rfl
  | true =>
    have := ((C07_grant_active_iff g' later).1 hb).2.2.2 (by omega)
    omega

/-- C74, the whole provider: in every history, the answer to a code names the lifetime of the access token that is
stored, and that token is usable exactly that long.  Without a configured lifetime the token does not expire, but the answer
has the negative number `-now`. -/
theorem C74_code_response_lifetime (cfg : SysCfg) (hb : BlankFree cfg.env) (ops : List SysOp) (hf : FreshRun ops)
    (i : Nat) (req : TokReq) (resp : TokResp) (h : responseAt cfg ops i = some (req, resp))
    (hgt : req.grantType = some c!"authorization_code") :
    ∃ inp sid g g' tok, ops[i]? = some (.tokProcess inp req) ∧
      (sysRun cfg (ops.take i)).store sid = some (.grant g) ∧
      (sysRun cfg (ops.take (i + 1))).store sid = some (.grant g') ∧ tok ∈ g'.issuedToken ∧ tok.value = resp.accessToken ∧
      (0 < inp.now → 0 < lifetime g tAccessToken →
        resp.expiresIn = some (lifetime g tAccessToken) ∧
          ∀ later, ActiveAt tok.toItem none later ↔ later ≤ inp.now + lifetime g tAccessToken) ∧
      (lifetime g tAccessToken = 0 → resp.expiresIn = some (-inp.now) ∧ ∀ later, ActiveAt tok.toItem none later) := by
  obtain ⟨inp, ho, hp, hv⟩ := responseAt_some h
  have hi := sysRun_inv cfg ops hf hb i
  obtain ⟨hx, c, sid, g, ar, h1, h2, h3, h4, h5, h6⟩ := tokProcess_code hi.noEmpty hgt hv
  obtain ⟨k1, k2, k3⟩ := sessionByToken_key hi.noEmpty h2
  obtain ⟨t0, tok, rt, g', f1, f2, f3, f4, f5, f6, f7, f8, f9, f10, f11, f12, f13, f14, f15, _, f17, f18⟩ :=
    exchangeCode_val k3 h5
  obtain ⟨e1, e2, e3⟩ := mintAndStore_expiry f17
  have hv0 : findValue t0.value g.issuedToken = some t0 := by
    have := getToken_value f1
    rw [this.1]; exact f1
  have hstep : (sysRun cfg (ops.take (i + 1))).store sid = some (.grant g') := by
    obtain ⟨_, _, _, h4'⟩ := freshAt hf ho
    rw [h4', sysRun_snoc]
    simp only [sysStep, hp, if_true]
    rw [h6]
    exact f5
  refine ⟨inp, sid, g, g', tok, ho, k2, hstep, ?_, f13.symm, ?_, ?_⟩
  · rw [f6, updateFirst_append hv0]
    simp
  · intro hnow hpos
    rw [if_neg (by omega)] at e3
    rw [e3] at f18
    refine ⟨by rw [f18]; congr 1; omega, fun later => ?_⟩
    rw [fresh_active e1, e3]
    constructor
    · rintro (h | h)
      · omega
      · exact h
    · exact .inr
  · intro hz
    rw [if_pos hz] at e3
    rw [e3] at f18
    exact ⟨by rw [f18]; congr 1; omega, fun later => (fresh_active e1 later).2 (.inl e3)⟩

/-- C74 for refresh requests: the same, but nothing is reported for a token that does not expire. -/
theorem C74_refresh_response_lifetime (cfg : SysCfg) (hb : BlankFree cfg.env) (ops : List SysOp) (hf : FreshRun ops)
    (i : Nat) (req : TokReq) (resp : TokResp) (h : responseAt cfg ops i = some (req, resp))
    (hgt : req.grantType = some c!"refresh_token") :
    ∃ inp sid g g' tok, ops[i]? = some (.tokProcess inp req) ∧
      (sysRun cfg (ops.take i)).store sid = some (.grant g) ∧
      (sysRun cfg (ops.take (i + 1))).store sid = some (.grant g') ∧ tok ∈ g'.issuedToken ∧ tok.value = resp.accessToken ∧
      (0 < inp.now → 0 < lifetime g tAccessToken →
        resp.expiresIn = some (lifetime g tAccessToken) ∧
          ∀ later, ActiveAt tok.toItem none later ↔ later ≤ inp.now + lifetime g tAccessToken) ∧
      (lifetime g tAccessToken = 0 → resp.expiresIn = none ∧ ∀ later, ActiveAt tok.toItem none later) := by
  obtain ⟨inp, ho, hp, hv⟩ := responseAt_some h
  have hi := sysRun_inv cfg ops hf hb i
  obtain ⟨hx, v, sid, g, h1, h2, h5, h6⟩ := tokProcess_refresh hi.noEmpty hgt hv
  obtain ⟨k1, k2, k3⟩ := sessionByToken_key hi.noEmpty h2
  obtain ⟨t0, tok, rt, mints, f1, f2, f3, f4, f5, f6, f7, f8, f9, f10, f11, f12, f13, f14, f15, ⟨f17, f18⟩, g', r', f16, f19, _⟩ :=
    exchangeRefresh_val k3 h5
  obtain ⟨e1, e2, e3⟩ := mintAndStore_expiry f17
  have hstep : (sysRun cfg (ops.take (i + 1))).store sid = some (.grant g') := by
    obtain ⟨_, _, _, h4'⟩ := freshAt hf ho
    rw [h4', sysRun_snoc]
    simp only [sysStep, hp, if_true]
    rw [h6]
    exact f16
  refine ⟨inp, sid, g, g', tok, ho, k2, hstep, by rw [f19]; simp, f12.symm, ?_, ?_⟩
  · intro hnow hpos
    rw [if_neg (by omega)] at e3
    rw [e3, if_neg (by omega)] at f18
    refine ⟨by rw [f18]; congr 1; omega, fun later => ?_⟩
    rw [fresh_active e1, e3]
    constructor
    · rintro (h | h)
      · omega
      · exact h
    · exact .inr
  · intro hz
    rw [if_pos hz] at e3
    rw [e3, if_pos rfl] at f18
    exact ⟨f18, fun later => (fresh_active e1 later).2 (.inl e3)⟩

/-! Non-vacuity: in the demo the access tokens live 4 seconds, and that is what both answers say. -/
set_option maxRecDepth 4000 in
example : (List.range 7).map (fun i => (responseAt (demoCfg .aliased) demoOps i).map fun r => (r.1.grantType, r.2.expiresIn)) =
    [none, none, none, some (some c!"authorization_code", some 4), none, none, some (some c!"refresh_token", some 4)] := by
  decide

/-- The demo without lifetimes. -/
def timelessCfg : SysCfg :=
  ⟨.aliased, { demoEnv with gc := { usageRules := some [(tAuthorizationCode, {}), (tAccessToken, {}), (tRefreshToken, {})] } },
    demoHelpers⟩

/-- C74, the exception on a concrete history: a token that never expires is announced with `expires_in` −2. -/
theorem C74_negative_lifetime_announced : (responseAt timelessCfg demoOps 3).map (fun r => r.2.expiresIn) = some (some (-2)) := by
  set_option maxRecDepth 4000 in
  decide

example : (authzCall demoEnv.gc demoEnv.ccfg demoDb 1 c!"c1" { (Grant.new 1 c!"g1" {}) with authReq := some (demoReq [c!"code"]) }
    (demoReq [c!"code"])).2.toOption.map (fun g => (g.isActive 1001, g.isActive 1002)) = some (true, false) := by decide

end Verif
