import Verif.Lemmas.TokenSuccess
import Verif.Props.Demo
set_option linter.unusedSimpArgs false
set_option linter.unusedVariables false
/-! The token endpoint in arbitrary histories of the whole provider: C27, C28, C33. -/
namespace Verif
open Spec

/-- What a response at position `i` means. -/
theorem responseAt_some {cfg : SysCfg} {ops : List SysOp} {i : Nat} {req : TokReq} {resp : TokResp}
    (h : responseAt cfg ops i = some (req, resp)) :
    ∃ inp, ops[i]? = some (.tokProcess inp req) ∧ req ∈ (sysRun cfg (ops.take i)).pending ∧
      (tokProcess cfg.mode cfg.env cfg.helpers (sysRun cfg (ops.take i)).store inp req).2 = .val resp := by
  unfold responseAt at h
  cases ho : ops[i]? with
  | none => simp [ho] at h
  | some op =>
    simp only [ho] at h
    cases op with
    | tokProcess inp r =>
      simp only [sysResponse] at h
      by_cases hp : r ∈ (sysRun cfg (ops.take i)).pending
      · simp only [hp, if_true] at h
        cases hx : (tokProcess cfg.mode cfg.env cfg.helpers (sysRun cfg (ops.take i)).store inp r).2 with
        | val x =>
          simp only [hx] at h
          cases h
          exact ⟨inp, rfl, hp, hx⟩
        | errMsg e => simp [hx] at h
        | raise e => simp [hx] at h
      · simp [hp] at h
    | _ => simp [sysResponse] at h

theorem sessionByToken_getGrant {th : TokenHandler} {cr : TokenCrypto} {s : Store} {now : Int} {v sid : Str} {g : Grant}
    (h : sessionByToken th cr s now v = .ok (sid, .grant g)) : getGrant s sid = .ok g := by
  unfold sessionByToken at h
  cases h1 : th.sid cr now v with
  | error e => simp [h1] at h
  | ok sid' =>
    simp only [h1] at h
    cases hu : unpack3 sid' with
    | error e => simp [hu] at h
    | ok t =>
      obtain ⟨u, c, gi⟩ := t
      simp only [hu] at h
      cases hd : dbGet s [u, c, gi] with
      | error e => simp [hd] at h
      | ok o' =>
        simp only [hd] at h
        cases h
        simp [getGrant, hu, hd]

/-- All facts about one successful response for a code in a history. -/
theorem code_response {cfg : SysCfg} (hb : BlankFree cfg.env) {ops : List SysOp} (hf : FreshRun ops) {i : Nat}
    {req : TokReq} {resp : TokResp} (h : responseAt cfg ops i = some (req, resp))
    (hgt : req.grantType = some c!"authorization_code") :
    ∃ inp c sid g t ar g', ops[i]? = some (.tokProcess inp req) ∧ req.code = some c ∧
      sessionByToken cfg.env.th cfg.env.cr (sysRun cfg (ops.take i)).store inp.now c = .ok (sid, .grant g) ∧
      (sysRun cfg (ops.take i)).store sid = some (.grant g) ∧ GInv cfg.env sid g ∧
      UsedKey ((ops.take i).flatMap newGid) sid ∧
      g.getToken c = some t ∧ t.kind = .authorizationCode ∧ t.isActive inp.now = true ∧ g.isActive inp.now = true ∧
      g.authReq = some ar ∧ redirectCheck ar req = .val () ∧ resp.scope = g.scope ∧
      (sysRun cfg (ops.take (i + 1))).store sid = some (.grant g') ∧
      g'.getToken c = some t.registerUsage ∧
      ∃ tok rt, g'.issuedToken = updateFirst t.value Token.registerUsage (g.issuedToken ++ tok :: rt.toList) ∧
        tok.basedOn = some c ∧ tok.kind = .accessToken ∧ resp.accessToken = tok.value ∧
        (∀ r, rt = some r → r.basedOn = some c ∧ r.kind = .refreshToken) ∧
        resp.refreshToken = rt.map Token.value ∧ (rt.isSome = decide (c!"offline_access" ∈ g.scope)) := by
  obtain ⟨inp, ho, hp, hv⟩ := responseAt_some h
  have hi := sysRun_inv cfg ops hf hb i
  obtain ⟨hx, c, sid, g, ar, h1, h2, h3, h4, h5, h6⟩ := tokProcess_code hi.noEmpty hgt hv
  obtain ⟨c', e1, e2, e3⟩ := (hi.pending req hp _ hgt).1 hx
  rw [h1] at e1
  cases e1
  rw [e2] at h2 h5 h6
  obtain ⟨k1, k2, k3⟩ := sessionByToken_key hi.noEmpty h2
  obtain ⟨t, e4, e5⟩ := (e3 _ _ k1).2 g k2
  rw [e4] at h5 h6
  obtain ⟨t0, tok, rt, g', f1, f2, f3, f4, f5, f6, f7, f8, f9, f10, f11, f12, f13, f14, f15, _⟩ := exchangeCode_val k3 h5
  cases f1
  obtain ⟨ev, em⟩ := getToken_value e4
  have hgi := (hi.grants _ _ k2).2
  have hmap := hgi.tokenMap
  refine ⟨inp, c, sid, g, t, ar, g', ho, h1, h2, k2, hgi, (hi.grants _ _ k2).1, e4, e5, f3, f2, h3, h4, f15, ?_, ?_,
    tok, rt, f6, by rw [f7, ev], ?_, f13, ?_, f14, f12⟩
  · obtain ⟨_, _, _, h4'⟩ := freshAt hf ho
    rw [h4', sysRun_snoc]
    simp only [sysStep, hp, if_true]
    rw [h6]
    exact f5
  · unfold Grant.getToken
    rw [f6, ← ev, findValue_updateFirst (f := Token.registerUsage) (fun _ => rfl)]
    have : findValue t.value (g.issuedToken ++ tok :: rt.toList) = some t := by
      rw [ev]; exact findValue_append_left e4
    rw [this]
    rfl
  · rw [hmap] at f10
    simp [defaultTokenMap, Dict.get?, tAccessToken, tAuthorizationCode] at f10
    exact f10.symm
  · intro r hr
    obtain ⟨d1, d2, d3, d4, _⟩ := f11 r hr
    rw [hmap] at d4
    simp [defaultTokenMap, Dict.get?, tAccessToken, tAuthorizationCode, tRefreshToken] at d4
    exact ⟨by rw [d1, ev], d4.symm⟩

/-- C27: two token responses for the same code are the same response, whatever happens between parsing and processing, and
whatever else the provider does in between. -/
theorem C27_code_redeemed_once (cfg : SysCfg) (hb : BlankFree cfg.env) (ops : List SysOp) (hf : FreshRun ops)
    (i j : Nat) (r1 r2 : TokReq) (resp1 resp2 : TokResp) (c : Str)
    (h1 : responseAt cfg ops i = some (r1, resp1)) (h2 : responseAt cfg ops j = some (r2, resp2))
    (g1 : r1.grantType = some c!"authorization_code") (g2 : r2.grantType = some c!"authorization_code")
    (c1 : r1.code = some c) (c2 : r2.code = some c) : i = j := by
  have key : ∀ (i j : Nat) (r1 r2 : TokReq) (resp1 resp2 : TokResp), i < j →
      responseAt cfg ops i = some (r1, resp1) → responseAt cfg ops j = some (r2, resp2) →
      r1.grantType = some c!"authorization_code" → r2.grantType = some c!"authorization_code" →
      r1.code = some c → r2.code = some c → False := by
    intro i j r1 r2 resp1 resp2 hij h1 h2 g1 g2 c1 c2
    obtain ⟨inp1, d1, sid1, ga, ta, ar1, ga', _, a1, a2, a3, a4, a5, a6, a7, a8, a9, a10, a11, a12, a13, a14, _⟩ :=
      code_response hb hf h1 g1
    obtain ⟨inp2, d2, sid2, gb, tb, ar2, gb', _, b1, b2, b3, b4, b5, b6, b7, b8, b9, b10, b11, b12, b13, b14, _⟩ :=
      code_response hb hf h2 g2
    rw [c1] at a1
    cases a1
    rw [c2] at b1
    cases b1
    have hs : sid1 = sid2 := by
      have hi := sysRun_inv cfg ops hf hb i
      have hj := sysRun_inv cfg ops hf hb j
      exact sid_det (sessionByToken_key hi.noEmpty a2).1 (sessionByToken_key hj.noEmpty b2).1
    subst hs
    have hh : Holds ((ops.take (i + 1)).flatMap newGid) (sysRun cfg (ops.take (i + 1))).store sid1 c
        (fun t => t.kind = .authorizationCode ∧ 1 ≤ t.used) := by
      refine ⟨?_, ?_⟩
      · obtain ⟨u, cc, gid, hg, hk⟩ := a5
        refine ⟨u, cc, gid, ?_, hk⟩
        rw [List.mem_flatMap] at hg ⊢
        obtain ⟨o, ho, hgo⟩ := hg
        exact ⟨o, by rw [List.take_add_one]; exact List.mem_append_left _ ho, hgo⟩
      · intro g hg
        rw [a13] at hg
        cases hg
        exact ⟨_, a14, a7, by simp [Token.registerUsage]⟩
    have hl := holds_later hf hb (fun t t' hp ht => ⟨hp.kind.trans ht.1, Nat.le_trans ht.2 hp.used⟩) hh j (by omega)
    obtain ⟨t', ht', hk', hu'⟩ := hl.2 gb b3
    rw [b6] at ht'
    cases ht'
    have hm := b4.codes tb (getToken_value b6).2 hk'
    have : tb.isActive inp2.now = false := by
      unfold Token.isActive Item.isActive
      have : tb.toItem.maxUsageReached tb.usageRules.maxUsage = true := by
        simp only [Item.maxUsageReached, hm, decide_eq_true_eq]
        omega
      simp [this]
    rw [this] at b8
    cases b8
  rcases Nat.lt_trichotomy i j with h | h | h
  · exact (key i j r1 r2 resp1 resp2 h h1 h2 g1 g2 c1 c2).elim
  · exact h
  · exact (key j i r2 r1 resp2 resp1 h h2 h1 g2 g1 c2 c1).elim

/-! ### C28 -/

/-- C28: a token response for a code is only produced if the string was made by the provider's code handler for a session
whose grant is stored and active, the code is among the grant's tokens and active, and the redirect URI is the one of the
authorization request (if that had one). -/
theorem C28_code_under_its_own_terms (cfg : SysCfg) (hb : BlankFree cfg.env) (ops : List SysOp) (hf : FreshRun ops)
    (i : Nat) (req : TokReq) (resp : TokResp) (h : responseAt cfg ops i = some (req, resp))
    (hgt : req.grantType = some c!"authorization_code") :
    ∃ inp c sid g t ar, ops[i]? = some (.tokProcess inp req) ∧ req.code = some c ∧
      (∃ hd now rnd nonce ttype, cfg.env.th.code = some hd ∧ c = handlerCall cfg.env.cr hd now rnd nonce sid ttype) ∧
      getGrant (sysRun cfg (ops.take i)).store sid = .ok g ∧ g.isActive inp.now = true ∧
      t ∈ g.issuedToken ∧ t.value = c ∧ t.kind = .authorizationCode ∧ t.isActive inp.now = true ∧
      g.authReq = some ar ∧ (ar.redirectUri = none ∨ req.redirectUri = ar.redirectUri) := by
  obtain ⟨inp, c, sid, g, t, ar, g', b0, b1, b2, b3, b4, b5, b6, b7, b8, b9, b10, b11, _⟩ := code_response hb hf h hgt
  obtain ⟨e1, e2⟩ := getToken_value b6
  refine ⟨inp, c, sid, g, t, ar, b0, b1, ?_, sessionByToken_getGrant b2, b9, e2, e1, b7, b8, b10, ?_⟩
  · obtain ⟨_, ⟨hd, f1, now, rnd, nonce, ttype, f2⟩, f3⟩ := b4.tokens t e2
    have ht : t.typ = tAuthorizationCode := by
      rw [b7] at f3
      simp only [defaultTokenMap, Dict.get?] at f3
      split at f3
      · rename_i hh; exact hh.symm
      · split at f3
        · cases f3
        · split at f3 <;> cases f3
    rw [ht] at f1
    simp only [if_true] at f1
    exact ⟨hd, now, rnd, nonce, ttype, f1, by rw [← e1]; exact f2⟩
  · unfold redirectCheck at b11
    cases hr : ar.redirectUri with
    | none => exact Or.inl rfl
    | some u =>
      right
      simp only [hr] at b11
      cases hq : req.redirectUri with
      | none => simp [hq] at b11
      | some r =>
        simp only [hq] at b11
        by_cases he : r = u
        · rw [he]
        · simp [he] at b11

/-! ### C33 -/

/-- All facts about one successful response for a refresh token in a history. -/
theorem refresh_response {cfg : SysCfg} (hb : BlankFree cfg.env) {ops : List SysOp} (hf : FreshRun ops) {i : Nat}
    {req : TokReq} {resp : TokResp} (h : responseAt cfg ops i = some (req, resp))
    (hgt : req.grantType = some c!"refresh_token") :
    ∃ inp v sid g t g', ops[i]? = some (.tokProcess inp req) ∧ req.refreshToken = some v ∧
      sessionByToken cfg.env.th cfg.env.cr (sysRun cfg (ops.take i)).store inp.now v = .ok (sid, .grant g) ∧
      (sysRun cfg (ops.take i)).store sid = some (.grant g) ∧ GInv cfg.env sid g ∧
      g.getToken v = some t ∧ t.kind = .refreshToken ∧ t.isActive inp.now = true ∧ g.isActive inp.now = true ∧
      t.supportsMinting tAccessToken = true ∧ resp.scope = g.scope ∧
      (sysRun cfg (ops.take (i + 1))).store sid = some (.grant g') ∧
      ∃ tok r', g'.issuedToken = g.issuedToken ++ tok :: r' ∧ tok.basedOn = some v ∧ tok.kind = .accessToken ∧
        resp.accessToken = tok.value ∧ (r'.map Token.value = resp.refreshToken.toList) ∧
        (∀ r ∈ r', r.basedOn = some v ∧ r.kind = .refreshToken) := by
  obtain ⟨inp, ho, hp, hv⟩ := responseAt_some h
  have hi := sysRun_inv cfg ops hf hb i
  obtain ⟨hx, v, sid, g, h1, h2, h5, h6⟩ := tokProcess_refresh hi.noEmpty hgt hv
  obtain ⟨v', e1, e3⟩ := (hi.pending req hp _ hgt).2 hx
  rw [h1] at e1
  cases e1
  obtain ⟨k1, k2, k3⟩ := sessionByToken_key hi.noEmpty h2
  obtain ⟨t, e4, e5⟩ := (e3 _ _ k1).2 g k2
  rw [e4] at h5 h6
  obtain ⟨t0, tok, rt, mints, f1, f2, f3, f4, f5, f6, f7, f8, f9, f10, f11, f12, f13, f14, f15, _, g', r', f16, f17, f18, f19, f20⟩ :=
    exchangeRefresh_val k3 h5
  cases f1
  obtain ⟨ev, em⟩ := getToken_value e4
  have hgi := (hi.grants _ _ k2).2
  have hmap := hgi.tokenMap
  refine ⟨inp, v, sid, g, t, g', ho, h1, h2, k2, hgi, e4, e5, f3, f2, f4, f14, ?_, tok, r', f17, by rw [f7, ev], ?_, f12, ?_, ?_⟩
  · obtain ⟨_, _, _, h4'⟩ := freshAt hf ho
    rw [h4', sysRun_snoc]
    simp only [sysStep, hp, if_true]
    rw [h6]
    exact f16
  · rw [hmap] at f10
    simp [defaultTokenMap, Dict.get?, tAccessToken, tAuthorizationCode] at f10
    exact f10.symm
  · rw [f18, f13]
  · intro r hr
    cases rt with
    | none =>
      simp at f18
      rw [f18] at hr
      cases hr
    | some r0 =>
      obtain ⟨d1, d2, d3, d4⟩ := f11 r0 rfl
      rw [hmap] at d4
      simp [defaultTokenMap, Dict.get?, tAccessToken, tAuthorizationCode, tRefreshToken] at d4
      simp only [Option.map_some, Option.toList_some] at f19 f20
      have e1 : r.basedOn ∈ r'.map Token.basedOn := List.mem_map_of_mem hr
      have e2 : r.kind ∈ r'.map Token.kind := List.mem_map_of_mem hr
      rw [f19, List.mem_singleton] at e1
      rw [f20, List.mem_singleton] at e2
      exact ⟨by rw [e1, d1, ev], by rw [e2]; exact d4.symm⟩

/-- The grant type of every response is one of the two. -/
theorem response_grantType {cfg : SysCfg} {ops : List SysOp} {i : Nat} {req : TokReq} {resp : TokResp}
    (h : responseAt cfg ops i = some (req, resp)) :
    req.grantType = some c!"authorization_code" ∨ req.grantType = some c!"refresh_token" := by
  obtain ⟨inp, ho, hp, hv⟩ := responseAt_some h
  unfold tokProcess at hv
  simp only at hv
  cases h1 : (helperProcess cfg.mode cfg.env cfg.helpers (sysRun cfg (ops.take i)).store inp req).2 with
  | raise e => simp [h1] at hv
  | errMsg e => simp [h1] at hv
  | val r =>
    unfold helperProcess at h1
    cases hgt : req.grantType with
    | none => simp [hgt] at h1
    | some gt =>
      simp only [hgt] at h1
      cases hx : cfg.helpers.get? gt with
      | none => simp [hx] at h1
      | some hc =>
        cases hc with
        | bare c => simp [hx] at h1
        | inst c =>
          cases c with
          | accessToken =>
            simp only [hx, codeProcess] at h1
            by_cases he : gt = c!"authorization_code"
            · exact Or.inl (by rw [he])
            · simp [hgt, he] at h1
          | refreshToken =>
            simp only [hx, refreshProcess] at h1
            by_cases he : gt = c!"refresh_token"
            · exact Or.inr (by rw [he])
            · simp [hgt, he] at h1

/-- C33: every token response names the scope of the authorization request of the session it belongs to (under the default
policy: the scope of the stored grant, see C75), however many refreshes came before; and that is also what is recorded with every token of every session (tokens have no scope of their
own, so that introspection reports the grant's scope). -/
theorem C33_scope_never_grows (cfg : SysCfg) (hb : BlankFree cfg.env) (ops : List SysOp) (hf : FreshRun ops)
    (i : Nat) (req : TokReq) (resp : TokResp) (h : responseAt cfg ops i = some (req, resp)) :
    ∃ inp v sid g ar t, ops[i]? = some (.tokProcess inp req) ∧
      ((req.grantType = some c!"authorization_code" ∧ req.code = some v) ∨
       (req.grantType = some c!"refresh_token" ∧ req.refreshToken = some v)) ∧
      cfg.env.th.sid cfg.env.cr inp.now v = .ok sid ∧ getGrant (sysRun cfg (ops.take i)).store sid = .ok g ∧
      t ∈ g.issuedToken ∧ t.value = v ∧
      g.authReq = some ar ∧ resp.scope = g.scope ∧ (cfg.env.gc.implicit = false → resp.scope = ar.scope) := by
  have hi := sysRun_inv cfg ops hf hb i
  rcases response_grantType h with hgt | hgt
  · obtain ⟨inp, c, sid, g, t, ar, g', b0, b1, b2, b3, b4, b5, b6, b7, b8, b9, b10, b11, b12, _⟩ := code_response hb hf h hgt
    obtain ⟨e1, e2⟩ := getToken_value b6
    obtain ⟨ar', s1, s2⟩ := b4.scope (getToken_nonempty b6)
    exact ⟨inp, c, sid, g, ar', t, b0, Or.inl ⟨hgt, b1⟩, (sessionByToken_key hi.noEmpty b2).1, sessionByToken_getGrant b2, e2, e1,
      s1, b12, fun hx => by rw [b12, (s2 hx).1]⟩
  · obtain ⟨inp, v, sid, g, t, g', b0, b1, b2, b3, b4, b6, b7, b8, b9, b10, b11, _⟩ := refresh_response hb hf h hgt
    obtain ⟨e1, e2⟩ := getToken_value b6
    obtain ⟨ar', s1, s2⟩ := b4.scope (getToken_nonempty b6)
    exact ⟨inp, v, sid, g, ar', t, b0, Or.inr ⟨hgt, b1⟩, (sessionByToken_key hi.noEmpty b2).1, sessionByToken_getGrant b2, e2, e1,
      s1, b11, fun hx => by rw [b11, (s2 hx).1]⟩

/-- C33, the stored side: at every moment every token of every stored grant has an empty scope of its own, and a grant with
tokens has the scope of its authorization request (unless the default policy is used: C75). -/
theorem C33_stored_scopes (cfg : SysCfg) (hb : BlankFree cfg.env) (ops : List SysOp) (hf : FreshRun ops) (i : Nat)
    (sid : Str) (g : Grant) (hg : getGrant (sysRun cfg (ops.take i)).store sid = .ok g) :
    (∀ t ∈ g.issuedToken, t.scope = []) ∧ (cfg.env.gc.implicit = false → g.issuedToken ≠ [] → ∃ ar, g.authReq = some ar ∧ g.scope = ar.scope) := by
  have hi := sysRun_inv cfg ops hf hb i
  obtain ⟨hk, _⟩ := getGrant_key hi.noEmpty hg
  have hgi := (hi.grants _ _ hk).2
  exact ⟨fun t ht => (hgi.tokens t ht).1, fun hx hne => (hgi.scope hne).imp fun ar h => ⟨h.1, (h.2 hx).1⟩⟩

/-! ### A concrete history -/

theorem demoEnv_blankFree : BlankFree demoEnv := by
  intro h hh now rnd nonce sid ttype
  unfold handlerCall
  cases h.cls with
  | default => simp only [cryptEncrypt]; exact esc_blank _
  | jwt => exact esc_blank _

def demoHelpers : Dict Helper := (configureGrantTypes none).getD []
def demoCfg (m : Mode) : SysCfg := ⟨m, demoEnv, demoHelpers⟩
def tokIn (now : Int) (a b : Str) : TokIn := ⟨now, mintIn a, mintIn b, .val c!"IDT"⟩

/-- The code of the demo: made by the code handler. -/
def demoCode : Str := handlerCall demoCrypto ⟨.jwt, c!"A", 5, c!"k1"⟩ 1 [] c!"n1" c!"diana;;c1;;g1" []
def demoRt (now : Int) (n : Str) : Str := handlerCall demoCrypto ⟨.jwt, c!"T", 5, c!"k2"⟩ now [] n c!"diana;;c1;;g1" []
def demoTokReq : TokReq := { grantType := some c!"authorization_code", code := some demoCode,
                             redirectUri := some c!"https://rp/cb", clientId := some c!"c1" }
def demoRefReq : TokReq := { grantType := some c!"refresh_token", refreshToken := some (demoRt 2 c!"n4"),
                             clientId := some c!"c1" }

/-- Login, two token requests for the code, parsed before either is processed; then a refresh. -/
def demoOps : List SysOp :=
  [ .authorize demoDb 1 c!"g1" (mintIn c!"n1") (mintIn c!"n2") (.val c!"IDT") { ident := .plain c!"diana" } (demoReq [c!"code"]),
    .tokParse 2 demoTokReq, .tokParse 2 { demoTokReq with clientId := none },
    .tokProcess (tokIn 2 c!"n3" c!"n4") demoTokReq,
    .tokProcess (tokIn 2 c!"n5" c!"n6") demoTokReq,
    .tokParse 3 demoRefReq,
    .tokProcess (tokIn 3 c!"n7" c!"n8") demoRefReq ]

theorem demoOps_fresh : FreshRun demoOps := by
  refine ⟨by decide, by decide, ?_⟩
  intro op hop
  simp only [demoOps, List.mem_cons, List.not_mem_nil, or_false] at hop
  rcases hop with rfl | rfl | rfl | rfl | rfl | rfl | rfl <;> trivial

set_option maxRecDepth 4000 in
example : (List.range 7).map (fun i => ((responseAt (demoCfg .aliased) demoOps i).map fun r =>
    (r.2.refreshToken.isSome, r.2.idToken.isSome, r.2.scope))) =
  [none, none, none, some (true, true, [c!"openid", c!"offline_access"]), none, none,
   some (true, false, [c!"openid", c!"offline_access"])] := by decide

end Verif
