import Verif.Props.TokenHistory
import Verif.Props.AuthzParse
set_option linter.unusedSimpArgs false
set_option linter.unusedVariables false
/-! The token endpoint: client binding (C29), PKCE (C30, C31), refresh tokens (C32), configuration (C55), revoked grants
(C20). -/
namespace Verif
open Spec

/-! ### C29 -/

theorem redirectCheck_client (ar : AuthReq) (req : TokReq) (x : Option Str) :
    redirectCheck ar { req with clientId := x } = redirectCheck ar req := rfl

/-- C29: processing a token request does not depend on the client it names. -/
theorem C29_processing_ignores_client (m : Mode) (env : Env) (helpers : Dict Helper) (s : Store) (i : TokIn) (req : TokReq)
    (x : Option Str) : tokProcess m env helpers s i { req with clientId := x } = tokProcess m env helpers s i req := by
  have h : helperProcess m env helpers s i { req with clientId := x } = helperProcess m env helpers s i req := by
    unfold helperProcess codeProcess refreshProcess
    simp only [redirectCheck_client]
  unfold tokProcess
  rw [h]

/-- C29: neither does parsing: a request that is accepted in the name of one client is accepted in the name of any. -/
theorem C29_parsing_ignores_client (env : Env) (helpers : Dict Helper) (s : Store) (now : Int) (req r : TokReq) (a b : Str)
    (ha : req.clientId = some a) (h : tokParse env helpers s now req = .val r) :
    r = req ∧ tokParse env helpers s now { req with clientId := some b } = .val { req with clientId := some b } := by
  have key : helperParse env helpers s now req = .val req →
      helperParse env helpers s now { req with clientId := some b } = .val { req with clientId := some b } := by
    intro hh
    unfold helperParse at hh ⊢
    cases hgt : req.grantType with
    | none => simp [hgt] at hh
    | some gt =>
      simp only [hgt] at hh ⊢
      cases hx : helpers.get? gt with
      | none => simp [hx] at hh
      | some hc =>
        cases hc with
        | bare c => simp [hx] at hh
        | inst c =>
          cases c with
          | accessToken =>
            simp only [hx] at hh ⊢
            obtain ⟨c, sid, g, t, h1, h2, h3, _, _, h4, h5, h6, h7⟩ := codeParse_val hh
            simp [codeParse, h1, h4, h5, h6, h7]
          | refreshToken =>
            simp only [hx] at hh ⊢
            obtain ⟨_, v, sid, g, t, h2, h4, h5, h6, h7⟩ := refreshParse_val hh
            simp [refreshParse, h2, h4, h5, h6, h7]
  have same : ∀ r0, helperParse env helpers s now req = .val r0 → r0 = req := by
    intro r0 hh
    unfold helperParse at hh
    cases hgt : req.grantType with
    | none => simp [hgt] at hh
    | some gt =>
      simp only [hgt] at hh
      cases hx : helpers.get? gt with
      | none => simp [hx] at hh
      | some hc =>
        cases hc with
        | bare c => simp [hx] at hh
        | inst c =>
          cases c with
          | accessToken =>
            simp only [hx] at hh
            obtain ⟨c, sid, g, t, h1, h2, h3, _, _, h4, h5, h6, h7⟩ := codeParse_val hh
            simp only [codeParse, h1, h4, h5, h6, h7, ha, ne_eq, not_true_eq_false, if_false, Bool.true_eq_false] at hh
            exact (Out.val.inj hh).symm
          | refreshToken =>
            simp only [hx] at hh
            exact (refreshParse_val hh).1
  unfold tokParse at h ⊢
  cases hh : helperParse env helpers s now req with
  | errMsg e => simp [hh] at h
  | raise e => simp [hh] at h
  | val r0 =>
    have := same r0 hh
    subst this
    rw [key hh]
    simp only [hh] at h
    cases hp : env.pkce with
    | none => simp only [hp] at h ⊢; exact ⟨(Out.val.inj h).symm, trivial⟩
    | some p =>
      simp only [hp] at h ⊢
      refine ⟨pkceTokenParse_val h, ?_⟩
      unfold pkceTokenParse at h ⊢
      cases hc : r0.code with
      | none => simp [hc] at h
      | some c =>
        simp only [hc] at h ⊢
        cases hs : sessionByToken env.th env.cr s now c with
        | error e => simp only [hs] at h; split at h <;> cases h
        | ok x =>
          obtain ⟨sid, o⟩ := x
          cases o with
          | info _ => simp [hs] at h
          | grant g =>
            simp only [hs] at h ⊢
            cases har : g.authReq with
            | none => simp [har] at h
            | some ar =>
              simp only [har] at h ⊢
              cases hch : ar.codeChallenge with
              | none => simp [hch] at h ⊢
              | some ch =>
                simp only [hch] at h ⊢
                cases hv : r0.codeVerifier with
                | none => simp [hv] at h
                | some v =>
                  simp only [hv] at h ⊢
                  cases hm : ar.codeChallengeMethod with
                  | none => simp [hm] at h
                  | some m =>
                    simp only [hm] at h ⊢
                    cases hx : verifyChallenge p.methods v ch m with
                    | error e => simp [hx] at h
                    | ok b =>
                      cases b with
                      | false => simp [hx] at h
                      | true => rfl

/-- What holds (C29, partial): the tokens obtained with a code belong to the session the code belongs to, so to the client
the code was issued to, whoever asked. -/
theorem C29_tokens_stay_in_session_partial (cfg : SysCfg) (hb : BlankFree cfg.env) (ops : List SysOp) (hf : FreshRun ops)
    (i : Nat) (req : TokReq) (resp : TokResp) (h : responseAt cfg ops i = some (req, resp))
    (hgt : req.grantType = some c!"authorization_code") :
    ∃ inp c sid g', ops[i]? = some (.tokProcess inp req) ∧ req.code = some c ∧
      cfg.env.th.sid cfg.env.cr inp.now c = .ok sid ∧
      (sysRun cfg (ops.take (i + 1))).store sid = some (.grant g') ∧
      (∃ t ∈ g'.issuedToken, t.value = resp.accessToken) ∧
      (∀ v, resp.refreshToken = some v → ∃ t ∈ g'.issuedToken, t.value = v) := by
  obtain ⟨inp, c, sid, g, t, ar, g', b0, b1, b2, b3, b4, b5, b6, b7, b8, b9, b10, b11, b12, b13, b14, tok, rt, d1, d2, d3, d4, d5, d6, d7⟩ :=
    code_response hb hf h hgt
  have hi := sysRun_inv cfg ops hf hb i
  have hi' := sysRun_inv cfg ops hf hb (i + 1)
  obtain ⟨k1, k2, k3⟩ := sessionByToken_key hi.noEmpty b2
  refine ⟨inp, c, sid, g', b0, b1, k1, b13, ?_, ?_⟩
  · have hm : tok ∈ g.issuedToken ++ tok :: rt.toList := by simp
    obtain ⟨n, hn⟩ := List.getElem?_of_mem hm
    obtain ⟨t', h1, h2⟩ := (Evolves.updateFirst t.value Token.registerUsage (fun _ => ⟨rfl, rfl, rfl, rfl, id, Nat.le_succ _, fun _ => rfl, rfl⟩) _).2 n tok hn
    rw [← d1] at h1
    exact ⟨t', List.mem_of_getElem? h1, by rw [h2.value, d4]⟩
  · intro v hv
    rw [d6] at hv
    cases hr : rt with
    | none => simp [hr] at hv
    | some r =>
      simp [hr] at hv
      have hm : r ∈ g.issuedToken ++ tok :: rt.toList := by simp [hr]
      obtain ⟨n, hn⟩ := List.getElem?_of_mem hm
      obtain ⟨t', h1, h2⟩ := (Evolves.updateFirst t.value Token.registerUsage (fun _ => ⟨rfl, rfl, rfl, rfl, id, Nat.le_succ _, fun _ => rfl, rfl⟩) _).2 n r hn
      rw [← d1] at h1
      exact ⟨t', List.mem_of_getElem? h1, by rw [h2.value, hv]⟩

/-- The demo request, naming the other client. -/
def otherClientOps : List SysOp :=
  [ .authorize demoDb 1 c!"g1" (mintIn c!"n1") (mintIn c!"n2") (.val c!"IDT") { ident := .plain c!"diana" } (demoReq [c!"code"]),
    .tokParse 2 { demoTokReq with clientId := some c!"c2" },
    .tokProcess (tokIn 2 c!"n3" c!"n4") { demoTokReq with clientId := some c!"c2" } ]

set_option maxRecDepth 4000 in
/-- C29 is false of the code: a code issued to client `c1` is redeemed by client `c2`. -/
theorem C29_code_redeemed_by_other_client (m : Mode) :
    FreshRun otherClientOps ∧
    (∃ g, getGrant (sysRun (demoCfg m) (otherClientOps.take 2)).store c!"diana;;c1;;g1" = .ok g ∧
      g.authReq.map AuthReq.clientId = some c!"c1" ∧ g.issuedToken.map Token.value = [demoCode]) ∧
    ∃ req resp, responseAt (demoCfg m) otherClientOps 2 = some (req, resp) ∧ req.code = some demoCode ∧
      req.clientId = some c!"c2" := by
  refine ⟨⟨by decide, by decide, ?_⟩, ?_, ?_⟩
  · intro op hop
    simp only [otherClientOps, List.mem_cons, List.not_mem_nil, or_false] at hop
    rcases hop with rfl | rfl | rfl <;> trivial
  · cases h : getGrant (sysRun (demoCfg m) (otherClientOps.take 2)).store c!"diana;;c1;;g1" with
    | error e =>
      have : ((getGrant (sysRun (demoCfg m) (otherClientOps.take 2)).store c!"diana;;c1;;g1").toOption.isSome) = true := by
        cases m <;> decide
      rw [h] at this
      cases this
    | ok g =>
      have : (getGrant (sysRun (demoCfg m) (otherClientOps.take 2)).store c!"diana;;c1;;g1").toOption.map
          (fun g => (g.authReq.map AuthReq.clientId, g.issuedToken.map Token.value)) = some (some c!"c1", [demoCode]) := by
        cases m <;> decide
      rw [h] at this
      simp only [Except.toOption, Option.map_some, Option.some.injEq, Prod.mk.injEq] at this
      exact ⟨g, rfl, this.1, this.2⟩
  · cases h : responseAt (demoCfg m) otherClientOps 2 with
    | none =>
      have : (responseAt (demoCfg m) otherClientOps 2).isSome = true := by cases m <;> decide
      rw [h] at this
      cases this
    | some x =>
      obtain ⟨inp, h1, _⟩ := responseAt_some (req := x.1) (resp := x.2) h
      refine ⟨x.1, x.2, rfl, ?_⟩
      simp only [otherClientOps, List.getElem?_cons_succ, List.getElem?_cons_zero, Option.some.injEq, SysOp.tokProcess.injEq] at h1
      rw [← h1.2]
      exact ⟨rfl, rfl⟩

/-! ### C30 -/

/-- What a passed PKCE check says. -/
theorem pkceTokenParse_checks {p : Pkce} {env : Env} {s : Store} {now : Int} {req r : TokReq} {c sid : Str} {g : Grant}
    {ar : AuthReq} (h : pkceTokenParse p env s now req = .val r) (hc : req.code = some c)
    (hs : sessionByToken env.th env.cr s now c = .ok (sid, .grant g)) (har : g.authReq = some ar) {ch : Str}
    (hch : ar.codeChallenge = some ch) :
    ∃ v m f, req.codeVerifier = some v ∧ ar.codeChallengeMethod = some m ∧ p.methods.get? m = some f ∧ f v = .ok ch := by
  unfold pkceTokenParse at h
  simp only [hc, hs, har, hch] at h
  cases hv : req.codeVerifier with
  | none => simp [hv] at h
  | some v =>
    simp only [hv] at h
    cases hm : ar.codeChallengeMethod with
    | none => simp [hm] at h
    | some m =>
      simp only [hm] at h
      refine ⟨v, m, ?_⟩
      unfold verifyChallenge at h
      cases hf : p.methods.get? m with
      | none => simp [hf] at h
      | some f =>
        simp only [hf] at h
        cases hfv : f v with
        | error e => simp [hfv] at h
        | ok x =>
          simp only [hfv] at h
          by_cases hx : x = ch
          · exact ⟨f, rfl, rfl, rfl, by rw [hfv, hx]⟩
          · simp [hx] at h

/-- C30: with PKCE configured, a token response for a code whose authorization request had a challenge is only given if the
request has a verifier whose transform under the recorded method, one of the configured ones, is the challenge. -/
theorem C30_code_needs_verifier (cfg : SysCfg) (hb : BlankFree cfg.env) (ops : List SysOp) (hf : FreshRun ops) (p : Pkce)
    (hp : cfg.env.pkce = some p) (i : Nat) (req : TokReq) (resp : TokResp) (h : responseAt cfg ops i = some (req, resp))
    (hgt : req.grantType = some c!"authorization_code") :
    ∃ inp c sid g ar, ops[i]? = some (.tokProcess inp req) ∧ req.code = some c ∧
      cfg.env.th.sid cfg.env.cr inp.now c = .ok sid ∧ getGrant (sysRun cfg (ops.take i)).store sid = .ok g ∧
      g.authReq = some ar ∧
      ∀ ch, ar.codeChallenge = some ch →
        ∃ v m f, req.codeVerifier = some v ∧ ar.codeChallengeMethod = some m ∧ p.methods.get? m = some f ∧ f v = .ok ch := by
  obtain ⟨inp, c, sid, g, t, ar, g', b0, b1, b2, b3, b4, b5, b6, b7, b8, b9, b10, _⟩ := code_response hb hf h hgt
  have hi := sysRun_inv cfg ops hf hb i
  obtain ⟨k1, k2, k3⟩ := sessionByToken_key hi.noEmpty b2
  refine ⟨inp, c, sid, g, ar, b0, b1, k1, sessionByToken_getGrant b2, b10, ?_⟩
  intro ch hch
  obtain ⟨_, _, hpend, _⟩ := responseAt_some h
  obtain ⟨k, now, req0, hk, hok, hpar⟩ := pending_parsed i hpend
  have hik := sysRun_inv cfg ops hf hb k
  unfold tokParse at hpar
  cases hh : helperParse cfg.env cfg.helpers (sysRun cfg (ops.take k)).store now req0 with
  | errMsg e => simp [hh] at hpar
  | raise e => simp [hh] at hpar
  | val r0 =>
    simp only [hh, hp] at hpar
    have hr := pkceTokenParse_val hpar
    subst hr
    -- the session found when parsing
    have hse : ∃ sid0 g0, sessionByToken cfg.env.th cfg.env.cr (sysRun cfg (ops.take k)).store now c = .ok (sid0, .grant g0) := by
      cases hs : sessionByToken cfg.env.th cfg.env.cr (sysRun cfg (ops.take k)).store now c with
      | error e =>
        unfold pkceTokenParse at hpar
        simp only [b1, hs] at hpar
        split at hpar <;> cases hpar
      | ok x =>
        obtain ⟨sid0, o⟩ := x
        cases o with
        | info _ =>
          unfold pkceTokenParse at hpar
          simp [b1, hs] at hpar
        | grant g0 => exact ⟨sid0, g0, rfl⟩
    obtain ⟨sid0, g0, hs0⟩ := hse
    obtain ⟨l1, l2, l3⟩ := sessionByToken_key hik.noEmpty hs0
    have := sid_det l1 k1
    subst this
    have hev := evo_later hf hb (Nat.le_of_lt hk) l2 k2
    exact pkceTokenParse_checks hpar b1 hs0 (by rw [← hev.authReq]; exact b10) hch

/-- C30: the authorization endpoint passes a request with a challenge only if its method (`plain` if not given) is a
configured one, and records the method; if PKCE is essential, only requests with a challenge. -/
theorem C30_challenge_has_configured_method (env : Env) (cdb : Cdb) (par par' : ParDb) (req r : AuthReq) (p : Pkce)
    (hp : env.pkce = some p) (h : authzParse env cdb par req = (par', .val r)) :
    (∀ ch, r.codeChallenge = some ch → ∃ m f, r.codeChallengeMethod = some m ∧ p.methods.get? m = some f) ∧
    (p.essential = true → ∃ ch, r.codeChallenge = some ch) := by
  obtain ⟨_, _, q, q', u, _, _, _, _, _, hl⟩ := authzParse_val h
  rcases hl with ⟨hn, _⟩ | ⟨p', hp', hk⟩
  · rw [hp] at hn; cases hn
  · rw [hp] at hp'
    cases hp'
    obtain ⟨hr, h1, h2⟩ := pkceParse_val hk
    refine ⟨?_, ?_⟩
    · intro ch hch
      have hq : q'.codeChallenge = some ch := by rw [hr] at hch; exact hch
      have hm := h2 (by rw [hq]; simp)
      refine ⟨q'.codeChallengeMethod.getD c!"plain", ?_⟩
      unfold Dict.has at hm
      cases hg : p.methods.get? (q'.codeChallengeMethod.getD c!"plain") with
      | none => simp [hg] at hm
      | some f => exact ⟨f, by rw [hr], rfl⟩
    · intro he
      have := h1 he
      cases hq : q'.codeChallenge with
      | none => exact absurd hq this
      | some ch => exact ⟨ch, by rw [hr]; exact hq⟩

/-- C30, the two halves together: if PKCE is essential and every authorization request in the history went through
parsing, a token response for a code always had a verifier that was checked. -/
theorem C30_essential_end_to_end (cfg : SysCfg) (hb : BlankFree cfg.env) (ops : List SysOp) (hf : FreshRun ops) (p : Pkce)
    (hp : cfg.env.pkce = some p) (hess : p.essential = true)
    (hparsed : ∀ op ∈ ops, ∀ r ∈ newReqs op, ∃ cdb par par' req0, authzParse cfg.env cdb par req0 = (par', .val r))
    (i : Nat) (req : TokReq) (resp : TokResp) (h : responseAt cfg ops i = some (req, resp))
    (hgt : req.grantType = some c!"authorization_code") :
    ∃ inp c sid g ar ch v m f, ops[i]? = some (.tokProcess inp req) ∧ req.code = some c ∧
      cfg.env.th.sid cfg.env.cr inp.now c = .ok sid ∧ getGrant (sysRun cfg (ops.take i)).store sid = .ok g ∧
      g.authReq = some ar ∧ ar.codeChallenge = some ch ∧ req.codeVerifier = some v ∧ ar.codeChallengeMethod = some m ∧
      p.methods.get? m = some f ∧ f v = .ok ch := by
  obtain ⟨inp, c, sid, g, ar, b0, b1, b2, b3, b4, b5⟩ := C30_code_needs_verifier cfg hb ops hf p hp i req resp h hgt
  have hi := sysRun_inv cfg ops hf hb i
  obtain ⟨hk, _⟩ := getGrant_key hi.noEmpty b3
  obtain ⟨j, op, g0, _, hj, hc, hev⟩ := grant_origin hf hb i hk
  have har := hc.2.2.2.2.1 ar (by rw [← hev.authReq]; exact b4)
  obtain ⟨cdb, par, par', req0, hpr⟩ := hparsed op (List.mem_of_getElem? hj) ar har
  obtain ⟨ch, hch⟩ := (C30_challenge_has_configured_method cfg.env cdb par par' req0 ar p hp hpr).2 hess
  obtain ⟨v, m, f, e1, e2, e3, e4⟩ := b5 ch hch
  exact ⟨inp, c, sid, g, ar, ch, v, m, f, b0, b1, b2, b3, b4, hch, e1, e2, e3, e4⟩

/-- PKCE with the method `plain` and one more. -/
def demoPkce : Pkce := ⟨true, [(c!"plain", fun v => .ok v), (c!"S", fun v => .ok (c!"h" ++ v))]⟩
def pkceEnv : Env := { demoEnv with pkce := some demoPkce }
def pkceCfg (m : Mode) : SysCfg := ⟨m, pkceEnv, demoHelpers⟩
def pkceReq : AuthReq := { demoReq [c!"code"] with codeChallenge := some c!"hxyz", codeChallengeMethod := some c!"S" }
/-- Without a verifier, with a wrong one, with the right one. -/
def pkceOps : List SysOp :=
  [ .authorize demoDb 1 c!"g1" (mintIn c!"n1") (mintIn c!"n2") (.val c!"IDT") { ident := .plain c!"diana" } pkceReq,
    .tokParse 2 demoTokReq, .tokParse 2 { demoTokReq with codeVerifier := some c!"xy" },
    .tokParse 2 { demoTokReq with codeVerifier := some c!"xyz" },
    .tokProcess (tokIn 2 c!"n3" c!"n4") demoTokReq,
    .tokProcess (tokIn 2 c!"n3" c!"n4") { demoTokReq with codeVerifier := some c!"xy" },
    .tokProcess (tokIn 2 c!"n3" c!"n4") { demoTokReq with codeVerifier := some c!"xyz" } ]

set_option maxRecDepth 4000 in
example : (List.range 7).map (fun i => (responseAt (pkceCfg .byValue) pkceOps i).isSome) =
    [false, false, false, false, false, false, true] := by decide
example : BlankFree pkceEnv := demoEnv_blankFree
example : FreshRun pkceOps := by
  refine ⟨by decide, by decide, ?_⟩
  intro op hop
  simp only [pkceOps, List.mem_cons, List.not_mem_nil, or_false] at hop
  rcases hop with rfl | rfl | rfl | rfl | rfl | rfl | rfl <;> trivial
example : (authzParse pkceEnv demoDb (fun _ => none) pkceReq).2 = .val pkceReq := by decide
example : (authzParse pkceEnv demoDb (fun _ => none) { pkceReq with codeChallenge := none }).2 = .errMsg c!"invalid_request" := by
  decide

/-! ### C31 -/

/-- C31 is false of the code: with PKCE configured every refresh request (which has no `code`) that would pass is refused. -/
theorem C31_refresh_refused_with_pkce (env : Env) (helpers : Dict Helper) (s : Store) (now : Int) (req r : TokReq) (p : Pkce)
    (hgt : helpers.get? c!"refresh_token" = some (.inst .refreshToken)) (hg : req.grantType = some c!"refresh_token")
    (hc : req.code = none) (h : tokParse { env with pkce := none } helpers s now req = .val r) :
    tokParse { env with pkce := some p } helpers s now req = .errMsg c!"invalid_grant" := by
  unfold tokParse at h ⊢
  have e : helperParse { env with pkce := some p } helpers s now req =
      helperParse { env with pkce := none } helpers s now req := rfl
  rw [e]
  cases hh : helperParse { env with pkce := none } helpers s now req with
  | errMsg e => simp [hh] at h
  | raise e => simp [hh] at h
  | val r0 =>
    simp only
    have hr0 : r0 = req := by
      simp only [helperParse, hg, hgt] at hh
      exact (refreshParse_val hh).1
    rw [hr0]
    simp [pkceTokenParse, hc]

/-- With PKCE, no history has a response to a refresh request without `code`. -/
theorem C31_no_refresh_with_pkce (cfg : SysCfg) (p : Pkce) (hp : cfg.env.pkce = some p) (ops : List SysOp) (i : Nat)
    (req : TokReq) (resp : TokResp) (h : responseAt cfg ops i = some (req, resp)) : req.code ≠ none := by
  obtain ⟨_, _, hpend, _⟩ := responseAt_some h
  obtain ⟨k, now, req0, hk, hok, hpar⟩ := pending_parsed i hpend
  unfold tokParse at hpar
  cases hh : helperParse cfg.env cfg.helpers (sysRun cfg (ops.take k)).store now req0 with
  | errMsg e => simp [hh] at hpar
  | raise e => simp [hh] at hpar
  | val r0 =>
    simp only [hh, hp] at hpar
    have hr := pkceTokenParse_val hpar
    subst hr
    intro hc
    simp [pkceTokenParse, hc] at hpar

set_option maxRecDepth 4000 in
/-- The hypotheses are met: the demo refresh request passes without PKCE. -/
example : tokParse { demoEnv with pkce := none } demoHelpers (sysRun (demoCfg .aliased) (demoOps.take 5)).store 3 demoRefReq =
    .val demoRefReq := by decide

end Verif
