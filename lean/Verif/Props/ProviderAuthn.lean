import Verif.Spec.ProviderAuthn
import Verif.Props.ProviderDemo
import Verif.Props.AuthzParse
/-! Client authentication over the whole life of a provider: C125–C128. -/
namespace Verif
open Spec

/-! ### C125: assertions -/

/-- The seen `jti`s after a request are those after its client authentication. -/
theorem provStep_jtis {cfg : ProvCfg} {st : Prov} {op : HttpOp} {x : List Str × Except Exn (Option AuthInfo)}
    (h : authnOf cfg st op = some x) : (provStep cfg st op).jtis = x.1 := by
  cases op with
  | push now r req urn =>
    simp only [authnOf, Option.some.injEq] at h
    subst h
    simp only [provStep, pushEndpoint]
    generalize clientAuthentication cfg.lib st.cdb now cfg.pushMethods cfg.pushTargets plainFromToken st.jtis r = y
    obtain ⟨j, o⟩ := y
    cases o with
    | error e => rfl
    | ok o =>
      simp only
      cases requestClient r o with
      | none => rfl
      | some c =>
        simp only
        generalize pushParse cfg.sys.env st.cdb st.par c req = z
        obtain ⟨p, o⟩ := z
        cases o <;> rfl
  | tokenParse now r req =>
    simp only [authnOf, Option.some.injEq] at h
    subst h
    simp only [provStep, tokenParseEndpoint]
    generalize clientAuthentication cfg.lib st.cdb now cfg.tokenMethods cfg.tokenTargets plainFromToken st.jtis r = y
    obtain ⟨j, o⟩ := y
    cases o with
    | error e => rfl
    | ok o =>
      simp only
      generalize tokParse cfg.sys.env cfg.sys.helpers st.sys.store now _ = z
      cases z <;> rfl
  | userinfo now r =>
    simp only [authnOf, Option.some.injEq] at h
    subst h
    simp only [provStep, userinfoEndpoint, userinfoParse]
    generalize clientAuthentication cfg.lib st.cdb now cfg.userinfoMethods cfg.userinfoTargets (userinfoFromToken cfg.sys.env now) st.jtis r = y
    obtain ⟨j, o⟩ := y
    cases o with
    | error e => simp only; split <;> rename_i h <;> split at h <;> cases h <;> rfl
    | ok o =>
      cases o with
      | none => rfl
      | some i => simp only; cases i.token <;> rfl
  | introspect now r token =>
    simp only [authnOf, Option.some.injEq] at h
    subst h
    simp only [provStep, introspectEndpoint]
    generalize clientAuthentication cfg.lib st.cdb now cfg.introspectMethods cfg.introspectTargets plainFromToken st.jtis r = y
    obtain ⟨j, o⟩ := y
    cases o with
    | error e => rfl
    | ok o => cases token <;> rfl
  | _ => cases h

theorem clientAuthentication_mono {lib : AuthnLib} {cdb : Cdb} {now : Int} {methods : List (Option AuthnMethod)} {targets : List Str}
    {ft : Str → Except Exn Str} {jtis : List Str} {r : AuthnReq} (k : Str) (hk : k ∈ jtis) :
    k ∈ (clientAuthentication lib cdb now methods targets ft jtis r).1 := by
  have := verifyClient_mono (lib := lib) (cdb := cdb) (now := now) (methods := methods) (targets := targets) (ft := ft) (r := r) k hk
  unfold clientAuthentication
  generalize verifyClient lib cdb now methods targets ft jtis r = y at this ⊢
  obtain ⟨j, o⟩ := y
  cases o with
  | error e => exact this
  | ok o => cases o with
    | none => simp only; split <;> exact this
    | some i => exact this

/-- An accepted assertion was not seen before and is seen afterwards. -/
theorem clientAuthentication_jti {lib : AuthnLib} {cdb : Cdb} {now : Int} {methods : List (Option AuthnMethod)} {targets : List Str}
    {ft : Str → Except Exn Str} {jtis j : List Str} {r : AuthnReq} {i : AuthInfo} {a : Assertion} {x : Str}
    (h : clientAuthentication lib cdb now methods targets ft jtis r = (j, .ok (some i))) (ha : i.assertion = some a)
    (hx : a.jti = some x) (hne : x ≠ []) : a.iss ++ c!":" ++ x ∉ jtis ∧ a.iss ++ c!":" ++ x ∈ j := by
  have hv : verifyClient lib cdb now methods targets ft jtis r = (j, .ok (some i)) := by
    unfold clientAuthentication at h
    generalize verifyClient lib cdb now methods targets ft jtis r = y at h ⊢
    obtain ⟨j, o⟩ := y
    cases o with
    | error e => cases h
    | ok o => cases o with
      | none => simp only at h; split at h <;> cases h
      | some i => exact h
  obtain ⟨m, j0, i0, -, -, hm, hsub, ha0, -, -⟩ := verifyClient_assertion hv ha
  obtain ⟨e1, e2⟩ := jtiUse_ok (verify_assertion hm ha0).1 hx hne
  exact ⟨fun hk => e1 (hsub _ hk), e2⟩

theorem authnOf_mono {cfg : ProvCfg} {st : Prov} {op : HttpOp} {x : List Str × Except Exn (Option AuthInfo)}
    (h : authnOf cfg st op = some x) (k : Str) (hk : k ∈ st.jtis) : k ∈ x.1 := by
  cases op <;> first | cases h; done | (simp only [authnOf, Option.some.injEq] at h; subst h; exact clientAuthentication_mono k hk)

theorem authnOf_jti {cfg : ProvCfg} {st : Prov} {op : HttpOp} {j : List Str} {i : AuthInfo} {a : Assertion} {x : Str}
    (h : authnOf cfg st op = some (j, .ok (some i))) (ha : i.assertion = some a) (hx : a.jti = some x) (hne : x ≠ []) :
    a.iss ++ c!":" ++ x ∉ st.jtis ∧ a.iss ++ c!":" ++ x ∈ j := by
  cases op <;> first | cases h; done | (simp only [authnOf, Option.some.injEq] at h; exact clientAuthentication_jti h ha hx hne)

/-- What was seen stays seen, up to a restart that loses it. -/
theorem provStep_jtis_mono {cfg : ProvCfg} {st : Prov} {op : HttpOp} (hr : cfg.jtiDurable = true ∨ op ≠ .restart) (k : Str)
    (hk : k ∈ st.jtis) : k ∈ (provStep cfg st op).jtis := by
  cases h : authnOf cfg st op with
  | some x => rw [provStep_jtis h]; exact authnOf_mono h k hk
  | none =>
    cases op with
    | restart =>
      rcases hr with hr | hr
      · simp only [provStep, hr, if_true]; exact hk
      · exact absurd rfl hr
    | push now r req urn => cases h
    | tokenParse now r req => cases h
    | userinfo now r => cases h
    | introspect now r token => cases h
    | _ => exact hk

/-- **C125**: over all endpoints and all requests an assertion is accepted at most once, if the store of seen assertions outlives
the process or the process is not restarted in between. -/
theorem C125_assertion_accepted_once (cfg : ProvCfg) (ops : List HttpOp) (i k : Nat) (hlt : i < k)
    (hr : cfg.jtiDurable = true ∨ ∀ n, i < n → n < k → ops[n]? ≠ some .restart) (a a' : Assertion) (x : Str)
    (h : AssertionAccepted cfg ops i a) (h' : AssertionAccepted cfg ops k a') (hx : a.jti = some x) (hne : x ≠ []) :
    ¬ (a'.iss = a.iss ∧ a'.jti = some x) := by
  rintro ⟨h1, h2⟩
  obtain ⟨op, j, info, ho, hi, ha⟩ := h
  obtain ⟨op', j', info', ho', hi', ha'⟩ := h'
  have e1 := (authnOf_jti hi ha hx hne).2
  have e2 := (authnOf_jti hi' ha' h2 hne).1
  have hk : a.iss ++ c!":" ++ x ∈ (provRun cfg (ops.take (i + 1))).jtis := by
    rw [take_snoc ho, provRun_snoc, provStep_jtis hi]; exact e1
  have hall : ∀ d, i + 1 + d ≤ k → a.iss ++ c!":" ++ x ∈ (provRun cfg (ops.take (i + 1 + d))).jtis := by
    intro d
    induction d with
    | zero => intro _; exact hk
    | succ d ih =>
      intro hd
      have hp := ih (by omega)
      cases hop : ops[i + 1 + d]? with
      | none =>
        have : i + 1 + (d + 1) = (i + 1 + d) + 1 := by omega
        rw [this, List.take_add_one, hop]
        simpa using hp
      | some op2 =>
        have : i + 1 + (d + 1) = (i + 1 + d) + 1 := by omega
        rw [this, take_snoc hop, provRun_snoc]
        refine provStep_jtis_mono ?_ _ hp
        rcases hr with hr | hr
        · exact Or.inl hr
        · refine Or.inr ?_
          rintro rfl
          exact hr _ (by omega) (by omega) hop
  have := hall (k - (i + 1)) (by omega)
  rw [show i + 1 + (k - (i + 1)) = k by omega] at this
  rw [h1] at e2
  exact e2 this

/-- A provider whose token endpoint takes assertions. -/
def jwtCfg (durable : Bool) : ProvCfg :=
  { webCfg with tokenMethods := [some .clientSecretJwt], tokenTargets := [c!"https://op/token"], jtiDurable := durable }

def jwtReq : AuthnReq := { clientAssertion := some c!"jwt" }

def jwtAssertion : Assertion :=
  { alg := c!"HS256", iss := c!"c1", aud := [c!"https://op/token"], jti := some c!"1", signedWith := c!"s1" }

def okAuthn (o : Option (List Str × Except Exn (Option AuthInfo))) : Option (Option Assertion) :=
  match o with
  | some (_, .ok (some i)) => some i.assertion
  | _ => none

theorem okAuthn_some {o : Option (List Str × Except Exn (Option AuthInfo))} {a : Assertion} (h : okAuthn o = some (some a)) :
    ∃ j i, o = some (j, .ok (some i)) ∧ i.assertion = some a := by
  unfold okAuthn at h
  split at h
  · rename_i j i; exact ⟨j, i, rfl, by simpa using h⟩
  · cases h

theorem accepted_of {cfg : ProvCfg} {ops : List HttpOp} {i : Nat} {op : HttpOp} {a : Assertion} (ho : ops[i]? = some op)
    (h : okAuthn (authnOf cfg (provRun cfg (ops.take i)) op) = some (some a)) : AssertionAccepted cfg ops i a := by
  obtain ⟨j, info, h1, h2⟩ := okAuthn_some h
  exact ⟨op, j, info, ho, h1, h2⟩

set_option maxRecDepth 16000 in
/-- The hypotheses of `C125_assertion_accepted_once`: the assertion is accepted, and refused the second time, also after a
restart if the store is durable. -/
example : AssertionAccepted (jwtCfg true) [webOps[0], .tokenParse 1001 jwtReq webTok, .restart, .tokenParse 1002 jwtReq webTok] 1 jwtAssertion ∧
    okAuthn (authnOf (jwtCfg true) (provRun (jwtCfg true) [webOps[0], .tokenParse 1001 jwtReq webTok, .restart])
      (.tokenParse 1002 jwtReq webTok)) = none :=
  ⟨accepted_of (op := .tokenParse 1001 jwtReq webTok) rfl (by decide), by decide⟩

set_option maxRecDepth 16000 in
/-- **C125** is false of the code with its default storage, which is in memory: after a restart the assertion is accepted
again. -/
theorem C125_replay_after_restart :
    ∃ (cfg : ProvCfg) (ops : List HttpOp) (i k : Nat) (a : Assertion) (x : Str), i < k ∧ cfg.jtiDurable = false ∧ a.jti = some x ∧ x ≠ [] ∧
      AssertionAccepted cfg ops i a ∧ AssertionAccepted cfg ops k a :=
  ⟨jwtCfg false, [webOps[0], .tokenParse 1001 jwtReq webTok, .restart, .tokenParse 1002 jwtReq webTok], 1, 3, jwtAssertion, c!"1",
    by decide, rfl, rfl, by decide, accepted_of (op := .tokenParse 1001 jwtReq webTok) rfl (by decide),
    accepted_of (op := .tokenParse 1002 jwtReq webTok) rfl (by decide)⟩

/-! ### C126: endpoints for which no authentication methods are configured -/

theorem clientAuthentication_none (lib : AuthnLib) (cdb : Cdb) (now : Int) (targets : List Str) (ft : Str → Except Exn Str)
    (jtis : List Str) (r : AuthnReq) : clientAuthentication lib cdb now [] targets ft jtis r = (jtis, .ok none) := by
  simp [clientAuthentication, verifyClient, tryMethods]

/-- **C126** is false of the code: without a configuration of their own the token, introspection and pushed authorization
endpoints have no authentication methods, and then credentials make no difference: a request is handled just as one that
shows none. -/
theorem C126_open_by_default (cfg : ProvCfg) (hm : cfg.tokenMethods = endpointMethods none [])
    (hi : cfg.introspectMethods = endpointMethods none []) (hp : cfg.pushMethods = endpointMethods none [])
    (st : Prov) (now : Int) (r : AuthnReq) :
    (∀ req, tokenParseEndpoint cfg st now r req = tokenParseEndpoint cfg st now { clientId := r.clientId } req) ∧
    (∀ token, introspectEndpoint cfg st now r token = introspectEndpoint cfg st now {} token) ∧
    (∀ req urn, pushEndpoint cfg st now r req urn = pushEndpoint cfg st now { clientId := r.clientId } req urn) := by
  simp only [endpointMethods] at hm hi hp
  refine ⟨fun req => ?_, fun token => ?_, fun req urn => ?_⟩
  · simp only [tokenParseEndpoint, hm, clientAuthentication_none, requestClient]
  · simp only [introspectEndpoint, hi, clientAuthentication_none]
  · simp only [pushEndpoint, hp, clientAuthentication_none, requestClient]

/-- The provider of the demo, with no methods configured. -/
def openCfg : ProvCfg := { webCfg with tokenMethods := endpointMethods none [], introspectMethods := endpointMethods none [] }

set_option maxRecDepth 16000 in
/-- Here the client has a secret, and its code is redeemed by a request that does not show it, nor name a client; and anyone
may ask about the token. -/
theorem C126_code_redeemed_without_secret :
    ((provRun openCfg (webOps.take 1)).cdb c!"c1").bind (·.clientSecret) = some c!"s1" ∧
    (tokensAt openCfg [webOps[0], webOps[1], .tokenParse 1001 {} webTok, .tokenProcess (tokIn 1001 c!"n3" c!"n4") webTokParsed] 3).map
      (fun x => x.2.accessToken) = some webAt ∧
    ((outVal (introspectEndpoint openCfg (provRun openCfg [webOps[0], webOps[1], .tokenParse 1001 {} webTok,
        .tokenProcess (tokIn 1001 c!"n3" c!"n4") webTokParsed]) 1002 {} (some webAt)).2).bind
      (fun d => d.get? c!"username")) = some (.str c!"diana") := by
  decide

/-- What holds: with methods based on the secret configured, a request without credentials is refused. -/
theorem C126_configured_is_closed_partial (cfg : ProvCfg) (hs : SecretOnly cfg.tokenMethods) (hne : cfg.tokenMethods ≠ [])
    (st : Prov) (now : Int) (r : AuthnReq) (req : TokReq) (j : List Str) (q : TokReq) (h : tokenParseEndpoint cfg st now r req = (j, .val q)) :
    ∃ c, ShowsSecret cfg st now r c := by
  unfold tokenParseEndpoint at h
  generalize hy : clientAuthentication cfg.lib st.cdb now cfg.tokenMethods cfg.tokenTargets plainFromToken st.jtis r = y at h
  obtain ⟨j', o⟩ := y
  cases o with
  | error e => cases h
  | ok o =>
    obtain ⟨c, cl, s, q1, q2, q3, q4, q5⟩ := C40_request_client _ _ _ _ _ _ _ _ _ _ hs hne hy
    exact ⟨c, cl, s, q2, q3, q4, q5⟩

end Verif
