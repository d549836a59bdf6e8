import Verif.Props.AuthzResponse
import Verif.Props.Demo
set_option linter.unusedSimpArgs false
/-! C21, C25: parsing of authorization requests, and pushed requests. -/
namespace Verif
open Spec

/-! ### What the parse steps do -/

theorem postParse_val {env : Env} {cdb : Cdb} {client : Str} {par par' : ParDb} {req r : AuthReq}
    (h : postParse env cdb client par req = (par', .val r)) :
    par' = par ∧ (∃ cl, cdb client = some cl ∧ ResponseTypeRegistered cl req.responseType) ∧
    ∃ u, getUri env.lib cdb .redirect req.clientId req.redirectUri = .ok u ∧ r = { req with redirectUri := some u } := by
  unfold postParse at h
  cases hc : cdb client with
  | none => simp [hc] at h
  | some cl =>
    simp only [hc] at h
    by_cases hv : verifyResponseType req cl = false
    · simp [hv] at h
    · simp only [hv, if_false] at h
      cases hu : getUri env.lib cdb .redirect req.clientId req.redirectUri with
      | error e => cases hx : uriErrCaught e <;> simp [hu, hx] at h
      | ok u =>
        simp [hu] at h
        refine ⟨h.1.symm, ⟨cl, rfl, ?_⟩, u, rfl, h.2.symm⟩
        exact (verifyResponseType_iff req cl).1 (by simpa using hv)

theorem postParse_par (env : Env) (cdb : Cdb) (client : Str) (par : ParDb) (req : AuthReq) :
    (postParse env cdb client par req).1 = par := by
  unfold postParse
  split
  · rfl
  · split
    · rfl
    · split <;> rfl

/-- Resolving a request URI never adds a pushed request. -/
theorem doRequestUri_mono (env : Env) (cdb : Cdb) (client : Str) (par : ParDb) (req : AuthReq) (k : Str) :
    (doRequestUri env cdb client par req).1 k = par k ∨ (doRequestUri env cdb client par req).1 k = none := by
  unfold doRequestUri
  split
  · exact .inl rfl
  · exact .inl rfl
  · rename_i uri _ _
    split
    · split
      · simp only
        by_cases h : k = uri
        · exact .inr (by simp [h])
        · exact .inl (by simp [h])
      · exact .inl rfl
    · split
      · exact .inl rfl
      · split
        · exact .inl rfl
        · split <;> exact .inl rfl

/-- Steps that never add a pushed request. -/
def NoAdd (f : ParseStep) : Prop := ∀ par req k, (f par req).1 k = par k ∨ (f par req).1 k = none

theorem noAdd_doRequestUri (env : Env) (cdb : Cdb) (client : Str) : NoAdd (doRequestUri env cdb client) :=
  fun par req k => doRequestUri_mono env cdb client par req k
theorem noAdd_postParse (env : Env) (cdb : Cdb) (client : Str) : NoAdd (postParse env cdb client) :=
  fun par req k => .inl (by rw [postParse_par])
theorem noAdd_pkce (p : Pkce) : NoAdd (fun par req => (par, pkceParse p req)) := fun _ _ _ => .inl rfl

theorem runSteps_noAdd (fs : List ParseStep) (h : ∀ f ∈ fs, NoAdd f) (par : ParDb) (req : AuthReq) (k : Str) :
    (runSteps fs par req).1 k = par k ∨ (runSteps fs par req).1 k = none := by
  induction fs generalizing par req with
  | nil => exact .inl rfl
  | cons f fs ih =>
    have hf := h f (by simp) par req k
    unfold runSteps
    cases hr : f par req with
    | mk par' o =>
      rw [hr] at hf
      cases o with
      | val r =>
        simp only
        simp only at hf
        rcases ih (fun g hg => h g (by simp [hg])) par' r with h1 | h1
        · rcases hf with h2 | h2
          · exact .inl (by rw [h1, h2])
          · exact .inr (by rw [h1, h2])
        · exact .inr h1
      | errMsg e => exact hf
      | raise e => exact hf

theorem authzSteps_noAdd (env : Env) (cdb : Cdb) (client : Str) : ∀ f ∈ authzSteps env cdb client, NoAdd f := by
  intro f hf
  unfold authzSteps at hf
  simp only [List.mem_append] at hf
  have two : f ∈ [doRequestUri env cdb client, postParse env cdb client] → NoAdd f := by
    intro h
    simp at h
    rcases h with rfl | rfl
    · exact noAdd_doRequestUri env cdb client
    · exact noAdd_postParse env cdb client
  rcases hf with (hf | hf) | hf
  · exact two hf
  · split at hf
    · exact two hf
    · simp at hf
  · split at hf
    · simp at hf; subst hf; exact noAdd_pkce _
    · simp at hf

/-! ### C21 -/

/-- A request uses response types that its own client registered. -/
def OwnRegistered (cdb : Cdb) (r : AuthReq) : Prop :=
  ∃ cl, cdb r.clientId = some cl ∧ ResponseTypeRegistered cl r.responseType

theorem runSteps_cons_val {f : ParseStep} {fs : List ParseStep} {par par' : ParDb} {req r : AuthReq}
    (h : runSteps (f :: fs) par req = (par', .val r)) :
    ∃ p1 r1, f par req = (p1, .val r1) ∧ runSteps fs p1 r1 = (par', .val r) := by
  unfold runSteps at h
  cases hf : f par req with
  | mk p1 o =>
    rw [hf] at h
    cases o with
    | val r1 => exact ⟨p1, r1, rfl, h⟩
    | errMsg e => simp at h
    | raise e => simp at h

theorem pkceParse_val {p : Pkce} {req r : AuthReq} (h : pkceParse p req = .val r) :
    r = { req with codeChallengeMethod := some (req.codeChallengeMethod.getD c!"plain") } ∧
    (p.essential = true → req.codeChallenge ≠ none) ∧
    (req.codeChallenge ≠ none → p.methods.has (req.codeChallengeMethod.getD c!"plain") = true) := by
  unfold pkceParse at h
  by_cases h1 : p.essential ∧ req.codeChallenge = none
  · simp [h1] at h
  · rw [if_neg h1] at h
    simp only at h
    by_cases h2 : req.codeChallenge ≠ none ∧ p.methods.has (req.codeChallengeMethod.getD c!"plain") = false
    · rw [if_pos h2] at h; cases h
    · rw [if_neg h2] at h
      simp at h
      refine ⟨h.symm, fun he hn => h1 ⟨he, hn⟩, fun hc => ?_⟩
      cases hh : p.methods.has (req.codeChallengeMethod.getD c!"plain") with
      | true => rfl
      | false => exact absurd ⟨hc, hh⟩ h2

/-- How a request gets through parsing: some request `q` reached the last `_post_parse_request`, which accepted it; PKCE
may add its method. -/
theorem authzParse_val {env : Env} {cdb : Cdb} {par par' : ParDb} {req r : AuthReq}
    (h : authzParse env cdb par req = (par', .val r)) :
    ∃ p1 p2 q q' u,
      ((env.oidc = false ∧ p1 = par ∧ doRequestUri env cdb req.clientId par req = (p2, .val q)) ∨
       (env.oidc = true ∧ ∃ p0 r0 u0, doRequestUri env cdb req.clientId par req = (p0, .val r0) ∧
          getUri env.lib cdb .redirect r0.clientId r0.redirectUri = .ok u0 ∧
          p1 = p0 ∧ doRequestUri env cdb req.clientId p0 { r0 with redirectUri := some u0 } = (p2, .val q))) ∧
      (∃ cl, cdb req.clientId = some cl ∧ ResponseTypeRegistered cl q.responseType) ∧
      getUri env.lib cdb .redirect q.clientId q.redirectUri = .ok u ∧ q' = { q with redirectUri := some u } ∧
      par' = p2 ∧
      ((env.pkce = none ∧ r = q') ∨ ∃ p, env.pkce = some p ∧ pkceParse p q' = .val r) := by
  unfold authzParse authzSteps at h
  simp only [List.cons_append, List.nil_append] at h
  obtain ⟨p0, r0, h0, h⟩ := runSteps_cons_val h
  obtain ⟨p0', r0', h0', h⟩ := runSteps_cons_val h
  obtain ⟨rfl, hcl, u0, hu0, rfl⟩ := postParse_val h0'
  have last : ∀ {par : ParDb} {q : AuthReq}, runSteps (match env.pkce with
      | some p => [fun par req => (par, pkceParse p req)]
      | none => []) par q = (par', .val r) →
      par' = par ∧ ((env.pkce = none ∧ r = q) ∨ ∃ p, env.pkce = some p ∧ pkceParse p q = .val r) := by
    intro par q hh
    cases hp : env.pkce with
    | none =>
      simp [hp, runSteps] at hh
      exact ⟨hh.1.symm, .inl ⟨rfl, hh.2.symm⟩⟩
    | some p =>
      simp only [hp] at hh
      obtain ⟨p1, r1, e1, e2⟩ := runSteps_cons_val hh
      simp [runSteps] at e1 e2
      obtain ⟨rfl, rfl⟩ := e2
      exact ⟨e1.1.symm, .inr ⟨p, rfl, e1.2⟩⟩
  cases ho : env.oidc with
  | false =>
    simp only [ho, Bool.false_eq_true, if_false, List.nil_append] at h
    obtain ⟨rfl, hl⟩ := last h
    exact ⟨par, _, r0, _, u0, .inl ⟨rfl, rfl, h0⟩, hcl, hu0, rfl, rfl, hl⟩
  | true =>
    simp only [ho, if_true, List.cons_append, List.nil_append] at h
    obtain ⟨p2, q, h2, h⟩ := runSteps_cons_val h
    obtain ⟨p3, q', h3, h⟩ := runSteps_cons_val h
    obtain ⟨rfl, hcl2, u, hu, rfl⟩ := postParse_val h3
    obtain ⟨rfl, hl⟩ := last h
    exact ⟨_, _, q, _, u, .inr ⟨rfl, _, r0, u0, h0, hu0, rfl, h2⟩, hcl2, hu, rfl, rfl, hl⟩

/-- PKCE and the redirect URI leave client and response type alone. -/
theorem authzParse_same {env : Env} {q q' r : AuthReq} {u : Str} (h1 : q' = { q with redirectUri := some u })
    (h2 : (env.pkce = none ∧ r = q') ∨ ∃ p, env.pkce = some p ∧ pkceParse p q' = .val r) :
    r.clientId = q.clientId ∧ r.responseType = q.responseType := by
  subst h1
  rcases h2 with ⟨_, rfl⟩ | ⟨p, _, hp⟩
  · exact ⟨rfl, rfl⟩
  · rw [(pkceParse_val hp).1]; exact ⟨rfl, rfl⟩

/-- A resolved request is a pushed one, or has the client id of the request it came from, provided request objects do not
change the client. -/
theorem doRequestUri_val {env : Env} {cdb : Cdb} {client : Str} {par par' : ParDb} {req r : AuthReq}
    (hfetch : ∀ c u q q', env.fetch c u q = .ok q' → q'.clientId = q.clientId)
    (h : doRequestUri env cdb client par req = (par', .val r)) :
    r.clientId = req.clientId ∨ ∃ u, req.requestUri = some u ∧ par u = some r := by
  unfold doRequestUri at h
  split at h
  · simp at h; exact .inl (by rw [h.2])
  · simp at h; exact .inl (by rw [h.2])
  · rename_i uri _ hu
    split at h
    · split at h
      · rename_i r' hr
        simp at h
        exact .inr ⟨uri, hu, by rw [hr, h.2]⟩
      · simp at h
    · split at h
      · simp at h
      · split at h
        · simp at h
        · split at h
          · simp at h
          · rename_i r' hr
            simp at h
            exact .inl (by rw [← h.2]; exact hfetch _ _ _ _ hr)

/-- All pushed requests use response types registered by their own client. -/
def ParOk (cdb : Cdb) (par : ParDb) : Prop := ∀ u r, par u = some r → OwnRegistered cdb r

theorem ParOk.mono {cdb : Cdb} {par par' : ParDb} (h : ParOk cdb par) (hm : ∀ k, par' k = par k ∨ par' k = none) :
    ParOk cdb par' := by
  intro u r hr
  rcases hm u with k | k
  · exact h u r (by rw [← k]; exact hr)
  · rw [k] at hr; cases hr

/-- The pushed requests that can arise while the client database is `cdb`. -/
inductive ParReach (env : Env) (cdb : Cdb) : ParDb → Prop
  | empty : ParReach env cdb (fun _ => none)
  | push {par : ParDb} (client : Str) (req : AuthReq) (urn : Str) : ParReach env cdb par →
      ParReach env cdb (parStep env par (.push cdb client req urn))
  | authorize {par : ParDb} (req : AuthReq) : ParReach env cdb par →
      ParReach env cdb (parStep env par (.authorize cdb req))

theorem parOk_reach {env : Env} {cdb : Cdb} (hfetch : ∀ c u q q', env.fetch c u q = .ok q' → q'.clientId = q.clientId)
    {par : ParDb} (h : ParReach env cdb par) : ParOk cdb par := by
  induction h with
  | empty => intro u r hr; cases hr
  | @push par client req urn _ ih =>
    have hm := runSteps_noAdd [doRequestUri env cdb client, postParse env cdb client, postParse env cdb client]
      (by
        intro f hf
        simp at hf
        rcases hf with rfl | rfl
        · exact noAdd_doRequestUri env cdb client
        · exact noAdd_postParse env cdb client) par { req with clientId := client }
    simp only [parStep]
    cases hp : pushParse env cdb par client req with
    | mk par' o =>
      unfold pushParse at hp
      rw [hp] at hm
      have hok := ih.mono hm
      cases o with
      | errMsg e => exact hok
      | raise e => exact hok
      | val r =>
        obtain ⟨p1, r1, h1, h2⟩ := runSteps_cons_val hp
        obtain ⟨p2, r2, h3, h4⟩ := runSteps_cons_val h2
        obtain ⟨p3, r3, h5, h6⟩ := runSteps_cons_val h4
        simp [runSteps] at h6
        obtain ⟨rfl, rfl⟩ := h6
        obtain ⟨rfl, ⟨cl, hcl, hreg⟩, u, _, rfl⟩ := postParse_val h3
        obtain ⟨rfl, _, u', _, rfl⟩ := postParse_val h5
        intro k q hq
        simp only [pushStore] at hq
        split at hq
        · cases hq
          rcases doRequestUri_val hfetch h1 with hc | ⟨w, _, hw⟩
          · exact ⟨cl, by simpa [hc] using hcl, hreg⟩
          · exact ih w r1 hw
        · exact hok k q hq
  | @authorize par req _ ih =>
    exact ih.mono (runSteps_noAdd _ (authzSteps_noAdd env cdb req.clientId) par req)

/-- C21: unless the requested response types are registered, for the client that sent the request and for the client that
the (possibly pushed) request belongs to, the endpoint answers with an error and changes neither sessions nor clients.
What is missing: request objects that name another client or are referred to by a pushed request, see
`C21_request_object_of_another_client`. -/
theorem C21_only_registered_types_partial (env : Env)
    (hfetch : ∀ c u q q', env.fetch c u q = .ok q' → q'.clientId = q.clientId) (cdb : Cdb) (par : ParDb)
    (hpar : ParReach env cdb par) (hnr : ∀ u r, par u = some r → r.requestUri = none) (s : Store) (now : Int) (gid : Str)
    (mc ma : MintIn) (idt : Out Str) (a : AuthnIn) (req : AuthReq) :
    (∃ par' r cl cl', authzParse env cdb par req = (par', .val r) ∧
      cdb req.clientId = some cl ∧ ResponseTypeRegistered cl r.responseType ∧
      cdb r.clientId = some cl' ∧ ResponseTypeRegistered cl' r.responseType ∧
      (authzEndpoint env cdb par s now gid mc ma idt a req).2 = authzProcess env cdb s now gid mc ma idt a r) ∨
    ∃ par' e, authzEndpoint env cdb par s now gid mc ma idt a req = (par', cdb, s, .error e) ∨
      ∃ x, authzEndpoint env cdb par s now gid mc ma idt a req = (par', cdb, s, .raise x) := by
  unfold authzEndpoint
  cases hp : authzParse env cdb par req with
  | mk par' o =>
    cases o with
    | errMsg e => exact .inr ⟨par', e, .inl rfl⟩
    | raise e => exact .inr ⟨par', [], .inr ⟨e, rfl⟩⟩
    | val r =>
      left
      obtain ⟨p1, p2, q, q', u, hsteps, ⟨cl, hcl, hreg⟩, _, hq', hp2, hl⟩ := authzParse_val hp
      obtain ⟨e1, e2⟩ := authzParse_same hq' hl
      have hok := parOk_reach hfetch hpar
      refine ⟨par', r, cl, ?_⟩
      have own : q.clientId = req.clientId ∨ OwnRegistered cdb q := by
        rcases hsteps with ⟨_, _, h1⟩ | ⟨_, p0, r0, u0, h0, _, _, h1⟩
        · rcases doRequestUri_val hfetch h1 with hc | ⟨w, _, hw⟩
          · exact .inl hc
          · exact .inr (hok w q hw)
        · have hok0 : ParOk cdb p0 := hok.mono (by
            intro k
            have := doRequestUri_mono env cdb req.clientId par req k
            rw [h0] at this
            exact this)
          rcases doRequestUri_val hfetch h1 with hc | ⟨w, hu, hw⟩
          · rcases doRequestUri_val hfetch h0 with hc0 | ⟨w0, _, hw0⟩
            · exact .inl (by rw [hc]; exact hc0)
            · have hn := hnr w0 r0 hw0
              simp [doRequestUri, hn] at h1
              rw [← h1.2]
              exact .inr (hok w0 r0 hw0)
          · exact .inr (hok0 w q hw)
      rcases own with hc | ⟨cl', hcl', hreg'⟩
      · exact ⟨cl, rfl, hcl, by rw [e2]; exact hreg, by rw [e1, hc]; exact hcl, by rw [e2]; exact hreg, rfl⟩
      · exact ⟨cl', rfl, hcl, by rw [e2]; exact hreg, by rw [e1]; exact hcl', by rw [e2]; exact hreg', rfl⟩

/-- In `demoDb`, `c3` registered only `code`, and `c1` also `code id_token token`. -/
def demoDb3 : Cdb := fun c => if c = c!"c3" then
  some { redirectUris := [(c!"https://rp3/cb", [])], responseTypes := [c!"code"] } else demoDb c

/-- A request object signed by `c1` that says `client_id: c3`. -/
def evilFetch : Str → Str → AuthReq → Except Exn AuthReq := fun _ _ r =>
  .ok { r with clientId := c!"c3", redirectUri := some c!"https://rp3/cb" }

/-- C21 is false for request objects: a request object of one client that names another one is checked against the
first client's response types; the second client is served a combination that it never registered. -/
theorem C21_request_object_of_another_client :
    let env := { demoEnv with fetch := evilFetch }
    let req := { demoReq [c!"code", c!"id_token", c!"token"] with requestUri := some c!"https://c1/ro" }
    ∃ par' r, authzParse env demoDb3 (fun _ => none) req = (par', .val r) ∧ r.clientId = c!"c3" ∧
      r.responseType = [c!"code", c!"id_token", c!"token"] ∧
      ∀ cl, demoDb3 r.clientId = some cl → ¬ ResponseTypeRegistered cl r.responseType := by
  refine ⟨_, _, rfl, rfl, rfl, ?_⟩
  intro cl hcl
  have : cl = { redirectUris := [(c!"https://rp3/cb", [])], responseTypes := [c!"code"] } := by
    have h3 : demoDb3 c!"c3" = some cl := hcl
    have h4 : demoDb3 c!"c3" = some { redirectUris := [(c!"https://rp3/cb", [])], responseTypes := [c!"code"] } := rfl
    rw [h4] at h3
    exact (Option.some.inj h3).symm
  subst this
  rw [← verifyResponseType_iff { demoReq [c!"code", c!"id_token", c!"token"] with clientId := c!"c3" }]
  decide

/-- The hypotheses of `C21_only_registered_types_partial` hold of the demo provider, and its first alternative occurs. -/
example : (∀ c u q q', demoEnv.fetch c u q = .ok q' → q'.clientId = q.clientId) ∧
    ParReach demoEnv demoDb (parStep demoEnv (fun _ => none) (.push demoDb c!"c1" (demoReq [c!"code"]) c!"urn:uuid:1")) ∧
    (∃ par' r, authzParse demoEnv demoDb
      (parStep demoEnv (fun _ => none) (.push demoDb c!"c1" (demoReq [c!"code"]) c!"urn:uuid:1"))
      { demoReq [c!"code"] with requestUri := some c!"urn:uuid:1" } = (par', .val r)) := by
  refine ⟨?_, .push _ _ _ .empty, _, _, rfl⟩
  intro c u q q' h
  simp [demoEnv] at h
  rw [h]

/-! ### C25 -/

/-- The pushed requests after a sequence of steps. -/
def parRun (env : Env) (par : ParDb) (ops : List ParOp) : ParDb := ops.foldl (parStep env) par

/-- Does this step store a request under `u`? -/
def pushesTo (u : Str) : ParOp → Prop
  | .push _ _ _ urn => urn = u
  | .authorize _ _ => False

theorem parStep_absent {env : Env} {par : ParDb} {u : Str} (h : par u = none) (op : ParOp) (hop : ¬ pushesTo u op) :
    parStep env par op u = none := by
  cases op with
  | push cdb client req urn =>
    have hne : u ≠ urn := fun e => hop e.symm
    have hm := runSteps_noAdd [doRequestUri env cdb client, postParse env cdb client, postParse env cdb client]
      (by
        intro f hf
        simp at hf
        rcases hf with rfl | rfl
        · exact noAdd_doRequestUri env cdb client
        · exact noAdd_postParse env cdb client) par { req with clientId := client } u
    simp only [parStep]
    cases hp : pushParse env cdb par client req with
    | mk par' o =>
      unfold pushParse at hp
      rw [hp] at hm
      have : par' u = none := by
        rcases hm with k | k
        · exact k.trans h
        · exact k
      cases o with
      | val r => simp [pushStore, hne, this]
      | errMsg e => exact this
      | raise e => exact this
  | authorize cdb req =>
    rcases runSteps_noAdd _ (authzSteps_noAdd env cdb req.clientId) par req u with k | k
    · exact k.trans h
    · exact k

theorem parRun_absent {env : Env} {par : ParDb} {u : Str} (h : par u = none) (ops : List ParOp)
    (hops : ∀ op ∈ ops, ¬ pushesTo u op) : parRun env par ops u = none := by
  induction ops generalizing par with
  | nil => exact h
  | cons op ops ih =>
    exact ih (parStep_absent h op (hops op (by simp))) (fun o ho => hops o (by simp [ho]))

theorem doRequestUri_urn {env : Env} (hpe : env.parEnabled = true) {u : Str} (hu : c!"urn:uuid:".isPrefixOf u = true)
    (cdb : Cdb) (client : Str) (par : ParDb) (req : AuthReq) (hreq : req.requestUri = some u) :
    doRequestUri env cdb client par req = match par u with
      | some r => ((fun k => if k = u then none else par k), .val r)
      | none => (par, .raise .valueError) := by
  unfold doRequestUri
  rw [hreq]
  cases u with
  | nil => simp at hu
  | cons x xs =>
    simp [hpe, hu]
    cases par (x :: xs) <;> rfl

theorem authzParse_absent {env : Env} (hpe : env.parEnabled = true) {u : Str} (hu : c!"urn:uuid:".isPrefixOf u = true)
    (cdb : Cdb) (par : ParDb) (req : AuthReq) (hreq : req.requestUri = some u) (h : par u = none) :
    authzParse env cdb par req = (par, .raise .valueError) := by
  have := doRequestUri_urn hpe hu cdb req.clientId par req hreq
  unfold authzParse authzSteps
  simp only [List.cons_append]
  unfold runSteps
  rw [this, h]

/-- Once an authorization request has named a URN, whatever came of it, the URN is gone. -/
theorem authzParse_consumes {env : Env} (hpe : env.parEnabled = true) {u : Str} (hu : c!"urn:uuid:".isPrefixOf u = true)
    (cdb : Cdb) (par : ParDb) (req : AuthReq) (hreq : req.requestUri = some u) :
    (authzParse env cdb par req).1 u = none := by
  cases h : par u with
  | none => rw [authzParse_absent hpe hu cdb par req hreq h]; exact h
  | some r =>
    have hd := doRequestUri_urn hpe hu cdb req.clientId par req hreq
    rw [h] at hd
    have hno := authzSteps_noAdd env cdb req.clientId
    unfold authzParse
    unfold authzSteps at hno ⊢
    simp only [List.cons_append] at hno ⊢
    unfold runSteps
    rw [hd]
    simp only
    rcases runSteps_noAdd _ (fun f hf => hno f (List.mem_cons_of_mem _ hf)) (fun k => if k = u then none else par k) r u
      with k | k
    · rw [k]; simp
    · exact k

/-- C25: a pushed request URI can be used once.  After an authorization request named it, then in every continuation
in which no request is pushed under the same URN (URNs are random), every further authorization request that names it
raises `ValueError`. -/
theorem C25_pushed_request_used_once (env : Env) (hpe : env.parEnabled = true) (u : Str)
    (hu : c!"urn:uuid:".isPrefixOf u = true) (par : ParDb) (cdb cdb' : Cdb) (req req' : AuthReq)
    (h1 : req.requestUri = some u) (h2 : req'.requestUri = some u) (ops : List ParOp)
    (hops : ∀ op ∈ ops, ¬ pushesTo u op) :
    (authzParse env cdb' (parRun env (parStep env par (.authorize cdb req)) ops) req').2 = .raise .valueError := by
  have := authzParse_absent hpe hu cdb' _ req' h2
    (parRun_absent (env := env) (authzParse_consumes hpe hu cdb par req h1) ops hops)
  unfold parStep
  rw [this]

/-- C25: what is processed for a request URI is the pushed request, whatever else the authorization request says: only a
missing redirect URI or a missing PKCE method may be filled in.  Proved for pushed requests that do not themselves refer
to a request object; for the others see `C25_pushed_request_object_refetched`. -/
theorem C25_processed_is_pushed_partial (env : Env) (hpe : env.parEnabled = true) (u : Str)
    (hu : c!"urn:uuid:".isPrefixOf u = true) (par par' : ParDb) (cdb : Cdb) (req r p : AuthReq)
    (h1 : req.requestUri = some u) (hp : par u = some p) (hpn : p.requestUri = none)
    (h : authzParse env cdb par req = (par', .val r)) :
    ∃ ru m, r = { p with redirectUri := some ru, codeChallengeMethod := m } ∧
      (∀ x, p.redirectUri = some x → ru = x) ∧
      (m = p.codeChallengeMethod ∨ (p.codeChallengeMethod = none ∧ m = some c!"plain")) := by
  have geturi : ∀ {c : Str} {o : Option Str} {v x : Str}, getUri env.lib cdb .redirect c o = .ok v → o = some x → v = x := by
    intro c o v x hg ho
    rcases C22_get_uri env.lib cdb .redirect c o v hg with ⟨k, _⟩ | ⟨k, _⟩ | ⟨k, _⟩
    · rw [k] at ho; exact Option.some.inj ho
    · rw [k] at ho; cases ho
    · rw [k] at ho; cases ho
  have hd := doRequestUri_urn hpe hu cdb req.clientId par req h1
  rw [hp] at hd
  obtain ⟨p1, p2, q, q', ru, hsteps, _, hgu, hq', _, hl⟩ := authzParse_val h
  have hq : ∃ ru', q = { p with redirectUri := ru' } ∧ (∀ x, p.redirectUri = some x → ru' = some x) := by
    rcases hsteps with ⟨_, _, e⟩ | ⟨_, p0, r0, u0, e0, e1, _, e⟩
    · rw [hd] at e
      simp at e
      exact ⟨p.redirectUri, by rw [← e.2], fun x hx => hx⟩
    · rw [hd] at e0
      simp at e0
      obtain ⟨_, rfl⟩ := e0
      simp [doRequestUri, hpn] at e
      exact ⟨some u0, by rw [← e.2]; simp [hpn], fun x hx => by rw [geturi e1 hx]⟩
  obtain ⟨ru', rfl, hru'⟩ := hq
  have hru : ∀ x, p.redirectUri = some x → ru = x := fun x hx => geturi hgu (hru' x hx)
  subst hq'
  rcases hl with ⟨_, rfl⟩ | ⟨k, _, hk⟩
  · exact ⟨ru, p.codeChallengeMethod, rfl, hru, .inl rfl⟩
  · rw [(pkceParse_val hk).1]
    refine ⟨ru, _, rfl, hru, ?_⟩
    simp only
    cases hm : p.codeChallengeMethod with
    | none => exact .inr ⟨rfl, rfl⟩
    | some m => exact .inl rfl

/-- The demo provider when the request object at `https://c1/ro` grants no more than `openid`, and later asks for more. -/
def fetchScope (l : List Str) : Str → Str → AuthReq → Except Exn AuthReq := fun _ _ r => .ok { r with scope := l }

/-- C25 is false for pushed requests that refer to a request object: it is fetched again when the pushed request is used,
and what is processed is the new content. -/
theorem C25_pushed_request_object_refetched :
    let env1 := { demoEnv with fetch := fetchScope [c!"openid"] }
    let env2 := { demoEnv with fetch := fetchScope [c!"openid", c!"offline_access"] }
    let req := { demoReq [c!"code"] with requestUri := some c!"https://c1/ro" }
    let par := parStep env1 (fun _ => none) (.push demoDb c!"c1" req c!"urn:uuid:1")
    (∃ p, par c!"urn:uuid:1" = some p ∧ p.scope = [c!"openid"]) ∧
    ∃ par' r, authzParse env2 demoDb par { demoReq [c!"code"] with requestUri := some c!"urn:uuid:1" } = (par', .val r) ∧
      r.scope = [c!"openid", c!"offline_access"] := by
  refine ⟨⟨_, rfl, rfl⟩, _, _, rfl, rfl⟩

/-- C62: a pushed request URI is not bound to the client that pushed it: here `c2` uses what `c1` pushed, and the request
of `c1` is processed. -/
theorem C62_pushed_uri_used_by_other_client :
    let par := parStep demoEnv (fun _ => none) (.push demoDb c!"c1" (demoReq [c!"code"]) c!"urn:uuid:1")
    ∃ par' r, authzParse demoEnv demoDb par
        { clientId := c!"c2", responseType := [c!"code"], scope := [c!"openid"], requestUri := some c!"urn:uuid:1" } =
        (par', .val r) ∧ r.clientId = c!"c1" := by
  exact ⟨_, _, rfl, rfl⟩

/-- The hypotheses of the C25 theorems hold for the demo: a push, then a use. -/
example : ∃ par' r, authzParse demoEnv demoDb
    (parRun demoEnv (fun _ => none) [.push demoDb c!"c1" (demoReq [c!"code"]) c!"urn:uuid:1"])
    { demoReq [c!"code"] with requestUri := some c!"urn:uuid:1" } = (par', .val r) := ⟨_, _, rfl⟩

end Verif
