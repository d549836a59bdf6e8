import Verif.Props.ProviderAuthn
/-! Pushed authorization requests over the whole life of a provider: C127, C128. -/
namespace Verif
open Spec

/-! ### C127: a pushed request is that of the client that was authenticated -/

/-- Fetching a request object does not change the client id (what RFC 9101, 5 demands of a provider). -/
def FetchKeepsClient (env : Env) : Prop := ∀ c uri req r, env.fetch c uri req = .ok r → r.clientId = req.clientId

/-- A step keeps the client id or takes that of a pushed request. -/
def IdStep (f : ParseStep) : Prop := ∀ par req par' r, f par req = (par', .val r) →
  r.clientId = req.clientId ∨ ∃ u p, par u = some p ∧ r.clientId = p.clientId

theorem idStep_doRequestUri {env : Env} (hf : FetchKeepsClient env) (cdb : Cdb) (client : Str) : IdStep (doRequestUri env cdb client) := by
  intro par req par' r h
  unfold doRequestUri at h
  split at h
  · cases h; exact Or.inl rfl
  · cases h; exact Or.inl rfl
  · rename_i uri _ _
    split at h
    · cases hp : par uri with
      | none => simp only [hp] at h; cases h
      | some p => simp only [hp] at h; cases h; exact Or.inr ⟨_, _, hp, rfl⟩
    · split at h
      · cases h
      · split at h
        · cases h
        · split at h
          · cases h
          · rename_i he; cases h; exact Or.inl (hf _ _ _ _ he)

theorem idStep_postParse (env : Env) (cdb : Cdb) (client : Str) : IdStep (postParse env cdb client) := by
  intro par req par' r h
  unfold postParse at h
  split at h
  · cases h
  · split at h
    · cases h
    · split at h
      · simp only [Prod.mk.injEq] at h
        have := h.2
        split at this <;> cases this
      · cases h; exact Or.inl rfl

theorem idStep_pkce (p : Pkce) : IdStep (fun par req => (par, pkceParse p req)) := by
  intro par req par' r h
  simp only [Prod.mk.injEq] at h
  have := h.2
  unfold pkceParse at this
  split at this
  · cases this
  · simp only at this
    split at this
    · cases this
    · cases this; exact Or.inl rfl

theorem idStep_run {fs : List ParseStep} (hi : ∀ f ∈ fs, IdStep f) (hn : ∀ f ∈ fs, NoAdd f) : IdStep (runSteps fs) := by
  induction fs with
  | nil => intro par req par' r h; unfold runSteps at h; cases h; exact Or.inl rfl
  | cons f fs ih =>
    intro par req par' r h
    obtain ⟨p1, r1, h1, h2⟩ := runSteps_cons_val h
    have a := hi f (by simp) _ _ _ _ h1
    rcases ih (fun g hg => hi g (by simp [hg])) (fun g hg => hn g (by simp [hg])) _ _ _ _ h2 with b | ⟨u, p, b1, b2⟩
    · rw [b]; exact a
    · refine Or.inr ⟨u, p, ?_, b2⟩
      have := hn f (by simp) par req u
      rw [h1] at this
      rcases this with e | e
      · rw [← e]; exact b1
      · simp only at e; rw [b1] at e; cases e

theorem pushSteps_ok {env : Env} (hf : FetchKeepsClient env) (cdb : Cdb) (client : Str) :
    ∀ f ∈ [doRequestUri env cdb client, postParse env cdb client, postParse env cdb client], IdStep f ∧ NoAdd f := by
  intro f hm
  simp only [List.mem_cons, List.not_mem_nil, or_false] at hm
  rcases hm with rfl | rfl | rfl
  · exact ⟨idStep_doRequestUri hf cdb client, noAdd_doRequestUri env cdb client⟩
  · exact ⟨idStep_postParse env cdb client, noAdd_postParse env cdb client⟩
  · exact ⟨idStep_postParse env cdb client, noAdd_postParse env cdb client⟩

theorem authzSteps_id {env : Env} (hf : FetchKeepsClient env) (cdb : Cdb) (client : Str) : ∀ f ∈ authzSteps env cdb client, IdStep f := by
  intro f hm
  unfold authzSteps at hm
  simp only [List.mem_append] at hm
  have two : f ∈ [doRequestUri env cdb client, postParse env cdb client] → IdStep f := by
    intro h
    simp only [List.mem_cons, List.not_mem_nil, or_false] at h
    rcases h with rfl | rfl
    · exact idStep_doRequestUri hf cdb client
    · exact idStep_postParse env cdb client
  rcases hm with (hm | hm) | hm
  · exact two hm
  · split at hm
    · exact two hm
    · cases hm
  · split at hm
    · simp only [List.mem_cons, List.not_mem_nil, or_false] at hm; subst hm; exact idStep_pkce _
    · cases hm

theorem pushedBy_mono {cfg : ProvCfg} {ops : List HttpOp} {i j : Nat} {c : Str} (h : PushedBy cfg ops i c) (hij : i ≤ j) : PushedBy cfg ops j c := by
  obtain ⟨k, now, r, req, urn, h1, h2, h3⟩ := h
  exact ⟨k, now, r, req, urn, by omega, h2, h3⟩

/-- What changes the pushed requests: pushes add one, everything else at most removes. -/
theorem provStep_par {cfg : ProvCfg} {st : Prov} {op : HttpOp} {u : Str} {q : AuthReq} (h : (provStep cfg st op).par u = some q) :
    st.par u = some q ∨ ∃ now r req urn j o c par', op = .push now r req urn ∧
      clientAuthentication cfg.lib st.cdb now cfg.pushMethods cfg.pushTargets plainFromToken st.jtis r = (j, .ok o) ∧
      requestClient r o = some c ∧ pushParse cfg.sys.env st.cdb st.par c req = (par', .val q) := by
  cases op with
  | push now r req urn =>
    simp only [provStep, pushEndpoint] at h
    cases hy : clientAuthentication cfg.lib st.cdb now cfg.pushMethods cfg.pushTargets plainFromToken st.jtis r with
    | mk j o =>
      rw [hy] at h
      cases o with
      | error e => exact Or.inl h
      | ok o =>
        simp only at h
        cases hc : requestClient r o with
        | none => rw [hc] at h; exact Or.inl h
        | some c =>
          rw [hc] at h
          simp only at h
          have hm := fun fs (hx : ∀ f ∈ fs, NoAdd f) => runSteps_noAdd fs hx st.par { req with clientId := c } u
          have hm := hm [doRequestUri cfg.sys.env st.cdb c, postParse cfg.sys.env st.cdb c, postParse cfg.sys.env st.cdb c] (by
            intro f hf
            simp only [List.mem_cons, List.not_mem_nil, or_false] at hf
            rcases hf with rfl | rfl | rfl
            · exact noAdd_doRequestUri _ _ _
            · exact noAdd_postParse _ _ _
            · exact noAdd_postParse _ _ _)
          change (pushParse cfg.sys.env st.cdb st.par c req).1 u = _ ∨ (pushParse cfg.sys.env st.cdb st.par c req).1 u = _ at hm
          cases hz : pushParse cfg.sys.env st.cdb st.par c req with
          | mk par' o' =>
            rw [hz] at h hm
            have keep : par' u = some q → st.par u = some q := by
              intro e
              rcases hm with hm | hm
              · rw [← hm]; exact e
              · simp only at hm; rw [hm] at e; cases e
            cases o' with
            | errMsg e => exact Or.inl (keep h)
            | raise e => exact Or.inl (keep h)
            | val q' =>
              simp only [pushStore] at h
              split at h
              · cases h; exact Or.inr ⟨now, r, req, urn, j, o, c, par', rfl, hy, hc, hz⟩
              · exact Or.inl (keep h)
  | authorize now gid mc ma idt raw req =>
    left
    simp only [provStep, authorizeEndpoint] at h
    have hm := runSteps_noAdd _ (authzSteps_noAdd cfg.sys.env st.cdb req.areq.clientId) st.par req.areq u
    change (authzParse cfg.sys.env st.cdb st.par req.areq).1 u = _ ∨ (authzParse cfg.sys.env st.cdb st.par req.areq).1 u = _ at hm
    generalize authzParse cfg.sys.env st.cdb st.par req.areq = z at h hm
    obtain ⟨par', o⟩ := z
    have e : par' u = some q := by cases o <;> exact h
    rcases hm with hm | hm
    · rw [← hm]; exact e
    · simp only at hm; rw [hm] at e; cases e
  | tokenParse now r req =>
    left
    simp only [provStep] at h
    split at h <;> exact h
  | restart =>
    left
    simp only [provStep] at h
    split at h
    · exact h
    · cases h
  | _ => exact Or.inl h

/-- The pushed requests that are stored: each was pushed by somebody who showed the secret of the client it names. -/
theorem par_pushed {cfg : ProvCfg} (hf : FetchKeepsClient cfg.sys.env) (hs : SecretOnly cfg.pushMethods) (hne : cfg.pushMethods ≠ [])
    (ops : List HttpOp) (i : Nat) : ∀ u q, (provRun cfg (ops.take i)).par u = some q → PushedBy cfg ops i q.clientId := by
  induction i with
  | zero => intro u q h; rw [List.take_zero] at h; cases h
  | succ i ih =>
    intro u q h
    cases ho : ops[i]? with
    | none =>
      rw [List.take_add_one, ho] at h
      simp only [Option.toList_none, List.append_nil] at h
      exact pushedBy_mono (ih u q h) (by omega)
    | some op =>
      rw [take_snoc ho, provRun_snoc] at h
      rcases provStep_par h with h | ⟨now, r, req, urn, j, o, c, par', rfl, h1, h2, h3⟩
      · exact pushedBy_mono (ih u q h) (by omega)
      · obtain ⟨c', cl, s, q1, q2, q3, q4, q5⟩ := C40_request_client _ _ _ _ _ _ _ _ _ _ hs hne h1
        rw [h2] at q1
        cases q1
        have hok := pushSteps_ok hf (provRun cfg (ops.take i)).cdb c
        rcases idStep_run (fun f hf => (hok f hf).1) (fun f hf => (hok f hf).2) _ _ _ _ h3 with e | ⟨u', p, e1, e2⟩
        · exact ⟨i, now, r, req, urn, by omega, ho, cl, s, e ▸ q2, q3, e ▸ q4, q5⟩
        · rw [e2]; exact pushedBy_mono (ih u' p e1) (by omega)

/-- **C127**: where the pushed authorization endpoint takes client secrets only, and request objects cannot name another client
than the request: an authorization request that refers to a pushed one is processed in the name of a client only if somebody
who showed that client's secret pushed a request. -/
theorem C127_pushed_request_is_the_clients_partial (cfg : ProvCfg) (hf : FetchKeepsClient cfg.sys.env) (hs : SecretOnly cfg.pushMethods)
    (hne : cfg.pushMethods ≠ []) (hpe : cfg.sys.env.parEnabled = true) (ops : List HttpOp) (i : Nat) (req q : AuthReq) (u : Str)
    (hu : c!"urn:uuid:".isPrefixOf u = true) (hr : req.requestUri = some u) (h : Parsed cfg (provRun cfg (ops.take i)) req q) :
    PushedBy cfg ops i q.clientId := by
  unfold Parsed at h
  have hinv := par_pushed hf hs hne ops i
  generalize provRun cfg (ops.take i) = st at h hinv
  cases hz : authzParse cfg.sys.env st.cdb st.par req with
  | mk par' o =>
    rw [hz] at h
    simp only at h
    subst h
    unfold authzParse at hz
    have hsteps : authzSteps cfg.sys.env st.cdb req.clientId = doRequestUri cfg.sys.env st.cdb req.clientId ::
        (authzSteps cfg.sys.env st.cdb req.clientId).tail := by
      unfold authzSteps; rfl
    have hid := authzSteps_id hf st.cdb req.clientId
    have hno := authzSteps_noAdd cfg.sys.env st.cdb req.clientId
    rw [hsteps] at hz hid hno
    obtain ⟨p1, r1, h1, h2⟩ := runSteps_cons_val hz
    have h3 := doRequestUri_urn hpe hu st.cdb req.clientId st.par req hr
    have hstored : ∃ p, st.par u = some p ∧ r1 = p := by
      cases hp : st.par u with
      | none => rw [hp] at h3; rw [h3] at h1; cases h1
      | some p => rw [hp] at h3; rw [h3] at h1; cases h1; exact ⟨_, rfl, rfl⟩
    obtain ⟨p, hp, rfl⟩ := hstored
    rcases idStep_run (fun f hf => hid f (by simp [hf])) (fun f hf => hno f (by simp [hf])) _ _ _ _ h2 with e | ⟨u', p', e1, e2⟩
    · rw [e]; exact hinv u _ hp
    · rw [e2]
      have := hno (doRequestUri cfg.sys.env st.cdb req.clientId) (by simp) st.par req u'
      rw [h1] at this
      rcases this with k | k
      · exact hinv u' p' (by rw [← k]; exact e1)
      · simp only at k; rw [e1] at k; cases k

/-- A provider where clients push their requests. -/
def parCfg (f : Str → Str → AuthReq → Except Exn AuthReq) : ProvCfg :=
  { webCfg with sys := { demoCfg .aliased with env := { demoEnv with fetch := f } }, pushMethods := [some .clientSecretPost] }

def webReg2 : RegRec := [(c!"redirect_uris", .strs [c!"https://rp2/cb"]), (c!"response_types", .strs [c!"code"])]
def webRegIn2 : RegIn := { now := 999, ids := [c!"c2"], salt := c!"salt", rat := c!"rat2", secret := c!"s2" }
def urn1 : Str := c!"urn:uuid:1"

/-- Two clients; the first pushes a request. -/
def parOps (req : AuthReq) : List HttpOp :=
  [.register webRegIn true true true webReg, .register webRegIn2 true true true webReg2, .push 1000 webSecret req urn1]

def parsedClient (cfg : ProvCfg) (st : Prov) (req : AuthReq) : Option (Str × Option Str) :=
  (outVal (authzParse cfg.sys.env st.cdb st.par req).2).map (fun q => (q.clientId, q.redirectUri))

theorem parsedClient_some {cfg : ProvCfg} {st : Prov} {req : AuthReq} {x : Str × Option Str} (h : parsedClient cfg st req = some x) :
    ∃ q, Parsed cfg st req q ∧ q.clientId = x.1 ∧ q.redirectUri = x.2 := by
  unfold parsedClient at h
  simp only [Option.map_eq_some_iff] at h
  obtain ⟨q, h1, h2⟩ := h
  refine ⟨q, ?_, by rw [← h2], by rw [← h2]⟩
  unfold Parsed
  cases hz : (authzParse cfg.sys.env st.cdb st.par req).2 <;> rw [hz] at h1 <;> cases h1
  rfl

set_option maxRecDepth 16000 in
/-- C127's hypotheses are met: `c1` pushes a request, which is then processed as its own. -/
example : FetchKeepsClient (parCfg (fun _ _ r => .ok r)).sys.env ∧ SecretOnly (parCfg (fun _ _ r => .ok r)).pushMethods ∧
    parsedClient (parCfg (fun _ _ r => .ok r)) (provRun (parCfg (fun _ _ r => .ok r)) (parOps (demoReq [c!"code"])))
      { demoReq [c!"code"] with requestUri := some urn1 } = some (c!"c1", some c!"https://rp/cb") := by
  refine ⟨?_, ?_, by decide⟩
  · intro c uri req r h; cases h; rfl
  · unfold SecretOnly; decide

/-- A request object that names another client and its address (oauth2/authorization.py:387-388 copies them all). -/
def namesOther : Str → Str → AuthReq → Except Exn AuthReq := fun _ _ r =>
  .ok { r with clientId := c!"c2", redirectUri := some c!"https://rp2/cb" }

set_option maxRecDepth 16000 in
/-- **C127** is false of the code: the parameters of a request object replace those of the request, the client id as well.  `c1`
shows its own secret and pushes a request that refers to such a request object; it is stored, and later processed, as one
of `c2`, which nobody authenticated as. -/
theorem C127_pushed_in_anothers_name :
    let ops := parOps { demoReq [c!"code"] with requestUri := some c!"https://c1/ro" }
    (∃ q, Parsed (parCfg namesOther) (provRun (parCfg namesOther) ops) { demoReq [c!"code"] with requestUri := some urn1 } q ∧
      q.clientId = c!"c2") ∧ ¬ PushedBy (parCfg namesOther) ops 3 c!"c2" := by
  intro ops
  constructor
  · have h : parsedClient (parCfg namesOther) (provRun (parCfg namesOther) (parOps { demoReq [c!"code"] with requestUri := some c!"https://c1/ro" }))
        { demoReq [c!"code"] with requestUri := some urn1 } = some (c!"c2", some c!"https://rp2/cb") := by decide
    obtain ⟨q, h1, h2, _⟩ := parsedClient_some h
    exact ⟨q, h1, h2⟩
  · rintro ⟨k, now, r, req, urn, hk, ho, cl, s, h1, h2, h3, h4⟩
    have hm : HttpOp.push now r req urn ∈ ops := List.mem_of_getElem? ho
    simp only [ops, parOps, List.mem_cons, List.not_mem_nil, or_false, reduceCtorEq, false_or, HttpOp.push.injEq] at hm
    obtain ⟨-, rfl, -, -⟩ := hm
    rcases h3 with h3 | h3
    · revert h3; simp [webSecret]
    · revert h3; simp [webSecret]

/-! ### C128: pushed requests do not expire -/

/-- Requests that are about neither clients nor authorization requests, and no restart. -/
def Unrelated : HttpOp → Prop
  | .tokenParse _ _ _ | .tokenProcess _ _ | .userinfo _ _ | .introspect _ _ _ | .logout _ _ _ => True
  | _ => False

/-- **C128** is false of the code: the lifetime that is announced with a pushed request (`expires_in`) is not kept anywhere.
Whenever a reference to a pushed request is good, it is good at every later time, whatever unrelated requests came in between. -/
theorem C128_pushed_requests_never_expire (cfg : ProvCfg) (ops rest : List HttpOp) (hrest : ∀ op ∈ rest, Unrelated op) (req q : AuthReq)
    (h : Parsed cfg (provRun cfg ops) req q) (now : Int) (gid : Str) (mc ma : MintIn) (idt : Out Str) (raw : Option Str) (ur : UserReq) :
    Parsed cfg (provRun cfg (ops ++ rest)) req q ∧
    (authorizeEndpoint cfg (provRun cfg (ops ++ rest)) now gid mc ma idt raw { ur with areq := req }).2 =
      authzBrowser cfg.sys.env cfg.acfg (provRun cfg (ops ++ rest)).cdb (provRun cfg (ops ++ rest)).sys.store now gid mc ma idt raw
        { ur with areq := q } := by
  have same : (provRun cfg (ops ++ rest)).cdb = (provRun cfg ops).cdb ∧ (provRun cfg (ops ++ rest)).par = (provRun cfg ops).par := by
    induction rest using snocInd with
    | nil => rw [List.append_nil]; exact ⟨rfl, rfl⟩
    | append_singleton l op ih =>
      have := ih (fun o ho => hrest o (by simp [ho]))
      rw [← List.append_assoc, provRun_snoc, ← this.1, ← this.2]
      have hu := hrest op (by simp)
      cases op with
      | tokenParse now r req => simp only [provStep]; split <;> exact ⟨rfl, rfl⟩
      | tokenProcess i req => exact ⟨rfl, rfl⟩
      | userinfo now r => exact ⟨rfl, rfl⟩
      | introspect now r t => exact ⟨rfl, rfl⟩
      | logout p s a => exact ⟨rfl, rfl⟩
      | _ => exact absurd hu id
  have hp : Parsed cfg (provRun cfg (ops ++ rest)) req q := by
    unfold Parsed
    rw [same.1, same.2]; exact h
  refine ⟨hp, ?_⟩
  unfold Parsed at hp
  simp only [authorizeEndpoint]
  generalize authzParse cfg.sys.env (provRun cfg (ops ++ rest)).cdb (provRun cfg (ops ++ rest)).par req = z at hp
  obtain ⟨p, o⟩ := z
  simp only at hp
  subst hp
  rfl

set_option maxRecDepth 64000 in
/-- A request pushed at time 1000 is answered with a code more than an hour later. -/
example : replyCode (authorizeEndpoint (parCfg (fun _ _ r => .ok r)) (provRun (parCfg (fun _ _ r => .ok r)) (parOps (demoReq [c!"code"])))
    4700 c!"g1" (mintIn c!"n1") (mintIn c!"n2") (.val c!"IDT")
    ((createCookieValue demoAuthn.cr demoAuthn.dealer 4700 [] c!"diana" c!"sso").toOption)
    { areq := { clientId := c!"c1", responseType := [c!"code"], scope := [c!"openid"], requestUri := some urn1 } }).2.2.2 =
    some (some c!"https://rp/cb", some (handlerCall demoCrypto ⟨.jwt, c!"A", 5, c!"k1"⟩ 4700 [] c!"n1" c!"diana;;c1;;g1" [])) := by
  decide

end Verif
