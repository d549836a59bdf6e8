import Verif.Spec.PushedSame
import Verif.Props.ProviderPush
import Verif.Props.RegLasts
set_option linter.unusedSimpArgs false
set_option linter.unusedVariables false
/-! C160: a pushed request works as if it had been sent directly. -/
namespace Verif
open Spec

/-- The name of a pushed request. -/
def IsUrn (u : Str) : Prop := c!"urn:uuid:".isPrefixOf u = true

def CleanReq (r : AuthReq) : Prop := ∀ u, r.requestUri = some u → ¬ IsUrn u
def CleanPar (par : ParDb) : Prop := ∀ k r, par k = some r → CleanReq r

theorem clean_of_no {r : AuthReq} (h : NoRequestUri r) : CleanReq r := by
  intro u hu
  rcases h with h | h
  · rw [h] at hu; cases hu
  · rw [h] at hu; cases hu; unfold IsUrn; decide

/-- Resolving a request URI. -/
theorem doRequestUri_clean {env : Env} (hpe : env.parEnabled = true) (hf : FetchKeepsUri env) (cdb : Cdb) (client : Str) {par : ParDb} (hp : CleanPar par)
    (req : AuthReq) {urn : Str} (hu : IsUrn urn) (hr : req.requestUri ≠ some urn) :
    (doRequestUri env cdb client par req).1 urn = par urn ∧ CleanPar (doRequestUri env cdb client par req).1 ∧
    ∀ r, (doRequestUri env cdb client par req).2 = .val r → CleanReq r := by
  unfold doRequestUri
  split
  · rename_i h; exact ⟨rfl, hp, fun r e => by cases e; exact clean_of_no (Or.inl h)⟩
  · rename_i h; exact ⟨rfl, hp, fun r e => by cases e; exact clean_of_no (Or.inr h)⟩
  · rename_i uri hne h
    by_cases hpre : env.parEnabled = true ∧ c!"urn:uuid:".isPrefixOf uri = true
    · simp only [hpre, if_true, and_self]
      cases hx : par uri with
      | none => exact ⟨rfl, hp, fun r e => by cases e⟩
      | some q =>
        refine ⟨?_, ?_, fun r e => by cases e; exact hp _ _ hx⟩
        · simp only
          rw [if_neg]
          rintro rfl
          exact hr h
        · intro k r hk
          simp only at hk
          split at hk
          · cases hk
          · exact hp _ _ hk
    · rw [if_neg hpre]
      have hnu : ¬ IsUrn uri := fun hx => hpre ⟨hpe, hx⟩
      split
      · exact ⟨rfl, hp, fun r e => by cases e⟩
      · split
        · exact ⟨rfl, hp, fun r e => by cases e⟩
        · split
          · exact ⟨rfl, hp, fun r e => by cases e⟩
          · rename_i he
            refine ⟨rfl, hp, fun r e => ?_⟩
            cases e
            intro u hu
            rw [hf _ _ _ _ he, h] at hu
            cases hu
            exact hnu

/-- A parsing step that leaves the pushed requests alone if the request is clean, and keeps it so. -/
def CleanStep (urn : Str) (f : ParseStep) : Prop := ∀ par req, CleanPar par → CleanReq req → (f par req).1 urn = par urn ∧ CleanPar (f par req).1 ∧
  ∀ r, (f par req).2 = .val r → CleanReq r

theorem cleanStep_uri {env : Env} (hpe : env.parEnabled = true) (hf : FetchKeepsUri env) (cdb : Cdb) (client : Str) {urn : Str} (hu : IsUrn urn) :
    CleanStep urn (doRequestUri env cdb client) :=
  fun par req hp hr => doRequestUri_clean hpe hf cdb client hp req hu fun h => hr _ h hu

theorem cleanStep_post (env : Env) (cdb : Cdb) (client urn : Str) : CleanStep urn (postParse env cdb client) := by
  intro par req hp hr
  refine ⟨by rw [postParse_par], by rw [postParse_par]; exact hp, fun r h => ?_⟩
  obtain ⟨-, -, u, -, rfl⟩ := postParse_val (par' := (postParse env cdb client par req).1) (r := r) (Prod.ext rfl h)
  exact hr

theorem cleanStep_pkce (p : Pkce) (urn : Str) : CleanStep urn (fun par req => (par, pkceParse p req)) := by
  intro par req hp hr
  refine ⟨rfl, hp, fun r h => ?_⟩
  simp only [pkceParse] at h
  split at h
  · cases h
  · split at h
    · cases h
    · cases h; exact hr

theorem runSteps_clean {urn : Str} (fs : List ParseStep) (h : ∀ f ∈ fs, CleanStep urn f) : CleanStep urn (runSteps fs) := by
  induction fs with
  | nil => intro par req hp hr; exact ⟨rfl, hp, fun r e => by cases e; exact hr⟩
  | cons f fs ih =>
    intro par req hp hr
    have a := h f (by simp) par req hp hr
    unfold runSteps
    generalize f par req = x at a ⊢
    obtain ⟨p1, o⟩ := x
    cases o with
    | errMsg e => exact ⟨a.1, a.2.1, fun r e => by cases e⟩
    | raise e => exact ⟨a.1, a.2.1, fun r e => by cases e⟩
    | val r =>
      have b := ih (fun g hg => h g (by simp [hg])) p1 r a.2.1 (a.2.2 r rfl)
      exact ⟨b.1.trans a.1, b.2⟩

/-- The steps of both endpoints begin with resolving the request URI. -/
theorem runSteps_first {env : Env} (hpe : env.parEnabled = true) (hf : FetchKeepsUri env) (cdb : Cdb) (client : Str) {urn : Str} (hu : IsUrn urn)
    (fs : List ParseStep) (h : ∀ f ∈ fs, CleanStep urn f) {par : ParDb} (hp : CleanPar par) (req : AuthReq) (hr : req.requestUri ≠ some urn) :
    (runSteps (doRequestUri env cdb client :: fs) par req).1 urn = par urn ∧ CleanPar (runSteps (doRequestUri env cdb client :: fs) par req).1 ∧
    ∀ r, (runSteps (doRequestUri env cdb client :: fs) par req).2 = .val r → CleanReq r := by
  have a := doRequestUri_clean hpe hf cdb client hp req hu hr
  unfold runSteps
  generalize doRequestUri env cdb client par req = x at a ⊢
  obtain ⟨p1, o⟩ := x
  cases o with
  | errMsg e => exact ⟨a.1, a.2.1, fun r e => by cases e⟩
  | raise e => exact ⟨a.1, a.2.1, fun r e => by cases e⟩
  | val r =>
    have b := runSteps_clean fs h p1 r a.2.1 (a.2.2 r rfl)
    exact ⟨b.1.trans a.1, b.2⟩

theorem authzParse_clean {env : Env} (hpe : env.parEnabled = true) (hf : FetchKeepsUri env) (cdb : Cdb) {urn : Str} (hu : IsUrn urn)
    {par : ParDb} (hp : CleanPar par) (req : AuthReq) (hr : req.requestUri ≠ some urn) :
    (authzParse env cdb par req).1 urn = par urn ∧ CleanPar (authzParse env cdb par req).1 := by
  have := runSteps_first hpe hf cdb req.clientId hu ([postParse env cdb req.clientId] ++
    (if env.oidc then [doRequestUri env cdb req.clientId, postParse env cdb req.clientId] else []) ++ (match env.pkce with
    | some p => [fun par req => (par, pkceParse p req)]
    | none => [])) (by
      intro f hm
      simp only [List.mem_append] at hm
      rcases hm with (hm | hm) | hm
      · simp at hm; subst hm; exact cleanStep_post _ _ _ _
      · split at hm
        · simp at hm
          rcases hm with rfl | rfl
          · exact cleanStep_uri hpe hf _ _ hu
          · exact cleanStep_post _ _ _ _
        · simp at hm
      · split at hm
        · simp at hm; subst hm; exact cleanStep_pkce _ _
        · simp at hm) hp req hr
  exact ⟨this.1, this.2.1⟩

theorem pushParse_clean {env : Env} (hpe : env.parEnabled = true) (hf : FetchKeepsUri env) (cdb : Cdb) {urn : Str} (hu : IsUrn urn)
    {par : ParDb} (hp : CleanPar par) (client : Str) (req : AuthReq) (hr : req.requestUri ≠ some urn) :
    (pushParse env cdb par client req).1 urn = par urn ∧ CleanPar (pushParse env cdb par client req).1 ∧
    ∀ r, (pushParse env cdb par client req).2 = .val r → CleanReq r :=
  runSteps_first hpe hf cdb client hu _ (by
    intro f hm
    simp only [List.mem_cons, List.not_mem_nil, or_false, or_self] at hm
    subst hm; exact cleanStep_post _ _ _ _) hp _ hr

/-- There is some pushed request's name that a given request does not use. -/
theorem some_urn (req : AuthReq) : ∃ u, IsUrn u ∧ req.requestUri ≠ some u := by
  by_cases h : req.requestUri = some c!"urn:uuid:1"
  · exact ⟨c!"urn:uuid:2", by unfold IsUrn; decide, by rw [h]; simp⟩
  · exact ⟨c!"urn:uuid:1", by unfold IsUrn; decide, h⟩

theorem step_clean {cfg : ProvCfg} (hpe : cfg.sys.env.parEnabled = true) (hf : FetchKeepsUri cfg.sys.env) {st : Prov} (hp : CleanPar st.par) (op : HttpOp) :
    CleanPar (provStep cfg st op).par := by
  cases op with
  | push now r req urn =>
    obtain ⟨u, hu, hr⟩ := some_urn req
    simp only [provStep, pushEndpoint]
    split
    · exact hp
    · split
      · exact hp
      · rename_i c _
        have a := pushParse_clean hpe hf st.cdb hu hp c req hr
        split
        · rename_i hx
          rw [hx] at a
          intro k x hk
          simp only [pushStore] at hk
          split at hk
          · cases hk; exact a.2.2 _ rfl
          · exact a.2.1 _ _ hk
        · rename_i hx; rw [hx] at a; exact a.2.1
        · rename_i hx; rw [hx] at a; exact a.2.1
  | authorize now gid mc ma idt raw req =>
    obtain ⟨u, hu, hr⟩ := some_urn req.areq
    have a := authzParse_clean hpe hf st.cdb hu hp req.areq hr
    simp only [provStep, authorizeEndpoint]
    split <;> (rename_i hx; rw [hx] at a; exact a.2)
  | tokenParse now r req =>
    simp only [provStep]
    split <;> exact hp
  | restart =>
    simp only [provStep]
    split
    · exact hp
    · intro k x hk; cases hk
  | _ => exact hp

theorem run_clean {cfg : ProvCfg} (hpe : cfg.sys.env.parEnabled = true) (hf : FetchKeepsUri cfg.sys.env) (ops : List HttpOp) : CleanPar (provRun cfg ops).par := by
  induction ops using snocInd with
  | nil => intro k x hk; cases hk
  | append_singleton l op ih => rw [provRun_snoc]; exact step_clean hpe hf ih op

/-- A pushed request stays until it is used. -/
theorem pushed_stays {cfg : ProvCfg} (hpe : cfg.sys.env.parEnabled = true) (hf : FetchKeepsUri cfg.sys.env) (hist mid : List HttpOp) {urn : Str} (hu : IsUrn urn)
    (hm : ∀ op ∈ mid, LeavesPushed cfg urn op) : (provRun cfg (hist ++ mid)).par urn = (provRun cfg hist).par urn := by
  induction mid using snocInd with
  | nil => simp
  | append_singleton l op ih =>
    rw [← List.append_assoc, provRun_snoc]
    have hp := run_clean hpe hf (hist ++ l)
    have hl := hm op (by simp)
    rw [← ih fun o ho => hm o (by simp [ho])]
    generalize provRun cfg (hist ++ l) = st at hp ⊢
    cases op with
    | push now r req urn' =>
      simp only [provStep, pushEndpoint]
      split
      · rfl
      · split
        · rfl
        · rename_i c _
          have a := pushParse_clean hpe hf st.cdb hu hp c req hl.1
          split
          · rename_i hx
            rw [hx] at a
            simp only [pushStore]
            rw [if_neg (fun e => hl.2 e.symm)]
            exact a.1
          · rename_i hx; rw [hx] at a; exact a.1
          · rename_i hx; rw [hx] at a; exact a.1
    | authorize now gid mc ma idt raw req =>
      have a := authzParse_clean hpe hf st.cdb hu hp req.areq hl
      simp only [provStep, authorizeEndpoint]
      split <;> (rename_i hx; rw [hx] at a; exact a.1)
    | tokenParse now r req =>
      simp only [provStep]
      split <;> rfl
    | restart =>
      simp only [provStep]
      rw [if_pos (show cfg.parDurable = true from hl)]
    | _ => rfl

/-- What `get_uri` says about a client depends on its record only. -/
theorem getUri_record {a b : Cdb} {c : Str} (h : (a c).map (fun cl => { cl with claims := [] }) = (b c).map (fun cl => { cl with claims := [] }))
    (lib : UriLib) (ty : UriType) (uri : Option Str) : getUri lib a ty c uri = getUri lib b ty c uri := by
  have : getUri lib (fun _ => a c) ty c uri = getUri lib (fun _ => b c) ty c uri := SameButClaims.getUri (fun _ => h) lib ty c uri
  exact this

theorem doRequestUri_none {env : Env} {cdb : Cdb} {client : Str} {par : ParDb} {req : AuthReq} (h : NoRequestUri req) :
    doRequestUri env cdb client par req = (par, .val req) := by
  unfold doRequestUri
  rcases h with h | h <;> rw [h]

/-- What is stored of a pushed request. -/
theorem pushParse_none {env : Env} {cdb : Cdb} {par par' : ParDb} {c : Str} {req q : AuthReq} (hn : NoRequestUri req)
    (h : pushParse env cdb par c req = (par', .val q)) :
    par' = par ∧ ∃ cl u, cdb c = some cl ∧ verifyResponseType req cl = true ∧ getUri env.lib cdb .redirect c req.redirectUri = .ok u ∧
      getUri env.lib cdb .redirect c (some u) = .ok u ∧ q = { req with clientId := c, redirectUri := some u } := by
  unfold pushParse at h
  obtain ⟨p1, r1, h1, h2⟩ := runSteps_cons_val h
  rw [doRequestUri_none (show NoRequestUri { req with clientId := c } from hn)] at h1
  cases h1
  obtain ⟨p2, r2, h3, h4⟩ := runSteps_cons_val h2
  obtain ⟨p3, r3, h5, h6⟩ := runSteps_cons_val h4
  unfold runSteps at h6
  cases h6
  obtain ⟨rfl, ⟨cl, k1, k2⟩, u, k3, rfl⟩ := postParse_val h3
  obtain ⟨rfl, -, u', k5, rfl⟩ := postParse_val h5
  have hu : u' = u := by
    simp only [getUri] at k5
    split at k5
    · cases k5
    · cases k5; rfl
  subst hu
  exact ⟨rfl, cl, u', k1, (verifyResponseType_iff _ _).2 k2, k3, k5, rfl⟩

/-- The request that comes from the pushed ones is parsed as the request itself. -/
theorem authzParse_pushed {env : Env} (hpe : env.parEnabled = true) {cdb : Cdb} {par : ParDb} {c u urn : Str} {req x : AuthReq} (hu : IsUrn urn)
    (hn : NoRequestUri req) {cl : Client} (h1 : cdb c = some cl) (h2 : verifyResponseType req cl = true) (h3 : getUri env.lib cdb .redirect c req.redirectUri = .ok u)
    (h4 : getUri env.lib cdb .redirect c (some u) = .ok u) (hp : par urn = some { req with clientId := c, redirectUri := some u })
    (hx : x.requestUri = some urn) (hc : x.clientId = c) :
    authzParse env cdb par x = ((fun k => if k = urn then none else par k), (authzParse env cdb par { req with clientId := c }).2) ∧
    (authzParse env cdb par { req with clientId := c }).1 = par := by
  have post : ∀ par', postParse env cdb c par' { req with clientId := c, redirectUri := some u } = (par', .val { req with clientId := c, redirectUri := some u }) := by
    intro par'
    unfold postParse
    have : verifyResponseType { req with clientId := c, redirectUri := some u } cl = true := h2
    simp only [h1, this, h4]
    rfl
  have post0 : ∀ par', postParse env cdb c par' { req with clientId := c } = (par', .val { req with clientId := c, redirectUri := some u }) := by
    intro par'
    unfold postParse
    have : verifyResponseType { req with clientId := c } cl = true := h2
    simp only [h1, this, h3]
    rfl
  have res : doRequestUri env cdb c par x = ((fun k => if k = urn then none else par k), .val { req with clientId := c, redirectUri := some u }) := by
    unfold doRequestUri
    rw [hx]
    have hne : urn ≠ [] := by rintro rfl; exact absurd hu (by unfold IsUrn; decide)
    have hpre : env.parEnabled = true ∧ c!"urn:uuid:".isPrefixOf urn = true := ⟨hpe, hu⟩
    cases urn with
    | nil => exact absurd rfl hne
    | cons a b => simp only [hpre, and_self, if_true, hp]
  have plain : ∀ par', doRequestUri env cdb c par' { req with clientId := c, redirectUri := some u } = (par', .val { req with clientId := c, redirectUri := some u }) :=
    fun par' => doRequestUri_none hn
  have plain0 : ∀ par', doRequestUri env cdb c par' { req with clientId := c } = (par', .val { req with clientId := c }) :=
    fun par' => doRequestUri_none hn
  unfold authzParse authzSteps
  rw [hc]
  simp only [List.cons_append, List.nil_append, runSteps, res, post, plain0, post0]
  cases env.oidc with
  | true =>
    simp only [if_true, List.cons_append, List.nil_append, runSteps, plain, post]
    cases env.pkce with
    | none => exact ⟨rfl, rfl⟩
    | some p =>
      simp only [runSteps]
      cases pkceParse p { req with clientId := c, redirectUri := some u } <;> exact ⟨rfl, rfl⟩
  | false =>
    simp only [Bool.false_eq_true, if_false, List.nil_append]
    cases env.pkce with
    | none => exact ⟨rfl, rfl⟩
    | some p =>
      simp only [runSteps]
      cases pkceParse p { req with clientId := c, redirectUri := some u } <;> exact ⟨rfl, rfl⟩

/-- **C160**: a pushed request works as if it had been sent directly.  Say the pushed authorization endpoint accepts a request (which refers to no
request object) of a client and names it `urn`.  Whatever requests are made then that do not use or replace that name: an authorization
request of that client that refers to `urn` is answered exactly as the pushed request would be if the browser had brought it, and has the same effect on
sessions and client records; and `urn` is gone then. -/
theorem C160_pushed_as_sent (cfg : ProvCfg) (hpe : cfg.sys.env.parEnabled = true) (hf : FetchKeepsUri cfg.sys.env) (hist : List HttpOp) (tp : Int)
    (r : AuthnReq) (req q : AuthReq) (urn : Str) (hu : c!"urn:uuid:".isPrefixOf urn = true) (hn : NoRequestUri req)
    (h : (pushEndpoint cfg (provRun cfg hist) tp r req urn).2.2 = .val q) :
    ∃ j o c, clientAuthentication cfg.lib (provRun cfg hist).cdb tp cfg.pushMethods cfg.pushTargets plainFromToken (provRun cfg hist).jtis r = (j, .ok o) ∧
      requestClient r o = some c ∧
    ∀ mid, (∀ op ∈ mid, LeavesPushed cfg urn op) → ∀ (now : Int) (gid : Str) (mc ma : MintIn) (idt : Out Str) (raw : Option Str) (x : UserReq),
      x.areq.requestUri = some urn → x.areq.clientId = c → ∀ st, st = provRun cfg (hist ++ [HttpOp.push tp r req urn] ++ mid) →
      (authorizeEndpoint cfg st now gid mc ma idt raw x).2 =
        (authorizeEndpoint cfg st now gid mc ma idt raw { x with areq := { req with clientId := c } }).2 ∧
      (authorizeEndpoint cfg st now gid mc ma idt raw x).1 urn = none := by
  cases ha : clientAuthentication cfg.lib (provRun cfg hist).cdb tp cfg.pushMethods cfg.pushTargets plainFromToken (provRun cfg hist).jtis r with
  | mk j o =>
    cases o with
    | error e => simp [pushEndpoint, ha] at h
    | ok o =>
      cases hc : requestClient r o with
      | none => simp [pushEndpoint, ha, hc] at h
      | some c =>
        refine ⟨j, o, c, rfl, hc, ?_⟩
        cases hq : pushParse cfg.sys.env (provRun cfg hist).cdb (provRun cfg hist).par c req with
        | mk par' o' =>
          cases o' with
          | errMsg e => simp [pushEndpoint, ha, hc, hq] at h
          | raise e => simp [pushEndpoint, ha, hc, hq] at h
          | val q' =>
            have : q' = q := by simpa [pushEndpoint, ha, hc, hq] using h
            subst this
            obtain ⟨rfl, cl, u, k1, k2, k3, k4, k5⟩ := pushParse_none hn hq
            rintro mid hm now gid mc ma idt raw x hx hxc st rfl
            have hpar : (provRun cfg (hist ++ [HttpOp.push tp r req urn])).par urn = some q' := by
              rw [provRun_snoc]
              simp only [provStep, pushEndpoint, ha, hc, hq, pushStore, if_true]
            have hst := pushed_stays hpe hf (hist ++ [HttpOp.push tp r req urn]) mid hu hm
            rw [← hst, k5] at hpar
            -- the client's record
            have hsame : ((provRun cfg hist).cdb c).map (fun cl => { cl with claims := [] }) =
                ((provRun cfg (hist ++ [HttpOp.push tp r req urn] ++ mid)).cdb c).map (fun cl => { cl with claims := [] }) := by
              have e1 := provRun_cdb cfg hist c
              have e2 := provRun_cdb cfg (hist ++ [HttpOp.push tp r req urn] ++ mid) c
              rw [← e1, ← e2]
              unfold RegState.cdbFun at e1 ⊢
              cases hr : (provRun cfg hist).reg.cdb.get? c with
              | none => rw [hr, k1] at e1; cases e1
              | some rec =>
                have := provRun_keeps hist ([HttpOp.push tp r req urn] ++ mid) (by
                  intro op ho
                  rcases List.mem_append.1 ho with ho | ho
                  · rw [List.mem_singleton.1 ho]; trivial
                  · have := hm op ho
                    cases op <;> first | trivial | exact this) hr
                rw [← List.append_assoc] at this
                rw [this]
            obtain ⟨cl', e1, e2⟩ : ∃ cl', (provRun cfg (hist ++ [HttpOp.push tp r req urn] ++ mid)).cdb c = some cl' ∧ cl'.responseTypes = cl.responseTypes := by
              rw [k1] at hsame
              cases hz : (provRun cfg (hist ++ [HttpOp.push tp r req urn] ++ mid)).cdb c with
              | none => rw [hz] at hsame; cases hsame
              | some cl' =>
                rw [hz] at hsame
                simp only [Option.map_some, Option.some.injEq, Client.mk.injEq] at hsame
                exact ⟨cl', rfl, hsame.2.2.1.symm⟩
            have h2 : verifyResponseType req cl' = true := by
              unfold verifyResponseType at k2 ⊢
              rw [e2]; exact k2
            rw [getUri_record hsame] at k3 k4
            obtain ⟨a1, a2⟩ := authzParse_pushed hpe (par := (provRun cfg (hist ++ [HttpOp.push tp r req urn] ++ mid)).par) hu hn e1 h2 k3 k4 hpar hx hxc
            generalize provRun cfg (hist ++ [HttpOp.push tp r req urn] ++ mid) = st at a1 a2 ⊢
            unfold authorizeEndpoint
            rw [a1]
            simp only
            generalize authzParse cfg.sys.env st.cdb st.par { req with clientId := c } = y at a2 ⊢
            obtain ⟨p, o⟩ := y
            cases o <;> simp

/-- The provider of the demonstrations, where request objects add nothing. -/
def pushCfg : ProvCfg := parCfg fun _ _ r => .ok r

/-- Client `c1` pushed a request; then another client pushes one, and a browser brings a request that names no pushed one. -/
def pushMid : List HttpOp :=
  [ .push 1000 { clientId := some c!"c2", clientSecret := some c!"s2" } { demoReq [c!"code"] with redirectUri := some c!"https://rp2/cb" } c!"urn:uuid:2",
    .authorize 1001 c!"g1" (mintIn c!"n1") (mintIn c!"n2") (.val c!"IDT") webCookie webAreq ]

/-- The code in the answer to the authorization request, and where it goes. -/
def pushAnswer (areq : AuthReq) : Option (Option Str × Option Str) :=
  replyCode (authorizeEndpoint pushCfg (provRun pushCfg (parOps (demoReq [c!"code"]) ++ pushMid)) 1002 c!"g2" (mintIn c!"n5") (mintIn c!"n6") (.val c!"IDT")
    webCookie { areq := areq }).2.2.2

set_option maxRecDepth 32000 in
/-- C160: the hypotheses are met, by an authorization request with hardly more than the name; it gets a code, as the pushed request itself would. -/
example : pushCfg.sys.env.parEnabled = true ∧ FetchKeepsUri pushCfg.sys.env ∧ c!"urn:uuid:".isPrefixOf urn1 = true ∧ NoRequestUri (demoReq [c!"code"]) ∧
    (outVal (pushEndpoint pushCfg (provRun pushCfg ((parOps (demoReq [c!"code"])).take 2)) 1000 webSecret (demoReq [c!"code"]) urn1).2.2).isSome = true ∧
    (∀ op ∈ pushMid, LeavesPushed pushCfg urn1 op) ∧
    pushAnswer { clientId := c!"c1", responseType := [c!"token"], scope := [], requestUri := some urn1 } =
      some (some c!"https://rp/cb", some (handlerCall demoCrypto ⟨.jwt, c!"A", 5, c!"k1"⟩ 1002 [] c!"n5" c!"diana;;c1;;g2" [])) ∧
    pushAnswer (demoReq [c!"code"]) =
      some (some c!"https://rp/cb", some (handlerCall demoCrypto ⟨.jwt, c!"A", 5, c!"k1"⟩ 1002 [] c!"n5" c!"diana;;c1;;g2" [])) := by
  refine ⟨by decide, ?_, by decide, Or.inl rfl, by decide, ?_, by decide, by decide⟩
  · intro c uri req r h; cases h; rfl
  · intro op ho
    simp only [pushMid, List.mem_cons, List.not_mem_nil, or_false] at ho
    rcases ho with rfl | rfl
    · exact ⟨by simp [demoReq], by decide⟩
    · show webAreq.areq.requestUri ≠ _
      simp [webAreq, demoReq]

end Verif
