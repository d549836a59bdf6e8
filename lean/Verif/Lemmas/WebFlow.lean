import Verif.Spec.WebFlow
import Verif.Lemmas.WebTree
import Verif.Props.ProviderUri
import Verif.Props.RegistrationPrefs
import Verif.Props.Isolation
import Verif.Props.Honest
import Verif.Props.UserAuthn
import Verif.Props.WebTree
import Verif.Lemmas.WebFrame
set_option linter.unusedSimpArgs false
set_option linter.unusedVariables false
/-! The steps of the code flow on the web: registration, authorization, token, userinfo. -/
namespace Verif
open Spec

/-! ### Registration -/

/-- What the provider keeps of a client that registered for the code flow. -/
structure CodeRecord (lib : UriLib) (uri secret : Str) (exp : Int) (cl : Client) : Prop where
  uris : cl.redirectUris = [lib.splitUri uri]
  types : cl.responseTypes = [c!"code"]
  scopes : cl.allowedScopes = []
  rules : cl.tokenUsageRules = none
  secret : cl.clientSecret = some secret
  expires : cl.clientSecretExpiresAt = exp

theorem initialRecord_other (cfg : RegCfg) (i : RegIn) (cid k : Str)
    (hk : k ∉ [c!"client_id", c!"client_salt", c!"registration_access_token", c!"registration_client_uri", c!"client_id_issued_at", c!"client_secret", c!"client_secret_expires_at"]) :
    (initialRecord cfg i true true cid).get? k = none := by
  simp only [List.mem_cons, List.not_mem_nil, not_or, or_false] at hk
  obtain ⟨h1, h2, h3, h4, h5, h6, h7⟩ := hk
  unfold initialRecord
  dsimp only
  cases cfg.readPath <;> simp only [if_true] <;> split <;>
    simp [Dict.get?_set, Dict.get?, h1, h2, h3, h4, h5, h6, h7, Ne.symm h1, Ne.symm h2]

theorem codeClient_matches {prov : RegRec} {uri : Str} (h : ∃ l, prov.get? c!"response_types_supported" = some (.strs l) ∧ c!"code" ∈ l) :
    matchClientRequest prov (codeClient uri) preference2provider = .ok none := by
  obtain ⟨l, hl, hm⟩ := h
  rw [matchClientRequest_ok]
  intro pref pv val hp hv
  have hpref : pref = c!"response_types" ∧ pv = c!"response_types_supported" := by
    simp only [preference2provider, List.mem_cons, List.not_mem_nil, Prod.mk.injEq, or_false] at hp
    rcases hp with h | h | h | h | h | h | h | h | h | h | h | h | h | h | h
    all_goals first
      | exact h
      | (obtain ⟨rfl, rfl⟩ := h; simp [codeClient, Dict.get?] at hv)
  obtain ⟨rfl, rfl⟩ := hpref
  have : val = .strs [c!"code"] := by simpa [codeClient, Dict.get?] using hv.symm
  subst this
  refine ⟨_, hl, fun _ => ?_, fun hw => ?_⟩
  · rw [matchSpSep_iff]
    intro x hx
    simp only [List.mem_singleton] at hx
    subst hx
    exact ⟨_, hm, fun w => Iff.rfl⟩
  · exact absurd (by unfold wordwise; decide) hw

/-- A client that registers for the code flow gets an id and a secret. -/
theorem codeClient_registers {cfg : ProvCfg} {hc ha : Handler} {f : Str → Option Str → Str} (P : CodeFlowProvider cfg hc ha f)
    {uri : Str} (R : WebRedirect cfg.regLib uri) (s : RegState) (i : RegIn) (hid : ∃ c ∈ i.ids, s.cdb.get? c = none) :
    ∃ c s' resp rec, registrationProcess cfg.regLib cfg.regCfg s i true true true (codeClient uri) = (s', .ok resp) ∧
      c ∈ i.ids ∧ s.cdb.get? c = none ∧ s'.cdb.get? c = some rec ∧
      resp.get? c!"client_id" = some (.str c) ∧ resp.get? c!"client_secret" = some (.str i.secret) ∧
      CodeRecord cfg.sys.env.lib uri i.secret (if cfg.regCfg.secretEnd i.now = 0 then 0 else cfg.regCfg.secretEnd i.now) (RegRec.client rec) := by
  have hb : rmBlanks (codeClient uri) = codeClient uri := by
    simp [rmBlanks, codeClient, R.given]
  obtain ⟨c, hch⟩ : ∃ c, chooseId s i true (codeClient uri) = some (.ok (c, codeClient uri)) := by
    unfold chooseId
    simp only [if_true, Option.map_eq_some_iff]
    cases hf : i.ids.find? fun c => !(s.cdb.get? c).isSome with
    | none =>
      obtain ⟨c, h1, h2⟩ := hid
      have := List.find?_eq_none.1 hf c h1
      simp [h2] at this
    | some c =>
      refine ⟨c, c, rfl, ?_⟩
      simp [codeClient]
  obtain ⟨hmem, hnew, -⟩ := chooseId_new hch
  have hok : RedirectAllowed cfg.regLib (codeClient uri) uri := by
    unfold RedirectAllowed
    rw [if_neg (by simp [appType, codeClient, Dict.get?])]
    refine ⟨R.fragment, ?_⟩
    rcases R.scheme with h | h
    · exact Or.inr ⟨h, Or.inr (by simp [CodeIsOnlyType, codeClient, Dict.get?])⟩
    · exact Or.inl h
  obtain ⟨cinfo, hdo⟩ : ∃ cinfo, doClientRegistration cfg.regLib cfg.regCfg.prov (codeClient uri) (initialRecord cfg.regCfg i true true c) ignoredEntries = .val cinfo := by
    have hv : ∃ us, verifyRedirectUris cfg.regLib (codeClient uri) [uri] = .ok us :=
      ⟨_, (verifyRedirectUris_iff cfg.regLib (codeClient uri) [uri] _).2 ⟨by simpa using hok, rfl⟩⟩
    obtain ⟨us, hus⟩ := hv
    unfold doClientRegistration
    have g : ∀ k, k ≠ c!"redirect_uris" → k ≠ c!"response_types" → (codeClient uri).get? k = none := by
      intro k h1 h2
      simp [codeClient, Dict.get?, Ne.symm h1, Ne.symm h2]
    have gr : (codeClient uri).get? c!"redirect_uris" = some (.strs [uri]) := by simp [codeClient, Dict.get?]
    simp only [regPostLogout, regRedirect, regRequestUris, regSector, regInfoUris, regAlgs, gr, hus, Out.andThen,
      g c!"post_logout_redirect_uris" (by decide) (by decide), g c!"request_uris" (by decide) (by decide),
      g c!"sector_identifier_uri" (by decide) (by decide), g c!"policy_uri" (by decide) (by decide),
      g c!"logo_uri" (by decide) (by decide), g c!"tos_uri" (by decide) (by decide),
      g c!"id_token_signed_response_alg" (by decide) (by decide), g c!"userinfo_signed_response_alg" (by decide) (by decide),
      g c!"jwks_uri" (by decide) (by decide), g c!"jwks" (by decide) (by decide), P.keys, if_true]
    exact ⟨_, rfl⟩
  have hd : ((codeClient uri).map (·.1)).Nodup := by simp [codeClient]
  have get := doClientRegistration_get hd hdo
  have hinit := C43_failed_registration_leaves_client.initialRecord_secret cfg.regCfg i c
  have e1 : cinfo.get? c!"client_secret" = some (.str i.secret) := by
    rw [get _ (by decide)]; simp [codeClient, Dict.get?]; exact hinit.1
  have e2 : cinfo.get? c!"client_secret_expires_at" = (if cfg.regCfg.secretEnd i.now ≠ 0 then some (.int (cfg.regCfg.secretEnd i.now)) else none) := by
    rw [get _ (by decide)]; simp only [codeClient, Dict.get?]; simpa using hinit.2
  have e3 : cinfo.get? c!"client_id" = some (.str c) := by
    rw [get _ (by decide)]; simp [codeClient, Dict.get?]; exact initialRecord_id cfg.regCfg i true true c
  have e4 : cinfo.get? c!"response_types" = some (.strs [c!"code"]) := by
    rw [get _ (by decide)]; simp [codeClient, Dict.get?]
  have e5 : cinfo.get? c!"allowed_scopes" = none := by
    rw [get _ (by decide)]; simp [codeClient, Dict.get?]; exact initialRecord_other _ _ _ _ (by decide)
  have e6 := (stored_redirects hdo (l := [uri]) (by simp [codeClient, Dict.get?])).2
  have e7 : cinfo.get? c!"request_uris" = none := by
    obtain ⟨c1, c2, c3, c4, c5, h1, h2, h3, h4, h5, h6⟩ := doClientRegistration_val hdo
    rw [regAlgs_get _ h6 _ (by decide), regInfoUris_get _ h5 _ (by decide), regSector_get h4 _ (by decide) (by decide)]
    have : c3 = c2 := by
      unfold regRequestUris at h3
      simp only [codeClient, Dict.get?] at h3
      simpa using h3.symm
    rw [this, regRedirect_get h2 _ (by decide), regPostLogout_get h1 _ (by decide)]
    unfold copyEntries
    rw [Dict.get?_update _ _ _ (nodup_filter_keys hd _), get?_filter_key (codeClient uri) (fun x => !ignoredEntries.contains x)]
    rw [if_pos (by decide)]
    simp [codeClient, Dict.get?]; exact initialRecord_other _ _ _ _ (by decide)
  obtain ⟨resp, hcomb⟩ : ∃ resp, combUri cfg.regLib (cinfo.filter fun kv => cfg.regLib.responseParam kv.1) = some resp := by
    unfold combUri
    dsimp only
    rw [combOne_get _ _ _ _ (by decide), combOne_get _ _ _ _ (by decide), get?_filter_key cinfo cfg.regLib.responseParam, e7]
    simp
  have cg : ∀ k, k ≠ c!"redirect_uris" → k ≠ c!"post_logout_redirect_uris" → k ≠ c!"request_uris" →
      resp.get? k = if cfg.regLib.responseParam k then cinfo.get? k else none := by
    intro k k1 k2 k3
    rw [← get?_filter_key cinfo cfg.regLib.responseParam]
    unfold combUri at hcomb
    dsimp only at hcomb
    split at hcomb
    · split at hcomb
      · cases hcomb; rw [Dict.get?_set, if_neg k3, combOne_get _ _ _ _ k2, combOne_get _ _ _ _ k1]
      · cases hcomb
    · cases hcomb; rw [combOne_get _ _ _ _ k2, combOne_get _ _ _ _ k1]
  have hreg : ∃ s', registrationProcess cfg.regLib cfg.regCfg s i true true true (codeClient uri) = (s', .ok resp) ∧ s'.cdb.get? c = some cinfo := by
    unfold registrationProcess registrationSetup
    simp only [hb, codeClient_matches P.codeSupported, hch, hdo, hcomb, Bool.true_eq_false, if_false]
    exact ⟨_, rfl, by simp only [Dict.get?_set, if_true]⟩
  obtain ⟨s', hs', hget⟩ := hreg
  refine ⟨c, s', resp, cinfo, hs', hmem, hnew, hget, ?_, ?_, ?_⟩
  · rw [cg _ (by decide) (by decide) (by decide), if_pos P.announcesId, e3]
  · rw [cg _ (by decide) (by decide) (by decide), if_pos P.announcesSecret, e1]
  · refine ⟨?_, ?_, ?_, rfl, ?_, ?_⟩
    · simp only [RegRec.client, e6]
      simp [storedRedirect, appType, codeClient, Dict.get?, P.library]
    · simp only [RegRec.client, e4]
    · simp only [RegRec.client, e5]
    · simp only [RegRec.client, e1]
    · simp only [RegRec.client, e2]
      by_cases hz : cfg.regCfg.secretEnd i.now = 0 <;> simp [hz]

/-! ### The record at the other endpoints -/

theorem CodeRecord.same {lib : UriLib} {uri secret : Str} {exp : Int} {x y : Client} (h : CodeRecord lib uri secret exp x)
    (e : ({ x with claims := [] } : Client) = { y with claims := [] }) : CodeRecord lib uri secret exp y := by
  have e' := Client.mk.inj e
  obtain ⟨h1, h2, h3, h4, h5, h6⟩ := h
  constructor <;> simp_all

/-- The endpoints find the record. -/
theorem codeRecord_found {cfg : ProvCfg} {ops : List HttpOp} {c : Str} {r : RegRec} {uri secret : Str} {exp : Int}
    (hr : (provRun cfg ops).reg.cdb.get? c = some r) (h : CodeRecord cfg.sys.env.lib uri secret exp (RegRec.client r)) :
    ∃ cl, (provRun cfg ops).cdb c = some cl ∧ CodeRecord cfg.sys.env.lib uri secret exp cl := by
  have := provRun_cdb cfg ops c
  unfold RegState.cdbFun at this
  rw [hr] at this
  cases hc : (provRun cfg ops).cdb c with
  | none => rw [hc] at this; cases this
  | some y =>
    rw [hc] at this
    simp only [Option.map_some, Option.some.injEq] at this
    exact ⟨y, rfl, h.same this⟩

/-! ### Authorization -/

/-- The request as the endpoint has it after parsing: with PKCE the method is filled in. -/
def asParsed (env : Env) (q : AuthReq) : AuthReq :=
  match env.pkce with
  | some _ => { q with codeChallengeMethod := some (q.codeChallengeMethod.getD c!"plain") }
  | none => q

theorem codeRedirect_ok {lib : UriLib} (hq : ∀ u, DistinctKeys (lib.splitUri u).2) {cdb : Cdb} {c uri secret : Str} {exp : Int} {cl : Client}
    (hc : cdb c = some cl) (h : CodeRecord lib uri secret exp cl) (h0 : c ≠ []) (hf : lib.fragment uri = []) (hu : lib.unquote uri = uri) :
    getUri lib cdb .redirect c (some uri) = .ok uri := by
  have : verifyUri lib cdb .redirect (some c) none (some uri) = .ok () := by
    unfold verifyUri
    have hr : cl.uris .redirect = [lib.splitUri uri] := h.uris
    have ho : (some c <|> none : Option Str) = some c := rfl
    simp only [ho, h0, if_false, hu, hf, hc, ne_eq, not_true_eq_false, hr, List.cons_ne_nil]
    rw [matchRegistered_iff _ _ (hq _) _ (by intro p hp; simp only [List.mem_singleton] at hp; subst hp; exact hq _)]
    exact ⟨[], (lib.splitUri uri).2, [], rfl, by simp, fun k => ⟨Iff.rfl, fun v => Iff.rfl⟩⟩
  unfold getUri
  simp only [this]

theorem codeRequest_parses {cfg : ProvCfg} {cdb : Cdb} {c uri secret : Str} {exp : Int} {cl : Client} {q : AuthReq}
    (hq : ∀ u, DistinctKeys (cfg.sys.env.lib.splitUri u).2)
    (hc : cdb c = some cl) (h : CodeRecord cfg.sys.env.lib uri secret exp cl) (h0 : c ≠ [])
    (hf : cfg.sys.env.lib.fragment uri = []) (hu : cfg.sys.env.lib.unquote uri = uri)
    (Q : CodeRequest cfg.sys.env c uri q) (par : ParDb) :
    authzParse cfg.sys.env cdb par q = (par, .val (asParsed cfg.sys.env q)) := by
  have s1 : ∀ par, doRequestUri cfg.sys.env cdb q.clientId par q = (par, .val q) := by
    intro par; unfold doRequestUri; rw [Q.byValue]
  have s2 : ∀ par, postParse cfg.sys.env cdb q.clientId par q = (par, .val q) := by
    intro par
    unfold postParse
    have hg : getUri cfg.sys.env.lib cdb .redirect q.clientId q.redirectUri = .ok uri := by
      rw [Q.client, Q.redirect]; exact codeRedirect_ok hq hc h h0 hf hu
    have hc' : cdb q.clientId = some cl := by rw [Q.client]; exact hc
    simp only [hg, hc']
    have : verifyResponseType q cl = true := by
      unfold verifyResponseType
      rw [Q.type, h.types]
      decide
    simp only [this, Bool.true_eq_false, if_false]
    have e : ({ q with redirectUri := some uri } : AuthReq) = q := by rw [← Q.redirect]
    rw [e]
  have s3 : ∀ p, cfg.sys.env.pkce = some p → pkceParse p q = .val (asParsed cfg.sys.env q) := by
    intro p hp
    unfold pkceParse asParsed
    obtain ⟨k1, k2⟩ := Q.challenge p hp
    simp only [hp]
    rw [if_neg (fun x => k1 x.1 x.2), if_neg (fun x => by rw [k2 x.1] at x; exact absurd x.2 (by simp))]
  unfold authzParse authzSteps
  cases ho : cfg.sys.env.oidc <;> cases hp : cfg.sys.env.pkce with
  | none => simp [runSteps, s1, s2, asParsed, hp]
  | some p => simp [runSteps, s1, s2, s3 p hp]

/-- A logged-in user's browser brings the client's request: the answer is a code. -/
theorem codeFlow_authorized {cfg : ProvCfg} {hc ha : Handler} {f : Str → Option Str → Str} (P : CodeFlowProvider cfg hc ha f)
    {st : Prov} (hT : Tree st.sys.store) {c uri secret : Str} {exp : Int} {cl : Client} (hcl : st.cdb c = some cl)
    (h : CodeRecord cfg.sys.env.lib uri secret exp cl) (hgc : GoodId c) (hf : cfg.sys.env.lib.fragment uri = [])
    (huq : cfg.sys.env.lib.unquote uri = uri) {q : AuthReq} (Q : CodeRequest cfg.sys.env c uri q) {u raw : Str} {t0 : Int} (hu : GoodId u)
    (C : HasLoginCookie cfg raw u t0) (now : Int) {gid : Str} (hg : GoodId gid) (mc ma : MintIn) (hmc : mc.payload = .ok () ∧ mc.ttype = [])
    (idt : Out Str) :
    ∃ cdb' s' g t ev, authorizeEndpoint cfg st now gid mc ma idt (some raw) { areq := q } = (st.par, cdb', s', .reply
        { content := .val { state := returnedState q, scope := q.scope, code := some t.value },
          placement := if q.responseMode = some c!"form_post" then .formPost else .query, uri := some uri }) ∧
      getGrant s' (sessionKey [u, c, gid]) = .ok g ∧
      CodeIssued cfg.sys.env hc st.cdb (asParsed cfg.sys.env q) now (sessionKey [u, c, gid]) g t ∧
      g.sub = f u q.sectorIdentifierUri ∧ g.authnEvent = some ev ∧
      ev.validUntil = now + (if cfg.acfg.expiresIn = none ∨ cfg.acfg.expiresIn = some 0 then 3600 else cfg.acfg.expiresIn.getD 0) := by
  have e1 : (asParsed cfg.sys.env q).clientId = c := by unfold asParsed; split <;> exact Q.client
  have e2 : (asParsed cfg.sys.env q).scope = q.scope := by unfold asParsed; split <;> rfl
  have e3 : (asParsed cfg.sys.env q).responseType = q.responseType := by unfold asParsed; split <;> rfl
  have e4 : (asParsed cfg.sys.env q).redirectUri = q.redirectUri := by unfold asParsed; split <;> rfl
  have e5 : (asParsed cfg.sys.env q).responseMode = q.responseMode := by unfold asParsed; split <;> rfl
  have e6 : (asParsed cfg.sys.env q).maxAge = q.maxAge := by unfold asParsed; split <;> rfl
  have e7 : returnedState (asParsed cfg.sys.env q) = returnedState q := by unfold asParsed; split <;> rfl
  have e8 : (asParsed cfg.sys.env q).sectorIdentifierUri = q.sectorIdentifierUri := by unfold asParsed; split <;> rfl
  obtain ⟨typ, c1, c2, c3, c4⟩ := C.cookie
  have hda : demandedAge ({ areq := asParsed cfg.sys.env q } : UserReq) = 0 := by
    simp [demandedAge, maxAgeOf, e6, Q.anyAge]
  have hid := identity_plain P.cookieLaws P.dealer (now := now) C.value c2 c3 c4 C.plain ({ areq := asParsed cfg.sys.env q } : UserReq)
    (by rw [if_neg c1]; exact Or.inl hda)
  have hru : requestUser cfg.sys.env.oidc cfg.acfg.hintLookup ({ areq := asParsed cfg.sys.env q } : UserReq) = .ok none := by
    unfold requestUser; split <;> rfl
  have hai : authnIn cfg.sys.env cfg.acfg now (some raw) ({ areq := asParsed cfg.sys.env q } : UserReq) =
      .ok { ident := .plain u, acr := cfg.acfg.acr, expiresIn := cfg.acfg.expiresIn, reqUser := none, reAuth := false } := by
    unfold authnIn reAuthenticate
    simp only [hru, hid]
  have hreq : CodeFlowRequest cfg.sys.env st.cdb cl (asParsed cfg.sys.env q) uri := by
    constructor
    · rw [e1]; exact hcl
    · rw [e2]; exact Q.scopeGiven
    · rw [e2]; unfold mayAsk; rw [if_pos h.scopes]; exact Q.scopeKnown
    · intro s _ hne; exact absurd h.scopes hne
    · rw [e3]; exact Q.type
    · rw [e1, e4, Q.redirect]; exact codeRedirect_ok P.queries hcl h hgc.1 hf huq
    · rw [e5]; exact Q.mode
  obtain ⟨cdb', s', g, t, ev, k1, -, k3, k4, k5, k6, k7⟩ := C84_authorization_served cfg.sys.env hc ha P.tokens P.policy
    (fun e he => Int.le_of_lt (P.lifetime e he)) f P.subject st.cdb st.sys.store hT now gid u mc ma hmc idt
    { ident := .plain u, acr := cfg.acfg.acr, expiresIn := cfg.acfg.expiresIn, reqUser := none, reAuth := false } rfl rfl rfl hu hg
    (asParsed cfg.sys.env q) (by rw [e1]; exact hgc) cl uri hreq
  rw [e1] at k3 k4
  rw [e8] at k5
  refine ⟨cdb', s', g, t, ev, ?_, k3, k4, k5, k6, k7⟩
  unfold authorizeEndpoint
  simp only [codeRequest_parses P.queries hcl h hgc.1 hf huq Q st.par]
  unfold authzBrowser
  simp only [e1, hcl, hai]
  rw [k1, e7, e2, e5]
  rw [if_neg]
  intro hs
  have : checkScopes cfg.sys.env cl (asParsed cfg.sys.env q) = true := by
    unfold checkScopes
    simp only [List.all_eq_true, Bool.not_eq_true', Bool.and_eq_false_iff, Bool.not_eq_false']
    intro x hx
    rw [e2] at hx
    by_cases hd : cfg.sys.env.denyUnknown = true
    · right
      have := Q.scopeKnown hd x hx
      simpa [h.scopes] using this
    · left; simpa using hd
  rw [this] at hs
  cases hs

/-! ### Tokens and userinfo -/

theorem tryMethods_only {lib : AuthnLib} {cdb : Cdb} {targets : List Str} {r : AuthnReq} {jtis : List Str} {ms : List (Option AuthnMethod)}
    {m : AuthnMethod} {i : AuthInfo} (hm : some m ∈ ms) (hu : m.usable r = true) (ho : ∀ m', m'.usable r = true → m' = m)
    (hv : m.verify lib cdb targets jtis r = (jtis, .ok i)) : tryMethods lib cdb targets r jtis ms = (jtis, some i) := by
  induction ms with
  | nil => cases hm
  | cons o ms ih =>
    cases o with
    | none =>
      simp only [tryMethods]
      exact ih (by simpa using hm)
    | some m' =>
      simp only [tryMethods]
      by_cases hu' : m'.usable r = true
      · cases ho m' hu'
        simp [hu, hv]
      · simp only [hu', Bool.false_eq_true, if_false]
        refine ih ?_
        rcases List.mem_cons.1 hm with h | h
        · cases h; exact absurd hu hu'
        · exact h

/-- The client authenticates with its secret. -/
theorem secret_accepted {lib : AuthnLib} {cdb : Cdb} {targets : List Str} {jtis : List Str} {ms : List (Option AuthnMethod)} {c s : Str} {cl : Client}
    {now : Int} (ft : Str → Except Exn Str) (hm : some .clientSecretPost ∈ ms) (h0 : c ≠ []) (hc : cdb c = some cl) (hs : cl.clientSecret = some s)
    (hx : NotExpired cl now) :
    clientAuthentication lib cdb now ms targets ft jtis { clientId := some c, clientSecret := some s } =
      (jtis, .ok (some { method := AuthnMethod.clientSecretPost.tag, clientId := some c })) := by
  have := tryMethods_only (lib := lib) (cdb := cdb) (targets := targets) (jtis := jtis) (r := { clientId := some c, clientSecret := some s }) (m := .clientSecretPost)
    (i := { method := AuthnMethod.clientSecretPost.tag, clientId := some c }) hm rfl
    (by intro m' h; cases m' <;> first | rfl | cases h)
    (by simp only [AuthnMethod.verify, checkSecret_of hc hs])
  unfold clientAuthentication verifyClient
  have hf := finishClient_of (ft := ft) (i := { method := AuthnMethod.clientSecretPost.tag, clientId := some c }) rfl h0 hc hx
  simp only [this, hf]
  rfl

/-- An access token of a session says which client it is for. -/
theorem bearer_accepted {cfg : ProvCfg} (hum : some .bearerHeader ∈ cfg.userinfoMethods) {cdb : Cdb} {targets : List Str} {jtis : List Str}
    {now : Int} {v u c gid : Str} (h0 : v ≠ []) (hu : GoodId u) (hgc : GoodId c) (hg : GoodId gid)
    (hres : cfg.sys.env.th.sid cfg.sys.env.cr now v = .ok (sessionKey [u, c, gid])) :
    clientAuthentication cfg.lib cdb now cfg.userinfoMethods targets (userinfoFromToken cfg.sys.env now) jtis { authorization := some (c!"Bearer " ++ v) } =
      (jtis, .ok (some { method := AuthnMethod.bearerHeader.tag, clientId := some c, token := some v })) := by
  have := tryMethods_only (lib := cfg.lib) (cdb := cdb) (targets := targets) (jtis := jtis) (r := { authorization := some (c!"Bearer " ++ v) }) (m := .bearerHeader)
    (i := { method := AuthnMethod.bearerHeader.tag, token := some v }) hum rfl
    (by intro m' h; cases m' <;> first | rfl | cases h)
    (by simp only [AuthnMethod.verify]; rfl)
  have hft : userinfoFromToken cfg.sys.env now v = .ok c := by
    unfold userinfoFromToken
    simp only [hres, unpack3_good hu hgc hg]
  unfold clientAuthentication verifyClient
  simp only [this]
  unfold finishClient
  obtain ⟨x, xs, rfl⟩ := List.exists_cons_of_ne_nil h0
  simp only [hft]
  rfl

/-- The rules of the provider hold for clients that have none of their own. -/
theorem rulesFor_provider {cfg : ProvCfg} {cdb : Cdb} {c : Str} {cl : Client} (hc : cdb c = some cl) (h : cl.tokenUsageRules = none) (tt : Str) :
    rulesFor cfg.sys.env cdb c tt = providerRules cfg tt := by
  unfold rulesFor providerRules
  rw [hc]
  simp [h]

/-- A code that was issued can be redeemed while it lives. -/
theorem code_redeemed {cfg : ProvCfg} {hc ha : Handler} {f : Str → Option Str → Str} (P : CodeFlowProvider cfg hc ha f) {cdb : Cdb} {u c gid : Str}
    (hu : GoodId u) (hgc : GoodId c) (hg : GoodId gid) {q : AuthReq} (hq : q.clientId = c) {made : Int} {g : Grant} {t : Token}
    (hr : ∀ tt, rulesFor cfg.sys.env cdb c tt = providerRules cfg tt)
    (I : CodeIssued cfg.sys.env hc cdb (asParsed cfg.sys.env q) made (sessionKey [u, c, gid]) g t)
    {s : Store} (hT : Tree s) (hgr : getGrant s (sessionKey [u, c, gid]) = .ok g) {req : TokReq} (hreq : CodeRedemption cfg.sys.env q t.value req)
    (hcl : req.clientId = some c)
    (i : TokIn) (hn : NoFailure i) (hw1 : Within made (providerRules cfg tAuthorizationCode).expiresIn i.now)
    (hw2 : Within made cfg.sys.env.gc.expiresIn i.now) (hr1 : Readable hc made i.now) :
    tokParse cfg.sys.env cfg.sys.helpers s i.now req = .val req ∧
    ∃ s' resp at' new, tokProcess cfg.sys.mode cfg.sys.env cfg.sys.helpers s i req = (s', .val resp) ∧
      getGrant s' (sessionKey [u, c, gid]) = .ok (g.exchanged t.value (at' :: new)) ∧
      MadeBy cfg.sys.env ha g i.now i.ma (sessionKey [u, c, gid]) tAccessToken t.value .accessToken at' ∧
      resp.accessToken = at'.value ∧ resp.scope = q.scope ∧ (resp.refreshToken.isSome = decide (c!"offline_access" ∈ q.scope)) ∧
      (resp.idToken.isSome = decide (c!"openid" ∈ q.scope)) ∧
      (g.exchanged t.value (at' :: new)).getToken at'.value = some at' ∧
      resp.refreshToken = (new.map Token.value).head? ∧
      ∀ r ∈ new, MadeBy cfg.sys.env ha g i.now i.mr (sessionKey [u, c, gid]) tRefreshToken t.value .refreshToken r := by
  have e1 : (asParsed cfg.sys.env q).clientId = c := by unfold asParsed; split <;> exact hq
  have e2 : (asParsed cfg.sys.env q).scope = q.scope := by unfold asParsed; split <;> rfl
  have e4 : (asParsed cfg.sys.env q).redirectUri = q.redirectUri := by unfold asParsed; split <;> rfl
  have e5 : (asParsed cfg.sys.env q).codeChallenge = q.codeChallenge := by unfold asParsed; split <;> rfl
  have hsup : ∀ tt, tt = tAccessToken ∨ tt = tRefreshToken → t.supportsMinting tt = true := by
    intro tt htt
    unfold Token.supportsMinting
    rw [I.codeRules, e1, hr]
    simp only [setDefaults]
    cases hs : (providerRules cfg tAuthorizationCode).supportsMinting with
    | none => rcases htt with rfl | rfl <;> decide
    | some l =>
      have := P.mints l hs
      rcases htt with rfl | rfl
      · simpa using this.1
      · simpa using this.2
  have hga : ActiveAt g.toItem g.maxUsage i.now := by
    refine within_active (made := made) (e := cfg.sys.env.gc.expiresIn) I.unrevoked ?_ I.notBefore ?_ hw2
    · intro x hx; rw [I.unlimited] at hx; cases hx
    · have := I.expiry
      rw [show g.toItem.expiresAt = _ from this]
      cases he : cfg.sys.env.gc.expiresIn with
      | none => rfl
      | some e =>
        have : e ≠ 0 := by have := P.lifetime e he; omega
        simp [this]
  have hta : ActiveAt t.toItem t.usageRules.maxUsage i.now := by
    refine within_active (made := made) (e := (providerRules cfg tAuthorizationCode).expiresIn) I.codeRevoked ?_ I.codeNotBefore ?_ hw1
    · intro x hx
      rw [I.codeRules] at hx
      simp only [setDefaults, Option.some.injEq] at hx
      rw [← hx, I.codeUsed]; decide
    · have := I.codeExpiry
      rw [e1, hr] at this
      exact this
  obtain ⟨rnd, nonce, hval⟩ := I.codeValue
  have hres : cfg.sys.env.th.sid cfg.sys.env.cr i.now t.value = .ok (sessionKey [u, c, gid]) := by
    rw [hval]; exact handler_resolves P.tokens (.inl rfl) hr1 _ _ _
  have hblank : ' ' ∉ t.value := by
    rw [hval]; exact P.tokens.blankFree hc (by simp [TokenHandler.order, P.tokens.code]) _ _ _ _ _
  have htok : g.getToken t.value = some t := by
    unfold Grant.getToken; rw [I.tokens]; simp [findValue]
  have hr2 : Readable ha i.now i.now := by
    rcases P.alive with h | h
    · exact Or.inl h
    · exact Or.inr (by omega)
  have htr : HonestCodeRequest cfg.sys.env (asParsed cfg.sys.env q) t.value req := by
    refine ⟨hreq.grantType, hreq.code, by rw [e4]; exact hreq.redirect, ?_⟩
    intro p hp ch hch
    rw [e5] at hch
    obtain ⟨v, fn, k1, k2, k3⟩ := hreq.verifier p hp ch hch
    exact ⟨v, _, fn, k1, by unfold asParsed; rw [hp], k2, k3⟩
  have hwc : req.withClient (asParsed cfg.sys.env q) = req := by
    unfold TokReq.withClient
    cases req
    cases hcl
    rfl
  obtain ⟨p1, s3, resp, at', new, p2, _, p3, p4, p9, p5, pa, p6, p7, p8, _⟩ := C84_code_request_served cfg.sys.mode cfg.sys.env hc ha P.tokens cfg.sys.helpers
    P.codeGrant s hT u c gid hu hgc hg g hgr I.unlimited I.map t htok I.codeKind hblank (asParsed cfg.sys.env q) I.request i hn hga hta hres hr2
    (hsup _ (.inl rfl)) (fun _ => hsup _ (.inr rfl)) req htr
  rw [hwc] at p1 p2
  have hne : t.value ≠ at'.value := by
    rw [hval, p4.value]; exact code_ne_access P.tokens _ _ _ _ _ _ _ _
  refine ⟨p1, s3, resp, at', new, p2, p3, p4, pa, by rw [p7, I.scope, e2], ?_, by rw [p8, e2], ?_, p6, p9⟩
  · rw [p6]
    rw [I.scope, e2] at p5
    by_cases ho : c!"offline_access" ∈ q.scope
    · simp only [ho, if_true] at p5
      obtain ⟨x, rfl⟩ := List.length_eq_one_iff.1 p5
      simp [ho]
    · simp only [ho, if_false] at p5
      rw [List.length_eq_zero_iff.1 p5]
      simp [ho]
  · unfold Grant.getToken Grant.exchanged
    simp only [I.tokens, updateFirst, if_true, List.cons_append, List.nil_append, findValue, Token.registerUsage]
    simp [hne]

/-- The access token from the code gets the user's data while it lives. -/
theorem token_shows {cfg : ProvCfg} {hc ha : Handler} {f : Str → Option Str → Str} (P : CodeFlowProvider cfg hc ha f) {cdb : Cdb} {u c gid : Str}
    (hu : GoodId u) (hgc : GoodId c) (hg : GoodId gid) {q : AuthReq} (hq : q.clientId = c) {made : Int} {g : Grant} {t : Token}
    (hr : ∀ tt, rulesFor cfg.sys.env cdb c tt = providerRules cfg tt)
    (I : CodeIssued cfg.sys.env hc cdb (asParsed cfg.sys.env q) made (sessionKey [u, c, gid]) g t) {at' : Token} {new : List Token}
    {i : TokIn} (M : MadeBy cfg.sys.env ha g i.now i.ma (sessionKey [u, c, gid]) tAccessToken t.value .accessToken at')
    (hat : (g.exchanged t.value (at' :: new)).getToken at'.value = some at') {st : Prov}
    (hgr : getGrant st.sys.store (sessionKey [u, c, gid]) = .ok (g.exchanged t.value (at' :: new))) {later : Int}
    (hrd : Readable ha i.now later) (hw : Within i.now (providerRules cfg tAccessToken).expiresIn later) {ev : AuthnEvent}
    (hev : g.authnEvent = some ev) (hlt : later < ev.validUntil) {info : Dict Val}
    (hcl : getUserClaims cfg.userDb u ((g.claims.get? c!"userinfo").getD []) = .ok info) :
    (userinfoEndpoint cfg st later { authorization := some (c!"Bearer " ++ at'.value) }).2 =
      .val (Dict.set info c!"sub" (.str g.sub), c) := by
  have e1 : (asParsed cfg.sys.env q).clientId = c := by unfold asParsed; split <;> exact hq
  have hres : cfg.sys.env.th.sid cfg.sys.env.cr later at'.value = .ok (sessionKey [u, c, gid]) := by
    rw [M.value]; exact handler_resolves P.tokens (.inr rfl) hrd _ _ _
  have hact : ActiveAt at'.toItem at'.usageRules.maxUsage later := by
    have hx : ∀ y, at'.usageRules.maxUsage = some y → (at'.used : Int) < y := by
      intro y hy
      rw [M.rules, I.rules, e1, hr] at hy
      rw [M.used]; exact P.uses y hy
    have hz : at'.toItem.expiresAt = if (providerRules cfg tAccessToken).expiresIn.getD 0 = 0 then 0 else i.now + (providerRules cfg tAccessToken).expiresIn.getD 0 := by
      rw [show at'.toItem.expiresAt = _ from M.expiresAt, I.rules, e1, hr]
    exact within_active M.revoked hx M.notBefore hz hw
  have h0 : at'.value ≠ [] := by rw [M.value]; exact P.notEmpty _ _ _ _ _
  unfold userinfoEndpoint userinfoParse
  simp only [bearer_accepted P.userinfoMethod (cdb := st.cdb) (targets := cfg.userinfoTargets) (jtis := st.jtis) h0 hu hgc hg hres]
  exact C84_userinfo_served cfg.sys.env cfg.userDb st.sys.store u c gid hu hgc hg _ hgr at' hat M.kind later hact hres ev hev hlt info hcl

end Verif
