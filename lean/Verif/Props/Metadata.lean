import Verif.Lemmas.Metadata
import Verif.Props.RegistrationPrefs
set_option linter.unusedSimpArgs false
set_option linter.unusedVariables false
/-! Provider metadata: C86, C87. -/
namespace Verif
open Spec

theorem addressOf_base (iss p : Str) : AddressOf iss p (baseUrl iss ++ '/' :: p) := by
  unfold AddressOf baseUrl
  by_cases h : iss.getLast? = some '/'
  · rw [if_pos h]
    obtain ⟨site, rfl⟩ := List.getLast?_eq_some_iff.1 h
    exact .inl ⟨⟨site, rfl⟩, by simp⟩
  · rw [if_neg h]
    refine .inr ⟨?_, by simp⟩
    rintro ⟨site, rfl⟩
    exact h (by simp)

theorem addressOf_unique {iss p u v : Str} (h1 : AddressOf iss p u) (h2 : AddressOf iss p v) : u = v := by
  rcases h1 with ⟨a, b⟩ | ⟨a, b⟩ <;> rcases h2 with ⟨c, d⟩ | ⟨c, d⟩
  · rw [b, d]
  · exact absurd a c
  · exact absurd c a
  · rw [b, d]

/-- The addresses endpoints are published under. -/
def addressEntries : List Str :=
  [c!"authorization_endpoint", c!"pushed_authorization_request_endpoint", c!"token_endpoint", c!"userinfo_endpoint",
   c!"end_session_endpoint", c!"registration_endpoint", c!"introspection_endpoint"]

theorem endpointName_mem (k : EpKind) (h : k.endpointName ≠ []) : k.endpointName ∈ addressEntries := by
  cases k <;> first | decide | exact absurd rfl h

theorem address_not_contributed (k : EpKind) : ∀ n ∈ addressEntries, n ∉ contributes k := by cases k <;> decide

theorem address_not_own : ∀ n ∈ addressEntries, n ∉ ownEntries ∧ n ≠ c!"scopes_supported" ∧ n ≠ c!"claims_supported" := by decide

theorem name_of_endpointName {a b : EpKind} (h : a.endpointName = b.endpointName) (hn : a.endpointName ≠ []) : a.name = b.name := by
  cases a <;> cases b <;> first | rfl | (exact absurd rfl hn) | (exact absurd h (by decide))

theorem name_not_special (k : EpKind) (h : k ≠ .providerConfig) : ¬ (k.name = c!"webfinger" ∨ k.name = c!"provider_config") := by
  cases k <;> first | decide | exact absurd rfl h

/-- An entry the provider does not fill in itself. -/
theorem info_get {al : AlgLib} {sl : ScopeLib} {cf : ProvConf} {p : Provider} (h : startProvider al sl cf = .ok p) {k : Str}
    (hk : k ∉ ownEntries) :
    p.info.get? k = match ((cf.capabilities.getD []).get? k).or (firstInfo p.endpoints k) with
      | some v => some v
      | none => if k = c!"scopes_supported" then some (.strs sl.scopes) else if k = c!"claims_supported" then some (.strs sl.claims) else none := by
  obtain ⟨idt, hidt, -, hinfo, -⟩ := startProvider_ok h
  rw [hinfo, createProviderInfo_get hidt, collectCaps_get]
  simp only [ownEntries, List.mem_append, List.mem_cons, not_or, List.not_mem_nil, not_false_eq_true, and_true] at hk
  obtain ⟨⟨k1, k2, k3, k4⟩, k5⟩ := hk
  rw [if_neg (fun h => k5 h.1), if_neg k1, if_neg k2, if_neg (fun h => k3 h.1), if_neg (fun h => k4 h.1)]
  cases ((cf.capabilities.getD []).get? k).or (firstInfo p.endpoints k) <;> rfl

theorem no_capability {cf : ProvConf} {k : Str} (h : ¬ StatesCapability cf k) : (cf.capabilities.getD []).get? k = none := by
  cases hc : cf.capabilities with
  | none => rfl
  | some cap =>
    cases hg : cap.get? k with
    | none => simpa using hg
    | some v => exact absurd ⟨cap, v, hc, hg⟩ h

/-- The endpoints of a started provider are the configured ones. -/
theorem endpoint_mem {al : AlgLib} {iss : Str} {l : List EpSpec} {eps : Dict Ep} (h : buildEndpoints al iss l [] = .ok eps) {n : Str} {ep : Ep}
    (hm : (n, ep) ∈ eps) : eps.get? n = some ep ∧ ∃ sp ∈ l, sp.kind.name = n ∧ buildEndpoint al iss sp = .ok ep := by
  obtain ⟨-, i2, -, -, i5⟩ := buildEndpoints_ok h
  have hg := Dict.mem_get? (i5 (by simp [Dict.keys])) hm
  refine ⟨hg, ?_⟩
  rcases i2 n ep hg with h' | h'
  · exact h'
  · cases h'

theorem epInfo_keys {al : AlgLib} {iss : Str} {sp : EpSpec} {ep : Ep} (h : buildEndpoint al iss sp = .ok ep) {x : Str} {v : RegVal}
    (hx : Dict.get? (ep.info.getD []) x = some v) : (x = sp.kind.endpointName ∧ x ≠ [] ∧ v = .str ep.fullPath) ∨ x ∈ contributes sp.kind := by
  obtain ⟨-, -, info, hi, he⟩ := buildEndpoint_ok h
  by_cases hn : sp.kind.endpointName = []
  · rw [if_pos hn] at he
    cases info with
    | none => rw [he] at hx; cases hx
    | some i =>
      rw [he] at hx
      exact .inr (endpointInfo_keys hi x (Dict.get?_isSome.1 (by simpa using Option.isSome_iff_exists.2 ⟨v, hx⟩)))
  · rw [if_neg hn] at he
    rw [he, Option.getD_some, Dict.get?_set] at hx
    by_cases e : x = sp.kind.endpointName
    · rw [if_pos e] at hx; cases hx
      exact .inl ⟨e, by rw [e]; exact hn, rfl⟩
    · rw [if_neg e] at hx
      cases info with
      | none => cases hx
      | some i => exact .inr (endpointInfo_keys hi x (Dict.get?_isSome.1 (by simpa using Option.isSome_iff_exists.2 ⟨v, hx⟩)))

/-- The first endpoint with an entry. -/
theorem firstInfo_some {eps : Dict Ep} {k : Str} {v : RegVal} (h : firstInfo eps k = some v) :
    ∃ n ep, (n, ep) ∈ eps ∧ ¬ (n = c!"webfinger" ∨ n = c!"provider_config") ∧ Dict.get? (ep.info.getD []) k = some v := by
  obtain ⟨ne, hm, hne⟩ := List.exists_of_findSome?_eq_some h
  by_cases hs : ne.1 = c!"webfinger" ∨ ne.1 = c!"provider_config"
  · simp [hs] at hne
  · rw [if_neg hs] at hne
    exact ⟨ne.1, ne.2, hm, hs, hne⟩

/-- If only one endpoint has the entry, that one counts. -/
theorem firstInfo_only {eps : Dict Ep} {k n : Str} {ep : Ep} {v : RegVal} (hm : (n, ep) ∈ eps) (hs : ¬ (n = c!"webfinger" ∨ n = c!"provider_config"))
    (hv : Dict.get? (ep.info.getD []) k = some v)
    (honly : ∀ n' ep' v', (n', ep') ∈ eps → ¬ (n' = c!"webfinger" ∨ n' = c!"provider_config") → Dict.get? (ep'.info.getD []) k = some v' → v' = v) :
    firstInfo eps k = some v := by
  cases hf : firstInfo eps k with
  | none =>
    unfold firstInfo at hf
    rw [List.findSome?_eq_none_iff] at hf
    have := hf _ hm
    rw [if_neg hs, hv] at this
    cases this
  | some v' =>
    obtain ⟨n', ep', h1, h2, h3⟩ := firstInfo_some hf
    rw [honly n' ep' v' h1 h2 h3]

/-- **C86** The address published for an endpoint is the one it is configured at, below the issuer, unless the configured
capabilities state another; and it is the address the endpoint itself knows. -/
theorem C86_published_addresses (al : AlgLib) (sl : ScopeLib) (cf : ProvConf) (p : Provider) (h : startProvider al sl cf = .ok p) (sp : EpSpec)
    (hsp : HasEndpoint cf sp) (hn : sp.kind.endpointName ≠ []) (hc : ¬ StatesCapability cf sp.kind.endpointName) :
    ∃ path url ep, sp.path = some path ∧ AddressOf cf.issuer path url ∧ p.info.get? sp.kind.endpointName = some (.str url) ∧
      p.endpoints.get? sp.kind.name = some ep ∧ ep.kind = sp.kind ∧ ep.fullPath = url := by
  obtain ⟨idt, hidt, hb, hinfo, -⟩ := startProvider_ok h
  obtain ⟨a, b, hl, hlast⟩ := hsp
  obtain ⟨ep, hbe, hep⟩ := (buildEndpoints_ok hb).2.2.1 a b sp hl hlast
  obtain ⟨hk, ⟨path, hp, hf⟩, info, hi, he⟩ := buildEndpoint_ok hbe
  have hadr := endpointName_mem _ hn
  have hmem := Dict.get?_mem hep
  have hpc : sp.kind ≠ .providerConfig := by intro e; rw [e] at hn; exact hn rfl
  refine ⟨path, ep.fullPath, ep, hp, hf ▸ addressOf_base _ _, ?_, hep, hk, rfl⟩
  rw [info_get h (address_not_own _ hadr).1, no_capability hc]
  have : firstInfo p.endpoints sp.kind.endpointName = some (.str ep.fullPath) := by
    refine firstInfo_only hmem (name_not_special _ hpc) ?_ ?_
    · rw [if_neg hn] at he
      rw [he, Option.getD_some, Dict.get?_set, if_pos rfl]
    · intro n' ep' v' hm' hs' hv'
      obtain ⟨hg', sp', hsp', hn', hb'⟩ := endpoint_mem hb hm'
      rcases epInfo_keys hb' hv' with ⟨e1, -, e2⟩ | hcon
      · have hname : sp.kind.name = sp'.kind.name := name_of_endpointName e1 hn
        rw [hname, hn', hg'] at hep
        cases hep
        exact e2
      · exact absurd hcon (address_not_contributed _ _ hadr)
  rw [this]
  rfl

/-- **C86** The issuer and the address of the keys are published as configured. -/
theorem C86_issuer_and_keys (al : AlgLib) (sl : ScopeLib) (cf : ProvConf) (p : Provider) (h : startProvider al sl cf = .ok p) :
    p.info.get? c!"issuer" = some (.str cf.issuer) ∧
    (cf.keys = true → ∃ url, AddressOf cf.issuer cf.jwksPath url ∧ p.info.get? c!"jwks_uri" = some (.str url)) := by
  obtain ⟨idt, hidt, -, hinfo, -⟩ := startProvider_ok h
  rw [hinfo]
  constructor
  · rw [createProviderInfo_get hidt, if_neg (fun h => absurd h.1 (by decide)), if_pos rfl]
  · intro hk
    refine ⟨jwksUri cf, ?_, ?_⟩
    · unfold AddressOf jwksUri
      by_cases h : cf.issuer.getLast? = some '/'
      · rw [if_pos h]
        exact .inl ⟨List.getLast?_eq_some_iff.1 h, rfl⟩
      · rw [if_neg h]
        refine .inr ⟨fun hs => h (List.getLast?_eq_some_iff.2 hs), by simp⟩
    · rw [createProviderInfo_get hidt, if_neg (fun h => absurd h.1 (by decide)), if_neg (by decide), if_neg (by decide),
        if_neg (fun h => absurd h.1 (by decide)), if_pos ⟨rfl, hk⟩]

/-- **C86** No address is published for an endpoint that is not there, unless the configured capabilities state one. -/
theorem C86_no_other_addresses (al : AlgLib) (sl : ScopeLib) (cf : ProvConf) (p : Provider) (h : startProvider al sl cf = .ok p) (n : Str)
    (hn : n ∈ addressEntries) (hc : ¬ StatesCapability cf n) (v : RegVal) (hv : p.info.get? n = some v) :
    ∃ sp ∈ cf.endpoints, sp.kind.endpointName = n := by
  obtain ⟨idt, hidt, hb, hinfo, -⟩ := startProvider_ok h
  obtain ⟨h1, h2, h3⟩ := address_not_own _ hn
  rw [info_get h h1, no_capability hc] at hv
  cases hf : firstInfo p.endpoints n with
  | none => rw [hf] at hv; simp [h2, h3] at hv
  | some w =>
    obtain ⟨n', ep', hm', -, hg⟩ := firstInfo_some hf
    obtain ⟨-, sp', hsp', -, hb'⟩ := endpoint_mem hb hm'
    rcases epInfo_keys hb' hg with ⟨e, -, -⟩ | hcon
    · exact ⟨sp', hsp', e.symm⟩
    · exact absurd hcon (address_not_contributed _ _ hn)

/-- **C86** is false of the code for two providers whose configurations share the dictionary of capabilities, even if it says
nothing about addresses: the second publishes the addresses of the first, and the first the issuer of the second. -/
theorem C86_shared_capabilities (al : AlgLib) (sl : ScopeLib) (cap : RegRec) (cf1 cf2 : ProvConf) (p1 p2 : Provider)
    (h : startTwo al sl cap cf1 cf2 = .ok (p1, p2)) (sp : EpSpec) (hsp : HasEndpoint cf1 sp) (hn : sp.kind.endpointName ≠ [])
    (hc : cap.get? sp.kind.endpointName = none) :
    (∃ path url, sp.path = some path ∧ AddressOf cf1.issuer path url ∧ p2.info.get? sp.kind.endpointName = some (.str url)) ∧
    p1.info.get? c!"issuer" = some (.str cf2.issuer) := by
  unfold startTwo at h
  cases h1 : startProvider al sl { cf1 with capabilities := some cap } with
  | error e => simp [h1] at h
  | ok q1 =>
    simp only [h1] at h
    cases h2 : startProvider al sl { cf2 with capabilities := some q1.info } with
    | error e => simp [h2] at h
    | ok q2 =>
      simp only [h2, Except.ok.injEq, Prod.mk.injEq] at h
      obtain ⟨rfl, rfl⟩ := h
      refine ⟨?_, (C86_issuer_and_keys al sl _ _ h2).1⟩
      have hns : ¬ StatesCapability { cf1 with capabilities := some cap } sp.kind.endpointName := by
        rintro ⟨cap', v, e, hg⟩
        cases e
        rw [hc] at hg
        cases hg
      obtain ⟨path, url, ep, hp, ha, hi, -⟩ := C86_published_addresses al sl _ _ h1 sp hsp hn hns
      refine ⟨path, url, hp, ha, ?_⟩
      rw [info_get h2 (address_not_own _ (endpointName_mem _ hn)).1]
      simp only [Option.getD_some, hi, Option.or_some]
      rfl

/-! Examples. -/

def demoAlgs : AlgLib := { signing := [c!"none", c!"HS256", c!"RS256", c!"ES256"], encAlg := [c!"RSA1_5"], encEnc := [c!"A128GCM"] }
def demoScopes : ScopeLib := { scopes := [c!"openid", c!"email"], claims := [c!"email"] }
def demoProv (iss : Str) : ProvConf :=
  { issuer := iss, jwksPath := c!"jwks.json",
    endpoints := [⟨.authorization, some c!"authz", []⟩, ⟨.token, some c!"token", []⟩, ⟨.userinfo, some c!"me", []⟩] }

def provEntry (r : Except Exn Provider) (k : Str) : Option RegVal := match r with
  | .ok p => p.info.get? k
  | .error _ => none

example : provEntry (startProvider demoAlgs demoScopes (demoProv c!"https://op/")) c!"token_endpoint" = some (.str c!"https://op/token") := by decide
example : provEntry (startProvider demoAlgs demoScopes (demoProv c!"https://op")) c!"token_endpoint" = some (.str c!"https://op/token") := by decide
example : provEntry (startProvider demoAlgs demoScopes (demoProv c!"https://op")) c!"jwks_uri" = some (.str c!"https://op/jwks.json") := by decide
example : HasEndpoint (demoProv c!"https://op") ⟨.token, some c!"token", []⟩ :=
  ⟨[⟨.authorization, some c!"authz", []⟩], [⟨.userinfo, some c!"me", []⟩], rfl, by decide⟩

/-- Two tenants with one dictionary of capabilities. -/
example :
    let cap : RegRec := [(c!"grant_types_supported", .strs [c!"authorization_code"])]
    (match startTwo demoAlgs demoScopes cap (demoProv c!"https://a") (demoProv c!"https://b") with
      | .ok (p1, p2) => (p1.info.get? c!"issuer", p2.info.get? c!"token_endpoint", (p2.endpoints.get? c!"token").map (·.fullPath))
      | .error _ => (none, none, none)) =
      (some (.str c!"https://b"), some (.str c!"https://a/token"), some c!"https://b/token") := by decide

/-! ### C87 -/

/-- **C87**, the part that holds: what the configured capabilities state is published as stated, except for the entries the provider
fills in itself.  Missing: the lists for ID tokens. -/
theorem C87_capabilities_published_partial (al : AlgLib) (sl : ScopeLib) (cf : ProvConf) (p : Provider) (h : startProvider al sl cf = .ok p)
    (cap : RegRec) (hc : cf.capabilities = some cap) (k : Str) (v : RegVal) (hv : cap.get? k = some v) (hk : k ∉ ownEntries) :
    p.info.get? k = some v := by
  rw [info_get h hk, hc]
  simp [hv]

theorem algsOf_idToken (al : AlgLib) : ∀ k ∈ idTokenEntries, algsOf al k = (libraryAlgs al k).map fun l =>
    if k ∈ signingEntries then sortedAlgs l else .ok l := by
  intro k hk
  simp only [idTokenEntries, List.mem_cons, List.not_mem_nil, or_false] at hk
  rcases hk with rfl | rfl | rfl
  · rfl
  · rfl
  · rfl

theorem insertAlg_perm (a : Str) (l : List Str) : (insertAlg a l).Perm (a :: l) := by
  induction l with
  | nil => exact List.Perm.refl _
  | cons b r ih =>
    unfold insertAlg
    split
    · exact List.Perm.refl _
    · exact (List.Perm.cons b ih).trans (List.Perm.swap a b r)

theorem sortAlgs_perm (l : List Str) : (sortAlgs l).Perm l := by
  induction l with
  | nil => exact List.Perm.refl _
  | cons a l ih => exact (insertAlg_perm a _).trans (List.Perm.cons a ih)

theorem sortedAlgs_mem {l r : List Str} (h : sortedAlgs l = .ok r) : r.Perm l := by
  unfold sortedAlgs at h
  split at h
  · cases h
  · cases h; exact sortAlgs_perm l

/-- The ID token entries are those of the ID token configuration. -/
theorem info_idToken {al : AlgLib} {sl : ScopeLib} {cf : ProvConf} {p : Provider} (h : startProvider al sl cf = .ok p) {k : Str}
    (hk : k ∈ idTokenEntries) : ∃ v, capOne al cf.idToken k none = .ok (some v) ∧ p.info.get? k = some v := by
  obtain ⟨idt, hidt, -, hinfo, -⟩ := startProvider_ok h
  have hm : (k, none) ∈ idTokenDefaults := by
    simp only [idTokenEntries, List.mem_cons, List.not_mem_nil, or_false] at hk
    rcases hk with rfl | rfl | rfl <;> simp [idTokenDefaults]
  have hc := constructInfo_get hidt idTokenDefaults_nodup hm
  have hsome : ∃ v, idt.get? k = some v := by
    unfold capOne at hc
    cases hg : cf.idToken.get? k with
    | some v =>
      simp only [hg] at hc
      cases hp : checkProposal al k v with
      | error e => simp [hp] at hc
      | ok u => simp only [hp, Except.ok.injEq] at hc; exact ⟨v, hc.symm⟩
    | none =>
      simp only [hg, libraryDefault, algsOf_idToken al k hk] at hc
      simp only [idTokenEntries, List.mem_cons, List.not_mem_nil, or_false] at hk
      rcases hk with rfl | rfl | rfl
      all_goals
        simp only [libraryAlgs, signingEntries, keyEncryptionEntries, contentEncryptionEntries, List.mem_cons, true_or, or_true, if_true, Option.map_some] at hc
        split at hc
        · rename_i h'; revert h'; simp
        · cases hc
        · simp only [Except.ok.injEq] at hc; exact ⟨_, hc.symm⟩
  obtain ⟨v, hv⟩ := hsome
  refine ⟨v, by rw [hc, hv], ?_⟩
  rw [hinfo, createProviderInfo_get hidt, if_pos ⟨hk, by simp [hv]⟩, hv]

/-- **C87** is false of the code for the lists of algorithms for ID tokens: whatever the configured capabilities state about them,
it is replaced by the list of the ID token configuration, which, if that has none, is everything the library implements. -/
theorem C87_id_token_capabilities_replaced (al : AlgLib) (sl : ScopeLib) (cf : ProvConf) (p : Provider) (h : startProvider al sl cf = .ok p)
    (k : Str) (hk : k ∈ idTokenEntries) (hno : cf.idToken.get? k = none) :
    ∃ l lib, libraryAlgs al k = some lib ∧ p.info.get? k = some (.strs l) ∧ ∀ a, a ∈ l ↔ a ∈ lib := by
  obtain ⟨v, hc, hv⟩ := info_idToken h hk
  simp only [capOne, hno, libraryDefault, algsOf_idToken al k hk] at hc
  have hne : k ≠ c!"token_endpoint_auth_signing_alg_values_supported" := by
    rintro rfl; exact absurd hk (by decide)
  cases hl : libraryAlgs al k with
  | none => simp [hl] at hc
  | some lib =>
    simp only [hl, Option.map_some] at hc
    split at hc
    · cases hc
    · cases hc
    · rename_i l e
      simp only [if_neg hne, Except.ok.injEq, Option.some.injEq] at hc e
      refine ⟨l, lib, rfl, by rw [hv, ← hc], fun a => ?_⟩
      split at e
      · exact (sortedAlgs_mem e).mem_iff
      · cases e; exact Iff.rfl

example :
    provEntry (startProvider demoAlgs demoScopes { demoProv c!"https://op" with
      capabilities := some [(c!"id_token_signing_alg_values_supported", .strs [c!"RS256"]), (c!"grant_types_supported", .strs [c!"implicit"]),
        (c!"response_types_supported", .strs [c!"code"])] })
      c!"id_token_signing_alg_values_supported" = some (.strs [c!"RS256", c!"ES256", c!"HS256", c!"none"]) := by decide

/-- **C87** is false of the code for the provider configuration endpoint: a setting there is never published. -/
theorem C87_provider_config_setting_ignored (al : AlgLib) (sl : ScopeLib) (cf : ProvConf) (p : Provider) (h : startProvider al sl cf = .ok p)
    (hc : ¬ StatesCapability cf c!"require_request_uri_registration") : p.info.get? c!"require_request_uri_registration" = none := by
  obtain ⟨idt, hidt, hb, -, -⟩ := startProvider_ok h
  rw [info_get h (by decide), no_capability hc]
  cases hf : firstInfo p.endpoints c!"require_request_uri_registration" with
  | none => rfl
  | some w =>
    obtain ⟨n', ep', hm', hs, hg⟩ := firstInfo_some hf
    obtain ⟨-, sp', hsp', hn', hb'⟩ := endpoint_mem hb hm'
    rcases epInfo_keys hb' hg with ⟨e, -, -⟩ | hcon
    · exact absurd e (by cases sp'.kind <;> decide)
    · cases hk : sp'.kind with
      | providerConfig => rw [hk] at hn'; exact absurd (.inr hn'.symm) hs
      | _ => rw [hk] at hcon; exact absurd hcon (by decide)

example :
    let cf : ProvConf := { demoProv c!"https://op" with endpoints := [⟨.providerConfig, some c!".well-known/openid-configuration",
      [(c!"require_request_uri_registration", boolVal true)]⟩] }
    (startProvider demoAlgs demoScopes cf).toOption.isSome = true ∧
    provEntry (startProvider demoAlgs demoScopes cf) c!"require_request_uri_registration" = none := by decide

end Verif
