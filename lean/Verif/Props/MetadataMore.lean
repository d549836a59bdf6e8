import Verif.Props.Claims
import Verif.Props.MetadataServe
/-! More on provider metadata: which lists of algorithms are published (C88), under which names the endpoints are found (C86),
whether refresh tokens are allowed (C91), and which proposals for algorithms are accepted (C88). -/
namespace Verif
open Spec
set_option linter.unusedSimpArgs false
set_option linter.unusedVariables false

/-- The algorithm lists an endpoint is responsible for (OpenID Connect Discovery, section 3). -/
def algorithmEntries : EpKind → List Str
  | .authorization | .oauth2Authorization | .pushedAuthorization =>
    [c!"request_object_signing_alg_values_supported", c!"request_object_encryption_alg_values_supported",
     c!"request_object_encryption_enc_values_supported"]
  | .token => [c!"token_endpoint_auth_signing_alg_values_supported"]
  | .userinfo => [c!"userinfo_signing_alg_values_supported", c!"userinfo_encryption_alg_values_supported",
      c!"userinfo_encryption_enc_values_supported"]
  | _ => []

theorem algorithmEntries_default (kd : EpKind) : ∀ k ∈ algorithmEntries kd, (k, none) ∈ kd.defaults.getD [] := by
  cases kd <;> decide

theorem algorithmEntries_listed (kd : EpKind) : ∀ k ∈ algorithmEntries kd, k ∉ ownEntries ∧ k ≠ c!"check_session_iframe" ∧
    k ∈ signingEntries ++ keyEncryptionEntries ++ contentEncryptionEntries := by cases kd <;> decide

/-- **C88** Every started provider with an endpoint publishes the algorithm lists of that endpoint, configured or not. -/
theorem C88_lists_published (al : AlgLib) (sl : ScopeLib) (cf : ProvConf) (p : Provider) (h : startProvider al sl cf = .ok p)
    (sp : EpSpec) (hsp : HasEndpoint cf sp) (k : Str) (hk : k ∈ algorithmEntries sp.kind) : (p.info.get? k).isSome = true := by
  obtain ⟨idt, hidt, hb, -, -⟩ := startProvider_ok h
  obtain ⟨a, b, hl, hlast⟩ := hsp
  obtain ⟨ep, hbe, hep⟩ := (buildEndpoints_ok hb).2.2.1 a b sp hl hlast
  obtain ⟨k1, k2, k3⟩ := algorithmEntries_listed sp.kind k hk
  have hpc : sp.kind ≠ .providerConfig := by intro e; rw [e] at hk; cases hk
  have hcap := epInfo_get hbe (algorithmEntries_default sp.kind k hk) (fun hh => k2 hh.2)
  have hsome : (Dict.get? (ep.info.getD []) k).isSome = true := by
    unfold capOne at hcap
    cases hg : sp.kwargs.get? k with
    | some w =>
      simp only [hg] at hcap
      cases hch : checkProposal al k w with
      | error e => simp [hch] at hcap
      | ok u => simp only [hch, Except.ok.injEq] at hcap; rw [← hcap]; rfl
    | none =>
      simp only [hg, libraryDefault] at hcap
      obtain ⟨lib, hlib⟩ : ∃ lib, libraryAlgs al k = some lib := by
        unfold libraryAlgs
        rw [← mem_entries] at k3
        rcases k3 with h | h | h
        · exact ⟨_, if_pos h⟩
        · by_cases h' : k ∈ signingEntries
          · exact ⟨_, if_pos h'⟩
          · exact ⟨_, by rw [if_neg h', if_pos h]⟩
        · by_cases h' : k ∈ signingEntries
          · exact ⟨_, if_pos h'⟩
          · by_cases h'' : k ∈ keyEncryptionEntries
            · exact ⟨_, by rw [if_neg h', if_pos h'']⟩
            · exact ⟨_, by rw [if_neg h', if_neg h'', if_pos h]⟩
      rw [algsOf_entry hlib] at hcap
      split at hcap
      · rename_i e; simp at e
      · cases hcap
      · simp only [Except.ok.injEq] at hcap; rw [← hcap]; rfl
  rw [info_get h k1]
  have hf : (firstInfo p.endpoints k).isSome = true := by
    cases hf : firstInfo p.endpoints k with
    | some w => rfl
    | none =>
      unfold firstInfo at hf
      rw [List.findSome?_eq_none_iff] at hf
      have := hf _ (Dict.get?_mem hep)
      rw [if_neg (name_not_special _ hpc)] at this
      rw [this] at hsome
      cases hsome
  cases hst : ((cf.capabilities.getD []).get? k) with
  | some w => simp [hst]
  | none =>
    obtain ⟨w, hw⟩ := Option.isSome_iff_exists.1 hf
    simp [hst, hw]

example : HasEndpoint (demoProv c!"https://op") ⟨.authorization, some c!"authz", []⟩ ∧
    c!"request_object_signing_alg_values_supported" ∈ algorithmEntries .authorization :=
  ⟨⟨[], [⟨.token, some c!"token", []⟩, ⟨.userinfo, some c!"me", []⟩], rfl, by decide⟩, by decide⟩

/-- **C86** Every configured endpoint is found, after the start, under the name of its protocol role (or another one of the same
role). -/
theorem C86_endpoints_by_name (al : AlgLib) (sl : ScopeLib) (cf : ProvConf) (p : Provider) (h : startProvider al sl cf = .ok p)
    (sp : EpSpec) (hsp : sp ∈ cf.endpoints) (n : Str)
    (hn : (sp.kind, n) ∈ [(.authorization, c!"authorization"), (.oauth2Authorization, c!"authorization"),
      (.pushedAuthorization, c!"pushed_authorization"), (.token, c!"token"), (.userinfo, c!"userinfo"), (.session, c!"session"),
      (.registration, c!"registration"), (.registrationRead, c!"registration_read"), (.introspection, c!"introspection"),
      (.providerConfig, c!"provider_config"), (.discovery, c!"discovery")]) :
    p.endpoints.has n = true := by
  obtain ⟨idt, hidt, hb, -, -⟩ := startProvider_ok h
  refine endpoint_present hb hsp ?_
  simp only [List.mem_cons, List.not_mem_nil, or_false, Prod.mk.injEq] at hn
  rcases hn with ⟨e, rfl⟩ | ⟨e, rfl⟩ | ⟨e, rfl⟩ | ⟨e, rfl⟩ | ⟨e, rfl⟩ | ⟨e, rfl⟩ | ⟨e, rfl⟩ | ⟨e, rfl⟩ | ⟨e, rfl⟩ | ⟨e, rfl⟩ | ⟨e, rfl⟩ <;>
    rw [e] <;> rfl

theorem contains_dict (x : Val) {l : Val} (h : IsDict l) : ∃ b, l.contains x = some b ∧ (b = true ↔ ∃ k, x = .str k ∧ HasKey k l) := by
  induction h with
  | nil => exact ⟨false, rfl, by simp [HasKey]⟩
  | cons k v r _ ih =>
    obtain ⟨b, h1, h2⟩ := ih
    unfold Val.contains
    by_cases e : x = .str k
    · exact ⟨true, by simp [e], by simp [e, HasKey]⟩
    · refine ⟨b, by simp [e, h1], h2.trans ⟨?_, ?_⟩⟩
      · rintro ⟨k', rfl, hk⟩; exact ⟨k', rfl, .inr hk⟩
      · rintro ⟨k', rfl, hk | hk⟩
        · subst hk; exact absurd rfl e
        · exact ⟨k', rfl, hk⟩

/-- **C91** Whether refresh tokens are allowed (the answer `allow_refresh_token` gives, which the start-up ignores): never without
configured capabilities; otherwise if the published grant types have "refresh_token". -/
theorem C91_refresh_allowed (cf : ProvConf) (info : RegRec) (hr : cf.refresh = true) :
    (cf.capabilities = none → allowRefresh cf info = .ok false) ∧
    (∀ cap l, cf.capabilities = some cap → info.get? c!"grant_types_supported" = some (.strs l) →
      ∃ b, allowRefresh cf info = .ok b ∧ (b = true ↔ c!"refresh_token" ∈ l)) ∧
    (∀ cap, cf.capabilities = some cap → info.get? c!"grant_types_supported" = none → allowRefresh cf info = .error .keyError) ∧
    (∀ cap s, cf.capabilities = some cap → info.get? c!"grant_types_supported" = some (.str s) →
      ∃ b, allowRefresh cf info = .ok b ∧ (b = true ↔ ∃ x y, s = x ++ c!"refresh_token" ++ y)) ∧
    (∀ cap v, cf.capabilities = some cap → info.get? c!"grant_types_supported" = some (.json v) → IsDict v →
      ∃ b, allowRefresh cf info = .ok b ∧ (b = true ↔ HasKey c!"refresh_token" v)) ∧
    (∀ cap v, cf.capabilities = some cap → info.get? c!"grant_types_supported" = some v →
      ((∃ i, v = .int i) ∨ v = .json .null ∨ (∃ b, v = .json (.bool b)) ∨ ∃ i, v = .json (.int i)) →
      allowRefresh cf info = .error .typeError) ∧
    (∀ cap v, cf.capabilities = some cap → info.get? c!"grant_types_supported" = some v → (∃ l, v = .uris l) ∨ (∃ l, v = .parts l) →
      allowRefresh cf info = .ok false) := by
  refine ⟨fun h => ?_, fun cap l h h' => ?_, fun cap h h' => ?_, fun cap s h h' => ?_, fun cap v h h' hd => ?_, fun cap v h h' hv => ?_,
    fun cap v h h' hv => ?_⟩
  · simp [allowRefresh, hr, h]
  · exact ⟨l.contains c!"refresh_token", by simp [allowRefresh, hr, h, h'], by simp⟩
  · simp [allowRefresh, hr, h, h']
  · exact ⟨isInfix c!"refresh_token" s, by simp [allowRefresh, hr, h, h'], isInfix_iff _ _⟩
  · obtain ⟨b, h1, h2⟩ := contains_dict (.str c!"refresh_token") hd
    exact ⟨b, by simp [allowRefresh, hr, h, h', h1], h2.trans ⟨fun ⟨k, e, hk⟩ => by cases e; exact hk, fun hk => ⟨_, rfl, hk⟩⟩⟩
  · rcases hv with ⟨i, rfl⟩ | rfl | ⟨b, rfl⟩ | ⟨i, rfl⟩ <;> simp [allowRefresh, hr, h, h', Val.contains]
  · rcases hv with ⟨l, rfl⟩ | ⟨l, rfl⟩ <;> simp [allowRefresh, hr, h, h']

/-- **C87** What the endpoint for the provider's own document says about itself: only whether request addresses must be registered,
and only if configured. -/
theorem C87_document_endpoint (al : AlgLib) (iss : Str) (sp : EpSpec) (hk : sp.kind = .providerConfig) (p : Str) (hp : sp.path = some p) :
    (∀ v, sp.kwargs.get? c!"require_request_uri_registration" = some v →
      ∃ full, buildEndpoint al iss sp = .ok ⟨.providerConfig, full, some [(c!"require_request_uri_registration", v)]⟩) ∧
    (sp.kwargs.get? c!"require_request_uri_registration" = none →
      ∃ full, buildEndpoint al iss sp = .ok ⟨.providerConfig, full, some []⟩) := by
  have hn : algsOf al c!"require_request_uri_registration" = none := rfl
  constructor
  · intro v hv
    simp [buildEndpoint, endpointInfo, hk, hp, EpKind.defaults, constructInfo, capOne, hv, checkProposal, hn, EpKind.endpointName]
  · intro hv
    simp [buildEndpoint, endpointInfo, hk, hp, EpKind.defaults, constructInfo, capOne, hv, libraryDefault, hn, EpKind.endpointName]

/-- **C88** A configured list of algorithms stops the provider exactly if it has one the library does not implement; a single
string is taken as the list of its characters (so that naming one algorithm instead of a list of one is refused). -/
theorem C88_proposal_checked (al : AlgLib) (k : Str) (l : List Str) (hl : l ≠ []) (h : algsOf al k = some (.ok l)) :
    (∀ ps : List Str, checkProposal al k (.strs ps) = if ∀ x ∈ ps, x ∈ l then .ok () else .error .valueError) ∧
    (∀ s : Str, checkProposal al k (.str s) = if ∀ ch ∈ s, [ch] ∈ l then .ok () else .error .valueError) := by
  cases l with
  | nil => exact absurd rfl hl
  | cons y r =>
    constructor
    · intro ps
      unfold checkProposal
      simp only [h]
      by_cases hh : ∀ x ∈ ps, x ∈ y :: r
      · rw [if_pos hh, if_pos (by simpa using hh)]
      · rw [if_neg hh, if_neg (by simpa using hh)]
    · intro s
      unfold checkProposal
      simp only [h]
      by_cases hh : ∀ ch ∈ s, [ch] ∈ y :: r
      · rw [if_pos hh, if_pos (by simpa using hh)]
      · rw [if_neg hh, if_neg (by simpa using hh)]

example : algsOf ⟨[c!"RS256"], [c!"RSA1_5"], [c!"A128GCM"]⟩ c!"userinfo_encryption_alg_values_supported" = some (.ok [c!"RSA1_5"]) := by
  decide

end Verif
