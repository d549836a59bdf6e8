import Verif.Props.MetadataUse
set_option linter.unusedSimpArgs false
set_option linter.unusedVariables false
/-! Provider metadata against what the provider does: C89 (scopes), C90 (registration, required entries), C91 (starting), C92 (custom
scopes). -/
namespace Verif
open Spec

/-- Every configured endpoint is there, or one of the same name. -/
theorem endpoint_present {al : AlgLib} {iss : Str} {l : List EpSpec} {eps : Dict Ep} (hb : buildEndpoints al iss l [] = .ok eps) {sp : EpSpec}
    (hm : sp ∈ l) {n : Str} (hn : sp.kind.name = n) : eps.has n = true := by
  have key : ∀ (l : List EpSpec) (acc eps : Dict Ep), buildEndpoints al iss l acc = .ok eps →
      (sp ∈ l ∨ (acc.get? n).isSome) → (eps.get? n).isSome := by
    intro l
    induction l with
    | nil =>
      intro acc eps hb hor
      simp only [buildEndpoints, Except.ok.injEq] at hb
      subst hb
      exact hor.resolve_left (by simp)
    | cons x l ih =>
      intro acc eps hb hor
      simp only [buildEndpoints] at hb
      cases hx : buildEndpoint al iss x with
      | error e => simp [hx] at hb
      | ok ep0 =>
        simp only [hx] at hb
        refine ih _ _ hb ?_
        rcases hor with hm | hacc
        · rcases List.mem_cons.1 hm with e | hm
          · right; rw [← e, hn, Dict.get?_set, if_pos rfl]; rfl
          · exact .inl hm
        · right
          rw [Dict.get?_set]
          split
          · rfl
          · exact hacc
  exact key _ _ _ hb (.inl hm)

/-! ### C89: scopes -/

/-- An entry of the default capabilities that is published without being configured or stated. -/
theorem unstated_entry {al : AlgLib} {sl : ScopeLib} {cf : ProvConf} {p : Provider} (h : startProvider al sl cf = .ok p) {k : Str}
    (hown : k ∉ ownEntries) (hc : ¬ StatesCapability cf k) (hcon : ∀ sp ∈ cf.endpoints, k ∉ contributes sp.kind) (hadr : k ∉ addressEntries) :
    p.info.get? k = if k = c!"scopes_supported" then some (.strs sl.scopes) else if k = c!"claims_supported" then some (.strs sl.claims) else none := by
  obtain ⟨idt, hidt, hb, -, -⟩ := startProvider_ok h
  rw [info_get h hown, no_capability hc]
  cases hf : firstInfo p.endpoints k with
  | none => rfl
  | some w =>
    obtain ⟨n', ep', hm', hs, hg⟩ := firstInfo_some hf
    obtain ⟨-, sp', hsp', hn', hb'⟩ := endpoint_mem hb hm'
    rcases epInfo_keys hb' hg with ⟨e, e0, -⟩ | hc'
    · exact absurd (e ▸ endpointName_mem _ (e ▸ e0)) hadr
    · exact absurd hc' (hcon sp' hsp')

/-- The scopes handling of a started provider: it looks at the published list. -/
def scopesOf (p : Provider) (map : Dict (List Str)) : ClaimsCfg :=
  { modules := [], scope2claims := map, scopesSupported := infoList p.info c!"scopes_supported" }

/-- **C89** At a provider that states nothing else and has no plain OAuth2 authorization endpoint, the scopes published are
exactly those a client without a list of its own is allowed. -/
theorem C89_default_scopes_honoured (al : AlgLib) (sl : ScopeLib) (cf : ProvConf) (p : Provider) (h : startProvider al sl cf = .ok p)
    (map : Dict (List Str)) (hmap : sl.scopes = map.keys) (hc : ¬ StatesCapability cf c!"scopes_supported")
    (hk : ∀ sp ∈ cf.endpoints, sp.kind ≠ .oauth2Authorization ∧ sp.kind ≠ .pushedAuthorization) (cdb : Cdb) (client : Str) (c : Client)
    (hcl : cdb client = some c) (hown : c.allowedScopes = []) (s : Str) :
    s ∈ allowedScopes (scopesOf p map) cdb client ↔ ∃ l, p.info.get? c!"scopes_supported" = some (.strs l) ∧ s ∈ l := by
  have hi : p.info.get? c!"scopes_supported" = some (.strs sl.scopes) := by
    rw [unstated_entry h (by decide) hc ?_ (by decide), if_pos rfl]
    intro sp hsp
    obtain ⟨h1, h2⟩ := hk sp hsp
    cases hkd : sp.kind with
    | oauth2Authorization => exact absurd hkd h1
    | pushedAuthorization => exact absurd hkd h2
    | _ => decide
  unfold allowedScopes
  rw [hcl, hi]
  simp only [hown, List.isEmpty_nil, if_true]
  have hl : infoList p.info c!"scopes_supported" = sl.scopes := by unfold infoList; rw [hi]
  unfold availableScopes scopesOf
  simp only [hl]
  rw [hmap]
  by_cases he : map.keys.isEmpty = true
  · rw [if_pos he]; simp
  · rw [if_neg he]; simp

/-- **C89**, in general: at a provider that publishes scopes, a client without a list of its own is allowed those among them
that the provider knows.  A scope that is published without being known is never allowed. -/
theorem C89_published_and_known (p : Provider) (map : Dict (List Str)) (l : List Str) (hl : p.info.get? c!"scopes_supported" = some (.strs l))
    (hne : l ≠ []) (cdb : Cdb) (client : Str) (c : Client) (hcl : cdb client = some c) (hown : c.allowedScopes = []) (s : Str) :
    s ∈ allowedScopes (scopesOf p map) cdb client ↔ s ∈ l ∧ s ∈ map.keys := by
  unfold allowedScopes
  rw [hcl]
  simp only [hown, List.isEmpty_nil, if_true]
  have hl' : infoList p.info c!"scopes_supported" = l := by unfold infoList; rw [hl]
  unfold availableScopes scopesOf
  simp only [hl']
  rw [if_neg (by simpa using hne)]
  simp [and_comm]

/-- **C89** is false of the code for a provider with a plain OAuth2 authorization endpoint: it publishes that it supports no
scope, and allows every scope. -/
theorem C89_oauth2_scopes_unpublished (al : AlgLib) (sl : ScopeLib) (cf : ProvConf) (p : Provider) (h : startProvider al sl cf = .ok p)
    (map : Dict (List Str)) (sp : EpSpec) (hsp : sp ∈ cf.endpoints) (hk : sp.kind = .oauth2Authorization ∨ sp.kind = .pushedAuthorization)
    (hkw : ∀ s ∈ cf.endpoints, s.kwargs.get? c!"scopes_supported" = none) (hpar : ∀ s ∈ cf.endpoints, s.kind ≠ .authorization)
    (hc : ¬ StatesCapability cf c!"scopes_supported")
    (cdb : Cdb) (client : Str) (c : Client) (hcl : cdb client = some c) (hown : c.allowedScopes = []) :
    p.info.get? c!"scopes_supported" = some (.strs []) ∧ ∀ s ∈ map.keys, s ∈ allowedScopes (scopesOf p map) cdb client := by
  obtain ⟨idt, hidt, hb, -, -⟩ := startProvider_ok h
  have hval : ∀ s ep, s ∈ cf.endpoints → buildEndpoint al cf.issuer s = .ok ep → (s.kind = .oauth2Authorization ∨ s.kind = .pushedAuthorization) →
      Dict.get? (ep.info.getD []) c!"scopes_supported" = some (.strs []) := by
    intro s ep hs hbe hkd
    have := epInfo_get hbe (k := c!"scopes_supported") (dflt := some (.strs []))
      (by rcases hkd with e | e <;> rw [e] <;> simp [EpKind.defaults, authzDefaults]) (fun hh => absurd hh.2 (by decide))
    unfold capOne at this
    rw [hkw s hs] at this
    simp only [Except.ok.injEq] at this
    exact this.symm
  have hi : p.info.get? c!"scopes_supported" = some (.strs []) := by
    rw [info_get h (by decide), no_capability hc]
    have : firstInfo p.endpoints c!"scopes_supported" = some (.strs []) := by
      obtain ⟨-, i2, -, i4, -⟩ := buildEndpoints_ok hb
      have hex : ∃ ep, p.endpoints.get? sp.kind.name = some ep := by
        exact Option.isSome_iff_exists.1 (endpoint_present hb hsp rfl)
      obtain ⟨ep, hep⟩ := hex
      obtain ⟨-, sp', hsp', hn', hb'⟩ := endpoint_mem hb (Dict.get?_mem hep)
      have hk' : sp'.kind = .oauth2Authorization ∨ sp'.kind = .pushedAuthorization := by
        have hna := hpar sp' hsp'
        rcases hk with e | e <;> rw [e] at hn' <;> revert hn' hna <;> cases sp'.kind <;> decide
      refine firstInfo_only (Dict.get?_mem hep) ?_ (hval sp' ep hsp' hb' hk') ?_
      · rw [← hn']
        exact name_not_special _ (by rcases hk' with e | e <;> rw [e] <;> decide)
      · intro n2 ep2 v2 hm2 hs2 hg2
        obtain ⟨-, sp2, hsp2, hn2, hb2⟩ := endpoint_mem hb hm2
        have hk2 : sp2.kind = .oauth2Authorization ∨ sp2.kind = .pushedAuthorization := by
          rcases epInfo_keys hb2 hg2 with ⟨e, e0, -⟩ | hcon
          · exact absurd (e ▸ endpointName_mem _ (e ▸ e0)) (by decide : c!"scopes_supported" ∉ addressEntries)
          · revert hcon; cases sp2.kind <;> decide
        rw [hval sp2 ep2 hsp2 hb2 hk2] at hg2
        cases hg2; rfl
    rw [this]; rfl
  refine ⟨hi, fun s hs => ?_⟩
  unfold allowedScopes
  rw [hcl]
  simp only [hown, List.isEmpty_nil, if_true]
  unfold availableScopes scopesOf
  simp only [infoList, hi, List.isEmpty_nil, if_true]
  exact hs

example :
    provEntry (startProvider demoAlgs demoScopes { demoProv c!"https://op" with endpoints := [⟨.oauth2Authorization, some c!"authz", []⟩] })
      c!"scopes_supported" = some (.strs []) := by decide
example : provEntry (startProvider demoAlgs demoScopes (demoProv c!"https://op")) c!"scopes_supported" = some (.strs [c!"openid", c!"email"]) := by decide

/-! ### C90: what clients can register -/

theorem unpublished_refused (lib : RegLib) (cfg : RegCfg) (s : RegState) (i : RegIn) (n ss v : Bool) (req : RegRec) (hd : (req.map (·.1)).Nodup)
    (pref pv : Str) (hp : (pref, pv) ∈ registrationPreferences) (val : RegVal) (hv : req.get? pref = some val) (hb : ¬ Blank val)
    (hno : cfg.prov.get? pv = none) : ∃ e, registrationProcess lib cfg s i n ss v req = (s, .error e) := by
  have hno : matchClientRequest cfg.prov (rmBlanks req) preference2provider ≠ .ok none := by
    intro hm
    have hg : (rmBlanks req).get? pref = some val := by
      unfold rmBlanks
      rw [get?_filter_nodup req hd]
      refine ⟨hv, ?_⟩
      simpa [Blank] using hb
    obtain ⟨p, h1, -⟩ := matchClientRequest_ok.1 hm pref pv val hp hg
    rw [hno] at h1
    cases h1
  unfold registrationProcess
  split
  · exact ⟨_, rfl⟩
  · unfold registrationSetup
    dsimp only
    cases hm : matchClientRequest cfg.prov (rmBlanks req) preference2provider with
    | error e => exact ⟨_, rfl⟩
    | ok o => cases o with
      | none => exact absurd hm hno
      | some p => exact ⟨_, rfl⟩

/-- **C90** is false of the code for subject types: no endpoint publishes which are supported, so unless the configured
capabilities state it a client that asks for one, even for "public", cannot register. -/
theorem C90_subject_types_missing (al : AlgLib) (sl : ScopeLib) (cf : ProvConf) (p : Provider) (h : startProvider al sl cf = .ok p)
    (hc : ¬ StatesCapability cf c!"subject_types_supported") :
    p.info.get? c!"subject_types_supported" = none ∧
    ∀ (lib : RegLib) (cfg : RegCfg) (s : RegState) (i : RegIn) (n ss v : Bool) (req : RegRec), cfg.prov = p.info → (req.map (·.1)).Nodup →
      ∀ t, t ≠ [] → req.get? c!"subject_type" = some (.str t) → ∃ e, registrationProcess lib cfg s i n ss v req = (s, .error e) := by
  have hn : p.info.get? c!"subject_types_supported" = none := by
    rw [unstated_entry h (by decide) hc ?_ (by decide)]
    · rfl
    · intro sp _
      cases sp.kind <;> decide
  refine ⟨hn, fun lib cfg s i n ss v req hcfg hd t ht hr => ?_⟩
  refine unpublished_refused lib cfg s i n ss v req hd c!"subject_type" c!"subject_types_supported" (by decide) _ hr ?_ (by rw [hcfg]; exact hn)
  simp [Blank, ht]

/-- **C90** is false of the code for the authentication method of clients: unless the configured capabilities or the token endpoint
state methods, a client that names one, even the default "client_secret_basic", cannot register. -/
theorem C90_auth_methods_missing (al : AlgLib) (sl : ScopeLib) (cf : ProvConf) (p : Provider) (h : startProvider al sl cf = .ok p)
    (hc : ¬ StatesCapability cf c!"token_endpoint_auth_methods_supported")
    (hkw : ∀ sp ∈ cf.endpoints, sp.kwargs.get? c!"client_authn_method" = none) :
    p.info.get? c!"token_endpoint_auth_methods_supported" = none ∧
    ∀ (lib : RegLib) (cfg : RegCfg) (s : RegState) (i : RegIn) (n ss v : Bool) (req : RegRec), cfg.prov = p.info → (req.map (·.1)).Nodup →
      ∀ t, t ≠ [] → req.get? c!"token_endpoint_auth_method" = some (.str t) → ∃ e, registrationProcess lib cfg s i n ss v req = (s, .error e) := by
  have hn : p.info.get? c!"token_endpoint_auth_methods_supported" = none := by
    obtain ⟨idt, hidt, hb, -, -⟩ := startProvider_ok h
    rw [info_get h (by decide), no_capability hc]
    cases hf : firstInfo p.endpoints c!"token_endpoint_auth_methods_supported" with
    | none => rfl
    | some w =>
      exfalso
      obtain ⟨n', ep', hm', hs, hg⟩ := firstInfo_some hf
      obtain ⟨-, sp', hsp', hn', hb'⟩ := endpoint_mem hb hm'
      obtain ⟨-, -, info, hi, he⟩ := buildEndpoint_ok hb'
      have hin : ∃ i, info = some i ∧ c!"token_endpoint_auth_methods_supported" ∈ Dict.keys i := by
        by_cases hnm : sp'.kind.endpointName = []
        · rw [if_pos hnm] at he
          cases info with
          | none => rw [he] at hg; cases hg
          | some i => rw [he] at hg; exact ⟨i, rfl, Dict.get?_isSome.1 (by simpa using Option.isSome_iff_exists.2 ⟨_, hg⟩)⟩
        · rw [if_neg hnm] at he
          rw [he, Option.getD_some, Dict.get?_set] at hg
          have hne : c!"token_endpoint_auth_methods_supported" ≠ sp'.kind.endpointName := by cases sp'.kind <;> decide
          rw [if_neg hne] at hg
          cases info with
          | none => cases hg
          | some i => exact ⟨i, rfl, Dict.get?_isSome.1 (by simpa using Option.isSome_iff_exists.2 ⟨_, hg⟩)⟩
      obtain ⟨i, rfl, hin⟩ := hin
      unfold endpointInfo at hi
      cases hk : (if sp'.kind = .session then sessionKwargs cf.issuer sp'.kwargs else .ok sp'.kwargs) with
      | error e => simp [hk] at hi
      | ok kw' =>
        simp only [hk] at hi
        cases hdf : sp'.kind.defaults with
        | none => simp [hdf] at hi
        | some d =>
          simp only [hdf] at hi
          cases hcon : constructInfo al kw' d with
          | error e => simp [hcon] at hi
          | ok j =>
            simp only [hcon] at hi
            have hm : (if sp'.kind = .token then kw'.get? c!"client_authn_method" else none) = none := by
              by_cases et : sp'.kind = .token
              · rw [if_pos et]
                rw [if_neg (by rw [et]; decide)] at hk
                cases hk
                exact hkw sp' hsp'
              · rw [if_neg et]
            simp only [hm, Except.ok.injEq, Option.some.injEq] at hi
            subst hi
            have := (constructInfo_keys hcon).subset hin
            have hna := defaults_not_added sp'.kind
            rw [hdf] at hna
            exact hna this
  refine ⟨hn, fun lib cfg s i n ss v req hcfg hd t ht hr => ?_⟩
  refine unpublished_refused lib cfg s i n ss v req hd c!"token_endpoint_auth_method" c!"token_endpoint_auth_methods_supported" (by decide) _ hr ?_
    (by rw [hcfg]; exact hn)
  simp [Blank, ht]

theorem grantTypes_published {al : AlgLib} {sl : ScopeLib} {cf : ProvConf} {p : Provider} (h : startProvider al sl cf = .ok p)
    (hc : ¬ StatesCapability cf c!"grant_types_supported") (hkw : ∀ sp ∈ cf.endpoints, sp.kwargs.get? c!"grant_types_supported" = none) (v : RegVal)
    (hv : p.info.get? c!"grant_types_supported" = some v) : v = .strs [c!"authorization_code", c!"implicit"] := by
  obtain ⟨idt, hidt, hb, -, -⟩ := startProvider_ok h
  rw [info_get h (by decide), no_capability hc] at hv
  cases hf : firstInfo p.endpoints c!"grant_types_supported" with
  | none => rw [hf] at hv; simp at hv
  | some w =>
    have e : w = v := by rw [hf] at hv; simpa using hv
    subst e
    obtain ⟨n', ep', hm', hs, hg⟩ := firstInfo_some hf
    obtain ⟨-, sp', hsp', hn', hb'⟩ := endpoint_mem hb hm'
    have hk2 : (c!"grant_types_supported", some (.strs [c!"authorization_code", c!"implicit"])) ∈ sp'.kind.defaults.getD [] := by
      rcases epInfo_keys hb' hg with ⟨e, e0, -⟩ | hcon
      · exact absurd (e ▸ endpointName_mem _ (e ▸ e0)) (by decide : c!"grant_types_supported" ∉ addressEntries)
      · revert hcon; cases sp'.kind <;> decide
    have := epInfo_get hb' hk2 (fun hh => absurd hh.2 (by decide))
    unfold capOne at this
    rw [hkw sp' hsp', hg] at this
    simp only [Except.ok.injEq, Option.some.injEq] at this
    exact this.symm

/-- **C90** is false of the code for refresh tokens: unless configured otherwise the provider, which serves refresh tokens, does not
publish the grant type, and a client that asks for it cannot register. -/
theorem C90_refresh_not_registrable (al : AlgLib) (sl : ScopeLib) (cf : ProvConf) (p : Provider) (h : startProvider al sl cf = .ok p)
    (hc : ¬ StatesCapability cf c!"grant_types_supported") (hkw : ∀ sp ∈ cf.endpoints, sp.kwargs.get? c!"grant_types_supported" = none)
    (lib : RegLib) (cfg : RegCfg) (s : RegState) (i : RegIn) (n ss v : Bool) (req : RegRec) (hcfg : cfg.prov = p.info) (hd : (req.map (·.1)).Nodup)
    (l : List Str) (hr : req.get? c!"grant_types" = some (.strs l)) (hrt : c!"refresh_token" ∈ l) :
    ∃ e, registrationProcess lib cfg s i n ss v req = (s, .error e) := by
  have hblank : ¬ Blank (.strs l) := by
    rintro (e | e)
    · cases e
    · cases e; exact absurd hrt (by decide)
  cases hg : p.info.get? c!"grant_types_supported" with
  | none =>
    exact unpublished_refused lib cfg s i n ss v req hd c!"grant_types" c!"grant_types_supported" (by decide) _ hr hblank (by rw [hcfg]; exact hg)
  | some w =>
    have hw := grantTypes_published h hc hkw w hg
    subst hw
    have hno : matchClientRequest cfg.prov (rmBlanks req) preference2provider ≠ .ok none := by
      intro hm
      have hg' : (rmBlanks req).get? c!"grant_types" = some (.strs l) := by
        unfold rmBlanks
        rw [get?_filter_nodup req hd]
        refine ⟨hr, ?_⟩
        simpa [Blank] using hblank
      obtain ⟨q, h1, -, h3⟩ := matchClientRequest_ok.1 hm c!"grant_types" c!"grant_types_supported" _ (by decide) hg'
      rw [hcfg, hg] at h1
      cases h1
      have := h3 (by unfold wordwise; decide)
      rw [matchPref] at this
      simp only [Except.ok.injEq, List.all_eq_true] at this
      have := this _ hrt
      exact absurd this (by decide)
    unfold registrationProcess
    split
    · exact ⟨_, rfl⟩
    · unfold registrationSetup
      dsimp only
      cases hm : matchClientRequest cfg.prov (rmBlanks req) preference2provider with
      | error e => exact ⟨_, rfl⟩
      | ok o => cases o with
        | none => exact absurd hm hno
        | some q => exact ⟨_, rfl⟩

/-- **C90**, the part that holds: a provider with an authorization endpoint, a token endpoint and keys publishes its issuer, the
addresses of the two endpoints and of the keys, the response types and the signature algorithms for ID tokens.  Missing: the
subject types (see `C90_subject_types_missing`). -/
theorem C90_required_entries_partial (al : AlgLib) (sl : ScopeLib) (cf : ProvConf) (p : Provider) (h : startProvider al sl cf = .ok p)
    (hkeys : cf.keys = true) (ha : ∃ sp ∈ cf.endpoints, sp.kind.name = c!"authorization") (ht : ∃ sp ∈ cf.endpoints, sp.kind.name = c!"token") :
    ∀ k ∈ [c!"issuer", c!"authorization_endpoint", c!"token_endpoint", c!"jwks_uri", c!"response_types_supported",
      c!"id_token_signing_alg_values_supported"], (p.info.get? k).isSome := by
  have hlast : ∀ (nm : Str) (l : List EpSpec), (∃ sp ∈ l, sp.kind.name = nm) →
      ∃ a sp b, l = a ++ sp :: b ∧ sp.kind.name = nm ∧ ∀ s ∈ b, s.kind.name ≠ nm := by
    intro nm l
    induction l with
    | nil => rintro ⟨sp, hm, -⟩; cases hm
    | cons x l ih =>
      rintro ⟨sp, hm, hn⟩
      by_cases hex : ∃ sp ∈ l, sp.kind.name = nm
      · obtain ⟨a, s, b, e, h1, h2⟩ := ih hex
        exact ⟨x :: a, s, b, by rw [e]; rfl, h1, h2⟩
      · rcases List.mem_cons.1 hm with e | hm
        · exact ⟨[], x, l, rfl, e ▸ hn, fun s hs hsn => hex ⟨s, hs, hsn⟩⟩
        · exact absurd ⟨sp, hm, hn⟩ hex
  have hadr : ∀ (nm en : Str), (∀ kd : EpKind, kd.name = nm → kd.endpointName = en) → en ≠ [] → en ∉ ownEntries → (∃ sp ∈ cf.endpoints, sp.kind.name = nm) →
      (p.info.get? en).isSome := by
    intro nm en hen hne hown hex
    by_cases hst : StatesCapability cf en
    · obtain ⟨cap, w, e1, e2⟩ := hst
      rw [C87_capabilities_published_partial al sl cf p h cap e1 en w e2 hown]; rfl
    · obtain ⟨a, sp, b, e, h1, h2⟩ := hlast nm _ hex
      have hes := hen sp.kind h1
      obtain ⟨-, url, -, -, -, hi, -⟩ := C86_published_addresses al sl cf p h sp ⟨a, b, e, fun s hs => by rw [h1]; exact h2 s hs⟩
        (by rw [hes]; exact hne) (by rw [hes]; exact hst)
      rw [← hes, hi]; rfl
  intro k hk
  simp only [List.mem_cons, List.not_mem_nil, or_false] at hk
  rcases hk with rfl | rfl | rfl | rfl | rfl | rfl
  · rw [(C86_issuer_and_keys al sl cf p h).1]; rfl
  · exact hadr c!"authorization" _ (by intro kd; cases kd <;> decide) (by decide) (by decide) ha
  · exact hadr c!"token" _ (by intro kd; cases kd <;> decide) (by decide) (by decide) ht
  · obtain ⟨url, -, e⟩ := (C86_issuer_and_keys al sl cf p h).2 hkeys
    rw [e]; rfl
  · by_cases hst : StatesCapability cf c!"response_types_supported"
    · obtain ⟨cap, w, e1, e2⟩ := hst
      rw [C87_capabilities_published_partial al sl cf p h cap e1 _ w e2 (by decide)]; rfl
    · obtain ⟨a, sp, b, e, h1, h2⟩ := hlast _ _ ha
      obtain ⟨idt, hidt, hb, -, -⟩ := startProvider_ok h
      obtain ⟨ep, hbe, hep⟩ := (buildEndpoints_ok hb).2.2.1 a b sp e (fun s hs => by rw [h1]; exact h2 s hs)
      rw [info_get h (by decide), no_capability hst]
      cases hf : firstInfo p.endpoints c!"response_types_supported" with
      | some w => rfl
      | none =>
        exfalso
        unfold firstInfo at hf
        rw [List.findSome?_eq_none_iff] at hf
        have := hf _ (Dict.get?_mem hep)
        rw [if_neg (name_not_special _ (by intro e; rw [e] at h1; exact absurd h1 (by decide)))] at this
        have hd : ∃ d, (c!"response_types_supported", some d) ∈ sp.kind.defaults.getD [] := by
          revert h1
          cases sp.kind with
          | authorization => exact fun _ => ⟨.strs [c!"code", c!"token", c!"id_token", c!"code token", c!"code id_token", c!"id_token token",
              c!"code id_token token"], by decide⟩
          | oauth2Authorization => exact fun _ => ⟨.strs [c!"code", c!"token", c!"code token"], by decide⟩
          | _ => intro h1; exact absurd h1 (by decide)
        obtain ⟨d, hd⟩ := hd
        have hcap := epInfo_get hbe hd (fun hh => absurd hh.2 (by decide))
        rw [this] at hcap
        unfold capOne at hcap
        cases hg : sp.kwargs.get? c!"response_types_supported" with
        | none => simp [hg] at hcap
        | some w =>
          simp only [hg] at hcap
          cases hch : checkProposal al c!"response_types_supported" w with
          | error e => simp [hch] at hcap
          | ok u => simp [hch] at hcap
  · obtain ⟨v, -, e⟩ := info_idToken h (k := c!"id_token_signing_alg_values_supported") (by decide)
    rw [e]; rfl

example : let r := startProvider demoAlgs demoScopes (demoProv c!"https://op")
    provEntry r c!"subject_types_supported" = none ∧ provEntry r c!"token_endpoint_auth_methods_supported" = none ∧
    provEntry r c!"grant_types_supported" = some (.strs [c!"authorization_code", c!"implicit"]) ∧
    provEntry r c!"response_types_supported" ≠ none := by decide

/-! ### C91: starting -/

theorem constructInfo_succeeds {al : AlgLib} {kw : RegRec} (hfam : ∀ a ∈ al.signing, algRank a ≠ none) {d : Defaults}
    (hno : ∀ k ∈ d.map (·.1), algsOf al k ≠ none → kw.get? k = none) : ∃ r, constructInfo al kw d = .ok r := by
  have hsort : ∃ l, sortedAlgs al.signing = .ok l := by
    unfold sortedAlgs
    rw [if_neg]
    · exact ⟨_, rfl⟩
    · rintro ⟨-, hany⟩
      obtain ⟨a, ha, hr⟩ := List.any_eq_true.1 hany
      exact hfam a ha (by simpa using hr)
  obtain ⟨srt, hsrt⟩ := hsort
  have hal : ∀ k e, algsOf al k ≠ some (.error e) := by
    intro k e
    unfold algsOf
    split
    · rw [hsrt]; simp
    · split
      · simp
      · split <;> simp
  induction d with
  | nil => exact ⟨[], rfl⟩
  | cons x d ih =>
    obtain ⟨k, dflt⟩ := x
    obtain ⟨r, hr⟩ := ih (fun k' hk' => hno k' (by simp at hk' ⊢; exact .inr hk'))
    have hcap : ∃ o, capOne al kw k dflt = .ok o := by
      unfold capOne
      cases hg : kw.get? k with
      | some p =>
        have hnone : algsOf al k = none := by
          cases hx : algsOf al k with
          | none => rfl
          | some y => rw [hno k (by simp) (by simp [hx])] at hg; cases hg
        simp only [checkProposal, hnone]
        exact ⟨_, rfl⟩
      | none =>
        cases dflt with
        | some v => exact ⟨_, rfl⟩
        | none =>
          simp only [libraryDefault]
          split
          · exact ⟨_, rfl⟩
          · rename_i e; exact absurd e (hal k _)
          · exact ⟨_, rfl⟩
    obtain ⟨o, ho⟩ := hcap
    unfold constructInfo
    rw [ho, hr]
    cases o <;> exact ⟨_, rfl⟩

/-- A configured endpoint that says where it is, and whose settings neither list algorithms nor name a session iframe. -/
def PlainEndpoint (al : AlgLib) (sp : EpSpec) : Prop :=
  sp.path ≠ none ∧ (∀ k, algsOf al k ≠ none → sp.kwargs.get? k = none) ∧ sp.kwargs.get? c!"check_session_iframe" = none

theorem buildEndpoints_succeeds {al : AlgLib} {iss : Str} (hfam : ∀ a ∈ al.signing, algRank a ≠ none) {l : List EpSpec}
    (hl : ∀ sp ∈ l, PlainEndpoint al sp) (acc : Dict Ep) : ∃ eps, buildEndpoints al iss l acc = .ok eps := by
  induction l generalizing acc with
  | nil => exact ⟨acc, rfl⟩
  | cons sp l ih =>
    obtain ⟨h1, h2, h3⟩ := hl sp (List.mem_cons_self ..)
    have hk : (if sp.kind = .session then sessionKwargs iss sp.kwargs else .ok sp.kwargs) = .ok sp.kwargs := by
      split
      · unfold sessionKwargs; rw [h3]
      · rfl
    have hi : ∃ info, endpointInfo al iss sp.kind sp.kwargs = .ok info := by
      unfold endpointInfo
      rw [hk]
      simp only
      cases hd : sp.kind.defaults with
      | none => exact ⟨none, rfl⟩
      | some d =>
        obtain ⟨r, hr⟩ := constructInfo_succeeds (kw := sp.kwargs) hfam (d := d) (fun k _ => h2 k)
        simp only [hr]
        split <;> exact ⟨_, rfl⟩
    obtain ⟨info, hi⟩ := hi
    cases hp : sp.path with
    | none => exact absurd hp h1
    | some path =>
      unfold buildEndpoints buildEndpoint
      rw [hi, hp]
      exact ih (fun s hs => hl s (List.mem_cons_of_mem _ hs)) _

/-- **C91**, the part that holds: a provider starts if its endpoints have paths and leave the algorithms alone, it has a refresh token
handler, and configured capabilities, if any, list the grant types.  Missing: providers without refresh tokens or without a list
of grant types (see below). -/
theorem C91_starts_partial (al : AlgLib) (sl : ScopeLib) (cf : ProvConf) (hfam : ∀ a ∈ al.signing, algRank a ≠ none)
    (hep : ∀ sp ∈ cf.endpoints, PlainEndpoint al sp) (hid : ∀ k ∈ idTokenEntries, cf.idToken.get? k = none) (hr : cf.refresh = true)
    (hcap : cf.capabilities = none ∨ ∃ cap l, cf.capabilities = some cap ∧ cap.get? c!"grant_types_supported" = some (.strs l)) :
    ∃ p, startProvider al sl cf = .ok p := by
  obtain ⟨idt, hidt⟩ := constructInfo_succeeds (kw := cf.idToken) hfam (d := idTokenDefaults) (fun k hk _ => hid k (idTokenDefaults_keys ▸ hk))
  obtain ⟨eps, heps⟩ := buildEndpoints_succeeds (iss := cf.issuer) hfam hep []
  unfold startProvider
  rw [hidt, heps]
  dsimp only
  have hal : ∃ b, allowRefresh cf (createProviderInfo sl cf idt (collectCaps (cf.capabilities.getD []) eps)) = .ok b := by
    unfold allowRefresh
    rw [if_neg (by simp [hr])]
    rcases hcap with e | ⟨cap, l, e1, e2⟩
    · rw [e]; exact ⟨_, rfl⟩
    · have : (createProviderInfo sl cf idt (collectCaps (cf.capabilities.getD []) eps)).get? c!"grant_types_supported" = some (.strs l) := by
        rw [createProviderInfo_get hidt, if_neg (fun h => absurd h.1 (by decide)), if_neg (by decide), if_neg (by decide),
          if_neg (fun h => absurd h.1 (by decide)), if_neg (fun h => absurd h.1 (by decide)), collectCaps_get, e1, Option.getD_some, e2]
        rfl
      rw [this, e1]
      exact ⟨_, rfl⟩
  obtain ⟨b, hb⟩ := hal
  rw [hb]
  split
  · rename_i e _ _
    simp_all [Except.map]
  · exact ⟨_, rfl⟩

/-- **C91** is false of the code: a provider with a token endpoint that is not to issue refresh tokens does not start. -/
theorem C91_needs_refresh_handler (al : AlgLib) (sl : ScopeLib) (cf : ProvConf) (ht : ∃ sp ∈ cf.endpoints, sp.kind = .token)
    (hr : cf.refresh = false) : ∀ p, startProvider al sl cf ≠ .ok p := by
  intro p h
  obtain ⟨idt, hidt, hb, hinfo, hal⟩ := startProvider_ok h
  obtain ⟨sp, hm, hk⟩ := ht
  have htok : p.endpoints.has c!"token" = true := endpoint_present hb hm (by rw [hk]; rfl)
  obtain ⟨b, hb'⟩ := hal htok
  unfold allowRefresh at hb'
  rw [if_pos hr] at hb'
  cases hb'

/-- **C91** is false of the code: a provider with a token endpoint and configured capabilities that nowhere lists grant types does
not start. -/
theorem C91_needs_grant_types (al : AlgLib) (sl : ScopeLib) (cf : ProvConf) (ht : ∃ sp ∈ cf.endpoints, sp.kind = .token)
    (hcap : cf.capabilities ≠ none) (hc : ¬ StatesCapability cf c!"grant_types_supported")
    (hno : ∀ sp ∈ cf.endpoints, sp.kind ≠ .authorization ∧ sp.kind ≠ .oauth2Authorization ∧ sp.kind ≠ .pushedAuthorization) :
    ∀ p, startProvider al sl cf ≠ .ok p := by
  intro p h
  obtain ⟨idt, hidt, hb, hinfo, hal⟩ := startProvider_ok h
  obtain ⟨sp, hm, hk⟩ := ht
  obtain ⟨b, hb'⟩ := hal (endpoint_present hb hm (by rw [hk]; rfl))
  have hg : p.info.get? c!"grant_types_supported" = none := by
    rw [unstated_entry h (by decide) hc ?_ (by decide)]
    · rfl
    · intro s hs
      obtain ⟨h1, h2, h3⟩ := hno s hs
      revert h1 h2 h3
      cases s.kind <;> decide
  unfold allowRefresh at hb'
  rw [hg] at hb'
  cases hcc : cf.capabilities with
  | none => exact hcap hcc
  | some cap =>
    rw [hcc] at hb'
    split at hb' <;> cases hb'

example : PlainEndpoint demoAlgs ⟨.token, some c!"token", []⟩ := ⟨by simp, fun _ _ => rfl, rfl⟩
example : (startProvider demoAlgs demoScopes (demoProv c!"https://op")).toOption.isSome = true := by decide
example : (startProvider demoAlgs demoScopes { demoProv c!"https://op" with refresh := false }).toOption.isSome = false := by decide

/-! ### C92: custom scopes -/

theorem mem_unionFold (l acc : List Str) (x : Str) :
    x ∈ l.foldl (fun acc x => if acc.contains x then acc else acc ++ [x]) acc ↔ x ∈ acc ∨ x ∈ l := by
  induction l generalizing acc with
  | nil => simp
  | cons a l ih =>
    rw [List.foldl_cons, ih]
    by_cases h : acc.contains a = true
    · rw [if_pos h]
      have := List.contains_iff_mem.1 h
      simp only [List.mem_cons]
      constructor
      · rintro (h | h)
        · exact .inl h
        · exact .inr (.inr h)
      · rintro (h | rfl | h)
        · exact .inl h
        · exact .inl this
        · exact .inr h
    · rw [if_neg h]
      simp [or_assoc]

theorem mem_unionList (a b : List Str) (x : Str) : x ∈ unionList a b ↔ x ∈ a ∨ x ∈ b := by
  unfold unionList
  rw [mem_unionFold]
  simp

/-- **C92** Custom scopes are added to what is published, with their claims, and nothing published before is lost. -/
theorem C92_custom_scopes_published (base kw : Dict (List Str)) (info : RegRec) :
    (∃ l, (addCustomScopes base kw info).2.get? c!"scopes_supported" = some (.strs l) ∧
      ∀ s, s ∈ l ↔ s ∈ infoList info c!"scopes_supported" ∨ ∃ cl, (s, cl) ∈ kw) ∧
    (∃ l, (addCustomScopes base kw info).2.get? c!"claims_supported" = some (.strs l) ∧
      ∀ c, c ∈ l ↔ c ∈ infoList info c!"claims_supported" ∨ ∃ s cl, (s, cl) ∈ kw ∧ c ∈ cl) ∧
    (∀ k, k ≠ c!"scopes_supported" → k ≠ c!"claims_supported" → (addCustomScopes base kw info).2.get? k = info.get? k) := by
  unfold addCustomScopes
  refine ⟨⟨_, by rw [Dict.get?_set, if_neg (by decide), Dict.get?_set, if_pos rfl], fun s => ?_⟩,
    ⟨_, by rw [Dict.get?_set, if_pos rfl], fun c => ?_⟩, fun k h1 h2 => ?_⟩
  · rw [mem_unionList]
    simp [Dict.keys]
  · rw [mem_unionList]
    simp only [List.mem_flatten, List.mem_map]
    constructor
    · rintro (h | ⟨l, ⟨⟨s, cl⟩, hm, rfl⟩, hc⟩)
      · exact .inl h
      · exact .inr ⟨s, cl, hm, hc⟩
    · rintro (h | ⟨s, cl, hm, hc⟩)
      · exact .inl h
      · exact .inr ⟨cl, ⟨(s, cl), hm, rfl⟩, hc⟩
  · rw [Dict.get?_set, if_neg h2, Dict.get?_set, if_neg h1]

/-- **C92** A custom scope stands for the claims it is configured with, the other scopes for what they stand for anyway. -/
theorem C92_custom_scope_claims (base kw : Dict (List Str)) (info : RegRec) (hkw : (kw.map (·.1)).Nodup) (s : Str) :
    (addCustomScopes base kw info).1.get? s = match kw.get? s with
      | some cl => some cl
      | none => base.get? s := by
  refine (Dict.get?_update base kw s hkw).trans ?_
  cases kw.get? s <;> rfl

/-- **C92** A custom scope is available to clients without a list of their own, and so is every known scope that was published
before. -/
theorem C92_custom_scopes_allowed (base kw : Dict (List Str)) (p : Provider) (cdb : Cdb) (client : Str) (c : Client) (hcl : cdb client = some c)
    (hown : c.allowedScopes = []) (s : Str) :
    let r := addCustomScopes base kw p.info
    (s ∈ kw.keys ∨ (s ∈ infoList p.info c!"scopes_supported" ∧ s ∈ base.keys)) → s ∈ allowedScopes (scopesOf { p with info := r.2 } r.1) cdb client := by
  intro r hs
  obtain ⟨⟨l, hl, hmem⟩, -, -⟩ := C92_custom_scopes_published base kw p.info
  have hin : s ∈ l := by
    rw [hmem]
    rcases hs with h | h
    · right
      obtain ⟨⟨a, b⟩, hab, e⟩ := List.mem_map.1 h
      exact ⟨b, by cases e; exact hab⟩
    · exact .inl h.1
  have hne : l ≠ [] := by rintro rfl; cases hin
  rw [C89_published_and_known { p with info := r.2 } r.1 l hl hne cdb client c hcl hown]
  refine ⟨hin, ?_⟩
  show s ∈ (Dict.update base kw).keys
  rw [Dict.mem_keys_update]
  rcases hs with h | h
  · exact .inr h
  · exact .inl h.2

/-- **C92** is false of the code for a provider with a plain OAuth2 authorization endpoint: before, every scope was allowed; once
custom scopes are added, only these are - "openid", for instance, is dropped from every request. -/
theorem C92_custom_scopes_displace (al : AlgLib) (sl : ScopeLib) (cf : ProvConf) (p : Provider) (h : startProvider al sl cf = .ok p)
    (base kw : Dict (List Str)) (hkw0 : kw ≠ []) (sp : EpSpec) (hsp : sp ∈ cf.endpoints)
    (hk : sp.kind = .oauth2Authorization ∨ sp.kind = .pushedAuthorization)
    (hkw : ∀ s ∈ cf.endpoints, s.kwargs.get? c!"scopes_supported" = none) (hpar : ∀ s ∈ cf.endpoints, s.kind ≠ .authorization)
    (hc : ¬ StatesCapability cf c!"scopes_supported")
    (cdb : Cdb) (client : Str) (c : Client) (hcl : cdb client = some c) (hown : c.allowedScopes = []) (s : Str) (hs : s ∈ base.keys)
    (hnk : s ∉ kw.keys) :
    s ∈ allowedScopes (scopesOf p base) cdb client ∧
    s ∉ allowedScopes (scopesOf { p with info := (addCustomScopes base kw p.info).2 } (addCustomScopes base kw p.info).1) cdb client := by
  obtain ⟨h1, h2⟩ := C89_oauth2_scopes_unpublished al sl cf p h base sp hsp hk hkw hpar hc cdb client c hcl hown
  refine ⟨h2 s hs, ?_⟩
  obtain ⟨⟨l, hl, hmem⟩, -, -⟩ := C92_custom_scopes_published base kw p.info
  have hne : l ≠ [] := by
    rintro rfl
    cases kw with
    | nil => exact hkw0 rfl
    | cons x r => exact absurd ((hmem x.1).2 (.inr ⟨x.2, List.mem_cons_self ..⟩)) (by simp)
  rw [C89_published_and_known _ _ l hl hne cdb client c hcl hown]
  rintro ⟨hin, -⟩
  rcases (hmem s).1 hin with h' | ⟨cl, h'⟩
  · simp [infoList, h1] at h'
  · exact hnk (List.mem_map_of_mem (f := (·.1)) h')

example :
    let r := addCustomScopes [(c!"openid", [c!"sub"])] [(c!"research", [c!"name"])] [(c!"scopes_supported", .strs [c!"openid"])]
    r.2.get? c!"scopes_supported" = some (.strs [c!"openid", c!"research"]) ∧ r.1.get? c!"research" = some [c!"name"] := by decide

end Verif
