import Verif.Props.Metadata
import Verif.Model.Claims
set_option linter.unusedSimpArgs false
set_option linter.unusedVariables false
/-! Provider metadata: C87 (settings of endpoints), C88 (algorithms). -/
namespace Verif
open Spec

/-! ### Settings of endpoints -/

theorem defaults_nodup (k : EpKind) : ((k.defaults.getD []).map (·.1)).Nodup := by cases k <;> decide

theorem defaults_not_added (k : EpKind) : c!"token_endpoint_auth_methods_supported" ∉ (k.defaults.getD []).map (·.1) := by cases k <;> decide

theorem defaults_not_address (k : EpKind) : ∀ n ∈ addressEntries, n ∉ (k.defaults.getD []).map (·.1) := by cases k <;> decide

theorem sessionKwargs_other {iss : Str} {kw kw' : RegRec} (h : sessionKwargs iss kw = .ok kw') {k : Str} (hk : k ≠ c!"check_session_iframe") :
    kw'.get? k = kw.get? k := by
  unfold sessionKwargs at h
  split at h
  · split at h
    · cases h; rfl
    · cases h; rw [Dict.get?_set, if_neg hk]
  · cases h; rfl
  · cases h; rfl
  · cases h

/-- An entry of the default capabilities in the info of an endpoint. -/
theorem endpointInfo_get {al : AlgLib} {iss : Str} {kd : EpKind} {kw info : RegRec} (h : endpointInfo al iss kd kw = .ok (some info))
    {k : Str} {dflt : Option RegVal} (hd : (k, dflt) ∈ kd.defaults.getD []) (hs : ¬ (kd = .session ∧ k = c!"check_session_iframe")) :
    capOne al kw k dflt = .ok (info.get? k) := by
  unfold endpointInfo at h
  cases hk : (if kd = .session then sessionKwargs iss kw else .ok kw) with
  | error e => simp [hk] at h
  | ok kw' =>
    simp only [hk] at h
    have hkw : kw'.get? k = kw.get? k := by
      by_cases e : kd = .session
      · rw [if_pos e] at hk
        exact sessionKwargs_other hk (fun e' => hs ⟨e, e'⟩)
      · rw [if_neg e] at hk; cases hk; rfl
    cases hdf : kd.defaults with
    | none => simp [hdf] at h
    | some d =>
      simp only [hdf] at h
      rw [hdf, Option.getD_some] at hd
      have hnd := defaults_nodup kd
      have hna := defaults_not_added kd
      rw [hdf, Option.getD_some] at hnd hna
      cases hc : constructInfo al kw' d with
      | error e => simp [hc] at h
      | ok i =>
        simp only [hc] at h
        have := constructInfo_get hc hnd hd
        have hcap : capOne al kw' k dflt = capOne al kw k dflt := by unfold capOne; rw [hkw]
        rw [hcap] at this
        rw [this]
        cases hm : (if kd = .token then kw'.get? c!"client_authn_method" else none) with
        | none => simp only [hm, Except.ok.injEq, Option.some.injEq] at h; rw [h]
        | some m =>
          simp only [hm, Except.ok.injEq, Option.some.injEq] at h
          rw [← h, Dict.get?_set, if_neg]
          rintro rfl
          exact hna (List.mem_map_of_mem (f := (·.1)) hd)

theorem epInfo_get {al : AlgLib} {iss : Str} {sp : EpSpec} {ep : Ep} (h : buildEndpoint al iss sp = .ok ep)
    {k : Str} {dflt : Option RegVal} (hd : (k, dflt) ∈ sp.kind.defaults.getD []) (hs : ¬ (sp.kind = .session ∧ k = c!"check_session_iframe")) :
    capOne al sp.kwargs k dflt = .ok (Dict.get? (ep.info.getD []) k) := by
  obtain ⟨-, -, info, hi, he⟩ := buildEndpoint_ok h
  cases info with
  | none =>
    exfalso
    unfold endpointInfo at hi
    cases hk : (if sp.kind = .session then sessionKwargs iss sp.kwargs else .ok sp.kwargs) with
    | error e => simp [hk] at hi
    | ok kw' =>
      simp only [hk] at hi
      cases hdf : sp.kind.defaults with
      | none => rw [hdf] at hd; cases hd
      | some d =>
        simp only [hdf] at hi
        cases hc : constructInfo al kw' d with
        | error e => simp [hc] at hi
        | ok i =>
          simp only [hc] at hi
          split at hi <;> cases hi
  | some i =>
    rw [endpointInfo_get hi hd hs, he]
    by_cases hn : sp.kind.endpointName = []
    · rw [if_pos hn]; rfl
    · rw [if_neg hn, Option.getD_some, Dict.get?_set, if_neg]
      · rfl
      · intro e
        exact defaults_not_address sp.kind _ (e ▸ endpointName_mem _ hn) (List.mem_map_of_mem (f := (·.1)) hd)

/-- **C87**, the part that holds: a setting of an endpoint that is among the capabilities of its kind is published as configured, if
the configured capabilities do not state it and no endpoint of another kind has the same entry.  Missing: the other cases (see
`C87_first_endpoint_decides` and `C87_provider_config_setting_ignored`). -/
theorem C87_endpoint_setting_published_partial (al : AlgLib) (sl : ScopeLib) (cf : ProvConf) (p : Provider) (h : startProvider al sl cf = .ok p)
    (sp : EpSpec) (hsp : HasEndpoint cf sp) (k : Str) (v : RegVal) (hv : sp.kwargs.get? k = some v) (hd : k ∈ (sp.kind.defaults.getD []).map (·.1))
    (hs : ¬ (sp.kind = .session ∧ k = c!"check_session_iframe")) (hpc : sp.kind ≠ .providerConfig) (hc : ¬ StatesCapability cf k)
    (hone : ∀ s ∈ cf.endpoints, s.kind.name ≠ sp.kind.name → k ∉ contributes s.kind) : p.info.get? k = some v := by
  obtain ⟨idt, hidt, hb, hinfo, -⟩ := startProvider_ok h
  obtain ⟨a, b, hl, hlast⟩ := hsp
  obtain ⟨ep, hbe, hep⟩ := (buildEndpoints_ok hb).2.2.1 a b sp hl hlast
  obtain ⟨⟨k', dflt⟩, hd', rfl⟩ := List.mem_map.1 hd
  have hval : Dict.get? (ep.info.getD []) k' = some v := by
    have := epInfo_get hbe hd' hs
    unfold capOne at this
    dsimp only at hv
    rw [hv] at this
    dsimp only at this
    cases hch : checkProposal al k' v with
    | error e => simp [hch] at this
    | ok u => simp only [hch, Except.ok.injEq] at this; exact this.symm
  have hown : k' ∉ ownEntries := by
    have : ∀ kd : EpKind, ∀ x ∈ (kd.defaults.getD []).map (·.1), x ∉ ownEntries := by intro kd; cases kd <;> decide
    exact this _ _ hd
  rw [info_get h hown, no_capability hc]
  have : firstInfo p.endpoints k' = some v := by
    refine firstInfo_only (Dict.get?_mem hep) (name_not_special _ hpc) hval ?_
    intro n' ep' v' hm' hs' hv'
    obtain ⟨hg', sp', hsp', hn', hb'⟩ := endpoint_mem hb hm'
    by_cases hnn : sp'.kind.name = sp.kind.name
    · rw [← hnn, hn', hg'] at hep
      cases hep
      rw [hval] at hv'
      cases hv'; rfl
    · rcases epInfo_keys hb' hv' with ⟨e1, e0, -⟩ | hcon
      · exact absurd hd (e1 ▸ defaults_not_address sp.kind _ (endpointName_mem _ (e1 ▸ e0)))
      · exact absurd hcon (hone sp' hsp' hnn)
  rw [this]
  rfl

theorem supports_in_defaults (kd : EpKind) : ∀ kv ∈ supportsByDefault kd, (kv.1, some kv.2) ∈ kd.defaults.getD [] := by
  cases kd <;> simp [supportsByDefault, EpKind.defaults, authzDefaults, claimTypesDefault, boolVal]

/-- **C87** What is not configured anywhere is published as the endpoint's class supports it. -/
theorem C87_defaults_published (al : AlgLib) (sl : ScopeLib) (cf : ProvConf) (p : Provider) (h : startProvider al sl cf = .ok p)
    (sp : EpSpec) (hsp : HasEndpoint cf sp) (k : Str) (v : RegVal) (hkv : (k, v) ∈ supportsByDefault sp.kind) (hno : sp.kwargs.get? k = none)
    (hc : ¬ StatesCapability cf k)
    (hone : ∀ s ∈ cf.endpoints, s.kind.name ≠ sp.kind.name → k ∉ contributes s.kind) : p.info.get? k = some v := by
  obtain ⟨idt, hidt, hb, hinfo, -⟩ := startProvider_ok h
  obtain ⟨a, b, hl, hlast⟩ := hsp
  obtain ⟨ep, hbe, hep⟩ := (buildEndpoints_ok hb).2.2.1 a b sp hl hlast
  have hd' := supports_in_defaults sp.kind _ hkv
  have hd : k ∈ (sp.kind.defaults.getD []).map (·.1) := List.mem_map_of_mem (f := (·.1)) hd'
  have hpc : sp.kind ≠ .providerConfig := by intro e; rw [e] at hkv; cases hkv
  have hs : ¬ (sp.kind = .session ∧ k = c!"check_session_iframe") := by
    rintro ⟨e1, e2⟩; rw [e1, e2] at hkv
    simp [supportsByDefault] at hkv
  have hval : Dict.get? (ep.info.getD []) k = some v := by
    have := epInfo_get hbe hd' hs
    unfold capOne at this
    dsimp only at this
    rw [hno] at this
    simp only [Except.ok.injEq] at this
    exact this.symm
  have hown : k ∉ ownEntries := by
    have : ∀ kd : EpKind, ∀ x ∈ (kd.defaults.getD []).map (·.1), x ∉ ownEntries := by intro kd; cases kd <;> decide
    exact this _ _ hd
  rw [info_get h hown, no_capability hc]
  have : firstInfo p.endpoints k = some v := by
    refine firstInfo_only (Dict.get?_mem hep) (name_not_special _ hpc) hval ?_
    intro n' ep' v' hm' hs' hv'
    obtain ⟨hg', sp', hsp', hn', hb'⟩ := endpoint_mem hb hm'
    by_cases hnn : sp'.kind.name = sp.kind.name
    · rw [← hnn, hn', hg'] at hep
      cases hep
      rw [hval] at hv'
      cases hv'; rfl
    · rcases epInfo_keys hb' hv' with ⟨e1, e0, -⟩ | hcon
      · exact absurd hd (e1 ▸ defaults_not_address sp.kind _ (endpointName_mem _ (e1 ▸ e0)))
      · exact absurd hcon (hone sp' hsp' hnn)
  rw [this]
  rfl

theorem stripSlash_of_not {p : Str} (h : ¬ (c!"/" <+: p)) : stripSlash p = p := by
  unfold stripSlash
  split
  · rename_i rest; exact absurd ⟨rest, rfl⟩ h
  · rfl

/-- **C87** The address of the session iframe is published as configured: an absolute one as it is, a path below the issuer. -/
theorem C87_session_iframe (al : AlgLib) (sl : ScopeLib) (cf : ProvConf) (p : Provider) (h : startProvider al sl cf = .ok p)
    (sp : EpSpec) (hsp : HasEndpoint cf sp) (hk : sp.kind = .session) (x : Str) (hx : x ≠ []) (hv : sp.kwargs.get? c!"check_session_iframe" = some (.str x))
    (hc : ¬ StatesCapability cf c!"check_session_iframe") :
    (c!"http" <+: x → p.info.get? c!"check_session_iframe" = some (.str x)) ∧
    (∀ path, (x = path ∨ x = '/' :: path) → ¬ (c!"/" <+: path) → ¬ (c!"http" <+: x) → ∃ url, AddressOf cf.issuer path url ∧
      p.info.get? c!"check_session_iframe" = some (.str url)) := by
  obtain ⟨idt, hidt, hb, hinfo, -⟩ := startProvider_ok h
  obtain ⟨a, b, hl, hlast⟩ := hsp
  obtain ⟨ep, hbe, hep⟩ := (buildEndpoints_ok hb).2.2.1 a b sp hl hlast
  have hpub : ∀ v, Dict.get? (ep.info.getD []) c!"check_session_iframe" = some v → p.info.get? c!"check_session_iframe" = some v := by
    intro v hval
    rw [info_get h (by decide), no_capability hc]
    have : firstInfo p.endpoints c!"check_session_iframe" = some v := by
      refine firstInfo_only (Dict.get?_mem hep) (name_not_special _ (by rw [hk]; decide)) hval ?_
      intro n' ep' v' hm' hs' hv'
      obtain ⟨hg', sp', hsp', hn', hb'⟩ := endpoint_mem hb hm'
      have hsk : sp'.kind = .session := by
        rcases epInfo_keys hb' hv' with ⟨e1, e0, -⟩ | hcon
        · exact absurd (e1 ▸ endpointName_mem _ (e1 ▸ e0)) (by decide : c!"check_session_iframe" ∉ addressEntries)
        · revert hcon; cases sp'.kind <;> decide
      rw [hk, ← hsk, hn', hg'] at hep
      cases hep
      rw [hval] at hv'
      cases hv'; rfl
    rw [this]
    rfl
  have hval : ∀ kw', sessionKwargs cf.issuer sp.kwargs = .ok kw' → ∀ v, kw'.get? c!"check_session_iframe" = some v →
      Dict.get? (ep.info.getD []) c!"check_session_iframe" = some v := by
    intro kw' hkw v hv'
    obtain ⟨-, -, info, hi, he⟩ := buildEndpoint_ok hbe
    unfold endpointInfo at hi
    rw [hk, if_pos rfl, hkw] at hi
    have hdef : EpKind.session.defaults = some [(c!"frontchannel_logout_supported", some (boolVal true)),
      (c!"frontchannel_logout_session_supported", some (boolVal true)), (c!"backchannel_logout_supported", some (boolVal true)),
      (c!"backchannel_logout_session_supported", some (boolVal true)), (c!"check_session_iframe", none)] := rfl
    simp only [hdef] at hi
    split at hi
    · cases hi
    · rename_i i hi'
      rw [if_neg (by decide)] at hi
      simp only [Except.ok.injEq] at hi
      have hcap := constructInfo_get hi' (by decide) (attr := c!"check_session_iframe") (dflt := none) (by simp)
      unfold capOne at hcap
      rw [hv'] at hcap
      have hal : algsOf al c!"check_session_iframe" = none := rfl
      simp only [checkProposal, hal, Except.ok.injEq] at hcap
      rw [he, if_neg (by rw [hk]; decide), Option.getD_some, Dict.get?_set, if_neg (by rw [hk]; decide), ← hi, Option.getD_some, ← hcap]
  obtain ⟨x0, xs, rfl⟩ := List.exists_cons_of_ne_nil hx
  constructor
  · intro hhttp
    refine hpub _ (hval sp.kwargs ?_ _ hv)
    unfold sessionKwargs
    rw [hv]
    simp only
    rw [if_pos (List.isPrefixOf_iff_prefix.2 hhttp)]
  · intro path hpath hns hnh
    refine ⟨addPath cf.issuer (x0 :: xs), ?_, hpub _ (hval (sp.kwargs.set c!"check_session_iframe" (.str (addPath cf.issuer (x0 :: xs)))) ?_ _ ?_)⟩
    · have hstrip : stripSlash (x0 :: xs) = path := by
        rcases hpath with e | e
        · rw [e]; exact stripSlash_of_not hns
        · rw [e]; rfl
      unfold AddressOf addPath
      rw [hstrip]
      by_cases hsl : cf.issuer.getLast? = some '/'
      · rw [if_pos hsl]
        left
        exact ⟨List.getLast?_eq_some_iff.1 hsl, rfl⟩
      · rw [if_neg hsl]
        right
        exact ⟨fun hs => hsl (List.getLast?_eq_some_iff.2 hs), by simp⟩
    · unfold sessionKwargs
      rw [hv]
      simp only
      rw [if_neg (fun hh => hnh (List.isPrefixOf_iff_prefix.1 hh))]
    · rw [Dict.get?_set, if_pos rfl]

example : provEntry (startProvider demoAlgs demoScopes { demoProv c!"https://op" with
      endpoints := [⟨.session, some c!"end", [(c!"check_session_iframe", .str c!"/check.html")]⟩] }) c!"check_session_iframe" =
    some (.str c!"https://op/check.html") := by decide

theorem buildEndpoints_head {al : AlgLib} {iss : Str} {l : List EpSpec} {n : Str} {e : Ep} {r eps : Dict Ep}
    (h : buildEndpoints al iss l ((n, e) :: r) = .ok eps) : ∃ e' r', eps = (n, e') :: r' := by
  induction l generalizing e r with
  | nil => simp only [buildEndpoints, Except.ok.injEq] at h; exact ⟨e, r, h.symm⟩
  | cons sp l ih =>
    simp only [buildEndpoints] at h
    cases hb : buildEndpoint al iss sp with
    | error x => simp [hb] at h
    | ok ep0 =>
      simp only [hb, Dict.set] at h
      split at h
      · exact ih h
      · exact ih h

/-- **C87** is false of the code: of two endpoints with the same entry the one configured first decides what is published.  With a
pushed authorization endpoint before it, whatever the authorization endpoint is configured to support is not published: the
response types are those of plain OAuth2, without ID tokens. -/
theorem C87_first_endpoint_decides (al : AlgLib) (sl : ScopeLib) (cf : ProvConf) (p : Provider) (h : startProvider al sl cf = .ok p)
    (sp : EpSpec) (rest : List EpSpec) (hl : cf.endpoints = sp :: rest) (hk : sp.kind = .pushedAuthorization)
    (hlast : ∀ s ∈ rest, s.kind.name ≠ sp.kind.name) (hkw : sp.kwargs.get? c!"response_types_supported" = none)
    (hc : ¬ StatesCapability cf c!"response_types_supported") :
    p.info.get? c!"response_types_supported" = some (.strs [c!"code", c!"token", c!"code token"]) := by
  obtain ⟨idt, hidt, hb, hinfo, -⟩ := startProvider_ok h
  obtain ⟨ep, hbe, hep⟩ := (buildEndpoints_ok hb).2.2.1 [] rest sp (by simpa using hl) hlast
  have hval : Dict.get? (ep.info.getD []) c!"response_types_supported" = some (.strs [c!"code", c!"token", c!"code token"]) := by
    have := epInfo_get hbe (k := c!"response_types_supported") (dflt := some (.strs [c!"code", c!"token", c!"code token"]))
      (by rw [hk]; simp [EpKind.defaults, authzDefaults]) (by rw [hk]; simp)
    unfold capOne at this
    rw [hkw] at this
    simp only [Except.ok.injEq] at this
    exact this.symm
  have hhead : ∃ r', p.endpoints = (sp.kind.name, ep) :: r' := by
    rw [hl] at hb
    simp only [buildEndpoints, hbe, Dict.set] at hb
    obtain ⟨e', r', he'⟩ := buildEndpoints_head hb
    rw [he', Dict.get?_cons, if_pos rfl] at hep
    cases hep
    exact ⟨r', he'⟩
  obtain ⟨r', hr'⟩ := hhead
  rw [info_get h (by decide), no_capability hc]
  have : firstInfo p.endpoints c!"response_types_supported" = some (.strs [c!"code", c!"token", c!"code token"]) := by
    unfold firstInfo
    rw [hr', List.findSome?_cons, if_neg (name_not_special _ (by rw [hk]; decide)), hval]
  rw [this]
  rfl

example :
    let cf : ProvConf := { demoProv c!"https://op" with endpoints := [⟨.pushedAuthorization, some c!"par", []⟩,
      ⟨.authorization, some c!"authz", [(c!"response_types_supported", .strs [c!"id_token"])]⟩] }
    provEntry (startProvider demoAlgs demoScopes cf) c!"response_types_supported" = some (.strs [c!"code", c!"token", c!"code token"]) := by decide

/-- The same two endpoints the other way round. -/
example :
    let cf : ProvConf := { demoProv c!"https://op" with endpoints := [
      ⟨.authorization, some c!"authz", [(c!"response_types_supported", .strs [c!"id_token"])]⟩, ⟨.pushedAuthorization, some c!"par", []⟩] }
    provEntry (startProvider demoAlgs demoScopes cf) c!"response_types_supported" = some (.strs [c!"id_token"]) := by decide

/-- A default that only one endpoint has. -/
example :
    provEntry (startProvider demoAlgs demoScopes { demoProv c!"https://op" with endpoints := [⟨.authorization, some c!"authz", []⟩, ⟨.userinfo, some c!"me", []⟩] })
      c!"client_authn_method" = some (.strs [c!"bearer_header"]) := by decide

/-- A setting that only one endpoint has. -/
example :
    provEntry (startProvider demoAlgs demoScopes { demoProv c!"https://op" with endpoints := [⟨.authorization, some c!"authz", []⟩,
      ⟨.userinfo, some c!"me", [(c!"userinfo_signing_alg_values_supported", .strs [c!"ES256"])]⟩] })
      c!"userinfo_signing_alg_values_supported" = some (.strs [c!"ES256"]) := by decide

/-! ### C88: algorithms -/

theorem mem_entries {x : Str} : x ∈ signingEntries ∨ x ∈ keyEncryptionEntries ∨ x ∈ contentEncryptionEntries ↔
    x ∈ signingEntries ++ keyEncryptionEntries ++ contentEncryptionEntries := by simp [or_assoc]

theorem algsOf_entry {al : AlgLib} {k : Str} {lib : List Str} (h : libraryAlgs al k = some lib) :
    algsOf al k = some (if k ∈ signingEntries then sortedAlgs lib else .ok lib) := by
  have hk : k ∈ signingEntries ++ keyEncryptionEntries ++ contentEncryptionEntries := by
    rw [← mem_entries]
    unfold libraryAlgs at h
    split at h
    · exact .inl ‹_›
    · split at h
      · exact .inr (.inl ‹_›)
      · split at h
        · exact .inr (.inr ‹_›)
        · cases h
  simp only [signingEntries, keyEncryptionEntries, contentEncryptionEntries, List.cons_append, List.nil_append, List.mem_cons,
    List.not_mem_nil, or_false] at hk
  rcases hk with rfl | rfl | rfl | rfl | rfl | rfl | rfl | rfl | rfl | rfl
  all_goals (cases h; rfl)

/-- A list for a kind of algorithms, configured or not, contains nothing else than the library has. -/
theorem capOne_within {al : AlgLib} {kw : RegRec} {k : Str} {lib : List Str} {l : List Str} (hlib : libraryAlgs al k = some lib) (hne : lib ≠ [])
    (h : capOne al kw k none = .ok (some (.strs l))) : ∀ a ∈ l, a ∈ lib := by
  have hal := algsOf_entry hlib
  have hres : ∃ r : List Str, algsOf al k = some (.ok r) ∧ r.Perm lib := by
    by_cases hs : k ∈ signingEntries
    · rw [if_pos hs] at hal
      cases hso : sortedAlgs lib with
      | ok r => exact ⟨r, by rw [hal, hso], sortedAlgs_mem hso⟩
      | error e =>
        exfalso
        rw [hso] at hal
        unfold capOne at h
        cases hg : kw.get? k with
        | some p => simp [hg, checkProposal, hal] at h
        | none => simp [hg, libraryDefault, hal] at h
    · rw [if_neg hs] at hal
      exact ⟨lib, hal, List.Perm.refl _⟩
  obtain ⟨r, hr, hperm⟩ := hres
  have hrne : r ≠ [] := by rintro rfl; exact hne (hperm.symm.eq_nil)
  unfold capOne at h
  cases hg : kw.get? k with
  | some p =>
    simp only [hg] at h
    cases hch : checkProposal al k p with
    | error e => simp [hch] at h
    | ok u =>
      simp only [hch, Except.ok.injEq, Option.some.injEq] at h
      subst h
      unfold checkProposal at hch
      rw [hr] at hch
      obtain ⟨r0, r', rfl⟩ := List.exists_cons_of_ne_nil hrne
      simp only at hch
      split at hch
      · rename_i hall
        intro a ha
        rw [List.all_eq_true] at hall
        exact hperm.mem_iff.1 (List.contains_iff_mem.1 (hall a ha))
      · cases hch
  | none =>
    simp only [hg, libraryDefault, hr, Except.ok.injEq, Option.some.injEq, RegVal.strs.injEq] at h
    intro a ha
    rw [← h] at ha
    split at ha
    · exact hperm.mem_iff.1 (List.mem_of_mem_erase ha)
    · exact hperm.mem_iff.1 ha

/-- In every endpoint the lists of algorithms have no default of their own. -/
theorem alg_default (kd : EpKind) : ∀ k ∈ signingEntries ++ keyEncryptionEntries ++ contentEncryptionEntries,
    k ∈ contributes kd → (k, none) ∈ kd.defaults.getD [] := by cases kd <;> decide

theorem alg_entry {al : AlgLib} {k : Str} {lib : List Str} (h : libraryAlgs al k = some lib) :
    k ∈ signingEntries ++ keyEncryptionEntries ++ contentEncryptionEntries := by
  rw [← mem_entries]
  unfold libraryAlgs at h
  split at h
  · exact .inl ‹_›
  · split at h
    · exact .inr (.inl ‹_›)
    · split at h
      · exact .inr (.inr ‹_›)
      · cases h

theorem alg_not_address : ∀ k ∈ signingEntries ++ keyEncryptionEntries ++ contentEncryptionEntries, k ∉ addressEntries ∧
    (k ∉ idTokenEntries → k ∉ ownEntries) ∧ k ≠ c!"scopes_supported" ∧ k ≠ c!"claims_supported" ∧ k ≠ c!"check_session_iframe" := by decide

/-- Where a published list of algorithms comes from. -/
theorem alg_source {al : AlgLib} {sl : ScopeLib} {cf : ProvConf} {p : Provider} (h : startProvider al sl cf = .ok p) {k : Str} {lib : List Str}
    (hlib : libraryAlgs al k = some lib) (hc : k ∈ idTokenEntries ∨ ¬ StatesCapability cf k) {v : RegVal} (hv : p.info.get? k = some v) :
    (k ∈ idTokenEntries ∧ capOne al cf.idToken k none = .ok (some v)) ∨ ∃ sp ∈ cf.endpoints, capOne al sp.kwargs k none = .ok (some v) := by
  have hk := alg_entry hlib
  obtain ⟨a1, a2, a3, a4, a5⟩ := alg_not_address k hk
  by_cases hid : k ∈ idTokenEntries
  · obtain ⟨w, h1, h2⟩ := info_idToken h hid
    rw [h2] at hv; cases hv
    exact .inl ⟨hid, h1⟩
  · have hc' := hc.resolve_left hid
    obtain ⟨idt, hidt, hb, -, -⟩ := startProvider_ok h
    rw [info_get h (a2 hid), no_capability hc'] at hv
    cases hf : firstInfo p.endpoints k with
    | none => rw [hf] at hv; simp [a3, a4] at hv
    | some w =>
      have : w = v := by rw [hf] at hv; simpa using hv
      subst this
      obtain ⟨n', ep', hm', hs, hg⟩ := firstInfo_some hf
      obtain ⟨-, sp', hsp', hn', hb'⟩ := endpoint_mem hb hm'
      rcases epInfo_keys hb' hg with ⟨e, e0, -⟩ | hcon
      · exact absurd (e ▸ endpointName_mem _ (e ▸ e0)) a1
      · have := epInfo_get hb' (alg_default sp'.kind k hk hcon) (fun hh => a5 hh.2)
        rw [hg] at this
        exact .inr ⟨sp', hsp', this⟩

/-- **C88** Every algorithm published is one the library implements, unless the configured capabilities state the list. -/
theorem C88_within_library (al : AlgLib) (sl : ScopeLib) (cf : ProvConf) (p : Provider) (h : startProvider al sl cf = .ok p) (k : Str) (lib : List Str)
    (hlib : libraryAlgs al k = some lib) (hne : lib ≠ []) (hc : k ∈ idTokenEntries ∨ ¬ StatesCapability cf k) (l : List Str)
    (hv : p.info.get? k = some (.strs l)) : ∀ a ∈ l, a ∈ lib := by
  rcases alg_source h hlib hc hv with ⟨-, h1⟩ | ⟨sp, -, h1⟩
  · exact capOne_within hlib hne h1
  · exact capOne_within hlib hne h1

/-- **C88** Where nothing is configured everything the library has is published, except that "none" is not offered for client
authentication. -/
theorem C88_default_complete (al : AlgLib) (sl : ScopeLib) (cf : ProvConf) (p : Provider) (h : startProvider al sl cf = .ok p) (k : Str) (lib : List Str)
    (hlib : libraryAlgs al k = some lib) (hnd : lib.Nodup) (hc : k ∈ idTokenEntries ∨ ¬ StatesCapability cf k)
    (hno : cf.idToken.get? k = none) (hno' : ∀ sp ∈ cf.endpoints, sp.kwargs.get? k = none) (v : RegVal)
    (hv : p.info.get? k = some v) :
    ∃ l, v = .strs l ∧ (∀ a, a ∈ l ↔ a ∈ lib ∧ ¬ (k = c!"token_endpoint_auth_signing_alg_values_supported" ∧ a = c!"none")) ∧
      (k ∈ signingEntries → List.Sublist l (sortAlgs lib)) := by
  have key : ∀ kw : RegRec, kw.get? k = none → capOne al kw k none = .ok (some v) →
      ∃ l, v = .strs l ∧ (∀ a, a ∈ l ↔ a ∈ lib ∧ ¬ (k = c!"token_endpoint_auth_signing_alg_values_supported" ∧ a = c!"none")) ∧
      (k ∈ signingEntries → List.Sublist l (sortAlgs lib)) := by
    intro kw hkw hcap
    simp only [capOne, hkw, libraryDefault, algsOf_entry hlib] at hcap
    split at hcap
    · cases hcap
    · cases hcap
    · rename_i r e
      simp only [Option.some.injEq] at e
      simp only [Except.ok.injEq, Option.some.injEq] at hcap
      have hperm : r.Perm lib := by
        split at e
        · exact sortedAlgs_mem e
        · cases e; exact List.Perm.refl _
      refine ⟨_, hcap.symm, fun a => ?_, fun hs => ?_⟩
      · split
        · rename_i ek
          rw [List.Nodup.mem_erase_iff (hperm.nodup_iff.2 hnd), hperm.mem_iff]
          simp only [ek, true_and]
          exact and_comm
        · rename_i ek
          rw [hperm.mem_iff]
          simp [ek]
      · rw [if_pos hs] at e
        have : r = sortAlgs lib := by
          unfold sortedAlgs at e
          split at e
          · cases e
          · cases e; rfl
        rw [← this]
        split
        · exact List.erase_sublist
        · exact List.Sublist.refl _
  rcases alg_source h hlib hc hv with ⟨-, h1⟩ | ⟨sp, hsp, h1⟩
  · exact key _ hno h1
  · exact key _ (hno' sp hsp) h1

/-! The order. -/

theorem strLe_refl (a : Str) : strLe a a = true := by
  induction a with
  | nil => rfl
  | cons x a ih => simp [strLe, ih]

theorem strLe_total (a b : Str) : strLe a b = true ∨ strLe b a = true := by
  induction a generalizing b with
  | nil => exact .inl rfl
  | cons x a ih =>
    cases b with
    | nil => exact .inr rfl
    | cons y b =>
      simp only [strLe, Bool.or_eq_true, Bool.and_eq_true, decide_eq_true_eq]
      rcases Nat.lt_trichotomy x.toNat y.toNat with h | h | h
      · exact .inl (.inl h)
      · have e : x = y := Char.ext (UInt32.toNat_inj.1 h)
        subst e
        rcases ih b with h' | h'
        · exact .inl (.inr ⟨rfl, h'⟩)
        · exact .inr (.inr ⟨rfl, h'⟩)
      · exact .inr (.inl h)

theorem strLe_trans {a b c : Str} (h1 : strLe a b = true) (h2 : strLe b c = true) : strLe a c = true := by
  induction a generalizing b c with
  | nil => rfl
  | cons x a ih =>
    cases b with
    | nil => cases h1
    | cons y b =>
      cases c with
      | nil => cases h2
      | cons z c =>
        simp only [strLe, Bool.or_eq_true, Bool.and_eq_true, decide_eq_true_eq] at h1 h2 ⊢
        rcases h1 with h1 | ⟨rfl, h1⟩
        · rcases h2 with h2 | ⟨rfl, h2⟩
          · exact .inl (Nat.lt_trans h1 h2)
          · exact .inl h1
        · rcases h2 with h2 | ⟨rfl, h2⟩
          · exact .inl h2
          · exact .inr ⟨rfl, ih h1 h2⟩

theorem signLe_total (a b : Str) : signLe a b = true ∨ signLe b a = true := by
  simp only [signLe, Bool.or_eq_true, Bool.and_eq_true, decide_eq_true_eq]
  rcases Nat.lt_trichotomy ((algRank a).getD 0) ((algRank b).getD 0) with h | h | h
  · exact .inl (.inl h)
  · rcases strLe_total a b with h' | h'
    · exact .inl (.inr ⟨h, h'⟩)
    · exact .inr (.inr ⟨h.symm, h'⟩)
  · exact .inr (.inl h)

theorem signLe_trans {a b c : Str} (h1 : signLe a b = true) (h2 : signLe b c = true) : signLe a c = true := by
  simp only [signLe, Bool.or_eq_true, Bool.and_eq_true, decide_eq_true_eq] at h1 h2 ⊢
  rcases h1 with h1 | ⟨e1, h1⟩ <;> rcases h2 with h2 | ⟨e2, h2⟩
  · exact .inl (Nat.lt_trans h1 h2)
  · exact .inl (by rw [← e2]; exact h1)
  · exact .inl (by rw [e1]; exact h2)
  · exact .inr ⟨e1.trans e2, strLe_trans h1 h2⟩

theorem insertAlg_sorted (a : Str) (l : List Str) (h : l.Pairwise fun x y => signLe x y = true) :
    (insertAlg a l).Pairwise fun x y => signLe x y = true := by
  induction l with
  | nil => exact List.Pairwise.cons (by simp) .nil
  | cons b r ih =>
    rw [List.pairwise_cons] at h
    unfold insertAlg
    by_cases hab : signLe a b = true
    · rw [if_pos hab]
      refine List.Pairwise.cons ?_ (List.pairwise_cons.2 h)
      intro x hx
      rcases List.mem_cons.1 hx with rfl | hx
      · exact hab
      · exact signLe_trans hab (h.1 x hx)
    · rw [if_neg hab]
      have hba : signLe b a = true := (signLe_total a b).resolve_left hab
      refine List.Pairwise.cons ?_ (ih h.2)
      intro x hx
      rcases List.mem_cons.1 ((insertAlg_perm a r).mem_iff.1 hx) with rfl | hx
      · exact hba
      · exact h.1 x hx

theorem sortAlgs_sorted (l : List Str) : (sortAlgs l).Pairwise fun x y => signLe x y = true := by
  induction l with
  | nil => exact .nil
  | cons a l ih => exact insertAlg_sorted a _ ih

theorem strLe_alphabetic {a b : Str} (h : strLe a b = true) : AlphabeticallyUpTo a b := by
  induction a generalizing b with
  | nil => exact .inl ⟨b, rfl⟩
  | cons x a ih =>
    cases b with
    | nil => cases h
    | cons y b =>
      simp only [strLe, Bool.or_eq_true, Bool.and_eq_true, decide_eq_true_eq] at h
      rcases h with h | ⟨rfl, h⟩
      · exact .inr ⟨[], x, y, a, b, rfl, rfl, h⟩
      · rcases ih h with ⟨r, rfl⟩ | ⟨p, u, v, r, s, rfl, rfl, hlt⟩
        · exact .inl ⟨r, rfl⟩
        · exact .inr ⟨x :: p, u, v, r, s, rfl, rfl, hlt⟩

theorem algRank_family {a : Str} {n : Nat} (h : algRank a = some n) : families[n]? = some (a.take 2) := by
  unfold algRank at h
  simp only [Dict.get?_cons] at h
  split at h
  · rename_i e; cases h; rw [← e]; rfl
  · split at h
    · rename_i e; cases h; rw [← e]; rfl
    · split at h
      · rename_i e; cases h; rw [← e]; rfl
      · split at h
        · rename_i e; cases h; rw [← e]; rfl
        · split at h
          · rename_i e; cases h; rw [← e]; rfl
          · cases h

theorem signLe_order {a b : Str} (ha : algRank a ≠ none) (hb : algRank b ≠ none) (h : signLe a b = true) : AlgOrder a b := by
  obtain ⟨m, hm⟩ := Option.ne_none_iff_exists'.1 ha
  obtain ⟨n, hn⟩ := Option.ne_none_iff_exists'.1 hb
  have fm := algRank_family hm
  have fn := algRank_family hn
  simp only [signLe, hm, hn, Option.getD_some, Bool.or_eq_true, Bool.and_eq_true, decide_eq_true_eq] at h
  have hlt : m < families.length := (List.getElem?_eq_some_iff.1 fm).1
  refine ⟨families.take m, families.drop (m + 1), [], a.take 2, ?_, List.take_prefix 2 a, ?_⟩
  · have : families.drop m = a.take 2 :: families.drop (m + 1) := by
      rw [List.drop_eq_getElem_cons hlt, (List.getElem?_eq_some_iff.1 fm).2]
    rw [List.append_nil, ← this, List.take_append_drop]
  · rcases h with h | ⟨e, h⟩
    · left
      refine ⟨b.take 2, ?_, List.take_prefix 2 b⟩
      rw [List.append_nil, List.mem_iff_getElem?]
      refine ⟨n - (m + 1), ?_⟩
      rw [List.getElem?_drop, show m + 1 + (n - (m + 1)) = n by omega, fn]
    · right
      subst e
      refine ⟨?_, strLe_alphabetic h⟩
      rw [fm, Option.some.injEq] at fn
      rw [fn]
      exact List.take_prefix 2 b

/-- **C88** The published list of signature algorithms is ordered by family - RSA, elliptic curves, HMAC, RSA-PSS, none - and
alphabetically within a family. -/
theorem C88_default_sorted (al : AlgLib) (sl : ScopeLib) (cf : ProvConf) (p : Provider) (h : startProvider al sl cf = .ok p) (k : Str)
    (hk : k ∈ signingEntries) (hnd : al.signing.Nodup) (hfam : ∀ a ∈ al.signing, ∃ f ∈ families, f <+: a)
    (hc : k ∈ idTokenEntries ∨ ¬ StatesCapability cf k)
    (hno : cf.idToken.get? k = none) (hno' : ∀ sp ∈ cf.endpoints, sp.kwargs.get? k = none) (l : List Str)
    (hv : p.info.get? k = some (.strs l)) : l.Pairwise AlgOrder := by
  have hlib : libraryAlgs al k = some al.signing := by unfold libraryAlgs; rw [if_pos hk]
  obtain ⟨l', e, hmem, hs⟩ := C88_default_complete al sl cf p h k _ hlib hnd hc hno hno' _ hv
  cases e
  have hrank : ∀ a ∈ l, algRank a ≠ none := by
    intro a ha
    obtain ⟨f, hf, r, rfl⟩ := hfam a ((hmem a).1 ha).1
    simp only [families, List.mem_cons, List.not_mem_nil, or_false] at hf
    rcases hf with rfl | rfl | rfl | rfl | rfl <;> simp [algRank, Dict.get?_cons]
  have hsorted := (sortAlgs_sorted al.signing).sublist (hs hk)
  exact hsorted.imp_of_mem fun ha hb hab => signLe_order (hrank _ ha) (hrank _ hb) hab

example : ∀ a ∈ demoAlgs.signing, ∃ f ∈ families, f <+: a := by decide

/-- **C88** is false of the code for lists stated by the configured capabilities: they are published without any check. -/
theorem C88_capabilities_unchecked (al : AlgLib) (sl : ScopeLib) (cf : ProvConf) (p : Provider) (h : startProvider al sl cf = .ok p) (cap : RegRec)
    (hcap : cf.capabilities = some cap) (k : Str) (hk : k ∈ signingEntries ++ keyEncryptionEntries ++ contentEncryptionEntries) (hid : k ∉ idTokenEntries)
    (l : List Str) (hv : cap.get? k = some (.strs l)) : p.info.get? k = some (.strs l) :=
  C87_capabilities_published_partial al sl cf p h cap hcap k _ hv ((alg_not_address k hk).2.1 hid)

/-- **C88** is false of the code for "none": a token endpoint configured with it publishes it, and is not refused. -/
theorem C88_none_accepted :
    provEntry (startProvider demoAlgs demoScopes { demoProv c!"https://op" with endpoints := [⟨.token, some c!"token",
      [(c!"token_endpoint_auth_signing_alg_values_supported", .strs [c!"none"])]⟩] })
      c!"token_endpoint_auth_signing_alg_values_supported" = some (.strs [c!"none"]) := by decide

example : provEntry (startProvider demoAlgs demoScopes (demoProv c!"https://op")) c!"token_endpoint_auth_signing_alg_values_supported" =
    some (.strs [c!"RS256", c!"ES256", c!"HS256"]) := by decide
example : provEntry (startProvider demoAlgs demoScopes { demoProv c!"https://op" with
      capabilities := some [(c!"userinfo_signing_alg_values_supported", .strs [c!"XX1"]), (c!"grant_types_supported", .strs [])] })
      c!"userinfo_signing_alg_values_supported" = some (.strs [c!"XX1"]) := by decide

/-- A library with an algorithm of a family the provider does not know keeps every provider from starting, whatever its
configuration says. -/
theorem C88_unknown_family_no_start (al : AlgLib) (sl : ScopeLib) (cf : ProvConf) (a : Str) (ha : a ∈ al.signing) (hr : algRank a = none)
    (h2 : 2 ≤ al.signing.length) : startProvider al sl cf = .error .keyError := by
  have hso : sortedAlgs al.signing = .error .keyError := by
    unfold sortedAlgs
    rw [if_pos ⟨h2, List.any_eq_true.2 ⟨a, ha, by simp [hr]⟩⟩]
  have hal : algsOf al c!"id_token_signing_alg_values_supported" = some (.error .keyError) := by
    rw [algsOf_entry (lib := al.signing) rfl, if_pos (by decide), hso]
  have hcap : capOne al cf.idToken c!"id_token_signing_alg_values_supported" none = .error .keyError := by
    unfold capOne
    cases hg : cf.idToken.get? c!"id_token_signing_alg_values_supported" with
    | some p => simp [checkProposal, hal]
    | none => simp [libraryDefault, hal]
  have : constructInfo al cf.idToken idTokenDefaults = .error .keyError := by
    unfold idTokenDefaults constructInfo
    rw [hcap]
  unfold startProvider
  rw [this]

example : algRank c!"EdDSA" = none := by decide

end Verif
