import Verif.Props.Registration
set_option linter.unusedSimpArgs false
set_option linter.unusedVariables false
/-! Client registration: what a request can set, capabilities, and the credentials that come out (C43, C45, C69). -/
namespace Verif
open Spec

/-- **C43**, third part, is false of the code: every entry of the request, except the few with a treatment of their own, goes into
the client's record as it is - the secret and its expiry, the allowed scopes, the token usage rules, anything. -/
theorem C43_request_sets_entries (lib : RegLib) (cfg : RegCfg) (s s' : RegState) (i : RegIn) (ss v : Bool) (req resp : RegRec)
    (hd : (req.map (·.1)).Nodup) (h : registrationProcess lib cfg s i true ss v req = (s', .ok resp)) :
    ∃ cid r, s.cdb.get? cid = none ∧ s'.cdb.get? cid = some r ∧
      ∀ k val, k ∉ specialEntries → k ≠ c!"client_id" → req.get? k = some val → ¬ Blank val → r.get? k = some val := by
  obtain ⟨cid, req', cinfo, hm, hch, hdo, hcomb, hcdb, hrat, hkeys⟩ := registration_ok h
  obtain ⟨hd', hg⟩ := chooseId_get hch hd
  refine ⟨cid, cinfo, (chooseId_new hch).2.1, by rw [hcdb, Dict.get?_set, if_pos rfl], fun k val hk hc hr hb => ?_⟩
  rw [doClientRegistration_get hd' hdo k hk, (hg k val hc).2 ⟨hr, hb⟩]

/-- The entries an administrator would want for himself are among them. -/
theorem C43_administrative_entries_settable :
    ∀ k ∈ [c!"client_secret", c!"client_secret_expires_at", c!"allowed_scopes", c!"token_usage_rules", c!"registration_access_token",
      c!"client_salt"], k ∉ specialEntries ∧ k ≠ c!"client_id" := by decide

/-- For instance: a client grants itself a scope, and sets its own secret that never expires. -/
theorem C43_client_grants_itself_scopes :
    ∃ (req : RegRec) (s' : RegState) (resp rec : RegRec), registrationProcess demoRegLib demoRegCfg demoRegState regIn true true true req = (s', .ok resp) ∧
      s'.cdb.get? c!"c9" = some rec ∧ (RegRec.client rec).allowedScopes = [c!"admin"] ∧ (RegRec.client rec).clientSecret = some c!"x" ∧
      (RegRec.client rec).clientSecretExpiresAt = 0 := by
  let req : RegRec := [(c!"redirect_uris", .strs [c!"https://rp/cb"]), (c!"allowed_scopes", .strs [c!"admin"]), (c!"client_secret", .str c!"x"),
    (c!"client_secret_expires_at", .int 0)]
  have hok : (registrationProcess demoRegLib demoRegCfg demoRegState regIn true true true req).2.toOption.isSome = true := by decide
  have hst : ((registrationProcess demoRegLib demoRegCfg demoRegState regIn true true true req).1.cdb.get? c!"c9").map
      (fun r => ((RegRec.client r).allowedScopes, (RegRec.client r).clientSecret, (RegRec.client r).clientSecretExpiresAt)) =
      some ([c!"admin"], some c!"x", 0) := by decide
  cases h : registrationProcess demoRegLib demoRegCfg demoRegState regIn true true true req with
  | mk s' o =>
    rw [h] at hok hst
    cases o with
    | error e => cases hok
    | ok resp =>
      cases hr : s'.cdb.get? c!"c9" with
      | none => simp [hr] at hst
      | some rec =>
        simp only [hr, Option.map_some, Option.some.injEq, Prod.mk.injEq] at hst
        exact ⟨req, s', resp, rec, h, hr, hst⟩

/-- Without a fresh id (`new_id=False`) a registration replaces the record of the client it names, secret included, whether it
succeeds or is answered with an error. -/
theorem C43_named_client_replaced (lib : RegLib) (cfg : RegCfg) (s : RegState) (i : RegIn) (req : RegRec) (c : Str) (hne : c ≠ [])
    (hd : (req.map (·.1)).Nodup) (hc : req.get? c!"client_id" = some (.str c))
    (hm : matchClientRequest cfg.prov (rmBlanks req) preference2provider = .ok none) (hns : req.get? c!"client_secret" = none) :
    ∃ rec, (registrationProcess lib cfg s i false true true req).1.cdb.get? c = some rec ∧
      rec.get? c!"client_secret" = some (.str i.secret) := by
  have hcb : (rmBlanks req).get? c!"client_id" = some (.str c) := by
    unfold rmBlanks
    rw [get?_filter_nodup req hd]
    exact ⟨hc, by simp [hne]⟩
  have hch : chooseId s i false (rmBlanks req) = some (.ok (c, rmBlanks req)) := by
    unfold chooseId
    rw [if_neg (by decide), hcb]
    cases c with
    | nil => exact absurd rfl hne
    | cons x xs => rfl
  have hsec : (initialRecord cfg i false true c).get? c!"client_secret" = some (.str i.secret) := by
    unfold initialRecord
    dsimp only
    simp only [if_true]
    split
    · rw [Dict.get?_set, if_neg (by decide), Dict.get?_set, if_pos rfl]
    · rw [Dict.get?_set, if_pos rfl]
  cases h : registrationProcess lib cfg s i false true true req with
  | mk s' o =>
    cases o with
    | ok resp =>
      obtain ⟨cid, req', cinfo, -, hch', hdo, -, hcdb, -, -⟩ := registration_ok h
      rw [hch] at hch'
      simp only [Option.some.injEq, Except.ok.injEq, Prod.mk.injEq] at hch'
      obtain ⟨rfl, rfl⟩ := hch'
      refine ⟨cinfo, by rw [hcdb, Dict.get?_set, if_pos rfl], ?_⟩
      rw [doClientRegistration_get (nodup_filter_keys hd _) hdo _ (by decide)]
      have : (rmBlanks req).get? c!"client_secret" = none := by
        cases hx : (rmBlanks req).get? c!"client_secret" with
        | none => rfl
        | some v =>
          unfold rmBlanks at hx
          rw [get?_filter_nodup req hd] at hx
          rw [hns] at hx
          cases hx.1
      unfold rmBlanks at this
      rw [this]
      exact hsec
    | error e =>
      refine ⟨initialRecord cfg i false true c, ?_, hsec⟩
      unfold registrationProcess registrationSetup at h
      rw [if_neg (by decide)] at h
      dsimp only at h
      simp only [hm, hch] at h
      split at h <;> rename_i hs
      · cases h
      · split at hs
        · cases hs; cases h; dsimp only; rw [Dict.get?_set, if_pos rfl]
        · cases hs
        · split at hs
          · cases hs
          · cases hs
      · split at hs
        · cases hs
        · cases hs; cases h; dsimp only; rw [Dict.get?_set, if_pos rfl]
        · split at hs
          · cases hs; cases h; dsimp only; rw [Dict.get?_set, if_pos rfl]
          · cases hs

/-! ### C45 -/

theorem sameSet_words {a b : List Str} : sameSet a b = true ↔ ∀ w, w ∈ a ↔ w ∈ b := by
  simp only [sameSet, Bool.and_eq_true, List.all_eq_true, List.contains_iff_mem]
  constructor
  · rintro ⟨h1, h2⟩ w; exact ⟨h1 w, h2 w⟩
  · intro h; exact ⟨fun w hw => (h w).1 hw, fun w hw => (h w).2 hw⟩

theorem matchSpSep_iff {v : RegVal} {ps : List Str} : matchSpSep v (.strs ps) = .ok true ↔ SupportedWords v ps := by
  cases v <;> simp only [matchSpSep, spSets, SupportedWords, reduceCtorEq, Except.ok.injEq, List.all_eq_true, List.mem_map, List.any_eq_true]
  case str s =>
    constructor
    · rintro h w hw
      obtain ⟨y, ⟨p, hp, rfl⟩, hy⟩ := h [w] ⟨w, hw, rfl⟩
      refine ⟨p, hp, fun x => ?_⟩
      rw [← (sameSet_words.1 hy) x]
      simp
    · rintro h x ⟨w, hw, rfl⟩
      obtain ⟨p, hp, hx⟩ := h w hw
      refine ⟨_, ⟨p, hp, rfl⟩, sameSet_words.2 fun x => ?_⟩
      rw [hx]
      simp
  case strs l =>
    constructor
    · rintro h w hw
      obtain ⟨y, ⟨p, hp, rfl⟩, hy⟩ := h _ ⟨w, hw, rfl⟩
      exact ⟨p, hp, fun x => sameSet_words.1 hy x⟩
    · rintro h x ⟨w, hw, rfl⟩
      obtain ⟨p, hp, hx⟩ := h w hw
      exact ⟨_, ⟨p, hp, rfl⟩, sameSet_words.2 hx⟩

theorem matchPref_iff {v : RegVal} {ps : List Str} : matchPref v (.strs ps) = .ok true ↔ Supported v ps := by
  cases v <;> simp [matchPref, Supported]

/-- The table in the code is that of the specifications. -/
theorem preferences_eq : preference2provider = registrationPreferences := rfl

theorem matchClientRequest_ok {prov req : RegRec} {tbl : List (Str × Str)} :
    matchClientRequest prov req tbl = .ok none ↔
      ∀ pref pv v, (pref, pv) ∈ tbl → req.get? pref = some v → ∃ p, prov.get? pv = some p ∧
        ((wordwise pref → matchSpSep v p = .ok true) ∧ (¬ wordwise pref → matchPref v p = .ok true)) := by
  induction tbl with
  | nil => simp [matchClientRequest]
  | cons x rest ih =>
    obtain ⟨pref, pv⟩ := x
    simp only [matchClientRequest]
    have hsplit : (∀ pr p v, (pr, p) ∈ (pref, pv) :: rest → req.get? pr = some v → ∃ q, prov.get? p = some q ∧
        ((wordwise pr → matchSpSep v q = .ok true) ∧ (¬ wordwise pr → matchPref v q = .ok true))) ↔
        (∀ v, req.get? pref = some v → ∃ q, prov.get? pv = some q ∧
          ((wordwise pref → matchSpSep v q = .ok true) ∧ (¬ wordwise pref → matchPref v q = .ok true))) ∧
        (∀ pr p v, (pr, p) ∈ rest → req.get? pr = some v → ∃ q, prov.get? p = some q ∧
          ((wordwise pr → matchSpSep v q = .ok true) ∧ (¬ wordwise pr → matchPref v q = .ok true))) := by
      constructor
      · intro h; exact ⟨fun v => h pref pv v (by simp), fun pr p v hm => h pr p v (List.mem_cons_of_mem _ hm)⟩
      · rintro ⟨h1, h2⟩ pr p v hm
        rcases List.mem_cons.1 hm with e | e
        · cases e; exact h1 v
        · exact h2 pr p v e
    rw [hsplit, ← ih]
    cases hv : req.get? pref with
    | none => simp
    | some v =>
      cases hp : prov.get? pv with
      | none => simp
      | some p =>
        simp only
        by_cases hww : pref = c!"response_types" ∨ pref = c!"default_acr_values"
        · have hww' : wordwise pref := hww
          simp only [if_pos hww]
          cases hr : matchSpSep v p with
          | error e => simp [hww', hr]
          | ok b => cases b <;> simp [hww', hr]
        · have hww' : ¬ wordwise pref := hww
          simp only [if_neg hww]
          cases hr : matchPref v p with
          | error e => simp [hww', hr]
          | ok b => cases b <;> simp [hww', hr]

/-- **C45**: at a provider whose capabilities are lists, a registration is accepted only if every preference the request states is
among what the provider supports; response types and authentication classes up to the order of words. -/
theorem C45_only_supported (lib : RegLib) (cfg : RegCfg) (s s' : RegState) (i : RegIn) (n ss v : Bool) (req resp : RegRec)
    (hd : (req.map (·.1)).Nodup) (hlist : ∀ pref pv p, (pref, pv) ∈ registrationPreferences → cfg.prov.get? pv = some p → ∃ ps, p = .strs ps)
    (h : registrationProcess lib cfg s i n ss v req = (s', .ok resp)) (pref pv : Str) (hp : (pref, pv) ∈ registrationPreferences)
    (val : RegVal) (hv : req.get? pref = some val) (hb : ¬ Blank val) :
    ∃ ps, cfg.prov.get? pv = some (.strs ps) ∧ (wordwise pref → SupportedWords val ps) ∧ (¬ wordwise pref → Supported val ps) := by
  obtain ⟨cid, req', cinfo, hm, -⟩ := registration_ok h
  have hg : (rmBlanks req).get? pref = some val := by
    unfold rmBlanks
    rw [get?_filter_nodup req hd]
    refine ⟨hv, ?_⟩
    simpa [Blank] using hb
  obtain ⟨p, h1, h2, h3⟩ := matchClientRequest_ok.1 hm pref pv val hp hg
  obtain ⟨ps, rfl⟩ := hlist pref pv p hp h1
  exact ⟨ps, h1, fun hw => matchSpSep_iff.1 (h2 hw), fun hw => matchPref_iff.1 (h3 hw)⟩

/-- ... and a preference that is not supported is answered with an error, and nothing is stored. -/
theorem C45_unsupported_refused (lib : RegLib) (cfg : RegCfg) (s : RegState) (i : RegIn) (n ss v : Bool) (req : RegRec)
    (hd : (req.map (·.1)).Nodup) (hlist : ∀ pref pv p, (pref, pv) ∈ registrationPreferences → cfg.prov.get? pv = some p → ∃ ps, p = .strs ps)
    (pref pv : Str) (hp : (pref, pv) ∈ registrationPreferences) (val : RegVal) (hv : req.get? pref = some val) (hb : ¬ Blank val)
    (hbad : ∀ ps, cfg.prov.get? pv = some (.strs ps) → (wordwise pref → ¬ SupportedWords val ps) ∧ (¬ wordwise pref → ¬ Supported val ps)) :
    ∃ e, registrationProcess lib cfg s i n ss v req = (s, .error e) := by
  have hno : matchClientRequest cfg.prov (rmBlanks req) preference2provider ≠ .ok none := by
    intro hm
    have hg : (rmBlanks req).get? pref = some val := by
      unfold rmBlanks
      rw [get?_filter_nodup req hd]
      refine ⟨hv, ?_⟩
      simpa [Blank] using hb
    obtain ⟨p, h1, h2, h3⟩ := matchClientRequest_ok.1 hm pref pv val hp hg
    obtain ⟨ps, rfl⟩ := hlist pref pv p hp h1
    by_cases hw : wordwise pref
    · exact (hbad ps h1).1 hw (matchSpSep_iff.1 (h2 hw))
    · exact (hbad ps h1).2 hw (matchPref_iff.1 (h3 hw))
  unfold registrationProcess
  split
  · exact ⟨_, rfl⟩
  · unfold registrationSetup
    dsimp only
    cases hm : matchClientRequest cfg.prov (rmBlanks req) preference2provider with
    | error e => exact ⟨_, rfl⟩
    | ok o => cases o with
      | none => exact absurd hm hno
      | some p => exact ⟨_, rfl⟩

/-- **C45** does not hold if a capability is configured as a string: then any substring is accepted as a supported algorithm. -/
theorem C45_string_capability :
    ∃ (cfg : RegCfg) (req : RegRec) (s' : RegState) (resp : RegRec),
      cfg.prov.get? c!"id_token_signing_alg_values_supported" = some (.str c!"RS256 ES256") ∧
      req.get? c!"id_token_signed_response_alg" = some (.str c!"S256 E") ∧
      registrationProcess demoRegLib cfg demoRegState regIn true true true req = (s', .ok resp) := by
  let cfg : RegCfg := { demoRegCfg with prov := [(c!"id_token_signing_alg_values_supported", .str c!"RS256 ES256")] }
  let req : RegRec := [(c!"redirect_uris", .strs [c!"https://rp/cb"]), (c!"id_token_signed_response_alg", .str c!"S256 E")]
  have hok : (registrationProcess demoRegLib cfg demoRegState regIn true true true req).2.toOption.isSome = true := by decide
  cases h : registrationProcess demoRegLib cfg demoRegState regIn true true true req with
  | mk s' o =>
    rw [h] at hok
    cases o with
    | error e => cases hok
    | ok resp => exact ⟨cfg, req, s', resp, by decide, by decide, h⟩

/-- ... and a list is taken for a list of characters: one with an element that is not a single character of the string is refused,
whatever else is in it, even if it is the very list the string was meant to be. -/
theorem C45_string_capability_refuses_lists (lib : RegLib) (cfg : RegCfg) (s : RegState) (i : RegIn) (n ss v : Bool) (req : RegRec)
    (hd : (req.map (·.1)).Nodup) (pref pv t : Str) (hp : (pref, pv) ∈ registrationPreferences) (hw : ¬ wordwise pref)
    (hcap : cfg.prov.get? pv = some (.str t)) (l : List Str) (hl : req.get? pref = some (.strs l)) (hb : l ≠ [[]])
    (x : Str) (hx : x ∈ l) (hlong : x.length ≠ 1) :
    ∃ e, registrationProcess lib cfg s i n ss v req = (s, .error e) := by
  have hno : matchClientRequest cfg.prov (rmBlanks req) preference2provider ≠ .ok none := by
    intro hm
    have hg : (rmBlanks req).get? pref = some (.strs l) := by
      unfold rmBlanks
      rw [get?_filter_nodup req hd]
      exact ⟨hl, by simpa using hb⟩
    obtain ⟨p, h1, _, h3⟩ := matchClientRequest_ok.1 hm pref pv _ hp hg
    rw [hcap] at h1
    cases h1
    have h := h3 hw
    simp only [matchPref, Except.ok.injEq] at h
    have := List.all_eq_true.1 h x hx
    obtain ⟨ch, _, e⟩ := List.any_eq_true.1 this
    simp only [decide_eq_true_eq] at e
    subst e
    exact hlong rfl
  unfold registrationProcess
  split
  · exact ⟨_, rfl⟩
  · unfold registrationSetup
    dsimp only
    cases hm : matchClientRequest cfg.prov (rmBlanks req) preference2provider with
    | error e => exact ⟨_, rfl⟩
    | ok o => cases o with
      | none => exact absurd hm hno
      | some p => exact ⟨_, rfl⟩

/-- A grant type list against the capability "authorization_code": refused; one-letter names would do. -/
example :
    let cfg : RegCfg := { demoRegCfg with prov := [(c!"grant_types_supported", .str c!"code")] }
    let req := fun l => ([(c!"redirect_uris", .strs [c!"https://rp/cb"]), (c!"grant_types", .strs l)] : RegRec)
    let out := fun l => (registrationProcess demoRegLib cfg demoRegState regIn true true true (req l)).2.toOption.isSome
    out [c!"code"] = false ∧ out [c!"c", c!"d"] = true ∧ out [c!"c", c!"x"] = false := by decide

/-! ### C69 -/

/-- **C69**: the credentials that come out of a registration work: the response's secret is the one in the record (and in the
key jar), and the client authenticates with it, in a header or form, until the announced expiry and not after it - provided the request did not bring
along a secret or an expiry of its own. -/
theorem C69_credentials_work_partial (lib : RegLib) (cfg : RegCfg) (s s' : RegState) (i : RegIn) (v : Bool) (req resp : RegRec)
    (hd : (req.map (·.1)).Nodup) (hns : req.get? c!"client_secret" = none) (hne : req.get? c!"client_secret_expires_at" = none)
    (hids : [] ∉ i.ids) (hsec : i.secret ≠ []) (hr : lib.responseParam c!"client_secret" = true) (hr2 : lib.responseParam c!"client_id" = true)
    (hr3 : lib.responseParam c!"client_secret_expires_at" = true)
    (h : registrationProcess lib cfg s i true true v req = (s', .ok resp)) :
    ∃ cid, (resp.get? c!"client_secret_expires_at" = if cfg.secretExpires = false ∨ i.now + cfg.secretExpiresIn = 0 then none
        else some (.int (i.now + cfg.secretExpiresIn))) ∧
      (∀ alib methods targets ft jtis j now r o, SecretOnly methods → methods ≠ [] → cfg.secretExpires = true →
        i.now + cfg.secretExpiresIn ≠ 0 → i.now + cfg.secretExpiresIn < now →
        clientAuthentication alib (RegState.cdbFun s') now methods targets ft jtis r = (j, .ok o) → requestClient r o ≠ some cid) ∧
      resp.get? c!"client_id" = some (.str cid) ∧ resp.get? c!"client_secret" = some (.str i.secret) ∧
      s'.keys = s.keys ++ [(cid, i.secret)] ∧
      ∀ alib targets ft jtis now, (cfg.secretExpires = false ∨ now ≤ i.now + cfg.secretExpiresIn) →
        ∃ info, clientAuthentication alib (RegState.cdbFun s') now [some .clientSecretBasic, some .clientSecretPost] targets ft jtis
          { clientId := some cid, clientSecret := some i.secret } = (jtis, .ok (some info)) ∧ info.clientId = some cid := by
  obtain ⟨cid, req', cinfo, hm, hch, hdo, hcomb, hcdb, hrat, hkeys⟩ := registration_ok h
  obtain ⟨hd', hg⟩ := chooseId_get hch hd
  have hcid := chooseId_new hch
  have hcne : cid ≠ [] := fun e => hids (e ▸ hcid.1)
  have hnone : ∀ k, k ≠ c!"client_id" → req.get? k = none → req'.get? k = none := by
    intro k hk hn
    cases hx : req'.get? k with
    | none => rfl
    | some w => rw [hg k w hk, hn] at hx; cases hx.1
  have hid' : req'.get? c!"client_id" = none := by
    rw [hcid.2.2, get?_filter_key (rmBlanks req) (fun x => decide (x ≠ c!"client_id"))]
    simp
  have hinit := C43_failed_registration_leaves_client.initialRecord_secret cfg i cid
  have e1 : cinfo.get? c!"client_secret" = some (.str i.secret) := by
    rw [doClientRegistration_get hd' hdo _ (by decide), hnone _ (by decide) hns, hinit.1]
  have e2 : cinfo.get? c!"client_secret_expires_at" = (if cfg.secretEnd i.now ≠ 0 then some (.int (cfg.secretEnd i.now)) else none) := by
    rw [doClientRegistration_get hd' hdo _ (by decide), hnone _ (by decide) hne, hinit.2]
  have e3 : cinfo.get? c!"client_id" = some (.str cid) := by
    rw [doClientRegistration_get hd' hdo _ (by decide), hid']
    exact initialRecord_id cfg i cid
  have hcombget : ∀ (args r : RegRec) (k : Str), combUri lib args = some r → k ≠ c!"redirect_uris" → k ≠ c!"post_logout_redirect_uris" →
      k ≠ c!"request_uris" → r.get? k = args.get? k := by
    intro args r k hc k1 k2 k3
    have hone : ∀ (a : RegRec) (q : Str), k ≠ q → (combOne lib a q).get? k = a.get? k := by
      intro a q hq
      unfold combOne
      split
      · rw [Dict.get?_set, if_neg hq]
      · rfl
    unfold combUri at hc
    dsimp only at hc
    split at hc
    · split at hc
      · cases hc; rw [Dict.get?_set, if_neg k3, hone _ _ k2, hone _ _ k1]
      · cases hc
    · cases hc; rw [hone _ _ k2, hone _ _ k1]
  refine ⟨cid, ?_, ?_, ?_, ?_, ?_, ?_⟩
  · rw [hcombget _ _ _ hcomb (by decide) (by decide) (by decide), get?_filter_key cinfo lib.responseParam, if_pos hr3, e2]
    cases hx : cfg.secretExpires <;> by_cases hz : i.now + cfg.secretExpiresIn = 0 <;> simp [RegCfg.secretEnd, hx, hz]
  · intro alib methods targets ft jtis j now r o hm hmne hl hz hnow hca hrc
    obtain ⟨c, cl, s, h1, h2, _, _, h5⟩ := C40_request_client alib _ now methods targets ft jtis j r o hm hmne hca
    rw [hrc] at h1
    cases h1
    have : RegState.cdbFun s' cid = some (RegRec.client cinfo) := by simp [RegState.cdbFun, hcdb, Dict.get?_set]
    rw [this] at h2
    cases h2
    unfold NotExpired at h5
    simp only [RegRec.client, e2, RegCfg.secretEnd, hl, hz, ne_eq, not_false_eq_true, if_true] at h5
    rcases h5 with h5 | h5
    · exact h5.elim
    · omega
  · rw [hcombget _ _ _ hcomb (by decide) (by decide) (by decide), get?_filter_key cinfo lib.responseParam, if_pos hr2, e3]
  · rw [hcombget _ _ _ hcomb (by decide) (by decide) (by decide), get?_filter_key cinfo lib.responseParam, if_pos hr, e1]
  · rw [hkeys, if_pos ⟨rfl, hsec⟩]
  · intro alib targets ft jtis now hnow
    refine C40_secret_accepted alib (RegState.cdbFun s') now targets ft jtis _ cid i.secret (RegRec.client cinfo) hcne ?_ ?_ ?_
      (.inr ⟨rfl, rfl⟩) (.inl rfl)
    · simp [RegState.cdbFun, hcdb, Dict.get?_set]
    · simp [RegRec.client, e1]
    · unfold NotExpired
      simp only [RegRec.client, e2]
      by_cases hz : cfg.secretEnd i.now = 0
      · simp [hz]
      · simp only [hz, ne_eq, not_false_eq_true, if_true]
        rcases RegCfg.secretEnd_ok hnow with h | h
        · exact absurd h hz
        · exact .inr h
where
  initialRecord_id (cfg : RegCfg) (i : RegIn) (cid : Str) : (initialRecord cfg i true true cid).get? c!"client_id" = some (.str cid) := by
    unfold initialRecord
    dsimp only
    simp only [if_true]
    have base : ∀ d : RegRec, d.get? c!"client_id" = some (.str cid) → ∀ (k : Str) (w : RegVal), c!"client_id" ≠ k →
        (d.set k w).get? c!"client_id" = some (.str cid) := by
      intro d hd k w hk
      rw [Dict.get?_set, if_neg hk, hd]
    have b0 : Dict.get? ([(c!"client_id", .str cid), (c!"client_salt", .str i.salt)] : RegRec) c!"client_id" = some (.str cid) := rfl
    split
    · refine base _ (base _ (base _ ?_ _ _ (by decide)) _ _ (by decide)) _ _ (by decide)
      split
      · exact b0
      · exact base _ (base _ b0 _ _ (by decide)) _ _ (by decide)
    · refine base _ (base _ ?_ _ _ (by decide)) _ _ (by decide)
      split
      · exact b0
      · exact base _ (base _ b0 _ _ (by decide)) _ _ (by decide)

/-- **C69** is false of the code for a request that brings its own secret: that goes into the record, another one into the key jar. -/
theorem C69_own_secret_splits (lib : RegLib) (cfg : RegCfg) (s s' : RegState) (i : RegIn) (v : Bool) (req resp : RegRec)
    (hd : (req.map (·.1)).Nodup) (x : Str) (hx : x ≠ []) (hs : req.get? c!"client_secret" = some (.str x)) (hsec : i.secret ≠ [])
    (h : registrationProcess lib cfg s i true true v req = (s', .ok resp)) :
    ∃ cid r, s'.cdb.get? cid = some r ∧ (RegRec.client r).clientSecret = some x ∧ s'.keys = s.keys ++ [(cid, i.secret)] := by
  obtain ⟨cid, req', cinfo, hm, hch, hdo, hcomb, hcdb, hrat, hkeys⟩ := registration_ok h
  obtain ⟨hd', hg⟩ := chooseId_get hch hd
  refine ⟨cid, cinfo, by rw [hcdb, Dict.get?_set, if_pos rfl], ?_, by rw [hkeys, if_pos ⟨rfl, hsec⟩]⟩
  have : cinfo.get? c!"client_secret" = some (.str x) := by
    rw [doClientRegistration_get hd' hdo _ (by decide), (hg c!"client_secret" (.str x) (by decide)).2 ⟨hs, by simp [Blank, hx]⟩]
  simp [RegRec.client, this]

/-- The demonstration registration meets the hypotheses of C42, C43, C45 and C69. -/
example :
    (demoRegReq.map (·.1)).Nodup ∧ demoRegReq.get? c!"client_secret" = none ∧ demoRegReq.get? c!"client_secret_expires_at" = none ∧
    [] ∉ regIn.ids ∧ regIn.secret ≠ [] ∧ demoRegLib.responseParam c!"client_secret" = true ∧
    demoRegLib.responseParam c!"client_secret_expires_at" = true ∧
    (∀ kv ∈ demoRegReq, kv.2 ≠ .str [] ∧ kv.2 ≠ .strs [[]]) ∧
    (demoRegCfg.prov.all fun kv => match kv.2 with
      | .strs _ => true
      | _ => false) = true ∧
    (registrationProcess demoRegLib demoRegCfg demoRegState regIn true true true demoRegReq).2.toOption.isSome = true := by decide

/-- A redirect URI that makes a registration fail although the capabilities match (C43). -/
example :
    matchClientRequest demoRegCfg.prov (rmBlanks [(c!"redirect_uris", .strs [c!"ftp://rp/cb"])]) preference2provider = .ok none ∧
    regIn.ids.find? (fun c => !(demoRegState.cdb.get? c).isSome) = some c!"c9" ∧
    (registrationProcess demoRegLib demoRegCfg demoRegState regIn true true true [(c!"redirect_uris", .strs [c!"ftp://rp/cb"])]).2 =
      .error c!"invalid_redirect_uri" := by decide

/-- **C44**, the other way: the registration access token that a registration hands out opens that client's record at once. -/
theorem C44_issued_token_works (lib : RegLib) (cfg : RegCfg) (s s' : RegState) (i : RegIn) (v : Bool) (req resp : RegRec)
    (hread : cfg.readPath.isSome = true) (hids : [] ∉ i.ids) (hrat : i.rat ≠ [])
    (h : registrationProcess lib cfg s i true true v req = (s', .ok resp)) :
    ∃ cid r, s'.cdb.get? cid = some r ∧ s.cdb.get? cid = none ∧
      ∀ alib targets jtis now, registrationRead alib (RegState.cdbFun s') s'.rat.get? now [some .bearerHeader] targets jtis
        { authorization := some (c!"Bearer " ++ i.rat), clientId := some cid } = (jtis, .ok (cid, RegRec.client r)) := by
  obtain ⟨cid, req', cinfo, hm, hch, hdo, hcomb, hcdb, hr, hkeys⟩ := registration_ok h
  have hcid := chooseId_new hch
  have hcne : cid ≠ [] := fun e => hids (e ▸ hcid.1)
  have hget : s'.cdb.get? cid = some cinfo := by rw [hcdb, Dict.get?_set, if_pos rfl]
  refine ⟨cid, cinfo, hget, hcid.2.1, fun alib targets jtis now => ?_⟩
  have hg : s'.rat.get? i.rat = some cid := by rw [hr, if_pos hread, Dict.get?_set, if_pos rfl]
  have hp : c!"Bearer ".isPrefixOf (c!"Bearer " ++ i.rat) = true := by
    rw [List.isPrefixOf_iff_prefix]; exact List.prefix_append _ _
  have hdrop : (c!"Bearer " ++ i.rat).drop 7 = i.rat := rfl
  unfold registrationRead clientAuthentication verifyClient
  simp only [tryMethods, AuthnMethod.usable, hp, if_true, AuthnMethod.verify, Option.getD_some, hdrop, finishClient]
  cases hx : i.rat with
  | nil => exact absurd hx hrat
  | cons a as =>
    rw [hx] at hg
    simp [regFromToken, hg, Except.map, requestClient, RegState.cdbFun, hget]

end Verif
