import Verif.Props.RegistrationUris
import Verif.Spec.RegistrationExact
import Verif.Props.ProviderUri
set_option linter.unusedSimpArgs false
/-! C145: a registration request is accepted exactly if nothing is wrong with it; otherwise the answer says what is wrong. -/
namespace Verif
open Spec

/-- What one preference is compared with. -/
theorem matchPref_total (v : RegVal) (ps : List Str) (h : (∃ s, v = .str s) ∨ ∃ l, v = .strs l) :
    (∃ b, matchPref v (.strs ps) = .ok b) ∧ ∃ b, matchSpSep v (.strs ps) = .ok b := by
  rcases h with ⟨s, rfl⟩ | ⟨l, rfl⟩ <;> exact ⟨⟨_, rfl⟩, ⟨_, rfl⟩⟩

/-- With typed preferences the check never raises: it says yes, or names a preference that is not supported. -/
theorem matchClientRequest_total {prov req : RegRec} (tbl : List (Str × Str))
    (h : ∀ pref pv v, (pref, pv) ∈ tbl → req.get? pref = some v →
      ((∃ s, v = .str s) ∨ ∃ l, v = .strs l) ∧ ∃ ps, prov.get? pv = some (.strs ps)) :
    ∃ o, matchClientRequest prov req tbl = .ok o := by
  induction tbl with
  | nil => exact ⟨none, rfl⟩
  | cons x rest ih =>
    obtain ⟨pref, pv⟩ := x
    have ih' := ih fun p q v hm => h p q v (List.mem_cons_of_mem _ hm)
    simp only [matchClientRequest]
    cases hv : req.get? pref with
    | none => exact ih'
    | some v =>
      obtain ⟨ht, ps, hps⟩ := h pref pv v List.mem_cons_self hv
      obtain ⟨⟨b1, e1⟩, ⟨b2, e2⟩⟩ := matchPref_total v ps ht
      simp only [hps, e1, e2]
      by_cases hw : pref = c!"response_types" ∨ pref = c!"default_acr_values"
      · rw [if_pos hw]
        cases b2
        · exact ⟨_, rfl⟩
        · exact ih'
      · rw [if_neg hw]
        cases b1
        · exact ⟨_, rfl⟩
        · exact ih'

theorem matchClientRequest_bad {prov req : RegRec}
    (h : ∀ pref pv v, (pref, pv) ∈ registrationPreferences → req.get? pref = some v →
      ((∃ s, v = .str s) ∨ ∃ l, v = .strs l) ∧ ∃ ps, prov.get? pv = some (.strs ps)) :
    (AsksUnsupported prov req → ∃ p, matchClientRequest prov req preference2provider = .ok (some p)) ∧
    (¬ AsksUnsupported prov req → matchClientRequest prov req preference2provider = .ok none) := by
  obtain ⟨o, ho⟩ := matchClientRequest_total (prov := prov) (req := req) preference2provider (by rw [preferences_eq]; exact h)
  refine ⟨fun hb => ?_, fun hb => ?_⟩
  · cases o with
    | some p => exact ⟨p, ho⟩
    | none =>
      exfalso
      obtain ⟨pref, pv, v, ps, hm, hv, hps, hc⟩ := hb
      obtain ⟨p, e1, e2, e3⟩ := matchClientRequest_ok.1 ho pref pv v (by rw [preferences_eq]; exact hm) hv
      rw [hps] at e1
      cases e1
      rcases hc with ⟨hw, hn⟩ | ⟨hw, hn⟩
      · exact hn (matchSpSep_iff.1 (e2 hw))
      · exact hn (matchPref_iff.1 (e3 hw))
  · refine matchClientRequest_ok.2 fun pref pv v hm hv => ?_
    rw [preferences_eq] at hm
    obtain ⟨_, ps, hps⟩ := h pref pv v hm hv
    refine ⟨_, hps, fun hw => ?_, fun hw => ?_⟩
    · refine matchSpSep_iff.2 (Classical.byContradiction fun hn => hb ⟨pref, pv, v, ps, hm, hv, hps, .inl ⟨hw, hn⟩⟩)
    · refine matchPref_iff.2 (Classical.byContradiction fun hn => hb ⟨pref, pv, v, ps, hm, hv, hps, .inr ⟨hw, hn⟩⟩)

theorem regPostLogout_cases {lib : RegLib} {req : RegRec} (c : RegRec)
    (ht : ∀ v, req.get? c!"post_logout_redirect_uris" = some v → ∃ l, v = .strs l) :
    (LogoutFragment lib req → regPostLogout lib req c = .errMsg c!"invalid_configuration_parameter") ∧
    (¬ LogoutFragment lib req → ∃ c', regPostLogout lib req c = .val c') := by
  unfold regPostLogout LogoutFragment
  cases hv : req.get? c!"post_logout_redirect_uris" with
  | none => exact ⟨(fun ⟨l, hl, _⟩ => nomatch hl), fun _ => ⟨_, rfl⟩⟩
  | some v =>
    obtain ⟨l, rfl⟩ := ht v hv
    refine ⟨?_, ?_⟩
    · rintro ⟨l', hl, u, hu, hf⟩
      cases hl
      have : (l.any fun u => decide (lib.uri.fragment u ≠ [])) = true := List.any_eq_true.2 ⟨u, hu, by simpa using hf⟩
      simp only [this, if_true]
    · intro hn
      have : (l.any fun u => decide (lib.uri.fragment u ≠ [])) = false := by
        cases ha : l.any fun u => decide (lib.uri.fragment u ≠ []) with
        | false => rfl
        | true =>
          obtain ⟨u, hu, hf⟩ := List.any_eq_true.1 ha
          exact absurd ⟨l, rfl, u, hu, by simpa using hf⟩ hn
      simp only [this]
      exact ⟨_, rfl⟩

theorem regRedirect_cases {lib : RegLib} {req : RegRec} (c : RegRec) {l : List Str} (hl : req.get? c!"redirect_uris" = some (.strs l)) :
    (ForbiddenRedirect lib req → regRedirect lib req c = .errMsg c!"invalid_redirect_uri") ∧
    (¬ ForbiddenRedirect lib req → ∃ c', regRedirect lib req c = .val c' ∧
      c'.get? c!"redirect_uris" = some (.uris (l.map (storedRedirect lib req)))) := by
  unfold regRedirect
  simp only [hl]
  refine ⟨?_, ?_⟩
  · rintro ⟨l', hl', u, hu, hf⟩
    rw [hl] at hl'
    cases hl'
    cases hv : verifyRedirectUris lib req l with
    | error e => rfl
    | ok us => exact absurd (((verifyRedirectUris_iff lib req l us).1 hv).1 u hu) hf
  · intro hn
    have hall : ∀ u ∈ l, RedirectAllowed lib req u := fun u hu =>
      Classical.byContradiction fun hf => hn ⟨l, hl, u, hu, hf⟩
    rw [(verifyRedirectUris_iff lib req l _).2 ⟨hall, rfl⟩]
    exact ⟨_, rfl, by rw [Dict.get?_set, if_pos rfl]⟩

theorem regRequestUris_cases {lib : RegLib} {req : RegRec} (c : RegRec)
    (ht : ∀ v, req.get? c!"request_uris" = some v → ∃ l, v = .strs l) :
    (RequestUriQuery lib req → regRequestUris lib req c = .errMsg c!"invalid_configuration_parameter") ∧
    (¬ RequestUriQuery lib req → ∃ c', regRequestUris lib req c = .val c') := by
  unfold regRequestUris RequestUriQuery
  cases hv : req.get? c!"request_uris" with
  | none => exact ⟨(fun ⟨l, hl, _⟩ => nomatch hl), fun _ => ⟨_, rfl⟩⟩
  | some v =>
    obtain ⟨l, rfl⟩ := ht v hv
    refine ⟨?_, ?_⟩
    · rintro ⟨l', hl, u, hu, hf⟩
      cases hl
      have : (l.any fun u => decide (lib.query u ≠ [])) = true := List.any_eq_true.2 ⟨u, hu, by simpa using hf⟩
      simp only [this, if_true]
    · intro hn
      have : (l.any fun u => decide (lib.query u ≠ [])) = false := by
        cases ha : l.any fun u => decide (lib.query u ≠ []) with
        | false => rfl
        | true =>
          obtain ⟨u, hu, hf⟩ := List.any_eq_true.1 ha
          exact absurd ⟨l, rfl, u, hu, by simpa using hf⟩ hn
      simp only [this]
      exact ⟨_, rfl⟩

theorem regSector_cases {lib : RegLib} {req : RegRec} (c : RegRec)
    (ht : ∀ v, req.get? c!"sector_identifier_uri" = some v → ∃ s, v = .str s) :
    (WrongSector lib req → regSector lib req c = .errMsg c!"invalid_configuration_parameter") ∧
    (¬ WrongSector lib req → ∃ c', regSector lib req c = .val c') := by
  unfold regSector WrongSector
  cases hv : req.get? c!"sector_identifier_uri" with
  | none => exact ⟨(fun ⟨l, hl, _⟩ => nomatch hl), fun _ => ⟨_, rfl⟩⟩
  | some v =>
    obtain ⟨si, rfl⟩ := ht v hv
    dsimp only
    refine ⟨?_, ?_⟩
    · rintro ⟨si', hsi, hc⟩
      cases hsi
      rcases hc with hc | ⟨rs, l, h1, h2, u, hu, hn⟩
      · simp only [hc]
      · simp only [h1, h2]
        rw [if_neg]
        intro ha
        exact hn (by simpa using List.all_eq_true.1 ha u hu)
    · intro hn
      cases hs : lib.sector si with
      | none => exact absurd ⟨si, rfl, .inl hs⟩ hn
      | some rs =>
        dsimp only
        cases hr : req.get? c!"redirect_uris" with
        | none => exact ⟨_, rfl⟩
        | some w =>
          cases w with
          | strs l =>
            dsimp only
            rw [if_pos]
            · exact ⟨_, rfl⟩
            · refine List.all_eq_true.2 fun u hu => ?_
              have : u ∈ rs := Classical.byContradiction fun hno => hn ⟨si, rfl, .inr ⟨rs, l, hs, hr, u, hu, hno⟩⟩
              simpa using this
          | _ => exact ⟨_, rfl⟩

theorem regInfoUris_cases {lib : RegLib} {req : RegRec} {us : List RegUri} (items : List Str) (hr : c!"redirect_uris" ∉ items)
    (ht : ∀ k ∈ items, ∀ v, req.get? k = some v → ∃ s, v = .str s) (c : RegRec)
    (hc : c.get? c!"redirect_uris" = some (.uris us)) :
    ((∃ it ∈ items, ∃ u, req.get? it = some (.str u) ∧ ¬ SameSite lib us u) →
      regInfoUris lib req items c = .errMsg c!"invalid_configuration_parameter") ∧
    ((∀ it ∈ items, ∀ u, req.get? it = some (.str u) → SameSite lib us u) → ∃ c', regInfoUris lib req items c = .val c') := by
  induction items generalizing c with
  | nil => exact ⟨(fun ⟨_, h, _⟩ => nomatch h), fun _ => ⟨c, rfl⟩⟩
  | cons x rest ih =>
    simp only [List.mem_cons, not_or] at hr
    simp only [regInfoUris]
    have htr : ∀ k ∈ rest, ∀ v, req.get? k = some v → ∃ s, v = .str s := fun k hk => ht k (List.mem_cons_of_mem _ hk)
    cases hx : req.get? x with
    | none =>
      dsimp only
      obtain ⟨i1, i2⟩ := ih hr.2 htr c hc
      refine ⟨?_, fun h => i2 fun it hit => h it (List.mem_cons_of_mem _ hit)⟩
      rintro ⟨it, hit, u, hu, hn⟩
      rcases List.mem_cons.1 hit with rfl | hit
      · rw [hx] at hu; cases hu
      · exact i1 ⟨it, hit, u, hu, hn⟩
    | some v =>
      obtain ⟨w, rfl⟩ := ht x List.mem_cons_self v hx
      simp only [hc]
      have hsite : verifyUrl lib w us = true ↔ SameSite lib us w := by
        unfold verifyUrl SameSite
        simp [List.any_eq_true]
      by_cases hs : SameSite lib us w
      · rw [if_pos (hsite.2 hs)]
        obtain ⟨i1, i2⟩ := ih hr.2 htr (c.set x (.str w)) (by rw [Dict.get?_set, if_neg hr.1, hc])
        refine ⟨?_, fun h => i2 fun it hit => h it (List.mem_cons_of_mem _ hit)⟩
        rintro ⟨it, hit, u, hu, hn⟩
        rcases List.mem_cons.1 hit with rfl | hit
        · rw [hx] at hu; cases hu; exact absurd hs hn
        · exact i1 ⟨it, hit, u, hu, hn⟩
      · rw [if_neg (fun h => hs (hsite.1 h))]
        exact ⟨fun _ => rfl, fun h => absurd (h x List.mem_cons_self w hx) hs⟩

theorem regAlgs_total {lib : RegLib} {prov req : RegRec} (items : List (Str × Str))
    (ht : ∀ it pv v, (it, pv) ∈ items → req.get? it = some v → (∃ s, v = .str s) ∧ ∃ ps, prov.get? pv = some (.strs ps)) (c : RegRec) :
    ∃ c', regAlgs lib prov req items c = .val c' := by
  induction items generalizing c with
  | nil => exact ⟨c, rfl⟩
  | cons x rest ih =>
    obtain ⟨x, pv⟩ := x
    have ih' := ih fun a b v hm => ht a b v (List.mem_cons_of_mem _ hm)
    simp only [regAlgs]
    cases hx : req.get? x with
    | none => exact ih' c
    | some v =>
      obtain ⟨⟨w, rfl⟩, ps, hps⟩ := ht x pv v List.mem_cons_self hx
      obtain ⟨⟨b, hb⟩, _⟩ := matchPref_total (.str w) ps (.inl ⟨w, rfl⟩)
      simp only [hps, hb]
      cases b
      · exact ih' c
      · dsimp only
        split
        · exact ih' c
        · exact ih' _

theorem combUri_total {lib : RegLib} {a : RegRec} (h : ∀ l, a.get? c!"request_uris" = some (.parts l) → ∀ p ∈ l, p.length = 2) :
    ∃ resp, combUri lib a = some resp := by
  unfold combUri
  have hreq : (combOne lib (combOne lib a c!"redirect_uris") c!"post_logout_redirect_uris").get? c!"request_uris" =
      a.get? c!"request_uris" := by rw [combOne_other _ _ _ _ (by decide), combOne_other _ _ _ _ (by decide)]
  dsimp only
  rw [hreq]
  cases hv : a.get? c!"request_uris" with
  | none => exact ⟨_, rfl⟩
  | some v =>
    cases v with
    | parts l =>
      dsimp only
      rw [if_pos (List.all_eq_true.2 fun p hp => by simpa using h l hv p hp)]
      exact ⟨_, rfl⟩
    | _ => exact ⟨_, rfl⟩

theorem initialRecord_no_request_uris (cfg : RegCfg) (i : RegIn) (n ss : Bool) (cid : Str) :
    (initialRecord cfg i n ss cid).get? c!"request_uris" = none := by
  unfold initialRecord
  have hne : ∀ x ∈ [c!"registration_access_token", c!"registration_client_uri", c!"client_id_issued_at", c!"client_secret",
    c!"client_secret_expires_at"], c!"request_uris" ≠ x := by decide
  have h0 : Dict.get? ([(c!"client_id", .str cid), (c!"client_salt", .str i.salt)] : RegRec) c!"request_uris" = none := by
    rfl
  cases cfg.readPath <;> dsimp only <;> (repeat' split) <;>
    (repeat rw [Dict.get?_set, if_neg (by decide)]) <;> exact h0

theorem chooseId_has {s : RegState} {i : RegIn} {n : Bool} {req : RegRec} (hd : (req.map (·.1)).Nodup)
    (hnb : ∀ k v, req.get? k = some v → ¬ Blank v) (h : HasId s i n req) :
    ∃ cid req', chooseId s i n (rmBlanks req) = some (.ok (cid, req')) := by
  unfold chooseId
  rcases h with ⟨rfl, c, hc, hf⟩ | ⟨rfl, c, hc, hq⟩
  · simp only [if_true]
    cases hfi : i.ids.find? fun c => !(s.cdb.get? c).isSome with
    | some c' => exact ⟨c', _, rfl⟩
    | none =>
      have := List.find?_eq_none.1 hfi c hc
      simp [hf] at this
  · simp only [Bool.false_eq_true, if_false]
    have : (rmBlanks req).get? c!"client_id" = some (.str c) := by
      unfold rmBlanks
      rw [get?_filter_nodup req hd]
      refine ⟨hq, ?_⟩
      have := hnb _ _ hq
      simpa [Blank] using this
    rw [this]
    cases c with
    | nil => exact absurd rfl hc
    | cons x xs => exact ⟨_, _, rfl⟩

theorem sameSite_stored {lib : RegLib} {req : RegRec} {l : List Str} {u : Str} :
    SameSite lib (l.map (storedRedirect lib req)) u ↔
      ∃ r ∈ l, lib.scheme u = lib.scheme (redirectBase lib req r) ∧ lib.netloc u = lib.netloc (redirectBase lib req r) := by
  have e : ∀ r, (storedRedirect lib req r).1 = redirectBase lib req r := fun r => by
    unfold storedRedirect redirectBase
    split <;> rfl
  unfold SameSite
  constructor
  · rintro ⟨x, hx, h⟩
    obtain ⟨r, hr, rfl⟩ := List.mem_map.1 hx
    exact ⟨r, hr, by rw [← e]; exact h⟩
  · rintro ⟨r, hr, h⟩
    exact ⟨_, List.mem_map.2 ⟨r, hr, rfl⟩, by rw [e]; exact h⟩

/-- **C145**: what becomes of a well-formed registration request.  Something the provider does not support: `invalid_request`, and
nothing is stored.  Otherwise a post-logout redirect URI with a fragment: `invalid_configuration_parameter`.  Otherwise a redirect URI
that is not allowed: `invalid_redirect_uri`.  Otherwise a request URI with a query, a sector document that cannot be read or lacks a
redirect URI, or an informational URI on a foreign site: `invalid_configuration_parameter`.  Otherwise keys that cannot be loaded:
`invalid_configuration_request`.  Otherwise the client is registered. -/
theorem C145_registration_verdict (lib : RegLib) (cfg : RegCfg) (s : RegState) (i : RegIn) (n ss : Bool) (req : RegRec)
    (hw : WellFormedReg cfg.prov lib req) (hid : HasId s i n req) :
    (AsksUnsupported cfg.prov req → registrationProcess lib cfg s i n ss true req = (s, .error c!"invalid_request")) ∧
    (¬ AsksUnsupported cfg.prov req →
      (LogoutFragment lib req →
        (registrationProcess lib cfg s i n ss true req).2 = .error c!"invalid_configuration_parameter") ∧
      (¬ LogoutFragment lib req → ForbiddenRedirect lib req →
        (registrationProcess lib cfg s i n ss true req).2 = .error c!"invalid_redirect_uri") ∧
      (¬ LogoutFragment lib req → ¬ ForbiddenRedirect lib req →
        (RequestUriQuery lib req ∨ WrongSector lib req ∨ ForeignInfoUri lib req) →
        (registrationProcess lib cfg s i n ss true req).2 = .error c!"invalid_configuration_parameter") ∧
      (¬ LogoutFragment lib req → ¬ ForbiddenRedirect lib req → ¬ RequestUriQuery lib req → ¬ WrongSector lib req →
        ¬ ForeignInfoUri lib req →
        (lib.loadKeys (req.get? c!"jwks_uri") (req.get? c!"jwks") = true →
          ∃ resp, (registrationProcess lib cfg s i n ss true req).2 = .ok resp) ∧
        (lib.loadKeys (req.get? c!"jwks_uri") (req.get? c!"jwks") = false →
          (registrationProcess lib cfg s i n ss true req).2 = .error c!"invalid_configuration_request"))) := by
  have hrm : ∀ k, (rmBlanks req).get? k = req.get? k := fun k => option_ext_some fun v => by
    unfold rmBlanks
    rw [get?_filter_nodup req hw.once]
    constructor
    · exact fun h => h.1
    · intro h; refine ⟨h, ?_⟩; have := hw.full k v h; simpa [Blank] using this
  have hasks : AsksUnsupported cfg.prov (rmBlanks req) ↔ AsksUnsupported cfg.prov req := by
    unfold AsksUnsupported
    simp only [hrm]
  obtain ⟨hb1, hb2⟩ := matchClientRequest_bad (prov := cfg.prov) (req := rmBlanks req)
    (fun pref pv v hm hv => hw.prefs pref pv v hm (by rw [← hrm]; exact hv))
  obtain ⟨cid, req', hch⟩ := chooseId_has hw.once hw.full hid
  obtain ⟨hd', hg⟩ := chooseId_get hch hw.once
  have hg' : ∀ k, k ≠ c!"client_id" → req'.get? k = req.get? k := fun k hk =>
    option_ext_some fun v => by rw [hg k v hk]; exact ⟨fun h => h.1, fun h => ⟨h, hw.full k v h⟩⟩
  refine ⟨fun hb => ?_, fun hb => ?_⟩
  · obtain ⟨p, hp⟩ := hb1 (hasks.2 hb)
    unfold registrationProcess registrationSetup
    simp only [Bool.true_eq_false, if_false, hp]
  have hm := hb2 (fun h => hb (hasks.1 h))
  have hproc : ∀ o, doClientRegistration lib cfg.prov req' (initialRecord cfg i n ss cid) ignoredEntries = o →
      (registrationProcess lib cfg s i n ss true req).2 = (match o with
        | .errMsg e => .error e
        | .raise _ => .error c!"invalid_configuration_request"
        | .val cinfo => match combUri lib (cinfo.filter fun kv => lib.responseParam kv.1) with
          | none => .error c!"invalid_configuration_request"
          | some resp => .ok resp) := by
    intro o ho
    unfold registrationProcess registrationSetup
    simp only [Bool.true_eq_false, if_false, hm, hch, ho]
    cases o with
    | errMsg e => rfl
    | raise e => rfl
    | val cinfo =>
      dsimp only
      cases combUri lib (cinfo.filter fun kv => lib.responseParam kv.1) <;> rfl
  obtain ⟨l, hl⟩ := hw.redirects
  have hl' : req'.get? c!"redirect_uris" = some (.strs l) := by rw [hg' _ (by decide), hl]
  have eLog : LogoutFragment lib req' ↔ LogoutFragment lib req := by unfold LogoutFragment; rw [hg' _ (by decide)]
  have hra := fun u => redirectAllowed_congr (lib := lib) (hg' c!"application_type" (by decide)) (hg' c!"response_types" (by decide)) u
  have eRed : ForbiddenRedirect lib req' ↔ ForbiddenRedirect lib req := by
    unfold ForbiddenRedirect
    rw [hg' _ (by decide)]
    simp only [fun u => propext (hra u).1]
  have eReq : RequestUriQuery lib req' ↔ RequestUriQuery lib req := by unfold RequestUriQuery; rw [hg' _ (by decide)]
  have eSec : WrongSector lib req' ↔ WrongSector lib req := by
    unfold WrongSector; rw [hg' _ (by decide), hg' _ (by decide)]
  obtain ⟨a1, a2⟩ := regPostLogout_cases (lib := lib) (req := req') (copyEntries ignoredEntries (initialRecord cfg i n ss cid) req')
    (fun v hv => hw.lists c!"post_logout_redirect_uris" (by decide) v (by rw [← hg' _ (by decide)]; exact hv))
  unfold doClientRegistration at hproc
  refine ⟨fun hlog => ?_, fun hlog hred => ?_, fun hlog hred hbad => ?_, fun hlog hred hreq hsec hinf => ?_⟩
  · rw [a1 (eLog.2 hlog)] at hproc
    exact hproc _ rfl
  · obtain ⟨c1, e1⟩ := a2 (fun h => hlog (eLog.1 h))
    rw [e1] at hproc
    simp only [Out.andThen] at hproc
    rw [(regRedirect_cases c1 hl').1 (eRed.2 hred)] at hproc
    exact hproc _ rfl
  all_goals
    obtain ⟨c1, e1⟩ := a2 (fun h => hlog (eLog.1 h))
    obtain ⟨c2, e2, g2⟩ := (regRedirect_cases (lib := lib) c1 hl').2 (fun h => hred (eRed.1 h))
    obtain ⟨b1, b2⟩ := regRequestUris_cases (lib := lib) (req := req') c2
      (fun v hv => hw.lists c!"request_uris" (by decide) v (by rw [← hg' _ (by decide)]; exact hv))
    rw [e1] at hproc
    simp only [Out.andThen] at hproc
    rw [e2] at hproc
    simp only [Out.andThen] at hproc
    have hsr : ∀ u, SameSite lib (l.map (storedRedirect lib req')) u ↔ ∃ r ∈ l, lib.scheme u = lib.scheme (redirectBase lib req r) ∧
        lib.netloc u = lib.netloc (redirectBase lib req r) := fun u => by
      rw [List.map_congr_left fun u _ => (hra u).2]
      exact sameSite_stored
    have hits : ∀ k ∈ [c!"policy_uri", c!"logo_uri", c!"tos_uri"], ∀ v, req'.get? k = some v → ∃ s, v = .str s := by
      intro k hk v hv
      have hne : k ≠ c!"client_id" := by rintro rfl; exact absurd hk (by decide)
      refine hw.strings k ?_ v (by rw [← hg' _ hne]; exact hv)
      simp only [List.mem_cons, List.not_mem_nil, or_false] at hk ⊢
      rcases hk with rfl | rfl | rfl <;> simp
    have hne3 : ∀ k ∈ [c!"policy_uri", c!"logo_uri", c!"tos_uri"], k ≠ c!"client_id" := by decide
  · by_cases hq : RequestUriQuery lib req
    · rw [b1 (eReq.2 hq)] at hproc
      exact hproc _ rfl
    obtain ⟨c3, e3⟩ := b2 (fun h => hq (eReq.1 h))
    obtain ⟨d1, d2⟩ := regSector_cases (lib := lib) (req := req') c3
      (fun v hv => hw.strings c!"sector_identifier_uri" (by decide) v (by rw [← hg' _ (by decide)]; exact hv))
    rw [e3] at hproc
    simp only [Out.andThen] at hproc
    by_cases hs : WrongSector lib req
    · rw [d1 (eSec.2 hs)] at hproc
      exact hproc _ rfl
    obtain ⟨c4, e4⟩ := d2 (fun h => hs (eSec.1 h))
    rw [e4] at hproc
    simp only [Out.andThen] at hproc
    have hi : ForeignInfoUri lib req := by
      rcases hbad with h | h | h
      · exact absurd h hq
      · exact absurd h hs
      · exact h
    obtain ⟨it, u, l2, hit, hu, hl2, hno⟩ := hi
    rw [hl] at hl2
    cases hl2
    have g4 : c4.get? c!"redirect_uris" = some (.uris (l.map (storedRedirect lib req'))) := by
      rw [regSector_get e4 _ (by decide) (by decide), regRequestUris_get e3 _ (by decide), g2]
    rw [(regInfoUris_cases (lib := lib) _ (by decide) hits c4 g4).1 ⟨it, hit, u, by rw [hg' _ (hne3 it hit)]; exact hu, fun h => by
      obtain ⟨r, hr, h⟩ := (hsr u).1 h
      exact hno r hr h⟩] at hproc
    exact hproc _ rfl
  · obtain ⟨c3, e3⟩ := b2 (fun h => hreq (eReq.1 h))
    obtain ⟨d1, d2⟩ := regSector_cases (lib := lib) (req := req') c3
      (fun v hv => hw.strings c!"sector_identifier_uri" (by decide) v (by rw [← hg' _ (by decide)]; exact hv))
    rw [e3] at hproc
    simp only [Out.andThen] at hproc
    obtain ⟨c4, e4⟩ := d2 (fun h => hsec (eSec.1 h))
    rw [e4] at hproc
    simp only [Out.andThen] at hproc
    have g4 : c4.get? c!"redirect_uris" = some (.uris (l.map (storedRedirect lib req'))) := by
      rw [regSector_get e4 _ (by decide) (by decide), regRequestUris_get e3 _ (by decide), g2]
    obtain ⟨c5, e5⟩ := (regInfoUris_cases (lib := lib) _ (by decide) hits c4 g4).2 (fun it hit u hu =>
      Classical.byContradiction fun hno => hinf ⟨it, u, l, hit, by rw [← hg' _ (hne3 it hit)]; exact hu, hl, fun r hr h =>
        hno ((hsr u).2 ⟨r, hr, h⟩)⟩)
    rw [e5] at hproc
    simp only [Out.andThen] at hproc
    obtain ⟨c6, e6⟩ := regAlgs_total (lib := lib) (prov := cfg.prov) (req := req')
      [(c!"id_token_signed_response_alg", c!"id_token_signing_alg_values_supported"),
       (c!"userinfo_signed_response_alg", c!"userinfo_signing_alg_values_supported")] (by
        intro it pv v hm hv
        have hne : it ≠ c!"client_id" := by rintro rfl; simp at hm
        rw [hg' _ hne] at hv
        refine ⟨hw.strings it ?_ v hv, (hw.prefs it pv v ?_ hv).2⟩ <;>
          (simp only [List.mem_cons, List.not_mem_nil, or_false, Prod.mk.injEq] at hm
           rcases hm with ⟨rfl, rfl⟩ | ⟨rfl, rfl⟩ <;> simp [registrationPreferences])) c5
    rw [e6] at hproc
    simp only [Out.andThen] at hproc
    rw [hg' _ (by decide), hg' _ (by decide)] at hproc
    refine ⟨fun hk => ?_, fun hk => ?_⟩
    · rw [if_pos hk] at hproc
      have hr6 : c6.get? c!"request_uris" = c3.get? c!"request_uris" := by
        rw [regAlgs_get _ e6 _ (by decide), regInfoUris_get _ e5 _ (by decide), regSector_get e4 _ (by decide) (by decide)]
      have hlen : ∀ p, Dict.get? (c6.filter fun kv => lib.responseParam kv.1) c!"request_uris" = some (.parts p) →
          ∀ x ∈ p, x.length = 2 := by
        intro p hp x hx
        rw [get?_filter_key c6 lib.responseParam] at hp
        split at hp
        · rw [hr6] at hp
          cases hru : req'.get? c!"request_uris" with
          | none =>
            exfalso
            unfold regRequestUris at e3
            simp only [hru] at e3
            cases e3
            rw [regRedirect_get e2 _ (by decide), regPostLogout_get e1 _ (by decide)] at hp
            unfold copyEntries at hp
            rw [Dict.get?_update _ _ _ (nodup_filter_keys hd' _), get?_filter_key req' (fun x => !ignoredEntries.contains x)] at hp
            rw [if_pos (by decide), hru, initialRecord_no_request_uris] at hp
            cases hp
          | some v =>
            have hv : req.get? c!"request_uris" = some v := by rw [← hg' _ (by decide)]; exact hru
            obtain ⟨lr, rfl⟩ := hw.lists c!"request_uris" (by decide) v hv
            obtain ⟨_, b⟩ := regRequestUris_val e3 hru
            rw [b] at hp
            cases hp
            obtain ⟨u, hu, rfl⟩ := List.mem_map.1 hx
            unfold uriParts
            split
            · rfl
            · rename_i hf
              exact hw.hashes lr u hv hu hf
        · cases hp
      have hresp : ∃ resp, combUri lib (c6.filter fun kv => lib.responseParam kv.1) = some resp := combUri_total hlen
      obtain ⟨resp, hresp⟩ := hresp
      refine ⟨resp, ?_⟩
      have := hproc _ rfl
      simp only [hresp] at this
      exact this
    · rw [if_neg (by simp [hk])] at hproc
      exact hproc _ rfl

/-- A test for well-formed requests, for the examples. -/
def wellFormedCheck (prov : RegRec) (lib : RegLib) (req : RegRec) : Bool :=
  decide ((req.map (·.1)).Nodup) && req.all (fun kv => !(decide (kv.2 = .str []) || decide (kv.2 = .strs [[]]))) &&
  (match req.get? c!"redirect_uris" with
    | some (.strs _) => true
    | _ => false) &&
  [c!"post_logout_redirect_uris", c!"request_uris"].all (fun k => match req.get? k with
    | none => true
    | some (.strs l) => l.all fun u => decide (lib.uri.fragment u = []) || decide ((pySplit c!"#" u).length = 2)
    | _ => false) &&
  [c!"sector_identifier_uri", c!"policy_uri", c!"logo_uri", c!"tos_uri", c!"id_token_signed_response_alg",
    c!"userinfo_signed_response_alg"].all (fun k => match req.get? k with
    | none => true
    | some (.str _) => true
    | _ => false) &&
  registrationPreferences.all (fun x => match req.get? x.1, prov.get? x.2 with
    | none, _ => true
    | some (.str _), some (.strs _) => true
    | some (.strs _), some (.strs _) => true
    | _, _ => false)

theorem wellFormed_check {prov : RegRec} {lib : RegLib} {req : RegRec} (h : wellFormedCheck prov lib req = true) :
    WellFormedReg prov lib req := by
  simp only [wellFormedCheck, Bool.and_eq_true, List.all_eq_true, decide_eq_true_eq] at h
  obtain ⟨⟨⟨⟨⟨h1, h2⟩, h3⟩, h4⟩, h5⟩, h6⟩ := h
  refine ⟨h1, ?_, ?_, ?_, ?_, ?_, ?_⟩
  · intro k v hv
    have := h2 _ (Dict.get?_mem hv)
    simpa [Blank] using this
  · split at h3
    · rename_i l hl; exact ⟨l, hl⟩
    · cases h3
  · intro k hk v hv
    have := h4 k hk
    rw [hv] at this
    cases v with
    | strs l => exact ⟨l, rfl⟩
    | _ => cases this
  · intro k hk v hv
    have := h5 k hk
    rw [hv] at this
    cases v with
    | str l => exact ⟨l, rfl⟩
    | _ => cases this
  · intro pref pv v hm hv
    have := h6 (pref, pv) hm
    simp only [hv] at this
    cases hp : prov.get? pv with
    | none => rw [hp] at this; cases v <;> cases this
    | some p =>
      rw [hp] at this
      cases v <;> cases p <;> first | exact (Bool.false_ne_true this).elim | exact ⟨.inl ⟨_, rfl⟩, _, rfl⟩ | exact ⟨.inr ⟨_, rfl⟩, _, rfl⟩
  · intro l u hl hu hf
    have := h4 c!"request_uris" (by decide)
    rw [hl] at this
    have := List.all_eq_true.1 this u hu
    simpa [hf] using this

/-- **C145**: so a well-formed request is accepted exactly if nothing is wrong with it. -/
theorem C145_accepted_iff (lib : RegLib) (cfg : RegCfg) (s : RegState) (i : RegIn) (n ss : Bool) (req : RegRec)
    (hw : WellFormedReg cfg.prov lib req) (hid : HasId s i n req) :
    (∃ resp, (registrationProcess lib cfg s i n ss true req).2 = .ok resp) ↔
      (¬ AsksUnsupported cfg.prov req ∧ ¬ LogoutFragment lib req ∧ ¬ ForbiddenRedirect lib req ∧ ¬ RequestUriQuery lib req ∧
       ¬ WrongSector lib req ∧ ¬ ForeignInfoUri lib req ∧ lib.loadKeys (req.get? c!"jwks_uri") (req.get? c!"jwks") = true) := by
  obtain ⟨h0, h1⟩ := C145_registration_verdict lib cfg s i n ss req hw hid
  constructor
  · rintro ⟨resp, hr⟩
    have nope : ∀ e, (registrationProcess lib cfg s i n ss true req).2 ≠ .error e := fun e he => by rw [hr] at he; cases he
    have n0 : ¬ AsksUnsupported cfg.prov req := fun h => nope _ (by rw [h0 h])
    obtain ⟨h2, h3, h4, h5⟩ := h1 n0
    have n1 : ¬ LogoutFragment lib req := fun h => nope _ (h2 h)
    have n2 : ¬ ForbiddenRedirect lib req := fun h => nope _ (h3 n1 h)
    have n3 : ¬ RequestUriQuery lib req := fun h => nope _ (h4 n1 n2 (.inl h))
    have n4 : ¬ WrongSector lib req := fun h => nope _ (h4 n1 n2 (.inr (.inl h)))
    have n5 : ¬ ForeignInfoUri lib req := fun h => nope _ (h4 n1 n2 (.inr (.inr h)))
    refine ⟨n0, n1, n2, n3, n4, n5, ?_⟩
    cases hk : lib.loadKeys (req.get? c!"jwks_uri") (req.get? c!"jwks") with
    | true => rfl
    | false => exact absurd ((h5 n1 n2 n3 n4 n5).2 hk) (nope _)
  · rintro ⟨n0, n1, n2, n3, n4, n5, hk⟩
    exact ((h1 n0).2.2.2 n1 n2 n3 n4 n5).1 hk

/-- A registration of each kind: something unsupported, a post-logout redirect URI with a fragment, a plain-text redirect URI, a request URI
with a query, and nothing wrong. -/
example :
    let ru : Str × RegVal := (c!"redirect_uris", .strs [c!"https://rp/cb"])
    let reqs : List RegRec := [[ru, (c!"subject_type", .str c!"pairwise")],
      [ru, (c!"post_logout_redirect_uris", .strs [c!"https://rp/out#f"])], [(c!"redirect_uris", .strs [c!"http://rp/cb"])],
      [ru, (c!"request_uris", .strs [c!"https://rp/r?k=v"])], [ru, (c!"logo_uri", .str c!"https://other/logo")],
      [ru, (c!"logo_uri", .str c!"https://rp/logo"), (c!"request_uris", .strs [c!"https://rp/r#h"])]]
    (reqs.all fun r => wellFormedCheck demoRegCfg.prov demoRegLib r) = true ∧
    HasId demoRegState regIn true [ru] ∧
    reqs.map (fun r => match (registrationProcess demoRegLib demoRegCfg demoRegState regIn true true true r).2 with
      | .ok _ => c!"ok"
      | .error e => e) =
      [c!"invalid_request", c!"invalid_configuration_parameter", c!"invalid_redirect_uri", c!"invalid_configuration_parameter",
       c!"invalid_configuration_parameter", c!"ok"] :=
  ⟨by decide, .inl ⟨rfl, c!"c9", by decide, by decide⟩, by decide⟩

/-- **C145**: a request that does not pass the type checks of the message, or for which there is no client id, is answered with
`invalid_configuration_request`, and nothing is stored. -/
theorem C145_not_verified (lib : RegLib) (cfg : RegCfg) (s : RegState) (i : RegIn) (n ss : Bool) (req : RegRec) :
    registrationProcess lib cfg s i n ss false req = (s, .error c!"invalid_configuration_request") := rfl

/-- **C145**: a registration that is refused because of its URIs leaves a client behind that has the id, and the secret, but no redirect
URI: the refusal is not an undo. -/
theorem C145_refused_leaves_stub (lib : RegLib) (cfg : RegCfg) (s : RegState) (i : RegIn) (n ss : Bool) (req : RegRec) (e : Str)
    (hw : WellFormedReg cfg.prov lib req) (hid : HasId s i n req) (hs : ¬ AsksUnsupported cfg.prov req)
    (h : (registrationProcess lib cfg s i n ss true req).2 = .error e) :
    ∃ cid r, (registrationProcess lib cfg s i n ss true req).1.cdb = s.cdb.set cid r ∧ r.get? c!"client_id" = some (.str cid) ∧
      r.get? c!"redirect_uris" = none := by
  have hrm : ∀ k, (rmBlanks req).get? k = req.get? k := fun k => option_ext_some fun v => by
    unfold rmBlanks
    rw [get?_filter_nodup req hw.once]
    constructor
    · exact fun h => h.1
    · intro h; refine ⟨h, ?_⟩; have := hw.full k v h; simpa [Blank] using this
  have hm : matchClientRequest cfg.prov (rmBlanks req) preference2provider = .ok none :=
    (matchClientRequest_bad (prov := cfg.prov) (req := rmBlanks req)
      (fun pref pv v hm hv => hw.prefs pref pv v hm (by rw [← hrm]; exact hv))).2 (by
        unfold AsksUnsupported at hs ⊢
        simp only [hrm]
        exact hs)
  obtain ⟨cid, req', hch⟩ := chooseId_has hw.once hw.full hid
  refine ⟨cid, initialRecord cfg i n ss cid, ?_, initialRecord_id cfg i n ss cid, initialRecord_redirects cfg i n ss cid⟩
  revert h
  unfold registrationProcess registrationSetup
  simp only [Bool.true_eq_false, if_false, hm, hch]
  cases doClientRegistration lib cfg.prov req' (initialRecord cfg i n ss cid) ignoredEntries with
  | errMsg e => intro _; rfl
  | raise e => intro _; rfl
  | val cinfo =>
    dsimp only
    cases combUri lib (cinfo.filter fun kv => lib.responseParam kv.1) with
    | none => intro _; rfl
    | some r => intro h; cases h

theorem split_head (u : Str) : (pySplit c!"#" u).head? = some (u.takeWhile (· ≠ '#')) := by
  obtain ⟨hj, hno⟩ := split_one_spec '#' u
  match hp : pySplit c!"#" u with
  | [] => exact absurd hp (pySplit_ne_nil _ _)
  | [b] =>
    rw [hp] at hj hno
    simp only [pyJoin] at hj
    rw [← hj, List.head?_cons]
    congr 1
    have hb : ∀ x ∈ b, decide (x ≠ '#') = true := fun x hx => by
      have : x ≠ '#' := by rintro rfl; exact hno b (by simp) hx
      simpa using this
    have := List.takeWhile_append_of_pos (l₂ := []) hb
    simpa using this.symm
  | b :: c :: r =>
    rw [hp] at hj hno
    simp only [pyJoin, List.append_assoc, List.cons_append, List.nil_append] at hj
    rw [← hj, List.head?_cons]
    congr 1
    have hb : ∀ x ∈ b, decide (x ≠ '#') = true := fun x hx => by
      have : x ≠ '#' := by rintro rfl; exact hno b (by simp) hx
      simpa using this
    rw [List.takeWhile_append_of_pos hb, List.takeWhile_cons_of_neg (by decide), List.append_nil]

/-- **C145**: what the other endpoints read about the client: its request URIs without their fragments, its sector identifier, its
subject type and its logout URIs, as sent. -/
theorem C145_client_as_sent (lib : RegLib) (cfg : RegCfg) (s s' : RegState) (i : RegIn) (n ss : Bool) (req resp : RegRec)
    (hw : WellFormedReg cfg.prov lib req) (h : registrationProcess lib cfg s i n ss true req = (s', .ok resp)) :
    ∃ cid cl, RegState.cdbFun s' cid = some cl ∧ (n = false → req.get? c!"client_id" = some (.str cid)) ∧
      (∀ l, req.get? c!"request_uris" = some (.strs l) → cl.requestUris = l.map (beforeFragment lib)) ∧
      (∀ x, req.get? c!"sector_identifier_uri" = some (.str x) → cl.sectorIdentifierUri = some x) ∧
      (∀ x, req.get? c!"subject_type" = some (.str x) → cl.subjectType = some x) ∧
      (∀ x, req.get? c!"backchannel_logout_uri" = some (.str x) → cl.backchannelLogoutUri = some x) ∧
      (∀ x, req.get? c!"frontchannel_logout_uri" = some (.str x) → cl.frontchannelLogoutUri = some x) ∧
      (∀ l, req.get? c!"response_types" = some (.strs l) → cl.responseTypes = l) := by
  obtain ⟨cid, req', cinfo, hm, hch, hdo, hcomb, hcdb, hrat, hkeys⟩ := registration_ok h
  obtain ⟨hd', hg⟩ := chooseId_get hch hw.once
  have hg' : ∀ k, k ≠ c!"client_id" → req'.get? k = req.get? k := fun k hk =>
    option_ext_some fun v => by rw [hg k v hk]; exact ⟨fun h => h.1, fun h => ⟨h, hw.full k v h⟩⟩
  obtain ⟨c1, c2, c3, c4, c5, h1, h2, h3, h4, h5, h6⟩ := doClientRegistration_val hdo
  have plain : ∀ k, k ∉ specialEntries → k ≠ c!"client_id" → ∀ v, req.get? k = some v → cinfo.get? k = some v := by
    intro k hk hne v hv
    rw [doClientRegistration_get hd' hdo k hk, hg' k hne, hv]
  refine ⟨cid, RegRec.client cinfo, by simp [RegState.cdbFun, hcdb, Dict.get?_set], ?_, ?_, ?_, ?_, ?_, ?_, ?_⟩
  · rintro rfl
    unfold chooseId at hch
    simp only [Bool.false_eq_true, if_false] at hch
    split at hch
    · rename_i x xs hc
      cases hch
      unfold rmBlanks at hc
      exact ((get?_filter_nodup req hw.once _ _ _).1 hc).1
    · cases hch
  · intro l hl
    obtain ⟨_, b⟩ := regRequestUris_val h3 (by rw [hg' _ (by decide), hl])
    have hc : cinfo.get? c!"request_uris" = some (.parts (l.map (uriParts lib))) := by
      rw [regAlgs_get _ h6 _ (by decide), regInfoUris_get _ h5 _ (by decide), regSector_get h4 _ (by decide) (by decide), b]
    simp only [RegRec.client, hc]
    rw [List.filterMap_map]
    have : ∀ u, (List.head? ∘ uriParts lib) u = some (beforeFragment lib u) := fun u => by
      simp only [Function.comp, uriParts, beforeFragment]
      split
      · rfl
      · exact split_head u
    rw [show (List.head? ∘ uriParts lib) = (fun u => some (beforeFragment lib u)) from funext this]
    induction l with
    | nil => rfl
    | cons a r ih => simp
  · intro x hx
    have hc := plain _ (by decide) (by decide) _ hx
    simp only [RegRec.client, hc]
  · intro x hx
    have hc := plain _ (by decide) (by decide) _ hx
    simp only [RegRec.client, hc]
  · intro x hx
    have hc := plain _ (by decide) (by decide) _ hx
    simp only [RegRec.client, hc]
  · intro x hx
    have hc := plain _ (by decide) (by decide) _ hx
    simp only [RegRec.client, hc]
  · intro x hx
    have hc := plain _ (by decide) (by decide) _ hx
    simp only [RegRec.client, hc]

/-- **C145**: where there is a read endpoint, the client is told where to read its record: at the endpoint, with its own id as
parameter, and with which token. -/
theorem C145_told_where_to_read (lib : RegLib) (cfg : RegCfg) (s s' : RegState) (i : RegIn) (n ss : Bool) (req resp : RegRec) (p : Str)
    (hw : WellFormedReg cfg.prov lib req) (hp : cfg.readPath = some p)
    (hpar : ∀ k ∈ [c!"client_id", c!"registration_client_uri", c!"registration_access_token"], lib.responseParam k = true)
    (hno : req.get? c!"registration_client_uri" = none ∧ req.get? c!"registration_access_token" = none)
    (hnew : n = true)
    (h : registrationProcess lib cfg s i n ss true req = (s', .ok resp)) :
    ∃ cid, resp.get? c!"client_id" = some (.str cid) ∧
      resp.get? c!"registration_client_uri" = some (.str (p ++ c!"?client_id=" ++ cid)) ∧
      resp.get? c!"registration_access_token" = some (.str i.rat) ∧ s'.rat.get? i.rat = some cid := by
  subst hnew
  obtain ⟨cid, req', cinfo, hm, hch, hdo, hcomb, hcdb, hrat, hkeys⟩ := registration_ok h
  obtain ⟨hd', hg⟩ := chooseId_get hch hw.once
  have hg' : ∀ k, k ≠ c!"client_id" → req'.get? k = req.get? k := fun k hk =>
    option_ext_some fun v => by rw [hg k v hk]; exact ⟨fun h => h.1, fun h => ⟨h, hw.full k v h⟩⟩
  have other : ∀ k, k ≠ c!"redirect_uris" → k ≠ c!"post_logout_redirect_uris" → k ≠ c!"request_uris" →
      lib.responseParam k = true → resp.get? k = cinfo.get? k := by
    intro k k1 k2 k3 kp
    have hreq : (combOne lib (combOne lib (cinfo.filter fun kv => lib.responseParam kv.1) c!"redirect_uris")
        c!"post_logout_redirect_uris").get? k = cinfo.get? k := by
      rw [combOne_other _ _ _ _ k2, combOne_other _ _ _ _ k1]
      exact filter_param _ _ kp
    unfold combUri at hcomb
    dsimp only at hcomb
    split at hcomb
    · split at hcomb
      · cases hcomb
        rw [Dict.get?_set, if_neg k3, hreq]
      · cases hcomb
    · cases hcomb
      exact hreq
  have hid : req'.get? c!"client_id" = none := by
    obtain ⟨_, _, e⟩ := chooseId_new hch
    subst e
    rw [get?_filter_key (rmBlanks req) (fun k => decide (k ≠ c!"client_id"))]
    rfl
  have hinit : (initialRecord cfg i true ss cid).get? c!"registration_client_uri" = some (.str (p ++ c!"?client_id=" ++ cid)) ∧
      (initialRecord cfg i true ss cid).get? c!"registration_access_token" = some (.str i.rat) := by
    unfold initialRecord
    simp only [hp, if_true]
    cases ss <;> simp only [Bool.false_eq_true, if_true, if_false] <;> (try split) <;>
      constructor <;> (repeat rw [Dict.get?_set]) <;> rfl
  refine ⟨cid, ?_, ?_, ?_, ?_⟩
  · rw [other _ (by decide) (by decide) (by decide) (hpar _ (by decide)), doClientRegistration_get hd' hdo _ (by decide), hid]
    exact initialRecord_id cfg i true ss cid
  · rw [other _ (by decide) (by decide) (by decide) (hpar _ (by decide)), doClientRegistration_get hd' hdo _ (by decide),
      hg' _ (by decide), hno.1]
    exact hinit.1
  · rw [other _ (by decide) (by decide) (by decide) (hpar _ (by decide)), doClientRegistration_get hd' hdo _ (by decide),
      hg' _ (by decide), hno.2]
    exact hinit.2
  · rw [hrat, hp]
    simp [Dict.get?_set]

/-- ... unless the request itself has these entries: then the client is told what it sent, and the address may be any. -/
theorem C145_told_what_it_sent :
    ∃ (cfg : RegCfg) (req resp : RegRec) (s' : RegState), WellFormedReg cfg.prov demoRegLib req ∧
      registrationProcess demoRegLib cfg demoRegState regIn true true true req = (s', .ok resp) ∧
      cfg.readPath = some c!"https://op/read" ∧
      resp.get? c!"registration_client_uri" = some (.str c!"https://elsewhere/") := by
  let req : RegRec := [(c!"redirect_uris", .strs [c!"https://rp/cb"]), (c!"registration_client_uri", .str c!"https://elsewhere/")]
  have hok : (registrationProcess demoRegLib demoRegCfg demoRegState regIn true true true req).2.toOption.bind
    (fun r => r.get? c!"registration_client_uri") = some (.str c!"https://elsewhere/") := by decide
  cases h : registrationProcess demoRegLib demoRegCfg demoRegState regIn true true true req with
  | mk s' o =>
    rw [h] at hok
    cases o with
    | error e => cases hok
    | ok r =>
      exact ⟨demoRegCfg, req, r, s', wellFormed_check (by decide), h, rfl, hok⟩

end Verif
