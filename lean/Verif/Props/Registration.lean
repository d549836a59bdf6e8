import Verif.Model.Registration
import Verif.Spec.Registration
import Verif.Lemmas.Dict
import Verif.Lemmas.Str
import Verif.Props.ClientAuthn
set_option linter.unusedSimpArgs false
set_option linter.unusedVariables false
/-! Client registration: C42, C43, C45, C69. -/
namespace Verif
open Spec

theorem get?_filter_key {α : Type} (d : Dict α) (p : Str → Bool) (k : Str) :
    Dict.get? (d.filter fun kv => p kv.1) k = if p k then d.get? k else none := by
  induction d with
  | nil => simp [Dict.get?]
  | cons kv r ih =>
    obtain ⟨k', v⟩ := kv
    by_cases hp : p k' = true
    · simp only [List.filter_cons, hp, if_true, Dict.get?_cons, ih]
      by_cases hk : k' = k
      · subst hk; simp [hp]
      · simp [hk]
    · simp only [List.filter_cons, hp, Dict.get?_cons, ih]
      by_cases hk : k' = k
      · subst hk; simp [hp, ih]
      · simp [hk, ih]

theorem get?_filter_nodup {α : Type} (d : Dict α) (hd : (d.map (·.1)).Nodup) (p : Str × α → Bool) (k : Str) (v : α) :
    Dict.get? (d.filter p) k = some v ↔ d.get? k = some v ∧ p (k, v) = true := by
  have hf : ((d.filter p).map (·.1)).Nodup := hd.sublist (List.filter_sublist.map _)
  constructor
  · intro h
    have := Dict.get?_mem h
    rw [List.mem_filter] at this
    exact ⟨Dict.mem_get? hd this.1, this.2⟩
  · rintro ⟨h1, h2⟩
    exact Dict.mem_get? hf (List.mem_filter.2 ⟨Dict.get?_mem h1, h2⟩)

theorem nodup_filter_keys {α : Type} {d : Dict α} (hd : (d.map (·.1)).Nodup) (p : Str × α → Bool) :
    ((d.filter p).map (·.1)).Nodup := hd.sublist (List.filter_sublist.map _)

theorem andThen_val {α β : Type} {o : Out α} {f : α → Out β} {b : β} (h : o.andThen f = .val b) :
    ∃ a, o = .val a ∧ f a = .val b := by
  cases o with
  | val a => exact ⟨a, rfl, h⟩
  | errMsg e => cases h
  | raise e => cases h

/-! ### Redirect URIs -/

/-- The form in which a redirect URI is stored. -/
def storedRedirect (lib : RegLib) (req : RegRec) (uri : Str) : RegUri :=
  if appType req = .str c!"native" ∧ lib.scheme uri ≠ c!"http" ∧ lib.scheme uri ≠ c!"https" then (uri, []) else lib.uri.splitUri uri

theorem verifyRedirectUris_iff (lib : RegLib) (req : RegRec) (l : List Str) (us : List RegUri) :
    verifyRedirectUris lib req l = .ok us ↔ (∀ u ∈ l, RedirectAllowed lib req u) ∧ us = l.map (storedRedirect lib req) := by
  unfold verifyRedirectUris
  have key : ∀ u r, verifyRedirectUri lib (decide (appType req = .str c!"native"))
      (decide (appType req = .str c!"web") && !(decide (req.get? c!"response_types" = some (.strs [c!"code"])))) u = .ok r ↔
      RedirectAllowed lib req u ∧ r = storedRedirect lib req u := by
    intro u r
    unfold verifyRedirectUri RedirectAllowed storedRedirect CodeIsOnlyType
    have hne : c!"http" ≠ c!"https" := by decide
    have hnw : RegVal.str c!"native" ≠ RegVal.str c!"web" := by decide
    generalize lib.scheme u = s
    generalize c!"http" = H at *
    generalize c!"https" = HS at *
    generalize RegVal.str c!"native" = N at *
    generalize RegVal.str c!"web" = W at *
    generalize appType req = A
    generalize lib.hostname u = D
    generalize c!"localhost" = L1
    generalize c!"127.0.0.1" = L2
    generalize req.get? c!"response_types" = R
    generalize some (RegVal.strs [c!"code"]) = C
    generalize lib.uri.fragment u = F
    generalize lib.uri.splitUri u = S
    by_cases hn : A = N
    · have hw : A ≠ W := by rw [hn]; exact hnw
      by_cases h1 : s = H
      · have h2 : s ≠ HS := by rw [h1]; exact hne
        by_cases h3 : (D = L1 ∨ D = L2) <;> simp [hn, hw, h1, h2, h3, hne, eq_comm]
      · by_cases h2 : s = HS <;> simp [hn, hw, h1, h2, hne.symm, eq_comm]
    · by_cases hw : A = W
      · by_cases hc : R = C
        · by_cases h1 : s = H
          · by_cases h3 : F = [] <;> simp [hn, hw, hnw.symm, h1, h3, hne, hc, eq_comm]
          · by_cases h2 : s = HS
            · by_cases h3 : F = [] <;> simp [hn, hw, hnw.symm, h1, h2, h3, hne.symm, hc, eq_comm]
            · simp [hn, hw, hnw.symm, h1, h2, hc]
        · by_cases h2 : s = HS
          · by_cases h3 : F = [] <;> simp [hn, hw, hnw.symm, h2, h3, hne.symm, hc, eq_comm]
          · simp [hn, hw, hnw.symm, h2, hc]
      · by_cases h1 : s = H
        · by_cases h3 : F = [] <;> simp [hn, hw, h1, h3, hne, eq_comm]
        · by_cases h2 : s = HS
          · by_cases h3 : F = [] <;> simp [hn, hw, h2, h3, hne.symm, eq_comm]
          · simp [hn, hw, h1, h2]
  have hgo : ∀ (l : List Str) (us : List RegUri), verifyRedirectUris.go lib (decide (appType req = .str c!"native"))
      (decide (appType req = .str c!"web") && !(decide (req.get? c!"response_types" = some (.strs [c!"code"])))) l = .ok us ↔
      (∀ u ∈ l, RedirectAllowed lib req u) ∧ us = l.map (storedRedirect lib req) := by
    intro l
    induction l with
    | nil => intro us; simp [verifyRedirectUris.go, eq_comm]
    | cons u l ih =>
      intro us
      simp only [verifyRedirectUris.go]
      cases hu : verifyRedirectUri lib (decide (appType req = .str c!"native"))
        (decide (appType req = .str c!"web") && !(decide (req.get? c!"response_types" = some (.strs [c!"code"])))) u with
      | error e =>
        simp only [reduceCtorEq, false_iff]
        rintro ⟨h, -⟩
        have := (key u (storedRedirect lib req u)).2 ⟨h u (by simp), rfl⟩
        rw [hu] at this
        cases this
      | ok r =>
        obtain ⟨k1, rfl⟩ := (key u r).1 hu
        simp only
        cases hg : verifyRedirectUris.go lib (decide (appType req = .str c!"native"))
          (decide (appType req = .str c!"web") && !(decide (req.get? c!"response_types" = some (.strs [c!"code"])))) l with
        | error e =>
          simp only [reduceCtorEq, false_iff]
          rintro ⟨h, -⟩
          have := (ih (l.map (storedRedirect lib req))).2 ⟨fun v hv => h v (List.mem_cons_of_mem _ hv), rfl⟩
          rw [hg] at this
          cases this
        | ok rs =>
          obtain ⟨k2, rfl⟩ := (ih rs).1 hg
          simp only [Except.ok.injEq, List.map_cons, List.mem_cons, forall_eq_or_imp]
          constructor
          · rintro rfl; exact ⟨⟨k1, k2⟩, rfl⟩
          · rintro ⟨-, rfl⟩; rfl
  exact hgo l us

/-! ### What the steps change -/

theorem regPostLogout_get {lib : RegLib} {req c c' : RegRec} (h : regPostLogout lib req c = .val c') (k : Str)
    (hk : k ≠ c!"post_logout_redirect_uris") : c'.get? k = c.get? k := by
  unfold regPostLogout at h
  split at h
  · cases h; rfl
  · split at h
    · cases h
    · cases h; rw [Dict.get?_set, if_neg hk]
  · cases h

theorem regRedirect_get {lib : RegLib} {req c c' : RegRec} (h : regRedirect lib req c = .val c') (k : Str)
    (hk : k ≠ c!"redirect_uris") : c'.get? k = c.get? k := by
  unfold regRedirect at h
  split at h
  · cases h; rfl
  · split at h
    · cases h
    · cases h; rw [Dict.get?_set, if_neg hk]
  · cases h

theorem regRequestUris_get {lib : RegLib} {req c c' : RegRec} (h : regRequestUris lib req c = .val c') (k : Str)
    (hk : k ≠ c!"request_uris") : c'.get? k = c.get? k := by
  unfold regRequestUris at h
  split at h
  · cases h; rfl
  · split at h
    · cases h
    · cases h; rw [Dict.get?_set, if_neg hk]
  · cases h

theorem regSector_get {lib : RegLib} {req c c' : RegRec} (h : regSector lib req c = .val c') (k : Str)
    (hk : k ≠ c!"si_redirects") (hk2 : k ≠ c!"sector_id") : c'.get? k = c.get? k := by
  unfold regSector at h
  split at h
  · cases h; rfl
  · split at h
    · cases h
    · split at h
      · split at h
        · cases h; rw [Dict.get?_set, if_neg hk2, Dict.get?_set, if_neg hk]
        · cases h
      · cases h; rw [Dict.get?_set, if_neg hk2, Dict.get?_set, if_neg hk]
  · cases h

theorem regInfoUris_get {lib : RegLib} {req : RegRec} (items : List Str) {c c' : RegRec} (h : regInfoUris lib req items c = .val c') (k : Str)
    (hk : k ∉ items) : c'.get? k = c.get? k := by
  induction items generalizing c with
  | nil => simp only [regInfoUris] at h; cases h; rfl
  | cons it rest ih =>
    simp only [List.mem_cons, not_or] at hk
    simp only [regInfoUris] at h
    split at h
    · exact ih h hk.2
    · split at h
      · split at h
        · rw [ih h hk.2, Dict.get?_set, if_neg hk.1]
        · cases h
      · cases h
    · cases h

theorem regAlgs_get {lib : RegLib} {prov req : RegRec} (items : List (Str × Str)) {c c' : RegRec} (h : regAlgs lib prov req items c = .val c')
    (k : Str) (hk : k ∉ items.map (·.1)) : c'.get? k = c.get? k := by
  induction items generalizing c with
  | nil => simp only [regAlgs] at h; cases h; rfl
  | cons it rest ih =>
    obtain ⟨it, pv⟩ := it
    simp only [List.map_cons, List.mem_cons, not_or] at hk
    simp only [regAlgs] at h
    split at h
    · exact ih h hk.2
    · split at h
      · cases h
      · split at h
        · cases h
        · exact ih h hk.2
        · split at h
          · exact ih h hk.2
          · rw [ih h hk.2, get?_filter_key c (fun x => decide (x ≠ it))]
            simp [hk.1]
    · cases h

/-- Taking `do_client_registration` apart. -/
theorem doClientRegistration_val {lib : RegLib} {prov req c0 c' : RegRec} {ig : List Str}
    (h : doClientRegistration lib prov req c0 ig = .val c') :
    ∃ c1 c2 c3 c4 c5, regPostLogout lib req (copyEntries ig c0 req) = .val c1 ∧ regRedirect lib req c1 = .val c2 ∧
      regRequestUris lib req c2 = .val c3 ∧ regSector lib req c3 = .val c4 ∧
      regInfoUris lib req [c!"policy_uri", c!"logo_uri", c!"tos_uri"] c4 = .val c5 ∧
      regAlgs lib prov req [(c!"id_token_signed_response_alg", c!"id_token_signing_alg_values_supported"),
        (c!"userinfo_signed_response_alg", c!"userinfo_signing_alg_values_supported")] c5 = .val c' := by
  unfold doClientRegistration at h
  obtain ⟨c1, h1, h⟩ := andThen_val h
  obtain ⟨c2, h2, h⟩ := andThen_val h
  obtain ⟨c3, h3, h⟩ := andThen_val h
  obtain ⟨c4, h4, h⟩ := andThen_val h
  obtain ⟨c5, h5, h⟩ := andThen_val h
  obtain ⟨c6, h6, h⟩ := andThen_val h
  split at h
  · cases h
    exact ⟨c1, c2, c3, c4, c5, h1, h2, h3, h4, h5, h6⟩
  · cases h

/-- The entries with a treatment of their own. -/
def specialEntries : List Str :=
  [c!"redirect_uris", c!"policy_uri", c!"logo_uri", c!"tos_uri", c!"post_logout_redirect_uris", c!"request_uris", c!"si_redirects",
   c!"sector_id", c!"id_token_signed_response_alg", c!"userinfo_signed_response_alg"]

/-- All other entries are copied from the request. -/
theorem doClientRegistration_get {lib : RegLib} {prov req c0 c' : RegRec} (hd : (req.map (·.1)).Nodup)
    (h : doClientRegistration lib prov req c0 ignoredEntries = .val c') (k : Str) (hk : k ∉ specialEntries) :
    c'.get? k = match req.get? k with
      | some v => some v
      | none => c0.get? k := by
  obtain ⟨c1, c2, c3, c4, c5, h1, h2, h3, h4, h5, h6⟩ := doClientRegistration_val h
  simp only [specialEntries, List.mem_cons, List.not_mem_nil, not_or, or_false, not_false_eq_true, and_true] at hk
  obtain ⟨k1, k2, k3, k4, k5, k6, k7, k8, k9, k10⟩ := hk
  rw [regAlgs_get _ h6 k (by simp [k9, k10]), regInfoUris_get _ h5 k (by simp [k2, k3, k4]), regSector_get h4 k k7 k8,
    regRequestUris_get h3 k k6, regRedirect_get h2 k k1, regPostLogout_get h1 k k5]
  unfold copyEntries
  rw [Dict.get?_update _ _ _ (nodup_filter_keys hd _), get?_filter_key req (fun x => !ignoredEntries.contains x) k]
  have : (!ignoredEntries.contains k) = true := by simp [ignoredEntries, k1, k2, k3, k4]
  rw [if_pos this]
  cases req.get? k <;> rfl

/-! ### The whole registration -/

/-- A successful registration, taken apart. -/
theorem registration_ok {lib : RegLib} {cfg : RegCfg} {s s' : RegState} {i : RegIn} {n ss v : Bool} {req resp : RegRec}
    (h : registrationProcess lib cfg s i n ss v req = (s', .ok resp)) :
    ∃ cid req' cinfo, matchClientRequest cfg.prov (rmBlanks req) preference2provider = .ok none ∧
      chooseId s i n (rmBlanks req) = some (.ok (cid, req')) ∧
      doClientRegistration lib cfg.prov req' (initialRecord cfg i n ss cid) ignoredEntries = .val cinfo ∧
      combUri lib (cinfo.filter fun kv => lib.responseParam kv.1) = some resp ∧
      s'.cdb = (s.cdb.set cid (initialRecord cfg i n ss cid)).set cid cinfo ∧
      s'.rat = (if cfg.readPath.isSome then s.rat.set i.rat cid else s.rat) ∧
      s'.keys = (if ss = true ∧ i.secret ≠ [] then s.keys ++ [(cid, i.secret)] else s.keys) := by
  unfold registrationProcess at h
  split at h
  · cases h
  · split at h
    · rename_i s1 r1 hset
      cases h
      unfold registrationSetup at hset
      dsimp only at hset
      split at hset
      · cases hset
      · cases hset
      · rename_i hm
        split at hset
        · cases hset
        · cases hset
        · rename_i cid req' hch
          split at hset
          · cases hset
          · cases hset
          · rename_i cinfo hdo
            split at hset
            · cases hset
            · rename_i resp' hcomb
              simp only [Prod.mk.injEq, Out.val.injEq] at hset
              obtain ⟨rfl, rfl⟩ := hset
              exact ⟨cid, req', cinfo, hm, hch, hdo, hcomb, rfl, rfl, rfl⟩
    · cases h
    · cases h

/-- The client id and the request that goes on. -/
theorem chooseId_new {s : RegState} {i : RegIn} {req req' : RegRec} {cid : Str} (h : chooseId s i true req = some (.ok (cid, req'))) :
    cid ∈ i.ids ∧ s.cdb.get? cid = none ∧ req' = req.filter fun kv => decide (kv.1 ≠ c!"client_id") := by
  unfold chooseId at h
  simp only [if_true, Option.map_eq_some_iff] at h
  obtain ⟨c, h1, h2⟩ := h
  cases h2
  refine ⟨List.mem_of_find?_eq_some h1, ?_, rfl⟩
  have := List.find?_some h1
  simpa using this

/-- The request that goes on differs from the request at most in `client_id` and in blank entries. -/
theorem chooseId_get {s : RegState} {i : RegIn} {n : Bool} {req req' : RegRec} {cid : Str}
    (h : chooseId s i n (rmBlanks req) = some (.ok (cid, req'))) (hd : (req.map (·.1)).Nodup) :
    (req'.map (·.1)).Nodup ∧ ∀ k v, k ≠ c!"client_id" → (req'.get? k = some v ↔ req.get? k = some v ∧ ¬ Blank v) := by
  have hb : ((rmBlanks req).map (·.1)).Nodup := nodup_filter_keys hd _
  have hg : ∀ k v, (rmBlanks req).get? k = some v ↔ req.get? k = some v ∧ ¬ Blank v := by
    intro k v
    unfold rmBlanks
    rw [get?_filter_nodup req hd]
    simp [Blank]
  cases n with
  | true =>
    obtain ⟨-, -, rfl⟩ := chooseId_new h
    refine ⟨nodup_filter_keys hb _, fun k v hk => ?_⟩
    rw [get?_filter_key (rmBlanks req) (fun x => decide (x ≠ c!"client_id"))]
    simp only [hk, ne_eq, not_false_eq_true, decide_true, if_true]
    exact hg k v
  | false =>
    unfold chooseId at h
    simp only [Bool.false_eq_true, if_false] at h
    split at h
    · cases h; exact ⟨hb, fun k v _ => hg k v⟩
    · cases h

theorem option_ext_some {α : Type} {a b : Option α} (h : ∀ v, a = some v ↔ b = some v) : a = b := by
  cases a with
  | none => cases b with
    | none => rfl
    | some y => exact absurd ((h y).2 rfl) (by simp)
  | some x => exact ((h x).1 rfl).symm

/-- The redirect URIs in the stored record. -/
theorem stored_redirects {lib : RegLib} {prov req c0 c' : RegRec} {l : List Str}
    (h : doClientRegistration lib prov req c0 ignoredEntries = .val c') (hl : req.get? c!"redirect_uris" = some (.strs l)) :
    (∀ u ∈ l, RedirectAllowed lib req u) ∧ c'.get? c!"redirect_uris" = some (.uris (l.map (storedRedirect lib req))) := by
  obtain ⟨c1, c2, c3, c4, c5, h1, h2, h3, h4, h5, h6⟩ := doClientRegistration_val h
  have e : c'.get? c!"redirect_uris" = c2.get? c!"redirect_uris" := by
    rw [regAlgs_get _ h6 _ (by decide), regInfoUris_get _ h5 _ (by decide), regSector_get h4 _ (by decide) (by decide),
      regRequestUris_get h3 _ (by decide)]
  rw [e]
  unfold regRedirect at h2
  simp only [hl] at h2
  split at h2
  · cases h2
  · rename_i us hus
    cases h2
    obtain ⟨k1, rfl⟩ := (verifyRedirectUris_iff lib req l us).1 hus
    refine ⟨k1, ?_⟩
    rw [Dict.get?_set, if_pos rfl]

/-- The rules look at entries that `client_id` and blanks do not affect. -/
theorem redirectAllowed_congr {lib : RegLib} {req req' : RegRec} (h1 : req'.get? c!"application_type" = req.get? c!"application_type")
    (h2 : req'.get? c!"response_types" = req.get? c!"response_types") (u : Str) :
    (RedirectAllowed lib req' u ↔ RedirectAllowed lib req u) ∧ storedRedirect lib req' u = storedRedirect lib req u := by
  have e : appType req' = appType req := by simp [appType, h1]
  unfold RedirectAllowed storedRedirect CodeIsOnlyType
  rw [e, h2]
  exact ⟨Iff.rfl, rfl⟩

/-- **C42**: a registration succeeds only if every redirect URI obeys the rules for its application type; the record stored for
the client holds exactly the URIs sent, in order, split into base and query. -/
theorem C42_redirect_rules (lib : RegLib) (cfg : RegCfg) (s s' : RegState) (i : RegIn) (n ss v : Bool) (req resp : RegRec) (l : List Str)
    (hd : (req.map (·.1)).Nodup) (hnb : ∀ k v, req.get? k = some v → ¬ Blank v)
    (h : registrationProcess lib cfg s i n ss v req = (s', .ok resp)) (hl : req.get? c!"redirect_uris" = some (.strs l)) :
    (∀ u ∈ l, RedirectAllowed lib req u) ∧
    ∃ cid r, s'.cdb.get? cid = some r ∧ r.get? c!"redirect_uris" = some (.uris (l.map (storedRedirect lib req))) ∧
      (n = true → s.cdb.get? cid = none) := by
  obtain ⟨cid, req', cinfo, hm, hch, hdo, hcomb, hcdb, hrat, hkeys⟩ := registration_ok h
  obtain ⟨hd', hg⟩ := chooseId_get hch hd
  have hg' : ∀ k, k ≠ c!"client_id" → req'.get? k = req.get? k := fun k hk =>
    option_ext_some fun v => by rw [hg k v hk]; exact ⟨fun h => h.1, fun h => ⟨h, hnb k v h⟩⟩
  have hc := fun u => redirectAllowed_congr (lib := lib) (hg' c!"application_type" (by decide)) (hg' c!"response_types" (by decide)) u
  obtain ⟨k1, k2⟩ := stored_redirects hdo (by rw [hg' _ (by decide), hl])
  refine ⟨fun u hu => (hc u).1.1 (k1 u hu), cid, cinfo, ?_, ?_, ?_⟩
  · rw [hcdb, Dict.get?_set, if_pos rfl]
  · rw [k2]
    congr 2
    exact List.map_congr_left fun u _ => (hc u).2
  · rintro rfl
    exact (chooseId_new hch).2.1

/-- **C42**, the other way: a redirect URI that breaks the rules makes the registration fail. -/
theorem C42_illegal_uri_refused (lib : RegLib) (cfg : RegCfg) (s : RegState) (i : RegIn) (n ss v : Bool) (req : RegRec) (l : List Str)
    (hd : (req.map (·.1)).Nodup) (hnb : ∀ k v, req.get? k = some v → ¬ Blank v) (hl : req.get? c!"redirect_uris" = some (.strs l))
    (u : Str) (hu : u ∈ l) (hbad : ¬ RedirectAllowed lib req u) :
    ∃ e, (registrationProcess lib cfg s i n ss v req).2 = .error e := by
  cases h : registrationProcess lib cfg s i n ss v req with
  | mk s' o =>
    cases o with
    | error e => exact ⟨e, rfl⟩
    | ok resp => exact absurd ((C42_redirect_rules lib cfg s s' i n ss v req resp l hd hnb h hl).1 u hu) hbad

/-- **C42**, re-assembly: where splitting a URI and joining it again gives it back, so does what is stored; URIs with custom
schemes are stored as they are. -/
theorem C42_reassembles_partial (lib : RegLib) (req : RegRec) (l : List Str)
    (hrt : ∀ u ∈ l, lib.scheme u = c!"http" ∨ lib.scheme u = c!"https" →
      joinQuery lib.uri (lib.uri.splitUri u).1 (lib.uri.splitUri u).2 = u)
    (hok : ∀ u ∈ l, RedirectAllowed lib req u) :
    (l.map (storedRedirect lib req)).map (fun r => joinQuery lib.uri r.1 r.2) = l := by
  rw [List.map_map]
  conv => rhs; rw [← List.map_id l]
  refine List.map_congr_left fun u hu => ?_
  have hr := hrt u hu
  simp only [Function.comp, storedRedirect, id_eq]
  split
  · simp [joinQuery]
  · rename_i hn
    refine hr ?_
    have := hok u hu
    unfold RedirectAllowed at this
    by_cases ha : appType req = .str c!"native"
    · by_cases h1 : lib.scheme u = c!"http"
      · exact .inl h1
      · by_cases h2 : lib.scheme u = c!"https"
        · exact .inr h2
        · exact absurd ⟨ha, h1, h2⟩ hn
    · rw [if_neg ha] at this
      rcases this.2 with h | h
      · exact .inr h
      · exact .inl h.1

/-- A toy URI library: scheme up to the colon, host up to the next slash, query after '?', fragment after '#'. -/
def demoRegLib : RegLib where
  uri :=
    { unquote := fun u => u
      fragment := fun u => match pySplit1 '#' u with
        | some (_, f) => f
        | none => []
      splitUri := fun u =>
        let u := match pySplit1 '#' u with
          | some (b, _) => b
          | none => u
        match pySplit1 '?' u with
        | some (b, q) => match pySplit1 '=' q with
          | some (k, v) => (b, [(k, [v])])
          | none => (b, [])
        | none => (u, [])
      urlencode := fun q => match q with
        | (k, v :: _) :: _ => k ++ '=' :: v
        | _ => [] }
  scheme u := match pySplit1 ':' u with
    | some (s, _) => s
    | none => []
  hostname u := match pySplit c!"/" u with
    | _ :: _ :: h :: _ => h
    | _ => []
  netloc u := match pySplit c!"/" u with
    | _ :: _ :: h :: _ => h
    | _ => []
  query u := match pySplit1 '?' u with
    | some (_, q) => q
    | none => []
  sector _ := none
  haveKey _ := true
  loadKeys _ _ := true
  responseParam k := decide (k ≠ c!"client_salt")

def demoRegCfg : RegCfg where
  prov := [(c!"response_types_supported", .strs [c!"code", c!"code id_token"]), (c!"subject_types_supported", .strs [c!"public"]),
    (c!"id_token_signing_alg_values_supported", .strs [c!"RS256", c!"ES256"])]
  readPath := some c!"https://op/read"
  secretExpiresIn := 1000

def regIn : RegIn := { now := 5, ids := [c!"c1", c!"c9"], salt := c!"salt", rat := c!"rat9", secret := c!"s9" }

/-- A database with one client, c1. -/
def demoRegState : RegState where
  cdb := [(c!"c1", [(c!"client_id", .str c!"c1"), (c!"client_secret", .str c!"s1")])]

def demoRegReq : RegRec :=
  [(c!"redirect_uris", .strs [c!"https://rp/cb", c!"https://rp/cb2?k=v"]), (c!"response_types", .strs [c!"id_token code"]),
   (c!"subject_type", .str c!"public")]

/-- A registration that succeeds: the id in use is skipped, the URIs are stored split. -/
example :
    (registrationProcess demoRegLib demoRegCfg demoRegState regIn true true true demoRegReq).2.toOption.isSome = true ∧
    ((registrationProcess demoRegLib demoRegCfg demoRegState regIn true true true demoRegReq).1.cdb.get? c!"c9").bind
      (fun r => r.get? c!"redirect_uris") = some (.uris [(c!"https://rp/cb", []), (c!"https://rp/cb2", [(c!"k", [c!"v"])])]) ∧
    (registrationProcess demoRegLib demoRegCfg demoRegState regIn true true true
      [(c!"redirect_uris", .strs [c!"http://rp/cb"]), (c!"response_types", .strs [c!"id_token code"])]).2 = .error c!"invalid_redirect_uri" := by
  decide

/-- **C42**'s last part is false of the code for native clients: a fragment is accepted and silently dropped, so what is stored is
not what was sent. -/
theorem C42_native_fragment_dropped :
    ∃ (lib : RegLib) (cfg : RegCfg) (s s' : RegState) (i : RegIn) (req resp : RegRec) (u : Str) (r : RegUri) (cid : Str) (rec : RegRec),
      registrationProcess lib cfg s i true true true req = (s', .ok resp) ∧ req.get? c!"redirect_uris" = some (.strs [u]) ∧
      appType req = .str c!"native" ∧ lib.uri.fragment u ≠ [] ∧ s'.cdb.get? cid = some rec ∧
      rec.get? c!"redirect_uris" = some (.uris [r]) ∧ joinQuery lib.uri r.1 r.2 ≠ u := by
  let req : RegRec := [(c!"redirect_uris", .strs [c!"http://localhost/cb#x"]), (c!"application_type", .str c!"native")]
  have hok : (registrationProcess demoRegLib demoRegCfg demoRegState regIn true true true req).2.toOption.isSome = true := by decide
  have hst : ((registrationProcess demoRegLib demoRegCfg demoRegState regIn true true true req).1.cdb.get? c!"c9").bind
      (fun r => r.get? c!"redirect_uris") = some (.uris [(c!"http://localhost/cb", [])]) := by decide
  cases h : registrationProcess demoRegLib demoRegCfg demoRegState regIn true true true req with
  | mk s' o =>
    rw [h] at hok hst
    cases o with
    | error e => cases hok
    | ok resp =>
      cases hr : s'.cdb.get? c!"c9" with
      | none => simp [hr] at hst
      | some rec =>
        simp only [hr, Option.bind_some] at hst
        exact ⟨demoRegLib, demoRegCfg, demoRegState, s', regIn, req, resp, c!"http://localhost/cb#x", (c!"http://localhost/cb", []), c!"c9",
          rec, h, by decide, by decide, by decide, hr, hst, by decide⟩

/-! ### C43 -/

/-- Every outcome of a registration: either nothing changed, or one id was written. -/
theorem registration_writes {lib : RegLib} {cfg : RegCfg} {s s' : RegState} {i : RegIn} {n ss v : Bool} {req : RegRec} {o : Except Str RegRec}
    (h : registrationProcess lib cfg s i n ss v req = (s', o)) :
    s' = s ∨ ∃ cid req', chooseId s i n (rmBlanks req) = some (.ok (cid, req')) ∧
      (∀ c, c ≠ cid → s'.cdb.get? c = s.cdb.get? c) ∧ (s'.cdb.get? cid).isSome ∧
      s'.rat = (if cfg.readPath.isSome then s.rat.set i.rat cid else s.rat) ∧
      (∀ e, o = .error e → s'.cdb.get? cid = some (initialRecord cfg i n ss cid) ∧ s'.keys = s.keys) := by
  unfold registrationProcess at h
  split at h
  · cases h; exact .inl rfl
  · have hset : ∀ s1 o1, registrationSetup lib cfg s i n ss req = (s1, o1) →
        s1 = s ∨ ∃ cid req', chooseId s i n (rmBlanks req) = some (.ok (cid, req')) ∧
          (∀ c, c ≠ cid → s1.cdb.get? c = s.cdb.get? c) ∧ (s1.cdb.get? cid).isSome ∧
          s1.rat = (if cfg.readPath.isSome then s.rat.set i.rat cid else s.rat) ∧
          ((∀ r, o1 ≠ .val r) → s1.cdb.get? cid = some (initialRecord cfg i n ss cid) ∧ s1.keys = s.keys) := by
      intro s1 o1 hset
      unfold registrationSetup at hset
      dsimp only at hset
      split at hset
      · cases hset; exact .inl rfl
      · cases hset; exact .inl rfl
      · split at hset
        · cases hset; exact .inl rfl
        · cases hset; exact .inl rfl
        · rename_i cid req' hch
          right
          refine ⟨cid, req', hch, ?_⟩
          have g1 : ∀ c, c ≠ cid → (s.cdb.set cid (initialRecord cfg i n ss cid)).get? c = s.cdb.get? c := fun c hc => by
            rw [Dict.get?_set, if_neg hc]
          have g2 : (s.cdb.set cid (initialRecord cfg i n ss cid)).get? cid = some (initialRecord cfg i n ss cid) := by
            rw [Dict.get?_set, if_pos rfl]
          split at hset
          · cases hset; exact ⟨g1, by rw [g2]; rfl, rfl, fun _ => ⟨g2, rfl⟩⟩
          · cases hset; exact ⟨g1, by rw [g2]; rfl, rfl, fun _ => ⟨g2, rfl⟩⟩
          · split at hset
            · cases hset; exact ⟨g1, by rw [g2]; rfl, rfl, fun _ => ⟨g2, rfl⟩⟩
            · cases hset
              refine ⟨fun c hc => ?_, ?_, rfl, fun hn => absurd rfl (hn _)⟩
              · dsimp only; rw [Dict.get?_set, if_neg hc, g1 c hc]
              · dsimp only; rw [Dict.get?_set, if_pos rfl]; rfl
    split at h <;> rename_i hs
    · cases h
      rcases hset _ _ hs with h | ⟨cid, req', k1, k2, k3, k4, -⟩
      · exact .inl h
      · exact .inr ⟨cid, req', k1, k2, k3, k4, fun e he => by cases he⟩
    · cases h
      rcases hset _ _ hs with h | ⟨cid, req', k1, k2, k3, k4, k5⟩
      · exact .inl h
      · exact .inr ⟨cid, req', k1, k2, k3, k4, fun e he => k5 (by simp)⟩
    · cases h
      rcases hset _ _ hs with h | ⟨cid, req', k1, k2, k3, k4, k5⟩
      · exact .inl h
      · exact .inr ⟨cid, req', k1, k2, k3, k4, fun e he => k5 (by simp)⟩

/-- **C43**, first part: a registration with a fresh id, whatever its outcome, leaves every existing client record as it was. -/
theorem C43_other_clients_unchanged (lib : RegLib) (cfg : RegCfg) (s : RegState) (i : RegIn) (ss v : Bool) (req : RegRec) (c : Str)
    (r : RegRec) (h : s.cdb.get? c = some r) : (registrationProcess lib cfg s i true ss v req).1.cdb.get? c = some r := by
  cases hp : registrationProcess lib cfg s i true ss v req with
  | mk s' o =>
  dsimp only
  rcases registration_writes hp with e | ⟨cid, req', h1, h2, -⟩
  · rw [e]; exact h
  · have hne : c ≠ cid := by
      rintro rfl
      have := (chooseId_new h1).2.1
      rw [h] at this
      cases this
    rw [h2 c hne, h]

/-- ... and so through any number of registrations. -/
theorem C43_other_clients_unchanged_history (lib : RegLib) (cfg : RegCfg) (l : List (RegIn × Bool × Bool × RegRec)) (s : RegState) (c : Str)
    (r : RegRec) (h : s.cdb.get? c = some r) :
    (l.foldl (fun s x => (registrationProcess lib cfg s x.1 true x.2.1 x.2.2.1 x.2.2.2).1) s).cdb.get? c = some r := by
  induction l generalizing s with
  | nil => exact h
  | cons x l ih => exact ih _ (C43_other_clients_unchanged lib cfg s x.1 x.2.1 x.2.2.1 x.2.2.2 c r h)

/-- C43: a request the message class finds fault with is refused and changes nothing; so whatever is registered was verified. -/
theorem C43_unverified_refused (lib : RegLib) (cfg : RegCfg) (s s' : RegState) (i : RegIn) (n ss v : Bool) (req : RegRec) (o : Except Str RegRec)
    (h : registrationProcess lib cfg s i n ss v req = (s', o)) :
    (v = false → s' = s ∧ ∃ e, o = .error e) ∧ (∀ resp, o = .ok resp → v = true) ∧ (s' ≠ s → v = true) := by
  cases v with
  | true => exact ⟨fun h => (nomatch h), fun _ _ => rfl, fun _ => rfl⟩
  | false =>
    have : registrationProcess lib cfg s i n ss false req = (s, .error c!"invalid_configuration_request") := rfl
    rw [this] at h
    cases h
    exact ⟨fun _ => ⟨rfl, _, rfl⟩, fun _ h => (nomatch h), fun h => absurd rfl h⟩

/-- **C43**, second part, is false of the code: whenever the capabilities match and a redirect URI is illegal, the client gets an
error, and a client record with a secret stays in the database: it passes client authentication, and its registration access
token is active. -/
theorem C43_failed_registration_leaves_client (lib : RegLib) (cfg : RegCfg) (s : RegState) (i : RegIn) (req : RegRec) (l : List Str) (u : Str)
    (hd : (req.map (·.1)).Nodup) (hnb : ∀ k v, req.get? k = some v → ¬ Blank v)
    (hm : matchClientRequest cfg.prov (rmBlanks req) preference2provider = .ok none)
    (cid : Str) (hne : cid ≠ []) (hid : i.ids.find? (fun c => !(s.cdb.get? c).isSome) = some cid)
    (hl : req.get? c!"redirect_uris" = some (.strs l)) (hu : u ∈ l) (hbad : ¬ RedirectAllowed lib req u) :
    ∃ e s', registrationProcess lib cfg s i true true true req = (s', .error e) ∧ s.cdb.get? cid = none ∧
      (cfg.readPath.isSome → s'.rat.get? i.rat = some cid) ∧
      ∀ alib targets ft jtis now, (cfg.secretExpires = false ∨ now ≤ i.now + cfg.secretExpiresIn) →
        ∃ info, clientAuthentication alib (RegState.cdbFun s') now [some .clientSecretBasic, some .clientSecretPost] targets ft jtis
          { clientId := some cid, clientSecret := some i.secret } = (jtis, .ok (some info)) ∧ info.clientId = some cid := by
  obtain ⟨e, he⟩ := C42_illegal_uri_refused lib cfg s i true true true req l hd hnb hl u hu hbad
  cases h : registrationProcess lib cfg s i true true true req with
  | mk s' o =>
    rw [h] at he
    dsimp only at he
    subst he
    have hch : chooseId s i true (rmBlanks req) = some (.ok (cid, (rmBlanks req).filter fun kv => decide (kv.1 ≠ c!"client_id"))) := by
      unfold chooseId; rw [if_pos rfl, hid]; rfl
    have hfree := (chooseId_new hch).2.1
    have hmain : s'.cdb.get? cid = some (initialRecord cfg i true true cid) ∧
        s'.rat = (if cfg.readPath.isSome then s.rat.set i.rat cid else s.rat) := by
      unfold registrationProcess registrationSetup at h
      rw [if_neg (by decide)] at h
      dsimp only at h
      simp only [hm, hch] at h
      split at h <;> rename_i hs
      · cases h
      · split at hs
        · cases hs; cases h; exact ⟨by dsimp only; rw [Dict.get?_set, if_pos rfl], rfl⟩
        · cases hs
        · split at hs
          · cases hs
          · cases hs
      · split at hs
        · cases hs
        · cases hs; cases h; exact ⟨by dsimp only; rw [Dict.get?_set, if_pos rfl], rfl⟩
        · split at hs
          · cases hs; cases h; exact ⟨by dsimp only; rw [Dict.get?_set, if_pos rfl], rfl⟩
          · cases hs
    refine ⟨e, s', rfl, hfree, ?_, ?_⟩
    · intro hr
      rw [hmain.2, if_pos hr, Dict.get?_set, if_pos rfl]
    · intro alib targets ft jtis now hnow
      have hget := initialRecord_secret cfg i cid
      refine C40_secret_accepted alib (RegState.cdbFun s') now targets ft jtis _ cid i.secret (RegRec.client (initialRecord cfg i true true cid)) hne ?_ ?_ ?_
        (.inr ⟨rfl, rfl⟩) (.inl rfl)
      · simp [RegState.cdbFun, hmain.1]
      · simp [RegRec.client, hget.1]
      · unfold NotExpired
        simp only [RegRec.client, hget.2]
        by_cases hz : cfg.secretEnd i.now = 0
        · simp [hz]
        · simp only [hz, ne_eq, not_false_eq_true, if_true]
          rcases RegCfg.secretEnd_ok hnow with h | h
          · exact absurd h hz
          · exact .inr h
where
  initialRecord_secret (cfg : RegCfg) (i : RegIn) (cid : Str) :
      (initialRecord cfg i true true cid).get? c!"client_secret" = some (.str i.secret) ∧
      (initialRecord cfg i true true cid).get? c!"client_secret_expires_at" =
        (if cfg.secretEnd i.now ≠ 0 then some (.int (cfg.secretEnd i.now)) else none) := by
    have hne : c!"client_secret" ≠ c!"client_secret_expires_at" := by decide
    unfold initialRecord
    dsimp only
    simp only [if_true]
    by_cases hz : cfg.secretEnd i.now = 0
    · simp only [hz, ne_eq, not_true_eq_false, if_false]
      refine ⟨by rw [Dict.get?_set, if_pos rfl], ?_⟩
      rw [Dict.get?_set, if_neg (by decide), Dict.get?_set, if_neg (by decide)]
      cases cfg.readPath with
      | none => rfl
      | some p =>
        dsimp only
        rw [Dict.get?_set, if_neg (by decide), Dict.get?_set, if_neg (by decide)]
        rfl
    · simp only [hz, ne_eq, not_false_eq_true, if_true]
      refine ⟨?_, by rw [Dict.get?_set, if_pos rfl]⟩
      rw [Dict.get?_set, if_neg hne, Dict.get?_set, if_pos rfl]

end Verif
