import Verif.Props.RegistrationPrefs
set_option linter.unusedSimpArgs false
/-! C85: the URIs and algorithms of a registration other than the redirect URIs. -/
namespace Verif
open Spec

namespace Spec
/-- The parts a request URI is stored as: what is before the fragment, and the fragment. -/
def uriParts (lib : RegLib) (u : Str) : List Str := if lib.uri.fragment u = [] then [u, []] else pySplit c!"#" u

/-- `u` is at the same host as one of the redirect URIs, and has its scheme. -/
def SameSite (lib : RegLib) (bases : List RegUri) (u : Str) : Prop :=
  ∃ r ∈ bases, lib.scheme u = lib.scheme r.1 ∧ lib.netloc u = lib.netloc r.1

/-- The informational URIs of a client. -/
def infoItems : List Str := [c!"policy_uri", c!"logo_uri", c!"tos_uri"]

/-- The settings for which the provider needs a key, with the provider's list. -/
def algItems : List (Str × Str) :=
  [(c!"id_token_signed_response_alg", c!"id_token_signing_alg_values_supported"),
   (c!"userinfo_signed_response_alg", c!"userinfo_signing_alg_values_supported")]
end Spec

theorem regPostLogout_val {lib : RegLib} {req c c' : RegRec} {l : List Str} (h : regPostLogout lib req c = .val c')
    (hl : req.get? c!"post_logout_redirect_uris" = some (.strs l)) :
    (∀ u ∈ l, lib.uri.fragment u = []) ∧ c'.get? c!"post_logout_redirect_uris" = some (.uris (l.map lib.uri.splitUri)) := by
  unfold regPostLogout at h
  simp only [hl] at h
  split at h
  · cases h
  · rename_i hf
    cases h
    refine ⟨fun u hu => ?_, by rw [Dict.get?_set, if_pos rfl]⟩
    by_cases e : lib.uri.fragment u = []
    · exact e
    · exact absurd (List.any_eq_true.2 ⟨u, hu, by simpa using e⟩) hf

theorem regRequestUris_val {lib : RegLib} {req c c' : RegRec} {l : List Str} (h : regRequestUris lib req c = .val c')
    (hl : req.get? c!"request_uris" = some (.strs l)) :
    (∀ u ∈ l, lib.query u = []) ∧ c'.get? c!"request_uris" = some (.parts (l.map (uriParts lib))) := by
  unfold regRequestUris at h
  simp only [hl] at h
  split at h
  · cases h
  · rename_i hf
    cases h
    refine ⟨fun u hu => ?_, ?_⟩
    · by_cases e : lib.query u = []
      · exact e
      · exact absurd (List.any_eq_true.2 ⟨u, hu, by simpa using e⟩) hf
    · rw [Dict.get?_set, if_pos rfl]
      congr 2
      refine List.map_congr_left fun u _ => ?_
      unfold uriParts
      by_cases e : lib.uri.fragment u = [] <;> simp [e]

theorem regSector_val {lib : RegLib} {req c c' : RegRec} {si : Str} (h : regSector lib req c = .val c')
    (hs : req.get? c!"sector_identifier_uri" = some (.str si)) :
    ∃ rs, lib.sector si = some rs ∧ ∀ l, req.get? c!"redirect_uris" = some (.strs l) → ∀ u ∈ l, u ∈ rs := by
  unfold regSector at h
  simp only [hs] at h
  split at h
  · cases h
  · rename_i rs hrs
    refine ⟨rs, hrs, fun l hl u hu => ?_⟩
    simp only [hl] at h
    split at h
    · rename_i ha
      have := List.all_eq_true.1 ha u hu
      simpa using this
    · cases h

theorem regInfoUris_val {lib : RegLib} {req : RegRec} (items : List Str) (hr : c!"redirect_uris" ∉ items) (hn : items.Nodup)
    {c c' : RegRec} (h : regInfoUris lib req items c = .val c') (it u : Str) (hi : it ∈ items) (hu : req.get? it = some (.str u)) :
    (∃ us, c.get? c!"redirect_uris" = some (.uris us) ∧ SameSite lib us u) ∧ c'.get? it = some (.str u) := by
  induction items generalizing c with
  | nil => cases hi
  | cons x rest ih =>
    simp only [List.mem_cons, not_or] at hr
    simp only [List.nodup_cons] at hn
    simp only [regInfoUris] at h
    by_cases hx : it = x
    · subst hx
      simp only [hu] at h
      split at h
      · rename_i us hus
        split at h
        · rename_i hv
          refine ⟨⟨us, hus, ?_⟩, ?_⟩
          · unfold verifyUrl at hv
            obtain ⟨r, hr1, hr2⟩ := List.any_eq_true.1 hv
            simp only [Bool.and_eq_true, decide_eq_true_eq] at hr2
            exact ⟨r, hr1, hr2.1, hr2.2⟩
          · rw [regInfoUris_get rest h it hn.1, Dict.get?_set, if_pos rfl]
        · cases h
      · cases h
    · have hm : it ∈ rest := by simpa [hx] using hi
      split at h
      · exact ih hr.2 hn.2 h hm
      · split at h
        · split at h
          · obtain ⟨⟨us, e1, e2⟩, e3⟩ := ih hr.2 hn.2 h hm
            rw [Dict.get?_set, if_neg hr.1] at e1
            exact ⟨⟨us, e1, e2⟩, e3⟩
          · cases h
        · cases h
      · cases h

theorem regAlgs_val {lib : RegLib} {prov req : RegRec} (items : List (Str × Str)) (hn : (items.map (·.1)).Nodup)
    {c c' : RegRec} (h : regAlgs lib prov req items c = .val c') (it pv a : Str) (hi : (it, pv) ∈ items) (ha : req.get? it = some (.str a))
    (p : RegVal) (hp : prov.get? pv = some p) (hm : matchPref (.str a) p = .ok true) :
    c'.get? it = if lib.haveKey a then c.get? it else none := by
  induction items generalizing c with
  | nil => cases hi
  | cons x rest ih =>
    obtain ⟨x, q⟩ := x
    simp only [List.map_cons, List.nodup_cons] at hn
    simp only [regAlgs] at h
    rcases List.mem_cons.1 hi with e | hmem
    · cases e
      simp only [ha, hp, hm] at h
      split at h
      · rename_i hk
        rw [regAlgs_get rest h it hn.1, if_pos hk]
      · rename_i hk
        rw [regAlgs_get rest h it hn.1, if_neg hk, get?_filter_key c (fun y => decide (y ≠ it))]
        simp
    · have hne : it ≠ x := by
        rintro rfl
        exact hn.1 (List.mem_map.2 ⟨_, hmem, rfl⟩)
      split at h
      · exact ih hn.2 h hmem
      · split at h
        · cases h
        · split at h
          · cases h
          · exact ih hn.2 h hmem
          · split at h
            · exact ih hn.2 h hmem
            · rw [ih hn.2 h hmem, get?_filter_key c (fun y => decide (y ≠ x))]
              simp [hne]
      · cases h

/-- **C85**: a registration succeeds only if no post-logout redirect URI has a fragment, no request URI has a query, all redirect
URIs are listed in the sector document (if there is one), and the informational URIs are at the same site as a redirect URI; what
is stored is what was sent (split into its parts), and of the signing algorithms exactly those the provider has keys for. -/
theorem C85_other_uris_checked (lib : RegLib) (cfg : RegCfg) (s s' : RegState) (i : RegIn) (n ss v : Bool) (req resp : RegRec)
    (hd : (req.map (·.1)).Nodup) (hnb : ∀ k v, req.get? k = some v → ¬ Blank v)
    (h : registrationProcess lib cfg s i n ss v req = (s', .ok resp)) :
    ∃ cid r, s'.cdb.get? cid = some r ∧
      (∀ l, req.get? c!"post_logout_redirect_uris" = some (.strs l) →
        (∀ u ∈ l, lib.uri.fragment u = []) ∧ r.get? c!"post_logout_redirect_uris" = some (.uris (l.map lib.uri.splitUri))) ∧
      (∀ l, req.get? c!"request_uris" = some (.strs l) →
        (∀ u ∈ l, lib.query u = []) ∧ r.get? c!"request_uris" = some (.parts (l.map (uriParts lib)))) ∧
      (∀ si, req.get? c!"sector_identifier_uri" = some (.str si) → ∃ rs, lib.sector si = some rs ∧
        ∀ l, req.get? c!"redirect_uris" = some (.strs l) → ∀ u ∈ l, u ∈ rs) ∧
      (∀ it ∈ infoItems, ∀ u l, req.get? it = some (.str u) → req.get? c!"redirect_uris" = some (.strs l) →
        SameSite lib (l.map (storedRedirect lib req)) u ∧ r.get? it = some (.str u)) ∧
      (∀ it pv a, (it, pv) ∈ algItems → req.get? it = some (.str a) →
        r.get? it = if lib.haveKey a then some (.str a) else none) := by
  obtain ⟨cid, req', cinfo, hm, hch, hdo, hcomb, hcdb, hrat, hkeys⟩ := registration_ok h
  obtain ⟨hd', hg⟩ := chooseId_get hch hd
  have hg' : ∀ k, k ≠ c!"client_id" → req'.get? k = req.get? k := fun k hk =>
    option_ext_some fun v => by rw [hg k v hk]; exact ⟨fun h => h.1, fun h => ⟨h, hnb k v h⟩⟩
  have hrm : ∀ k, (rmBlanks req).get? k = req.get? k := fun k => option_ext_some fun v => by
    unfold rmBlanks
    rw [get?_filter_nodup req hd]
    constructor
    · exact fun h => h.1
    · intro h; refine ⟨h, ?_⟩; have := hnb k v h; simpa [Blank] using this
  obtain ⟨c1, c2, c3, c4, c5, h1, h2, h3, h4, h5, h6⟩ := doClientRegistration_val hdo
  have hsr : ∀ u, storedRedirect lib req' u = storedRedirect lib req u := fun u =>
    (redirectAllowed_congr (lib := lib) (hg' c!"application_type" (by decide)) (hg' c!"response_types" (by decide)) u).2
  refine ⟨cid, cinfo, by rw [hcdb, Dict.get?_set, if_pos rfl], ?_, ?_, ?_, ?_, ?_⟩
  · intro l hl
    obtain ⟨a, b⟩ := regPostLogout_val h1 (by rw [hg' _ (by decide), hl])
    refine ⟨a, ?_⟩
    rw [regAlgs_get _ h6 _ (by decide), regInfoUris_get _ h5 _ (by decide), regSector_get h4 _ (by decide) (by decide),
      regRequestUris_get h3 _ (by decide), regRedirect_get h2 _ (by decide), b]
  · intro l hl
    obtain ⟨a, b⟩ := regRequestUris_val h3 (by rw [hg' _ (by decide), hl])
    refine ⟨a, ?_⟩
    rw [regAlgs_get _ h6 _ (by decide), regInfoUris_get _ h5 _ (by decide), regSector_get h4 _ (by decide) (by decide), b]
  · intro si hsi
    obtain ⟨rs, a, b⟩ := regSector_val h4 (by rw [hg' _ (by decide), hsi])
    exact ⟨rs, a, fun l hl => b l (by rw [hg' _ (by decide), hl])⟩
  · intro it hit u l hu hl
    have hne : it ≠ c!"client_id" := by rintro rfl; exact absurd hit (by decide)
    have hne2 : it ∉ ([(c!"id_token_signed_response_alg", c!"id_token_signing_alg_values_supported"),
        (c!"userinfo_signed_response_alg", c!"userinfo_signing_alg_values_supported")] : List (Str × Str)).map (·.1) := by
      simp only [infoItems, List.mem_cons, List.not_mem_nil, or_false] at hit
      rcases hit with rfl | rfl | rfl <;> decide
    obtain ⟨⟨us, e1, e2⟩, e3⟩ := regInfoUris_val _ (by decide) (by decide) h5 it u hit (by rw [hg' _ hne, hu])
    obtain ⟨_, e4⟩ := stored_redirects hdo (by rw [hg' _ (by decide), hl])
    rw [regAlgs_get _ h6 _ (by decide), regInfoUris_get _ h5 _ (by decide), e1] at e4
    cases e4
    refine ⟨?_, ?_⟩
    · rw [← List.map_congr_left fun u _ => hsr u]; exact e2
    · rw [regAlgs_get _ h6 _ hne2, e3]
  · intro it pv a hit ha
    have hne : it ≠ c!"client_id" := by rintro rfl; simp [algItems] at hit
    have hk : it ∈ [c!"id_token_signed_response_alg", c!"userinfo_signed_response_alg"] := by
      simp only [algItems, List.mem_cons, List.not_mem_nil, or_false, Prod.mk.injEq] at hit
      rcases hit with ⟨rfl, _⟩ | ⟨rfl, _⟩ <;> simp
    have ha' : req'.get? it = some (.str a) := by rw [hg' _ hne, ha]
    have hpref : ∃ p, cfg.prov.get? pv = some p ∧ matchPref (.str a) p = .ok true := by
      have hin : (it, pv) ∈ preference2provider ∧ ¬ wordwise it := by
        simp only [algItems, List.mem_cons, List.not_mem_nil, or_false, Prod.mk.injEq] at hit
        rcases hit with ⟨rfl, rfl⟩ | ⟨rfl, rfl⟩ <;> exact ⟨by decide, by unfold wordwise; decide⟩
      obtain ⟨p, e1, _, e3⟩ := matchClientRequest_ok.1 hm it pv (.str a) hin.1 (by rw [hrm]; exact ha)
      exact ⟨p, e1, e3 hin.2⟩
    obtain ⟨p, hp1, hp2⟩ := hpref
    rw [regAlgs_val _ (by decide) h6 it pv a hit ha' p hp1 hp2]
    have hns : it ∉ infoItems := by
      intro hc
      simp only [List.mem_cons, List.not_mem_nil, or_false] at hk
      rcases hk with rfl | rfl <;> exact absurd hc (by decide)
    have hq : ∀ x : Str, x ∈ [c!"si_redirects", c!"sector_id", c!"request_uris", c!"redirect_uris", c!"post_logout_redirect_uris"] → it ≠ x := by
      rintro x hx rfl
      simp only [List.mem_cons, List.not_mem_nil, or_false] at hk
      rcases hk with rfl | rfl <;> exact absurd hx (by decide)
    have : c5.get? it = some (.str a) := by
      rw [regInfoUris_get _ h5 it hns, regSector_get h4 it (hq _ (by simp)) (hq _ (by simp)), regRequestUris_get h3 it (hq _ (by simp)),
        regRedirect_get h2 it (hq _ (by simp)), regPostLogout_get h1 it (hq _ (by simp))]
      unfold copyEntries
      rw [Dict.get?_update _ _ _ (nodup_filter_keys hd' _), get?_filter_key req' (fun x => !ignoredEntries.contains x) it]
      have : (!ignoredEntries.contains it) = true := by
        simp only [List.mem_cons, List.not_mem_nil, or_false] at hk
        rcases hk with rfl | rfl <;> decide
      rw [if_pos this, ha']
    rw [this]

/-! ### What the client is told -/

theorem combOne_other (lib : RegLib) (a : RegRec) (k x : Str) (h : x ≠ k) : (combOne lib a k).get? x = a.get? x := by
  unfold combOne
  split
  · rw [Dict.get?_set, if_neg h]
  · rfl

theorem combOne_same (lib : RegLib) (a : RegRec) (k : Str) (us : List RegUri) (h : a.get? k = some (.uris us)) :
    (combOne lib a k).get? k = some (.strs (us.map fun r => joinQuery lib.uri r.1 r.2)) := by
  unfold combOne
  simp only [h]
  rw [Dict.get?_set, if_pos rfl]

/-- The two parts of a request URI put together. -/
def joinParts : List Str → Str
  | [b, f] => if f ≠ [] then b ++ '#' :: f else b
  | _ => []

theorem combUri_spec {lib : RegLib} {a resp : RegRec} (h : combUri lib a = some resp) :
    (∀ k ∈ [c!"redirect_uris", c!"post_logout_redirect_uris"], ∀ us, a.get? k = some (.uris us) →
      resp.get? k = some (.strs (us.map fun r => joinQuery lib.uri r.1 r.2))) ∧
    (∀ l, a.get? c!"request_uris" = some (.parts l) → (∀ p ∈ l, p.length = 2) ∧
      resp.get? c!"request_uris" = some (.strs (l.map joinParts))) := by
  have hboth : ∀ k ∈ [c!"redirect_uris", c!"post_logout_redirect_uris"], ∀ us, a.get? k = some (.uris us) →
      (combOne lib (combOne lib a c!"redirect_uris") c!"post_logout_redirect_uris").get? k =
        some (.strs (us.map fun r => joinQuery lib.uri r.1 r.2)) := by
    intro k hk us hus
    simp only [List.mem_cons, List.not_mem_nil, or_false] at hk
    rcases hk with rfl | rfl
    · rw [combOne_other _ _ _ _ (by decide), combOne_same _ _ _ _ hus]
    · rw [combOne_same _ _ _ us (by rw [combOne_other _ _ _ _ (by decide), hus])]
  have hreq : (combOne lib (combOne lib a c!"redirect_uris") c!"post_logout_redirect_uris").get? c!"request_uris" =
      a.get? c!"request_uris" := by rw [combOne_other _ _ _ _ (by decide), combOne_other _ _ _ _ (by decide)]
  unfold combUri at h
  dsimp only at h
  rw [hreq] at h
  split at h
  · rename_i l hl
    split at h
    · rename_i hall
      cases h
      refine ⟨fun k hk us hus => ?_, fun l' hl' => ?_⟩
      · have hne : k ≠ c!"request_uris" := by rintro rfl; exact absurd hk (by decide)
        rw [Dict.get?_set, if_neg hne, hboth k hk us hus]
      · rw [hl] at hl'
        cases hl'
        refine ⟨fun p hp => by simpa using List.all_eq_true.1 hall p hp, ?_⟩
        rw [Dict.get?_set, if_pos rfl]
        congr 2
    · cases h
  · rename_i hno
    cases h
    exact ⟨hboth, fun l hl => absurd hl (hno l)⟩

/-- The entries of the stored record that are given back. -/
theorem filter_param {lib : RegLib} (c : RegRec) (k : Str) (h : lib.responseParam k = true) :
    Dict.get? (c.filter fun kv => lib.responseParam kv.1) k = c.get? k := by
  rw [get?_filter_key c lib.responseParam k, if_pos h]

/-- **C85**: the response gives the client back the URIs it sent: the redirect URIs and post-logout redirect URIs that survive
splitting and joining, and all the request URIs. -/
theorem C85_response_uris (lib : RegLib) (cfg : RegCfg) (s s' : RegState) (i : RegIn) (n ss v : Bool) (req resp : RegRec)
    (hd : (req.map (·.1)).Nodup) (hnb : ∀ k v, req.get? k = some v → ¬ Blank v)
    (hpar : ∀ k ∈ [c!"redirect_uris", c!"post_logout_redirect_uris", c!"request_uris"], lib.responseParam k = true)
    (hfrag : ∀ b, '#' ∉ b → lib.uri.fragment (b ++ ['#']) = [])
    (h : registrationProcess lib cfg s i n ss v req = (s', .ok resp)) :
    (∀ l, req.get? c!"post_logout_redirect_uris" = some (.strs l) →
      (∀ u ∈ l, joinQuery lib.uri (lib.uri.splitUri u).1 (lib.uri.splitUri u).2 = u) →
      resp.get? c!"post_logout_redirect_uris" = some (.strs l)) ∧
    (∀ l, req.get? c!"redirect_uris" = some (.strs l) →
      (∀ u ∈ l, joinQuery lib.uri (storedRedirect lib req u).1 (storedRedirect lib req u).2 = u) →
      resp.get? c!"redirect_uris" = some (.strs l)) ∧
    (∀ l, req.get? c!"request_uris" = some (.strs l) → resp.get? c!"request_uris" = some (.strs l)) := by
  obtain ⟨cid, req', cinfo, hm, hch, hdo, hcomb, hcdb, hrat, hkeys⟩ := registration_ok h
  obtain ⟨cid', r, hr, hpl, hru, _⟩ := C85_other_uris_checked lib cfg s s' i n ss v req resp hd hnb h
  obtain ⟨hd', hg⟩ := chooseId_get hch hd
  have hg' : ∀ k, k ≠ c!"client_id" → req'.get? k = req.get? k := fun k hk =>
    option_ext_some fun v => by rw [hg k v hk]; exact ⟨fun h => h.1, fun h => ⟨h, hnb k v h⟩⟩
  obtain ⟨c1, c2, c3, c4, c5, h1, h2, h3, h4, h5, h6⟩ := doClientRegistration_val hdo
  obtain ⟨hu, hq⟩ := combUri_spec hcomb
  refine ⟨fun l hl hrt => ?_, fun l hl hrt => ?_, fun l hl => ?_⟩
  · obtain ⟨_, b⟩ := regPostLogout_val h1 (by rw [hg' _ (by decide), hl])
    have hc : cinfo.get? c!"post_logout_redirect_uris" = some (.uris (l.map lib.uri.splitUri)) := by
      rw [regAlgs_get _ h6 _ (by decide), regInfoUris_get _ h5 _ (by decide), regSector_get h4 _ (by decide) (by decide),
        regRequestUris_get h3 _ (by decide), regRedirect_get h2 _ (by decide), b]
    rw [hu _ (by simp) _ ((filter_param _ _ (hpar _ (by simp))).trans hc), List.map_map]
    congr 2
    exact (List.map_congr_left fun u hu => hrt u hu).trans (List.map_id _)
  · obtain ⟨_, hc⟩ := stored_redirects hdo (by rw [hg' _ (by decide), hl])
    have hsr : ∀ u, storedRedirect lib req' u = storedRedirect lib req u := fun u =>
      (redirectAllowed_congr (lib := lib) (hg' c!"application_type" (by decide)) (hg' c!"response_types" (by decide)) u).2
    rw [hu _ (by simp) _ ((filter_param _ _ (hpar _ (by simp))).trans hc), List.map_map]
    congr 2
    refine (List.map_congr_left fun u hu => ?_).trans (List.map_id _)
    simp only [Function.comp, hsr, id]
    exact hrt u hu
  · obtain ⟨_, b⟩ := regRequestUris_val h3 (by rw [hg' _ (by decide), hl])
    have hc : cinfo.get? c!"request_uris" = some (.parts (l.map (uriParts lib))) := by
      rw [regAlgs_get _ h6 _ (by decide), regInfoUris_get _ h5 _ (by decide), regSector_get h4 _ (by decide) (by decide), b]
    obtain ⟨hlen, hres⟩ := hq _ ((filter_param _ _ (hpar _ (by simp))).trans hc)
    rw [hres, List.map_map]
    congr 2
    refine (List.map_congr_left fun u hu => ?_).trans (List.map_id _)
    have h2 := hlen _ (List.mem_map.2 ⟨u, hu, rfl⟩)
    simp only [Function.comp, id]
    unfold uriParts at h2 ⊢
    by_cases e : lib.uri.fragment u = []
    · simp [e, joinParts]
    · rw [if_neg e] at h2 ⊢
      obtain ⟨hj, hno⟩ := split_one_spec '#' u
      match hps : pySplit c!"#" u, h2 with
      | [b, f], _ =>
        simp only [joinParts]
        rw [hps] at hj hno
        simp only [pyJoin, List.append_assoc, List.cons_append, List.nil_append] at hj
        by_cases hf : f = []
        · subst hf
          rw [← hj] at e
          exact absurd (hfrag b (hno b (by simp))) e
        · rw [if_pos (by simpa using hf), hj]

/-- ... but a request URI with a second `#` makes the registration fail after the stub of the client has been stored. -/
theorem C85_two_hashes_fail (lib : RegLib) (cfg : RegCfg) (s : RegState) (i : RegIn) (n ss v : Bool) (req : RegRec) (l : List Str) (u : Str)
    (hd : (req.map (·.1)).Nodup) (hl : req.get? c!"request_uris" = some (.strs l)) (hnb : l ≠ [[]])
    (hpar : lib.responseParam c!"request_uris" = true)
    (hu : u ∈ l) (hf : lib.uri.fragment u ≠ []) (h2 : (pySplit c!"#" u).length ≠ 2) :
    ∃ e, (registrationProcess lib cfg s i n ss v req).2 = .error e := by
  cases h : registrationProcess lib cfg s i n ss v req with
  | mk s' o =>
    cases o with
    | error e => exact ⟨e, rfl⟩
    | ok resp =>
      exfalso
      obtain ⟨cid, req', cinfo, hm, hch, hdo, hcomb, hcdb, hrat, hkeys⟩ := registration_ok h
      obtain ⟨hd', hg⟩ := chooseId_get hch hd
      obtain ⟨c1, c2, c3, c4, c5, h1, h2', h3, h4, h5, h6⟩ := doClientRegistration_val hdo
      obtain ⟨_, hq⟩ := combUri_spec hcomb
      obtain ⟨_, b⟩ := regRequestUris_val h3 ((hg _ _ (by decide)).2 ⟨hl, by simp [Blank, hnb]⟩)
      have hc : cinfo.get? c!"request_uris" = some (.parts (l.map (uriParts lib))) := by
        rw [regAlgs_get _ h6 _ (by decide), regInfoUris_get _ h5 _ (by decide), regSector_get h4 _ (by decide) (by decide), b]
      obtain ⟨hlen, _⟩ := hq _ ((filter_param _ _ hpar).trans hc)
      have := hlen _ (List.mem_map.2 ⟨u, hu, rfl⟩)
      unfold uriParts at this
      rw [if_neg hf] at this
      exact h2 this

/-- A registration with all these entries that succeeds, and one with two `#` that fails and leaves the stub behind. -/
example :
    let req : RegRec := [(c!"redirect_uris", .strs [c!"https://rp/cb"]), (c!"post_logout_redirect_uris", .strs [c!"https://rp/out?k=v"]),
      (c!"request_uris", .strs [c!"https://rp/req#h", c!"https://rp/req2"]), (c!"logo_uri", .str c!"https://rp/logo"),
      (c!"id_token_signed_response_alg", .str c!"ES256")]
    let bad : RegRec := [(c!"redirect_uris", .strs [c!"https://rp/cb"]), (c!"request_uris", .strs [c!"https://rp/req#h#g"])]
    (registrationProcess demoRegLib demoRegCfg demoRegState regIn true true true req).2.toOption.bind
      (fun r => r.get? c!"request_uris") = some (.strs [c!"https://rp/req#h", c!"https://rp/req2"]) ∧
    (registrationProcess demoRegLib demoRegCfg demoRegState regIn true true true req).2.toOption.bind
      (fun r => r.get? c!"post_logout_redirect_uris") = some (.strs [c!"https://rp/out?k=v"]) ∧
    (registrationProcess demoRegLib demoRegCfg demoRegState regIn true true true bad).2 = .error c!"invalid_configuration_request" ∧
    ((registrationProcess demoRegLib demoRegCfg demoRegState regIn true true true bad).1.cdb.get? c!"c9").isSome = true := by
  decide

end Verif
