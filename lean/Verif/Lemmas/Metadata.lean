import Verif.Spec.Metadata
import Verif.Lemmas.Dict
set_option linter.unusedSimpArgs false
set_option linter.unusedVariables false
/-! Provider metadata: what the published dictionary contains, entry by entry. -/
namespace Verif
open Spec

/-! ### `construct_endpoint_info` -/

theorem constructInfo_keys {al : AlgLib} {kw : RegRec} {d : Defaults} {r : RegRec} (h : constructInfo al kw d = .ok r) :
    List.Sublist (Dict.keys r) (d.map (·.1)) := by
  induction d generalizing r with
  | nil => simp only [constructInfo, Except.ok.injEq] at h; subst h; exact List.Sublist.refl _
  | cons p d ih =>
    obtain ⟨attr, dflt⟩ := p
    simp only [constructInfo] at h
    cases h1 : capOne al kw attr dflt with
    | error e => simp [h1] at h
    | ok o =>
      cases h2 : constructInfo al kw d with
      | error e => simp [h1, h2] at h
      | ok r' =>
        cases o with
        | none =>
          simp only [h1, h2, Except.ok.injEq] at h; subst h
          exact (ih h2).cons _
        | some v =>
          simp only [h1, h2, Except.ok.injEq] at h; subst h
          exact (ih h2).cons_cons _

theorem get?_none_of_not_key {α : Type} {d : Dict α} {k : Str} (h : k ∉ d.keys) : d.get? k = none := by
  cases hg : d.get? k with
  | none => rfl
  | some v => exact absurd (Dict.get?_isSome.1 (by simp [hg])) h

theorem constructInfo_get {al : AlgLib} {kw : RegRec} {d : Defaults} {r : RegRec} (h : constructInfo al kw d = .ok r)
    (hn : (d.map (·.1)).Nodup) {attr : Str} {dflt : Option RegVal} (hm : (attr, dflt) ∈ d) :
    capOne al kw attr dflt = .ok (r.get? attr) := by
  induction d generalizing r with
  | nil => cases hm
  | cons p d ih =>
    obtain ⟨a, df⟩ := p
    simp only [List.map_cons, List.nodup_cons] at hn
    simp only [constructInfo] at h
    cases h1 : capOne al kw a df with
    | error e => simp [h1] at h
    | ok o =>
      cases h2 : constructInfo al kw d with
      | error e => simp [h1, h2] at h
      | ok r' =>
        have hout : a ∉ Dict.keys r' := fun hk => hn.1 ((constructInfo_keys h2).subset hk)
        rcases List.mem_cons.1 hm with he | hm'
        · cases he
          cases o with
          | none => simp only [h1, h2, Except.ok.injEq] at h; subst h; rw [h1, get?_none_of_not_key hout]
          | some v => simp only [h1, h2, Except.ok.injEq] at h; subst h; rw [h1, Dict.get?_cons, if_pos rfl]
        · have hne : a ≠ attr := fun e => hn.1 (e ▸ List.mem_map_of_mem (f := (·.1)) hm')
          have := ih h2 hn.2 hm'
          cases o with
          | none => simp only [h1, h2, Except.ok.injEq] at h; subst h; exact this
          | some v => simp only [h1, h2, Except.ok.injEq] at h; subst h; rw [Dict.get?_cons, if_neg hne]; exact this

/-! ### Endpoints -/

/-- The entries an endpoint can contribute, besides its address. -/
def contributes (k : EpKind) : List Str :=
  ((k.defaults.getD []).map (·.1)) ++ (if k = .token then [c!"token_endpoint_auth_methods_supported"] else [])

theorem keys_set_mem {α : Type} {d : Dict α} {k x : Str} {v : α} (h : x ∈ (d.set k v).keys) : x = k ∨ x ∈ d.keys := by
  rw [← Dict.get?_isSome, Dict.get?_set] at h
  by_cases e : x = k
  · exact .inl e
  · rw [if_neg e] at h; exact .inr (Dict.get?_isSome.1 h)

theorem endpointInfo_keys {al : AlgLib} {iss : Str} {k : EpKind} {kw : RegRec} {info : RegRec}
    (h : endpointInfo al iss k kw = .ok (some info)) : ∀ x ∈ Dict.keys info, x ∈ contributes k := by
  unfold endpointInfo at h
  cases hk : (if k = .session then sessionKwargs iss kw else .ok kw) with
  | error e => simp [hk] at h
  | ok kw' =>
    simp only [hk] at h
    cases hd : k.defaults with
    | none => simp [hd] at h
    | some d =>
      simp only [hd] at h
      cases hc : constructInfo al kw' d with
      | error e => simp [hc] at h
      | ok i =>
        simp only [hc] at h
        have hkeys := (constructInfo_keys hc).subset
        intro x hx
        unfold contributes
        rw [hd]
        cases hm : (if k = .token then kw'.get? c!"client_authn_method" else none) with
        | none =>
          simp only [hm, Except.ok.injEq, Option.some.injEq] at h; subst h
          exact List.mem_append_left _ (hkeys hx)
        | some m =>
          simp only [hm, Except.ok.injEq, Option.some.injEq] at h; subst h
          by_cases ht : k = .token
          · rcases keys_set_mem hx with e | e
            · simp [ht, e]
            · exact List.mem_append_left _ (hkeys e)
          · simp [ht] at hm

/-- What `build_endpoints` makes of one entry. -/
theorem buildEndpoint_ok {al : AlgLib} {iss : Str} {sp : EpSpec} {ep : Ep} (h : buildEndpoint al iss sp = .ok ep) :
    ep.kind = sp.kind ∧ (∃ p, sp.path = some p ∧ ep.fullPath = baseUrl iss ++ '/' :: p) ∧
    ∃ info, endpointInfo al iss sp.kind sp.kwargs = .ok info ∧
      ep.info = if sp.kind.endpointName = [] then info else some (Dict.set (info.getD []) sp.kind.endpointName (.str ep.fullPath)) := by
  unfold buildEndpoint at h
  cases h1 : endpointInfo al iss sp.kind sp.kwargs with
  | error e => simp [h1] at h
  | ok info =>
    cases h2 : sp.path with
    | none => simp [h1, h2] at h
    | some p =>
      simp only [h1, h2, Except.ok.injEq] at h
      subst h
      exact ⟨rfl, ⟨p, rfl, rfl⟩, info, rfl, rfl⟩

theorem buildEndpoints_ok {al : AlgLib} {iss : Str} {l : List EpSpec} {acc eps : Dict Ep} (h : buildEndpoints al iss l acc = .ok eps) :
    (∀ sp ∈ l, ∃ ep, buildEndpoint al iss sp = .ok ep) ∧
    (∀ n ep, eps.get? n = some ep → (∃ sp ∈ l, sp.kind.name = n ∧ buildEndpoint al iss sp = .ok ep) ∨ acc.get? n = some ep) ∧
    (∀ a b sp, l = a ++ sp :: b → (∀ s ∈ b, s.kind.name ≠ sp.kind.name) → ∃ ep, buildEndpoint al iss sp = .ok ep ∧ eps.get? sp.kind.name = some ep) ∧
    (∀ n, (∀ sp ∈ l, sp.kind.name ≠ n) → eps.get? n = acc.get? n) ∧ (acc.keys.Nodup → eps.keys.Nodup) := by
  induction l generalizing acc with
  | nil =>
    simp only [buildEndpoints, Except.ok.injEq] at h; subst h
    refine ⟨by simp, fun n ep hg => .inr hg, fun a b sp e => ?_, fun n _ => rfl, id⟩
    simp at e
  | cons sp l ih =>
    simp only [buildEndpoints] at h
    cases hb : buildEndpoint al iss sp with
    | error e => simp [hb] at h
    | ok ep0 =>
      simp only [hb] at h
      obtain ⟨i1, i2, i3, i4, i5⟩ := ih h
      refine ⟨?_, ?_, ?_, ?_, fun hn => i5 (Dict.keys_set_nodup hn _ _)⟩
      · intro s hs
        rcases List.mem_cons.1 hs with e | hs
        · exact ⟨ep0, e ▸ hb⟩
        · exact i1 s hs
      · intro n ep hg
        rcases i2 n ep hg with ⟨s, hs, hsn, hsb⟩ | hacc
        · exact .inl ⟨s, List.mem_cons_of_mem _ hs, hsn, hsb⟩
        · rw [Dict.get?_set] at hacc
          by_cases e : n = sp.kind.name
          · rw [if_pos e] at hacc; cases hacc
            exact .inl ⟨sp, List.mem_cons_self .., e.symm, hb⟩
          · rw [if_neg e] at hacc; exact .inr hacc
      · intro a b s e hlast
        cases a with
        | nil =>
          simp only [List.nil_append, List.cons.injEq] at e
          obtain ⟨rfl, rfl⟩ := e
          refine ⟨ep0, hb, ?_⟩
          rw [i4 _ hlast, Dict.get?_set, if_pos rfl]
        | cons x a =>
          simp only [List.cons_append, List.cons.injEq] at e
          exact i3 a b s e.2 hlast
      · intro n hn
        rw [i4 n (fun s hs => hn s (List.mem_cons_of_mem _ hs)), Dict.get?_set,
          if_neg (fun e => hn sp (List.mem_cons_self ..) e.symm)]

/-! ### Collecting -/

theorem addMissing_get (cap info : RegRec) (k : Str) :
    (addMissing cap info).get? k = (cap.get? k).or (info.get? k) := by
  unfold addMissing
  induction info generalizing cap with
  | nil => simp [Dict.get?]
  | cons p r ih =>
    obtain ⟨k1, v1⟩ := p
    simp only [List.foldl_cons]
    rw [ih, Dict.get?_cons]
    by_cases hh : cap.has k1 = true
    · rw [if_pos hh]
      by_cases e : k1 = k
      · subst e
        unfold Dict.has at hh
        obtain ⟨v, hv⟩ := Option.isSome_iff_exists.1 hh
        simp [hv]
      · rw [if_neg e]
    · rw [if_neg hh, Dict.get?_set]
      have hnone : cap.get? k1 = none := by
        unfold Dict.has at hh
        cases hc : cap.get? k1 with
        | none => rfl
        | some v => simp [hc] at hh
      by_cases e : k1 = k
      · subst e; simp [hnone]
      · have : k ≠ k1 := fun h => e h.symm
        simp [e, this]

/-- The value of an entry in the first endpoint that has it. -/
def firstInfo (eps : Dict Ep) (k : Str) : Option RegVal :=
  eps.findSome? fun ne => if ne.1 = c!"webfinger" ∨ ne.1 = c!"provider_config" then none else Dict.get? (ne.2.info.getD []) k

theorem collectCaps_get (eps : Dict Ep) (cap : RegRec) (k : Str) :
    (collectCaps cap eps).get? k = (cap.get? k).or (firstInfo eps k) := by
  unfold collectCaps firstInfo
  induction eps generalizing cap with
  | nil => simp
  | cons ne eps ih =>
    simp only [List.foldl_cons, List.findSome?_cons]
    rw [ih]
    by_cases h : ne.1 = c!"webfinger" ∨ ne.1 = c!"provider_config"
    · simp only [if_pos h]
    · simp only [if_neg h, addMissing_get]
      cases cap.get? k <;> cases Dict.get? (ne.2.info.getD []) k <;> simp

theorem idTokenDefaults_nodup : (idTokenDefaults.map (·.1)).Nodup := by decide

theorem idTokenDefaults_keys : idTokenDefaults.map (·.1) = idTokenEntries := by decide

/-- The whole of `create_providerinfo`, entry by entry. -/
theorem createProviderInfo_get {al : AlgLib} {kw : RegRec} {idt : RegRec} (hidt : constructInfo al kw idTokenDefaults = .ok idt) (sl : ScopeLib)
    (cf : ProvConf) (cap : RegRec) (k : Str) :
    (createProviderInfo sl cf idt cap).get? k =
      if k ∈ idTokenEntries ∧ (idt.get? k).isSome then idt.get? k
      else if k = c!"issuer" then some (.str cf.issuer)
      else if k = c!"version" then some (.str c!"3.0")
      else if k = c!"acr_values_supported" ∧ cf.acr.isSome then cf.acr.map RegVal.strs
      else if k = c!"jwks_uri" ∧ cf.keys = true then some (.str (jwksUri cf))
      else match cap.get? k with
        | some v => some v
        | none => if k = c!"scopes_supported" then some (.strs sl.scopes) else if k = c!"claims_supported" then some (.strs sl.claims) else none := by
  have hkeys : ∀ x, (idt.get? x).isSome → x ∈ idTokenEntries := fun x hx => by
    have := (constructInfo_keys hidt).subset (Dict.get?_isSome.1 hx)
    rwa [idTokenDefaults_keys] at this
  have hnd : (idt.map (·.1)).Nodup := idTokenDefaults_nodup.sublist (constructInfo_keys hidt)
  have d1 : c!"scopes_supported" ≠ c!"claims_supported" := by decide
  -- the dictionary before the two defaults at the end
  have key : ∀ (i : RegRec), 
      (let j := if i.has c!"scopes_supported" then i else i.set c!"scopes_supported" (.strs sl.scopes)
       if j.has c!"claims_supported" then j else j.set c!"claims_supported" (.strs sl.claims)).get? k =
      match i.get? k with
      | some v => some v
      | none => if k = c!"scopes_supported" then some (.strs sl.scopes) else if k = c!"claims_supported" then some (.strs sl.claims) else none := by
    intro i
    have hj : ∀ x, (if i.has c!"scopes_supported" then i else i.set c!"scopes_supported" (.strs sl.scopes)).get? x =
        match i.get? x with
        | some v => some v
        | none => if x = c!"scopes_supported" then some (.strs sl.scopes) else none := by
      intro x
      by_cases h : i.has c!"scopes_supported" = true
      · rw [if_pos h]
        cases hx : i.get? x with
        | some v => rfl
        | none =>
          have : x ≠ c!"scopes_supported" := by
            rintro rfl; unfold Dict.has at h; simp [hx] at h
          simp only [if_neg this]
      · rw [if_neg h, Dict.get?_set]
        by_cases e : x = c!"scopes_supported"
        · have : i.get? x = none := by
            subst e; unfold Dict.has at h
            cases hc : i.get? c!"scopes_supported" with
            | none => rfl
            | some v => simp [hc] at h
          simp only [if_pos e, this]
        · simp only [if_neg e]; cases i.get? x <;> rfl
    dsimp only
    generalize hJ : (if i.has c!"scopes_supported" then i else i.set c!"scopes_supported" (.strs sl.scopes)) = j at hj ⊢
    by_cases h : j.has c!"claims_supported" = true
    · rw [if_pos h, hj k]
      cases hk : i.get? k with
      | some v => rfl
      | none =>
        simp only
        by_cases e : k = c!"scopes_supported"
        · simp only [if_pos e]
        · simp only [if_neg e]
          have : k ≠ c!"claims_supported" := by
            rintro rfl
            unfold Dict.has at h
            rw [hj, hk] at h
            simp only [if_neg e] at h
            cases h
          rw [if_neg this]
    · rw [if_neg h, Dict.get?_set, hj k]
      by_cases e : k = c!"claims_supported"
      · have hn : j.get? k = none := by
          subst e; unfold Dict.has at h
          cases hc : j.get? c!"claims_supported" with
          | none => rfl
          | some v => simp [hc] at h
        rw [hj] at hn
        rw [if_pos e]
        cases hk : i.get? k with
        | some v => simp [hk] at hn
        | none => simp [e, d1.symm]
      · rw [if_neg e]
        cases hk : i.get? k with
        | some v => rfl
        | none => simp only [if_neg e]
  have hupd : ∀ (i : RegRec) , (i.update idt).get? k = if k ∈ idTokenEntries ∧ (idt.get? k).isSome then idt.get? k else i.get? k := by
    intro i
    rw [Dict.get?_update _ _ _ hnd]
    cases hk : idt.get? k with
    | none => simp
    | some v =>
      have := hkeys k (by simp [hk])
      simp [this]
  unfold createProviderInfo
  dsimp only
  have e1 := key
  dsimp only at e1
  rw [e1, hupd]
  by_cases h0 : k ∈ idTokenEntries ∧ (idt.get? k).isSome
  · obtain ⟨v, hv⟩ := Option.isSome_iff_exists.1 h0.2
    rw [if_pos h0, if_pos h0, hv]
  · simp only [if_neg h0]
    have n1 : c!"issuer" ≠ c!"version" := by decide
    have n2 : c!"issuer" ≠ c!"acr_values_supported" := by decide
    have n3 : c!"issuer" ≠ c!"jwks_uri" := by decide
    have n4 : c!"version" ≠ c!"acr_values_supported" := by decide
    have n5 : c!"version" ≠ c!"jwks_uri" := by decide
    have n6 : c!"acr_values_supported" ≠ c!"jwks_uri" := by decide
    have n7 : c!"acr_values_supported" ≠ c!"scopes_supported" := by decide
    generalize c!"issuer" = I at *
    generalize c!"version" = V at *
    generalize c!"acr_values_supported" = A at *
    generalize c!"jwks_uri" = J at *
    cases hacr : cf.acr with
    | none =>
      cases hks : cf.keys with
      | false =>
        simp only [hacr, hks, Bool.false_eq_true, if_false, Dict.get?_set]
        by_cases k1 : k = I
        · simp [k1, n1]
        · by_cases k2 : k = V
          · simp [k2, n1.symm]
          · simp [k1, k2]
      | true =>
        simp only [hacr, hks, if_true, Dict.get?_set]
        by_cases k1 : k = I
        · simp [k1, n1, n3]
        · by_cases k2 : k = V
          · simp [k2, n1.symm, n5]
          · by_cases k3 : k = J
            · simp [k3, n3.symm, n5.symm]
            · simp [k1, k2, k3]
    | some l =>
      cases hks : cf.keys with
      | false =>
        simp only [hacr, hks, Bool.false_eq_true, if_false, Dict.get?_set]
        by_cases k1 : k = I
        · simp [k1, n1, n2]
        · by_cases k2 : k = V
          · simp [k2, n1.symm, n4]
          · by_cases k3 : k = A
            · simp [k3, n2.symm, n4.symm]
            · simp [k1, k2, k3]
      | true =>
        simp only [hacr, hks, if_true, Dict.get?_set]
        by_cases k1 : k = I
        · simp [k1, n1, n2, n3]
        · by_cases k2 : k = V
          · simp [k2, n1.symm, n4, n5]
          · by_cases k3 : k = J
            · simp [k3, n3.symm, n5.symm, n6.symm]
            · by_cases k4 : k = A
              · simp [k4, n2.symm, n4.symm, n6]
              · simp [k1, k2, k3, k4]

/-- What a successful start consists of. -/
theorem startProvider_ok {al : AlgLib} {sl : ScopeLib} {cf : ProvConf} {p : Provider} (h : startProvider al sl cf = .ok p) :
    ∃ idt, constructInfo al cf.idToken idTokenDefaults = .ok idt ∧ buildEndpoints al cf.issuer cf.endpoints [] = .ok p.endpoints ∧
      p.info = createProviderInfo sl cf idt (collectCaps (cf.capabilities.getD []) p.endpoints) ∧
      (p.endpoints.has c!"token" = true → ∃ b, allowRefresh cf p.info = .ok b) := by
  unfold startProvider at h
  cases h1 : constructInfo al cf.idToken idTokenDefaults with
  | error e => simp [h1] at h
  | ok idt =>
    simp only [h1] at h
    cases h2 : buildEndpoints al cf.issuer cf.endpoints [] with
    | error e => simp [h2] at h
    | ok eps =>
      simp only [h2] at h
      by_cases ht : eps.has c!"token" = true
      · rw [if_pos ht] at h
        cases h3 : allowRefresh cf (createProviderInfo sl cf idt (collectCaps (cf.capabilities.getD []) eps)) with
        | error e => rw [h3] at h; simp [Except.map] at h
        | ok b =>
          rw [h3] at h
          simp only [Except.map, Except.ok.injEq] at h
          subst h
          exact ⟨idt, rfl, rfl, rfl, fun _ => ⟨b, h3⟩⟩
      · rw [if_neg ht] at h
        simp only [Except.ok.injEq] at h
        subst h
        exact ⟨idt, rfl, rfl, rfl, fun ht' => absurd ht' ht⟩

end Verif
