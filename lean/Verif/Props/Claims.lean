import Verif.Spec.Claims
import Verif.Lemmas.Dict
set_option linter.unusedSimpArgs false
/-! C36, C37, C49: claims. -/
namespace Verif
open Spec

theorem pyEq_iff (a b : Val) : a.pyEq b = true ↔ SameJson a b := by
  unfold Val.pyEq
  rw [decide_eq_true_eq]
  constructor
  · induction a generalizing b with
    | null => cases b <;> simp [Val.norm] <;> exact .same _
    | bool x =>
      cases b with
      | bool y => cases x <;> cases y <;> simp [Val.norm] <;> exact .same _
      | int i =>
        cases x
        · simp only [Val.norm, Bool.false_eq_true, if_false, Val.int.injEq]; rintro rfl; exact .falseZero
        · simp only [Val.norm, if_true, Val.int.injEq]; rintro rfl; exact .trueOne
      | _ => simp [Val.norm]
    | int i =>
      cases b with
      | bool y =>
        cases y
        · simp only [Val.norm, Bool.false_eq_true, if_false, Val.int.injEq]; rintro rfl; exact .zeroFalse
        · simp only [Val.norm, if_true, Val.int.injEq]; rintro rfl; exact .oneTrue
      | int j => simp only [Val.norm]; intro h; rw [h]; exact .same _
      | _ => simp [Val.norm]
    | str s => cases b <;> simp [Val.norm]; rintro rfl; exact .same _
    | lnil => cases b <;> simp [Val.norm]; exact .same _
    | dnil => cases b <;> simp [Val.norm]; exact .same _
    | lcons h t ih1 ih2 =>
      cases b <;> simp only [Val.norm, Val.lcons.injEq, reduceCtorEq, false_implies]
      rintro ⟨e1, e2⟩
      exact .list (ih1 _ e1) (ih2 _ e2)
    | dcons k v r ih1 ih2 =>
      cases b <;> simp only [Val.norm, Val.dcons.injEq, reduceCtorEq, false_implies]
      rintro ⟨rfl, e1, e2⟩
      exact .dict (ih1 _ e1) (ih2 _ e2)
  · intro h
    induction h with
    | list _ _ h1 h2 => simp [Val.norm, h1, h2]
    | dict _ _ h1 h2 => simp [Val.norm, h1, h2]
    | _ => rfl

theorem pyIn_list (x : Val) {l : Val} (h : IsList l) :
    ∃ b, x.pyIn l = some b ∧ (b = true ↔ ElemOf x l) := by
  induction h with
  | nil => exact ⟨false, rfl, by simp; intro h; cases h⟩
  | cons h t _ ih =>
    obtain ⟨b, h1, h2⟩ := ih
    unfold Val.pyIn
    by_cases e : x.pyEq h = true
    · exact ⟨true, by simp [e], by simp; exact .head _ _ ((pyEq_iff _ _).1 e)⟩
    · refine ⟨b, by simp [e, h1], h2.trans ⟨.tail _ _, ?_⟩⟩
      intro hh
      cases hh with
      | head _ _ h => exact absurd ((pyEq_iff _ _).2 h) e
      | tail _ _ h => exact h

theorem claimsLoop_spec (x : Val) (d : List (Str × Val)) (hl : ∀ l, (c!"values", l) ∈ d → IsList l) :
    ∃ b, claimsLoop x d = .ok b ∧ (b = true ↔ ∃ p ∈ d, (p.1 = c!"value" ∧ SameJson x p.2) ∨
      (p.1 = c!"values" ∧ ElemOf x p.2)) := by
  induction d with
  | nil => exact ⟨false, rfl, by simp⟩
  | cons p d ih =>
    obtain ⟨k, v⟩ := p
    obtain ⟨b, h1, h2⟩ := ih (fun l hm => hl l (by simp [hm]))
    unfold claimsLoop
    by_cases e1 : k = c!"value"
    · by_cases e2 : x.pyEq v = true
      · exact ⟨true, by simp [e1, e2], by simp [e1, (pyEq_iff _ _).1 e2]⟩
      · exact ⟨b, by simp [e1, e2, h1], by rw [h2]; simp [e1, show ¬ SameJson x v from fun h => e2 ((pyEq_iff x v).2 h)]⟩
    · by_cases e2 : k = c!"values"
      · obtain ⟨b', h3, h4⟩ := pyIn_list x (hl v (by simp [e2]))
        cases b' with
        | true => exact ⟨true, by simp [e1, e2, h3], by simp [e1, e2, h4.1 rfl]⟩
        | false =>
          have : ¬ ElemOf x v := fun h => by simpa using h4.2 h
          exact ⟨b, by simp [e1, e2, h3, h1], by rw [h2]; simp [e1, e2, this]⟩
      · exact ⟨b, by simp [e1, e2, h1], by rw [h2]; simp [e1, e2]⟩

/-- C36: for a well-formed specification `claims_match` never raises, and holds exactly if the user has a value and the
specification allows it. -/
theorem C36_claims_match_iff (value : Option Val) (spec : ClaimSpec) (hw : WellFormed spec) :
    ∃ b, claimsMatch value spec = .ok b ∧ (b = true ↔ ∃ x, HasValue value x ∧ Allows spec x) := by
  unfold claimsMatch
  cases value with
  | none => exact ⟨false, rfl, by simp [HasValue]⟩
  | some v =>
    by_cases hv : v = .null
    · subst hv; exact ⟨false, rfl, by simp only [HasValue]; constructor; simp; rintro ⟨x, ⟨h1, h2⟩, _⟩; cases h1; exact absurd rfl h2⟩
    have hx : ∀ (P : Val → Prop), (∃ x, HasValue (some v) x ∧ P x) ↔ P v := by
      intro P
      constructor
      · rintro ⟨x, ⟨h1, _⟩, h⟩; cases h1; exact h
      · intro h; exact ⟨v, ⟨rfl, hv⟩, h⟩
    rw [hx]
    have hm : ∀ (r : Except Exn Bool), (match some v with | none | some .null => Except.ok false | some v => r) = r := by
      intro r; cases v <;> simp_all
    cases spec with
    | none =>
      refine ⟨true, ?_, by simp [Allows]⟩
      cases v <;> simp_all
    | some d =>
      obtain ⟨hd, hl⟩ := hw d rfl
      obtain ⟨b, h1, h2⟩ := claimsLoop_spec v d (fun l hm => hl l (Dict.mem_get? hd hm))
      have hall : Allows (some d) v ↔ d.keys = [c!"essential"] ∨ b = true := by
        unfold Allows
        simp only [reduceCtorEq, Option.some.injEq, exists_eq_left', false_or]
        rw [h2]
        constructor
        · rintro (h | ⟨w, h, e⟩ | ⟨l, h, e⟩)
          · exact .inl h
          · exact .inr ⟨_, Dict.get?_mem h, .inl ⟨rfl, e⟩⟩
          · exact .inr ⟨_, Dict.get?_mem h, .inr ⟨rfl, e⟩⟩
        · rintro (h | ⟨⟨k, w⟩, hm, ⟨hk, e⟩ | ⟨hk, e⟩⟩)
          · exact .inl h
          · simp only at hk; subst hk; exact .inr (.inl ⟨w, Dict.mem_get? hd hm, e⟩)
          · simp only at hk; subst hk; exact .inr (.inr ⟨w, Dict.mem_get? hd hm, e⟩)
      rw [hall]
      cases b with
      | true => exact ⟨true, by cases v <;> simp_all, by simp⟩
      | false => exact ⟨decide (d.keys = [c!"essential"]), by cases v <;> simp_all, by simp⟩

example : WellFormed (some [(c!"essential", .bool true), (c!"values", .lcons (.str c!"a") (.lcons (.str c!"b") .lnil))]) ∧
    claimsMatch (some (.str c!"b")) (some [(c!"essential", .bool true),
      (c!"values", .lcons (.str c!"a") (.lcons (.str c!"b") .lnil))]) = .ok true := by
  refine ⟨?_, by decide⟩
  intro d hd
  cases hd
  refine ⟨by decide, ?_⟩
  intro l hl
  cases hl
  exact .cons _ _ (.cons _ _ .nil)

theorem isInfix_iff (y s : Str) : isInfix y s = true ↔ ∃ a z, s = a ++ y ++ z := by
  induction s with
  | nil => cases y <;> simp [isInfix]
  | cons c s ih =>
    simp only [isInfix, Bool.or_eq_true, List.isPrefixOf_iff_prefix, ih]
    constructor
    · rintro (⟨z, h⟩ | ⟨a, z, h⟩)
      · exact ⟨[], z, h.symm⟩
      · exact ⟨c :: a, z, by rw [h]; rfl⟩
    · rintro ⟨a, z, h⟩
      cases a with
      | nil => exact .inl ⟨z, h.symm⟩
      | cons x a => simp only [List.cons_append, List.cons.injEq] at h; exact .inr ⟨a, z, h.2⟩

/-- The string `k` is a key of the JSON dictionary. -/
def HasKey (k : Str) : Val → Prop
  | .dcons k' _ r => k = k' ∨ HasKey k r
  | _ => False

theorem pyIn_dict (x : Val) {l : Val} (h : IsDict l) : ∃ b, x.pyIn l = some b ∧ (b = true ↔ ∃ k, x = .str k ∧ HasKey k l) := by
  induction h with
  | nil => exact ⟨false, rfl, by simp [HasKey]⟩
  | cons k v r _ ih =>
    obtain ⟨b, h1, h2⟩ := ih
    unfold Val.pyIn
    by_cases e : x = .str k
    · exact ⟨true, by simp [e], by simp [e, HasKey]⟩
    · refine ⟨b, by simp [e, h1], h2.trans ⟨?_, ?_⟩⟩
      · rintro ⟨k', rfl, hk⟩; exact ⟨k', rfl, .inr hk⟩
      · rintro ⟨k', rfl, hk | hk⟩
        · subst hk; exact absurd rfl e
        · exact ⟨k', rfl, hk⟩

/-- C36: what happens if `values` is not a list.  A dictionary stands for its keys, a string for its parts, and anything
else (or a value that is no string, compared with a string) is an exception. -/
theorem C36_values_not_a_list (v l : Val) (hv : v ≠ .null) :
    (IsDict l → ∃ b, claimsMatch (some v) (some [(c!"values", l)]) = .ok b ∧ (b = true ↔ ∃ k, v = .str k ∧ HasKey k l)) ∧
    (∀ s y, l = .str s → v = .str y → ∃ b, claimsMatch (some v) (some [(c!"values", l)]) = .ok b ∧ (b = true ↔ ∃ a z, s = a ++ y ++ z)) ∧
    (∀ s, l = .str s → (∀ y, v ≠ .str y) → claimsMatch (some v) (some [(c!"values", l)]) = .error .typeError) ∧
    ((l = .null ∨ (∃ b, l = .bool b) ∨ ∃ i, l = .int i) → claimsMatch (some v) (some [(c!"values", l)]) = .error .typeError) := by
  have key : claimsMatch (some v) (some [(c!"values", l)]) = match v.pyIn l with
      | none => .error .typeError
      | some b => .ok b := by
    unfold claimsMatch
    have h1 : ((c!"values" : Str) = c!"value") = False := by decide
    have h2 : (Dict.keys [((c!"values" : Str), l)] = [c!"essential"]) = False := by simp [Dict.keys]
    cases hp : v.pyIn l with
    | none => cases v <;> simp_all [claimsLoop]
    | some b => cases b <;> cases v <;> simp_all [claimsLoop]
  rw [key]
  refine ⟨?_, ?_, ?_, ?_⟩
  · intro hd
    obtain ⟨b, h1, h2⟩ := pyIn_dict v hd
    exact ⟨b, by rw [h1], h2⟩
  · rintro s y rfl rfl
    exact ⟨isInfix y s, rfl, isInfix_iff _ _⟩
  · rintro s rfl hy
    cases v <;> first | rfl | exact absurd rfl (hy _)
  · rintro (rfl | ⟨b, rfl⟩ | ⟨i, rfl⟩) <;> rfl

example : claimsMatch (some (.str c!"a")) (some [(c!"values", .dcons c!"b" .null (.dcons c!"a" .null .dnil))]) = .ok true ∧
    claimsMatch (some (.str c!"c")) (some [(c!"values", .dcons c!"b" .null (.dcons c!"a" .null .dnil))]) = .ok false ∧
    claimsMatch (some (.bool true)) (some [(c!"value", .int 1)]) = .ok true ∧
    claimsMatch (some (.bool false)) (some [(c!"value", .int 1)]) = .ok false ∧
    claimsMatch (some (.int 0)) (some [(c!"values", .lcons (.bool true) .lnil)]) = .ok false ∧
    claimsMatch (some (.bool true)) (some [(c!"values", .str c!"true")]) = .error .typeError := by decide

/-- A borderline case: an empty specification `{}` matches nothing. -/
theorem C36_empty_spec_matches_nothing (value : Option Val) : claimsMatch value (some []) = .ok false := by
  unfold claimsMatch
  split <;> simp [claimsLoop, Dict.keys]

theorem userClaimsLoop_spec (info : Dict Val) (r : Claims) (hw : ∀ p ∈ r, WellFormed p.2) :
    ∃ res, userClaimsLoop info r = .ok res ∧
      ∀ k v, (k, v) ∈ res ↔ ∃ spec, (k, spec) ∈ r ∧ HasValue (info.get? k) v ∧ Allows spec v := by
  induction r with
  | nil => exact ⟨[], rfl, by simp⟩
  | cons p r ih =>
    obtain ⟨k, spec⟩ := p
    obtain ⟨res, h1, h2⟩ := ih (fun p hp => hw p (by simp [hp]))
    obtain ⟨b, h3, h4⟩ := C36_claims_match_iff (info.get? k) spec (hw (k, spec) (by simp))
    unfold userClaimsLoop
    simp only [h3, h1]
    refine ⟨_, rfl, ?_⟩
    intro k' v'
    cases b with
    | true =>
      obtain ⟨x, hx, ha⟩ := h4.1 rfl
      simp only [if_true, List.mem_cons, Prod.mk.injEq, hx.1, Option.getD_some]
      constructor
      · rintro (⟨rfl, rfl⟩ | h)
        · exact ⟨spec, .inl ⟨rfl, rfl⟩, hx, ha⟩
        · obtain ⟨s, a, b⟩ := (h2 k' v').1 h; exact ⟨s, .inr a, b⟩
      · rintro ⟨s, ⟨rfl, rfl⟩ | a, hv, ha'⟩
        · have : x = v' := by rw [hx.1] at hv; exact Option.some.inj hv.1
          exact .inl ⟨rfl, this.symm⟩
        · exact .inr ((h2 k' v').2 ⟨s, a, hv, ha'⟩)
    | false =>
      simp only [Bool.false_eq_true, if_false]
      rw [h2]
      constructor
      · rintro ⟨s, a, b⟩; exact ⟨s, by simp [a], b⟩
      · rintro ⟨s, a, hv, ha⟩
        rcases List.mem_cons.1 a with e | a
        · cases e
          have := h4.2 ⟨v', hv, ha⟩
          cases this
        · exact ⟨s, a, hv, ha⟩

/-- C36: the user claims returned are exactly the requested ones for which the user has a value that the request
allows; so they are among the requested claims and the values are those of the user database. -/
theorem C36_user_claims_exact (userDb : Str → Dict Val) (user : Str) (r : Claims) (hw : ∀ p ∈ r, WellFormed p.2) :
    ∃ res, getUserClaims userDb user r = .ok res ∧
      ∀ k v, (k, v) ∈ res ↔ ∃ spec, (k, spec) ∈ r ∧ HasValue ((userDb user).get? k) v ∧ Allows spec v := by
  unfold getUserClaims
  cases r with
  | nil => exact ⟨[], rfl, by simp⟩
  | cons p r => exact userClaimsLoop_spec _ _ hw

/-! ### C37 -/

/-- The client's claims for this usage are not given as a dictionary, or per-client claims are not enabled. -/
def NoClientDict (cfg : ClaimsCfg) (cdb : Cdb) (client usage : Str) : Prop :=
  (∀ m, cfg.modules.get? usage = some m → m.perClient = false) ∨
  ∀ c d, cdb client = some c → c.claims.get? usage ≠ some (.dict d)

/-- C37, the part that holds: unless the client's claims are configured as a dictionary, computing claims changes
nothing. What is missing: `C37_claims_leak_between_sessions`. -/
theorem C37_no_leak_partial (cfg : ClaimsCfg) (cdb : Cdb) (client : Str) (arc : Option (Dict Claims))
    (scopes : List Str) (usage : Str) (h : NoClientDict cfg cdb client usage) :
    (getClaims cfg cdb client arc scopes usage).1 = cdb := by
  have hcc : ∀ m, cfg.modules.get? usage = some m →
      (if m.perClient then clientClaims cdb client usage else ([], false)).2 = false := by
    intro m hm
    rcases h with h | h
    · simp [h m hm]
    · split
      · unfold clientClaims
        cases hc : cdb client with
        | none => rfl
        | some c =>
          simp only
          cases hu : c.claims.get? usage with
          | none => rfl
          | some x =>
            cases x with
            | names l => rfl
            | dict d => exact absurd hu (h c d hc)
      · rfl
  unfold getClaims
  cases hm : cfg.modules.get? usage with
  | none => rfl
  | some m =>
    simp only [hcc m hm]
    split <;> simp

/-- Two requests for one client: the first asks for `email`, the second for nothing. -/
def leakCfg : ClaimsCfg :=
  { modules := [(c!"userinfo", { perClient := true })], scope2claims := [], scopesSupported := [] }
def leakCdb : Cdb := fun c => if c = c!"c1" then
  some { claims := [(c!"userinfo", .dict [(c!"name", none)])] } else none

/-- C37 is false: with the client's claims configured as a dictionary, the claims requested in one session are released in
later sessions that did not request them. -/
theorem C37_claims_leak_between_sessions :
    let first := getClaims leakCfg leakCdb c!"c1" (some [(c!"userinfo", [(c!"email", none)])]) [] c!"userinfo"
    (getClaims leakCfg leakCdb c!"c1" none [] c!"userinfo").2 = .ok [(c!"name", none)] ∧
    (getClaims leakCfg first.1 c!"c1" none [] c!"userinfo").2 = .ok [(c!"name", none), (c!"email", none)] := by
  decide

example : NoClientDict leakCfg (fun _ => some { claims := [(c!"userinfo", .names [c!"name"])] }) c!"c1" c!"userinfo" := by
  refine .inr ?_
  intro c d hc
  cases hc
  simp [Dict.get?]

/-! ### C49 -/

theorem nameClaims_keys (l : List Str) : (nameClaims l).keys = l := by
  simp [nameClaims, Dict.keys, Function.comp_def]

theorem convertScopes_spec (map : Dict (List Str)) (l : List Str) (acc : Claims) :
    (∀ res, convertScopes map l acc = .ok res →
      ∀ n, n ∈ res.keys ↔ n ∈ acc.keys ∨ ∃ s ∈ l, ∃ names, map.get? s = some names ∧ n ∈ names) ∧
    ((∃ res, convertScopes map l acc = .ok res) ↔ ∀ s ∈ l, (map.get? s).isSome) := by
  induction l generalizing acc with
  | nil => simp [convertScopes]
  | cons s l ih =>
    unfold convertScopes
    cases hs : map.get? s with
    | none => simp [hs]
    | some names =>
      obtain ⟨i1, i2⟩ := ih (acc.update (nameClaims names))
      refine ⟨?_, ?_⟩
      · intro res h n
        rw [i1 res h n, Dict.mem_keys_update, nameClaims_keys]
        simp only [List.mem_cons, exists_eq_or_imp, hs, Option.some.injEq, exists_eq_left', or_assoc]
      · simp only [i2, List.mem_cons, forall_eq_or_imp, hs, Option.isSome_some, true_and]

/-- The client may use the scope: it is in the client's own list, or, if that is empty, among the provider's scopes. -/
def ScopeAllowed (cfg : ClaimsCfg) (cdb : Cdb) (client s : Str) : Prop :=
  ∃ c, cdb client = some c ∧
    ((c.allowedScopes ≠ [] ∧ s ∈ c.allowedScopes) ∨
     (c.allowedScopes = [] ∧ cfg.scope2claims.has s = true ∧ (cfg.scopesSupported = [] ∨ s ∈ cfg.scopesSupported)))

theorem filterScopes_mem (cfg : ClaimsCfg) (cdb : Cdb) (client : Str) (scopes : List Str) (s : Str) :
    s ∈ filterScopes cfg cdb client scopes ↔ s ∈ scopes ∧ ScopeAllowed cfg cdb client s := by
  unfold filterScopes allowedScopes availableScopes ScopeAllowed
  simp only [List.mem_filter, List.contains_iff_mem]
  refine and_congr_right fun _ => ?_
  cases hc : cdb client with
  | none => simp
  | some c =>
    simp only [Option.some.injEq, exists_eq_left']
    by_cases h1 : c.allowedScopes = []
    · simp only [h1, List.isEmpty_nil, if_true, ne_eq, not_true, false_and, true_and, false_or]
      by_cases h2 : cfg.scopesSupported = []
      · simp only [h2, List.isEmpty_nil, if_true, true_or, and_true]
        rw [← Dict.get?_isSome, Dict.has]
      · have : cfg.scopesSupported.isEmpty = false := by simpa using h2
        simp only [this, Bool.false_eq_true, if_false, List.mem_filter, List.contains_iff_mem, h2, false_or]
        rw [← Dict.get?_isSome, Dict.has]
    · have : c.allowedScopes.isEmpty = false := by simpa using h1
      simp [this, h1]

/-- C49: the claims of the requested scopes are exactly those of the scopes the client may use. -/
theorem C49_scope_claims_exact (cfg : ClaimsCfg) (cdb : Cdb) (client : Str) (scopes : List Str) (res : Claims)
    (h : convertScopes cfg.scope2claims (filterScopes cfg cdb client scopes) [] = .ok res) (n : Str) :
    n ∈ res.keys ↔ ∃ s ∈ scopes, ScopeAllowed cfg cdb client s ∧ ∃ names, cfg.scope2claims.get? s = some names ∧ n ∈ names := by
  rw [(convertScopes_spec _ _ _).1 res h n]
  simp only [Dict.keys, List.map_nil, List.not_mem_nil, false_or, filterScopes_mem]
  constructor
  · rintro ⟨s, ⟨a, b⟩, names, c, d⟩; exact ⟨s, a, b, names, c, d⟩
  · rintro ⟨s, a, b, names, c, d⟩; exact ⟨s, ⟨a, b⟩, names, c, d⟩

/-- C49: it fails (`KeyError`) exactly if the client is allowed, and requests, a scope that has no entry in the map. -/
theorem C49_fails_iff (cfg : ClaimsCfg) (cdb : Cdb) (client : Str) (scopes : List Str) :
    (∃ res, convertScopes cfg.scope2claims (filterScopes cfg cdb client scopes) [] = .ok res) ↔
      ∀ s ∈ scopes, ScopeAllowed cfg cdb client s → (cfg.scope2claims.get? s).isSome := by
  rw [(convertScopes_spec _ _ _).2]
  simp only [filterScopes_mem, and_imp]

/-- The claims parameter of the authorization request asks for the claim in the ID token or at the userinfo endpoint.  For
other uses (introspection, access tokens) nothing can be asked for. -/
def ClaimRequested (arc : Option (Dict Claims)) (usage n : Str) : Prop :=
  (usage = c!"id_token" ∨ usage = c!"userinfo") ∧ ∃ d cs, arc = some d ∧ d.get? usage = some cs ∧ n ∈ cs.keys

theorem requestClaims_mem (arc : Option (Dict Claims)) (usage n : Str) :
    n ∈ (requestClaims arc usage).keys ↔ ClaimRequested arc usage n := by
  unfold requestClaims ClaimRequested
  by_cases h : usage = c!"id_token" ∨ usage = c!"userinfo"
  · rw [if_pos h]
    cases arc with
    | none => simp [Dict.get?, Dict.keys]
    | some d =>
      cases hd : d.get? usage with
      | none => simp [hd, Dict.keys]
      | some cs => simp [hd, h]
  · rw [if_neg h]
    simp [h, Dict.keys]

/-- The record of the client has the claim for this use, as a list of names or as a dictionary. -/
def ClientHasClaim (cdb : Cdb) (client usage n : Str) : Prop :=
  ∃ c, cdb client = some c ∧
    ((∃ l, c.claims.get? usage = some (.names l) ∧ n ∈ l) ∨ ∃ d, c.claims.get? usage = some (.dict d) ∧ n ∈ d.keys)

theorem clientClaims_mem (cdb : Cdb) (client usage n : Str) :
    n ∈ (clientClaims cdb client usage).1.keys ↔ ClientHasClaim cdb client usage n := by
  unfold clientClaims ClientHasClaim
  cases hc : cdb client with
  | none => simp [Dict.keys]
  | some c =>
    cases hu : c.claims.get? usage with
    | none => simp [hu, Dict.keys]
    | some e => cases e with
      | names l => simp [hu, nameClaims_keys]
      | dict d => simp [hu]

/-- C49, with a list of allowed claims: the claims are those of the scopes that are known, as far as they are allowed. -/
theorem C49_allowed_claims_exact (map : Dict (List Str)) (allowed scopes : List Str) (n : Str) :
    n ∈ (convertScopesAllowed map allowed scopes []).keys ↔
      n ∈ allowed ∧ ∃ s ∈ scopes, ∃ names, map.get? s = some names ∧ n ∈ names := by
  have gen : ∀ (l : List Str) (acc : Claims), n ∈ (convertScopesAllowed map allowed l acc).keys ↔
      n ∈ acc.keys ∨ (n ∈ allowed ∧ ∃ s ∈ l, ∃ names, map.get? s = some names ∧ n ∈ names) := by
    intro l
    induction l with
    | nil => intro acc; simp [convertScopesAllowed]
    | cons s l ih =>
      intro acc
      unfold convertScopesAllowed
      cases hs : map.get? s with
      | none =>
        simp only [ih, List.mem_cons, exists_eq_or_imp, hs]
        simp
      | some names =>
        simp only [ih, Dict.mem_keys_update, nameClaims_keys, List.mem_filter, List.contains_iff_mem, List.mem_cons, exists_eq_or_imp, hs,
          Option.some.injEq, exists_eq_left']
        constructor
        · rintro ((h | ⟨h1, h2⟩) | ⟨h1, h2⟩)
          · exact Or.inl h
          · exact Or.inr ⟨h2, Or.inl h1⟩
          · exact Or.inr ⟨h1, Or.inr h2⟩
        · rintro (h | ⟨h1, h2 | h2⟩)
          · exact Or.inl (Or.inl h)
          · exact Or.inl (Or.inr ⟨h2, h1⟩)
          · exact Or.inr ⟨h1, h2⟩
  rw [gen]
  simp [Dict.keys]

example : (convertScopesAllowed [(c!"profile", [c!"name", c!"nick"]), (c!"email", [c!"email"])] [c!"name", c!"phone"] [c!"email", c!"x", c!"profile"] []).keys =
    [c!"name"] := by decide

/-- C49 in `get_claims`: with claims-by-scope on, the names of the claims that come out are those of the client's own
claims (if enabled), the base claims, the allowed scopes and the claims request. -/
theorem C49_get_claims_names (cfg : ClaimsCfg) (cdb cdb' : Cdb) (client : Str) (arc : Option (Dict Claims))
    (scopes : List Str) (usage : Str) (m : ClaimsModule) (hm : cfg.modules.get? usage = some m)
    (hs : m.byScope = true) (res : Claims) (h : getClaims cfg cdb client arc scopes usage = (cdb', .ok res)) (n : Str) :
    n ∈ res.keys ↔ (m.perClient = true ∧ ClientHasClaim cdb client usage n) ∨ n ∈ m.baseClaims.keys ∨
      (∃ s ∈ scopes, ScopeAllowed cfg cdb client s ∧ ∃ names, cfg.scope2claims.get? s = some names ∧ n ∈ names) ∨
      ClaimRequested arc usage n := by
  rw [← requestClaims_mem, ← clientClaims_mem]
  unfold getClaims at h
  simp only [hm, hs, true_and] at h
  have hcc : n ∈ (if m.perClient = true then clientClaims cdb client usage else ([], false)).1.keys ↔
      (m.perClient = true ∧ n ∈ (clientClaims cdb client usage).1.keys) := by
    split
    · rename_i e; simp [e]
    · rename_i e; simp [e, Dict.keys]
  by_cases hsc : scopes = []
  · simp only [hsc, not_true, if_false, ne_eq, Prod.mk.injEq, Except.ok.injEq] at h
    rw [← h.2, Dict.mem_keys_update, Dict.mem_keys_update, hcc]
    simp [hsc, or_assoc]
  · simp only [hsc, not_false_eq_true, if_true, ne_eq] at h
    cases hcv : convertScopes cfg.scope2claims (filterScopes cfg cdb client scopes) [] with
    | error e => simp [hcv] at h
    | ok sc =>
      simp only [hcv, Prod.mk.injEq, Except.ok.injEq] at h
      rw [← h.2, Dict.mem_keys_update, Dict.mem_keys_update, Dict.mem_keys_update, hcc,
        C49_scope_claims_exact cfg cdb client scopes sc hcv]
      simp [or_assoc]

def scopeCfg : ClaimsCfg :=
  { modules := [(c!"userinfo", { byScope := true, baseClaims := [(c!"b", none)] })],
    scope2claims := [(c!"openid", [c!"sub"]), (c!"email", [c!"email"]), (c!"phone", [c!"phone"])],
    scopesSupported := [] }
def scopeCdb : Cdb := fun _ => some { allowedScopes := [c!"openid", c!"email"] }

example : (getClaims scopeCfg scopeCdb c!"c" none [c!"email", c!"phone"] c!"userinfo").2 =
    .ok [(c!"b", none), (c!"email", none)] := by decide

end Verif
