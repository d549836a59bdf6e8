import Verif.Spec.UserAuthn
import Verif.Lemmas.Dict
set_option linter.unusedSimpArgs false
/-! C81: the user data store and the login hint lookup. -/
namespace Verif
open Spec

theorem valueSubset_iff {w v : Val} {b : Bool} (h : valueSubset w v = .ok b) : b = true ↔ Fits w v := by
  unfold valueSubset at h
  cases hv : v.list? with
  | some vs =>
    cases hw : w.list? with
    | some ws =>
      simp only [hv, hw] at h
      split at h
      · simp only [Except.ok.injEq] at h
        rw [← h]
        simp only [List.all_eq_true, List.contains_iff_mem]
        constructor
        · exact fun hx => .sublist w v ws vs hv hw hx
        · intro hf
          cases hf with
          | same e => rw [e] at hv; cases hv
          | member _ vs' e1 e2 e3 => rw [hw] at e2; cases e2
          | sublist _ ws' vs' e1 e2 e3 => rw [hv] at e1; rw [hw] at e2; cases e1; cases e2; exact e3
      · cases h
    | none =>
      simp only [hv, hw, Except.ok.injEq] at h
      rw [← h, List.contains_iff_mem]
      constructor
      · exact fun hx => .member w v vs hv hw hx
      · intro hf
        cases hf with
        | same e => rw [e] at hv; cases hv
        | member _ vs' e1 e2 e3 => rw [hv] at e1; cases e1; exact e3
        | sublist _ ws' vs' e1 e2 e3 => rw [hw] at e2; cases e2
  | none =>
    cases hw : w.list? with
    | some ws =>
      simp only [hv, hw, Except.ok.injEq] at h
      rw [← h]
      constructor
      · intro e; cases e
      · intro hf
        cases hf with
        | same e => rw [hw] at hv; cases hv
        | member _ vs' e1 e2 e3 => rw [hw] at e2; cases e2
        | sublist _ ws' vs' e1 e2 e3 => rw [hv] at e1; cases e1
    | none =>
      simp only [hv, hw, Except.ok.injEq] at h
      rw [← h, beq_iff_eq]
      constructor
      · rintro rfl; exact .same w hv
      · intro hf
        cases hf with
        | same e => rfl
        | member _ vs' e1 e2 e3 => rw [hv] at e1; cases e1
        | sublist _ ws' vs' e1 e2 e3 => rw [hv] at e1; cases e1

theorem dictSubset_iff {a b : Dict Val} {r : Bool} (h : dictSubset a b = .ok r) : r = true ↔ RecordFits a b := by
  induction a with
  | nil =>
    simp only [dictSubset, Except.ok.injEq] at h
    rw [← h]
    exact ⟨fun _ k w hk => (nomatch hk), fun _ => rfl⟩
  | cons p a ih =>
    obtain ⟨k, w⟩ := p
    simp only [dictSubset] at h
    cases hg : Dict.get? b k with
    | none =>
      simp only [hg, Except.ok.injEq] at h
      rw [← h]
      constructor
      · intro e; cases e
      · intro hf
        obtain ⟨v, e, _⟩ := hf k w (by simp)
        rw [hg] at e; cases e
    | some v =>
      simp only [hg] at h
      cases hvs : valueSubset w v with
      | error e => simp [hvs] at h
      | ok c =>
        cases c with
        | false =>
          simp only [hvs, Except.ok.injEq] at h
          rw [← h]
          constructor
          · intro e; cases e
          · intro hf
            obtain ⟨v', e, hx⟩ := hf k w (by simp)
            rw [hg] at e; cases e
            exact (valueSubset_iff hvs).2 hx
        | true =>
          simp only [hvs] at h
          rw [ih h]
          constructor
          · intro hf k' w' hm
            rcases List.mem_cons.1 hm with e | e
            · cases e; exact ⟨v, hg, (valueSubset_iff hvs).1 rfl⟩
            · exact hf k' w' e
          · exact fun hf k' w' hm => hf k' w' (by simp [hm])

/-- **C81** (search) The user found is the first one whose record has all wanted values. -/
theorem C81_search_finds_first_match (wanted : Dict Val) (db : Dict (Dict Val)) (uid : Str)
    (h : userSearch wanted db = .ok uid) :
    ∃ before rec after, db = before ++ (uid, rec) :: after ∧ RecordFits wanted rec ∧ ∀ p ∈ before, ¬ RecordFits wanted p.2 := by
  induction db with
  | nil => simp [userSearch] at h
  | cons p db ih =>
    obtain ⟨u, rec⟩ := p
    simp only [userSearch] at h
    cases hd : dictSubset wanted rec with
    | error e => simp [hd] at h
    | ok b =>
      cases b with
      | true =>
        simp only [hd, Except.ok.injEq] at h
        subst h
        exact ⟨[], rec, db, rfl, (dictSubset_iff hd).1 rfl, fun p hp => nomatch hp⟩
      | false =>
        simp only [hd] at h
        obtain ⟨before, rec', after, h1, h2, h3⟩ := ih h
        refine ⟨(u, rec) :: before, rec', after, by rw [h1]; rfl, h2, ?_⟩
        intro p hp
        rcases List.mem_cons.1 hp with e | e
        · subst e; intro hf; have := (dictSubset_iff hd).2 hf; cases this
        · exact h3 p e

/-- **C81** (search) `KeyError` means that there is no such user. -/
theorem C81_search_fails_only_if_nobody_matches (wanted : Dict Val) (db : Dict (Dict Val))
    (h : userSearch wanted db = .error .keyError) : ∀ p ∈ db, ¬ RecordFits wanted p.2 := by
  induction db with
  | nil => intro p hp; cases hp
  | cons p db ih =>
    obtain ⟨u, rec⟩ := p
    simp only [userSearch] at h
    cases hd : dictSubset wanted rec with
    | error e =>
      simp only [hd, Except.error.injEq] at h
      exfalso
      subst h
      -- `dict_subset` itself raises `TypeError` only
      clear ih
      have : ∀ a : Dict Val, dictSubset a rec ≠ .error .keyError := by
        intro a
        induction a with
        | nil => simp [dictSubset]
        | cons q a ih2 =>
          obtain ⟨k, w⟩ := q
          simp only [dictSubset]
          cases Dict.get? rec k with
          | none => simp
          | some v =>
            simp only
            cases hvs : valueSubset w v with
            | error e =>
              have : e = .typeError := by
                unfold valueSubset at hvs
                split at hvs
                · split at hvs
                  · split at hvs
                    · cases hvs
                    · simp at hvs; exact hvs.symm
                  · cases hvs
                · split at hvs <;> cases hvs
              subst this; simp
            | ok b => cases b with
              | false => simp
              | true => simpa using ih2
      exact this wanted hd
    | ok b =>
      cases b with
      | true => simp [hd] at h
      | false =>
        simp only [hd] at h
        intro p hp
        rcases List.mem_cons.1 hp with e | e
        · subst e; intro hf; have := (dictSubset_iff hd).2 hf; cases this
        · exact ih h p e

theorem hashable_iff (x : Val) : x.hashable = true ↔ ¬ Container x := by
  cases x <;> simp only [Val.hashable, Bool.false_eq_true, false_iff, true_iff] <;>
    first | (intro h; cases h; done) | exact fun h => h (by constructor)

theorem valueSubset_total (w v : Val) :
    (Comparable w v → ∃ b, valueSubset w v = .ok b) ∧ (¬ Comparable w v → valueSubset w v = .error .typeError) := by
  unfold valueSubset Comparable
  cases hv : v.list? with
  | none => cases hw : w.list? <;> simp
  | some vs =>
    cases hw : w.list? with
    | none => simp
    | some ws =>
      have key : (ws.all Val.hashable && vs.all Val.hashable) = true ↔ ∀ x, x ∈ ws ∨ x ∈ vs → ¬ Container x := by
        simp only [Bool.and_eq_true, List.all_eq_true, hashable_iff]
        exact ⟨fun h x hx => hx.elim (h.1 x) (h.2 x), fun h => ⟨fun x hx => h x (Or.inl hx), fun x hx => h x (Or.inr hx)⟩⟩
      constructor
      · intro h
        have := key.2 (h ws vs rfl rfl)
        simp only [this, if_true]
        exact ⟨_, rfl⟩
      · intro h
        have : ¬ (ws.all Val.hashable && vs.all Val.hashable) = true := by
          intro hh
          apply h
          rintro ws' vs' ⟨⟩ ⟨⟩
          exact key.1 hh
        simp only [this, if_false, Bool.false_eq_true]

theorem dictSubset_total {a b : Dict Val} (h : ∀ k w, (k, w) ∈ a → ∀ v, Dict.get? b k = some v → Comparable w v) :
    ∃ r, dictSubset a b = .ok r := by
  induction a with
  | nil => exact ⟨_, rfl⟩
  | cons p a ih =>
    obtain ⟨k, w⟩ := p
    simp only [dictSubset]
    cases hg : Dict.get? b k with
    | none => exact ⟨_, rfl⟩
    | some v =>
      obtain ⟨x, hx⟩ := (valueSubset_total w v).1 (h k w (by simp) v hg)
      simp only [hx]
      cases x with
      | false => exact ⟨_, rfl⟩
      | true => exact ih fun k' w' hm => h k' w' (by simp [hm])

/-- **C81** (search) While wanted and stored values can be compared, the search has exactly two outcomes: a user, if some record
fits, and otherwise `KeyError`. -/
theorem C81_search_exact (wanted : Dict Val) (db : Dict (Dict Val))
    (h : ∀ p ∈ db, ∀ k w, (k, w) ∈ wanted → ∀ v, Dict.get? p.2 k = some v → Comparable w v) :
    ((∃ p ∈ db, RecordFits wanted p.2) → ∃ uid, userSearch wanted db = .ok uid) ∧
    ((∀ p ∈ db, ¬ RecordFits wanted p.2) → userSearch wanted db = .error .keyError) := by
  induction db with
  | nil =>
    constructor
    · rintro ⟨p, hp, _⟩; cases hp
    · intro _; rfl
  | cons p db ih =>
    obtain ⟨u, rec⟩ := p
    have ih := ih fun q hq => h q (by simp [hq])
    obtain ⟨x, hx⟩ := dictSubset_total (a := wanted) (b := rec) (h (u, rec) (by simp))
    simp only [userSearch, hx]
    cases x with
    | true =>
      refine ⟨fun _ => ⟨u, rfl⟩, fun hn => ?_⟩
      exact absurd ((dictSubset_iff hx).1 rfl) (hn (u, rec) (by simp))
    | false =>
      have hno : ¬ RecordFits wanted rec := fun hf => by have := (dictSubset_iff hx).2 hf; cases this
      constructor
      · rintro ⟨q, hq, hf⟩
        rcases List.mem_cons.1 hq with e | e
        · subst e; exact absurd hf hno
        · exact ih.1 ⟨q, e, hf⟩
      · exact fun hn => ih.2 fun q hq => hn q (by simp [hq])

/-- C81 is false of other values: a stored list of objects (addresses, say) makes a search for a list raise, whoever else would
fit. -/
theorem C81_search_raises (k u : Str) (w v : Val) (rec : Dict Val) (rest : Dict Val) (db : Dict (Dict Val)) (hv : Dict.get? rec k = some v)
    (h : ¬ Comparable w v) : userSearch ((k, w) :: rest) ((u, rec) :: db) = .error .typeError := by
  simp only [userSearch, dictSubset, hv, (valueSubset_total w v).2 h]

theorem get?_filterGo (info : Dict Val) (cs : Claims) (acc : Dict Val) (k : Str) :
    Dict.get? (cs.foldl (filterStep info) acc) k =
      if k ∈ cs.map (·.1) ∧ (Dict.get? info k).isSome then Dict.get? info k else Dict.get? acc k := by
  induction cs generalizing acc with
  | nil => simp
  | cons p cs ih =>
    simp only [List.foldl_cons]
    rw [ih]
    unfold filterStep
    cases hi : Dict.get? info p.1 with
    | none =>
      by_cases hk : k = p.1
      · subst hk; simp [hi]
      · have e : (k ∈ List.map (·.1) (p :: cs)) = (k ∈ List.map (·.1) cs) := by
          rw [List.map_cons, List.mem_cons]; simp [hk]
        simp only [e]
    | some v =>
      by_cases hk : k = p.1
      · subst hk; simp [hi, Dict.get?_set]
      · have e : (k ∈ List.map (·.1) (p :: cs)) = (k ∈ List.map (·.1) cs) := by
          rw [List.map_cons, List.mem_cons]; simp [hk]
        simp only [e, Dict.get?_set, if_neg hk]

/-- **C81** (release) Of a user's data exactly the claims asked for are handed out, with the stored values, and nothing at all
for an unknown user. -/
theorem C81_exactly_the_claims_asked_for (db : Dict (Dict Val)) (user : Str) (cs : Claims) (k : Str) (v : Val) :
    Dict.get? (userInfoCall db user (some cs)) k = some v ↔
      k ∈ cs.map (·.1) ∧ ∃ info, Dict.get? db user = some info ∧ Dict.get? info k = some v := by
  unfold userInfoCall
  cases hd : Dict.get? db user with
  | none => simp [Dict.get?]
  | some info =>
    simp only [userFilter, get?_filterGo, Option.some.injEq, exists_eq_left']
    cases hi : Dict.get? info k with
    | none => simp [Dict.get?]
    | some x => by_cases hk : k ∈ cs.map (·.1) <;> simp [hk, Dict.get?]

/-- **C81** (hints) With a user data store, a telephone number (made international) finds a user with that number. -/
theorem C81_tel_hint (db : Dict (Dict Val)) (country : Str) (d : Char) (ds : Str) (uid : Option Str)
    (h : loginHintLookup (some db) country (c!"tel:" ++ d :: ds) = .ok uid) :
    ∃ u rec, uid = some u ∧ (u, rec) ∈ db ∧
      RecordFits [(c!"phone_number", .str (if d = '+' then '+' :: ds else '+' :: country ++ ds))] rec := by
  unfold loginHintLookup at h
  have hp : (c!"tel:").isPrefixOf (c!"tel:" ++ d :: ds) = true := by simp [List.isPrefixOf]
  have hdrop : (c!"tel:" ++ d :: ds).drop 4 = d :: ds := rfl
  rw [if_pos hp] at h
  dsimp only at h
  rw [hdrop] at h
  simp only at h
  generalize hnr : (if d = '+' then d :: ds else c!"+" ++ country ++ ds) = nr at h
  have hnr' : (if d = '+' then '+' :: ds else '+' :: country ++ ds) = nr := by
    rw [← hnr]; by_cases hd : d = '+'
    · simp [hd]
    · simp [hd]
  rw [hnr']
  cases hs : userSearch [(c!"phone_number", .str nr)] db with
  | error e => simp [hs] at h
  | ok u =>
    simp only [hs, Except.ok.injEq] at h
    obtain ⟨b, rec, a, h1, h2, _⟩ := C81_search_finds_first_match _ _ _ hs
    exact ⟨u, rec, h.symm, by rw [h1]; simp, h2⟩

/-- C81 is false of the lookup as the provider configures it: it never finds anybody, and every telephone hint raises. -/
theorem C81_configured_lookup_useless (users : Dict (Dict Val)) (hint : Str) :
    (∀ u, configuredLookup users hint ≠ .ok (some u)) ∧
      ((c!"tel:").isPrefixOf hint = true → ∃ e, configuredLookup users hint = .error e) := by
  unfold configuredLookup loginHintLookup
  dsimp only
  by_cases hp : (c!"tel:").isPrefixOf hint = true
  · simp only [if_pos hp]
    cases hint.drop 4 with
    | nil => exact ⟨by simp, fun _ => ⟨_, rfl⟩⟩
    | cons d ds => exact ⟨by simp, fun _ => ⟨_, rfl⟩⟩
  · simp only [if_neg hp]
    exact ⟨by simp, fun h => absurd h hp⟩

/-- **C81** (hints) Hints of any other kind name nobody, without a failure. -/
theorem C81_other_hints (db : Option (Dict (Dict Val))) (country hint : Str) (h : (c!"tel:").isPrefixOf hint = false) :
    loginHintLookup db country hint = .ok none := by
  unfold loginHintLookup
  simp [h]

/-! ### Witnesses -/

/-- Two plain lists can be compared; a list and a list of objects cannot. -/
example : Comparable (.lcons (.str c!"a") .lnil) (.lcons (.str c!"b") .lnil) ∧
    ¬ Comparable (.lcons (.str c!"a") .lnil) (.lcons .dnil .lnil) := by
  constructor
  · intro ws vs h1 h2 x hx
    simp only [Val.list?, Option.some.injEq] at h1 h2
    subst h1; subst h2
    rcases hx with hx | hx <;> simp only [List.mem_singleton] at hx <;> subst hx <;> (intro h; cases h)
  · intro h
    have := (h [.str c!"a"] [.dnil] rfl rfl .dnil (Or.inr (by simp)))
    exact this .emptyObject


def telUsers : Dict (Dict Val) :=
  [(c!"alice", [(c!"phone_number", .str c!"+4611")]),
   (c!"bob", [(c!"phone_number", .lcons (.str c!"+4690") (.lcons (.str c!"+4691") .lnil)), (c!"email", .str c!"b@x")])]

example : loginHintLookup (some telUsers) c!"46" c!"tel:092" = .error .keyError ∧
    loginHintLookup (some telUsers) c!"46" c!"tel:+4691" = .ok (some c!"bob") ∧
    loginHintLookup (some telUsers) c!"46" c!"tel:011" = .ok (some c!"alice") ∧
    userInfoCall telUsers c!"bob" (some [(c!"email", none), (c!"name", none)]) = [(c!"email", .str c!"b@x")] ∧
    configuredLookup telUsers c!"tel:+4691" = .error .attributeError := by decide

end Verif
