import Verif.Props.GrantDeep
/-! The other ways of calling `Grant.revoke_token` (C10), what revocation leaves behind when it runs out of stack (C57),
minting from a dead grant (C08). -/
namespace Verif
open Spec
set_option linter.unusedSimpArgs false

/-! ### C10: all combinations of arguments -/

/-- What every way of revoking has in common: the loop with a selection and no recursion marks exactly the selected
tokens. -/
theorem revoke_selected (g : Grant) (limit : Nat) (v b : Str) (r : Bool) (sel : Token → Bool)
    (hsel : ∀ t t', SameButRevoked t t' → sel t' = sel t)
    (e : revokeTokenL limit v b r g.issuedToken =
      (List.range g.issuedToken.length).foldl (revStep (fun _ cur => (cur, true)) sel) (g.issuedToken, true)) :
    ∃ l', g.revokeToken limit v b r = ({ g with issuedToken := l' }, true) ∧
      l'.length = g.issuedToken.length ∧
      ∀ (k : Nat) (t : Token), g.issuedToken[k]? = some t → ∃ t', l'[k]? = some t' ∧ SameButRevoked t t' ∧
        (t'.revoked = true ↔ t.revoked = true ∨ sel t = true) := by
  unfold Grant.revokeToken
  rw [e]
  obtain ⟨r, hr', hm⟩ := revLoop g.issuedToken sel hsel (fun _ cur => (cur, true)) (fun _ _ => False)
    (by intro i t cur P _ _ _; exact ⟨cur, rfl, Marks.refl cur⟩)
    g.issuedToken _ (Marks.refl _)
  rw [hr']
  refine ⟨r, rfl, hm.1, fun k t hk => ?_⟩
  obtain ⟨t', ht', hs, hiff⟩ := hm.2 k t hk
  refine ⟨t', ht', hs, ?_⟩
  rw [hiff]
  refine or_congr Iff.rfl ?_
  constructor
  · rintro ⟨j, s, hj, hsv, rfl | h⟩
    · rw [hk] at hj
      cases hj
      exact hsv
    · cases h
  · intro h; exact ⟨k, t, hk, h, Or.inl rfl⟩

/-- C10 with neither a value nor a base: every token of the grant is revoked, nothing else changes. -/
theorem C10_revoke_all (g : Grant) (limit : Nat) (hl : 0 < limit) (r : Bool) :
    ∃ l', g.revokeToken limit [] [] r = ({ g with issuedToken := l' }, true) ∧
      l'.length = g.issuedToken.length ∧
      ∀ (k : Nat) (t : Token), g.issuedToken[k]? = some t →
        ∃ t', l'[k]? = some t' ∧ SameButRevoked t t' ∧ t'.revoked = true := by
  obtain ⟨fuel, rfl⟩ : ∃ fuel, limit = fuel + 1 := ⟨limit - 1, by omega⟩
  obtain ⟨l', h1, h2, h3⟩ := revoke_selected g (fuel + 1) [] [] r (fun _ => true) (fun _ _ _ => rfl) (by
    rw [revokeTokenL]
    congr 1)
  refine ⟨l', h1, h2, fun k t hk => ?_⟩
  obtain ⟨t', a, b, c⟩ := h3 k t hk
  exact ⟨t', a, b, c.2 (Or.inr rfl)⟩

/-- C10 with both a value and a base: exactly the tokens with that value minted from that base; `recursive` makes no
difference. -/
theorem C10_value_and_base_exact (g : Grant) (v b : Str) (hv : v ≠ []) (hb : b ≠ []) (limit : Nat) (hl : 0 < limit)
    (r : Bool) :
    ∃ l', g.revokeToken limit v b r = ({ g with issuedToken := l' }, true) ∧
      l'.length = g.issuedToken.length ∧
      ∀ (k : Nat) (t : Token), g.issuedToken[k]? = some t → ∃ t', l'[k]? = some t' ∧ SameButRevoked t t' ∧
        (t'.revoked = true ↔ t.revoked = true ∨ (t.value = v ∧ t.basedOn = some b)) := by
  obtain ⟨fuel, rfl⟩ : ∃ fuel, limit = fuel + 1 := ⟨limit - 1, by omega⟩
  obtain ⟨l', h1, h2, h3⟩ := revoke_selected g (fuel + 1) v b r (fun t => decide (t.value = v ∧ t.basedOn = some b))
    (by intro a c h; simp [h.value, h.basedOn]) (by
    rw [revokeTokenL]
    congr 1
    funext st i
    unfold revStep
    cases h : st.1[i]? <;> simp [hv, hb])
  refine ⟨l', h1, h2, fun k t hk => ?_⟩
  obtain ⟨t', a, b, c⟩ := h3 k t hk
  exact ⟨t', a, b, by simpa using c⟩

/-- C10 with only a base, not recursive: exactly the tokens minted directly from it. -/
theorem C10_base_non_recursive_exact (g : Grant) (b : Str) (hb : b ≠ []) (limit : Nat) (hl : 0 < limit) :
    ∃ l', g.revokeToken limit [] b false = ({ g with issuedToken := l' }, true) ∧
      l'.length = g.issuedToken.length ∧
      ∀ (k : Nat) (t : Token), g.issuedToken[k]? = some t → ∃ t', l'[k]? = some t' ∧ SameButRevoked t t' ∧
        (t'.revoked = true ↔ t.revoked = true ∨ t.basedOn = some b) := by
  obtain ⟨fuel, rfl⟩ : ∃ fuel, limit = fuel + 1 := ⟨limit - 1, by omega⟩
  obtain ⟨l', h1, h2, h3⟩ := revoke_selected g (fuel + 1) [] b false (fun t => decide (t.basedOn = some b))
    (by intro a c h; simp [h.basedOn]) (by
    rw [revokeTokenL]
    congr 1
    funext st i
    unfold revStep
    cases h : st.1[i]? <;> simp [hb])
  refine ⟨l', h1, h2, fun k t hk => ?_⟩
  obtain ⟨t', a, b, c⟩ := h3 k t hk
  exact ⟨t', a, b, by simpa using c⟩

/-- C10 with only a base, recursive: exactly the tokens derived from it, in every reachable grant, whether or not a token
with that value exists. -/
theorem C10_base_recursive_exact (g : Grant) (hr : GrantReach g) (b : Str) (hb : b ≠ []) (limit : Nat)
    (hl : g.issuedToken.length < limit) :
    ∃ l', g.revokeToken limit [] b true = ({ g with issuedToken := l' }, true) ∧
      l'.length = g.issuedToken.length ∧
      ∀ (k : Nat) (t : Token), g.issuedToken[k]? = some t → ∃ t', l'[k]? = some t' ∧ SameButRevoked t t' ∧
        (t'.revoked = true ↔ t.revoked = true ∨ DerivedFrom g.issuedToken b t.value) := by
  have hf := reach_forest hr
  obtain ⟨fuel, rfl⟩ : ∃ fuel, limit = fuel + 1 := ⟨limit - 1, by omega⟩
  unfold Grant.revokeToken
  rw [revokeTokenL_based_eq fuel b hb]
  obtain ⟨r, hr', hm⟩ := revLoop g.issuedToken (fun t => decide (t.basedOn = some b))
    (by intro a c h; simp [h.basedOn]) (fun x cur => revokeTokenL fuel [] x true cur) (DerivedPos g.issuedToken)
    (by
      intro i t cur P hi hs hc
      exact revokeTokenL_based g.issuedToken hf fuel i t hi (by omega) cur P hc)
    g.issuedToken _ (Marks.refl _)
  rw [hr']
  refine ⟨r, rfl, hm.1, ?_⟩
  intro k t hk
  obtain ⟨t', ht', hs, hiff⟩ := hm.2 k t hk
  refine ⟨t', ht', hs, ?_⟩
  rw [hiff]
  refine or_congr Iff.rfl ?_
  have hp := derived_positions hf b k t hk
  constructor
  · rintro ⟨j, s, hj, hsv, h⟩
    refine hp.1 ⟨j, s, hj, by simpa using hsv, ?_⟩
    rcases h with rfl | ⟨t2, h2, h3⟩
    · exact Or.inl rfl
    · rw [hk] at h2
      cases h2
      exact Or.inr h3
  · intro h
    obtain ⟨j, s, hj, hsv, h'⟩ := hp.2 h
    refine ⟨j, s, hj, by simp [hsv], ?_⟩
    rcases h' with rfl | h'
    · exact Or.inl rfl
    · exact Or.inr ⟨t, hk, h'⟩

/-- The four calls on the sample history: everything; the access token minted from the code; the direct children of the
code; everything derived from the code (but not the code). -/
example : let g := sampleGrant.run sampleOps
    ((g.revokeToken 10 [] [] false).1.issuedToken.map (fun t => t.revoked) = [true, true, true, true, true]) ∧
    ((g.revokeToken 10 c!"A" c!"C" true).1.issuedToken.map (fun t => t.revoked) = [false, true, false, false, false]) ∧
    ((g.revokeToken 10 c!"A" c!"R" true).1.issuedToken.map (fun t => t.revoked) = [false, false, false, false, false]) ∧
    ((g.revokeToken 10 [] c!"C" false).1.issuedToken.map (fun t => t.revoked) = [false, true, true, false, false]) ∧
    ((g.revokeToken 10 [] c!"C" true).1.issuedToken.map (fun t => t.revoked) = [false, true, true, true, true]) := by decide

/-! ### C57: what is left when the stack runs out -/

/-- Walking down a chain of refresh tokens with `fuel` stack frames fails, having marked the next `fuel` tokens. -/
theorem chain_deep_marks (rec : Nat → Str → List Token → List Token × Bool)
    (hrec : ∀ fuel v cur, v ≠ [] → rec (fuel + 1) v cur = (List.range cur.length).foldl
        (revStep (fun x cur => rec fuel x cur) (fun t => decide (t.basedOn = some v))) (cur, true))
    (h0 : ∀ v cur, rec 0 v cur = (cur, false))
    (n fuel i : Nat) (h : i + fuel ≤ n) (cur : List Token) (P : Nat → Prop)
    (hc : Marks ((List.range (n + 1)).map chainTok) cur P) :
    ∃ r, rec fuel (chainVal i) cur = (r, false) ∧ Marks cur r (fun k => i < k ∧ k ≤ i + fuel) := by
  induction fuel generalizing i cur P with
  | zero =>
    refine ⟨cur, h0 _ _, (Marks.refl cur).congr ?_⟩
    intro k _
    constructor
    · intro h; cases h
    · intro h; omega
  | succ fuel ih =>
    rw [hrec _ _ _ (by simp [chainVal])]
    have hlen : cur.length = n + 1 := by rw [hc.1]; simp
    have key := foldl_range_inv
      (revStep (fun x cur => rec fuel x cur) (fun t => decide (t.basedOn = some (chainVal i))))
      (cur, true) cur.length
      (fun m st => (m ≤ i + 1 → st = (cur, true)) ∧ (i + 1 < m → st.2 = false ∧
        Marks cur st.1 (fun k => i < k ∧ k ≤ i + (fuel + 1))))
      ⟨fun _ => rfl, by omega⟩ ?_
    · have k2 := key.2 (by omega)
      exact ⟨_, Prod.ext rfl k2.1, k2.2⟩
    · intro m st hm ⟨h1, h2⟩
      by_cases hmi : i + 1 < m
      · refine ⟨by omega, fun _ => ?_⟩
        have := h2 hmi
        simp only [revStep, this.1, if_true]
        exact ⟨trivial, this.2⟩
      · have hst := h1 (by omega)
        subst hst
        obtain ⟨t', ht', hs, _⟩ := hc.2 m (chainTok m) (by
          have : m < n + 1 := by omega
          simp [this])
        have hb : t'.basedOn = if m = 0 then none else some (chainVal (m - 1)) := hs.basedOn
        simp only [revStep, ht', hb]
        by_cases hme : m = i + 1
        · subst hme
          refine ⟨by omega, fun _ => ?_⟩
          simp only [Nat.add_one_ne_zero, if_false, Nat.add_sub_cancel, decide_true, if_true]
          have hv : t'.value = chainVal (i + 1) := hs.value
          rw [hv]
          obtain ⟨r, hr, hm'⟩ := ih (i + 1) (by omega) _ _ (hc.trans (Marks.mark cur (i + 1)))
          simp only [Bool.true_eq_false, if_false, hr]
          refine ⟨trivial, ((Marks.mark cur (i + 1)).trans hm').congr ?_⟩
          intro k _
          constructor
          · rintro (h | h) <;> omega
          · intro h
            by_cases e : k = i + 1
            · exact Or.inl e
            · exact Or.inr (by omega)
        · refine ⟨fun _ => ?_, by omega⟩
          have : (if m = 0 then none else some (chainVal (m - 1))) ≠ some (chainVal i) := by
            by_cases h0 : m = 0
            · simp [h0]
            · simp only [h0, if_false]
              intro e
              have := chainVal_inj (Option.some.inj e)
              omega
          simp [this]

/-- C57, the claim is false also for the session manager's `revoke_token(.., recursive=True)` (its `_revoke_dependent`):
whatever the recursion limit, after enough refreshes revoking the tokens derived from the first one fails, and the newest
refresh token (the one still in the client's hands) is left active although it is derived from the revoked one. -/
theorem C57_deep_dependent_fails (limit : Nat) :
    ∃ (g : Grant) (t last : Token), GrantReach g ∧ g.issuedToken[0]? = some t ∧ last ∈ g.issuedToken ∧
      DerivedFrom g.issuedToken t.value last.value ∧
      (revokeDependentL limit t.value g.issuedToken).2 = false ∧
      last ∈ (revokeDependentL limit t.value g.issuedToken).1 ∧ ∀ now, last.isActive now = true := by
  obtain ⟨hr, he⟩ := chainGrant_form (limit + 1)
  have hl : (chainGrant (limit + 1)).issuedToken = (List.range (limit + 1 + 1)).map chainTok := by rw [he]
  obtain ⟨r, h1, h2⟩ := chain_deep_marks revokeDependentL (fun f v cur _ => revokeDependentL_eq f v cur) (fun _ _ => rfl)
    (limit + 1) limit 0 (by omega) _ _ (Marks.refl _)
  have hlast : ((List.range (limit + 1 + 1)).map chainTok)[limit + 1]? = some (chainTok (limit + 1)) := by simp
  have hder : ∀ n, n + 1 ≤ limit + 1 →
      DerivedFrom (chainGrant (limit + 1)).issuedToken (chainTok 0).value (chainTok (n + 1)).value := by
    intro n
    induction n with
    | zero =>
      intro _
      exact DerivedFrom.direct (chainTok 1) (by rw [hl]; exact List.mem_map_of_mem (by simp)) rfl
    | succ n ih =>
      intro hn
      exact DerivedFrom.step (chainTok (n + 2)) (chainTok (n + 1)).value
        (by rw [hl]; exact List.mem_map_of_mem (by simp; omega)) rfl (ih (by omega))
  refine ⟨chainGrant (limit + 1), chainTok 0, chainTok (limit + 1), hr, by rw [hl]; simp,
    by rw [hl]; exact List.mem_of_getElem? hlast, hder limit (by omega), ?_, ?_, fun now => ?_⟩
  · rw [hl]
    show (revokeDependentL limit (chainVal 0) _).2 = false
    rw [h1]
  · rw [hl]
    show _ ∈ (revokeDependentL limit (chainVal 0) _).1
    rw [h1]
    obtain ⟨t', ht', hs, hiff⟩ := h2.2 _ _ hlast
    have hrv : t'.revoked = false := by
      cases hx : t'.revoked with
      | false => rfl
      | true =>
        rcases hiff.1 hx with h | h
        · cases h
        · omega
    have : t' = chainTok (limit + 1) := by
      have e : { chainTok (limit + 1) with revoked := false } = { t' with revoked := false } := hs
      have e1 : chainTok (limit + 1) = { chainTok (limit + 1) with revoked := false } := rfl
      have e2 : t' = { t' with revoked := false } := by
        rw [← hrv]
      rw [e2, ← e, ← e1]
    rw [← this]
    exact List.mem_of_getElem? ht'
  · rfl

/-! ### C08: dead grants -/

/-- C08: an inactive grant mints nothing: no token, no error, no change. -/
theorem C08_inactive_mints_nothing (g : Grant) (now : Int) (id tt : Str) (b : Option Token) (rules : Option UsageRules)
    (scope : List Str) (args : MintArgs) (value : Except Exn Str) (h : ¬ ActiveAt g.toItem g.maxUsage now) :
    g.mintToken now id tt b rules scope args value = (g, .ok none) := by
  have hf : g.isActive now = false := by
    cases hx : g.isActive now with
    | false => rfl
    | true => exact absurd ((C07_grant_active_iff g now).1 hx) h
  unfold Grant.mintToken
  rw [if_pos hf]

example : ¬ ActiveAt sampleGrant.revoke.toItem sampleGrant.revoke.maxUsage 100 := fun h => nomatch h.1

/-! ### C141: what a token is good for -/

/-- C141: while the grant is active, `get_spec` says for a token exactly its own scopes, claims and resources, each
replaced by the grant's where the token has none of its own; an inactive grant's tokens have no spec. -/
theorem C141_spec_of_a_token (g : Grant) (t : Token) (now : Int) :
    (¬ ActiveAt g.toItem g.maxUsage now → g.getSpec t now = none) ∧
    (ActiveAt g.toItem g.maxUsage now → ∃ s, g.getSpec t now = some s ∧
      (t.scope ≠ [] → s.scope = some t.scope) ∧
      (t.scope = [] → g.scope ≠ [] → s.scope = some g.scope) ∧
      (t.scope = [] → g.scope = [] → s.scope = none) ∧
      (t.claims ≠ [] → s.claims = some (.own t.claims)) ∧
      (t.claims = [] → g.claims ≠ [] → s.claims = some (.grants g.claims)) ∧
      (t.claims = [] → g.claims = [] → s.claims = none) ∧
      (t.resources ≠ [] → s.resources = some t.resources) ∧
      (t.resources = [] → g.resources ≠ [] → s.resources = some g.resources) ∧
      (t.resources = [] → g.resources = [] → s.resources = none)) := by
  constructor
  · intro h
    have hf : g.isActive now = false := by
      cases hx : g.isActive now with
      | false => rfl
      | true => exact absurd ((C07_grant_active_iff g now).1 hx) h
    simp [Grant.getSpec, hf]
  · intro h
    have hf : g.isActive now = true := (C07_grant_active_iff g now).2 h
    refine ⟨_, by simp only [Grant.getSpec, hf, Bool.true_eq_false, if_false]; rfl, ?_⟩
    refine ⟨fun h => ?_, fun h h' => ?_, fun h h' => ?_, fun h => ?_, fun h h' => ?_, fun h h' => ?_, fun h => ?_,
      fun h h' => ?_, fun h h' => ?_⟩ <;> simp_all [firstNonEmpty]

/-- C141, the other half is false: that a token which is revoked, expired or used up has no spec. For every active grant
and every token, dead or not, at every time, there is one (`token.is_active` is not called). -/
theorem C141_dead_token_has_spec (g : Grant) (t : Token) (now : Int) (h : ActiveAt g.toItem g.maxUsage now) :
    g.getSpec t now = g.getSpec t.revoke now ∧ (g.getSpec t.revoke now).isSome = true := by
  have hf : g.isActive now = true := (C07_grant_active_iff g now).2 h
  constructor
  · rfl
  · simp [Grant.getSpec, hf]

/-- In the sample history, the first access token, revoked. -/
example : let g := sampleGrant.run sampleOps
    ActiveAt g.toItem g.maxUsage 105 ∧ ∃ t, g.getToken c!"A" = some t ∧
      (g.getSpec t.revoke 105).map (fun s => s.scope) = some (some [c!"openid", c!"offline_access"]) :=
  ⟨(C07_grant_active_iff _ _).1 (by decide), _, rfl, by decide⟩

end Verif
