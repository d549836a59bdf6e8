import Verif.Lemmas.GrantHist
/-! Properties of tokens and grants: C07–C12. -/
namespace Verif
open Spec

/-! ### C07 -/

/-- C07: a token counts as active exactly if it is not revoked, its use count is below its limit and the time is within
its validity period. -/
theorem C07_token_active_iff (t : Token) (now : Int) :
    t.isActive now = true ↔ ActiveAt t.toItem t.usageRules.maxUsage now := isActive_iff _ _ _

/-- C07 for grants. -/
theorem C07_grant_active_iff (g : Grant) (now : Int) :
    g.isActive now = true ↔ ActiveAt g.toItem g.maxUsage now := isActive_iff _ _ _

/-- A code that was issued at 100 and expires at 400, unused. -/
def sampleCode : Token :=
  { Token.new .authorizationCode 100 c!"id1"
      { typ := tAuthorizationCode, value := c!"CODE", usageRules := { maxUsage := some 5, expiresIn := some 300 } } with
    expiresAt := 400 }

example : ActiveAt sampleCode.toItem sampleCode.usageRules.maxUsage 400 ∧
    ¬ ActiveAt sampleCode.toItem sampleCode.usageRules.maxUsage 401 ∧
    ¬ ActiveAt sampleCode.registerUsage.toItem sampleCode.registerUsage.usageRules.maxUsage 200 := by
  refine ⟨(C07_token_active_iff _ _).1 (by decide), fun h => ?_, fun h => ?_⟩
  · exact absurd ((C07_token_active_iff _ _).2 h) (by decide)
  · exact absurd ((C07_token_active_iff _ _).2 h) (by decide)

/-! ### C08 -/

/-- C08, decision: minting succeeds exactly if the grant is active, the base token (if any) is active and its rules list
the requested type, the type is one the grant knows, and the token handler produced a value. -/
theorem C08_mint_succeeds_iff (g : Grant) (now : Int) (id tt : Str) (b : Option Token) (rules : Option UsageRules)
    (scope : List Str) (args : MintArgs) (value : Except Exn Str) :
    (∃ t, (g.mintToken now id tt b rules scope args value).2 = .ok (some t)) ↔
      ActiveAt g.toItem g.maxUsage now ∧
      (∀ bt, b = some bt → ActiveAt bt.toItem bt.usageRules.maxUsage now ∧
        ∃ types, bt.usageRules.supportsMinting = some types ∧ tt ∈ types) ∧
      (∃ k, g.tokenMap.get? tt = some k) ∧ ∃ v, value = .ok v := by
  constructor
  · rintro ⟨t, ht⟩
    rcases mintToken_cases g now id tt b rules scope args value with h | ⟨v, k, hv, hg, hk, hb, _⟩
    · exact absurd ht (h.2 t)
    · refine ⟨(C07_grant_active_iff g now).1 hg, ?_, ⟨k, hk⟩, v, hv⟩
      intro bt hbt
      obtain ⟨h1, h2⟩ := hb bt hbt
      refine ⟨(C07_token_active_iff bt now).1 h2, ?_⟩
      unfold Token.supportsMinting at h1
      split at h1
      · cases h1
      · rename_i l hl; exact ⟨l, hl, by simpa using h1⟩
  · rintro ⟨hg, hb, ⟨k, hk⟩, v, rfl⟩
    have hg' := (C07_grant_active_iff g now).2 hg
    unfold Grant.mintToken
    simp only [hg', Bool.true_eq_false, if_false]
    cases b with
    | none => simp [hk]
    | some bt =>
      obtain ⟨h1, l, hl, hm⟩ := hb bt rfl
      have h1' := (C07_token_active_iff bt now).2 h1
      have h2 : bt.supportsMinting tt = true := by simp [Token.supportsMinting, hl, hm]
      simp [h1', h2, hk]

/-- C08, effect: a successful mint appends exactly one new token (unused, not revoked, of the requested type, with the
handler's value and the base token's value) and counts one use of the grant; nothing else changes. -/
theorem C08_mint_effect (g g' : Grant) (now : Int) (id tt : Str) (b : Option Token) (rules : Option UsageRules)
    (scope : List Str) (args : MintArgs) (value : Except Exn Str) (t : Token)
    (h : g.mintToken now id tt b rules scope args value = (g', .ok (some t))) :
    g' = { g with issuedToken := g.issuedToken ++ [t], used := g.used + 1 } ∧
    t.basedOn = b.map Token.value ∧ t.typ = tt ∧ value = .ok t.value ∧ t.scope = scope ∧
    t.revoked = false ∧ t.used = 0 ∧ g.tokenMap.get? tt = some t.kind := by
  rcases mintToken_cases g now id tt b rules scope args value with hn | ⟨v, k, hv, hg, hk, hb, item, hi, hr⟩
  · exact absurd (by rw [h]) (hn.2 t)
  · rw [hr] at h
    obtain ⟨rfl, h2⟩ := Prod.mk.inj h
    cases h2
    subst hi
    exact ⟨rfl, rfl, rfl, hv, rfl, rfl, rfl, hk⟩

/-- C08, frame: a mint that does not return a token leaves the grant exactly as it was. -/
theorem C08_failed_mint_changes_nothing (g : Grant) (now : Int) (id tt : Str) (b : Option Token)
    (rules : Option UsageRules) (scope : List Str) (args : MintArgs) (value : Except Exn Str)
    (h : ∀ t, (g.mintToken now id tt b rules scope args value).2 ≠ .ok (some t)) :
    (g.mintToken now id tt b rules scope args value).1 = g := by
  rcases mintToken_cases g now id tt b rules scope args value with hn | ⟨v, k, hv, hg, hk, hb, item, hi, hr⟩
  · exact hn.1
  · exact absurd (by rw [hr]) (h item)

/-- A grant created at time 100 with usual rules. -/
def sampleGrant : Grant := Grant.new 100 c!"g1"
  { scope := [c!"openid", c!"offline_access"],
    usageRules := [(tAuthorizationCode, { supportsMinting := some [tAccessToken, tRefreshToken] }),
                   (tRefreshToken, { supportsMinting := some [tAccessToken, tRefreshToken] })] }

/-- `sampleGrant` with a code in it, then an access and a refresh token minted from the code, then a refreshed pair. -/
def sampleOps : List GrantOp :=
  [.mint 100 c!"i1" tAuthorizationCode none none [] {} (.ok c!"C"),
   .mint 101 c!"i2" tAccessToken (some 0) none [] {} (.ok c!"A"),
   .mint 101 c!"i3" tRefreshToken (some 0) none [] {} (.ok c!"R"),
   .use c!"C",
   .mint 102 c!"i4" tAccessToken (some 2) none [] {} (.ok c!"A2"),
   .mint 102 c!"i5" tRefreshToken (some 2) none [] {} (.ok c!"R2")]

example : (sampleGrant.run sampleOps).issuedToken.map (fun t => (t.value, t.basedOn, t.used)) =
    [(c!"C", none, 1), (c!"A", some c!"C", 0), (c!"R", some c!"C", 0), (c!"A2", some c!"R", 0),
     (c!"R2", some c!"R", 0)] := by decide

/-- After the code was used it mints nothing any more, and the grant is unchanged by the attempt. -/
example : let g := sampleGrant.run sampleOps
    (g.mintToken 103 c!"i6" tAccessToken (g.getToken c!"C") none [] {} (.ok c!"A3")) = (g, .error .mintingNotAllowed) := by
  decide

/-! ### C09 -/

/-- C09: in every grant that any history can produce, token values are distinct and every token is based on nothing or on
a token issued earlier in the same grant. -/
theorem C09_tokens_form_a_forest (g : Grant) (h : GrantReach g) : Forest g.issuedToken := reach_forest h

/-- The sample history is such a history. -/
theorem sample_reach : GrantReach (sampleGrant.run sampleOps) := by
  have h0 : GrantReach sampleGrant := GrantReach.new _ _ _ rfl
  simp only [Grant.run, sampleOps, List.foldl_cons, List.foldl_nil]
  have fr : ∀ (g : Grant) now id tt b r s a v, v ≠ [] → v ∉ g.issuedToken.map Token.value →
      FreshFor g (.mint now id tt b r s a (.ok v)) := by
    intro g now id tt b r s a v h1 h2
    exact ⟨h1, fun t ht e => h2 (e ▸ List.mem_map_of_mem ht)⟩
  refine GrantReach.step _ _ (GrantReach.step _ _ (GrantReach.step _ _ (GrantReach.step _ _ (GrantReach.step _ _
    (GrantReach.step _ _ h0 ?_) ?_) ?_) ?_) ?_) ?_
  · exact fr _ _ _ _ _ _ _ _ _ (by decide) (by decide)
  · exact fr _ _ _ _ _ _ _ _ _ (by decide) (by decide)
  · exact fr _ _ _ _ _ _ _ _ _ (by decide) (by decide)
  · trivial
  · exact fr _ _ _ _ _ _ _ _ _ (by decide) (by decide)
  · exact fr _ _ _ _ _ _ _ _ _ (by decide) (by decide)

/-! ### C10 -/

theorem not_derived_of_unknown {l : List Token} (hf : Forest l) {v c : Str} (h : DerivedFrom l v c) :
    ∃ t ∈ l, t.value = v := by
  induction h with
  | direct t ht hb =>
    obtain ⟨j, hj⟩ := List.getElem?_of_mem ht
    obtain ⟨i, s, _, hi, hs⟩ := hf.earlier j t v hj hb
    exact ⟨s, List.mem_of_getElem? hi, hs⟩
  | step t b ht hb _ ih => exact ih

/-- C10: in every reachable grant, for every token value and any derivation structure, recursive revocation finishes
(if the interpreter's recursion limit exceeds the number of tokens of the grant), afterwards the revoked tokens are
exactly those that were revoked before, the named one, and those directly or transitively minted from it; nothing else
about any token, and nothing else in the grant, changes. -/
theorem C10_recursive_revocation_exact (g : Grant) (hr : GrantReach g) (v : Str) (hv : v ≠ []) (limit : Nat)
    (hl : g.issuedToken.length < limit) :
    ∃ l', g.revokeToken limit v [] true = ({ g with issuedToken := l' }, true) ∧
      l'.length = g.issuedToken.length ∧
      ∀ (k : Nat) (t : Token), g.issuedToken[k]? = some t → ∃ t', l'[k]? = some t' ∧ SameButRevoked t t' ∧
        (t'.revoked = true ↔ t.revoked = true ∨ t.value = v ∨ DerivedFrom g.issuedToken v t.value) := by
  have hf := reach_forest hr
  obtain ⟨fuel, rfl⟩ : ∃ fuel, limit = fuel + 1 := ⟨limit - 1, by omega⟩
  unfold Grant.revokeToken
  rw [revokeTokenL_value_eq fuel v hv]
  obtain ⟨r, hr', hm⟩ := revLoop g.issuedToken (fun t => decide (t.value = v))
    (by intro a b h; simp [h.value]) (fun x cur => revokeTokenL fuel [] x true cur) (DerivedPos g.issuedToken)
    (by
      intro i t cur P hi hs hc
      exact revokeTokenL_based g.issuedToken hf fuel i t hi (by omega) cur P hc)
    g.issuedToken _ (Marks.refl _)
  rw [hr']
  refine ⟨r, rfl, hm.1, ?_⟩
  intro k t hk
  obtain ⟨t', ht', hs, hiff⟩ := hm.2 k t hk
  refine ⟨t', ht', hs, ?_⟩
  rw [hiff]
  refine or_congr Iff.rfl ?_
  constructor
  · rintro ⟨j, s, hj, hsv, h⟩
    have hsv' : s.value = v := by simpa using hsv
    rcases h with rfl | ⟨t2, h2, h3⟩
    · rw [hk] at hj
      cases hj
      exact Or.inl hsv'
    · rw [hk] at h2
      cases h2
      exact Or.inr (hsv' ▸ h3)
  · rintro (h | h)
    · exact ⟨k, t, hk, by simp [h], Or.inl rfl⟩
    · obtain ⟨s, hs, hsv⟩ := not_derived_of_unknown hf h
      obtain ⟨j, hj⟩ := List.getElem?_of_mem hs
      exact ⟨j, s, hj, by simp [hsv], Or.inr ⟨t, hk, hsv ▸ h⟩⟩

/-- C10 for the session manager's variant (`_revoke_dependent`): exactly the tokens derived from the named one. -/
theorem C10_revoke_dependent_exact (g : Grant) (hr : GrantReach g) (i : Nat) (t0 : Token)
    (h0 : g.issuedToken[i]? = some t0) (limit : Nat) (hl : g.issuedToken.length ≤ limit) :
    ∃ l', revokeDependentL limit t0.value g.issuedToken = (l', true) ∧
      l'.length = g.issuedToken.length ∧
      ∀ (k : Nat) (t : Token), g.issuedToken[k]? = some t → ∃ t', l'[k]? = some t' ∧ SameButRevoked t t' ∧
        (t'.revoked = true ↔ t.revoked = true ∨ DerivedFrom g.issuedToken t0.value t.value) := by
  obtain ⟨r, h1, h2⟩ := revokeDependentL_based g.issuedToken (reach_forest hr) limit i t0 h0 (by omega)
    g.issuedToken _ (Marks.refl _)
  refine ⟨r, h1, h2.1, fun k t hk => ?_⟩
  obtain ⟨t', ht', hs, hiff⟩ := h2.2 k t hk
  refine ⟨t', ht', hs, ?_⟩
  rw [hiff]
  refine or_congr Iff.rfl ?_
  constructor
  · rintro ⟨t2, h2, h3⟩
    rw [hk] at h2
    cases h2
    exact h3
  · intro h; exact ⟨t, hk, h⟩

/-- In the sample history, revoking the refresh token revokes it and the pair minted from it, and not the code or the
first access token. -/
example : let g := ((sampleGrant.run sampleOps).revokeToken 1000 c!"R" [] true).1
    g.issuedToken.map (fun t => (t.value, t.revoked)) =
      [(c!"C", false), (c!"A", false), (c!"R", true), (c!"A2", true), (c!"R2", true)] := by decide

/-- C10 without `recursive`: only the named token. -/
theorem C10_non_recursive_exact (g : Grant) (v : Str) (hv : v ≠ []) (limit : Nat) (hl : 0 < limit) :
    ∃ l', g.revokeToken limit v [] false = ({ g with issuedToken := l' }, true) ∧
      l'.length = g.issuedToken.length ∧
      ∀ (k : Nat) (t : Token), g.issuedToken[k]? = some t → ∃ t', l'[k]? = some t' ∧ SameButRevoked t t' ∧
        (t'.revoked = true ↔ t.revoked = true ∨ t.value = v) := by
  obtain ⟨fuel, rfl⟩ : ∃ fuel, limit = fuel + 1 := ⟨limit - 1, by omega⟩
  have e : revokeTokenL (fuel + 1) v [] false g.issuedToken =
      (List.range g.issuedToken.length).foldl
        (revStep (fun _ cur => (cur, true)) (fun t => decide (t.value = v))) (g.issuedToken, true) := by
    rw [revokeTokenL]
    congr 1
    funext st i
    unfold revStep
    cases h : st.1[i]? <;> simp [hv]
  unfold Grant.revokeToken
  rw [e]
  obtain ⟨r, hr', hm⟩ := revLoop g.issuedToken (fun t => decide (t.value = v))
    (by intro a b h; simp [h.value]) (fun _ cur => (cur, true)) (fun _ _ => False)
    (by intro i t cur P _ _ _; exact ⟨cur, rfl, Marks.refl cur⟩)
    g.issuedToken _ (Marks.refl _)
  rw [hr']
  refine ⟨r, rfl, hm.1, fun k t hk => ?_⟩
  obtain ⟨t', ht', hs, hiff⟩ := hm.2 k t hk
  refine ⟨t', ht', hs, ?_⟩
  rw [hiff]
  refine or_congr Iff.rfl ?_
  constructor
  · rintro ⟨j, s, hj, hsv, rfl | h⟩
    · rw [hk] at hj
      cases hj
      simpa using hsv
    · cases h
  · intro h; exact ⟨k, t, hk, by simp [h], Or.inl rfl⟩

/-! ### C11 -/

/-- C11: a revoked token stays inactive for ever: whatever happens to the grant afterwards, the token at its place (it is
the same token: same value and kind) is not active at any time. -/
theorem C11_revoked_forever (g : Grant) (k : Nat) (t : Token) (ht : g.issuedToken[k]? = some t)
    (hrev : t.revoked = true) (ops : List GrantOp) :
    ∃ t', (g.run ops).issuedToken[k]? = some t' ∧ t'.value = t.value ∧ t'.kind = t.kind ∧
      ∀ now, ¬ ActiveAt t'.toItem t'.usageRules.maxUsage now := by
  obtain ⟨t', ht', hp⟩ := run_pres ops g k t ht
  refine ⟨t', ht', hp.value, hp.kind, fun now ha => ?_⟩
  have := hp.revoked hrev
  rw [ha.1] at this
  cases this

/-- C11: a used authorization code stays inactive for ever. -/
theorem C11_used_code_forever (g : Grant) (hg : GrantReach g) (k : Nat) (t : Token) (ht : g.issuedToken[k]? = some t)
    (hk : t.kind = .authorizationCode) (hused : 1 ≤ t.used) (ops : List GrantOp) :
    ∃ t', (g.run ops).issuedToken[k]? = some t' ∧ t'.value = t.value ∧ t'.kind = t.kind ∧
      ∀ now, ¬ ActiveAt t'.toItem t'.usageRules.maxUsage now := by
  obtain ⟨t', ht', hp⟩ := run_pres ops g k t ht
  refine ⟨t', ht', hp.value, hp.kind, fun now ha => ?_⟩
  have h1 := reach_codes hg t (List.mem_of_getElem? ht) hk
  have h2 := ha.2.1 1 (by rw [hp.rules hk]; exact h1)
  have h3 := hp.used
  omega

theorem getToken_of_getElem {l : List Token} (h : (l.map Token.value).Nodup) {k : Nat} {t : Token}
    (hk : l[k]? = some t) : findValue t.value l = some t := by
  cases hf : findValue t.value l with
  | none =>
    unfold findValue at hf
    rw [List.find?_eq_none] at hf
    exact absurd (decide_eq_true rfl) (hf t (List.mem_of_getElem? hk))
  | some s =>
    obtain ⟨hs, hv⟩ := findValue_mem hf
    obtain ⟨j, hj⟩ := List.getElem?_of_mem hs
    have := nodup_value_index h hj hk hv
    subst this
    rw [hk] at hj
    exact hj.symm ▸ rfl

/-- Reachability is closed under histories whose minted values are fresh. -/
inductive FreshHistory : Grant → List GrantOp → Prop
  | nil (g : Grant) : FreshHistory g []
  | cons (g : Grant) (op : GrantOp) (ops : List GrantOp) : FreshFor g op → FreshHistory (g.step op) ops →
      FreshHistory g (op :: ops)

theorem reach_run {g : Grant} (hg : GrantReach g) {ops : List GrantOp} (h : FreshHistory g ops) :
    GrantReach (g.run ops) := by
  induction h with
  | nil g => exact hg
  | cons g op ops hf _ ih => exact ih (GrantReach.step g op hg hf)

/-- C11 as the endpoints see it: after a code has been used, or any token revoked, looking its value up after any later
history finds it, inactive. -/
theorem C11_lookup_finds_it_dead (g : Grant) (hg : GrantReach g) (v : Str) (t : Token) (ht : g.getToken v = some t)
    (hdead : t.revoked = true ∨ (t.kind = .authorizationCode ∧ 1 ≤ t.used)) (ops : List GrantOp)
    (hf : FreshHistory g ops) :
    ∃ t', (g.run ops).getToken v = some t' ∧ ∀ now, t'.isActive now = false := by
  obtain ⟨hm, rfl⟩ := findValue_mem ht
  obtain ⟨k, hk⟩ := List.getElem?_of_mem hm
  have : ∃ t', (g.run ops).issuedToken[k]? = some t' ∧ t'.value = t.value ∧ t'.kind = t.kind ∧
      ∀ now, ¬ ActiveAt t'.toItem t'.usageRules.maxUsage now := by
    rcases hdead with h | ⟨h1, h2⟩
    · exact C11_revoked_forever g k t hk h ops
    · exact C11_used_code_forever g hg k t hk h1 h2 ops
  obtain ⟨t', ht', hv, _, hn⟩ := this
  refine ⟨t', ?_, fun now => ?_⟩
  · have := getToken_of_getElem (reach_forest (reach_run hg hf)).distinct ht'
    rw [hv] at this
    exact this
  · cases h : t'.isActive now with
    | false => rfl
    | true => exact absurd ((C07_token_active_iff t' now).1 h) (hn now)

example : ∃ t, (sampleGrant.run sampleOps).getToken c!"C" = some t ∧ t.kind = .authorizationCode ∧ 1 ≤ t.used :=
  ⟨_, rfl, by decide⟩

/-! ### C12 -/

/-- C12: whatever rules are configured and whatever arguments the constructor gets, an authorization code has a usage limit
of one. -/
theorem C12_code_is_single_use (now : Int) (id : Str) (a : TokenArgs) :
    (Token.new .authorizationCode now id a).usageRules.maxUsage = some 1 := rfl

/-- C12 on grants: every authorization code in every reachable grant is limited to one use. -/
theorem C12_codes_in_grants_are_single_use (g : Grant) (h : GrantReach g) (t : Token) (ht : t ∈ g.issuedToken)
    (hk : t.kind = .authorizationCode) : t.usageRules.maxUsage = some 1 := reach_codes h t ht hk

/-- Even with rules that ask for 5 uses. -/
example : sampleCode.usageRules.maxUsage = some 1 := rfl

end Verif
