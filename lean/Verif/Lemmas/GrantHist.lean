import Verif.Spec.GrantHist
import Verif.Lemmas.Grant
namespace Verif
open Spec

/-- How one token may differ after a grant operation. -/
structure Pres (t t' : Token) : Prop where
  value : t'.value = t.value
  basedOn : t'.basedOn = t.basedOn
  kind : t'.kind = t.kind
  typ : t'.typ = t.typ
  revoked : t.revoked = true → t'.revoked = true
  used : t.used ≤ t'.used
  rules : t.kind = .authorizationCode → t'.usageRules = t.usageRules
  scope : t'.scope = t.scope

theorem Pres.refl (t : Token) : Pres t t := ⟨rfl, rfl, rfl, rfl, id, Nat.le_refl _, fun _ => rfl, rfl⟩
theorem Pres.trans {a b c : Token} (h : Pres a b) (k : Pres b c) : Pres a c :=
  ⟨k.value.trans h.value, k.basedOn.trans h.basedOn, k.kind.trans h.kind, k.typ.trans h.typ,
   fun x => k.revoked (h.revoked x),
   Nat.le_trans h.used k.used, fun x => (k.rules (h.kind.trans x)).trans (h.rules x), k.scope.trans h.scope⟩

/-- Pointwise, same length. -/
def Evolves (l r : List Token) : Prop :=
  r.length = l.length ∧ ∀ (k : Nat) (t : Token), l[k]? = some t → ∃ t', r[k]? = some t' ∧ Pres t t'

theorem Evolves.refl (l : List Token) : Evolves l l := ⟨rfl, fun _ t h => ⟨t, h, Pres.refl t⟩⟩

theorem Evolves.updateFirst (v : Str) (f : Token → Token) (hf : ∀ t, Pres t (f t)) (l : List Token) :
    Evolves l (updateFirst v f l) := by
  induction l with
  | nil => exact Evolves.refl _
  | cons a l ih =>
    unfold Verif.updateFirst
    by_cases h : a.value = v
    · simp only [h, if_true]
      refine ⟨rfl, ?_⟩
      intro k t ht
      cases k with
      | zero => simp at ht; subst ht; exact ⟨f a, by simp, hf _⟩
      | succ k => exact ⟨t, by simpa using ht, Pres.refl t⟩
    · simp only [h, if_false]
      refine ⟨by simp [ih.1], ?_⟩
      intro k t ht
      cases k with
      | zero => simp at ht; subst ht; exact ⟨a, by simp, Pres.refl _⟩
      | succ k => simpa using ih.2 k t (by simpa using ht)

theorem OnlyRevokes.evolves {l r : List Token} (h : OnlyRevokes l r) : Evolves l r := by
  obtain ⟨P, hl, hP⟩ := h
  refine ⟨hl, fun k t ht => ?_⟩
  obtain ⟨t', ht', hs, hr⟩ := hP k t ht
  exact ⟨t', ht', hs.value, hs.basedOn, hs.kind, (congrArg Token.typ hs).symm, fun x => hr.2 (Or.inl x),
    by rw [hs.used]; exact Nat.le_refl _, fun _ => hs.usageRules, (congrArg Token.scope hs).symm⟩

theorem Evolves.forest {l r : List Token} (h : Evolves l r) (hf : Forest l) : Forest r := by
  have hback : ∀ (k : Nat) (t' : Token), r[k]? = some t' → ∃ t, l[k]? = some t ∧ Pres t t' := by
    intro k t' ht'
    have hk : k < l.length := by rw [← h.1]; exact (List.getElem?_eq_some_iff.1 ht').1
    obtain ⟨t2, h2, h3⟩ := h.2 k l[k] (by simp [hk])
    rw [ht'] at h2
    cases h2
    exact ⟨l[k], by simp [hk], h3⟩
  have hmap : r.map Token.value = l.map Token.value := by
    apply List.ext_getElem?
    intro k
    simp only [List.getElem?_map]
    cases hk : r[k]? with
    | none =>
      have : l[k]? = none := by
        rw [List.getElem?_eq_none_iff] at hk ⊢
        rw [← h.1]; exact hk
      simp [this]
    | some t' =>
      obtain ⟨t, ht, hp⟩ := hback k t' hk
      simp [ht, hp.value]
  refine ⟨?_, by rw [hmap]; exact hf.distinct, ?_⟩
  · intro t' ht'
    obtain ⟨k, hk⟩ := List.getElem?_of_mem ht'
    obtain ⟨t, ht, hp⟩ := hback k t' hk
    rw [hp.value]
    exact hf.nonempty t (List.mem_of_getElem? ht)
  · intro j t' v hj hv
    obtain ⟨t, ht, hp⟩ := hback j t' hj
    obtain ⟨i, s, hlt, hi, hs⟩ := hf.earlier j t v ht (by rw [← hp.basedOn]; exact hv)
    obtain ⟨s', hs', hps⟩ := h.2 i s hi
    exact ⟨i, s', hlt, hs', by rw [hps.value]; exact hs⟩

theorem findValue_mem {v : Str} {l : List Token} {t : Token} (h : findValue v l = some t) : t ∈ l ∧ t.value = v := by
  unfold findValue at h
  exact ⟨List.mem_of_find?_eq_some h, by simpa using List.find?_some h⟩

theorem findValue_none {v : Str} {l : List Token} (h : ∀ t ∈ l, t.value ≠ v) : findValue v l = none := by
  unfold findValue
  rw [List.find?_eq_none]
  intro t ht
  simpa using h t ht

/-- What minting does to the list of tokens. -/
theorem mintToken_cases (g : Grant) (now : Int) (id tt : Str) (b : Option Token) (rules : Option UsageRules)
    (scope : List Str) (args : MintArgs) (value : Except Exn Str) :
    ((g.mintToken now id tt b rules scope args value).1 = g ∧
      ∀ t, (g.mintToken now id tt b rules scope args value).2 ≠ .ok (some t)) ∨
    ∃ v k, value = .ok v ∧ g.isActive now = true ∧ g.tokenMap.get? tt = some k ∧
      (∀ bt, b = some bt → bt.supportsMinting tt = true ∧ bt.isActive now = true) ∧
      ∃ item, item = Token.new k now id
            { typ := tt, value := v, basedOn := b.map Token.value, scope := scope,
              usageRules := (rules.getD ((g.usageRules.get? tt).getD {})),
              issuedAt := args.issuedAt, expiresIn := args.expiresIn, expiresAt := args.expiresAt,
              notBefore := args.notBefore } ∧
        g.mintToken now id tt b rules scope args value =
          ({ g with issuedToken := g.issuedToken ++ [item], used := g.used + 1 }, .ok (some item)) := by
  unfold Grant.mintToken
  cases hg : g.isActive now with
  | false => left; simp
  | true =>
    simp only [Bool.true_eq_false, if_false]
    cases b with
    | none =>
      simp only
      cases hm : g.tokenMap.get? tt with
      | none => left; simp
      | some k =>
        cases value with
        | error e => left; simp
        | ok v =>
          right
          refine ⟨v, k, rfl, trivial, rfl, by simp, _, rfl, ?_⟩
          cases rules <;> rfl
    | some b =>
      simp only
      cases hb : (b.supportsMinting tt && b.isActive now) with
      | false => left; simp
      | true =>
        simp only [if_true]
        rw [Bool.and_eq_true] at hb
        cases hm : g.tokenMap.get? tt with
        | none => left; simp
        | some k =>
          cases value with
          | error e => left; simp
          | ok v =>
            right
            refine ⟨v, k, rfl, trivial, rfl, by rintro bt ⟨⟩; exact hb, _, rfl, ?_⟩
            cases rules <;> rfl

theorem Evolves.modify (i : Nat) (f : Token → Token) (hf : ∀ t, Pres t (f t)) (l : List Token) :
    Evolves l (l.modify i f) := by
  refine ⟨by simp, fun k t ht => ?_⟩
  rw [List.getElem?_modify]
  by_cases h : i = k
  · exact ⟨f t, by simp [h, ht], hf t⟩
  · exact ⟨t, by simp [h, ht], Pres.refl t⟩

theorem Evolves.setExpiry (i : Nat) (e : Int) (l : List Token) : Evolves l (l.modify i (setExpiresAt e)) :=
  Evolves.modify i (setExpiresAt e) (fun _ => ⟨rfl, rfl, rfl, rfl, id, Nat.le_refl _, fun _ => rfl, rfl⟩) l

theorem Pres.setRules (r : UsageRules) (t : Token) : Pres t (setRules r t) := by
  unfold Verif.setRules
  by_cases h : t.kind = .refreshToken
  · simp only [h, if_true]
    exact ⟨rfl, rfl, h.symm ▸ rfl, rfl, id, Nat.le_refl _, fun x => by simp [h] at x, rfl⟩
  · simp only [h, if_false]
    exact Pres.refl t

/-- Any operation: the existing tokens evolve, and at most one token is appended. -/
theorem step_tokens (g : Grant) (op : GrantOp) :
    Evolves g.issuedToken (g.step op).issuedToken ∨
    ∃ now id tt b rules scope args v k a, op = .mint now id tt b rules scope args (.ok v) ∧
      a.value = v ∧ a.basedOn = (b.bind g.tokenAt).map Token.value ∧ a.revoked = false ∧ a.used = 0 ∧
      (g.step op).issuedToken = g.issuedToken ++ [Token.new k now id a] := by
  cases op with
  | mint now id tt b rules scope args value =>
    simp only [Grant.step]
    rcases mintToken_cases g now id tt (b.bind g.tokenAt) rules scope args value with h | h
    · left; rw [h.1]; exact Evolves.refl _
    · obtain ⟨v, k, rfl, _, _, _, item, hi, hr⟩ := h
      right
      refine ⟨now, id, tt, b, rules, scope, args, v, k, _, rfl, ?_, ?_, ?_, ?_, by rw [hr, hi]⟩ <;> rfl
  | use v =>
    left
    exact Evolves.updateFirst v Token.registerUsage (fun _ => ⟨rfl, rfl, rfl, rfl, id, Nat.le_succ _, fun _ => rfl, rfl⟩) _
  | revokeToken limit v b r => left; exact (revokeTokenL_onlyRevokes _ _ _ _ _).evolves
  | revokeDependent limit v => left; exact (revokeDependentL_onlyRevokes _ _ _).evolves
  | revokeOne v =>
    left
    exact Evolves.updateFirst v Token.revoke (fun _ => ⟨rfl, rfl, rfl, rfl, fun _ => rfl, Nat.le_refl _, fun _ => rfl, rfl⟩) _
  | revokeGrant => left; exact Evolves.refl _
  | setExpiry v e => left; exact Evolves.setExpiry v e _
  | copyRules s d =>
    left
    simp only [Grant.step]
    cases h : g.tokenAt s with
    | none => exact Evolves.refl _
    | some src => exact Evolves.modify d _ (Pres.setRules _) _
  | configure c => left; exact Evolves.refl _

/-- Every operation keeps the token at each position, up to `Pres`. -/
theorem step_pres (g : Grant) (op : GrantOp) (k : Nat) (t : Token) (h : g.issuedToken[k]? = some t) :
    ∃ t', (g.step op).issuedToken[k]? = some t' ∧ Pres t t' := by
  rcases step_tokens g op with he | ⟨_, _, _, _, _, _, _, _, _, _, _, _, _, _, _, he⟩
  · exact he.2 k t h
  · refine ⟨t, ?_, Pres.refl t⟩
    rw [he, List.getElem?_append_left (List.getElem?_eq_some_iff.1 h).1]
    exact h

theorem run_pres (ops : List GrantOp) (g : Grant) (k : Nat) (t : Token) (h : g.issuedToken[k]? = some t) :
    ∃ t', (g.run ops).issuedToken[k]? = some t' ∧ Pres t t' := by
  induction ops generalizing g t with
  | nil => exact ⟨t, h, Pres.refl t⟩
  | cons op ops ih =>
    obtain ⟨t1, h1, p1⟩ := step_pres g op k t h
    obtain ⟨t2, h2, p2⟩ := ih (g.step op) t1 h1
    exact ⟨t2, h2, p1.trans p2⟩

theorem forest_nil : Forest [] := ⟨by simp, by simp, by simp⟩

theorem forest_append {l : List Token} (hf : Forest l) (t : Token) (h1 : t.value ≠ [])
    (h2 : ∀ s ∈ l, s.value ≠ t.value) (h3 : ∀ v, t.basedOn = some v → ∃ s ∈ l, s.value = v) : Forest (l ++ [t]) := by
  refine ⟨?_, ?_, ?_⟩
  · intro s hs
    rcases List.mem_append.1 hs with hs | hs
    · exact hf.nonempty s hs
    · rw [List.mem_singleton] at hs; rw [hs]; exact h1
  · rw [List.map_append, List.nodup_append]
    refine ⟨hf.distinct, by simp, ?_⟩
    intro a ha b hb e
    simp only [List.map_cons, List.map_nil, List.mem_singleton] at hb
    obtain ⟨s, hs, rfl⟩ := List.mem_map.1 ha
    exact h2 s hs (e.trans hb)
  · intro j s v hj hv
    by_cases hjl : j < l.length
    · rw [List.getElem?_append_left hjl] at hj
      obtain ⟨i, s', hij, hi, hs'⟩ := hf.earlier j s v hj hv
      exact ⟨i, s', hij, by rw [List.getElem?_append_left (by omega)]; exact hi, hs'⟩
    · have hjlt := (List.getElem?_eq_some_iff.1 hj).1
      simp only [List.length_append, List.length_singleton] at hjlt
      have hje : j = l.length := by omega
      subst hje
      simp only [List.getElem?_append_right (Nat.le_refl _), Nat.sub_self, List.getElem?_cons_zero,
        Option.some.injEq] at hj
      subst hj
      obtain ⟨s', hs', hv'⟩ := h3 v hv
      obtain ⟨i, hi⟩ := List.getElem?_of_mem hs'
      have := (List.getElem?_eq_some_iff.1 hi).1
      exact ⟨i, s', this, by rw [List.getElem?_append_left this]; exact hi, hv'⟩

theorem step_forest (g : Grant) (op : GrantOp) (hf : Forest g.issuedToken) (hfresh : FreshFor g op) :
    Forest (g.step op).issuedToken := by
  rcases step_tokens g op with he | ⟨now, id, tt, b, rules, scope, args, v, k, a, rfl, ha, hb, _, _, he⟩
  · exact he.forest hf
  · rw [he]
    have hval : (Token.new k now id a).value = v := ha
    refine forest_append hf _ (by rw [hval]; exact hfresh.1) (by rw [hval]; exact hfresh.2) ?_
    intro w hw
    have hb' : (Token.new k now id a).basedOn = (b.bind g.tokenAt).map Token.value := hb
    rw [hb'] at hw
    cases b with
    | none => simp at hw
    | some bv =>
      simp only [Option.bind_some, Option.map_eq_some_iff] at hw
      obtain ⟨s, hs, hsv⟩ := hw
      exact ⟨s, List.mem_of_getElem? hs, hsv⟩

theorem reach_forest {g : Grant} (h : GrantReach g) : Forest g.issuedToken := by
  induction h with
  | new now id a ha => simp only [Grant.new, ha]; exact forest_nil
  | step g op _ hfr ih => exact step_forest g op ih hfr

/-- Codes of a reachable grant carry max_usage 1. -/
theorem reach_codes {g : Grant} (h : GrantReach g) :
    ∀ t ∈ g.issuedToken, t.kind = .authorizationCode → t.usageRules.maxUsage = some 1 := by
  induction h with
  | new now id a ha => simp only [Grant.new, ha]; simp
  | step g op _ hfr ih =>
    rcases step_tokens g op with he | ⟨now, id, tt, b, rules, scope, args, v, k, a, rfl, _, _, _, _, he⟩
    · intro t' ht' hk
      obtain ⟨k, hkk⟩ := List.getElem?_of_mem ht'
      have hlt : k < g.issuedToken.length := by rw [← he.1]; exact (List.getElem?_eq_some_iff.1 hkk).1
      obtain ⟨t2, h2, hp⟩ := he.2 k g.issuedToken[k] (by simp [hlt])
      rw [hkk] at h2
      cases h2
      rw [hp.rules (by rw [← hp.kind]; exact hk)]
      exact ih _ (List.getElem_mem _) (by rw [← hp.kind]; exact hk)
    · rw [he]
      intro t ht hk
      rcases List.mem_append.1 ht with ht | ht
      · exact ih t ht hk
      · rw [List.mem_singleton] at ht
        subst ht
        have : k = .authorizationCode := hk
        subst this
        rfl

end Verif
