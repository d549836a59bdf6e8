import Verif.Spec.Grant
namespace Verif
open Spec

theorem isActive_iff (it : Item) (m : Option Int) (now : Int) : it.isActive m now = true ↔ ActiveAt it m now := by
  unfold Item.isActive ActiveAt Item.maxUsageReached
  cases m with
  | none =>
    cases hr : it.revoked <;> simp <;> grind
  | some m =>
    cases hr : it.revoked <;> simp <;> grind

/-- `r` is `l` with some additional tokens revoked: exactly those at positions in `P`. -/
def Marks (l r : List Token) (P : Nat → Prop) : Prop :=
  r.length = l.length ∧
  ∀ k t, l[k]? = some t → ∃ t', r[k]? = some t' ∧ SameButRevoked t t' ∧ (t'.revoked = true ↔ t.revoked = true ∨ P k)

theorem Marks.refl (l : List Token) : Marks l l (fun _ => False) :=
  ⟨rfl, fun _ t h => ⟨t, h, rfl, by simp⟩⟩

theorem Marks.trans {l r s : List Token} {P Q : Nat → Prop} (h1 : Marks l r P) (h2 : Marks r s Q) :
    Marks l s (fun k => P k ∨ Q k) := by
  refine ⟨h2.1.trans h1.1, fun k t ht => ?_⟩
  obtain ⟨t', ht', hs', hr'⟩ := h1.2 k t ht
  obtain ⟨t'', ht'', hs'', hr''⟩ := h2.2 k t' ht'
  exact ⟨t'', ht'', hs'.trans hs'', by rw [hr'', hr', or_assoc]⟩

theorem Marks.congr {l r : List Token} {P Q : Nat → Prop} (h : Marks l r P)
    (hpq : ∀ k, k < l.length → (P k ↔ Q k)) : Marks l r Q := by
  refine ⟨h.1, fun k t ht => ?_⟩
  obtain ⟨t', ht', hs', hr'⟩ := h.2 k t ht
  have hk : k < l.length := (List.getElem?_eq_some_iff.1 ht).1
  exact ⟨t', ht', hs', by rw [hr', hpq k hk]⟩

theorem Marks.mark (l : List Token) (i : Nat) : Marks l (markRevoked i l) (fun k => k = i) := by
  refine ⟨by simp [markRevoked], fun k t ht => ?_⟩
  unfold markRevoked
  rw [List.getElem?_modify]
  by_cases h : i = k
  · subst h
    simp only [if_true, ht]
    exact ⟨t.revoke, rfl, rfl, by simp [Token.revoke]⟩
  · simp only [h, if_false, ht]
    exact ⟨t, rfl, rfl, by simp [Ne.symm h]⟩

theorem Spec.SameButRevoked.value {t t' : Token} (h : SameButRevoked t t') : t'.value = t.value :=
  (congrArg Token.value h).symm
theorem Spec.SameButRevoked.basedOn {t t' : Token} (h : SameButRevoked t t') : t'.basedOn = t.basedOn :=
  (congrArg Token.basedOn h).symm
theorem Spec.SameButRevoked.kind {t t' : Token} (h : SameButRevoked t t') : t'.kind = t.kind :=
  (congrArg Token.kind h).symm
theorem Spec.SameButRevoked.used {t t' : Token} (h : SameButRevoked t t') : t'.used = t.used :=
  (congrArg (fun t => t.toItem.used) h).symm
theorem Spec.SameButRevoked.usageRules {t t' : Token} (h : SameButRevoked t t') : t'.usageRules = t.usageRules :=
  (congrArg Token.usageRules h).symm
theorem Spec.SameButRevoked.refl (t : Token) : SameButRevoked t t := rfl

/-- Whatever a revocation does, it only revokes. -/
def OnlyRevokes (l r : List Token) : Prop := ∃ P, Marks l r P

theorem OnlyRevokes.refl (l : List Token) : OnlyRevokes l l := ⟨_, Marks.refl l⟩
theorem OnlyRevokes.trans {l r s : List Token} (h1 : OnlyRevokes l r) (h2 : OnlyRevokes r s) : OnlyRevokes l s := by
  obtain ⟨P, hP⟩ := h1
  obtain ⟨Q, hQ⟩ := h2
  exact ⟨_, hP.trans hQ⟩
theorem OnlyRevokes.mark (l : List Token) (i : Nat) : OnlyRevokes l (markRevoked i l) := ⟨_, Marks.mark l i⟩

theorem foldl_range_inv {σ : Type} (f : σ → Nat → σ) (s : σ) (n : Nat) (I : Nat → σ → Prop) (h0 : I 0 s)
    (hs : ∀ m st, m < n → I m st → I (m + 1) (f st m)) : I n ((List.range n).foldl f s) := by
  suffices ∀ m, m ≤ n → I m ((List.range m).foldl f s) from this n (Nat.le_refl _)
  intro m
  induction m with
  | zero => intro _; simpa using h0
  | succ m ih =>
    intro hm
    rw [List.range_succ, List.foldl_append]
    exact hs m _ (by omega) (ih (by omega))

theorem revokeTokenL_onlyRevokes (fuel : Nat) (v b : Str) (rec : Bool) (l : List Token) :
    OnlyRevokes l (revokeTokenL fuel v b rec l).1 := by
  induction fuel generalizing v b rec l with
  | zero => exact OnlyRevokes.refl l
  | succ fuel ih =>
    unfold revokeTokenL
    refine foldl_range_inv _ (l, true) l.length (fun _ st => OnlyRevokes l st.1) (OnlyRevokes.refl l) ?_
    intro m st _ hst
    have hm : OnlyRevokes l (markRevoked m st.1) := hst.trans (OnlyRevokes.mark _ _)
    have hr : ∀ v b rec, OnlyRevokes l (revokeTokenL fuel v b rec (markRevoked m st.1)).1 :=
      fun v b rec => hm.trans (ih v b rec _)
    repeat' split
    all_goals first | exact hst | exact hm | exact hr _ _ _

theorem revokeDependentL_onlyRevokes (fuel : Nat) (v : Str) (l : List Token) :
    OnlyRevokes l (revokeDependentL fuel v l).1 := by
  induction fuel generalizing v l with
  | zero => exact OnlyRevokes.refl l
  | succ fuel ih =>
    unfold revokeDependentL
    refine foldl_range_inv _ (l, true) l.length (fun _ st => OnlyRevokes l st.1) (OnlyRevokes.refl l) ?_
    intro m st _ hst
    have hm : OnlyRevokes l (markRevoked m st.1) := hst.trans (OnlyRevokes.mark _ _)
    repeat' split
    all_goals first | exact hst | exact hm.trans (ih _ _)

/-- Transfer of lookups along marks, backwards. -/
theorem Marks.back {l r : List Token} {P : Nat → Prop} (h : Marks l r P) {k : Nat} {t' : Token}
    (ht' : r[k]? = some t') : ∃ t, l[k]? = some t ∧ SameButRevoked t t' ∧ (t'.revoked = true ↔ t.revoked = true ∨ P k) := by
  have hk : k < l.length := by rw [← h.1]; exact (List.getElem?_eq_some_iff.1 ht').1
  obtain ⟨t2, h2, h3, h4⟩ := h.2 k l[k] (by simp [hk])
  rw [ht'] at h2
  cases h2
  exact ⟨l[k], by simp [hk], h3, h4⟩

theorem derived_cons_left {l : List Token} {a c : Str} (h : DerivedFrom l a c) :
    ∃ t ∈ l, t.basedOn = some a ∧ (t.value = c ∨ DerivedFrom l t.value c) := by
  induction h with
  | direct t ht hb => exact ⟨t, ht, hb, Or.inl rfl⟩
  | step t b ht hb _ ih =>
    obtain ⟨s, hs, hsb, h⟩ := ih
    refine ⟨s, hs, hsb, Or.inr ?_⟩
    rcases h with rfl | h
    · exact DerivedFrom.direct t ht hb
    · exact DerivedFrom.step t b ht hb h

theorem derived_of_left {l : List Token} {a c : Str} {t : Token} (ht : t ∈ l) (hb : t.basedOn = some a)
    (h : DerivedFrom l t.value c) : DerivedFrom l a c := by
  induction h with
  | direct s hs hsb => exact DerivedFrom.step s _ hs hsb (DerivedFrom.direct t ht hb)
  | step s b hs hsb _ ih => exact DerivedFrom.step s b hs hsb ih

theorem nodup_value_index {l : List Token} (h : (l.map Token.value).Nodup) {i j : Nat} {s t : Token}
    (hi : l[i]? = some s) (hj : l[j]? = some t) (e : s.value = t.value) : i = j := by
  have hi1 := (List.getElem?_eq_some_iff.1 hi).1
  exact (List.getElem?_inj (l := l.map Token.value) (by simpa using hi1) h).1 (by simp [hi, hj, e])

/-- Children of `v`, their descendants included, as positions. -/
theorem derived_positions {l : List Token} (hf : Forest l) (v : Str) (k : Nat) (t : Token) (hk : l[k]? = some t) :
    (∃ (j : Nat) (s : Token), l[j]? = some s ∧ s.basedOn = some v ∧ (k = j ∨ DerivedFrom l s.value t.value)) ↔
      DerivedFrom l v t.value := by
  constructor
  · rintro ⟨j, s, hj, hb, h⟩
    have hs : s ∈ l := List.mem_of_getElem? hj
    rcases h with rfl | h
    · rw [hk] at hj
      cases hj
      exact DerivedFrom.direct t hs hb
    · exact derived_of_left hs hb h
  · intro h
    obtain ⟨s, hs, hb, h'⟩ := derived_cons_left h
    obtain ⟨j, hj⟩ := List.getElem?_of_mem hs
    refine ⟨j, s, hj, hb, ?_⟩
    rcases h' with h' | h'
    · exact Or.inl (nodup_value_index hf.distinct hk hj h'.symm)
    · exact Or.inr h'

/-- One step of the loop, abstractly. -/
def revStep (rec : Str → List Token → List Token × Bool) (sel : Token → Bool) (st : List Token × Bool) (i : Nat) :
    List Token × Bool :=
  if st.2 = false then st
  else match st.1[i]? with
  | none => st
  | some t => if sel t then rec t.value (markRevoked i st.1) else st

theorem revLoop (l : List Token) (sel : Token → Bool)
    (hsel : ∀ t t', SameButRevoked t t' → sel t' = sel t)
    (rec : Str → List Token → List Token × Bool)
    (D : Str → Nat → Prop)
    (hrec : ∀ (i : Nat) (t : Token) (cur : List Token) (P : Nat → Prop), l[i]? = some t → sel t = true → Marks l cur P →
      ∃ r, rec t.value cur = (r, true) ∧ Marks cur r (D t.value))
    (cur : List Token) (P : Nat → Prop) (hcur : Marks l cur P) :
    ∃ r, (List.range cur.length).foldl (revStep rec sel) (cur, true) = (r, true) ∧
      Marks cur r (fun k => ∃ (j : Nat) (s : Token), l[j]? = some s ∧ sel s = true ∧ (k = j ∨ D s.value k)) := by
  have key := foldl_range_inv (revStep rec sel) (cur, true) cur.length
    (fun m st => st.2 = true ∧
      Marks cur st.1 (fun k => ∃ (j : Nat) (s : Token), j < m ∧ l[j]? = some s ∧ sel s = true ∧ (k = j ∨ D s.value k)))
    ⟨rfl, (Marks.refl cur).congr (by intro k _; simp)⟩ ?_
  · generalize hfin : (List.range cur.length).foldl (revStep rec sel) (cur, true) = st at key
    obtain ⟨r, b⟩ := st
    obtain ⟨hb, hm⟩ := key
    simp only at hb
    subst hb
    refine ⟨r, rfl, hm.congr ?_⟩
    intro k _
    constructor
    · rintro ⟨j, s, _, h⟩; exact ⟨j, s, h⟩
    · rintro ⟨j, s, hj, h⟩
      exact ⟨j, s, by rw [hcur.1]; exact (List.getElem?_eq_some_iff.1 hj).1, hj, h⟩
  · rintro m ⟨st, b⟩ hm ⟨hb, hmk⟩
    simp only at hb hmk
    subst hb
    have hml : m < l.length := by rw [← hcur.1]; exact hm
    obtain ⟨t, ht⟩ : ∃ t, l[m]? = some t := ⟨l[m], by simp [hml]⟩
    have hlst := hcur.trans hmk
    obtain ⟨t', ht', hs, _⟩ := hlst.2 m t ht
    have hselt := hsel t t' hs
    simp only [revStep, ht', Bool.true_eq_false, if_false]
    cases hsl : sel t with
    | false =>
      rw [hselt, hsl]
      refine ⟨rfl, hmk.congr ?_⟩
      intro k _
      constructor
      · rintro ⟨j, s, hj, h⟩; exact ⟨j, s, by omega, h⟩
      · rintro ⟨j, s, hj, hjs, hss, h⟩
        by_cases e : j = m
        · subst e
          rw [ht] at hjs
          cases hjs
          rw [hsl] at hss
          cases hss
        · exact ⟨j, s, by omega, hjs, hss, h⟩
    | true =>
      rw [hselt, hsl]
      simp only [if_true]
      have hmk2 := hlst.trans (Marks.mark st m)
      rw [hs.value]
      obtain ⟨r, hr, hrm⟩ := hrec m t _ _ ht hsl hmk2
      rw [hr]
      refine ⟨rfl, ((hmk.trans (Marks.mark st m)).trans hrm).congr ?_⟩
      intro k _
      constructor
      · rintro ((⟨j, s, hj, h⟩ | rfl) | h)
        · exact ⟨j, s, by omega, h⟩
        · exact ⟨k, t, by omega, ht, hsl, Or.inl rfl⟩
        · exact ⟨m, t, by omega, ht, hsl, Or.inr h⟩
      · rintro ⟨j, s, hj, hjs, hss, h⟩
        by_cases e : j = m
        · subst e
          rw [ht] at hjs
          cases hjs
          rcases h with h | h
          · exact Or.inl (Or.inr h)
          · exact Or.inr h
        · exact Or.inl (Or.inl ⟨j, s, by omega, hjs, hss, h⟩)

theorem revokeTokenL_based_eq (fuel : Nat) (v : Str) (hv : v ≠ []) (l : List Token) :
    revokeTokenL (fuel + 1) [] v true l =
      (List.range l.length).foldl
        (revStep (fun x cur => revokeTokenL fuel [] x true cur) (fun t => decide (t.basedOn = some v))) (l, true) := by
  rw [revokeTokenL]
  congr 1
  funext st i
  unfold revStep
  cases h : st.1[i]? <;> simp [hv]

theorem revokeDependentL_eq (fuel : Nat) (v : Str) (l : List Token) :
    revokeDependentL (fuel + 1) v l =
      (List.range l.length).foldl
        (revStep (fun x cur => revokeDependentL fuel x cur) (fun t => decide (t.basedOn = some v))) (l, true) := by
  rw [revokeDependentL]
  congr 1
  funext st i
  unfold revStep
  cases h : st.1[i]? <;> simp

theorem revokeTokenL_value_eq (fuel : Nat) (v : Str) (hv : v ≠ []) (l : List Token) :
    revokeTokenL (fuel + 1) v [] true l =
      (List.range l.length).foldl
        (revStep (fun x cur => revokeTokenL fuel [] x true cur) (fun t => decide (t.value = v))) (l, true) := by
  rw [revokeTokenL]
  congr 1
  funext st i
  unfold revStep
  cases h : st.1[i]? <;> simp [hv]

/-- Positions of the tokens derived from `v`. -/
def DerivedPos (l : List Token) (v : Str) (k : Nat) : Prop := ∃ t, l[k]? = some t ∧ DerivedFrom l v t.value

theorem revoke_based (l : List Token) (hf : Forest l)
    (rec : Nat → Str → List Token → List Token × Bool)
    (hrec : ∀ fuel v cur, v ≠ [] → rec (fuel + 1) v cur = (List.range cur.length).foldl
        (revStep (fun x cur => rec fuel x cur) (fun t => decide (t.basedOn = some v))) (cur, true))
    (fuel : Nat) (i : Nat) (t : Token) (ht : l[i]? = some t) (hfuel : l.length ≤ fuel + i)
    (cur : List Token) (P : Nat → Prop) (hcur : Marks l cur P) :
    ∃ r, rec fuel t.value cur = (r, true) ∧ Marks cur r (DerivedPos l t.value) := by
  induction fuel generalizing i t cur P with
  | zero =>
    have := (List.getElem?_eq_some_iff.1 ht).1
    omega
  | succ fuel ih =>
    have hv : t.value ≠ [] := hf.nonempty t (List.mem_of_getElem? ht)
    rw [hrec _ _ _ hv]
    obtain ⟨r, hr, hm⟩ := revLoop l (fun s => decide (s.basedOn = some t.value))
      (by intro a b h; simp [h.basedOn]) (fun x cur => rec fuel x cur)
      (DerivedPos l) (by
        intro j s cur' P' hj hs hc
        have hs' : s.basedOn = some t.value := by simpa using hs
        obtain ⟨i', s', hlt, hi', hval⟩ := hf.earlier j s t.value hj hs'
        have : i' = i := nodup_value_index hf.distinct hi' ht hval
        exact ih j s hj (by omega) cur' P' hc) cur P hcur
    refine ⟨r, hr, hm.congr ?_⟩
    intro k hk
    have hkl : k < l.length := by rw [← hcur.1]; exact hk
    obtain ⟨tk, htk⟩ : ∃ tk, l[k]? = some tk := ⟨l[k], by simp [hkl]⟩
    have hp := derived_positions hf t.value k tk htk
    constructor
    · rintro ⟨j, s, hj, hs, h⟩
      refine ⟨tk, htk, hp.1 ⟨j, s, hj, by simpa using hs, ?_⟩⟩
      rcases h with h | ⟨t2, ht2, h2⟩
      · exact Or.inl h
      · rw [htk] at ht2
        cases ht2
        exact Or.inr h2
    · rintro ⟨t2, ht2, h2⟩
      rw [htk] at ht2
      cases ht2
      obtain ⟨j, s, hj, hs, h⟩ := hp.2 h2
      refine ⟨j, s, hj, by simpa using hs, ?_⟩
      rcases h with h | h
      · exact Or.inl h
      · exact Or.inr ⟨tk, htk, h⟩

theorem revokeTokenL_based (l : List Token) (hf : Forest l) (fuel i : Nat) (t : Token) (ht : l[i]? = some t)
    (hfuel : l.length ≤ fuel + i) (cur : List Token) (P : Nat → Prop) (hcur : Marks l cur P) :
    ∃ r, revokeTokenL fuel [] t.value true cur = (r, true) ∧ Marks cur r (DerivedPos l t.value) :=
  revoke_based l hf (fun f v cur => revokeTokenL f [] v true cur) (fun f v cur hv => revokeTokenL_based_eq f v hv cur)
    fuel i t ht hfuel cur P hcur

theorem revokeDependentL_based (l : List Token) (hf : Forest l) (fuel i : Nat) (t : Token) (ht : l[i]? = some t)
    (hfuel : l.length ≤ fuel + i) (cur : List Token) (P : Nat → Prop) (hcur : Marks l cur P) :
    ∃ r, revokeDependentL fuel t.value cur = (r, true) ∧ Marks cur r (DerivedPos l t.value) :=
  revoke_based l hf revokeDependentL (fun f v cur _ => revokeDependentL_eq f v cur)
    fuel i t ht hfuel cur P hcur

end Verif
