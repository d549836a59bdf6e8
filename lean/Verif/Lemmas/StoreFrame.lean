import Verif.Lemmas.Manager
set_option linter.unusedSimpArgs false
namespace Verif
open Spec

/-- Client `w` is listed for user `u`. -/
def Listed (s : Store) (u w : Str) : Prop := ∃ ui, s.at [u] = some (.info ui) ∧ w ∈ ui.subordinate

/-- Nothing changed except below `[u, c]` and in the listing of `c` under `u`. -/
structure SameElsewhere (s s' : Store) (u c : Str) : Prop where
  same : ∀ q, GoodPath q → q ≠ [u] → ¬ [u, c] <+: q → s'.at q = s.at q
  listed : ∀ w, w ≠ c → (Listed s' u w ↔ Listed s u w)

theorem SameElsewhere.refl (s : Store) (u c : Str) : SameElsewhere s s u c := ⟨fun _ _ _ _ => rfl, fun _ _ => Iff.rfl⟩
theorem SameElsewhere.trans {s s' s'' : Store} {u c : Str} (h : SameElsewhere s s' u c) (k : SameElsewhere s' s'' u c) :
    SameElsewhere s s'' u c :=
  ⟨fun q a b d => (k.same q a b d).trans (h.same q a b d), fun w hw => (k.listed w hw).trans (h.listed w hw)⟩

theorem prefix2 {u c u' c' : Str} {r : List Str} : [u, c] <+: u' :: c' :: r ↔ u = u' ∧ c = c' := by
  simp [List.cons_prefix_cons]

theorem dbGet2' (s : Store) (u c : Str) (o : Obj) :
    dbGet s [u, c] = .ok o ↔ Listed s u c ∧ s.at [u, c] = some o := by
  rw [dbGet2]
  constructor
  · rintro ⟨ui, a, b, d⟩; exact ⟨⟨ui, a, b⟩, d⟩
  · rintro ⟨⟨ui, a, b⟩, d⟩; exact ⟨ui, a, b, d⟩

theorem dbGet3' (s : Store) (u c g : Str) (o : Obj) :
    dbGet s [u, c, g] = .ok o ↔ Listed s u c ∧ (∃ ci, s.at [u, c] = some (.info ci) ∧ g ∈ ci.subordinate) ∧
      s.at [u, c, g] = some o := by
  rw [dbGet3]
  constructor
  · rintro ⟨ui, ci, a, b, d, e, f⟩; exact ⟨⟨ui, a, b⟩, ⟨ci, d, e⟩, f⟩
  · rintro ⟨⟨ui, a, b⟩, ⟨ci, d, e⟩, f⟩; exact ⟨ui, ci, a, b, d, e, f⟩

theorem reads_elsewhere {s s' : Store} {u c : Str} (h : SameElsewhere s s' u c) {q : List Str}
    (hq : GoodPath q) (hl : q.length ≤ 3) (h1 : q ≠ [u]) (h2 : ¬ [u, c] <+: q) (o : Obj) :
    dbGet s' q = .ok o ↔ dbGet s q = .ok o := by
  match q, hq, hl, h1, h2 with
  | [], hq, _, _, _ => exact absurd rfl hq.1
  | [u'], hq, _, h1, h2 => rw [dbGet1, dbGet1, h.same _ hq h1 h2]
  | [u', c'], hq, _, h1, h2 =>
    have hL : Listed s' u' c' ↔ Listed s u' c' := by
      by_cases e : u' = u
      · subst e
        exact h.listed c' (fun e => h2 (by simp [e, List.cons_prefix_cons]))
      · unfold Listed
        rw [h.same [u'] (goodPath_one (hq.2 u' (by simp))) (by simpa using e) (by simp [List.cons_prefix_cons])]
    rw [dbGet2', dbGet2', hL, h.same _ hq h1 h2]
  | [u', c', g'], hq, _, h1, h2 =>
    have hu' := hq.2 u' (by simp)
    have hc' := hq.2 c' (by simp)
    have hne : ¬ (u = u' ∧ c = c') := fun e => h2 (by rw [prefix2]; exact e)
    have hL : Listed s' u' c' ↔ Listed s u' c' := by
      by_cases e : u' = u
      · subst e
        exact h.listed c' (fun e => hne ⟨rfl, e.symm⟩)
      · unfold Listed
        rw [h.same [u'] (goodPath_one hu') (by simpa using e) (by simp [List.cons_prefix_cons])]
    rw [dbGet3', dbGet3', hL, h.same _ hq h1 h2,
      h.same [u', c'] (goodPath_two hu' hc') (by simp) (by rw [prefix2]; exact hne)]
  | _ :: _ :: _ :: _ :: _, _, hl, _, _ => simp at hl

theorem listed_of_userOr {s s' : Store} {u c w : Str} (h : s'.at [u] = some (.info ((userOr s u).addSubordinate c)))
    (hw : w ≠ c) : Listed s' u w ↔ Listed s u w := by
  unfold Listed
  rw [h]
  simp only [Option.some.injEq, Obj.info.injEq, exists_eq_left', addSub_mem, hw, or_false]
  constructor
  · exact userOr_sub
  · rintro ⟨ui, a, b⟩
    unfold userOr
    rw [a]
    exact b

theorem same_set2 {s s' : Store} {u c : Str} {v : Obj} (hu : GoodId u) (hc : GoodId c)
    (ht : ∀ g, s.at [u] ≠ some (.grant g)) (h : dbSet s [u, c] v = (s', .ok ())) : SameElsewhere s s' u c := by
  obtain ⟨s1, h1, hat⟩ := dbSet2 s v hu hc ht
  rw [h] at h1
  cases h1
  refine ⟨fun q hq a b => ?_, fun w hw => ?_⟩
  · rw [hat q hq]
    have : q ≠ [u, c] := fun e => b (e ▸ List.prefix_refl _)
    simp [this, a]
  · have := hat [u] (goodPath_one hu)
    simp at this
    exact listed_of_userOr this hw

theorem same_set3 {s s' : Store} {u c g : Str} {v : Obj} (hu : GoodId u) (hc : GoodId c) (hg : GoodId g)
    (ht : ∀ g, s.at [u] ≠ some (.grant g)) (ht2 : ∀ g, s.at [u, c] ≠ some (.grant g))
    (h : dbSet s [u, c, g] v = (s', .ok ())) : SameElsewhere s s' u c := by
  obtain ⟨s1, h1, hat⟩ := dbSet3 s v hu hc hg ht ht2
  rw [h] at h1
  cases h1
  refine ⟨fun q hq a b => ?_, fun w hw => ?_⟩
  · rw [hat q hq]
    have e1 : q ≠ [u, c, g] := fun e => b (e ▸ by simp [List.cons_prefix_cons])
    have e2 : q ≠ [u, c] := fun e => b (e ▸ List.prefix_refl _)
    simp [e1, e2, a]
  · have := hat [u] (goodPath_one hu)
    simp at this
    exact listed_of_userOr this hw

theorem same_ensureUser {s s1 : Store} {u c : Str} (hu : GoodId u)
    (hat : ∀ q, GoodPath q → s1.at q =
      if q = [u] ∧ s.at [u] = none then some (.info (SessInfo.user u)) else s.at q) : SameElsewhere s s1 u c := by
  refine ⟨fun q hq a b => by rw [hat q hq]; simp [a], fun w hw => ?_⟩
  unfold Listed
  rw [hat [u] (goodPath_one hu)]
  by_cases h : s.at [u] = none
  · simp [h, SessInfo.user]
  · simp [h]

end Verif
