import Verif.Model.System
import Verif.Lemmas.GrantHist
import Verif.Lemmas.Str
set_option linter.unusedSimpArgs false
set_option linter.unusedVariables false
/-! What the steps of the provider can do to the storage, key by key, for arbitrary identifiers. -/
namespace Verif
open Spec

/-- No session record lists an empty identifier. -/
def NoEmpty (s : Store) : Prop := ∀ k i, s k = some (.info i) → [] ∉ i.subordinate

theorem session_key_unpack (sid : Str) : sessionKey (unpackSessionKey sid) = sid := by
  unfold sessionKey unpackSessionKey
  exact (split_dd_spec ';' sid).1

/-- `o` is a session record that lists no empty identifier, provided the storage had none. -/
def InfoOk (s : Store) (o : Obj) : Prop := ∃ i, o = .info i ∧ (NoEmpty s → [] ∉ i.subordinate)

theorem addSub_noEmpty {i : SessInfo} {v : Str} (h : [] ∉ i.subordinate) (hv : v ≠ []) :
    [] ∉ (i.addSubordinate v).subordinate := by
  unfold SessInfo.addSubordinate
  split
  · exact h
  · simp [h]
    exact hv

theorem dbSetUser_writes (s : Store) (u : Str) (c : Option Str) (v : Obj) (k : Str) (o : Obj)
    (h : (dbSetUser s u c v).1 k = some o) :
    s k = some o ∨ (c = none ∧ k = u ∧ o = v) ∨ InfoOk s o := by
  unfold dbSetUser at h
  rcases c with _ | (_ | ⟨c0, cs⟩)
  · simp only [Store.put] at h
    split at h
    · right; left; simp_all
    · exact Or.inl h
  · exact Or.inl h
  · simp only at h
    cases hu : s u with
    | none =>
      simp only [hu, Store.put] at h
      split at h
      · right; right
        refine ⟨_, (Option.some.inj h).symm, fun _ => addSub_noEmpty (by simp [SessInfo.user]) (by simp)⟩
      · exact Or.inl h
    | some ob =>
      cases ob with
      | grant g => simp only [hu] at h; exact Or.inl h
      | info i =>
        simp only [hu] at h
        split at h
        · exact Or.inl h
        · simp only [Store.put] at h
          split at h
          · right; right
            exact ⟨_, (Option.some.inj h).symm, fun hn => addSub_noEmpty (hn _ _ hu) (by simp)⟩
          · exact Or.inl h

theorem dbSetClient_writes (s : Store) (u c : Str) (g : Option Str) (v : Obj) (hg : g ≠ some []) (k : Str) (o : Obj)
    (h : (dbSetClient s u c g v).1 k = some o) :
    s k = some o ∨ (g = none ∧ k = sessionKey [u, c] ∧ o = v) ∨ InfoOk s o := by
  unfold dbSetClient at h
  rcases g with _ | (_ | ⟨c0, cs⟩)
  · simp only [Store.put] at h
    split at h
    · right; left; simp_all
    · exact Or.inl h
  · exact absurd rfl hg
  · simp only at h
    cases hu : s (sessionKey [u, c]) with
    | none =>
      simp only [hu, Store.put] at h
      split at h
      · right; right
        refine ⟨_, (Option.some.inj h).symm, fun _ => addSub_noEmpty (by simp [SessInfo.client]) (by simp)⟩
      · exact Or.inl h
    | some ob =>
      cases ob with
      | grant g => simp only [hu] at h; exact Or.inl h
      | info i =>
        simp only [hu] at h
        split at h
        · exact Or.inl h
        · simp only [Store.put] at h
          split at h
          · right; right
            exact ⟨_, (Option.some.inj h).symm, fun hn => addSub_noEmpty (hn _ _ hu) (by simp)⟩
          · exact Or.inl h

theorem noEmpty_of_writes {s s' : Store} (h : ∀ k o, s' k = some o → s k = some o ∨ InfoOk s o ∨ ∃ g, o = .grant g)
    (hn : NoEmpty s) : NoEmpty s' := by
  intro k i hi
  rcases h k _ hi with h | ⟨i', h, h'⟩ | ⟨g, h⟩
  · exact hn k i h
  · cases h; exact h' hn
  · cases h

/-- The object is written under the path's own key; everything else `Database.set` writes is a session record. -/
theorem dbSet_writes (s : Store) (path : List Str) (v : Obj)
    (hp : ∀ u c g r, path = u :: c :: g :: r → g ≠ []) (hv : NoEmpty s → ∀ i, v = .info i → [] ∉ i.subordinate)
    (k : Str) (o : Obj) (h : (dbSet s path v).1 k = some o) :
    s k = some o ∨ (k = sessionKey (path.take 3) ∧ o = v) ∨ InfoOk s o := by
  have infoV : ∀ {s1 : Store} {o}, (∀ k o, s1 k = some o → s k = some o ∨ (k = sessionKey (path.take 3) ∧ o = v) ∨ InfoOk s o) →
      InfoOk s1 o → InfoOk s o := by
    rintro s1 o h1 ⟨i, rfl, h2⟩
    refine ⟨i, rfl, fun hn => h2 ?_⟩
    intro k' i' hi'
    rcases h1 _ _ hi' with h | ⟨_, h⟩ | ⟨i2, h, h3⟩
    · exact hn _ _ h
    · exact hv hn _ h.symm
    · cases h; exact h3 hn
  unfold dbSet at h
  match path, hp with
  | [], _ => exact Or.inl h
  | [u], _ =>
    simp only [evalPath, truthy, Bool.false_eq_true, if_false] at h
    rcases dbSetUser_writes _ _ _ _ _ _ h with h | ⟨_, h1, h2⟩ | h
    · exact Or.inl h
    · exact Or.inr (Or.inl ⟨h1, h2⟩)
    · exact Or.inr (Or.inr h)
  | [u, c], _ =>
    simp only [evalPath] at h
    cases c with
    | nil =>
      simp only [truthy, Bool.false_eq_true, if_false] at h
      rcases dbSetUser_writes _ _ _ _ _ _ h with h | ⟨h0, h1, h2⟩ | h
      · exact Or.inl h
      · cases h0
      · exact Or.inr (Or.inr h)
    | cons c0 cs =>
      simp only [truthy, Bool.false_eq_true, if_false, if_true, Option.getD_some] at h
      have h1 : ∀ k o, (dbSetClient s u (c0 :: cs) none v).1 k = some o →
          s k = some o ∨ (k = sessionKey ([u, c0 :: cs].take 3) ∧ o = v) ∨ InfoOk s o := by
        intro k o h
        rcases dbSetClient_writes _ _ _ _ _ (by simp) _ _ h with h | ⟨_, h1, h2⟩ | h
        · exact Or.inl h
        · exact Or.inr (Or.inl ⟨h1, h2⟩)
        · exact Or.inr (Or.inr h)
      cases he : (dbSetClient s u (c0 :: cs) none v).2 with
      | error e => simp only [he] at h; exact h1 _ _ h
      | ok _ =>
        simp only [he] at h
        rcases dbSetUser_writes _ _ _ _ _ _ h with h | ⟨h0, _⟩ | h
        · exact h1 _ _ h
        · cases h0
        · exact Or.inr (Or.inr (infoV h1 h))
  | u :: c :: g :: r, hp =>
    have hg : g ≠ [] := hp u c g r rfl
    simp only [evalPath] at h
    have htg : truthy (some g) = true := by
      cases g with
      | nil => exact absurd rfl hg
      | cons a b => rfl
    simp only [htg, if_true, Option.getD_some] at h
    have h0 : ∀ k o, (s.put (sessionKey [u, c, g]) v) k = some o →
        s k = some o ∨ (k = sessionKey ((u :: c :: g :: r).take 3) ∧ o = v) ∨ InfoOk s o := by
      intro k o h
      simp only [Store.put] at h
      split at h
      · exact Or.inr (Or.inl ⟨by assumption, (Option.some.inj h).symm⟩)
      · exact Or.inl h
    cases c with
    | nil =>
      simp only [truthy, Bool.false_eq_true, if_false] at h
      rcases dbSetUser_writes _ _ _ _ _ _ h with h | ⟨h1, _⟩ | h
      · exact h0 _ _ h
      · cases h1
      · exact Or.inr (Or.inr (infoV h0 h))
    | cons c0 cs =>
      simp only [truthy, if_true] at h
      have h1 : ∀ k o, (dbSetClient (s.put (sessionKey [u, c0 :: cs, g]) v) u (c0 :: cs) (some g) v).1 k = some o →
          s k = some o ∨ (k = sessionKey ((u :: (c0 :: cs) :: g :: r).take 3) ∧ o = v) ∨ InfoOk s o := by
        intro k o h
        rcases dbSetClient_writes _ _ _ _ _ (by simpa using hg) _ _ h with h | ⟨h1, _⟩ | h
        · exact h0 _ _ h
        · cases h1
        · exact Or.inr (Or.inr (infoV h0 h))
      cases he : (dbSetClient (s.put (sessionKey [u, c0 :: cs, g]) v) u (c0 :: cs) (some g) v).2 with
      | error e => simp only [he] at h; exact h1 _ _ h
      | ok _ =>
        simp only [he] at h
        rcases dbSetUser_writes _ _ _ _ _ _ h with h | ⟨h2, _⟩ | h
        · exact h1 _ _ h
        · cases h2
        · exact Or.inr (Or.inr (infoV h1 h))

/-- What can be read is what is stored under the path's key; the parts of such a path are not empty. -/
theorem dbGet_key {s : Store} (hn : NoEmpty s) {path : List Str} {o : Obj} (h : dbGet s path = .ok o) :
    s (sessionKey (path.take 3)) = some o ∧ ∀ u c g r, path = u :: c :: g :: r → g ≠ [] := by
  unfold dbGet at h
  match path with
  | [] => simp [evalPath] at h
  | [u] =>
    simp only [evalPath] at h
    cases hu : s u with
    | none => simp [hu] at h
    | some ui => simp only [hu] at h; cases h; exact ⟨hu, by simp⟩
  | [u, c] =>
    simp only [evalPath] at h
    cases hu : s u with
    | none => simp [hu] at h
    | some ui =>
      simp only [hu] at h
      cases hs : ui.subordinate with
      | error e => simp [hs] at h
      | ok usub =>
        simp only [hs] at h
        by_cases hc : c ∈ usub
        · simp only [hc, not_true_eq_false, if_false] at h
          cases hk : s (sessionKey [u, c]) with
          | none => simp [hk] at h
          | some ci => simp only [hk] at h; cases h; exact ⟨hk, by simp⟩
        · simp [hc] at h
  | u :: c :: g :: r =>
    simp only [evalPath] at h
    cases hu : s u with
    | none => simp [hu] at h
    | some ui =>
      simp only [hu] at h
      cases hs : ui.subordinate with
      | error e => simp [hs] at h
      | ok usub =>
        simp only [hs] at h
        by_cases hc : c ∈ usub
        · simp only [hc, not_true_eq_false, if_false] at h
          cases hk : s (sessionKey [u, c]) with
          | none => simp [hk] at h
          | some ci =>
            simp only [hk] at h
            cases hcs : ci.subordinate with
            | error e => simp [hcs] at h
            | ok csub =>
              simp only [hcs] at h
              by_cases hg : g ∈ csub
              · simp only [hg, not_true_eq_false, if_false] at h
                cases hkg : s (sessionKey [u, c, g]) with
                | none => simp [hkg] at h
                | some ob =>
                  simp only [hkg] at h
                  cases h
                  refine ⟨hkg, ?_⟩
                  rintro _ _ _ _ ⟨⟩ rfl
                  cases ci with
                  | grant _ => simp [Obj.subordinate] at hcs
                  | info i =>
                    simp only [Obj.subordinate] at hcs
                    cases hcs
                    exact hn _ _ hk hg
              · simp [hg] at h
        · simp [hc] at h


theorem dbDelGrants_writes (u c : Str) (gs : List Str) (s : Store) (k : Str) (o : Obj)
    (h : (dbDelGrants s u c gs).1 k = some o) : s k = some o := by
  induction gs generalizing s with
  | nil => exact h
  | cons g gs ih =>
    unfold dbDelGrants at h
    cases hk : s (sessionKey [u, c, g]) with
    | none => simp only [hk] at h; exact h
    | some _ =>
      simp only [hk] at h
      have := ih _ h
      simp only [Store.del] at this
      split at this
      · cases this
      · exact this

theorem setSub_infoOk {s : Store} {k0 : Str} {ob : Obj} {l l' : List Str} (hs : ob.subordinate = .ok l) (hl : ∀ x ∈ l', x ∈ l)
    (hk : s k0 = some ob) : InfoOk s (ob.setSubordinate l') := by
  cases ob with
  | grant _ => simp [Obj.subordinate] at hs
  | info i =>
    simp only [Obj.subordinate] at hs
    cases hs
    exact ⟨_, rfl, fun hn he => hn _ _ hk (hl _ he)⟩

theorem dbDelUserPart_writes {s : Store} {u : Str} {ui : Obj} {l' : List Str} {k : Str} {o : Obj}
    (h : dbDelUserPart s u ui l' k = some o) : s k = some o ∨ o = ui.setSubordinate l' := by
  unfold dbDelUserPart at h
  split at h
  · simp only [Store.del] at h
    split at h
    · cases h
    · exact Or.inl h
  · simp only [Store.put] at h
    split at h
    · exact Or.inr (Option.some.inj h).symm
    · exact Or.inl h

/-- Deleting writes nothing but session records. -/
theorem dbDelete_writes (m : Mode) (s : Store) (path : List Str) (k : Str) (o : Obj)
    (h : (dbDelete m s path).1 k = some o) : s k = some o ∨ InfoOk s o := by
  unfold dbDelete at h
  cases hp : evalPath path with
  | error e => simp only [hp] at h; exact Or.inl h
  | ok t =>
    obtain ⟨u, c, g⟩ := t
    simp only [hp] at h
    cases hu : s u with
    | none => simp only [hu] at h; exact Or.inl h
    | some ui =>
      simp only [hu] at h
      by_cases hc : truthy c = false
      · simp only [hc, if_true, Store.del] at h
        split at h
        · cases h
        · exact Or.inl h
      · rw [Bool.not_eq_false] at hc
        simp only [hc, Bool.true_eq_false, if_false] at h
        cases hs : ui.subordinate with
        | error e => simp only [hs] at h; exact Or.inl h
        | ok usub =>
          simp only [hs] at h
          by_cases hm : c.getD [] ∈ usub
          · simp only [hm, not_true_eq_false, if_false] at h
            cases hci : s (sessionKey [u, c.getD []]) with
            | none =>
              simp only [hci] at h
              rcases dbDelUserPart_writes h with h | h
              · exact Or.inl h
              · rw [h]; exact Or.inr (setSub_infoOk hs (fun _ hx => hx) hu)
            | some ci =>
              simp only [hci] at h
              cases hcs : ci.subordinate with
              | error e => simp only [hcs] at h; exact Or.inl h
              | ok csub =>
                simp only [hcs] at h
                -- the first part
                generalize hr : (if truthy g = true then
                    if g.getD [] ∈ csub then
                      (if m = Mode.aliased then (s.del (sessionKey [u, c.getD [], g.getD []])).put (sessionKey [u, c.getD []])
                          (ci.setSubordinate (csub.erase (g.getD []))) else s.del (sessionKey [u, c.getD [], g.getD []]),
                        csub.erase (g.getD []), (Except.ok () : Except Exn Unit))
                    else (s, csub, Except.ok ())
                  else ((dbDelGrants s u (c.getD []) csub).1, [], (dbDelGrants s u (c.getD []) csub).2)) = r at h
                have hr1 : (∀ k o, r.1 k = some o → s k = some o ∨ InfoOk s o) ∧ ∀ x ∈ r.2.1, x ∈ csub := by
                  rw [← hr]
                  split
                  · split
                    · refine ⟨?_, fun x hx => List.mem_of_mem_erase hx⟩
                      intro k o hko
                      split at hko
                      · simp only [Store.put, Store.del] at hko
                        split at hko
                        · right; rw [← Option.some.inj hko]
                          exact setSub_infoOk hcs (fun x hx => List.mem_of_mem_erase hx) hci
                        · split at hko
                          · cases hko
                          · exact Or.inl hko
                      · simp only [Store.del] at hko
                        split at hko
                        · cases hko
                        · exact Or.inl hko
                    · exact ⟨fun k o h => Or.inl h, fun _ h => h⟩
                  · exact ⟨fun k o h => Or.inl (dbDelGrants_writes _ _ _ _ _ _ h), by simp⟩
                cases hre : r.2.2 with
                | error e => simp only [hre] at h; exact hr1.1 _ _ h
                | ok _ =>
                  simp only [hre] at h
                  split at h
                  · rcases dbDelUserPart_writes h with h | h
                    · simp only [Store.del] at h
                      split at h
                      · cases h
                      · exact hr1.1 _ _ h
                    · rw [h]; exact Or.inr (setSub_infoOk hs (fun _ hx => List.mem_of_mem_erase hx) hu)
                  · rcases dbDelUserPart_writes h with h | h
                    · simp only [Store.put] at h
                      split at h
                      · right; rw [← Option.some.inj h]
                        exact setSub_infoOk hcs hr1.2 hci
                      · exact hr1.1 _ _ h
                    · rw [h]; exact Or.inr (setSub_infoOk hs (fun _ hx => hx) hu)
          · simp only [hm, not_false_eq_true, if_true] at h
            exact Or.inl h

end Verif
