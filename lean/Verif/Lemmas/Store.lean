import Verif.Spec.Store
import Verif.Props.Strings
set_option linter.unusedSimpArgs false
namespace Verif
open Spec

/-- The object stored under a path. -/
def Store.at (s : Store) (p : List Str) : Option Obj := s (sessionKey p)

theorem key_one (u : Str) : sessionKey [u] = u := rfl
theorem at_one (s : Store) (u : Str) : s u = s.at [u] := rfl
theorem at_two (s : Store) (u c : Str) : s (sessionKey [u, c]) = s.at [u, c] := rfl
theorem at_three (s : Store) (u c g : Str) : s (sessionKey [u, c, g]) = s.at [u, c, g] := rfl

theorem goodPath_one {u : Str} (hu : GoodId u) : GoodPath [u] := ⟨by simp, by simpa using hu⟩
theorem goodPath_two {u c : Str} (hu : GoodId u) (hc : GoodId c) : GoodPath [u, c] := ⟨by simp, by simp [hu, hc]⟩
theorem goodPath_three {u c g : Str} (hu : GoodId u) (hc : GoodId c) (hg : GoodId g) : GoodPath [u, c, g] :=
  ⟨by simp, by simp [hu, hc, hg]⟩

theorem key_inj {p q : List Str} (hp : GoodPath p) (hq : GoodPath q) : sessionKey p = sessionKey q ↔ p = q :=
  C02_paths_have_distinct_keys p q hp.1 hq.1 (fun id h => (hp.2 id h).2) (fun id h => (hq.2 id h).2)

theorem put_at (s : Store) (v : Obj) {p q : List Str} (hp : GoodPath p) (hq : GoodPath q) :
    (s.put (sessionKey p) v).at q = if q = p then some v else s.at q := by
  unfold Store.at Store.put
  simp only [key_inj hq hp]

theorem del_at (s : Store) {p q : List Str} (hp : GoodPath p) (hq : GoodPath q) :
    (s.del (sessionKey p)).at q = if q = p then none else s.at q := by
  unfold Store.at Store.del
  simp only [key_inj hq hp]

theorem goodId_cons {u : Str} (h : GoodId u) : ∃ x xs, u = x :: xs := by
  cases u with
  | nil => exact absurd rfl h.1
  | cons x xs => exact ⟨x, xs, rfl⟩

theorem unpack_good {p : List Str} (hp : GoodPath p) : unpackSessionKey (sessionKey p) = p :=
  (C01_session_id_roundtrip p hp.1).2 (encodable_of_semicolonFree fun id h => (hp.2 id h).2)

theorem unpack3_good {u c g : Str} (hu : GoodId u) (hc : GoodId c) (hg : GoodId g) :
    unpack3 (sessionKey [u, c, g]) = .ok (u, c, g) := by
  unfold unpack3
  rw [unpack_good (goodPath_three hu hc hg)]

/-! ### Reads -/

theorem dbGet1 (s : Store) (u : Str) (o : Obj) : dbGet s [u] = .ok o ↔ s.at [u] = some o := by
  unfold dbGet evalPath
  simp only [Store.at, key_one]
  cases h : s u <;> simp

theorem dbGet2 (s : Store) (u c : Str) (o : Obj) : dbGet s [u, c] = .ok o ↔
    ∃ ui, s.at [u] = some (.info ui) ∧ c ∈ ui.subordinate ∧ s.at [u, c] = some o := by
  unfold dbGet evalPath
  simp only [Store.at, key_one]
  cases h : s u with
  | none => simp
  | some ui =>
    cases ui with
    | grant g => simp [Obj.subordinate]
    | info ui =>
      simp only [Obj.subordinate, Option.some.injEq, Obj.info.injEq, exists_eq_left']
      by_cases hc : c ∈ ui.subordinate
      · simp only [hc, not_true, if_false, true_and]
        cases h2 : s (sessionKey [u, c]) <;> simp
      · simp [hc]

theorem dbGet3 (s : Store) (u c g : Str) (o : Obj) : dbGet s [u, c, g] = .ok o ↔
    ∃ ui ci, s.at [u] = some (.info ui) ∧ c ∈ ui.subordinate ∧ s.at [u, c] = some (.info ci) ∧ g ∈ ci.subordinate ∧
      s.at [u, c, g] = some o := by
  unfold dbGet evalPath
  simp only [Store.at, key_one]
  cases h : s u with
  | none => simp
  | some ui =>
    cases ui with
    | grant g => simp [Obj.subordinate]
    | info ui =>
      simp only [Obj.subordinate, Option.some.injEq, Obj.info.injEq, exists_and_left, exists_eq_left']
      by_cases hc : c ∈ ui.subordinate
      · simp only [hc, not_true, if_false, true_and]
        cases h2 : s (sessionKey [u, c]) with
        | none => simp
        | some ci =>
          cases ci with
          | grant g => simp
          | info ci =>
            simp only [Option.some.injEq, Obj.info.injEq, exists_eq_left']
            by_cases hg : g ∈ ci.subordinate
            · simp only [hg, not_true, if_false, true_and]
              cases h3 : s (sessionKey [u, c, g]) <;> simp
            · simp [hg]
      · simp [hc]

/-! ### Writes -/

/-- The user record that a write below the user starts from. -/
def userOr (s : Store) (u : Str) : SessInfo := match s.at [u] with
  | some (.info i) => i
  | _ => SessInfo.user

/-- The client record that a write below the client starts from. -/
def clientOr (s : Store) (u c : Str) : SessInfo := match s.at [u, c] with
  | some (.info i) => i
  | _ => SessInfo.client

theorem addSub_mem (i : SessInfo) (v : Str) (w : Str) : w ∈ (i.addSubordinate v).subordinate ↔ w ∈ i.subordinate ∨ w = v := by
  unfold SessInfo.addSubordinate
  by_cases h : v ∈ i.subordinate
  · simp only [h, if_true]
    constructor
    · exact Or.inl
    · rintro (h' | rfl)
      · exact h'
      · exact h
  · simp [h]

theorem addSub_of_mem {i : SessInfo} {v : Str} (h : v ∈ i.subordinate) : i.addSubordinate v = i := by
  simp [SessInfo.addSubordinate, h]

theorem addSub_kind (i : SessInfo) (v : Str) : (i.addSubordinate v).kind = i.kind := by
  unfold SessInfo.addSubordinate; split <;> rfl

theorem dbSetUser_eq (s : Store) {u c : Str} (v : Obj) (hc : GoodId c)
    (ht : ∀ g, s.at [u] ≠ some (.grant g)) :
    ∃ s', dbSetUser s u (some c) v = (s', .ok ()) ∧
      s' = s.put (sessionKey [u]) (.info ((userOr s u).addSubordinate c)) := by
  obtain ⟨x, xs, rfl⟩ := goodId_cons hc
  unfold dbSetUser userOr
  simp only [Store.at, key_one] at *
  cases h : s u with
  | none => exact ⟨_, rfl, rfl⟩
  | some o =>
    cases o with
    | grant g => exact absurd h (ht g)
    | info i =>
      simp only
      by_cases hm : (x :: xs) ∈ i.subordinate
      · refine ⟨s, by simp [hm], ?_⟩
        rw [addSub_of_mem hm]
        funext k
        unfold Store.put
        split
        · rename_i e; subst e; exact h
        · rfl
      · exact ⟨_, by simp [hm], rfl⟩

theorem dbSetClient_eq (s : Store) {u c g : Str} (v : Obj) (hg : GoodId g)
    (ht : ∀ g, s.at [u, c] ≠ some (.grant g)) :
    ∃ s', dbSetClient s u c (some g) v = (s', .ok ()) ∧
      s' = s.put (sessionKey [u, c]) (.info ((clientOr s u c).addSubordinate g)) := by
  obtain ⟨x, xs, rfl⟩ := goodId_cons hg
  unfold dbSetClient clientOr
  simp only [Store.at] at *
  cases h : s (sessionKey [u, c]) with
  | none => exact ⟨_, rfl, rfl⟩
  | some o =>
    cases o with
    | grant g => exact absurd h (ht g)
    | info i =>
      simp only
      by_cases hm : (x :: xs) ∈ i.subordinate
      · refine ⟨s, by simp [hm], ?_⟩
        rw [addSub_of_mem hm]
        funext k
        unfold Store.put
        split
        · rename_i e; subst e; exact h
        · rfl
      · exact ⟨_, by simp [hm], rfl⟩

theorem truthy_good {u : Str} (h : GoodId u) : truthy (some u) = true := by
  obtain ⟨x, xs, rfl⟩ := goodId_cons h; rfl

theorem truthy_none : truthy none = false := rfl

theorem dbSet1 (s : Store) (u : Str) (v : Obj) : dbSet s [u] v = (s.put (sessionKey [u]) v, .ok ()) := rfl

theorem dbSet2 (s : Store) {u c : Str} (v : Obj) (hu : GoodId u) (hc : GoodId c)
    (ht : ∀ g, s.at [u] ≠ some (.grant g)) :
    ∃ s', dbSet s [u, c] v = (s', .ok ()) ∧ ∀ q, GoodPath q → s'.at q =
      if q = [u, c] then some v else if q = [u] then some (.info ((userOr s u).addSubordinate c)) else s.at q := by
  unfold dbSet evalPath
  simp only [truthy_good hc, if_true, Option.getD_some, truthy_none, Bool.false_eq_true, if_false, dbSetClient]
  have g1 := goodPath_one hu
  have g2 := goodPath_two hu hc
  have hat : (s.put (sessionKey [u, c]) v).at [u] = s.at [u] := by
    rw [put_at s v g2 g1]; simp
  obtain ⟨s', h1, h2⟩ := dbSetUser_eq (s.put (sessionKey [u, c]) v) (u := u) v hc (by rw [hat]; exact ht)
  refine ⟨s', h1, fun q hq => ?_⟩
  rw [h2, put_at _ _ g1 hq, put_at _ _ g2 hq]
  have : userOr (s.put (sessionKey [u, c]) v) u = userOr s u := by unfold userOr; rw [hat]
  rw [this]
  by_cases e1 : q = [u]
  · subst e1; simp
  · by_cases e2 : q = [u, c] <;> simp [e1, e2]

theorem dbSet3 (s : Store) {u c g : Str} (v : Obj) (hu : GoodId u) (hc : GoodId c) (hg : GoodId g)
    (ht : ∀ g, s.at [u] ≠ some (.grant g)) (ht2 : ∀ g, s.at [u, c] ≠ some (.grant g)) :
    ∃ s', dbSet s [u, c, g] v = (s', .ok ()) ∧ ∀ q, GoodPath q → s'.at q =
      if q = [u, c, g] then some v
      else if q = [u, c] then some (.info ((clientOr s u c).addSubordinate g))
      else if q = [u] then some (.info ((userOr s u).addSubordinate c)) else s.at q := by
  unfold dbSet evalPath
  simp only [truthy_good hc, truthy_good hg, if_true, Option.getD_some]
  have g1 := goodPath_one hu
  have g2 := goodPath_two hu hc
  have g3 := goodPath_three hu hc hg
  have hat1 : ∀ q, GoodPath q → q ≠ [u, c, g] → (s.put (sessionKey [u, c, g]) v).at q = s.at q := by
    intro q hq hne
    rw [put_at s v g3 hq]; simp [hne]
  obtain ⟨s2, h1, h2⟩ := dbSetClient_eq (s.put (sessionKey [u, c, g]) v) (u := u) (c := c) v hg
    (by rw [hat1 _ g2 (by simp)]; exact ht2)
  rw [h1]
  have hat2 : s2.at [u] = s.at [u] := by
    rw [h2, put_at _ _ g2 g1, hat1 _ g1 (by simp)]; simp
  obtain ⟨s3, h3, h4⟩ := dbSetUser_eq s2 (u := u) v hc (by rw [hat2]; exact ht)
  refine ⟨s3, h3, fun q hq => ?_⟩
  have e1 : userOr s2 u = userOr s u := by unfold userOr; rw [hat2]
  have e2 : clientOr (s.put (sessionKey [u, c, g]) v) u c = clientOr s u c := by
    unfold clientOr; rw [hat1 _ g2 (by simp)]
  rw [h4, e1, put_at _ _ g1 hq, h2, e2, put_at _ _ g2 hq]
  by_cases k1 : q = [u]
  · subst k1; simp
  · by_cases k2 : q = [u, c]
    · subst k2; simp
    · simp only [k1, k2, if_false]
      rw [put_at s v g3 hq]

end Verif
