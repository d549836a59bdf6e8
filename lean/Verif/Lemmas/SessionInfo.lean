import Verif.Model.SessionInfo
import Verif.Lemmas.GrantList
set_option linter.unusedSimpArgs false
namespace Verif
open Spec

/-- The record of a user. -/
def UserRec (u : Str) (i : SessInfo) : Prop := i.kind = .user ∧ (i.ident = u ∨ i.ident = [])
/-- The record of a client. -/
def ClientRec (c : Str) (i : SessInfo) : Prop := i.kind = .client ∧ (i.ident = c ∨ i.ident = [])

/-- Records are of the right kind. -/
structure Kinds (s : Store) : Prop where
  usr : ∀ u ui, GoodId u → s.at [u] = some (.info ui) → UserRec u ui
  cli : ∀ u c ci, GoodId u → GoodId c → s.at [u, c] = some (.info ci) → ClientRec c ci

theorem kinds_empty : Kinds Store.empty := ⟨by simp [Store.at, Store.empty], by simp [Store.at, Store.empty]⟩

theorem addSub_user {u : Str} {i : SessInfo} (h : UserRec u i) (v : Str) : UserRec u (i.addSubordinate v) := by
  unfold SessInfo.addSubordinate
  split <;> exact h
theorem addSub_client {c : Str} {i : SessInfo} (h : ClientRec c i) (v : Str) : ClientRec c (i.addSubordinate v) := by
  unfold SessInfo.addSubordinate
  split <;> exact h

theorem kinds_userOr {s : Store} (h : Kinds s) {u : Str} (hu : GoodId u) : UserRec u (userOr s u) := by
  unfold userOr
  split
  · rename_i i hi; exact h.usr u i hu hi
  · exact ⟨rfl, Or.inr rfl⟩

theorem kinds_clientOr {s : Store} (h : Kinds s) {u c : Str} (hu : GoodId u) (hc : GoodId c) :
    ClientRec c (clientOr s u c) := by
  unfold clientOr
  split
  · rename_i i hi; exact h.cli u c i hu hc hi
  · exact ⟨rfl, Or.inr rfl⟩

theorem kinds_set2 {s s' : Store} (h : Kinds s) {u c : Str} (hu : GoodId u) (hc : GoodId c) {i : SessInfo}
    (hi : ClientRec c i) (ht : ∀ g, s.at [u] ≠ some (.grant g))
    (e : dbSet s [u, c] (.info i) = (s', .ok ())) : Kinds s' := by
  obtain ⟨s1, h1, hat⟩ := dbSet2 s (.info i) hu hc ht
  rw [e] at h1
  cases h1
  constructor
  · intro u' ui hu' hs
    rw [hat _ (goodPath_one hu')] at hs
    simp only [List.cons.injEq, reduceCtorEq, and_false, if_false, and_true] at hs
    split at hs
    · rename_i e; subst e; cases hs; exact addSub_user (kinds_userOr h hu') c
    · exact h.usr u' ui hu' hs
  · intro u' c' ci hu' hc' hs
    rw [hat _ (goodPath_two hu' hc')] at hs
    split at hs
    · rename_i e
      simp only [List.cons.injEq, and_true] at e
      obtain ⟨rfl, rfl⟩ := e
      cases hs; exact hi
    · simp at hs; exact h.cli u' c' ci hu' hc' hs

theorem kinds_set3 {s s' : Store} (h : Kinds s) {u c g : Str} (hu : GoodId u) (hc : GoodId c) (hg : GoodId g) {v : Obj}
    (ht : ∀ g, s.at [u] ≠ some (.grant g)) (ht2 : ∀ g, s.at [u, c] ≠ some (.grant g))
    (e : dbSet s [u, c, g] v = (s', .ok ())) : Kinds s' := by
  obtain ⟨s1, h1, hat⟩ := dbSet3 s v hu hc hg ht ht2
  rw [e] at h1
  cases h1
  constructor
  · intro u' ui hu' hs
    rw [hat _ (goodPath_one hu')] at hs
    simp only [List.cons.injEq, reduceCtorEq, and_false, if_false, and_true] at hs
    split at hs
    · rename_i e; subst e; cases hs; exact addSub_user (kinds_userOr h hu') c
    · exact h.usr u' ui hu' hs
  · intro u' c' ci hu' hc' hs
    rw [hat _ (goodPath_two hu' hc')] at hs
    simp only [List.cons.injEq, reduceCtorEq, and_false, if_false, and_true] at hs
    split at hs
    · rename_i e
      obtain ⟨rfl, rfl⟩ := e
      cases hs; exact addSub_client (kinds_clientOr h hu' hc') g
    · exact h.cli u' c' ci hu' hc' hs

theorem kinds_put3 {s : Store} (h : Kinds s) {u c g : Str} (hu : GoodId u) (hc : GoodId c) (hg : GoodId g) (v : Obj) :
    Kinds (s.put (sessionKey [u, c, g]) v) := by
  have hat := fun q (hq : GoodPath q) => put_at s v (goodPath_three hu hc hg) hq
  constructor
  · intro u' ui hu' hs
    rw [hat _ (goodPath_one hu')] at hs
    exact h.usr u' ui hu' (by simpa using hs)
  · intro u' c' ci hu' hc' hs
    rw [hat _ (goodPath_two hu' hc')] at hs
    exact h.cli u' c' ci hu' hc' (by simpa using hs)

theorem kinds_createGrant {sf : SubFuncs} {s : Store} (ht : Tree s) (h : Kinds s) (now : Int) {gid u c : Str} (a : SessArgs)
    (hg : GoodId gid) (hu : GoodId u) (hc : GoodId c) : Kinds (createGrant sf s now gid u c a).1 := by
  unfold createGrant
  cases hn : newGrant sf now gid u a with
  | error e => exact h
  | ok g =>
    obtain ⟨s', h1, h2⟩ := tree_set3 ht hu hc hg g
    simp only [h1]
    exact kinds_set3 h hu hc hg (ht.typed.user' hu) (ht.typed.client' hu hc) h1

theorem kinds_step {m : Mode} {sf : SubFuncs} {s : Store} (ht : Tree s) (h : Kinds s) (op : MgrOp) (hop : OpGood op) :
    Kinds (mgrStep m sf s op) := by
  cases op with
  | createSession now gid u c a =>
    obtain ⟨hg, hu, hc⟩ := hop
    simp only [mgrStep]
    unfold createSession
    obtain ⟨s1, h1, t1, hat⟩ := createSession_user ht hu
    simp only [h1]
    obtain ⟨s2, h3, t2⟩ := tree_set2 t1 hu hc (SessInfo.client (if c = [] then a.authReq.clientId else c))
      (by simp [SessInfo.client])
    simp only [h3]
    refine kinds_createGrant t2 ?_ now a hg hu hc
    refine kinds_set2 ?_ hu hc ⟨rfl, Or.inl rfl⟩ (t1.typed.user' hu) h3
    constructor
    · intro u' ui hu' hs
      rw [hat _ (goodPath_one hu')] at hs
      split at hs
      · rename_i e
        simp only [List.cons.injEq, and_true] at e
        obtain ⟨rfl, _⟩ := e
        cases hs; exact ⟨rfl, Or.inl rfl⟩
      · exact h.usr u' ui hu' hs
    · intro u' c' ci hu' hc' hs
      rw [hat _ (goodPath_two hu' hc')] at hs
      exact h.cli u' c' ci hu' hc' (by simpa using hs)
  | createGrant now gid u c a => exact kinds_createGrant ht h now a hop.1 hop.2.1 hop.2.2
  | addGrant now gid u c a =>
    obtain ⟨hg, hu, hc⟩ := hop
    simp only [mgrStep]
    unfold addGrant
    obtain ⟨s1, h1, t1⟩ := tree_set3 ht hu hc hg (Grant.new now gid { a with claims := [] })
    have k1 := kinds_set3 h hu hc hg (ht.typed.user' hu) (ht.typed.client' hu hc) h1
    obtain ⟨s1', h1', hat⟩ := dbSet3 s (.grant (Grant.new now gid { a with claims := [] })) hu hc hg
      (ht.typed.user' hu) (ht.typed.client' hu hc)
    rw [h1] at h1'
    cases h1'
    simp only [h1]
    cases hget : dbGet s1 [u, c] with
    | error e => exact k1
    | ok o =>
      cases o with
      | grant g => exact k1
      | info i =>
        simp only
        obtain ⟨ui, _, _, hci⟩ := (dbGet2 _ _ _ _).1 hget
        obtain ⟨s2, h3, h4⟩ := tree_set2 t1 hu hc { i with subordinate := i.subordinate ++ [gid] } (by
          intro g hgm
          simp only [List.mem_append, List.mem_singleton] at hgm
          rcases hgm with hgm | rfl
          · exact t1.cli u c i hu hc hci g hgm
          · refine ⟨hg, Grant.new now g { a with claims := [] }, ?_⟩
            rw [hat _ (goodPath_three hu hc hg)]
            simp)
        simp only [h3]
        exact kinds_set2 k1 hu hc (show ClientRec c { i with subordinate := i.subordinate ++ [gid] } from k1.cli u c i hu hc hci) (t1.typed.user' hu) h3
  | revokeToken limit u c g v r =>
    simp only [mgrStep]
    unfold revokeToken
    split
    · exact h
    · exact h
    · cases m with
      | aliased => exact kinds_put3 h hop.1 hop.2.1 hop.2.2 _
      | byValue => exact h
  | revokeGrant u c g =>
    obtain ⟨hu, hc, hg⟩ := hop
    simp only [mgrStep]
    unfold revokeGrant
    rw [unpack_good (goodPath_three hu hc hg)]
    cases hget : dbGet s [u, c, g] with
    | error e => exact h
    | ok o =>
      obtain ⟨s', h1, _⟩ := dbSet3 s o.revoke hu hc hg (ht.typed.user' hu) (ht.typed.client' hu hc)
      simp only [h1]
      exact kinds_set3 h hu hc hg (ht.typed.user' hu) (ht.typed.client' hu hc) h1
  | revokeClientSession u c g =>
    obtain ⟨hu, hc, hg⟩ := hop
    simp only [mgrStep]
    unfold revokeClientSession
    rw [unpack_good (goodPath_three hu hc hg)]
    simp only
    cases hget : dbGet s [u, c] with
    | error e => exact h
    | ok o =>
      cases o with
      | grant gr => exact h
      | info i =>
        obtain ⟨ui, _, _, hci⟩ := (dbGet2 _ _ _ _).1 hget
        obtain ⟨s', h1, h2⟩ := tree_set2 ht hu hc i.revoke (fun g hgm => ht.cli u c i hu hc hci g hgm)
        simp only [h1]
        exact kinds_set2 h hu hc (show ClientRec c i.revoke from h.cli u c i hu hc hci) (ht.typed.user' hu) h1
  | storeGrant u c g gr =>
    simp only [mgrStep, mgrSet]
    rw [unpack_good (goodPath_three hop.1 hop.2.1 hop.2.2)]
    obtain ⟨s', h1, h2⟩ := tree_set3 ht hop.1 hop.2.1 hop.2.2 gr
    rw [h1]
    exact kinds_set3 h hop.1 hop.2.1 hop.2.2 (ht.typed.user' hop.1) (ht.typed.client' hop.1 hop.2.1) h1

theorem kinds_run {m : Mode} {sf : SubFuncs} {s : Store} (ht : Tree s) (h : Kinds s) (ops : List MgrOp) (hops : ∀ op ∈ ops, OpGood op) :
    Kinds (mgrRun m sf s ops) := by
  induction ops generalizing s with
  | nil => exact h
  | cons op ops ih =>
    exact ih (tree_step ht op (hops op (by simp))) (kinds_step ht h op (hops op (by simp))) (fun o ho => hops o (by simp [ho]))

end Verif
