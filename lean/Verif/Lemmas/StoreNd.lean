import Verif.Lemmas.StoreFrame
set_option linter.unusedSimpArgs false
namespace Verif
open Spec

/-- Listings contain no duplicates. -/
structure Nd (s : Store) : Prop where
  usr : ∀ u ui, GoodId u → s.at [u] = some (.info ui) → ui.subordinate.Nodup
  cli : ∀ u c ci, GoodId u → GoodId c → s.at [u, c] = some (.info ci) → ci.subordinate.Nodup

theorem nd_empty : Nd Store.empty := ⟨by simp [Store.at, Store.empty], by simp [Store.at, Store.empty]⟩

theorem addSub_nodup {i : SessInfo} (h : i.subordinate.Nodup) (v : Str) : (i.addSubordinate v).subordinate.Nodup := by
  unfold SessInfo.addSubordinate
  by_cases hv : v ∈ i.subordinate
  · simpa [hv] using h
  · simp only [hv, if_false]
    rw [List.nodup_append]
    refine ⟨h, by simp, ?_⟩
    intro a ha b hb
    simp only [List.mem_singleton] at hb
    rintro rfl
    exact hv (hb ▸ ha)

theorem nd_userOr {s : Store} (h : Nd s) {u : Str} (hu : GoodId u) : (userOr s u).subordinate.Nodup := by
  unfold userOr
  split
  · rename_i i hi; exact h.usr u i hu hi
  · simp [SessInfo.user]

theorem nd_clientOr {s : Store} (h : Nd s) {u c : Str} (hu : GoodId u) (hc : GoodId c) :
    (clientOr s u c).subordinate.Nodup := by
  unfold clientOr
  split
  · rename_i i hi; exact h.cli u c i hu hc hi
  · simp [SessInfo.client]

theorem nd_set2 {s s' : Store} (h : Nd s) {u c : Str} (hu : GoodId u) (hc : GoodId c) {i : SessInfo}
    (hi : i.subordinate.Nodup) (ht : ∀ g, s.at [u] ≠ some (.grant g))
    (e : dbSet s [u, c] (.info i) = (s', .ok ())) : Nd s' := by
  obtain ⟨s1, h1, hat⟩ := dbSet2 s (.info i) hu hc ht
  rw [e] at h1
  cases h1
  constructor
  · intro u' ui hu' hh
    rw [hat _ (goodPath_one hu')] at hh
    simp only [List.cons.injEq, reduceCtorEq, and_false, if_false, and_true] at hh
    split at hh
    · cases hh; exact addSub_nodup (nd_userOr h hu) c
    · exact h.usr u' ui hu' hh
  · intro u' c' ci hu' hc' hh
    rw [hat _ (goodPath_two hu' hc')] at hh
    split at hh
    · cases hh; exact hi
    · simp at hh; exact h.cli u' c' ci hu' hc' hh

theorem nd_set3 {s s' : Store} (h : Nd s) {u c g : Str} (hu : GoodId u) (hc : GoodId c) (hg : GoodId g) {v : Obj}
    (ht : ∀ g, s.at [u] ≠ some (.grant g)) (ht2 : ∀ g, s.at [u, c] ≠ some (.grant g))
    (e : dbSet s [u, c, g] v = (s', .ok ())) : Nd s' := by
  obtain ⟨s1, h1, hat⟩ := dbSet3 s v hu hc hg ht ht2
  rw [e] at h1
  cases h1
  constructor
  · intro u' ui hu' hh
    rw [hat _ (goodPath_one hu')] at hh
    simp only [List.cons.injEq, reduceCtorEq, and_false, if_false, and_true] at hh
    split at hh
    · cases hh; exact addSub_nodup (nd_userOr h hu) c
    · exact h.usr u' ui hu' hh
  · intro u' c' ci hu' hc' hh
    rw [hat _ (goodPath_two hu' hc')] at hh
    simp only [List.cons.injEq, reduceCtorEq, and_false, if_false, and_true] at hh
    split at hh
    · cases hh; exact addSub_nodup (nd_clientOr h hu hc) g
    · exact h.cli u' c' ci hu' hc' hh

theorem nd_ensure {s s1 : Store} (h : Nd s) {u : Str} (hat : ∀ q, GoodPath q → s1.at q =
      if q = [u] ∧ s.at [u] = none then some (.info (SessInfo.user u)) else s.at q) : Nd s1 := by
  constructor
  · intro u' ui hu' hh
    rw [hat _ (goodPath_one hu')] at hh
    split at hh
    · cases hh; simp [SessInfo.user]
    · exact h.usr u' ui hu' hh
  · intro u' c' ci hu' hc' hh
    rw [hat _ (goodPath_two hu' hc')] at hh
    simp at hh
    exact h.cli u' c' ci hu' hc' hh

theorem nd_putGrant {s : Store} (h : Nd s) {u c g : Str} (hu : GoodId u) (hc : GoodId c) (hg : GoodId g) (gr : Grant) :
    Nd (s.put (sessionKey [u, c, g]) (.grant gr)) := by
  have hat := fun q (hq : GoodPath q) => put_at s (.grant gr) (goodPath_three hu hc hg) hq
  constructor
  · intro u' ui hu' hh
    rw [hat _ (goodPath_one hu')] at hh
    simp at hh
    exact h.usr u' ui hu' hh
  · intro u' c' ci hu' hc' hh
    rw [hat _ (goodPath_two hu' hc')] at hh
    simp at hh
    exact h.cli u' c' ci hu' hc' hh

/-- Not an `add_grant` call. -/
def NotAddGrant : MgrOp → Prop
  | .addGrant .. => False
  | _ => True

theorem nd_createGrant {sf : SubFuncs} {s : Store} (ht : Tree s) (hn : Nd s) (now : Int) {gid u c : Str} (a : SessArgs)
    (hg : GoodId gid) (hu : GoodId u) (hc : GoodId c) : Nd (createGrant sf s now gid u c a).1 := by
  unfold createGrant
  cases h : newGrant sf now gid u a with
  | error e => exact hn
  | ok g =>
    obtain ⟨s', h1, _⟩ := tree_set3 ht hu hc hg g
    have := nd_set3 hn hu hc hg (ht.typed.user' hu) (ht.typed.client' hu hc) h1
    simp only [h1]
    exact this

theorem nd_step {m : Mode} {sf : SubFuncs} {s : Store} (ht : Tree s) (hn : Nd s) (op : MgrOp) (hop : OpGood op)
    (hna : NotAddGrant op) : Nd (mgrStep m sf s op) := by
  cases op with
  | createSession now gid u c a =>
    obtain ⟨hg, hu, hc⟩ := hop
    simp only [mgrStep]
    unfold createSession
    obtain ⟨s1, h1, t1, hat⟩ := createSession_user ht hu
    have n1 := nd_ensure hn hat
    simp only [h1]
    obtain ⟨s2, h2, t2⟩ := tree_set2 t1 hu hc (SessInfo.client (if c = [] then a.authReq.clientId else c))
      (by simp [SessInfo.client])
    have n2 := nd_set2 n1 hu hc (by simp [SessInfo.client]) (t1.typed.user' hu) h2
    simp only [h2]
    exact nd_createGrant t2 n2 now a hg hu hc
  | createGrant now gid u c a => exact nd_createGrant ht hn now a hop.1 hop.2.1 hop.2.2
  | addGrant now gid u c a => exact absurd hna (by simp [NotAddGrant])
  | revokeToken limit u c g v r =>
    simp only [mgrStep]
    unfold revokeToken
    split
    · exact hn
    · exact hn
    · cases m with
      | aliased => exact nd_putGrant hn hop.1 hop.2.1 hop.2.2 _
      | byValue => exact hn
  | revokeGrant u c g =>
    simp only [mgrStep]
    unfold revokeGrant
    rw [unpack_good (goodPath_three hop.1 hop.2.1 hop.2.2)]
    cases hget : dbGet s [u, c, g] with
    | error e => exact hn
    | ok o =>
      cases o with
      | info i =>
        obtain ⟨_, _, _, _, _, _, h⟩ := (dbGet3 _ _ _ _ _).1 hget
        exact absurd h (ht.typed.grant u c g hop.1 hop.2.1 hop.2.2 i)
      | grant gr =>
        obtain ⟨s', h1, _⟩ := tree_set3 ht hop.1 hop.2.1 hop.2.2 gr.revoke
        have := nd_set3 hn hop.1 hop.2.1 hop.2.2 (ht.typed.user' hop.1) (ht.typed.client' hop.1 hop.2.1) h1
        simp only [Obj.revoke, h1]
        exact this
  | revokeClientSession u c g =>
    simp only [mgrStep]
    unfold revokeClientSession
    rw [unpack_good (goodPath_three hop.1 hop.2.1 hop.2.2)]
    simp only
    cases hget : dbGet s [u, c] with
    | error e => exact hn
    | ok o =>
      cases o with
      | grant gr => exact hn
      | info i =>
        obtain ⟨ui, _, _, hci⟩ := (dbGet2 _ _ _ _).1 hget
        obtain ⟨s', h1, _⟩ := tree_set2 ht hop.1 hop.2.1 i.revoke (fun g hgm => ht.cli u c i hop.1 hop.2.1 hci g hgm)
        have := nd_set2 hn hop.1 hop.2.1 (i := i.revoke) (hn.cli u c i hop.1 hop.2.1 hci) (ht.typed.user' hop.1) h1
        simp only [h1]
        exact this
  | storeGrant u c g gr =>
    simp only [mgrStep, mgrSet]
    rw [unpack_good (goodPath_three hop.1 hop.2.1 hop.2.2)]
    obtain ⟨s', h1, _⟩ := tree_set3 ht hop.1 hop.2.1 hop.2.2 gr
    have := nd_set3 hn hop.1 hop.2.1 hop.2.2 (ht.typed.user' hop.1) (ht.typed.client' hop.1 hop.2.1) h1
    rw [h1]
    exact this

theorem nd_run {m : Mode} {sf : SubFuncs} {s : Store} (ht : Tree s) (hn : Nd s) (ops : List MgrOp)
    (hops : ∀ op ∈ ops, OpGood op ∧ NotAddGrant op) : Nd (mgrRun m sf s ops) := by
  induction ops generalizing s with
  | nil => exact hn
  | cons op ops ih =>
    have := hops op (by simp)
    exact ih (tree_step ht op this.1) (nd_step ht hn op this.1 this.2) (fun o ho => hops o (by simp [ho]))

theorem delGrants_ok (u c : Str) (hu : GoodId u) (hc : GoodId c) (gs : List Str) (s : Store) (hnd : gs.Nodup)
    (hst : ∀ g ∈ gs, GoodId g ∧ ∃ o, s.at [u, c, g] = some o) :
    ∃ s', dbDelGrants s u c gs = (s', .ok ()) ∧
      ∀ q, GoodPath q → s'.at q = if ∃ g ∈ gs, q = [u, c, g] then none else s.at q := by
  induction gs generalizing s with
  | nil => exact ⟨s, rfl, by simp⟩
  | cons g gs ih =>
    obtain ⟨hg, o, ho⟩ := hst g (by simp)
    rw [List.nodup_cons] at hnd
    unfold dbDelGrants
    have ho' : s (sessionKey [u, c, g]) = some o := ho
    simp only [ho']
    have hat := fun q (hq : GoodPath q) => del_at s (goodPath_three hu hc hg) hq
    obtain ⟨s', h1, h2⟩ := ih (s.del (sessionKey [u, c, g])) hnd.2 (by
      intro g' hg'
      obtain ⟨hgg, o', ho'⟩ := hst g' (by simp [hg'])
      refine ⟨hgg, o', ?_⟩
      rw [hat _ (goodPath_three hu hc hgg)]
      have : g' ≠ g := fun e => hnd.1 (e ▸ hg')
      simp [this, ho'])
    refine ⟨s', h1, fun q hq => ?_⟩
    rw [h2 q hq, hat q hq]
    by_cases e1 : ∃ g' ∈ gs, q = [u, c, g']
    · have : ∃ g' ∈ g :: gs, q = [u, c, g'] := by
        obtain ⟨g', a, b⟩ := e1; exact ⟨g', by simp [a], b⟩
      simp [e1, this]
    · by_cases e2 : q = [u, c, g]
      · have : ∃ g' ∈ g :: gs, q = [u, c, g'] := ⟨g, by simp, e2⟩
        simp [e1, e2, this]
      · have : ¬ ∃ g' ∈ g :: gs, q = [u, c, g'] := by
          rintro ⟨g', a, b⟩
          rcases List.mem_cons.1 a with rfl | a
          · exact e2 b
          · exact e1 ⟨g', a, b⟩
        simp only [e1, e2, this, if_false]

end Verif
