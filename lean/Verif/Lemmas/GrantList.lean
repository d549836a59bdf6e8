import Verif.Lemmas.StoreNd
import Verif.Spec.GrantList
set_option linter.unusedSimpArgs false
namespace Verif
open Spec

/-- The client record of `(u, c)` lists exactly `ids`, and is reachable if that is not empty. -/
structure Own (s : Store) (u c : Str) (ids : List Str) : Prop where
  listed : ids ≠ [] → Listed s u c
  ids : (clientOr s u c).subordinate = ids

theorem own_empty (u c : Str) : Own Store.empty u c [] := ⟨by simp, rfl⟩

theorem own_same {s s' : Store} {u c u' c' : Str} {ids : List Str} (hu : GoodId u) (hc : GoodId c)
    (h : Own s u c ids) (f : SameElsewhere s s' u' c') (hne : ¬ (u' = u ∧ c' = c)) : Own s' u c ids := by
  have hat : s'.at [u, c] = s.at [u, c] := f.same _ (goodPath_two hu hc) (by simp) (by rw [prefix2]; exact hne)
  have hL : Listed s' u c ↔ Listed s u c := by
    by_cases e : u' = u
    · subst e; exact f.listed c (fun k => hne ⟨rfl, k.symm⟩)
    · unfold Listed
      rw [f.same [u] (goodPath_one hu) (by simpa using fun k => e k.symm) (by simp [List.cons_prefix_cons])]
  refine ⟨fun k => hL.2 (h.listed k), ?_⟩
  unfold clientOr
  rw [hat]
  exact h.ids

theorem addSub_eq (i : SessInfo) (g : Str) : (i.addSubordinate g).subordinate = addNew i.subordinate g := by
  unfold SessInfo.addSubordinate addNew
  split <;> rfl

theorem own_set3 {s s' : Store} {u c g : Str} {ids : List Str} {v : Obj} (ht : Tree s) (hu : GoodId u) (hc : GoodId c)
    (hg : GoodId g) (h : Own s u c ids) (e : dbSet s [u, c, g] v = (s', .ok ())) : Own s' u c (addNew ids g) := by
  obtain ⟨s1, h1, hat⟩ := dbSet3 s v hu hc hg (ht.typed.user' hu) (ht.typed.client' hu hc)
  rw [e] at h1
  cases h1
  constructor
  · intro _
    refine ⟨(userOr s u).addSubordinate c, ?_, (addSub_mem _ _ _).2 (.inr rfl)⟩
    rw [hat _ (goodPath_one hu)]; simp
  · unfold clientOr
    rw [hat _ (goodPath_two hu hc)]
    simp only [List.cons.injEq, reduceCtorEq, and_false, if_false, if_true]
    rw [addSub_eq, h.ids]

theorem own_set2 {s s' : Store} {u c : Str} {i : SessInfo} (ht : Tree s) (hu : GoodId u) (hc : GoodId c)
    (e : dbSet s [u, c] (.info i) = (s', .ok ())) : Own s' u c i.subordinate := by
  obtain ⟨s1, h1, hat⟩ := dbSet2 s (.info i) hu hc (ht.typed.user' hu)
  rw [e] at h1
  cases h1
  constructor
  · intro _
    refine ⟨(userOr s u).addSubordinate c, ?_, (addSub_mem _ _ _).2 (.inr rfl)⟩
    rw [hat _ (goodPath_one hu)]; simp
  · unfold clientOr
    rw [hat _ (goodPath_two hu hc)]
    simp

theorem own_put3 {s : Store} {u c u' c' g' : Str} {ids : List Str} (hu : GoodId u) (hc : GoodId c) (hu' : GoodId u')
    (hc' : GoodId c') (hg' : GoodId g') (h : Own s u c ids) (v : Obj) :
    Own (s.put (sessionKey [u', c', g']) v) u c ids := by
  have a1 := put_at s v (goodPath_three hu' hc' hg') (goodPath_one hu)
  have a2 := put_at s v (goodPath_three hu' hc' hg') (goodPath_two hu hc)
  simp at a1 a2
  refine ⟨fun k => ?_, ?_⟩
  · unfold Listed; rw [a1]; exact h.listed k
  · unfold clientOr; rw [a2]; exact h.ids

/-- A write at depth three for any pair. -/
theorem own_set3_any {s s' : Store} {u c u' c' g : Str} {ids : List Str} {v : Obj} (ht : Tree s) (hu : GoodId u)
    (hc : GoodId c) (hu' : GoodId u') (hc' : GoodId c') (hg : GoodId g) (h : Own s u c ids)
    (e : dbSet s [u', c', g] v = (s', .ok ())) :
    Own s' u c (if u' = u ∧ c' = c then addNew ids g else ids) := by
  by_cases k : u' = u ∧ c' = c
  · obtain ⟨rfl, rfl⟩ := k
    simpa using own_set3 ht hu hc hg h e
  · simp only [k, if_false]
    exact own_same hu hc h (same_set3 hu' hc' hg (ht.typed.user' hu') (ht.typed.client' hu' hc') e) k

theorem own_createGrant {sf : SubFuncs} {s : Store} {u c u' c' gid : Str} {ids : List Str} (ht : Tree s) (hu : GoodId u)
    (hc : GoodId c) (hu' : GoodId u') (hc' : GoodId c') (hg : GoodId gid) (h : Own s u c ids) (now : Int)
    (a : SessArgs) (hk : ∃ f, sf a.subType = some f) :
    Own (createGrant sf s now gid u' c' a).1 u c (if u' = u ∧ c' = c then addNew ids gid else ids) := by
  obtain ⟨f, hf⟩ := hk
  unfold createGrant newGrant
  rw [hf]
  simp only
  generalize Grant.new now gid _ = g
  obtain ⟨s', h1, _⟩ := tree_set3 ht hu' hc' hg g
  simp only [h1]
  exact own_set3_any ht hu hc hu' hc' hg h h1

theorem own_step {m : Mode} {sf : SubFuncs} {s : Store} {u c : Str} {ids : List Str} (ht : Tree s) (hu : GoodId u)
    (hc : GoodId c) (h : Own s u c ids) (op : MgrOp) (hop : OpGood op) (hna : NotAddGrant op)
    (hk : KnownSubject sf op) : Own (mgrStep m sf s op) u c (grantIdsStep u c ids op) := by
  cases op with
  | createSession now gid u' c' a =>
    obtain ⟨hg, hu', hc'⟩ := hop
    simp only [mgrStep, grantIdsStep]
    unfold createSession
    generalize (if c' = [] then a.authReq.clientId else c') = cc at hc' ⊢
    obtain ⟨s1, h1, t1, hat⟩ := createSession_user ht hu'
    simp only [h1]
    obtain ⟨s2, h2, t2⟩ := tree_set2 t1 hu' hc' (SessInfo.client cc) (by simp [SessInfo.client])
    simp only [h2]
    by_cases k : u' = u ∧ cc = c
    · obtain ⟨rfl, rfl⟩ := k
      have := own_createGrant t2 hu hc hu' hc' hg (own_set2 t1 hu' hc' h2) now a hk
      simpa [SessInfo.client, addNew] using this
    · have o1 := own_same hu hc h (same_ensureUser (c := cc) hu' hat) k
      have o2 := own_same hu hc o1 (same_set2 hu' hc' (t1.typed.user' hu') h2) k
      have := own_createGrant t2 hu hc hu' hc' hg o2 now a hk
      simpa [k] using this
  | createGrant now gid u' c' a => exact own_createGrant ht hu hc hop.2.1 hop.2.2 hop.1 h now a hk
  | addGrant now gid u c a => exact absurd hna (by simp [NotAddGrant])
  | revokeToken limit u' c' g v r =>
    simp only [mgrStep, grantIdsStep]
    unfold revokeToken
    split
    · exact h
    · exact h
    · cases m with
      | aliased => exact own_put3 hu hc hop.1 hop.2.1 hop.2.2 h _
      | byValue => exact h
  | revokeGrant u' c' g =>
    simp only [mgrStep, grantIdsStep]
    unfold revokeGrant
    rw [unpack_good (goodPath_three hop.1 hop.2.1 hop.2.2)]
    cases hget : dbGet s [u', c', g] with
    | error e => exact h
    | ok o =>
      cases o with
      | info i =>
        obtain ⟨_, _, _, _, _, _, h⟩ := (dbGet3 _ _ _ _ _).1 hget
        exact absurd h (ht.typed.grant u' c' g hop.1 hop.2.1 hop.2.2 i)
      | grant gr =>
        obtain ⟨s', h1, _⟩ := tree_set3 ht hop.1 hop.2.1 hop.2.2 gr.revoke
        have := own_set3_any ht hu hc hop.1 hop.2.1 hop.2.2 h h1
        simp only [Obj.revoke, h1]
        by_cases k : u' = u ∧ c' = c
        · obtain ⟨rfl, rfl⟩ := k
          obtain ⟨_, ⟨ci, hci, hgm⟩, _⟩ := (dbGet3' _ _ _ _ _).1 hget
          have hm : g ∈ ids := by
            have := h.ids
            unfold clientOr at this
            rw [hci] at this
            rw [← this]; exact hgm
          simpa [addNew, hm] using this
        · simpa [k] using this
  | revokeClientSession u' c' g =>
    simp only [mgrStep, grantIdsStep]
    unfold revokeClientSession
    rw [unpack_good (goodPath_three hop.1 hop.2.1 hop.2.2)]
    simp only
    cases hget : dbGet s [u', c'] with
    | error e => exact h
    | ok o =>
      cases o with
      | grant gr => exact h
      | info i =>
        obtain ⟨ui, _, _, hci⟩ := (dbGet2 _ _ _ _).1 hget
        obtain ⟨s', h1, _⟩ := tree_set2 ht hop.1 hop.2.1 i.revoke (fun g hgm => ht.cli u' c' i hop.1 hop.2.1 hci g hgm)
        simp only [h1]
        by_cases k : u' = u ∧ c' = c
        · obtain ⟨rfl, rfl⟩ := k
          have := own_set2 ht hu hc h1
          have e := h.ids
          unfold clientOr at e
          rw [hci] at e
          rw [← e]
          exact this
        · exact own_same hu hc h (same_set2 hop.1 hop.2.1 (ht.typed.user' hop.1) h1) k
  | storeGrant u' c' g gr =>
    simp only [mgrStep, mgrSet, grantIdsStep]
    rw [unpack_good (goodPath_three hop.1 hop.2.1 hop.2.2)]
    obtain ⟨s', h1, _⟩ := tree_set3 ht hop.1 hop.2.1 hop.2.2 gr
    rw [h1]
    exact own_set3_any ht hu hc hop.1 hop.2.1 hop.2.2 h h1

theorem own_run {m : Mode} {sf : SubFuncs} {u c : Str} (hu : GoodId u) (hc : GoodId c) (ops : List MgrOp)
    (hops : ∀ op ∈ ops, OpGood op ∧ NotAddGrant op ∧ KnownSubject sf op) :
    Own (mgrRun m sf Store.empty ops) u c (grantIds u c ops) := by
  suffices H : ∀ (s : Store) ids, Tree s → Own s u c ids →
      Own (mgrRun m sf s ops) u c (ops.foldl (grantIdsStep u c) ids) from H _ _ tree_empty (own_empty u c)
  induction ops with
  | nil => intro s ids _ h; exact h
  | cons op ops ih =>
    intro s ids ht h
    have := hops op (by simp)
    exact ih (fun o ho => hops o (by simp [ho])) _ _ (tree_step ht op this.1) (own_step ht hu hc h op this.1 this.2.1 this.2.2)

theorem readAll_ok {s : Store} {u c : Str} (l : List Str) (h : ∀ g ∈ l, ∃ gr, dbGet s [u, c, g] = .ok (.grant gr)) :
    ∃ gs : List Grant, readAll s u c l = .ok (gs.map .grant) ∧ gs.length = l.length ∧
      ∀ (i : Nat) g, l[i]? = some g → ∃ gr, gs[i]? = some gr ∧ dbGet s [u, c, g] = .ok (.grant gr) := by
  induction l with
  | nil => exact ⟨[], rfl, rfl, by simp⟩
  | cons g l ih =>
    obtain ⟨gr, hgr⟩ := h g (by simp)
    obtain ⟨gs, h1, h2, h3⟩ := ih (fun g' hg' => h g' (by simp [hg']))
    refine ⟨gr :: gs, by simp [readAll, hgr, h1], by simp [h2], ?_⟩
    intro i g' hi
    cases i with
    | zero => simp at hi; subst hi; exact ⟨gr, by simp, hgr⟩
    | succ i => simp at hi; simpa using h3 i g' hi

end Verif
