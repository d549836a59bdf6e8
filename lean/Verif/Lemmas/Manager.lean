import Verif.Lemmas.Store
set_option linter.unusedSimpArgs false
namespace Verif
open Spec

/-- The invariant behind `NoDangling`. -/
structure Tree (s : Store) : Prop where
  typed : Typed s
  usr : ∀ u ui, GoodId u → s.at [u] = some (.info ui) →
    ∀ c ∈ ui.subordinate, GoodId c ∧ ∃ ci, s.at [u, c] = some (.info ci)
  cli : ∀ u c ci, GoodId u → GoodId c → s.at [u, c] = some (.info ci) →
    ∀ g ∈ ci.subordinate, GoodId g ∧ ∃ gr, s.at [u, c, g] = some (.grant gr)

theorem Spec.Typed.user' {s : Store} (h : Typed s) {u : Str} (hu : GoodId u) : ∀ g, s.at [u] ≠ some (.grant g) :=
  h.user u hu
theorem Spec.Typed.client' {s : Store} (h : Typed s) {u c : Str} (hu : GoodId u) (hc : GoodId c) :
    ∀ g, s.at [u, c] ≠ some (.grant g) := h.client u c hu hc

theorem Spec.Typed.grant' {s : Store} (h : Typed s) {u c g : Str} (hu : GoodId u) (hc : GoodId c) (hg : GoodId g) :
    ∀ i, s.at [u, c, g] ≠ some (.info i) := h.grant u c g hu hc hg

theorem tree_empty : Tree Store.empty :=
  ⟨⟨by simp [Store.empty], by simp [Store.empty], by simp [Store.empty]⟩,
   by simp [Store.at, Store.empty], by simp [Store.at, Store.empty]⟩

/-- A description of the store on good paths determines `Tree`. -/
theorem tree_of_at {s : Store}
    (h1 : ∀ u, GoodId u → ∀ g, s.at [u] ≠ some (.grant g))
    (h2 : ∀ u c, GoodId u → GoodId c → ∀ g, s.at [u, c] ≠ some (.grant g))
    (h3 : ∀ u c g, GoodId u → GoodId c → GoodId g → ∀ i, s.at [u, c, g] ≠ some (.info i))
    (h4 : ∀ u ui, GoodId u → s.at [u] = some (.info ui) →
      ∀ c ∈ ui.subordinate, GoodId c ∧ ∃ ci, s.at [u, c] = some (.info ci))
    (h5 : ∀ u c ci, GoodId u → GoodId c → s.at [u, c] = some (.info ci) →
      ∀ g ∈ ci.subordinate, GoodId g ∧ ∃ gr, s.at [u, c, g] = some (.grant gr)) : Tree s :=
  ⟨⟨h1, h2, h3⟩, h4, h5⟩

theorem userOr_sub {s : Store} {u w : Str} (h : w ∈ (userOr s u).subordinate) :
    ∃ ui, s.at [u] = some (.info ui) ∧ w ∈ ui.subordinate := by
  unfold userOr at h
  split at h
  · rename_i i hi; exact ⟨i, hi, h⟩
  · simp [SessInfo.user] at h

theorem clientOr_sub {s : Store} {u c w : Str} (h : w ∈ (clientOr s u c).subordinate) :
    ∃ ci, s.at [u, c] = some (.info ci) ∧ w ∈ ci.subordinate := by
  unfold clientOr at h
  split at h
  · rename_i i hi; exact ⟨i, hi, h⟩
  · simp [SessInfo.client] at h

theorem tree_set1 {s : Store} (ht : Tree s) {u : Str} (hu : GoodId u) (i : SessInfo)
    (hi : ∀ c ∈ i.subordinate, GoodId c ∧ ∃ ci, s.at [u, c] = some (.info ci)) :
    Tree (s.put (sessionKey [u]) (.info i)) := by
  have hat := fun q (hq : GoodPath q) => put_at s (.info i) (goodPath_one hu) hq
  refine tree_of_at ?_ ?_ ?_ ?_ ?_
  · intro u' hu' g
    rw [hat _ (goodPath_one hu')]
    split
    · simp
    · exact ht.typed.user' hu' g
  · intro u' c' hu' hc' g
    rw [hat _ (goodPath_two hu' hc')]
    simpa using ht.typed.client' hu' hc' g
  · intro u' c' g' hu' hc' hg' i'
    rw [hat _ (goodPath_three hu' hc' hg')]
    simpa using ht.typed.grant' hu' hc' hg' i'
  · intro u' ui hu' h c' hc'
    rw [hat _ (goodPath_one hu')] at h
    have : GoodId c' ∧ ∃ ci, s.at [u', c'] = some (.info ci) := by
      split at h
      · rename_i e
        simp only [List.cons.injEq, and_true] at e
        subst e
        cases h
        exact hi c' hc'
      · exact ht.usr u' ui hu' h c' hc'
    refine ⟨this.1, ?_⟩
    rw [hat _ (goodPath_two hu' this.1)]
    simpa using this.2
  · intro u' c' ci hu' hc' h g' hg'
    rw [hat _ (goodPath_two hu' hc')] at h
    simp at h
    have := ht.cli u' c' ci hu' hc' h g' hg'
    refine ⟨this.1, ?_⟩
    rw [hat _ (goodPath_three hu' hc' this.1)]
    simpa using this.2

theorem tree_set2 {s : Store} (ht : Tree s) {u c : Str} (hu : GoodId u) (hc : GoodId c) (i : SessInfo)
    (hi : ∀ g ∈ i.subordinate, GoodId g ∧ ∃ gr, s.at [u, c, g] = some (.grant gr)) :
    ∃ s', dbSet s [u, c] (.info i) = (s', .ok ()) ∧ Tree s' := by
  obtain ⟨s', h1, hat⟩ := dbSet2 s (.info i) hu hc (ht.typed.user' hu)
  refine ⟨s', h1, tree_of_at ?_ ?_ ?_ ?_ ?_⟩
  · intro u' hu' g
    rw [hat _ (goodPath_one hu')]
    simp only [List.cons.injEq, reduceCtorEq, and_false, if_false, and_true]
    split
    · simp
    · exact ht.typed.user' hu' g
  · intro u' c' hu' hc' g
    rw [hat _ (goodPath_two hu' hc')]
    split
    · simp
    · simpa using ht.typed.client' hu' hc' g
  · intro u' c' g' hu' hc' hg' i'
    rw [hat _ (goodPath_three hu' hc' hg')]
    simpa using ht.typed.grant' hu' hc' hg' i'
  · intro u' ui hu' h c' hc'
    rw [hat _ (goodPath_one hu')] at h
    simp only [List.cons.injEq, reduceCtorEq, and_false, if_false, and_true] at h
    have : GoodId c' ∧ ((u' = u ∧ c' = c) ∨ ∃ ci, s.at [u', c'] = some (.info ci)) := by
      split at h
      · rename_i e
        subst e
        cases h
        rcases (addSub_mem _ _ _).1 hc' with h' | rfl
        · obtain ⟨ui', hui', hm⟩ := userOr_sub h'
          have := ht.usr _ ui' hu' hui' c' hm
          exact ⟨this.1, Or.inr this.2⟩
        · exact ⟨hc, Or.inl ⟨rfl, rfl⟩⟩
      · have := ht.usr u' ui hu' h c' hc'
        exact ⟨this.1, Or.inr this.2⟩
    refine ⟨this.1, ?_⟩
    rw [hat _ (goodPath_two hu' this.1)]
    by_cases e : u' = u ∧ c' = c
    · simp [e]
    · obtain ⟨ci, hci⟩ := this.2.resolve_left e
      exact ⟨ci, by simp [e, hci]⟩
  · intro u' c' ci hu' hc' h g' hg'
    rw [hat _ (goodPath_two hu' hc')] at h
    have : GoodId g' ∧ ∃ gr, s.at [u', c', g'] = some (.grant gr) := by
      split at h
      · rename_i e
        simp only [List.cons.injEq, and_true] at e
        obtain ⟨rfl, rfl⟩ := e
        cases h
        exact hi g' hg'
      · simp at h
        exact ht.cli u' c' ci hu' hc' h g' hg'
    refine ⟨this.1, ?_⟩
    rw [hat _ (goodPath_three hu' hc' this.1)]
    simpa using this.2

theorem tree_set3 {s : Store} (ht : Tree s) {u c g : Str} (hu : GoodId u) (hc : GoodId c) (hg : GoodId g) (gr : Grant) :
    ∃ s', dbSet s [u, c, g] (.grant gr) = (s', .ok ()) ∧ Tree s' := by
  obtain ⟨s', h1, hat⟩ := dbSet3 s (.grant gr) hu hc hg (ht.typed.user' hu) (ht.typed.client' hu hc)
  have a1 : ∀ u', GoodId u' → s'.at [u'] =
      if u' = u then some (.info ((userOr s u).addSubordinate c)) else s.at [u'] := by
    intro u' hu'
    rw [hat _ (goodPath_one hu')]
    simp
  have a2 : ∀ u' c', GoodId u' → GoodId c' → s'.at [u', c'] =
      if u' = u ∧ c' = c then some (.info ((clientOr s u c).addSubordinate g)) else s.at [u', c'] := by
    intro u' c' hu' hc'
    rw [hat _ (goodPath_two hu' hc')]
    simp
  have a3 : ∀ u' c' g', GoodId u' → GoodId c' → GoodId g' → s'.at [u', c', g'] =
      if u' = u ∧ c' = c ∧ g' = g then some (.grant gr) else s.at [u', c', g'] := by
    intro u' c' g' hu' hc' hg'
    rw [hat _ (goodPath_three hu' hc' hg')]
    simp
  refine ⟨s', h1, tree_of_at ?_ ?_ ?_ ?_ ?_⟩
  · intro u' hu' g'
    rw [a1 _ hu']
    split
    · simp
    · exact ht.typed.user' hu' g'
  · intro u' c' hu' hc' g'
    rw [a2 _ _ hu' hc']
    split
    · simp
    · exact ht.typed.client' hu' hc' g'
  · intro u' c' g' hu' hc' hg' i
    rw [a3 _ _ _ hu' hc' hg']
    split
    · simp
    · exact ht.typed.grant u' c' g' hu' hc' hg' i
  · intro u' ui hu' h c' hc'
    rw [a1 _ hu'] at h
    have : GoodId c' ∧ ((u' = u ∧ c' = c) ∨ ∃ ci, s.at [u', c'] = some (.info ci)) := by
      split at h
      · rename_i e
        subst e
        cases h
        rcases (addSub_mem _ _ _).1 hc' with h' | rfl
        · obtain ⟨ui', hui', hm⟩ := userOr_sub h'
          have := ht.usr _ ui' hu' hui' c' hm
          exact ⟨this.1, Or.inr this.2⟩
        · exact ⟨hc, Or.inl ⟨rfl, rfl⟩⟩
      · have := ht.usr u' ui hu' h c' hc'
        exact ⟨this.1, Or.inr this.2⟩
    refine ⟨this.1, ?_⟩
    rw [a2 _ _ hu' this.1]
    by_cases e : u' = u ∧ c' = c
    · simp [e]
    · obtain ⟨ci, hci⟩ := this.2.resolve_left e
      exact ⟨ci, by simp [e, hci]⟩
  · intro u' c' ci hu' hc' h g' hg'
    rw [a2 _ _ hu' hc'] at h
    have : GoodId g' ∧ ((u' = u ∧ c' = c ∧ g' = g) ∨ ∃ gr, s.at [u', c', g'] = some (.grant gr)) := by
      split at h
      · rename_i e
        obtain ⟨rfl, rfl⟩ := e
        cases h
        rcases (addSub_mem _ _ _).1 hg' with h' | rfl
        · obtain ⟨ci', hci', hm⟩ := clientOr_sub h'
          have := ht.cli _ _ ci' hu' hc' hci' g' hm
          exact ⟨this.1, Or.inr this.2⟩
        · exact ⟨hg, Or.inl ⟨rfl, rfl, rfl⟩⟩
      · have := ht.cli u' c' ci hu' hc' h g' hg'
        exact ⟨this.1, Or.inr this.2⟩
    refine ⟨this.1, ?_⟩
    rw [a3 _ _ _ hu' hc' this.1]
    by_cases e : u' = u ∧ c' = c ∧ g' = g
    · simp [e]
    · obtain ⟨gr', hgr⟩ := this.2.resolve_left e
      exact ⟨gr', by simp [e, hgr]⟩

theorem tree_putGrant {s : Store} (ht : Tree s) {u c g : Str} (hu : GoodId u) (hc : GoodId c) (hg : GoodId g)
    (gr : Grant) : Tree (s.put (sessionKey [u, c, g]) (.grant gr)) := by
  have hat := fun q (hq : GoodPath q) => put_at s (.grant gr) (goodPath_three hu hc hg) hq
  refine tree_of_at ?_ ?_ ?_ ?_ ?_
  · intro u' hu' g'
    rw [hat _ (goodPath_one hu')]
    simpa using ht.typed.user' hu' g'
  · intro u' c' hu' hc' g'
    rw [hat _ (goodPath_two hu' hc')]
    simpa using ht.typed.client' hu' hc' g'
  · intro u' c' g' hu' hc' hg' i'
    rw [hat _ (goodPath_three hu' hc' hg')]
    split
    · simp
    · exact ht.typed.grant u' c' g' hu' hc' hg' i'
  · intro u' ui hu' h c' hc'
    rw [hat _ (goodPath_one hu')] at h
    simp at h
    have := ht.usr u' ui hu' h c' hc'
    refine ⟨this.1, ?_⟩
    rw [hat _ (goodPath_two hu' this.1)]
    simpa using this.2
  · intro u' c' ci hu' hc' h g' hg'
    rw [hat _ (goodPath_two hu' hc')] at h
    simp at h
    have := ht.cli u' c' ci hu' hc' h g' hg'
    refine ⟨this.1, ?_⟩
    rw [hat _ (goodPath_three hu' hc' this.1)]
    split
    · exact ⟨gr, rfl⟩
    · exact this.2

/-! ### The calls -/

theorem tree_createGrant {sf : SubFuncs} {s : Store} (ht : Tree s) (now : Int) {gid u c : Str} (a : SessArgs)
    (hg : GoodId gid) (hu : GoodId u) (hc : GoodId c) : Tree (createGrant sf s now gid u c a).1 := by
  unfold createGrant
  cases hn : newGrant sf now gid u a with
  | error e => exact ht
  | ok g =>
    obtain ⟨s', h1, h2⟩ := tree_set3 ht hu hc hg g
    simp only [h1]
    exact h2

/-- The user part of `create_session`. -/
theorem createSession_user {s : Store} (ht : Tree s) {u : Str} (hu : GoodId u) :
    ∃ s1, ensureUser s u = (s1, .ok ()) ∧ Tree s1 ∧
      ∀ q, GoodPath q → s1.at q = if q = [u] ∧ s.at [u] = none then some (.info (SessInfo.user u)) else s.at q := by
  cases hs : s.at [u] with
  | none =>
    have : dbGet s [u] = .error .keyError := by
      have : s u = none := hs
      simp [dbGet, evalPath, this]
    refine ⟨s.put (sessionKey [u]) (.info (SessInfo.user u)), by simp only [ensureUser, this]; rfl, tree_set1 ht hu _ (by simp [SessInfo.user]), fun q hq => ?_⟩
    rw [put_at _ _ (goodPath_one hu) hq]
    simp
  | some o =>
    refine ⟨s, by simp only [ensureUser, (dbGet1 s u o).2 hs], ht, by simp⟩

theorem tree_createSession {sf : SubFuncs} {s : Store} (ht : Tree s) (now : Int) {gid u c : Str} (a : SessArgs)
    (hg : GoodId gid) (hu : GoodId u) (hc : GoodId (if c = [] then a.authReq.clientId else c)) :
    Tree (createSession sf s now gid u c a).1 := by
  unfold createSession
  obtain ⟨s1, h1, h2, _⟩ := createSession_user ht hu
  simp only [h1]
  obtain ⟨s2, h3, h4⟩ := tree_set2 h2 hu hc (SessInfo.client (if c = [] then a.authReq.clientId else c))
    (by simp [SessInfo.client])
  simp only [h3]
  exact tree_createGrant h4 now a hg hu hc

theorem tree_addGrant {s : Store} (ht : Tree s) (now : Int) {gid u c : Str} (a : GrantArgs)
    (hg : GoodId gid) (hu : GoodId u) (hc : GoodId c) : Tree (addGrant s now gid u c a).1 := by
  unfold addGrant
  obtain ⟨s1, h1, h2⟩ := tree_set3 ht hu hc hg (Grant.new now gid { a with claims := [] })
  obtain ⟨s1', h1', hat⟩ := dbSet3 s (.grant (Grant.new now gid { a with claims := [] })) hu hc hg
    (ht.typed.user' hu) (ht.typed.client' hu hc)
  rw [h1] at h1'
  cases h1'
  simp only [h1]
  cases hget : dbGet s1 [u, c] with
  | error e => exact h2
  | ok o =>
    cases o with
    | grant g => exact h2
    | info i =>
      simp only
      obtain ⟨ui, _, _, hci⟩ := (dbGet2 _ _ _ _).1 hget
      obtain ⟨s2, h3, h4⟩ := tree_set2 h2 hu hc { i with subordinate := i.subordinate ++ [gid] } (by
        intro g hgm
        simp only [List.mem_append, List.mem_singleton] at hgm
        rcases hgm with hgm | rfl
        · exact h2.cli u c i hu hc hci g hgm
        · refine ⟨hg, Grant.new now g { a with claims := [] }, ?_⟩
          rw [hat _ (goodPath_three hu hc hg)]
          simp)
      simp only [h3]
      exact h4

theorem tree_revokeToken {m : Mode} {s : Store} (ht : Tree s) (limit : Nat) {u c g : Str} (v : Str) (r : Bool)
    (hu : GoodId u) (hc : GoodId c) (hg : GoodId g) : Tree (revokeToken m s limit (sessionKey [u, c, g]) v r).1 := by
  unfold revokeToken
  split
  · exact ht
  · exact ht
  · cases m with
    | aliased => exact tree_putGrant ht hu hc hg _
    | byValue => exact ht

theorem tree_revokeGrant {s : Store} (ht : Tree s) {u c g : Str} (hu : GoodId u) (hc : GoodId c) (hg : GoodId g) :
    Tree (revokeGrant s (sessionKey [u, c, g])).1 := by
  unfold revokeGrant
  rw [unpack_good (goodPath_three hu hc hg)]
  cases hget : dbGet s [u, c, g] with
  | error e => exact ht
  | ok o =>
    cases o with
    | info i =>
      obtain ⟨_, _, _, _, _, _, h⟩ := (dbGet3 _ _ _ _ _).1 hget
      exact absurd h (ht.typed.grant u c g hu hc hg i)
    | grant gr =>
      obtain ⟨s', h1, h2⟩ := tree_set3 ht hu hc hg gr.revoke
      simp only [Obj.revoke, h1]
      exact h2

theorem tree_revokeClientSession {s : Store} (ht : Tree s) {u c g : Str} (hu : GoodId u) (hc : GoodId c)
    (hg : GoodId g) : Tree (revokeClientSession s (sessionKey [u, c, g])).1 := by
  unfold revokeClientSession
  rw [unpack_good (goodPath_three hu hc hg)]
  simp only
  cases hget : dbGet s [u, c] with
  | error e => exact ht
  | ok o =>
    cases o with
    | grant gr => exact ht
    | info i =>
      obtain ⟨ui, _, _, hci⟩ := (dbGet2 _ _ _ _).1 hget
      obtain ⟨s', h1, h2⟩ := tree_set2 ht hu hc i.revoke (fun g hgm => ht.cli u c i hu hc hci g hgm)
      simp only [h1]
      exact h2

theorem tree_step {m : Mode} {sf : SubFuncs} {s : Store} (ht : Tree s) (op : MgrOp) (hop : OpGood op) :
    Tree (mgrStep m sf s op) := by
  cases op with
  | createSession now gid u c a => exact tree_createSession ht now a hop.1 hop.2.1 hop.2.2
  | createGrant now gid u c a => exact tree_createGrant ht now a hop.1 hop.2.1 hop.2.2
  | addGrant now gid u c a => exact tree_addGrant ht now a hop.1 hop.2.1 hop.2.2
  | revokeToken limit u c g v r => exact tree_revokeToken ht limit v r hop.1 hop.2.1 hop.2.2
  | revokeGrant u c g => exact tree_revokeGrant ht hop.1 hop.2.1 hop.2.2
  | revokeClientSession u c g => exact tree_revokeClientSession ht hop.1 hop.2.1 hop.2.2
  | storeGrant u c g gr =>
    simp only [mgrStep, mgrSet]
    rw [unpack_good (goodPath_three hop.1 hop.2.1 hop.2.2)]
    obtain ⟨s', h1, h2⟩ := tree_set3 ht hop.1 hop.2.1 hop.2.2 gr
    rw [h1]
    exact h2

theorem tree_run {m : Mode} {sf : SubFuncs} {s : Store} (ht : Tree s) (ops : List MgrOp) (hops : ∀ op ∈ ops, OpGood op) :
    Tree (mgrRun m sf s ops) := by
  induction ops generalizing s with
  | nil => exact ht
  | cons op ops ih =>
    exact ih (tree_step ht op (hops op (by simp))) (fun o ho => hops o (by simp [ho]))

theorem tree_noDangling {s : Store} (ht : Tree s) : NoDangling s := by
  intro u ui hu hget c hc
  have h1 := (dbGet1 _ _ _).1 hget
  obtain ⟨hcg, ci, hci⟩ := ht.usr u ui hu h1 c hc
  refine ⟨ci, (dbGet2 _ _ _ _).2 ⟨ui, h1, hc, hci⟩, fun g hg => ?_⟩
  obtain ⟨_, gr, hgr⟩ := ht.cli u c ci hu hcg hci g hg
  exact ⟨gr, (dbGet3 _ _ _ _ _).2 ⟨ui, ci, h1, hc, hci, hg, hgr⟩⟩

end Verif
