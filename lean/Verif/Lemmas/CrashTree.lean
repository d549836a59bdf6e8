import Verif.Model.CrashMgr
import Verif.Lemmas.CrashLast
import Verif.Lemmas.Manager
set_option linter.unusedSimpArgs false
set_option linter.unusedVariables false
/-! The session tree at every crash point. -/
namespace Verif
open Spec

theorem mgrTrace_last (sf : SubFuncs) (s : Store) (op : MgrOp) :
    lastOf s (mgrTrace sf s op) = mgrStep .byValue sf s op := by
  cases op with
  | createSession now gid u c a => exact createSessionTrace_last _ _ _ _ _ _ _
  | createGrant now gid u c a => exact createGrantTrace_last _ _ _ _ _ _ _
  | addGrant now gid u c a => exact addGrantTrace_last _ _ _ _ _ _
  | revokeToken limit u c g v r =>
    simp only [mgrTrace, mgrStep, lastOf_nil, revokeToken]
    split <;> rfl
  | revokeGrant u c g => exact revokeGrantTrace_last _ _
  | revokeClientSession u c g => exact revokeClientTrace_last _ _
  | storeGrant u c g gr => exact mgrSetTrace_last _ _ _

/-- An uninterrupted call is a call that is killed after its last write. -/
theorem killStep_all (sf : SubFuncs) (s : Store) (op : DbOp) :
    killStep sf s (op, none) = lastOf s (dbTrace sf s op) := by
  cases op with
  | mgr op => exact (mgrTrace_last sf s op).symm
  | delete path => exact (deleteTrace_last s path).symm

/-- What holds of the storage before a call and at all its crash points holds after it, killed or not. -/
theorem killStep_of (sf : SubFuncs) (s : Store) (op : DbOp) (n : Option Nat) (P : Store → Prop) (h0 : P s)
    (h : ∀ s' ∈ dbTrace sf s op, P s') : P (killStep sf s (op, n)) := by
  cases n with
  | none =>
    rw [killStep_all]
    rcases lastOf_cases s (dbTrace sf s op) with e | e
    · rw [e]; exact h0
    · exact h _ e
  | some n =>
    have e0 : killStep sf s (op, some n) = lastOf s ((dbTrace sf s op).take n) := by cases op <;> rfl
    rw [e0]
    rcases lastOf_cases s ((dbTrace sf s op).take n) with e | e
    · rw [e]; exact h0
    · exact h _ (List.mem_of_mem_take e)

/-! ### Writing one record -/

theorem tree_put2 {s : Store} (ht : Tree s) {u c : Str} (hu : GoodId u) (hc : GoodId c) (i : SessInfo)
    (hi : ∀ g ∈ i.subordinate, GoodId g ∧ ∃ gr, s.at [u, c, g] = some (.grant gr)) :
    Tree (s.put (sessionKey [u, c]) (.info i)) := by
  have hat := fun q (hq : GoodPath q) => put_at s (.info i) (goodPath_two hu hc) hq
  refine tree_of_at ?_ ?_ ?_ ?_ ?_
  · intro u' hu' g
    rw [hat _ (goodPath_one hu')]
    simpa using ht.typed.user' hu' g
  · intro u' c' hu' hc' g
    rw [hat _ (goodPath_two hu' hc')]
    split
    · simp
    · exact ht.typed.client' hu' hc' g
  · intro u' c' g' hu' hc' hg' i'
    rw [hat _ (goodPath_three hu' hc' hg')]
    simpa using ht.typed.grant' hu' hc' hg' i'
  · intro u' ui hu' h c' hc'
    rw [hat _ (goodPath_one hu')] at h
    simp at h
    have := ht.usr u' ui hu' h c' hc'
    refine ⟨this.1, ?_⟩
    rw [hat _ (goodPath_two hu' this.1)]
    split
    · exact ⟨i, rfl⟩
    · exact this.2
  · intro u' c' ci hu' hc' h g' hg'
    rw [hat _ (goodPath_two hu' hc')] at h
    have : GoodId g' ∧ ∃ gr, s.at [u', c', g'] = some (.grant gr) := by
      split at h
      · rename_i e
        simp only [List.cons.injEq, and_true] at e
        obtain ⟨rfl, rfl⟩ := e
        cases h
        exact hi g' hg'
      · exact ht.cli u' c' ci hu' hc' h g' hg'
    refine ⟨this.1, ?_⟩
    rw [hat _ (goodPath_three hu' hc' this.1)]
    simpa using this.2

/-! ### The calls -/

theorem treeTr_set1 {s : Store} (ht : Tree s) {u : Str} (hu : GoodId u) (i : SessInfo)
    (hi : ∀ c ∈ i.subordinate, GoodId c ∧ ∃ ci, s.at [u, c] = some (.info ci)) :
    ∀ s' ∈ setTrace s [u] (.info i), Tree s' := by
  intro s' hs'
  simp only [setTrace, evalPath, truthy, Bool.false_eq_true, if_false, dbSetUser, List.mem_cons, List.not_mem_nil,
    or_false] at hs'
  rcases hs' with rfl | rfl | rfl
  · exact ht
  · exact ht
  · exact tree_set1 ht hu i hi

theorem treeTr_set2 {s : Store} (ht : Tree s) {u c : Str} (hu : GoodId u) (hc : GoodId c) (i : SessInfo)
    (hi : ∀ g ∈ i.subordinate, GoodId g ∧ ∃ gr, s.at [u, c, g] = some (.grant gr)) :
    ∀ s' ∈ setTrace s [u, c] (.info i), Tree s' := by
  intro s' hs'
  obtain ⟨s2, h1, h2⟩ := tree_set2 ht hu hc i hi
  have hl := setTrace_last s [u, c] (.info i)
  simp only [h1] at hl
  have htc : truthy (some c) = true := by
    obtain ⟨x, xs, rfl⟩ := goodId_cons hc
    rfl
  simp only [setTrace, evalPath, truthy_none, htc, Bool.false_eq_true, if_false, if_true, Option.getD_some, dbSetClient,
    List.mem_cons, List.not_mem_nil, or_false] at hs' hl
  rcases hs' with rfl | rfl | rfl
  · exact ht
  · exact tree_put2 ht hu hc i hi
  · have : s2 = (dbSetUser (s.put (sessionKey [u, c]) (.info i)) u (some c) (.info i)).1 := by
      rw [← hl]; rfl
    rw [← this]; exact h2

theorem treeTr_set3 {s : Store} (ht : Tree s) {u c g : Str} (hu : GoodId u) (hc : GoodId c) (hg : GoodId g) (gr : Grant) :
    ∀ s' ∈ setTrace s [u, c, g] (.grant gr), Tree s' := by
  intro s' hs'
  obtain ⟨s2, h1, h2⟩ := tree_set3 ht hu hc hg gr
  have hl := setTrace_last s [u, c, g] (.grant gr)
  simp only [h1] at hl
  have ht1 := tree_putGrant ht hu hc hg gr
  have htc : truthy (some c) = true := by
    obtain ⟨x, xs, rfl⟩ := goodId_cons hc
    rfl
  have htg : truthy (some g) = true := by
    obtain ⟨x, xs, rfl⟩ := goodId_cons hg
    rfl
  have hown : (s.put (sessionKey [u, c, g]) (.grant gr)).at [u, c, g] = some (.grant gr) := by
    rw [put_at _ _ (goodPath_three hu hc hg) (goodPath_three hu hc hg)]; simp
  -- the storage after the second write
  have hmid : Tree (dbSetClient (s.put (sessionKey [u, c, g]) (.grant gr)) u c (some g) (.grant gr)).1 := by
    obtain ⟨x, xs, rfl⟩ := goodId_cons hg
    unfold dbSetClient
    simp only
    cases hci : (s.put (sessionKey [u, c, x :: xs]) (.grant gr)) (sessionKey [u, c]) with
    | none =>
      simp only
      apply tree_put2 ht1 hu hc
      intro g' hg'
      rcases (addSub_mem _ _ _).1 hg' with h | rfl
      · simp [SessInfo.client] at h
      · exact ⟨hg, gr, hown⟩
    | some o =>
      cases o with
      | grant _ => exact ht1
      | info i =>
        simp only
        split
        · exact ht1
        · apply tree_put2 ht1 hu hc
          intro g' hg'
          rcases (addSub_mem _ _ _).1 hg' with h | rfl
          · exact ht1.cli u c i hu hc hci g' h
          · exact ⟨hg, gr, hown⟩
  simp only [setTrace, evalPath, htg, htc, if_true, Option.getD_some] at hs' hl
  cases he : (dbSetClient (s.put (sessionKey [u, c, g]) (.grant gr)) u c (some g) (.grant gr)).2 with
  | error e =>
    simp only [he, List.mem_cons, List.not_mem_nil, or_false] at hs'
    rcases hs' with rfl | rfl
    · exact ht1
    · exact hmid
  | ok _ =>
    simp only [he, List.mem_cons, List.not_mem_nil, or_false] at hs' hl
    rcases hs' with rfl | rfl | rfl
    · exact ht1
    · exact hmid
    · have : s2 = (dbSetUser (dbSetClient (s.put (sessionKey [u, c, g]) (.grant gr)) u c (some g) (.grant gr)).1 u
          (some c) (.grant gr)).1 := by
        rw [← hl]; rfl
      rw [← this]; exact h2

theorem treeTr_createGrant {sf : SubFuncs} {s : Store} (ht : Tree s) (now : Int) {gid u c : Str} (a : SessArgs)
    (hg : GoodId gid) (hu : GoodId u) (hc : GoodId c) : ∀ s' ∈ createGrantTrace sf s now gid u c a, Tree s' := by
  unfold createGrantTrace
  cases newGrant sf now gid u a with
  | error e => simp
  | ok g => exact treeTr_set3 ht hu hc hg g

theorem treeTr_mgr {sf : SubFuncs} {s : Store} (ht : Tree s) (op : MgrOp) (hop : OpGood op) :
    ∀ s' ∈ mgrTrace sf s op, Tree s' := by
  cases op with
  | createSession now gid u c a =>
    obtain ⟨hg, hu, hc⟩ := hop
    simp only [mgrTrace, createSessionTrace]
    obtain ⟨s1, h1, h2, _⟩ := createSession_user ht hu
    simp only [h1]
    obtain ⟨s2, h3, h4⟩ := tree_set2 h2 hu hc (SessInfo.client (if c = [] then a.authReq.clientId else c))
      (by simp [SessInfo.client])
    simp only [h3]
    intro s' hs'
    rw [List.mem_append, List.mem_append] at hs'
    rcases hs' with hs' | hs' | hs'
    · unfold ensureUserTrace at hs'
      split at hs'
      · simp at hs'
      · split at hs'
        · exact treeTr_set1 ht hu _ (by simp [SessInfo.user]) s' hs'
        · simp at hs'
    · exact treeTr_set2 h2 hu hc _ (by simp [SessInfo.client]) s' hs'
    · exact treeTr_createGrant h4 now a hg hu hc s' hs'
  | createGrant now gid u c a => exact treeTr_createGrant ht now a hop.1 hop.2.1 hop.2.2
  | addGrant now gid u c a =>
    obtain ⟨hg, hu, hc⟩ := hop
    simp only [mgrTrace, addGrantTrace]
    obtain ⟨s1, h1, h2⟩ := tree_set3 ht hu hc hg (Grant.new now gid { a with claims := [] })
    obtain ⟨s1', h1', hat⟩ := dbSet3 s (.grant (Grant.new now gid { a with claims := [] })) hu hc hg
      (ht.typed.user' hu) (ht.typed.client' hu hc)
    rw [h1] at h1'
    cases h1'
    simp only [h1]
    intro s' hs'
    rw [List.mem_append] at hs'
    rcases hs' with hs' | hs'
    · exact treeTr_set3 ht hu hc hg _ s' hs'
    · cases hget : dbGet s1 [u, c] with
      | error e => simp [hget] at hs'
      | ok o =>
        cases o with
        | grant g => simp [hget] at hs'
        | info i =>
          simp only [hget] at hs'
          obtain ⟨ui, _, _, hci⟩ := (dbGet2 _ _ _ _).1 hget
          refine treeTr_set2 h2 hu hc { i with subordinate := i.subordinate ++ [gid] } ?_ s' hs'
          intro g hgm
          simp only [List.mem_append, List.mem_singleton] at hgm
          rcases hgm with hgm | rfl
          · exact h2.cli u c i hu hc hci g hgm
          · refine ⟨hg, Grant.new now g { a with claims := [] }, ?_⟩
            rw [hat _ (goodPath_three hu hc hg)]
            simp
  | revokeToken limit u c g v r => simp [mgrTrace]
  | revokeGrant u c g =>
    obtain ⟨hu, hc, hg⟩ := hop
    simp only [mgrTrace, revokeGrantTrace]
    rw [unpack_good (goodPath_three hu hc hg)]
    cases hget : dbGet s [u, c, g] with
    | error e => simp
    | ok o =>
      cases o with
      | info i =>
        obtain ⟨_, _, _, _, _, _, h⟩ := (dbGet3 _ _ _ _ _).1 hget
        exact absurd h (ht.typed.grant u c g hu hc hg i)
      | grant gr => exact treeTr_set3 ht hu hc hg gr.revoke
  | revokeClientSession u c g =>
    obtain ⟨hu, hc, hg⟩ := hop
    simp only [mgrTrace, revokeClientTrace]
    rw [unpack_good (goodPath_three hu hc hg)]
    simp only
    cases hget : dbGet s [u, c] with
    | error e => simp
    | ok o =>
      cases o with
      | grant gr => simp
      | info i =>
        obtain ⟨ui, _, _, hci⟩ := (dbGet2 _ _ _ _).1 hget
        exact treeTr_set2 ht hu hc i.revoke (fun g hgm => ht.cli u c i hu hc hci g hgm)
  | storeGrant u c g gr =>
    obtain ⟨hu, hc, hg⟩ := hop
    simp only [mgrTrace, mgrSetTrace]
    rw [unpack_good (goodPath_three hu hc hg)]
    exact treeTr_set3 ht hu hc hg gr

/-! ### The shape of the storage, also across deletions -/

/-- Under every key there is the kind of record that belongs there. -/
def Shape (s : Store) : Prop := ∀ k o, s k = some o →
  (∃ u c g gr, GoodId u ∧ GoodId c ∧ GoodId g ∧ k = sessionKey [u, c, g] ∧ o = .grant gr) ∨
  (∃ u i, GoodId u ∧ k = u ∧ o = .info i) ∨ (∃ u c i, GoodId u ∧ GoodId c ∧ k = sessionKey [u, c] ∧ o = .info i)

theorem Shape.typed {s : Store} (h : Shape s) : Typed s := by
  refine ⟨?_, ?_, ?_⟩
  · intro u hu g hg
    rcases h _ _ hg with ⟨u', c', g', gr, h1, h2, h3, h4, _⟩ | ⟨_, _, _, _, h5⟩ | ⟨_, _, _, _, _, _, h5⟩
    · have := (key_inj (goodPath_one hu) (goodPath_three h1 h2 h3)).1 h4
      simp at this
    · cases h5
    · cases h5
  · intro u c hu hc g hg
    rcases h _ _ hg with ⟨u', c', g', gr, h1, h2, h3, h4, _⟩ | ⟨_, _, _, _, h5⟩ | ⟨_, _, _, _, _, _, h5⟩
    · have := (key_inj (goodPath_two hu hc) (goodPath_three h1 h2 h3)).1 h4
      simp at this
    · cases h5
    · cases h5
  · intro u c g hu hc hg i hi
    rcases h _ _ hi with ⟨_, _, _, _, _, _, _, _, h5⟩ | ⟨u', _, h1, h4, _⟩ | ⟨u', c', _, h1, h2, h4, _⟩
    · cases h5
    · have := (key_inj (goodPath_three hu hc hg) (goodPath_one h1)).1 h4
      simp at this
    · have := (key_inj (goodPath_three hu hc hg) (goodPath_two h1 h2)).1 h4
      simp at this

theorem Shape.put {s : Store} (h : Shape s) {k : Str} {o : Obj}
    (hk : (∃ u c g gr, GoodId u ∧ GoodId c ∧ GoodId g ∧ k = sessionKey [u, c, g] ∧ o = .grant gr) ∨
      (∃ u i, GoodId u ∧ k = u ∧ o = .info i) ∨ (∃ u c i, GoodId u ∧ GoodId c ∧ k = sessionKey [u, c] ∧ o = .info i)) :
    Shape (s.put k o) := by
  intro k' o' h'
  simp only [Store.put] at h'
  split at h'
  · rename_i e
    cases h'
    rw [e]
    exact hk
  · exact h _ _ h'

theorem Shape.del {s : Store} (h : Shape s) (k : Str) : Shape (s.del k) := by
  intro k' o' h'
  simp only [Store.del] at h'
  split at h'
  · cases h'
  · exact h _ _ h'

theorem shape_empty : Shape Store.empty := by
  intro k o h
  simp [Store.empty] at h

theorem Shape.delUser {s : Store} (h : Shape s) {u : Str} (hu : GoodId u) {ui : Obj} (l : List Str)
    (hui : ∃ l, ui.subordinate = .ok l) : Shape (dbDelUserPart s u ui l) := by
  unfold dbDelUserPart
  split
  · exact h.del u
  · obtain ⟨l0, hl0⟩ := hui
    cases ui with
    | grant g => simp [Obj.subordinate] at hl0
    | info i => exact h.put (Or.inr (Or.inl ⟨u, _, hu, rfl, rfl⟩))

theorem Shape.setUser {s : Store} (h : Shape s) {u c : Str} (hu : GoodId u) (hc : GoodId c) (v : Obj) :
    Shape (dbSetUser s u (some c) v).1 := by
  obtain ⟨x, xs, rfl⟩ := goodId_cons hc
  unfold dbSetUser
  simp only
  cases s u with
  | none => exact h.put (Or.inr (Or.inl ⟨u, _, hu, rfl, rfl⟩))
  | some o =>
    cases o with
    | grant _ => exact h
    | info i =>
      simp only
      split
      · exact h
      · exact h.put (Or.inr (Or.inl ⟨u, _, hu, rfl, rfl⟩))

theorem Shape.setClient {s : Store} (h : Shape s) {u c g : Str} (hu : GoodId u) (hc : GoodId c) (hg : GoodId g) (v : Obj) :
    Shape (dbSetClient s u c (some g) v).1 := by
  obtain ⟨x, xs, rfl⟩ := goodId_cons hg
  unfold dbSetClient
  simp only
  cases s (sessionKey [u, c]) with
  | none => exact h.put (Or.inr (Or.inr ⟨u, c, _, hu, hc, rfl, rfl⟩))
  | some o =>
    cases o with
    | grant _ => exact h
    | info i =>
      simp only
      split
      · exact h
      · exact h.put (Or.inr (Or.inr ⟨u, c, _, hu, hc, rfl, rfl⟩))

theorem shapeTr_set1 {s : Store} (h : Shape s) {u : Str} (hu : GoodId u) (i : SessInfo) :
    ∀ s' ∈ setTrace s [u] (.info i), Shape s' := by
  intro s' hs'
  simp only [setTrace, evalPath, truthy, Bool.false_eq_true, if_false, dbSetUser, List.mem_cons, List.not_mem_nil,
    or_false] at hs'
  rcases hs' with rfl | rfl | rfl
  · exact h
  · exact h
  · exact h.put (Or.inr (Or.inl ⟨u, i, hu, rfl, rfl⟩))

theorem shapeTr_set2 {s : Store} (h : Shape s) {u c : Str} (hu : GoodId u) (hc : GoodId c) (i : SessInfo) :
    ∀ s' ∈ setTrace s [u, c] (.info i), Shape s' := by
  intro s' hs'
  have htc : truthy (some c) = true := by
    obtain ⟨x, xs, rfl⟩ := goodId_cons hc
    rfl
  have h1 : Shape (s.put (sessionKey [u, c]) (.info i)) := h.put (Or.inr (Or.inr ⟨u, c, i, hu, hc, rfl, rfl⟩))
  simp only [setTrace, evalPath, truthy_none, htc, Bool.false_eq_true, if_false, if_true, Option.getD_some, dbSetClient,
    List.mem_cons, List.not_mem_nil, or_false] at hs'
  rcases hs' with rfl | rfl | rfl
  · exact h
  · exact h1
  · exact h1.setUser hu hc _

theorem shapeTr_set3 {s : Store} (h : Shape s) {u c g : Str} (hu : GoodId u) (hc : GoodId c) (hg : GoodId g) (gr : Grant) :
    ∀ s' ∈ setTrace s [u, c, g] (.grant gr), Shape s' := by
  intro s' hs'
  have htc : truthy (some c) = true := by
    obtain ⟨x, xs, rfl⟩ := goodId_cons hc
    rfl
  have htg : truthy (some g) = true := by
    obtain ⟨x, xs, rfl⟩ := goodId_cons hg
    rfl
  have h1 : Shape (s.put (sessionKey [u, c, g]) (.grant gr)) := h.put (Or.inl ⟨u, c, g, gr, hu, hc, hg, rfl, rfl⟩)
  have h2 := h1.setClient hu hc hg (.grant gr)
  simp only [setTrace, evalPath, htg, htc, if_true, Option.getD_some] at hs'
  cases he : (dbSetClient (s.put (sessionKey [u, c, g]) (.grant gr)) u c (some g) (.grant gr)).2 with
  | error e =>
    simp only [he, List.mem_cons, List.not_mem_nil, or_false] at hs'
    rcases hs' with rfl | rfl
    · exact h1
    · exact h2
  | ok _ =>
    simp only [he, List.mem_cons, List.not_mem_nil, or_false] at hs'
    rcases hs' with rfl | rfl | rfl
    · exact h1
    · exact h2
    · exact h2.setUser hu hc _

theorem shape_last {s : Store} {l : List Store} (h0 : Shape s) (h : ∀ s' ∈ l, Shape s') : Shape (lastOf s l) := by
  rcases lastOf_cases s l with e | e
  · rw [e]; exact h0
  · exact h _ e

theorem shapeTr_createGrant {sf : SubFuncs} {s : Store} (h : Shape s) (now : Int) {gid u c : Str} (a : SessArgs)
    (hg : GoodId gid) (hu : GoodId u) (hc : GoodId c) : ∀ s' ∈ createGrantTrace sf s now gid u c a, Shape s' := by
  unfold createGrantTrace
  cases newGrant sf now gid u a with
  | error e => simp
  | ok g => exact shapeTr_set3 h hu hc hg g

theorem shapeTr_ensureUser {s : Store} (h : Shape s) {u : Str} (hu : GoodId u) : ∀ s' ∈ ensureUserTrace s u, Shape s' := by
  unfold ensureUserTrace
  cases dbGet s [u] with
  | ok _ => simp
  | error e =>
    simp only
    split
    · exact shapeTr_set1 h hu _
    · simp

theorem shape_ensureUser {s : Store} (h : Shape s) {u : Str} (hu : GoodId u) : Shape (ensureUser s u).1 := by
  rw [← ensureUserTrace_last]
  exact shape_last h (shapeTr_ensureUser h hu)

theorem shapeTr_mgr {sf : SubFuncs} {s : Store} (h : Shape s) (op : MgrOp) (hop : OpGood op) :
    ∀ s' ∈ mgrTrace sf s op, Shape s' := by
  cases op with
  | createSession now gid u c a =>
    obtain ⟨hg, hu, hc⟩ := hop
    simp only [mgrTrace, createSessionTrace]
    intro s' hs'
    rw [List.mem_append] at hs'
    have h1 := shape_ensureUser h hu
    rcases hs' with hs' | hs'
    · exact shapeTr_ensureUser h hu s' hs'
    · cases he : (ensureUser s u).2 with
      | error e => simp [he] at hs'
      | ok _ =>
        simp only [he, List.mem_append] at hs'
        generalize (if c = [] then a.authReq.clientId else c) = c' at hs' hc
        have h2 := shapeTr_set2 h1 hu hc (SessInfo.client c')
        rcases hs' with hs' | hs'
        · exact h2 s' hs'
        · cases hw : (dbSet (ensureUser s u).1 [u, c'] (.info (SessInfo.client c'))).2 with
          | error e => simp [hw] at hs'
          | ok _ =>
            simp only [hw] at hs'
            refine shapeTr_createGrant ?_ now a hg hu hc s' hs'
            rw [← setTrace_last]
            exact shape_last h1 h2
  | createGrant now gid u c a => exact shapeTr_createGrant h now a hop.1 hop.2.1 hop.2.2
  | addGrant now gid u c a =>
    obtain ⟨hg, hu, hc⟩ := hop
    simp only [mgrTrace, addGrantTrace]
    intro s' hs'
    rw [List.mem_append] at hs'
    have h1 := shapeTr_set3 h hu hc hg (Grant.new now gid { a with claims := [] })
    rcases hs' with hs' | hs'
    · exact h1 s' hs'
    · cases hw : (dbSet s [u, c, gid] (.grant (Grant.new now gid { a with claims := [] }))).2 with
      | error e => simp [hw] at hs'
      | ok _ =>
        simp only [hw] at hs'
        cases hget : dbGet (dbSet s [u, c, gid] (.grant (Grant.new now gid { a with claims := [] }))).1 [u, c] with
        | error e => simp [hget] at hs'
        | ok o =>
          cases o with
          | grant g => simp [hget] at hs'
          | info i =>
            simp only [hget] at hs'
            refine shapeTr_set2 ?_ hu hc _ s' hs'
            rw [← setTrace_last]
            exact shape_last h h1
  | revokeToken limit u c g v r => simp [mgrTrace]
  | revokeGrant u c g =>
    obtain ⟨hu, hc, hg⟩ := hop
    simp only [mgrTrace, revokeGrantTrace]
    rw [unpack_good (goodPath_three hu hc hg)]
    cases hget : dbGet s [u, c, g] with
    | error e => simp
    | ok o =>
      cases o with
      | info i =>
        obtain ⟨_, _, _, _, _, _, h'⟩ := (dbGet3 _ _ _ _ _).1 hget
        exact absurd h' (h.typed.grant u c g hu hc hg i)
      | grant gr => exact shapeTr_set3 h hu hc hg gr.revoke
  | revokeClientSession u c g =>
    obtain ⟨hu, hc, hg⟩ := hop
    simp only [mgrTrace, revokeClientTrace]
    rw [unpack_good (goodPath_three hu hc hg)]
    simp only
    cases hget : dbGet s [u, c] with
    | error e => simp
    | ok o =>
      cases o with
      | grant gr => simp
      | info i => exact shapeTr_set2 h hu hc i.revoke
  | storeGrant u c g gr =>
    obtain ⟨hu, hc, hg⟩ := hop
    simp only [mgrTrace, mgrSetTrace]
    rw [unpack_good (goodPath_three hu hc hg)]
    exact shapeTr_set3 h hu hc hg gr

theorem shapeTr_delGrants (u c : Str) (gs : List Str) {s : Store} (h : Shape s) : ∀ s' ∈ delGrantsTrace s u c gs, Shape s' := by
  induction gs generalizing s with
  | nil => simp [delGrantsTrace]
  | cons g gs ih =>
    unfold delGrantsTrace
    cases s (sessionKey [u, c, g]) with
    | none => simp
    | some _ =>
      simp only [List.mem_cons]
      rintro s' (rfl | hs')
      · exact h.del _
      · exact ih (h.del _) s' hs'

theorem shapeTr_delete {s : Store} (h : Shape s) (path : List Str) (hp : GoodPath path) :
    ∀ s' ∈ deleteTrace s path, Shape s' := by
  intro s' hs'
  unfold deleteTrace at hs'
  cases he : evalPath path with
  | error e => simp [he] at hs'
  | ok t =>
    obtain ⟨u, c, g⟩ := t
    have hgood : GoodId u ∧ (∀ c', c = some c' → GoodId c') := by
      match path, hp, he with
      | [u'], hp, he => cases he; exact ⟨hp.2 _ (by simp), by simp⟩
      | [u', c'], hp, he => cases he; exact ⟨hp.2 _ (by simp), by rintro _ ⟨⟩; exact hp.2 _ (by simp)⟩
      | u' :: c' :: g' :: r, hp, he => cases he; exact ⟨hp.2 _ (by simp), by rintro _ ⟨⟩; exact hp.2 _ (by simp)⟩
    obtain ⟨hu, hcg⟩ := hgood
    simp only [he] at hs'
    cases hui : s u with
    | none => simp [hui] at hs'
    | some ui =>
      simp only [hui] at hs'
      by_cases hc : truthy c = false
      · simp only [hc, if_true, List.mem_singleton] at hs'
        subst hs'
        exact h.del u
      · rw [Bool.not_eq_false] at hc
        simp only [hc, Bool.true_eq_false, if_false] at hs'
        have hcc : ∃ c', c = some c' := by
          cases c with
          | none => cases hc
          | some c' => exact ⟨c', rfl⟩
        obtain ⟨c', rfl⟩ := hcc
        have hc' := hcg c' rfl
        simp only [Option.getD_some] at hs'
        cases hs : ui.subordinate with
        | error e => simp [hs] at hs'
        | ok usub =>
          simp only [hs] at hs'
          have hdu : ∀ {s1 : Store} (l : List Str), Shape s1 → Shape (dbDelUserPart s1 u ui l) :=
            fun l h1 => h1.delUser hu l ⟨usub, hs⟩
          by_cases hm : c' ∈ usub
          · simp only [hm, not_true_eq_false, if_false] at hs'
            cases hci : s (sessionKey [u, c']) with
            | none =>
              simp only [hci, List.mem_singleton] at hs'
              subst hs'
              exact hdu _ h
            | some ci =>
              simp only [hci] at hs'
              cases hcs : ci.subordinate with
              | error e => simp [hcs] at hs'
              | ok csub =>
                simp only [hcs] at hs'
                generalize hr : ((if truthy g = true then
                    if g.getD [] ∈ csub then
                      ([s.del (sessionKey [u, c', g.getD []])], csub.erase (g.getD []), Except.ok ())
                    else ([], csub, Except.ok ())
                  else (delGrantsTrace s u c' csub, [], (dbDelGrants s u c' csub).2)) :
                    List Store × List Str × Except Exn Unit) = r at hs'
                have hr1 : ∀ s1 ∈ r.1, Shape s1 := by
                  rw [← hr]
                  split
                  · split
                    · simp only [List.mem_singleton]
                      rintro s1 rfl
                      exact h.del _
                    · simp
                  · exact shapeTr_delGrants u c' csub h
                have hl : Shape (lastOf s r.1) := shape_last h hr1
                have hput : Shape ((lastOf s r.1).put c' (ci.setSubordinate r.2.1)) := by
                  cases ci with
                  | grant g => simp [Obj.subordinate] at hcs
                  | info i => exact hl.put (Or.inr (Or.inl ⟨c', _, hc', rfl, rfl⟩))
                cases hre : r.2.2 with
                | error e => simp only [hre] at hs'; exact hr1 _ hs'
                | ok _ =>
                  simp only [hre] at hs'
                  split at hs'
                  · simp only [List.mem_append, List.mem_cons, List.not_mem_nil, or_false] at hs'
                    rcases hs' with hs' | rfl | rfl
                    · exact hr1 _ hs'
                    · exact hl.del _
                    · exact hdu _ (hl.del _)
                  · simp only [List.mem_append, List.mem_cons, List.not_mem_nil, or_false] at hs'
                    rcases hs' with hs' | rfl | rfl
                    · exact hr1 _ hs'
                    · exact hput
                    · exact hdu _ hput
          · simp [hm] at hs'

end Verif
