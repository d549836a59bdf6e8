import Verif.Lemmas.StoreNd
import Verif.Props.Store
/-! C16–C18: deletion and listing of sessions. -/
set_option linter.unusedSimpArgs false
namespace Verif
open Spec

theorem delUserPart_at (s : Store) {u : Str} (hu : GoodId u) (ui : SessInfo) (l : List Str) (q : List Str)
    (hq : GoodPath q) : (dbDelUserPart s u (.info ui) l).at q =
      if q = [u] then (if l = [] then none else some (.info { ui with subordinate := l })) else s.at q := by
  unfold dbDelUserPart
  split
  · have := del_at s (goodPath_one hu) hq
    rw [key_one] at this
    rw [this]
  · have := put_at s ((Obj.info ui).setSubordinate l) (goodPath_one hu) hq
    rw [key_one] at this
    rw [this]
    rfl

/-- What deleting a client session does to the storage. -/
theorem delete_client_at (m : Mode) (s : Store) (ht : Tree s) (hn : Nd s) (u c : Str) (hu : GoodId u) (hc : GoodId c)
    (ui ci : SessInfo) (h1 : s.at [u] = some (.info ui)) (h2 : c ∈ ui.subordinate)
    (h3 : s.at [u, c] = some (.info ci)) :
    ∃ s', dbDelete m s [u, c] = (s', .ok ()) ∧ ∀ q, GoodPath q → s'.at q =
      if q = [u] then (if ui.subordinate.erase c = [] then none
        else some (.info { ui with subordinate := ui.subordinate.erase c }))
      else if q = [u, c] then none
      else if ∃ g ∈ ci.subordinate, q = [u, c, g] then none else s.at q := by
  obtain ⟨s1, hd, hat⟩ := delGrants_ok u c hu hc ci.subordinate s (hn.cli u c ci hu hc h3)
    (fun g hg => by
      obtain ⟨a, gr, b⟩ := ht.cli u c ci hu hc h3 g hg
      exact ⟨a, _, b⟩)
  refine ⟨dbDelUserPart (s1.del (sessionKey [u, c])) u (.info ui) (ui.subordinate.erase c), ?_, fun q hq => ?_⟩
  · have h1' : s u = some (.info ui) := h1
    have h3' : s (sessionKey [u, c]) = some (.info ci) := h3
    unfold dbDelete evalPath
    simp only [h1', truthy_good hc, Bool.true_eq_false, if_false, Obj.subordinate, Option.getD_some, h2, not_true, h3',
      truthy_none, Bool.false_eq_true, hd, if_true]
  · rw [delUserPart_at _ hu _ _ q hq, del_at _ (goodPath_two hu hc) hq, hat q hq]

theorem delete_absent (m : Mode) (s : Store) (u c : Str) (hc : GoodId c) (h : ¬ Listed s u c)
    (ht : ∀ g, s.at [u] ≠ some (.grant g)) : dbDelete m s [u, c] = (s, .ok ()) := by
  unfold dbDelete evalPath
  simp only [truthy_good hc, Bool.true_eq_false, if_false]
  cases hs : s u with
  | none => rfl
  | some o =>
    cases o with
    | grant g => exact absurd hs (ht g)
    | info ui =>
      have : c ∉ ui.subordinate := fun hm => h ⟨ui, hs, hm⟩
      simp [Obj.subordinate, this]

/-- C16, client sessions: in any state without dangling references or duplicate listings, deleting (user, client) raises
nothing, afterwards neither the client session nor any grant of it can be read, and everything that could be read for other
users or for other clients of the same user reads as before. -/
theorem C16_client_delete_exact (m : Mode) (s : Store) (ht : Tree s) (hn : Nd s) (u c : Str) (hu : GoodId u)
    (hc : GoodId c) :
    ∃ s', dbDelete m s [u, c] = (s', .ok ()) ∧
      (∀ o, dbGet s' [u, c] ≠ .ok o) ∧ (∀ g o, dbGet s' [u, c, g] ≠ .ok o) ∧
      ∀ q o, GoodPath q → q.length ≤ 3 → q ≠ [u] → ¬ [u, c] <+: q → (dbGet s' q = .ok o ↔ dbGet s q = .ok o) := by
  by_cases hL : Listed s u c
  · obtain ⟨ui, h1, h2⟩ := hL
    obtain ⟨_, ci, h3⟩ := ht.usr u ui hu h1 c h2
    obtain ⟨s', hd, hat⟩ := delete_client_at m s ht hn u c hu hc ui ci h1 h2 h3
    have hnd := hn.usr u ui hu h1
    have hself : s'.at [u] = if ui.subordinate.erase c = [] then none
        else some (.info { ui with subordinate := ui.subordinate.erase c }) := by
      rw [hat _ (goodPath_one hu)]; simp
    have hnl : ¬ Listed s' u c := by
      rintro ⟨ui', a, b⟩
      rw [hself] at a
      split at a
      · simp at a
      · simp only [Option.some.injEq, Obj.info.injEq] at a
        subst a
        simp only [hnd.mem_erase_iff, ne_eq, not_true, false_and] at b
    refine ⟨s', hd, ?_, ?_, ?_⟩
    · intro o ho; exact hnl ((dbGet2' _ _ _ _).1 ho).1
    · intro g o ho; exact hnl ((dbGet3' _ _ _ _ _).1 ho).1
    · intro q o hq hl e1 e2
      refine reads_elsewhere ⟨fun q hq a b => ?_, fun w hw => ?_⟩ hq hl e1 e2 o
      · rw [hat q hq]
        have k1 : q ≠ [u, c] := fun e => b (e ▸ List.prefix_refl _)
        have k2 : ¬ ∃ g ∈ ci.subordinate, q = [u, c, g] := by
          rintro ⟨g, _, e⟩
          exact b (e ▸ by simp [List.cons_prefix_cons])
        simp only [a, k1, k2, if_false]
      · unfold Listed
        rw [hself, h1]
        by_cases he : ui.subordinate.erase c = []
        · simp only [he, if_true, reduceCtorEq, false_and, exists_false, Option.some.injEq, Obj.info.injEq,
            exists_eq_left', false_iff]
          intro hwm
          have : w ∈ ui.subordinate.erase c := hnd.mem_erase_iff.2 ⟨hw, hwm⟩
          rw [he] at this
          simp at this
        · simp only [he, if_false, Option.some.injEq, Obj.info.injEq, exists_eq_left']
          rw [hnd.mem_erase_iff]
          simp [hw]
  · refine ⟨s, delete_absent m s u c hc hL (ht.typed.user' hu), ?_, ?_, fun _ _ _ _ _ _ => Iff.rfl⟩
    · intro o ho; exact hL ((dbGet2' _ _ _ _).1 ho).1
    · intro g o ho; exact hL ((dbGet3' _ _ _ _ _).1 ho).1

/-- C16 applies to every history of calls that does not use `add_grant`. -/
theorem C16_client_delete_in_histories (m : Mode) (sf : SubFuncs) (ops : List MgrOp)
    (h : ∀ op ∈ ops, OpGood op ∧ NotAddGrant op) (u c : Str) (hu : GoodId u) (hc : GoodId c) :
    let s := mgrRun m sf Store.empty ops
    ∃ s', dbDelete m s [u, c] = (s', .ok ()) ∧
      (∀ o, dbGet s' [u, c] ≠ .ok o) ∧ (∀ g o, dbGet s' [u, c, g] ≠ .ok o) ∧
      ∀ q o, GoodPath q → q.length ≤ 3 → q ≠ [u] → ¬ [u, c] <+: q → (dbGet s' q = .ok o ↔ dbGet s q = .ok o) :=
  C16_client_delete_exact m _ (tree_run tree_empty ops fun op ho => (h op ho).1)
    (nd_run tree_empty nd_empty ops h) u c hu hc

/-- Two grants of one user at one client. -/
def ops2 : List MgrOp :=
  [.createSession 100 c!"g1" c!"diana" c!"c1" { authReq := reqSample c!"c1" },
   .createGrant 101 c!"g2" c!"diana" c!"c1" { authReq := reqSample c!"c1" },
   .createSession 102 c!"g3" c!"bob" c!"c1" { authReq := reqSample c!"c1" }]

example : (∀ op ∈ ops2, OpGood op ∧ NotAddGrant op) ∧
    (∃ g, dbGet (mgrRun .byValue sfSample Store.empty ops2) [c!"diana", c!"c1", c!"g2"] = .ok g) := by
  refine ⟨?_, _, rfl⟩
  simp [ops2, OpGood, GoodId, SemicolonFree, NotAddGrant]

/-- C16, one grant (both kinds of back end): the deleted grant cannot be read any more, and its siblings can, unchanged.
What is missing from the property: see the two counterexamples below. -/
theorem C16_grant_delete_partial (m : Mode) (s : Store) (ht : Tree s) (hn : Nd s) (u c g : Str) (hu : GoodId u)
    (hc : GoodId c) (hg : GoodId g) (o : Obj) (hget : dbGet s [u, c, g] = .ok o) :
    ∃ s', dbDelete m s [u, c, g] = (s', .ok ()) ∧ (∀ o, dbGet s' [u, c, g] ≠ .ok o) ∧
      ∀ g' o, GoodId g' → g' ≠ g → (dbGet s' [u, c, g'] = .ok o ↔ dbGet s [u, c, g'] = .ok o) := by
  obtain ⟨ui, ci, h1, h2, h3, h4, _⟩ := (dbGet3 _ _ _ _ _).1 hget
  have h1' : s u = some (.info ui) := h1
  have h3' : s (sessionKey [u, c]) = some (.info ci) := h3
  have hnd := hn.cli u c ci hu hc h3
  have hndu := hn.usr u ui hu h1
  by_cases he : ci.subordinate.erase g = []
  · -- last grant
    refine ⟨dbDelUserPart ((if m = .aliased then (s.del (sessionKey [u, c, g])).put (sessionKey [u, c])
        ((Obj.info ci).setSubordinate (ci.subordinate.erase g)) else s.del (sessionKey [u, c, g])).del (sessionKey [u, c]))
        u (.info ui) (ui.subordinate.erase c), ?_, ?_, ?_⟩
    · unfold dbDelete evalPath
      simp only [h1', truthy_good hc, Bool.true_eq_false, if_false, Obj.subordinate, Option.getD_some, h2, not_true, h3',
        truthy_good hg, if_true, h4, he]
    all_goals
      generalize hX : (if m = .aliased then (s.del (sessionKey [u, c, g])).put (sessionKey [u, c])
        ((Obj.info ci).setSubordinate (ci.subordinate.erase g)) else s.del (sessionKey [u, c, g])) = X
    · intro o ho
      have := (dbGet3' _ _ _ _ _).1 ho
      have h := this.2.1
      rw [delUserPart_at _ hu _ _ _ (goodPath_two hu hc), del_at _ (goodPath_two hu hc) (goodPath_two hu hc)] at h
      simp at h
    · intro g' o hg' hne
      constructor
      · intro ho
        have h := ((dbGet3' _ _ _ _ _).1 ho).2.1
        rw [delUserPart_at _ hu _ _ _ (goodPath_two hu hc), del_at _ (goodPath_two hu hc) (goodPath_two hu hc)] at h
        simp at h
      · intro ho
        obtain ⟨_, ci', _, _, h3'', h4', _⟩ := (dbGet3 _ _ _ _ _).1 ho
        rw [h3] at h3''
        cases h3''
        have : g' ∈ ci.subordinate.erase g := hnd.mem_erase_iff.2 ⟨hne, h4'⟩
        rw [he] at this
        simp at this
  · -- siblings remain
    generalize hX : (if m = .aliased then (s.del (sessionKey [u, c, g])).put (sessionKey [u, c])
        ((Obj.info ci).setSubordinate (ci.subordinate.erase g)) else s.del (sessionKey [u, c, g])) = X
    have hne : ui.subordinate ≠ [] := fun e => by rw [e] at h2; simp at h2
    have hXat : ∀ q, GoodPath q → X.at q = if q = [u, c, g] then none
        else if q = [u, c] then (if m = .aliased then some (.info { ci with subordinate := ci.subordinate.erase g })
          else some (.info ci)) else s.at q := by
      intro q hq
      rw [← hX]
      by_cases hm : m = .aliased
      · simp only [hm, if_true]
        rw [put_at _ _ (goodPath_two hu hc) hq, del_at _ (goodPath_three hu hc hg) hq]
        by_cases e : q = [u, c]
        · subst e; simp [Obj.setSubordinate]
        · simp [e]
      · simp only [hm, if_false]
        rw [del_at _ (goodPath_three hu hc hg) hq]
        by_cases e : q = [u, c]
        · subst e; simp [h3]
        · simp [e]
    have hfin : ∀ q, GoodPath q → (dbDelUserPart (X.put (sessionKey [c]) ((Obj.info ci).setSubordinate
        (ci.subordinate.erase g))) u (.info ui) ui.subordinate).at q =
        if q = [u] then some (.info ui) else if q = [c] then
          some (.info { ci with subordinate := ci.subordinate.erase g }) else X.at q := by
      intro q hq
      rw [delUserPart_at _ hu _ _ q hq, put_at _ _ (goodPath_one hc) hq]
      simp [hne, Obj.setSubordinate]
    refine ⟨dbDelUserPart (X.put (sessionKey [c]) ((Obj.info ci).setSubordinate
        (ci.subordinate.erase g))) u (.info ui) ui.subordinate, ?_, ?_, ?_⟩
    · unfold dbDelete evalPath
      simp only [h1', truthy_good hc, Bool.true_eq_false, if_false, Obj.subordinate, Option.getD_some, h2, not_true, h3',
        truthy_good hg, if_true, h4, he, hX]
      rfl
    · intro o ho
      have := ((dbGet3' _ _ _ _ _).1 ho).2.2
      rw [hfin _ (goodPath_three hu hc hg), hXat _ (goodPath_three hu hc hg)] at this
      simp at this
    · intro g' o hg' hne'
      rw [dbGet3', dbGet3']
      unfold Listed
      rw [hfin _ (goodPath_one hu), hfin _ (goodPath_two hu hc), hfin _ (goodPath_three hu hc hg'),
        hXat _ (goodPath_two hu hc), hXat _ (goodPath_three hu hc hg'), h1, h3]
      simp only [if_true, List.cons.injEq, reduceCtorEq, and_false, if_false, hne', and_true, true_and]
      by_cases hm : m = .aliased
      · simp only [hm, if_true, Option.some.injEq, Obj.info.injEq, exists_eq_left']
        rw [hnd.mem_erase_iff]
        simp [hne']
      · simp [hm]

/-- C16 is false for single grants, first: deleting one of two grants of (diana, c1) creates a session record for a *user*
called `c1`, because the client record is written back under the wrong key. -/
theorem C16_phantom_user (m : Mode) :
    let s := mgrRun m sfSample Store.empty ops2
    dbGet s [c!"c1"] = .error .keyError ∧
    ∃ i, dbGet (dbDelete m s [c!"diana", c!"c1", c!"g1"]).1 [c!"c1"] = .ok (.info i) := by
  cases m
  · exact ⟨by decide, _, rfl⟩
  · exact ⟨by decide, _, rfl⟩

/-- C16 is false, second: if a user happens to have the same name as the client, that user's own sessions become
unreadable when somebody else's grant is deleted. -/
theorem C16_other_user_destroyed (m : Mode) :
    let s := mgrRun m sfSample Store.empty
      (ops2 ++ [.createSession 103 c!"g4" c!"c1" c!"rp" { authReq := reqSample c!"rp" }])
    (∃ g, dbGet s [c!"c1", c!"rp", c!"g4"] = .ok (.grant g)) ∧
    dbGet (dbDelete m s [c!"diana", c!"c1", c!"g1"]).1 [c!"c1", c!"rp", c!"g4"] = .error .valueError := by
  cases m
  · exact ⟨⟨_, rfl⟩, by decide⟩
  · exact ⟨⟨_, rfl⟩, by decide⟩

/-- C16 is false, third: with a copying back end the deleted grant stays in the listing, and listing the grants of the
session raises `NoSuchGrant`. -/
theorem C16_listing_broken_after_grant_delete :
    let s := mgrRun .byValue sfSample Store.empty ops2
    (∃ l, grants s c!"diana" c!"c1" = .ok l) ∧
    grants (dbDelete .byValue s [c!"diana", c!"c1", c!"g1"]).1 c!"diana" c!"c1" = .error .noSuchGrant := by
  exact ⟨⟨_, rfl⟩, by decide⟩

/-- C16 is false, fourth: after `add_grant` (which lists the grant twice) deleting the client session raises `KeyError`
half-way: the grants are gone but the client session is still listed. -/
theorem C16_delete_after_add_grant_raises :
    let s := (addGrant (mgrRun .aliased sfSample Store.empty ops2) 110 c!"g9" c!"diana" c!"c1" {}).1
    let d := dbDelete .aliased s [c!"diana", c!"c1"]
    d.2 = .error .keyError ∧ (∃ o, dbGet d.1 [c!"diana", c!"c1"] = .ok o) ∧
      dbGet d.1 [c!"diana", c!"c1", c!"g1"] = .error .noSuchGrant := by
  exact ⟨by decide, ⟨_, rfl⟩, by decide⟩

/-! ### C17 -/

/-- C17 is false: after the session of user diana is deleted, creating a new grant for the same user and client makes the
deleted grant readable again. -/
theorem C17_deleted_grant_comes_back (m : Mode) :
    let s := mgrRun m sfSample Store.empty ops2
    let s1 := (dbDelete m s [c!"diana"]).1
    let s2 := (createGrant sfSample s1 200 c!"new" c!"diana" c!"c1" { authReq := reqSample c!"c1" }).1
    dbGet s1 [c!"diana", c!"c1", c!"g1"] = .error .keyError ∧
    ∃ g, dbGet s2 [c!"diana", c!"c1", c!"g1"] = .ok (.grant g) := by
  cases m
  · exact ⟨by decide, _, rfl⟩
  · exact ⟨by decide, _, rfl⟩

/-- A history that only creates sessions, with grant ids not among the deleted ones. -/
def OnlyNewSessions (old : List Str) : MgrOp → Prop
  | .createSession _ gid _ _ _ => gid ∉ old
  | _ => False

/-- C17, the part that holds: if after the deletion sessions are only started with `create_session`, no deleted grant
becomes readable again. -/
theorem C17_deleted_stays_deleted_partial (m : Mode) (sf : SubFuncs) (s : Store) (ht : Tree s) (u : Str)
    (hu : GoodId u) (old : List Str) (ops : List MgrOp) (hops : ∀ op ∈ ops, OpGood op ∧ OnlyNewSessions old op)
    (hdel : s.at [u] = none) :
    ∀ c g o, GoodId c → GoodId g → g ∈ old → dbGet (mgrRun m sf s ops) [u, c, g] ≠ .ok o := by
  suffices H : ∀ (s : Store), Tree s →
      (∀ c ci g, GoodId c → Listed s u c → s.at [u, c] = some (.info ci) → g ∈ ci.subordinate → g ∉ old) →
      ∀ c g o, GoodId c → GoodId g → g ∈ old → dbGet (mgrRun m sf s ops) [u, c, g] ≠ .ok o from by
    refine H s ht ?_
    rintro c ci g _ ⟨ui, h, _⟩
    rw [hdel] at h
    cases h
  clear hdel ht
  induction ops with
  | nil =>
    intro s _ hinv c g o hc hg hold ho
    obtain ⟨hl, ⟨ci, a, b⟩, _⟩ := (dbGet3' _ _ _ _ _).1 ho
    exact hinv c ci g hc hl a b hold
  | cons op ops ih =>
    intro s ht hinv
    have hop := hops op (by simp)
    refine ih (fun o ho => hops o (by simp [ho])) (mgrStep m sf s op) (tree_step ht op hop.1) ?_
    cases op with
    | createSession now gid u' c' a =>
      obtain ⟨hgood, hnew⟩ := hop
      obtain ⟨hgid, hu', hc'⟩ := hgood
      simp only [mgrStep]
      unfold createSession
      generalize hcc : (if c' = [] then a.authReq.clientId else c') = cc at hc'
      obtain ⟨s1, h1, t1, hat1⟩ := createSession_user ht hu'
      obtain ⟨s2, h2, t2⟩ := tree_set2 t1 hu' hc' (SessInfo.client cc) (by simp [SessInfo.client])
      have f1 : SameElsewhere s s1 u' cc := same_ensureUser hu' hat1
      have f2 := same_set2 hu' hc' (t1.typed.user' hu') h2
      obtain ⟨s2', h2', hat2⟩ := dbSet2 s1 (.info (SessInfo.client cc)) hu' hc' (t1.typed.user' hu')
      rw [h2] at h2'
      cases h2'
      have hcc2 : s2.at [u', cc] = some (.info (SessInfo.client cc)) := by
        rw [hat2 _ (goodPath_two hu' hc')]; simp
      simp only [h1, h2]
      -- invariant for s2 and then for the grant
      have key : ∀ s3, SameElsewhere s s3 u' cc →
          (∀ ci g, s3.at [u', cc] = some (.info ci) → g ∈ ci.subordinate → g ∉ old) →
          ∀ c ci g, GoodId c → Listed s3 u c → s3.at [u, c] = some (.info ci) → g ∈ ci.subordinate → g ∉ old := by
        intro s3 f hown c ci g hc hl hci hg
        by_cases e : u = u' ∧ c = cc
        · obtain ⟨rfl, rfl⟩ := e
          exact hown ci g hci hg
        · have hci' : s.at [u, c] = some (.info ci) := by
            rw [← f.same [u, c] (goodPath_two hu hc) (by simp) (by
              rw [prefix2]; exact fun k => e ⟨k.1.symm, k.2.symm⟩)]
            exact hci
          refine hinv c ci g hc ?_ hci' hg
          by_cases e' : u = u'
          · subst e'
            exact (f.listed c (fun k => e ⟨rfl, k⟩)).1 hl
          · unfold Listed at hl ⊢
            rwa [f.same [u] (goodPath_one hu) (by simpa using e') (by simp [List.cons_prefix_cons])] at hl
      unfold createGrant
      cases hng : newGrant sf now gid u' a with
      | error e =>
        simp only
        refine key s2 (f1.trans f2) ?_
        intro ci g hci hg
        rw [hcc2] at hci
        cases hci
        simp [SessInfo.client] at hg
      | ok gr =>
        obtain ⟨s3, h3, hat3⟩ := dbSet3 s2 (.grant gr) hu' hc' hgid (t2.typed.user' hu') (t2.typed.client' hu' hc')
        simp only [h3]
        have f3 := same_set3 hu' hc' hgid (t2.typed.user' hu') (t2.typed.client' hu' hc') h3
        refine key s3 ((f1.trans f2).trans f3) ?_
        intro ci g hci hg
        rw [hat3 _ (goodPath_two hu' hc')] at hci
        simp [clientOr, hcc2] at hci
        subst hci
        rw [addSub_mem] at hg
        rcases hg with hg | rfl
        · simp [SessInfo.client] at hg
        · exact hnew
    | _ => exact absurd hop.2 (by simp [OnlyNewSessions])

example : let s := mgrRun .byValue sfSample Store.empty ops2
    (dbDelete .byValue s [c!"diana"]).1.at [c!"diana"] = none ∧
    (∀ op ∈ [MgrOp.createSession 300 c!"g7" c!"diana" c!"c1" { authReq := reqSample c!"c1" }],
      OpGood op ∧ OnlyNewSessions [c!"g1", c!"g2"] op) := by
  refine ⟨by decide, ?_⟩
  simp [OpGood, GoodId, SemicolonFree, OnlyNewSessions]

end Verif
