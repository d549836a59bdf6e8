import Verif.Spec.Crash
import Verif.Lemmas.CrashTree
import Verif.Props.Storage
set_option linter.unusedSimpArgs false
/-! C106-C108: the provider is killed in the middle of a call and started again on the same storage. -/
namespace Verif
open Spec

/-! ### C106 -/

theorem tree_killRun {sf : SubFuncs} (ops : List MaybeKilled) (hg : KillsGood ops) (hd : NoDelete ops) {s : Store}
    (ht : Tree s) : Tree (killRun sf s ops) := by
  induction ops generalizing s with
  | nil => exact ht
  | cons x xs ih =>
    obtain ⟨op, hop⟩ := hd x (by simp)
    have hg1 := hg x (by simp)
    refine ih (fun y hy => hg y (by simp [hy])) (fun y hy => hd y (by simp [hy])) ?_
    obtain ⟨o, n⟩ := x
    cases hop
    exact killStep_of sf s (.mgr op) n Tree ht (fun s' hs' => treeTr_mgr ht op hg1 s' hs')

/-- C106: whatever calls create sessions and grants, add and change grants and revoke tokens, grants and client sessions,
and whichever of them are killed after whatever number of writes, there is never a dangling reference: every client listed
for a user and every grant listed for a client can be read. -/
theorem C106_no_dangling_after_crashes_partial (sf : SubFuncs) (ops : List MaybeKilled) (hg : KillsGood ops) (hd : NoDelete ops) :
    NoDangling (killRun sf Store.empty ops) := tree_noDangling (tree_killRun ops hg hd tree_empty)

/-- A history in which diana logs in at two clients and the second login is killed. -/
def killOps (n : Nat) : List MaybeKilled :=
  [(.mgr (.createSession 100 c!"g1" c!"diana" c!"c1" { authReq := reqSample c!"c1", scopes := [c!"openid"] }), none),
   (.mgr (.createSession 102 c!"g3" c!"diana" c!"c2" { authReq := reqSample c!"c2" }), some n)]

example : KillsGood (killOps 4) ∧ NoDelete (killOps 4) ∧
    (∃ ui, dbGet (killRun sfSample Store.empty (killOps 4)) [c!"diana"] = .ok (.info ui) ∧ ui.subordinate = [c!"c1", c!"c2"]) ∧
    (∃ ci, dbGet (killRun sfSample Store.empty (killOps 4)) [c!"diana", c!"c2"] = .ok (.info ci) ∧ ci.subordinate = []) := by
  refine ⟨?_, ?_, ⟨_, by rfl, by decide⟩, ⟨_, by rfl, by decide⟩⟩
  · simp [KillsGood, killOps, DbOpGood, OpGood, GoodId, SemicolonFree]
  · intro x hx
    simp only [killOps, List.mem_cons, List.not_mem_nil, or_false] at hx
    rcases hx with rfl | rfl <;> exact ⟨_, rfl⟩

/-- C106 does not hold for deletions: they work from the leaves to the root, so a client session whose deletion is killed
after the first write is listed with a grant that cannot be read, and after the second write the user is listed with a
client that cannot be read. -/
theorem C106_killed_delete_dangles :
    let s (n : Nat) := killRun sfSample Store.empty
      [(.mgr (.createSession 100 c!"g1" c!"diana" c!"c1" { authReq := reqSample c!"c1" }), none), (.delete [c!"diana", c!"c1"], some n)]
    (dbGet (s 0) [c!"diana", c!"c1", c!"g1"]).isOk = true ∧
    (∃ ci, dbGet (s 1) [c!"diana", c!"c1"] = .ok (.info ci) ∧ ci.subordinate = [c!"g1"]) ∧
    dbGet (s 1) [c!"diana", c!"c1", c!"g1"] = .error .noSuchGrant ∧
    (∃ ui, dbGet (s 2) [c!"diana"] = .ok (.info ui) ∧ ui.subordinate = [c!"c1"]) ∧
    dbGet (s 2) [c!"diana", c!"c1"] = .error .noSuchClientSession ∧
    dbGet (s 3) [c!"diana"] = .error .keyError := by
  refine ⟨by decide, ⟨_, by rfl, by decide⟩, by decide, ⟨_, by rfl, by decide⟩, by decide, by decide⟩

/-! ### C107 -/

theorem shape_killRun {sf : SubFuncs} (ops : List MaybeKilled) (hg : KillsGood ops) {s : Store}
    (hs : Shape s) : Shape (killRun sf s ops) := by
  induction ops generalizing s with
  | nil => exact hs
  | cons x xs ih =>
    have hg1 := hg x (by simp)
    refine ih (fun y hy => hg y (by simp [hy])) ?_
    obtain ⟨o, n⟩ := x
    refine killStep_of sf s o n Shape hs ?_
    cases o with
    | mgr op => exact shapeTr_mgr hs op hg1
    | delete path => exact shapeTr_delete hs path hg1

theorem ensureUser_ok (s : Store) (u : Str) : (ensureUser s u).2 = .ok () := by
  unfold ensureUser
  cases hs : s u with
  | none =>
    have : dbGet s [u] = .error .keyError := by simp [dbGet, evalPath, hs]
    simp only [this]; rfl
  | some o =>
    have : dbGet s [u] = .ok o := by simp [dbGet, evalPath, hs]
    simp only [this]

/-- C107: after every history of calls and deletions, killed at whatever points, every user can log in at every client:
the login succeeds, and its session is readable and is the one asked for. -/
theorem C107_login_after_crashes (sf : SubFuncs) (ops : List MaybeKilled) (h : KillsGood ops) (now : Int) (gid u c : Str)
    (a : SessArgs) (hg : GoodId gid) (hu : GoodId u) (hc : GoodId (if c = [] then a.authReq.clientId else c))
    (f : Str → Option Str → Str) (hsf : sf a.subType = some f) :
    let c' := if c = [] then a.authReq.clientId else c
    ∃ s' gr, createSession sf (killRun sf Store.empty ops) now gid u c a = (s', .ok (sessionKey [u, c', gid])) ∧
      getGrant s' (sessionKey [u, c', gid]) = .ok gr ∧
      gr.authReq = some a.authReq ∧ gr.authnEvent = a.authnEvent ∧ gr.scope = a.scopes ∧
      gr.sub = f u a.authReq.sectorIdentifierUri ∧ gr.usageRules = a.usageRules ∧ gr.issuedToken = [] ∧
      gr.revoked = false := by
  have hsh := shape_killRun (sf := sf) ops h shape_empty
  generalize killRun sf Store.empty ops = s at hsh
  dsimp only
  generalize hc' : (if c = [] then a.authReq.clientId else c) = c' at hc ⊢
  have hsh1 := shape_ensureUser hsh hu
  have hok := ensureUser_ok s u
  obtain ⟨s2, h2, _⟩ := C13_read_own_write (ensureUser s u).1 hsh1.typed [u, c'] (goodPath_two hu hc) (by simp)
    (.info (SessInfo.client c'))
  have hsh2 : Shape s2 := by
    have := shape_last hsh1 (shapeTr_set2 hsh1 hu hc (SessInfo.client c'))
    rw [setTrace_last, h2] at this
    exact this
  have hng : newGrant sf now gid u a = .ok (Grant.new now gid
      { authReq := some a.authReq, authnEvent := a.authnEvent, sub := f u a.authReq.sectorIdentifierUri,
        usageRules := a.usageRules, maxUsage := a.maxUsage, scope := a.scopes }) := by
    unfold newGrant; rw [hsf]
  generalize hgr : Grant.new now gid
      { authReq := some a.authReq, authnEvent := a.authnEvent, sub := f u a.authReq.sectorIdentifierUri,
        usageRules := a.usageRules, maxUsage := a.maxUsage, scope := a.scopes } = gr at hng
  obtain ⟨s3, h3, hget⟩ := C13_read_own_write s2 hsh2.typed [u, c', gid] (goodPath_three hu hc hg) (by simp) (.grant gr)
  refine ⟨s3, gr, ?_, ?_, hgr ▸ rfl, hgr ▸ rfl, hgr ▸ rfl, hgr ▸ rfl, hgr ▸ rfl, hgr ▸ rfl, hgr ▸ rfl⟩
  · unfold createSession
    simp only [hok, hc', h2]
    simp only [createGrant, hng, h3]
  · unfold getGrant
    rw [unpack3_good hu hc hg]
    simp only [hget]

/-- The history of `C106_killed_delete_dangles` killed in the middle of everything: the user then logs in again. -/
example : KillsGood (killOps 4 ++ [(.delete [c!"diana", c!"c1"], some 1), (.delete [c!"diana", c!"c2"], some 1)]) ∧
    sfSample c!"public" ≠ none := by
  simp [KillsGood, killOps, DbOpGood, OpGood, GoodPath, GoodId, SemicolonFree, sfSample]

/-! ### C108 -/

theorem key3_inj {u c g g' : Str} (hu : GoodId u) (hc : GoodId c) (hg : GoodId g) (hg' : GoodId g')
    (h : sessionKey [u, c, g] = sessionKey [u, c, g']) : g = g' := by
  have := (key_inj (goodPath_three hu hc hg) (goodPath_three hu hc hg')).1 h
  simpa using this

theorem delGrantsTrace_facts (u c : Str) (gs : List Str) (s : Store) :
    ∀ s' ∈ delGrantsTrace s u c gs,
      (∀ k, (∀ g ∈ gs, k ≠ sessionKey [u, c, g]) → s' k = s k) ∧
      (∀ k, s' k = s k ∨ s' k = none) ∧
      (∀ g0, gs.head? = some g0 → s' (sessionKey [u, c, g0]) = none) := by
  induction gs generalizing s with
  | nil => simp [delGrantsTrace]
  | cons g gs ih =>
    unfold delGrantsTrace
    cases hs : s (sessionKey [u, c, g]) with
    | none => simp
    | some o =>
      simp only [List.mem_cons]
      have hd : ∀ k, s.del (sessionKey [u, c, g]) k = s k ∨ s.del (sessionKey [u, c, g]) k = none := by
        intro k
        by_cases e : k = sessionKey [u, c, g]
        · right; subst e; simp [Store.del]
        · left; exact del_ne s e
      rintro s' (rfl | hs')
      · refine ⟨fun k hk => del_ne s (hk g (Or.inl rfl)), hd, ?_⟩
        rintro g0 ⟨⟩
        simp [Store.del]
      · obtain ⟨h1, h2, _⟩ := ih (s.del (sessionKey [u, c, g])) s' hs'
        refine ⟨fun k hk => ?_, fun k => ?_, ?_⟩
        · rw [h1 k (fun g' hg' => hk g' (Or.inr hg'))]
          exact del_ne s (hk g (Or.inl rfl))
        · rcases h2 k with e | e
          · rw [e]; exact hd k
          · exact Or.inr e
        · rintro g0 ⟨⟩
          rcases h2 (sessionKey [u, c, g]) with e | e
          · rw [e]; simp [Store.del]
          · exact e

theorem delGrantsTrace_length {u c : Str} (hu : GoodId u) (hc : GoodId c) (gs : List Str) (s : Store) (hn : gs.Nodup)
    (hst : ∀ g ∈ gs, GoodId g ∧ ∃ o, s (sessionKey [u, c, g]) = some o) :
    (delGrantsTrace s u c gs).length = gs.length ∧ dbDelGrants s u c gs = (lastOf s (delGrantsTrace s u c gs), .ok ()) := by
  induction gs generalizing s with
  | nil => exact ⟨rfl, rfl⟩
  | cons g gs ih =>
    obtain ⟨hg, o, ho⟩ := hst g (by simp)
    rw [List.nodup_cons] at hn
    obtain ⟨h1, h2⟩ := ih (s.del (sessionKey [u, c, g])) hn.2 (by
      intro g' hg'
      obtain ⟨hgg, o', ho'⟩ := hst g' (by simp [hg'])
      refine ⟨hgg, o', ?_⟩
      rw [del_ne s, ho']
      intro e
      exact hn.1 (key3_inj hu hc hgg hg e ▸ hg'))
    unfold delGrantsTrace dbDelGrants
    simp only [ho, List.length_cons, h1, h2, true_and, Prod.mk.injEq, and_true]
    show _ = lastOf s ([_] ++ delGrantsTrace _ u c gs)
    rw [lastOf_append]
    rfl

/-- What the records of a complete client session are. -/
theorem wholeClient_records {s : Store} {u c : Str} {gs : List Str} (h : WholeClient s u c gs) :
    ∃ ui ci, s u = some (.info ui) ∧ c ∈ ui.subordinate ∧ s (sessionKey [u, c]) = some (.info ci) ∧ ci.subordinate = gs ∧
      gs.Nodup ∧ ∀ g ∈ gs, GoodId g ∧ ∃ o, s (sessionKey [u, c, g]) = some o := by
  obtain ⟨⟨ci, hci, hsub⟩, hn, hgs⟩ := h
  obtain ⟨ui, h1, h2, h3⟩ := (dbGet2 _ _ _ _).1 hci
  refine ⟨ui, ci, h1, h2, h3, hsub, hn, fun g hg => ?_⟩
  obtain ⟨hgg, gr, hgr⟩ := hgs g hg
  obtain ⟨_, _, _, _, _, _, h5⟩ := (dbGet3 _ _ _ _ _).1 hgr
  exact ⟨hgg, _, h5⟩

/-- The crash points of the deletion of a complete client session. -/
theorem deleteTrace_whole {s : Store} {u c : Str} {gs : List Str} (hu : GoodId u) (hc : GoodId c) (h : WholeClient s u c gs) :
    ∃ ui, s u = some (.info ui) ∧ c ∈ ui.subordinate ∧
      deleteTrace s [u, c] = delGrantsTrace s u c gs ++
        [(lastOf s (delGrantsTrace s u c gs)).del (sessionKey [u, c]),
         dbDelUserPart ((lastOf s (delGrantsTrace s u c gs)).del (sessionKey [u, c])) u (.info ui) (ui.subordinate.erase c)] := by
  obtain ⟨ui, ci, h1, h2, h3, h4, h5, h6⟩ := wholeClient_records h
  refine ⟨ui, h1, h2, ?_⟩
  unfold deleteTrace
  have htr := truthy_good hc
  simp only [evalPath, h1, htr, Bool.true_eq_false, if_false, Obj.subordinate, Option.getD_some, not_true_eq_false, h2, h3, h4,
    (delGrantsTrace_length hu hc gs s h5 h6).2]
  simp [truthy]

/-- The storage of a deletion killed in the loop over the grants. -/
theorem killed_in_loop {s : Store} {u c g0 : Str} {gs : List Str} (hu : GoodId u) (hc : GoodId c)
    (h : WholeClient s u c (g0 :: gs)) {n : Nat} (h1 : 1 ≤ n) (h2 : n ≤ (g0 :: gs).length) :
    lastOf s ((deleteTrace s [u, c]).take n) ∈ delGrantsTrace s u c (g0 :: gs) := by
  obtain ⟨ui, _, _, he⟩ := deleteTrace_whole hu hc h
  obtain ⟨_, _, _, _, _, _, h5, h6⟩ := wholeClient_records h
  have hl := (delGrantsTrace_length hu hc _ s h5 h6).1
  rw [he, List.take_append_of_le_length (by omega)]
  have hne : (delGrantsTrace s u c (g0 :: gs)).take n ≠ [] := by
    intro e
    have := congrArg List.length e
    rw [List.length_take, hl] at this
    simp only [List.length_cons, List.length_nil] at this h2
    omega
  unfold lastOf
  rw [List.getLast?_eq_some_getLast hne]
  exact List.mem_of_mem_take (List.getLast_mem hne)

/-- C108 does not hold on a storage that raises `KeyError` for a missing key, as a `dict` does: when the deletion of a
client session is killed after it has deleted one or more of the grants, deleting it again raises `KeyError` and leaves
the storage as it is, and so does every further attempt. -/
theorem C108_retry_fails_on_dict (s : Store) (u c g0 : Str) (gs : List Str) (hu : GoodId u) (hc : GoodId c)
    (h : WholeClient s u c (g0 :: gs)) (n : Nat) (h1 : 1 ≤ n) (h2 : n ≤ (g0 :: gs).length) :
    let s' := killStep sfSample s (.delete [u, c], some n)
    deleteOn (dictBackend .byValue) s' [u, c] = (s', .error .keyError) := by
  intro s'
  have hm := killed_in_loop hu hc h h1 h2
  obtain ⟨f1, _, f3⟩ := delGrantsTrace_facts u c _ s _ hm
  obtain ⟨ui, ci, r1, r2, r3, r4, _, _⟩ := wholeClient_records h
  change lastOf s ((deleteTrace s [u, c]).take n) ∈ _ at hm
  have e1 : s' u = some (.info ui) := by
    rw [← r1]; exact f1 u (fun g _ e => key3_ne1 u c g e.symm)
  have e2 : s' (sessionKey [u, c]) = some (.info ci) := by
    rw [← r3]; exact f1 _ (fun g _ e => key3_ne2 u c g e.symm)
  have e3 : s' (sessionKey [u, c, g0]) = none := f3 g0 rfl
  rw [deleteOn_dict]
  unfold dbDelete
  have htr := truthy_good hc
  simp only [evalPath, e1, htr, Bool.true_eq_false, if_false, Obj.subordinate, Option.getD_some, not_true_eq_false, r2, e2, r4, dbDelGrants, e3]
  simp [truthy]

theorem delGrantsOn_shelve (u c : Str) (gs : List Str) (s : Store) :
    delGrantsOn shelveBackend s u c gs = ((fun k => if k ∈ gs.map (fun g => sessionKey [u, c, g]) then none else s k), .ok ()) := by
  induction gs generalizing s with
  | nil => simp [delGrantsOn]
  | cons g gs ih =>
    unfold delGrantsOn
    simp only [shelveBackend]
    change delGrantsOn shelveBackend (s.del (sessionKey [u, c, g])) u c gs = _
    rw [ih]
    congr 1
    funext k
    simp only [List.map_cons, List.mem_cons]
    by_cases e1 : k ∈ gs.map (fun g => sessionKey [u, c, g])
    · simp [e1]
    · by_cases e2 : k = sessionKey [u, c, g]
      · subst e2; simp [Store.del]
      · simp [e1, e2, del_ne]

/-- C108 on `ShelveDataBase`, as long as the client record is still there: deleting again after a crash in the loop over
the grants leaves exactly the storage that the deletion would have left without the crash. -/
theorem C108_retry_completes_on_shelve_partial (s : Store) (u c g0 : Str) (gs : List Str) (hu : GoodId u) (hc : GoodId c)
    (h : WholeClient s u c (g0 :: gs)) (n : Nat) (h1 : 1 ≤ n) (h2 : n ≤ (g0 :: gs).length) :
    deleteOn shelveBackend (killStep sfSample s (.delete [u, c], some n)) [u, c] = deleteOn shelveBackend s [u, c] ∧
    (deleteOn shelveBackend s [u, c]).2 = .ok () := by
  have hm := killed_in_loop hu hc h h1 h2
  obtain ⟨f1, f2, _⟩ := delGrantsTrace_facts u c _ s _ hm
  obtain ⟨ui, ci, r1, r2, r3, r4, _, _⟩ := wholeClient_records h
  change deleteOn shelveBackend (lastOf s ((deleteTrace s [u, c]).take n)) [u, c] = _ ∧ _
  generalize lastOf s ((deleteTrace s [u, c]).take n) = s' at f1 f2
  have e1 : s' u = some (.info ui) := by
    rw [← r1]; exact f1 u (fun g _ e => key3_ne1 u c g e.symm)
  have e2 : s' (sessionKey [u, c]) = some (.info ci) := by
    rw [← r3]; exact f1 _ (fun g _ e => key3_ne2 u c g e.symm)
  have hd : delGrantsOn shelveBackend s' u c (g0 :: gs) = delGrantsOn shelveBackend s u c (g0 :: gs) := by
    rw [delGrantsOn_shelve, delGrantsOn_shelve]
    congr 1
    funext k
    by_cases e : k ∈ (g0 :: gs).map (fun g => sessionKey [u, c, g])
    · simp only [e, if_true]
    · simp only [e, if_false]
      exact f1 k (fun g hg e' => e (List.mem_map.2 ⟨g, hg, e'.symm⟩))
  have htr := truthy_good hc
  have g1 : ∀ t : Store, shelveBackend.getItem t = fun k => .ok (t k) := fun _ => rfl
  unfold deleteOn
  simp only [evalPath, g1, e1, r1, htr, Bool.true_eq_false, if_false, subOf, Obj.subordinate, Option.getD_some, not_true_eq_false, r2, e2, r3,
    r4, hd]
  refine ⟨by simp [truthy], ?_⟩
  simp only [truthy, Bool.false_eq_true, if_false, delGrantsOn_shelve]
  simp only [shelveBackend, delUserOn, if_true]
  split
  · rfl
  · rfl

/-- C108 fails on every storage when the crash comes between the deletion of the client record and the update of the user
record: the user keeps listing the client.  On a `dict` deleting again reports success and changes nothing, so the
client stays listed and cannot be read; on `ShelveDataBase` it raises `TypeError`. -/
theorem C108_client_stays_listed (s : Store) (u c : Str) (gs : List Str) (hu : GoodId u) (hc : GoodId c)
    (h : WholeClient s u c gs) :
    let s' := killStep sfSample s (.delete [u, c], some (gs.length + 1))
    deleteOn (dictBackend .byValue) s' [u, c] = (s', .ok ()) ∧
    deleteOn shelveBackend s' [u, c] = (s', .error .typeError) ∧
    (∃ ui, dbGet s' [u] = .ok (.info ui) ∧ c ∈ ui.subordinate) ∧ dbGet s' [u, c] = .error .noSuchClientSession := by
  intro s'
  obtain ⟨ui, hui, hcl, he⟩ := deleteTrace_whole hu hc h
  obtain ⟨_, _, _, _, _, _, h5, h6⟩ := wholeClient_records h
  have hl := (delGrantsTrace_length hu hc _ s h5 h6).1
  have hs' : s' = (lastOf s (delGrantsTrace s u c gs)).del (sessionKey [u, c]) := by
    change lastOf s ((deleteTrace s [u, c]).take (gs.length + 1)) = _
    rw [he, List.take_append, hl, List.take_of_length_le (by omega)]
    simp only [Nat.add_sub_cancel_left, List.take_succ_cons, List.take_zero]
    rw [lastOf_snoc]
  have e1 : s' u = some (.info ui) := by
    rw [hs', del_ne _ (key2_ne_user u c).symm]
    rcases lastOf_cases s (delGrantsTrace s u c gs) with e | e
    · rw [e]; exact hui
    · rw [← hui]
      exact (delGrantsTrace_facts u c gs s _ e).1 u (fun g _ e => key3_ne1 u c g e.symm)
  have e2 : s' (sessionKey [u, c]) = none := by rw [hs']; simp [Store.del]
  have htr := truthy_good hc
  have hne : ui.subordinate ≠ [] := by intro e; rw [e] at hcl; cases hcl
  refine ⟨?_, ?_, ⟨ui, (dbGet1 _ _ _).2 e1, hcl⟩, ?_⟩
  · rw [deleteOn_dict]
    unfold dbDelete
    simp only [evalPath, e1, htr, Bool.true_eq_false, if_false, Obj.subordinate, Option.getD_some, not_true_eq_false, hcl, e2, dbDelUserPart,
      hne]
    simp only [Obj.setSubordinate, Prod.mk.injEq, and_true]
    funext k
    by_cases e : k = u
    · subst e; rw [put_self, e1]
    · rw [put_ne _ _ e]
  · have g1 : ∀ t : Store, shelveBackend.getItem t = fun k => .ok (t k) := fun _ => rfl
    unfold deleteOn
    simp only [evalPath, g1, e1, htr, Bool.true_eq_false, if_false, subOf, Obj.subordinate, Option.getD_some, not_true_eq_false, hcl, e2]
  · unfold dbGet
    simp only [evalPath, e1, Obj.subordinate, hcl, not_true, if_false, e2]

/-- Complete client sessions are what histories produce: two grants here. -/
def wholeOps : List MaybeKilled :=
  [(.mgr (.createSession 100 c!"g1" c!"diana" c!"c1" { authReq := reqSample c!"c1" }), none),
   (.mgr (.createGrant 101 c!"g2" c!"diana" c!"c1" { authReq := reqSample c!"c1" }), none)]

example : WholeClient (killRun sfSample Store.empty wholeOps) c!"diana" c!"c1" [c!"g1", c!"g2"] := by
  refine ⟨⟨_, by rfl, by decide⟩, by decide, ?_⟩
  intro g hg
  simp only [List.mem_cons, List.not_mem_nil, or_false] at hg
  rcases hg with rfl | rfl
  · exact ⟨by simp [GoodId, SemicolonFree], _, by rfl⟩
  · exact ⟨by simp [GoodId, SemicolonFree], _, by rfl⟩

end Verif
