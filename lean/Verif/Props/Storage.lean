import Verif.Model.Storage
import Verif.Props.StoreDelete
/-! C99: the storage back ends agree, and where they do not. -/
set_option linter.unusedSimpArgs false
namespace Verif
open Spec

/-! ### The default storage is the one of all other theorems -/

/-- Reading over a `dict` is the `dbGet` of all other theorems, in every state. -/
theorem getOn_dict (m : Mode) (s : Store) (path : List Str) : getOn (dictBackend m) s path = (dbGet s path).map some := by
  unfold getOn dbGet dictBackend
  cases evalPath path with
  | error e => rfl
  | ok p =>
    obtain ⟨u, c, g⟩ := p
    dsimp only
    cases s u with
    | none => rfl
    | some ui =>
      dsimp only
      cases c with
      | none => rfl
      | some c =>
        dsimp only
        cases ui.subordinate with
        | error e => rfl
        | ok usub =>
          dsimp only
          split
          · rfl
          · cases s (sessionKey [u, c]) with
            | none => rfl
            | some ci =>
              dsimp only
              cases g with
              | none => rfl
              | some g =>
                dsimp only [subOf]
                cases ci.subordinate with
                | error e => rfl
                | ok csub =>
                  dsimp only
                  split
                  · rfl
                  · cases s (sessionKey [u, c, g]) <;> rfl

theorem delGrantsOn_dict (b : Backend) (hb : b.delItem = dictDel) (u c : Str) (gs : List Str) (s : Store) :
    delGrantsOn b s u c gs = dbDelGrants s u c gs := by
  induction gs generalizing s with
  | nil => rfl
  | cons g gs ih =>
    unfold delGrantsOn dbDelGrants
    rw [hb]
    unfold dictDel
    cases s (sessionKey [u, c, g]) with
    | none => rfl
    | some o => exact ih _

theorem key2_ne_user (u c : Str) : sessionKey [u, c] ≠ u := by
  intro h
  have := congrArg List.length h
  simp [sessionKey, pyJoin, divider] at this

theorem key3_ne1 (u c g : Str) : sessionKey [u, c, g] ≠ u := by
  intro h
  have := congrArg List.length h
  simp [sessionKey, pyJoin, divider] at this

theorem key3_ne2 (u c g : Str) : sessionKey [u, c, g] ≠ sessionKey [u, c] := by
  intro h
  have := congrArg List.length h
  simp [sessionKey, pyJoin, divider] at this

theorem delGrants_keeps (k u c : Str) (hk : ∀ g, sessionKey [u, c, g] ≠ k) (gs : List Str) (s : Store) :
    (dbDelGrants s u c gs).1 k = s k := by
  induction gs generalizing s with
  | nil => rfl
  | cons g gs ih =>
    unfold dbDelGrants
    cases s (sessionKey [u, c, g]) with
    | none => rfl
    | some o =>
      dsimp only
      rw [ih]
      unfold Store.del
      rw [if_neg (fun e => hk g e.symm)]

/-- A storage that can read and delete what is there. -/
structure Backend.Sound (b : Backend) : Prop where
  del : ∀ s k, s k ≠ none → b.delItem s k = (s.del k, .ok ())
  fst : ∀ s k, (b.delItem s k).1 = s.del k
  get : ∀ s k o, s k = some o → b.getItem s k = .ok (some o)

theorem delUserOn_dict (b : Backend) (hb : b.Sound) (s : Store) (u : Str) (ui : Obj) (l : List Str)
    (h : s u ≠ none) : delUserOn b s u ui l = (dbDelUserPart s u ui l, .ok ()) := by
  unfold delUserOn dbDelUserPart
  split
  · rw [hb.del s u h]
  · rfl

theorem dictDel_some {s : Store} {k : Str} (h : s k ≠ none) : dictDel s k = (s.del k, .ok ()) := by
  unfold dictDel
  cases hs : s k with
  | none => exact absurd hs h
  | some o => rfl

theorem del_ne (s : Store) {k k' : Str} (h : k' ≠ k) : (s.del k) k' = s k' := by
  unfold Store.del; rw [if_neg h]

theorem put_ne (s : Store) (v : Obj) {k k' : Str} (h : k' ≠ k) : (s.put k v) k' = s k' := by
  unfold Store.put; rw [if_neg h]

theorem put_self (s : Store) (v : Obj) (k : Str) : (s.put k v) k = some v := by
  unfold Store.put; rw [if_pos rfl]

theorem dictDel_fst (s : Store) (k : Str) : (dictDel s k).1 = s.del k := by
  unfold dictDel
  cases h : s k with
  | none =>
    funext k'
    unfold Store.del
    by_cases e : k' = k
    · subst e; simp [h]
    · simp [e]
  | some o => rfl

theorem dict_sound (m : Mode) : (dictBackend m).Sound :=
  ⟨fun _ _ h => dictDel_some h, dictDel_fst, fun s k o h => by simp only [dictBackend, h]⟩
theorem inMemory_sound : inMemoryBackend.Sound :=
  ⟨fun _ _ h => dictDel_some h, dictDel_fst, fun s k o h => by simp only [inMemoryBackend, h]⟩
theorem shelve_sound : shelveBackend.Sound :=
  ⟨fun _ _ _ => rfl, fun _ _ => rfl, fun s k o h => by simp only [shelveBackend, h]⟩

/-- Where user and client session are there, deletion is the same for every storage. -/
theorem deleteOn_of_present (b : Backend) (hb : b.Sound) (s : Store) (u : Str) (c g : Option Str)
    (path : List Str) (hp : evalPath path = .ok (u, c, g)) (ui : Obj) (hu : s u = some ui)
    (hc : truthy c = true → ∀ l, ui.subordinate = .ok l → c.getD [] ∈ l → ∃ o, s (sessionKey [u, c.getD []]) = some o)
    (hd : truthy c = true → ∀ ci l, s (sessionKey [u, c.getD []]) = some ci → ci.subordinate = .ok l →
      delGrantsOn b s u (c.getD []) l = dbDelGrants s u (c.getD []) l) :
    deleteOn b s path = dbDelete b.mode s path := by
  unfold deleteOn dbDelete
  rw [hp]
  dsimp only
  rw [hb.get s u ui hu, hu]
  dsimp only
  by_cases ht : truthy c = false
  · rw [if_pos ht, if_pos ht, hb.del _ _ (by rw [hu]; simp)]
  · rw [if_neg ht, if_neg ht]
    have ht' : truthy c = true := by simpa using ht
    generalize hcc : c.getD [] = cc
    rw [hcc] at hc hd
    dsimp only [subOf]
    cases hsub : ui.subordinate with
    | error e => rfl
    | ok usub =>
      dsimp only
      by_cases hm : cc ∉ usub
      · rw [if_pos hm, if_pos hm]
      · rw [if_neg hm, if_neg hm]
        obtain ⟨ci, hci⟩ := hc ht' usub hsub (by simpa using hm)
        rw [hb.get s _ ci hci, hci]
        dsimp only
        cases hcs : ci.subordinate with
        | error e => rfl
        | ok csub =>
          dsimp only [Option.getD_some]
          have huk : ∀ t : Store, (t.del (sessionKey [u, cc])) u = t u := fun t => del_ne t (fun e => key2_ne_user u cc e.symm)
          by_cases hg' : truthy g = true
          · simp only [hg', if_true]
            by_cases hmem : g.getD [] ∈ csub
            · simp only [hmem, if_true, hb.fst]
              generalize hX : (if b.mode = .aliased then (s.del (sessionKey [u, cc, g.getD []])).put (sessionKey [u, cc])
                (ci.setSubordinate (csub.erase (g.getD []))) else s.del (sessionKey [u, cc, g.getD []])) = X
              have hXu : X u = some ui := by
                rw [← hX]
                split
                · rw [put_ne _ _ (fun e => key2_ne_user u cc e.symm), del_ne _ (fun e => key3_ne1 u cc _ e.symm), hu]
                · rw [del_ne _ (fun e => key3_ne1 u cc _ e.symm), hu]
              have hXc : X (sessionKey [u, cc]) ≠ none := by
                rw [← hX]
                split
                · rw [put_self]; simp
                · rw [del_ne _ (fun e => key3_ne2 u cc _ e.symm), hci]; simp
              split
              · rw [hb.del _ _ hXc]
                dsimp only
                rw [delUserOn_dict b hb _ u ui _ (by rw [huk, hXu]; simp)]
              · rw [delUserOn_dict b hb _ u ui _ (by
                  by_cases e : u = cc
                  · rw [e, put_self]; simp
                  · rw [put_ne _ _ e, hXu]; simp)]
            · simp only [hmem, if_false]
              split
              · rw [hb.del _ _ (by rw [hci]; simp)]
                dsimp only
                rw [delUserOn_dict b hb _ u ui _ (by rw [huk, hu]; simp)]
              · rw [delUserOn_dict b hb _ u ui _ (by
                  by_cases e : u = cc
                  · rw [e, put_self]; simp
                  · rw [put_ne _ _ e, hu]; simp)]
          · simp only [hg', if_false, Bool.false_eq_true, hd ht' ci csub hci hcs]
            have k1 := delGrants_keeps u u cc (fun g => key3_ne1 u cc g) csub s
            have k2 := delGrants_keeps (sessionKey [u, cc]) u cc (fun g => key3_ne2 u cc g) csub s
            generalize dbDelGrants s u cc csub = d at k1 k2
            obtain ⟨d1, d2⟩ := d
            cases d2 with
            | error e => rfl
            | ok _ =>
              dsimp only at k1 k2 ⊢
              rw [if_pos True.intro, if_pos True.intro, hb.del _ _ (by rw [k2, hci]; simp)]
              dsimp only
              rw [delUserOn_dict b hb _ u ui _ (by rw [huk, k1, hu]; simp)]

/-- Deleting over a `dict` is the `dbDelete` of all other theorems, in every state. -/
theorem deleteOn_dict (m : Mode) (s : Store) (path : List Str) : deleteOn (dictBackend m) s path = dbDelete m s path := by
  cases hp : evalPath path with
  | error e => unfold deleteOn dbDelete; rw [hp]
  | ok p =>
    obtain ⟨u, c, g⟩ := p
    cases hu : s u with
    | none =>
      unfold deleteOn dbDelete dictBackend
      rw [hp]
      dsimp only
      rw [hu]
    | some ui =>
      by_cases hc : truthy c = true → ∀ l, ui.subordinate = .ok l → c.getD [] ∈ l → ∃ o, s (sessionKey [u, c.getD []]) = some o
      · exact deleteOn_of_present (dictBackend m) (dict_sound m) s u c g path hp ui hu hc
          (fun _ ci l _ _ => delGrantsOn_dict _ rfl u _ l s)
      · have ⟨ht, hc⟩ := Classical.not_imp.1 hc
        have ⟨l, hc⟩ := Classical.not_forall.1 hc
        have ⟨hl, hc⟩ := Classical.not_imp.1 hc
        have ⟨hmem, hno⟩ := Classical.not_imp.1 hc
        have hnone : s (sessionKey [u, c.getD []]) = none := by
          cases h : s (sessionKey [u, c.getD []]) with
          | none => rfl
          | some o => exact absurd ⟨o, h⟩ hno
        unfold deleteOn dbDelete
        rw [hp]
        dsimp only [dictBackend]
        rw [hu]
        dsimp only [subOf]
        rw [hl, ht]
        dsimp only
        rw [hnone]
        simp only [Bool.true_eq_false, if_false, hmem, not_true]
        exact delUserOn_dict _ (dict_sound m) s u ui l (by rw [hu]; simp)

/-! ### C99 -/

/-- The storages that come with the package. -/
def shipped : List Backend := [dictBackend .aliased, inMemoryBackend, shelveBackend]

theorem shipped_sound {b : Backend} (h : b ∈ shipped) : b.Sound := by
  simp only [shipped, List.mem_cons, List.not_mem_nil, or_false] at h
  rcases h with rfl | rfl | rfl
  · exact dict_sound _
  · exact inMemory_sound
  · exact shelve_sound

/-- C99, reading: after every history of session-manager calls (sessions and grants created, added, changed, revoked),
every read over each of the storages gives the same answer, or the same exception. -/
theorem C99_reads_agree_partial (m : Mode) (sf : SubFuncs) (ops : List MgrOp) (h : ∀ op ∈ ops, OpGood op) (b : Backend)
    (hb : b ∈ shipped) (p : List Str) (hp : GoodPath p) :
    getOn b (mgrRun m sf Store.empty ops) p = (dbGet (mgrRun m sf Store.empty ops) p).map some := by
  have ht := tree_run (m := m) (sf := sf) tree_empty ops h
  generalize mgrRun m sf Store.empty ops = s at ht
  have hs := shipped_sound hb
  rw [← getOn_dict .aliased]
  cases hev : evalPath p with
  | error e => unfold getOn; rw [hev]
  | ok t =>
    obtain ⟨u, c, g⟩ := t
    have hgu : GoodId u ∧ (∀ c', c = some c' → GoodId c') ∧ ∀ g', g = some g' → GoodId g' := by
      unfold evalPath at hev
      split at hev
      · cases hev
      · cases hev; exact ⟨hp.2 _ (by simp), by simp, by simp⟩
      · cases hev; exact ⟨hp.2 _ (by simp), fun c' e => by cases e; exact hp.2 _ (by simp), by simp⟩
      · cases hev
        exact ⟨hp.2 _ (by simp), fun c' e => by cases e; exact hp.2 _ (by simp), fun c' e => by cases e; exact hp.2 _ (by simp)⟩
    unfold getOn
    rw [hev]
    dsimp only
    cases hu : s u with
    | none =>
      have e1 : (dictBackend .aliased).getItem s u = .error .keyError := by simp only [dictBackend, hu]
      rw [e1]
      simp only [shipped, List.mem_cons, List.not_mem_nil, or_false] at hb
      rcases hb with rfl | rfl | rfl
      · rw [e1]
      · simp only [inMemoryBackend, hu]
      · simp only [shelveBackend, hu]
    | some ui =>
      rw [hs.get s u ui hu, (dict_sound .aliased).get s u ui hu]
      dsimp only
      cases c with
      | none => rfl
      | some c =>
        dsimp only
        cases ui with
        | grant gr => rfl
        | info ui =>
          dsimp only [Obj.subordinate]
          split
          · rfl
          · rename_i hm
            obtain ⟨hc, ci, hci⟩ := ht.usr u ui hgu.1 hu c (by simpa using hm)
            have hci' : s (sessionKey [u, c]) = some (.info ci) := hci
            rw [hs.get s _ _ hci', (dict_sound .aliased).get s _ _ hci']
            dsimp only
            cases g with
            | none => rfl
            | some g =>
              dsimp only [subOf, Obj.subordinate]
              split
              · rfl
              · rename_i hm2
                obtain ⟨hg, gr, hgr⟩ := ht.cli u c ci hgu.1 hc hci g (by simpa using hm2)
                have hgr' : s (sessionKey [u, c, g]) = some (.grant gr) := hgr
                rw [hs.get s _ _ hgr', (dict_sound .aliased).get s _ _ hgr']

theorem delGrantsOn_present (b : Backend) (hb : b.Sound) (u c : Str) (hu : GoodId u) (hc : GoodId c) (gs : List Str)
    (s : Store) (hnd : gs.Nodup) (hst : ∀ g ∈ gs, GoodId g ∧ ∃ o, s.at [u, c, g] = some o) :
    delGrantsOn b s u c gs = dbDelGrants s u c gs := by
  induction gs generalizing s with
  | nil => rfl
  | cons g gs ih =>
    obtain ⟨hg, o, ho⟩ := hst g (by simp)
    have ho' : s (sessionKey [u, c, g]) = some o := ho
    rw [List.nodup_cons] at hnd
    unfold delGrantsOn dbDelGrants
    rw [ho', hb.del s _ (by rw [ho']; simp)]
    refine ih _ hnd.2 fun g' hg' => ?_
    obtain ⟨a, o', h'⟩ := hst g' (by simp [hg'])
    refine ⟨a, o', ?_⟩
    rw [del_at s (goodPath_three hu hc hg) (goodPath_three hu hc a)]
    have : g' ≠ g := fun e => hnd.1 (e ▸ hg')
    simp [this, h']

/-- C99, deleting: if the user is known, deleting a user, a client session or a grant does the same over each of the
storages (up to whether changed objects are changed in place).
What is missing: `C99_delete_unknown_user`, `C99_removed_grant_reads_none`. -/
theorem C99_deletes_agree_partial (m : Mode) (sf : SubFuncs) (ops : List MgrOp)
    (h : ∀ op ∈ ops, OpGood op ∧ NotAddGrant op) (b : Backend) (hb : b ∈ shipped) (p : List Str) (hp : GoodPath p)
    (u : Str) (hu : p.head? = some u) (o : Obj) (hget : dbGet (mgrRun m sf Store.empty ops) [u] = .ok o) :
    deleteOn b (mgrRun m sf Store.empty ops) p = dbDelete b.mode (mgrRun m sf Store.empty ops) p := by
  have ht := tree_run (m := m) (sf := sf) tree_empty ops (fun op ho => (h op ho).1)
  have hn := nd_run (m := m) (sf := sf) tree_empty nd_empty ops h
  generalize mgrRun m sf Store.empty ops = s at ht hn hget
  have hs := shipped_sound hb
  have hsu : s u = some o := (dbGet1 s u o).1 hget
  obtain ⟨c, g, hev, hgc⟩ : ∃ c g, evalPath p = .ok (u, c, g) ∧ GoodId u ∧ ∀ c', c = some c' → GoodId c' := by
    match p, hu, hp with
    | [_], rfl, hp => exact ⟨none, none, rfl, hp.2 _ (by simp), by simp⟩
    | [_, c], rfl, hp => exact ⟨some c, none, rfl, hp.2 _ (by simp), fun c' e => by cases e; exact hp.2 _ (by simp)⟩
    | _ :: c :: g :: _, rfl, hp =>
      exact ⟨some c, some g, rfl, hp.2 _ (by simp), fun c' e => by cases e; exact hp.2 _ (by simp)⟩
  refine deleteOn_of_present b hs s u c g p hev o hsu (fun htr l hl hm => ?_) (fun htr ci l hci hl => ?_)
  · cases o with
    | grant g => cases hl
    | info ui =>
      cases hl
      obtain ⟨_, ci, hci⟩ := ht.usr u ui hgc.1 hsu _ hm
      exact ⟨_, hci⟩
  · cases c with
    | none => cases htr
    | some c =>
      have hc := hgc.2 c rfl
      cases ci with
      | grant g => cases hl
      | info ci =>
        cases hl
        exact delGrantsOn_present b hs u c hgc.1 hc _ s (hn.cli u c ci hgc.1 hc hci) fun g hg => by
          obtain ⟨a, gr, b⟩ := ht.cli u c ci hgc.1 hc hci g hg
          exact ⟨a, _, b⟩

/-- C99 is false: deleting a session of a user who has none (any more), which a `dict` permits, raises over the two
wrappers: `TypeError` for a client session or grant, and `KeyError` for the user in memory. -/
theorem C99_delete_unknown_user (s : Store) (u c : Str) (hc : GoodId c) (rest : List Str) (h : s u = none) :
    deleteOn (dictBackend .aliased) s (u :: c :: rest) = (s, .ok ()) ∧
    deleteOn inMemoryBackend s (u :: c :: rest) = (s, .error .typeError) ∧
    deleteOn shelveBackend s (u :: c :: rest) = (s, .error .typeError) ∧
    deleteOn (dictBackend .aliased) s [u] = (s, .ok ()) ∧ deleteOn inMemoryBackend s [u] = (s, .error .keyError) := by
  have hev : ∃ g, evalPath (u :: c :: rest) = .ok (u, some c, g) := by cases rest <;> exact ⟨_, rfl⟩
  obtain ⟨g, hev⟩ := hev
  have htr := truthy_good hc
  refine ⟨?_, ?_, ?_, ?_, ?_⟩
  · unfold deleteOn; rw [hev]; simp only [dictBackend, h]
  · unfold deleteOn; rw [hev]; simp only [inMemoryBackend, h, htr, Bool.true_eq_false, if_false, subOf]
  · unfold deleteOn; rw [hev]; simp only [shelveBackend, h, htr, Bool.true_eq_false, if_false, subOf]
  · unfold deleteOn evalPath; simp only [dictBackend, h]
  · unfold deleteOn evalPath; simp only [inMemoryBackend, h, truthy, if_true, dictDel]

/-- Removing the same session twice is such a case: fine over a `dict`, an exception over the others. -/
example :
    let s := mgrRun .aliased sfSample Store.empty
      [.createSession 100 c!"g1" c!"diana" c!"c1" { authReq := reqSample c!"c1" }]
    let p := [c!"diana", c!"c1", c!"g1"]
    ∀ b ∈ shipped, (deleteOn b s p).2 = .ok () ∧ (deleteOn b (deleteOn b s p).1 p).2 =
      if b.getItem Store.empty [] = .error .keyError then .ok () else .error .typeError := by
  intro s p b hb
  simp only [shipped, List.mem_cons, List.not_mem_nil, or_false] at hb
  rcases hb with rfl | rfl | rfl <;> exact ⟨by rfl, by rfl⟩

/-- C99 is false, second: over `ShelveDataBase`, a grant that was removed while the session has others does not raise when
read: the answer is `None`.  (In memory it is `ValueError`.) -/
theorem C99_removed_grant_reads_none (s : Store) (u c g : Str) (hc : GoodId c) (hg : GoodId g) (o : Obj)
    (hget : dbGet s [u, c, g] = .ok o) (ci : SessInfo)
    (hci : dbGet s [u, c] = .ok (.info ci)) (hsib : ci.subordinate.erase g ≠ []) :
    (deleteOn shelveBackend s [u, c, g]).2 = .ok () ∧
    getOn shelveBackend (deleteOn shelveBackend s [u, c, g]).1 [u, c, g] = .ok none := by
  obtain ⟨ui, ci', h1, h2, h3, h4, _⟩ := (dbGet3 _ _ _ _ _).1 hget
  obtain ⟨_, _, _, h3'⟩ := (dbGet2 _ _ _ _).1 hci
  have hcc : ci' = ci := by rw [h3] at h3'; cases h3'; rfl
  subst hcc
  have h1' : s u = some (.info ui) := h1
  have h3'' : s (sessionKey [u, c]) = some (.info ci') := h3
  have hne : ui.subordinate ≠ [] := fun e => by rw [e] at h2; simp at h2
  have hdel : deleteOn shelveBackend s [u, c, g] = (((s.del (sessionKey [u, c, g])).put c
      ((Obj.info ci').setSubordinate (ci'.subordinate.erase g))).put u ((Obj.info ui).setSubordinate ui.subordinate), .ok ()) := by
    unfold deleteOn evalPath
    simp only [shelveBackend, h1', truthy_good hc, Bool.true_eq_false, if_false, subOf, Obj.subordinate, Option.getD_some,
      h2, not_true, h3'', truthy_good hg, if_true, h4, hsib, delUserOn, hne, reduceCtorEq]
  rw [hdel]
  refine ⟨rfl, ?_⟩
  dsimp only
  generalize hX : ((s.del (sessionKey [u, c, g])).put c
      ((Obj.info ci').setSubordinate (ci'.subordinate.erase g))).put u ((Obj.info ui).setSubordinate ui.subordinate) = X
  have e1 : X u = some (.info ui) := by rw [← hX, put_self]; rfl
  have k2u := key2_ne_user u c
  have k3u := key3_ne1 u c g
  have kc2 : sessionKey [u, c] ≠ c := by
    intro h
    have := congrArg List.length h
    simp [sessionKey, pyJoin, divider] at this
    omega
  have kc3 : sessionKey [u, c, g] ≠ c := by
    intro h
    have := congrArg List.length h
    simp [sessionKey, pyJoin, divider] at this
    omega
  have e2 : X (sessionKey [u, c]) = some (.info ci') := by
    rw [← hX, put_ne _ _ k2u, put_ne _ _ kc2, del_ne _ (fun e => key3_ne2 u c g e.symm), h3'']
  have e3 : X (sessionKey [u, c, g]) = none := by
    rw [← hX, put_ne _ _ k3u, put_ne _ _ kc3]
    unfold Store.del
    rw [if_pos rfl]
  unfold getOn evalPath
  simp only [shelveBackend, e1, Obj.subordinate, h2, not_true, if_false, e2, subOf, h4, e3]

example : let s := mgrRun .byValue sfSample Store.empty ops2
    ∃ o ci, dbGet s [c!"diana", c!"c1", c!"g1"] = .ok o ∧ dbGet s [c!"diana", c!"c1"] = .ok (.info ci) ∧
      ci.subordinate.erase c!"g1" ≠ [] := by
  exact ⟨_, _, rfl, rfl, by decide⟩

end Verif
