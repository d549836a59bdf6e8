import Verif.Lemmas.StoreFrame
import Verif.Props.Grant
/-! C13–C15, C18, C19: the session storage and the session manager. -/
set_option linter.unusedSimpArgs false
namespace Verif
open Spec

/-! ### C13 -/

/-- C13: after a write to a path of usable ids (user, user/client, or user/client/grant) the write has succeeded and
reading the path returns the value written. -/
theorem C13_read_own_write (s : Store) (ht : Typed s) (p : List Str) (hp : GoodPath p) (hl : p.length ≤ 3) (v : Obj) :
    ∃ s', dbSet s p v = (s', .ok ()) ∧ dbGet s' p = .ok v := by
  match p, hp, hl with
  | [], hp, _ => exact absurd rfl hp.1
  | [u], hp, _ =>
    refine ⟨_, dbSet1 s u v, (dbGet1 _ _ _).2 ?_⟩
    rw [put_at _ _ hp hp]; simp
  | [u, c], hp, _ =>
    have hu := hp.2 u (by simp)
    have hc := hp.2 c (by simp)
    obtain ⟨s', h1, hat⟩ := dbSet2 s v hu hc (ht.user' hu)
    refine ⟨s', h1, (dbGet2 _ _ _ _).2 ⟨(userOr s u).addSubordinate c, ?_, ?_, ?_⟩⟩
    · rw [hat _ (goodPath_one hu)]; simp
    · rw [addSub_mem]; exact Or.inr rfl
    · rw [hat _ hp]; simp
  | [u, c, g], hp, _ =>
    have hu := hp.2 u (by simp)
    have hc := hp.2 c (by simp)
    have hg := hp.2 g (by simp)
    obtain ⟨s', h1, hat⟩ := dbSet3 s v hu hc hg (ht.user' hu) (ht.client' hu hc)
    refine ⟨s', h1, (dbGet3 _ _ _ _ _).2
      ⟨(userOr s u).addSubordinate c, (clientOr s u c).addSubordinate g, ?_, ?_, ?_, ?_, ?_⟩⟩
    · rw [hat _ (goodPath_one hu)]; simp
    · rw [addSub_mem]; exact Or.inr rfl
    · rw [hat _ (goodPath_two hu hc)]; simp
    · rw [addSub_mem]; exact Or.inr rfl
    · rw [hat _ hp]; simp
  | _ :: _ :: _ :: _ :: _, _, hl => simp at hl

/-- C13, other users and clients: a write at or below (user, client) does not change what can be read for any other user
or any other client of that user. -/
theorem C13_other_paths_unchanged (s s' : Store) (ht : Typed s) (u c : Str) (rest : List Str) (v : Obj)
    (hp : GoodPath (u :: c :: rest)) (hl : (u :: c :: rest).length ≤ 3)
    (h : dbSet s (u :: c :: rest) v = (s', .ok ()))
    (q : List Str) (hq : GoodPath q) (hql : q.length ≤ 3) (h1 : q ≠ [u]) (h2 : ¬ [u, c] <+: q) (o : Obj) :
    dbGet s' q = .ok o ↔ dbGet s q = .ok o := by
  have hu := hp.2 u (by simp)
  have hc := hp.2 c (by simp)
  match rest, hp, hl, h with
  | [], _, _, h => exact reads_elsewhere (same_set2 hu hc (ht.user' hu) h) hq hql h1 h2 o
  | [g], hp, _, h =>
    exact reads_elsewhere (same_set3 hu hc (hp.2 g (by simp)) (ht.user' hu) (ht.client' hu hc) h) hq hql h1 h2 o
  | _ :: _ :: _, _, hl, _ => simp at hl

/-- C13, until overwritten: a grant that could be read is still read unchanged after any write to a path that is neither
its own path nor one of its ancestors. -/
theorem C13_grant_survives_other_writes (s s' : Store) (ht : Typed s) (u c g : Str) (o : Obj)
    (hq : GoodPath [u, c, g]) (p : List Str) (hp : GoodPath p) (hl : p.length ≤ 3) (v : Obj)
    (hpre : ¬ p <+: [u, c, g]) (h : dbSet s p v = (s', .ok ())) (hget : dbGet s [u, c, g] = .ok o) :
    dbGet s' [u, c, g] = .ok o := by
  have hu := hq.2 u (by simp)
  have hc := hq.2 c (by simp)
  have hg := hq.2 g (by simp)
  match p, hp, hl, h, hpre with
  | [], hp, _, _, _ => exact absurd rfl hp.1
  | [u'], hp, _, h, hpre =>
    rw [dbSet1] at h
    cases h
    have hne : u ≠ u' := fun e => hpre (by simp [e, List.cons_prefix_cons])
    rw [dbGet3] at hget ⊢
    have e := fun q (hq : GoodPath q) => put_at s v hp hq
    rw [e _ (goodPath_one hu), e _ (goodPath_two hu hc), e _ hq]
    simpa [hne] using hget
  | [u', c'], hp, _, h, hpre =>
    have hu' := hp.2 u' (by simp)
    have hc' := hp.2 c' (by simp)
    exact (reads_elsewhere (same_set2 hu' hc' (ht.user' hu') h) hq (by simp) (by simp) hpre o).2 hget
  | [u', c', g'], hp, _, h, hpre =>
    have hu' := hp.2 u' (by simp)
    have hc' := hp.2 c' (by simp)
    have hg' := hp.2 g' (by simp)
    by_cases e : [u', c'] <+: [u, c, g]
    · obtain ⟨rfl, rfl⟩ := prefix2.1 e
      have hne : g ≠ g' := fun e => hpre (by rw [e]; exact List.prefix_refl _)
      obtain ⟨s1, h1, hat⟩ := dbSet3 s v hu hc hg' (ht.user' hu) (ht.client' hu hc)
      rw [h] at h1
      cases h1
      obtain ⟨ui, ci, a, b, d, e, f⟩ := (dbGet3 _ _ _ _ _).1 hget
      refine (dbGet3 _ _ _ _ _).2 ⟨(userOr s u').addSubordinate c', (clientOr s u' c').addSubordinate g', ?_, ?_, ?_, ?_, ?_⟩
      · rw [hat _ (goodPath_one hu)]; simp
      · rw [addSub_mem]; exact Or.inr rfl
      · rw [hat _ (goodPath_two hu hc)]; simp
      · rw [addSub_mem]; left; unfold clientOr; rw [d]; exact e
      · rw [hat _ hq]; simp [hne, f]
    · exact (reads_elsewhere (same_set3 hu' hc' hg' (ht.user' hu') (ht.client' hu' hc') h) hq (by simp) (by simp) e o).2 hget
  | _ :: _ :: _ :: _ :: _, _, hl, _, _ => simp at hl

/-! ### C14 -/

/-- C14: whatever sequence of calls creates sessions and grants, adds grants, stores changed grants and revokes tokens,
grants and client sessions, there is never a dangling reference. -/
theorem C14_no_dangling_references (m : Mode) (sf : SubFuncs) (ops : List MgrOp) (h : ∀ op ∈ ops, OpGood op) :
    NoDangling (mgrRun m sf Store.empty ops) := tree_noDangling (tree_run tree_empty ops h)

/-- The states of such histories are also well typed (the hypothesis of the other theorems). -/
theorem C14_histories_are_typed (m : Mode) (sf : SubFuncs) (ops : List MgrOp) (h : ∀ op ∈ ops, OpGood op) :
    Typed (mgrRun m sf Store.empty ops) := (tree_run tree_empty ops h).typed

/-- Subject functions for the examples: the user id itself. -/
def sfSample : SubFuncs := fun t => if t = c!"public" then some (fun u _ => u) else none

def reqSample (client : Str) : AuthReq :=
  { clientId := client, responseType := [c!"code"], scope := [c!"openid"], redirectUri := some c!"https://rp/cb" }

def opsSample : List MgrOp :=
  [.createSession 100 c!"g1" c!"diana" c!"c1" { authReq := reqSample c!"c1", scopes := [c!"openid"] },
   .createGrant 101 c!"g2" c!"diana" c!"c1" { authReq := reqSample c!"c1" },
   .createSession 102 c!"g3" c!"diana" c!"c2" { authReq := reqSample c!"c2" },
   .addGrant 103 c!"g4" c!"diana" c!"c2" {},
   .revokeGrant c!"diana" c!"c1" c!"g1",
   .revokeClientSession c!"diana" c!"c2" c!"g3"]

example : (∀ op ∈ opsSample, OpGood op) ∧
    ∃ ui, dbGet (mgrRun .byValue sfSample Store.empty opsSample) [c!"diana"] = .ok (.info ui) ∧
      ui.subordinate = [c!"c1", c!"c2"] := by
  refine ⟨?_, ?_⟩
  · simp [opsSample, OpGood, GoodId, SemicolonFree]
  · exact ⟨_, by rfl, by decide⟩

/-! ### C15 -/

/-- C15: a session that was just created resolves, through the id returned, to a new unrevoked grant without tokens that
has exactly the request, authentication event, scope and subject given, and nothing that could be read for other users or
for other clients of the same user has changed. -/
theorem C15_created_session_usable_partial (sf : SubFuncs) (s : Store) (ht : Tree s) (now : Int) (gid u c : Str)
    (a : SessArgs) (hg : GoodId gid) (hu : GoodId u) (c' : Str) (hc' : c' = if c = [] then a.authReq.clientId else c)
    (hc : GoodId c') (f : Str → Option Str → Str) (hsf : sf a.subType = some f) :
    ∃ s' gr, createSession sf s now gid u c a = (s', .ok (sessionKey [u, c', gid])) ∧
      getGrant s' (sessionKey [u, c', gid]) = .ok gr ∧
      gr.authReq = some a.authReq ∧ gr.authnEvent = a.authnEvent ∧ gr.scope = a.scopes ∧
      gr.sub = f u a.authReq.sectorIdentifierUri ∧ gr.usageRules = a.usageRules ∧ gr.issuedToken = [] ∧
      gr.revoked = false ∧
      ∀ q o, GoodPath q → q.length ≤ 3 → q ≠ [u] → ¬ [u, c'] <+: q → (dbGet s' q = .ok o ↔ dbGet s q = .ok o) := by
  obtain ⟨s1, h1, t1, hat1⟩ := createSession_user ht hu
  obtain ⟨s2, h2, t2⟩ := tree_set2 t1 hu hc (SessInfo.client c') (by simp [SessInfo.client])
  have hng : newGrant sf now gid u a = .ok (Grant.new now gid
      { authReq := some a.authReq, authnEvent := a.authnEvent, sub := f u a.authReq.sectorIdentifierUri,
        usageRules := a.usageRules, maxUsage := a.maxUsage, scope := a.scopes }) := by
    unfold newGrant; rw [hsf]
  generalize hgr : Grant.new now gid
      { authReq := some a.authReq, authnEvent := a.authnEvent, sub := f u a.authReq.sectorIdentifierUri,
        usageRules := a.usageRules, maxUsage := a.maxUsage, scope := a.scopes } = gr at hng
  obtain ⟨s3, h3, hget⟩ := C13_read_own_write s2 t2.typed [u, c', gid] (goodPath_three hu hc hg) (by simp) (.grant gr)
  refine ⟨s3, gr, ?_, ?_, hgr ▸ rfl, hgr ▸ rfl, hgr ▸ rfl, hgr ▸ rfl, hgr ▸ rfl, hgr ▸ rfl, hgr ▸ rfl, ?_⟩
  · unfold createSession
    simp only [h1, ← hc', h2, createGrant, hng, h3]
  · unfold getGrant
    rw [unpack3_good hu hc hg]
    simp only [hget]
  · intro q o hq hql e1 e2
    have f1 : SameElsewhere s s1 u c' := same_ensureUser hu hat1
    have f2 := same_set2 hu hc (t1.typed.user' hu) h2
    have f3 := same_set3 hu hc hg (t2.typed.user' hu) (t2.typed.client' hu hc) h3
    exact reads_elsewhere ((f1.trans f2).trans f3) hq hql e1 e2 o

/-- C15, the last part is false: when the same user starts a second session with the same client, the first session can no
longer be read (`create_session` overwrites the client record). -/
theorem C15_second_session_loses_first :
    let s1 := createSession sfSample Store.empty 100 c!"g1" c!"diana" c!"c1" { authReq := reqSample c!"c1" }
    let s2 := createSession sfSample s1.1 200 c!"g2" c!"diana" c!"c1" { authReq := reqSample c!"c1" }
    s1.2 = .ok (sessionKey [c!"diana", c!"c1", c!"g1"]) ∧
    (∃ g, getGrant s1.1 (sessionKey [c!"diana", c!"c1", c!"g1"]) = .ok g) ∧
    getGrant s2.1 (sessionKey [c!"diana", c!"c1", c!"g1"]) = .error .valueError := by
  refine ⟨by decide, ?_, by decide⟩
  exact ⟨_, rfl⟩

/-! ### C19 -/

theorem sessionByFind {s : Store} {u c g : Str} (hu : GoodId u) (hc : GoodId c) (hg : GoodId g) (v : Str) (gr : Grant)
    (h : getGrant s (sessionKey [u, c, g]) = .ok gr) :
    findToken s (sessionKey [u, c, g]) v = .ok (gr, gr.getToken v) := by
  unfold getGrant at h
  unfold findToken
  rw [unpack3_good hu hc hg] at h ⊢
  simp only at h ⊢
  cases hd : dbGet s [u, c, g] with
  | error e => rw [hd] at h; simp at h
  | ok o =>
    rw [hd] at h
    cases o with
    | info i => simp at h
    | grant g' => simp at h; subst h; rfl

theorem getGrant_iff {s : Store} {u c g : Str} (hu : GoodId u) (hc : GoodId c) (hg : GoodId g) (gr : Grant) :
    getGrant s (sessionKey [u, c, g]) = .ok gr ↔ dbGet s [u, c, g] = .ok (.grant gr) := by
  unfold getGrant
  rw [unpack3_good hu hc hg]
  simp only
  cases hd : dbGet s [u, c, g] with
  | error e => simp
  | ok o => cases o <;> simp

theorem find_updateFirst_revoke (v : Str) (l : List Token) (t : Token) (h : findValue v l = some t) :
    findValue v (updateFirst v Token.revoke l) = some t.revoke := by
  induction l with
  | nil => simp [findValue] at h
  | cons a l ih =>
    unfold updateFirst
    unfold findValue at h ih ⊢
    by_cases e : a.value = v
    · simp [e] at h
      subst h
      have : a.revoke.value = v := e
      simp [e, this]
    · simp [e] at h
      simp [e, ih h]

theorem put_grant_read {s : Store} {u c g : Str} (hu : GoodId u) (hc : GoodId c) (hg : GoodId g) (o : Obj) (gr : Grant)
    (h : dbGet s [u, c, g] = .ok o) : dbGet (s.put (sessionKey [u, c, g]) (.grant gr)) [u, c, g] = .ok (.grant gr) := by
  rw [dbGet3] at h ⊢
  obtain ⟨ui, ci, a, b, d, e, f⟩ := h
  have hat := fun q (hq : GoodPath q) => put_at s (.grant gr) (goodPath_three hu hc hg) hq
  exact ⟨ui, ci, by rw [hat _ (goodPath_one hu)]; simpa using a, b,
    by rw [hat _ (goodPath_two hu hc)]; simpa using d, e, by rw [hat _ (goodPath_three hu hc hg)]; simp⟩

theorem findValue_exists {v : Str} {l : List Token} {t : Token} (h : findValue v l = some t) :
    ∃ i : Nat, l[i]? = some t ∧ t.value = v := by
  obtain ⟨hm, hv⟩ := findValue_mem h
  obtain ⟨i, hi⟩ := List.getElem?_of_mem hm
  exact ⟨i, hi, hv⟩

theorem marks_updateFirst_revoke {l : List Token} (hd : (l.map Token.value).Nodup) {v : Str} {i : Nat} {t : Token}
    (hi : l[i]? = some t) (hv : t.value = v) : Marks l (updateFirst v Token.revoke l) (fun k => k = i) := by
  have : updateFirst v Token.revoke l = markRevoked i l := by
    induction l generalizing i with
    | nil => simp at hi
    | cons a l ih =>
      simp only [List.map_cons, List.nodup_cons] at hd
      unfold updateFirst
      cases i with
      | zero =>
        simp at hi
        subst hi
        simp [hv, markRevoked]
      | succ i =>
        simp at hi
        have hne : a.value ≠ v := by
          intro e
          apply hd.1
          rw [e, ← hv]
          exact List.mem_map_of_mem (List.mem_of_getElem? hi)
        simp only [hne, if_false, markRevoked, List.modify_succ_cons]
        rw [ih hd.2 hi]
        rfl
  rw [this]
  exact Marks.mark l i

/-- C19 for a back end that hands out the stored objects (the default `dict`): revoking a token by its value in a stored
session makes every later read of the grant show it revoked — and, if asked to be recursive, exactly the tokens minted
from it directly or indirectly as well; all other tokens, and everything else about the tokens, are unchanged, and so are all
other sessions. -/
theorem C19_revocation_durable_aliased_partial (s : Store) (u c g : Str) (hu : GoodId u) (hc : GoodId c)
    (hg : GoodId g) (gr : Grant) (h : getGrant s (sessionKey [u, c, g]) = .ok gr) (hf : Forest gr.issuedToken)
    (v : Str) (t : Token) (hv : gr.getToken v = some t) (recursive : Bool) (limit : Nat)
    (hl : gr.issuedToken.length ≤ limit) :
    ∃ s' l', revokeToken .aliased s limit (sessionKey [u, c, g]) v recursive = (s', .ok ()) ∧
      getGrant s' (sessionKey [u, c, g]) = .ok { gr with issuedToken := l' } ∧
      l'.length = gr.issuedToken.length ∧
      (∀ (k : Nat) (x : Token), gr.issuedToken[k]? = some x → ∃ x', l'[k]? = some x' ∧ SameButRevoked x x' ∧
        (x'.revoked = true ↔ x.revoked = true ∨ x.value = v ∨
          (recursive = true ∧ DerivedFrom gr.issuedToken v x.value))) ∧
      (∀ q o, GoodPath q → q.length ≤ 3 → q ≠ [u, c, g] → (dbGet s' q = .ok o ↔ dbGet s q = .ok o)) := by
  obtain ⟨i, hi, htv⟩ := findValue_exists hv
  have hm1 := marks_updateFirst_revoke hf.distinct hi htv
  have hread := (getGrant_iff hu hc hg gr).1 h
  -- the list after the call
  have hlist : ∃ l', (if recursive then revokeDependentL limit v (updateFirst v Token.revoke gr.issuedToken)
        else (updateFirst v Token.revoke gr.issuedToken, true)) = (l', true) ∧
      Marks gr.issuedToken l' (fun k => k = i ∨ (recursive = true ∧ DerivedPos gr.issuedToken v k)) := by
    cases recursive with
    | false =>
      refine ⟨_, rfl, hm1.congr ?_⟩
      intro k _; simp
    | true =>
      obtain ⟨r, h1, h2⟩ := revokeDependentL_based gr.issuedToken hf limit i t hi (by omega)
        (updateFirst v Token.revoke gr.issuedToken) _ hm1
      rw [htv] at h1 h2
      refine ⟨r, by simp [h1], (hm1.trans h2).congr ?_⟩
      intro k _; simp
  obtain ⟨l', hl1, hl2⟩ := hlist
  refine ⟨s.put (sessionKey [u, c, g]) (.grant { gr with issuedToken := l' }), l', ?_, ?_, hl2.1, ?_, ?_⟩
  · unfold revokeToken
    rw [sessionByFind hu hc hg v gr h, hv]
    simp only [hl1, if_true]
  · rw [getGrant_iff hu hc hg]
    exact put_grant_read hu hc hg _ _ hread
  · intro k x hx
    obtain ⟨x', hx', hs, hiff⟩ := hl2.2 k x hx
    refine ⟨x', hx', hs, ?_⟩
    rw [hiff]
    refine or_congr Iff.rfl (or_congr ?_ (and_congr Iff.rfl ?_))
    · constructor
      · rintro rfl
        rw [hi] at hx
        cases hx
        exact htv
      · intro e
        exact nodup_value_index hf.distinct hx hi (e.trans htv.symm)
    · constructor
      · rintro ⟨y, hy, hd⟩
        rw [hx] at hy
        cases hy
        exact hd
      · intro hd; exact ⟨x, hx, hd⟩
  · intro q o hq hql hne
    have hat := fun q (hq : GoodPath q) => put_at s (.grant { gr with issuedToken := l' }) (goodPath_three hu hc hg) hq
    match q, hq, hql, hne with
    | [], hq, _, _ => exact absurd rfl hq.1
    | [a], hq, _, _ => rw [dbGet1, dbGet1, hat _ hq]; simp
    | [a, b], hq, _, _ =>
      rw [dbGet2, dbGet2, hat _ hq, hat _ (goodPath_one (hq.2 a (by simp)))]; simp
    | [a, b, d], hq, _, hne =>
      rw [dbGet3, dbGet3, hat _ hq, hat _ (goodPath_one (hq.2 a (by simp))),
        hat _ (goodPath_two (hq.2 a (by simp)) (hq.2 b (by simp)))]
      simp [hne]
    | _ :: _ :: _ :: _ :: _, _, hql, _ => simp at hql

/-- C19, unknown tokens: for every back end an unknown value raises `UnknownToken` and changes nothing. -/
theorem C19_unknown_token_raises (m : Mode) (s : Store) (u c g : Str) (hu : GoodId u) (hc : GoodId c)
    (hg : GoodId g) (gr : Grant) (h : getGrant s (sessionKey [u, c, g]) = .ok gr) (v : Str)
    (hv : gr.getToken v = none) (limit : Nat) (recursive : Bool) :
    revokeToken m s limit (sessionKey [u, c, g]) v recursive = (s, .error .unknownToken) := by
  unfold revokeToken
  rw [sessionByFind hu hc hg v gr h, hv]

/-- C19 is false for back ends that hand out copies (persistent storage): the call never changes what is stored. -/
theorem C19_revocation_lost_on_copying_backend (s : Store) (limit : Nat) (sid v : Str) (recursive : Bool) :
    (revokeToken .byValue s limit sid v recursive).1 = s := by
  unfold revokeToken
  split <;> rfl

/-- A stored session with the code, access and refresh tokens of the sample history. -/
def storeSample : Store :=
  (dbSet (createSession sfSample Store.empty 100 c!"g1" c!"diana" c!"c1" { authReq := reqSample c!"c1" }).1
    [c!"diana", c!"c1", c!"g1"] (.grant (sampleGrant.run sampleOps))).1

/-- With a copying back end the call reports success but the token is still active when read again; with the dict it is
revoked. -/
theorem C19_counterexample :
    (revokeToken .byValue storeSample 1000 (sessionKey [c!"diana", c!"c1", c!"g1"]) c!"R" true).2 = .ok () ∧
    (∃ gr t, getGrant (revokeToken .byValue storeSample 1000 (sessionKey [c!"diana", c!"c1", c!"g1"]) c!"R" true).1
      (sessionKey [c!"diana", c!"c1", c!"g1"]) = .ok gr ∧ gr.getToken c!"R" = some t ∧ t.isActive 103 = true) := by
  refine ⟨by decide, sampleGrant.run sampleOps, ?_⟩
  rw [C19_revocation_lost_on_copying_backend]
  exact ⟨_, by decide, rfl, by decide⟩

example : ∃ gr, getGrant storeSample (sessionKey [c!"diana", c!"c1", c!"g1"]) = .ok gr ∧ Forest gr.issuedToken ∧
    ∃ t, gr.getToken c!"R" = some t :=
  ⟨sampleGrant.run sampleOps, by decide, reach_forest sample_reach, _, rfl⟩

end Verif
