import Verif.Model.Logout
import Verif.Spec.Logout
import Verif.Lemmas.Blind
import Verif.Props.Resource
import Verif.Props.Cookie
import Verif.Props.ClientAuthn
set_option linter.unusedSimpArgs false
set_option linter.unusedVariables false
/-! Logout: C46, C47, C70, C71. -/
namespace Verif
open Spec

/-! ### C46: what logout changes -/

theorem key2_ne (u c : Str) : u ≠ sessionKey [u, c] := by
  intro h
  have := congrArg List.length h
  simp [sessionKey, pyJoin, divider] at this

/-- Writing back a record that was read from `[u, c]`. -/
theorem dbSet_back {s : Store} {u c : Str} {i j : SessInfo} (h : dbGet s [u, c] = .ok (.info i)) :
    dbSet s [u, c] (.info j) = (if c = [] then s else s.put (sessionKey [u, c]) (.info j), .ok ()) := by
  obtain ⟨ui, h1, h2, h3⟩ := (dbGet2 _ _ _ _).1 h
  change s u = some (.info ui) at h1
  cases c with
  | nil => rfl
  | cons c0 cs =>
    unfold dbSet
    simp only [evalPath, truthy, dbSetClient, dbSetUser, Option.getD_some, if_true, Bool.false_eq_true, if_false]
    have e : (s.put (sessionKey [u, c0 :: cs]) (.info j)) u = some (.info ui) := by
      unfold Store.put
      rw [if_neg (key2_ne _ _)]; exact h1
    simp only [e, h2, if_true]
    simp

theorem revokeGo {s : Store} {u c : Str} :
    (∃ i, dbGet s [u, c] = .ok (.info i) ∧
      (match dbGet s [u, c] with
        | .error e => (s, .error e)
        | .ok (.grant _) => (s, .error .typeError)
        | .ok (.info i) => dbSet s [u, c] (.info i.revoke)) =
      (if c = [] then s else s.put (sessionKey [u, c]) (.info i.revoke), (.ok () : Except Exn Unit))) ∨
    ∃ e, (match dbGet s [u, c] with
        | .error e => (s, .error e)
        | .ok (.grant _) => (s, .error .typeError)
        | .ok (.info i) => dbSet s [u, c] (.info i.revoke)) = (s, (.error e : Except Exn Unit)) := by
  cases h : dbGet s [u, c] with
  | error e => exact .inr ⟨e, rfl⟩
  | ok o =>
    cases o with
    | grant g => exact .inr ⟨_, rfl⟩
    | info i => exact .inl ⟨i, rfl, dbSet_back h⟩

theorem blind_put_revoke {s : Store} {k : Str} {i : SessInfo} (h : s k = some (.info i)) :
    Blind s (s.put k (.info i.revoke)) := by
  intro k'
  unfold Store.put
  by_cases e : k' = k
  · subst e; simp only [if_true, h]; exact rfl
  · simp only [e, if_false]; exact Blind.refl s k'

theorem blind_revokeClientSession (s : Store) (sid : Str) : Blind s (revokeClientSession s sid).1 := by
  have key : ∀ u c, Blind s (match dbGet s [u, c] with
        | .error e => (s, .error e)
        | .ok (.grant _) => (s, .error .typeError)
        | .ok (.info i) => dbSet s [u, c] (.info i.revoke) : Store × Except Exn Unit).1 := by
    intro u c
    rcases revokeGo (s := s) (u := u) (c := c) with ⟨i, h1, h2⟩ | ⟨e, h2⟩
    · rw [h2]
      obtain ⟨ui, _, _, h3⟩ := (dbGet2 _ _ _ _).1 h1
      by_cases hc : c = []
      · simp only [hc, if_true]; exact Blind.refl s
      · simp only [hc, if_false]; exact blind_put_revoke h3
    · rw [h2]; exact Blind.refl s
  unfold revokeClientSession
  dsimp only
  split
  · exact key _ _
  · exact key _ _
  · exact Blind.refl s

theorem SameObj.trans {a b c : Obj} (h : SameObj a b) (k : SameObj b c) : SameObj a c := by
  cases a <;> cases b <;> cases c <;> simp only [SameObj] at h k ⊢
  · rw [h, k]
  · rw [h, k]

theorem Blind.trans {a b c : Store} (h : Blind a b) (k : Blind b c) : Blind a c := by
  intro x
  rcases h.cases x with ⟨h1, h2⟩ | ⟨p, q, h1, h2, hs⟩
  · have := k x
    rw [h2] at this
    rw [h1]; exact this
  · have := k x
    rw [h2] at this
    rw [h1]
    cases hc : c x with
    | none => rw [hc] at this; exact this.elim
    | some r => rw [hc] at this; exact hs.trans this

theorem blind_clean (s : Store) (l : List Str) : Blind s (cleanSessions s l).1 := by
  induction l generalizing s with
  | nil => exact Blind.refl s
  | cons sid l ih =>
    unfold cleanSessions
    dsimp only
    split
    · exact blind_revokeClientSession s sid
    · exact (blind_revokeClientSession s sid).trans (ih _)

theorem blind_logout (env : LogoutEnv) (cdb : Cdb) (post : Str → Str → Except Exn Unit) (s : Store) (sid : Str) (alla : Bool) :
    Blind s (doVerifiedLogout env cdb post s sid alla).1 := by
  have h1 : Blind s (logoutFromClient env cdb s sid).1 := by
    unfold logoutFromClient
    dsimp only
    repeat' split
    all_goals first | exact Blind.refl s | exact blind_clean s _
  have h2 : Blind s (logoutAllClients env cdb s sid).1 := by
    unfold logoutAllClients
    dsimp only
    repeat' split
    all_goals first | exact Blind.refl s | exact blind_clean s _
  have h3 : Blind s (if alla = true then logoutAllClients env cdb s sid else logoutFromClient env cdb s sid).1 := by
    split <;> assumption
  unfold doVerifiedLogout
  dsimp only
  split
  · exact h3
  · split <;> exact h3

/-- **C46** is false of the code in its first half, for every storage, session and token: after a verified logout — from one
client or from all — userinfo, introspection and the token endpoint answer exactly as before.  (The storage then differs
from what it would be without the logout in nothing but marks that no endpoint reads, so that this goes on for ever.) -/
theorem C46_tokens_survive_logout (lenv : LogoutEnv) (cdb : Cdb) (post : Str → Str → Except Exn Unit) (s : Store) (sid : Str)
    (alla : Bool) :
    let s' := (doVerifiedLogout lenv cdb post s sid alla).1
    (∀ env db now v, userinfoProcess env db s' now v = userinfoProcess env db s now v) ∧
    (∀ env iss rel db now v, introspectProcess env iss rel db s' now v = introspectProcess env iss rel db s now v) ∧
    (∀ env hs now req, tokParse env hs s' now req = tokParse env hs s now req) ∧
    (∀ m env hs i req, (tokProcess m env hs s' i req).2 = (tokProcess m env hs s i req).2) := by
  have hb := blind_logout lenv cdb post s sid alla
  exact ⟨fun env db now v => (hb.userinfo env db now v).symm, fun env iss rel db now v => (hb.introspect env iss rel db now v).symm,
    fun env hs now req => (hb.tokParse env hs now req).symm, fun m env hs i req => (hb.tokProcess m env hs i req).2.symm⟩

/-- Revoking a client session that is stored. -/
theorem revoke_eq {s : Store} {u c sid : Str} {i : SessInfo} (hsid : unpackSessionKey sid = [u, c] ∨ ∃ g, unpackSessionKey sid = [u, c, g])
    (hc : c ≠ []) (h : dbGet s [u, c] = .ok (.info i)) :
    revokeClientSession s sid = (s.put (sessionKey [u, c]) (.info i.revoke), .ok ()) := by
  have := dbSet_back (j := i.revoke) h
  rw [if_neg hc] at this
  unfold revokeClientSession
  rcases hsid with e | ⟨g, e⟩ <;> simp only [e, h] <;> exact this

theorem unpack3_inv {sid u c g : Str} (h : unpack3 sid = .ok (u, c, g)) : unpackSessionKey sid = [u, c, g] := by
  unfold unpack3 at h
  split at h
  · cases h; assumption
  · cases h

theorem goodId_ne {c : Str} (h : GoodId c) : c ≠ [] := h.1

/-- **C46**, what logout from one client does: the client session is marked as revoked, and nothing else is changed. -/
theorem C46_logout_marks_session (env : LogoutEnv) (cdb : Cdb) (s : Store) (u c g : Str) (hu : GoodId u) (hc : GoodId c)
    (hg : GoodId g) (gr : Grant) (hget : dbGet s [u, c, g] = .ok (.grant gr)) (cl : Client) (hcl : cdb c = some cl)
    (htok : ∀ sid, ∃ t, env.logoutToken cl sid = .ok t) :
    ∃ s' calls, logoutFromClient env cdb s (sessionKey [u, c, g]) = (s', .ok calls) ∧
      (∃ i, dbGet s' [u, c] = .ok (.info i) ∧ i.revoked = true) ∧
      (∀ q, GoodPath q → q ≠ [u, c] → s'.at q = s.at q) ∧ (HasLogoutUri cl ↔ ∃ x, calls = [(c, x)]) := by
  obtain ⟨ui, ci, h1, h2, h3, h4, h5⟩ := (dbGet3 _ _ _ _ _).1 hget
  have hci : dbGet s [u, c] = .ok (.info ci) := (dbGet2 _ _ _ _).2 ⟨ui, h1, h2, h3⟩
  have hrev := revoke_eq (sid := sessionKey [u, c, g]) (.inr ⟨g, unpack_good (goodPath_three hu hc hg)⟩) hc.1 hci
  have hcall : ∃ o, logoutCall env cl (sessionKey [u, c, g]) = .ok o ∧ (HasLogoutUri cl ↔ ∃ x, o = some x) := by
    unfold logoutCall HasLogoutUri
    cases hb : cl.backchannelLogoutUri with
    | some b =>
      obtain ⟨t, ht⟩ := htok (sessionKey [u, c, g])
      exact ⟨_, by simp only [ht]; rfl, by simp⟩
    | none =>
      cases hf : cl.frontchannelLogoutUri with
      | some f => exact ⟨_, rfl, by simp⟩
      | none => exact ⟨_, rfl, by simp⟩
  obtain ⟨o, ho, hiff⟩ := hcall
  refine ⟨s.put (sessionKey [u, c]) (.info ci.revoke), addCall c o [], ?_, ?_, ?_, ?_⟩
  · unfold logoutFromClient
    simp only [unpack3_good hu hc hg, hget, hcl, ho, cleanSessions, hrev]
  · refine ⟨ci.revoke, ?_, rfl⟩
    rw [dbGet2]
    refine ⟨ui, ?_, h2, ?_⟩
    · rw [put_at _ _ (goodPath_two hu hc) (goodPath_one hu)]; simpa using h1
    · rw [put_at _ _ (goodPath_two hu hc) (goodPath_two hu hc)]; simp
  · intro q hq hne
    rw [put_at _ _ (goodPath_two hu hc) hq]; simp [hne]
  · rw [hiff]
    cases o <;> simp [addCall]

/-! ### Logout from all clients -/

/-- Revoking the sessions of several clients of a user. -/
theorem clean_ok {u : Str} (hu : GoodId u) (ui : SessInfo) (l : List Str) (s : Store) (hui : s.at [u] = some (.info ui))
    (hl : ∀ c ∈ l, GoodId c ∧ c ∈ ui.subordinate ∧ ∃ ci, s.at [u, c] = some (.info ci)) :
    ∃ s', cleanSessions s (l.map fun c => sessionKey [u, c]) = (s', .ok ()) ∧
      (∀ q, GoodPath q → (∀ c ∈ l, q ≠ [u, c]) → s'.at q = s.at q) ∧
      ∀ c ∈ l, ∃ ci, s.at [u, c] = some (.info ci) ∧ s'.at [u, c] = some (.info ci.revoke) := by
  induction l generalizing s with
  | nil => exact ⟨s, rfl, fun _ _ _ => rfl, by simp⟩
  | cons c l ih =>
    obtain ⟨hc, hm, ci, hci⟩ := hl c (by simp)
    have hrev := revoke_eq (sid := sessionKey [u, c]) (.inl (unpack_good (goodPath_two hu hc))) hc.1
      ((dbGet2 _ _ _ _).2 ⟨ui, hui, hm, hci⟩)
    have hat := fun q (hq : GoodPath q) => put_at s (.info ci.revoke) (goodPath_two hu hc) hq
    obtain ⟨s', h1, h2, h3⟩ := ih (s.put (sessionKey [u, c]) (.info ci.revoke))
      (by rw [hat _ (goodPath_one hu)]; simpa using hui)
      (by
        intro c' hc'
        obtain ⟨a, b, ci', d⟩ := hl c' (by simp [hc'])
        refine ⟨a, b, ?_⟩
        rw [hat _ (goodPath_two hu a)]
        split
        · exact ⟨_, rfl⟩
        · exact ⟨ci', d⟩)
    refine ⟨s', ?_, ?_, ?_⟩
    · simp only [List.map_cons, cleanSessions, hrev]; exact h1
    · intro q hq hne
      rw [h2 q hq (fun c' hc' => hne c' (by simp [hc'])), hat q hq, if_neg (hne c (by simp))]
    · intro c' hc'
      by_cases hin : c' ∈ l
      · obtain ⟨ci', e1, e2⟩ := h3 c' hin
        rw [hat _ (goodPath_two hu (hl c' hc').1)] at e1
        split at e1
        · rename_i he
          cases e1
          simp only [List.cons.injEq, and_true, true_and] at he
          subst he
          exact ⟨ci, hci, e2⟩
        · exact ⟨ci', e1, e2⟩
      · have : c' = c := by simpa [hin] using hc'
        subst this
        refine ⟨ci, hci, ?_⟩
        rw [h2 _ (goodPath_two hu hc) (by
          intro c'' hc'' he
          simp only [List.cons.injEq, and_true, true_and] at he
          exact hin (he ▸ hc'')), hat _ (goodPath_two hu hc)]
        simp

theorem logoutCalls_ok (env : LogoutEnv) (cdb : Cdb) (u : Str) (l : List Str) (hk : ∀ c ∈ l, ∃ cl, cdb c = some cl)
    (htok : ∀ cl sid, ∃ t, env.logoutToken cl sid = .ok t) :
    ∃ calls, logoutCalls env cdb u l = .ok calls ∧
      ∀ c, c ∈ calls.map Prod.fst ↔ c ∈ l ∧ ∃ cl, cdb c = some cl ∧ HasLogoutUri cl := by
  induction l with
  | nil => exact ⟨[], rfl, by simp⟩
  | cons c l ih =>
    obtain ⟨cl, hcl⟩ := hk c (by simp)
    obtain ⟨calls, h1, h2⟩ := ih fun c' hc' => hk c' (by simp [hc'])
    have hcall : ∃ o, logoutCall env cl (sessionKey [u, c]) = .ok o ∧ (HasLogoutUri cl ↔ ∃ x, o = some x) := by
      unfold logoutCall HasLogoutUri
      cases hb : cl.backchannelLogoutUri with
      | some b =>
        obtain ⟨t, ht⟩ := htok cl (sessionKey [u, c])
        exact ⟨_, by simp only [ht]; rfl, by simp⟩
      | none =>
        cases hf : cl.frontchannelLogoutUri with
        | some f => exact ⟨_, rfl, by simp⟩
        | none => exact ⟨_, rfl, by simp⟩
    obtain ⟨o, ho, hiff⟩ := hcall
    refine ⟨addCall c o calls, ?_, ?_⟩
    · simp only [logoutCalls, hcl, ho, h1]
    · intro c'
      cases o with
      | none =>
        have hno : ¬ HasLogoutUri cl := by rw [hiff]; simp
        simp only [addCall, h2, List.mem_cons]
        constructor
        · rintro ⟨a, b⟩; exact ⟨.inr a, b⟩
        · rintro ⟨rfl | a, cl', b, d⟩
          · rw [hcl] at b; cases b; exact absurd d hno
          · exact ⟨a, cl', b, d⟩
      | some x =>
        have hyes : HasLogoutUri cl := by rw [hiff]; simp
        simp only [addCall, List.map_cons, List.mem_cons, h2]
        constructor
        · rintro (rfl | ⟨a, b⟩)
          · exact ⟨.inl rfl, cl, hcl, hyes⟩
          · exact ⟨.inr a, b⟩
        · rintro ⟨rfl | a, b⟩
          · exact .inl rfl
          · exact .inr ⟨a, b⟩

theorem logout_all_tree (env : LogoutEnv) (cdb : Cdb) (s : Store) (ht : Tree s) (u c g : Str) (hu : GoodId u) (hc : GoodId c)
    (hg : GoodId g) (ui : SessInfo) (hui : dbGet s [u] = .ok (.info ui)) (hm : c ∈ ui.subordinate)
    (hk : ∀ c' ∈ ui.subordinate, ∃ cl, cdb c' = some cl) (htok : ∀ cl sid, ∃ t, env.logoutToken cl sid = .ok t) :
    ∃ s' calls, logoutAllClients env cdb s (sessionKey [u, c, g]) = (s', .ok calls) ∧
      (∀ c' ∈ ui.subordinate, ∀ cl, cdb c' = some cl → HasLogoutUri cl →
        c' ∈ calls.map Prod.fst ∧ ∃ i, dbGet s' [u, c'] = .ok (.info i) ∧ i.revoked = true) ∧
      (∀ c' ∈ ui.subordinate, ∀ cl, cdb c' = some cl → ¬ HasLogoutUri cl →
        c' ∉ calls.map Prod.fst ∧ s'.at [u, c'] = s.at [u, c']) ∧
      (∀ q, GoodPath q → (∀ c' ∈ ui.subordinate, q ≠ [u, c']) → s'.at q = s.at q) := by
  have hat := (dbGet1 _ _ _).1 hui
  obtain ⟨calls, h1, h2⟩ := logoutCalls_ok env cdb u ui.subordinate hk htok
  have hl : ∀ c' ∈ calls.map Prod.fst, GoodId c' ∧ c' ∈ ui.subordinate ∧ ∃ ci, s.at [u, c'] = some (.info ci) := by
    intro c' hc'
    have hsub := ((h2 c').1 hc').1
    obtain ⟨a, b⟩ := ht.usr u ui hu hat c' hsub
    exact ⟨a, hsub, b⟩
  obtain ⟨s', e1, e2, e3⟩ := clean_ok hu ui (calls.map Prod.fst) s hat hl
  obtain ⟨_, ci, hci⟩ := ht.usr u ui hu hat c hm
  refine ⟨s', calls, ?_, ?_, ?_, ?_⟩
  · unfold logoutAllClients
    have : (calls.map fun p => sessionKey [u, p.1]) = (calls.map Prod.fst).map fun c => sessionKey [u, c] := by
      rw [List.map_map]; rfl
    simp only [unpack3_good hu hc hg, hui, (dbGet2 _ _ _ _).2 ⟨ui, hat, hm, hci⟩, Obj.subordinate, h1, this, e1]
  · intro c' hc' cl hcl hlog
    have hin := (h2 c').2 ⟨hc', cl, hcl, hlog⟩
    obtain ⟨ci', f1, f2⟩ := e3 c' hin
    refine ⟨hin, ci'.revoke, ?_, rfl⟩
    rw [dbGet2]
    exact ⟨ui, by rw [e2 _ (goodPath_one hu) (by simp)]; exact hat, hc', f2⟩
  · intro c' hc' cl hcl hlog
    have hnin : c' ∉ calls.map Prod.fst := by
      intro hin
      obtain ⟨_, cl', a, b⟩ := (h2 c').1 hin
      rw [hcl] at a; cases a; exact hlog b
    refine ⟨hnin, e2 _ (goodPath_two hu (ht.usr u ui hu hat c' hc').1) ?_⟩
    intro c'' hc'' he
    simp only [List.cons.injEq, and_true, true_and] at he
    exact hnin (he ▸ hc'')
  · intro q hq hne
    exact e2 q hq fun c' hc' => hne c' (hl c' hc').2.1

/-- **C46**, second half, as far as it goes: logout from all clients marks the client sessions of exactly those clients that
registered a logout URI (of which the statement of C46 says nothing); the other clients' sessions, and everything else, stay
as they are.  Needed besides: every client is in the client database, and logout tokens can be made. -/
theorem C46_logout_all_partial (m : Mode) (sf : SubFuncs) (ops : List MgrOp) (hops : ∀ op ∈ ops, OpGood op)
    (env : LogoutEnv) (cdb : Cdb) (u c g : Str) (hu : GoodId u) (hc : GoodId c) (hg : GoodId g) (ui : SessInfo)
    (hui : dbGet (mgrRun m sf Store.empty ops) [u] = .ok (.info ui)) (hm : c ∈ ui.subordinate)
    (hk : ∀ c' ∈ ui.subordinate, ∃ cl, cdb c' = some cl) (htok : ∀ cl sid, ∃ t, env.logoutToken cl sid = .ok t) :
    let s := mgrRun m sf Store.empty ops
    ∃ s' calls, logoutAllClients env cdb s (sessionKey [u, c, g]) = (s', .ok calls) ∧
      (∀ c' ∈ ui.subordinate, ∀ cl, cdb c' = some cl → HasLogoutUri cl →
        c' ∈ calls.map Prod.fst ∧ ∃ i, dbGet s' [u, c'] = .ok (.info i) ∧ i.revoked = true) ∧
      (∀ c' ∈ ui.subordinate, ∀ cl, cdb c' = some cl → ¬ HasLogoutUri cl →
        c' ∉ calls.map Prod.fst ∧ s'.at [u, c'] = s.at [u, c']) ∧
      (∀ q, GoodPath q → (∀ c' ∈ ui.subordinate, q ≠ [u, c']) → s'.at q = s.at q) :=
  logout_all_tree env cdb _ (tree_run tree_empty ops hops) u c g hu hc hg ui hui hm hk htok

theorem logoutCalls_unknown (env : LogoutEnv) (cdb : Cdb) (u c : Str) (l : List Str) (hm : c ∈ l) (hc : cdb c = none) :
    ∃ e, logoutCalls env cdb u l = .error e := by
  induction l with
  | nil => cases hm
  | cons d l ih =>
    unfold logoutCalls
    cases hd : cdb d with
    | none => exact ⟨_, rfl⟩
    | some cl =>
      simp only
      cases logoutCall env cl (sessionKey [u, d]) with
      | error e => exact ⟨_, rfl⟩
      | ok o =>
        have : c ∈ l := by
          rcases List.mem_cons.1 hm with rfl | h
          · rw [hc] at hd; cases hd
          · exact h
        obtain ⟨e, he⟩ := ih this
        simp only [he]
        exact ⟨_, rfl⟩

/-- **C46** fails altogether if one of the user's clients is no longer registered: logout from all clients then raises, tells
nobody, and changes nothing. -/
theorem C46_unknown_client_blocks_logout (env : LogoutEnv) (cdb : Cdb) (post : Str → Str → Except Exn Unit) (s : Store) (u c g c' : Str)
    (ui : SessInfo) (hu : GoodId u) (hcg : GoodId c) (hg : GoodId g) (hui : dbGet s [u] = .ok (.info ui)) (hm : c' ∈ ui.subordinate)
    (hno : cdb c' = none) :
    ∃ e, doVerifiedLogout env cdb post s (sessionKey [u, c, g]) true = (s, [], .error e) := by
  obtain ⟨e, he⟩ := logoutCalls_unknown env cdb u c' ui.subordinate hm hno
  have : ∃ e, logoutAllClients env cdb s (sessionKey [u, c, g]) = (s, .error e) := by
    unfold logoutAllClients
    simp only [unpack3_good hu hcg hg, hui]
    cases dbGet s [u, c] with
    | error e => exact ⟨_, rfl⟩
    | ok o => simp only [Obj.subordinate, he]; exact ⟨_, rfl⟩
  obtain ⟨e, he⟩ := this
  exact ⟨e, by simp [doVerifiedLogout, he]⟩

/-! ### C47: the end-session request -/

theorem endSession_ok {env : EndEnv} {s : Store} {raw : Option Str} {sid c : Str} {o : Obj} (h : endSession env s raw = .ok (sid, c, o)) :
    ∃ r v ts ty u g, raw = some r ∧ getCookieValue env.ccr env.dealer r = .ok (some (v, ts, ty)) ∧ env.decodeSid v = .ok (some sid) ∧
      unpackSessionKey sid = [u, c, g] ∧ dbGet s [u, c, g] = .ok o := by
  unfold endSession at h
  cases raw with
  | none => simp at h
  | some r =>
    simp only at h
    cases hv : getCookieValue env.ccr env.dealer r with
    | error e =>
      simp only [hv] at h
      split at h
      · cases h
      · split at h <;> cases h
    | ok o1 =>
      cases o1 with
      | none => simp [hv] at h
      | some x =>
        obtain ⟨v, ts, ty⟩ := x
        simp only [hv] at h
        cases hd : env.decodeSid v with
        | error e => simp [hd] at h
        | ok o2 =>
          cases o2 with
          | none => simp [hd] at h
          | some sid' =>
            simp only [hd] at h
            cases hu : unpack3 sid' with
            | error e => simp [hu] at h
            | ok y =>
              obtain ⟨u, c', g⟩ := y
              simp only [hu] at h
              cases hg : dbGet s [u, c', g] with
              | error e =>
                simp only [hg] at h
                split at h <;> cases h
              | ok o' =>
                simp only [hg, Except.ok.injEq, Prod.mk.injEq] at h
                obtain ⟨rfl, rfl, rfl⟩ := h
                exact ⟨r, v, ts, ty, u, g, rfl, hv, hd, unpack3_inv hu, hg⟩

/-- **C47** End-session processing succeeds only with a cookie that the server itself issued and that names a stored session;
the signed payload names that session.  A hint has this session's client in its audience, and the subject of its grant.  A
post-logout URI comes with a hint and is registered — with the client of the session if the request names no other client
(which is the part of C47 that the code does not enforce: `C47_foreign_client_uri`). -/
theorem C47_end_session_partial (env : EndEnv) (hlib : ∀ u, DistinctKeys (env.lib.splitUri u).2) (cdb : Cdb)
    (hreg : ∀ c cl, cdb c = some cl → ∀ p ∈ cl.postLogoutRedirectUris, DistinctKeys p.2) (s : Store) (raw : Option Str)
    (req : EndReq) (p : EndPayload) (issued : List Spec.Issued) (hok : ∀ i ∈ issued, CookieValueOk i.value)
    (hmac : ∀ k, env.dealer.signKey = some k → MacUnforgeable env.ccr k issued)
    (hgcm : ∀ k, env.dealer.encKey = some k → GcmUnforgeable env.ccr k issued)
    (h : endSessionEndpoint env cdb s raw req = .ok p) :
    ∃ i ∈ issued, ∃ u c g o, env.decodeSid i.value = .ok (some p.sid) ∧ unpackSessionKey p.sid = [u, c, g] ∧
      dbGet s [u, c, g] = .ok o ∧
      (∀ hs, req.hint = some hs → ∃ t gr, env.unpackHint hs = some t ∧ t.alg ∈ env.supportedAlgs ∧ c ∈ t.aud ∧
        o = .grant gr ∧ t.sub = gr.sub) ∧
      (∀ uri, req.postLogoutRedirectUri = some uri → req.hint ≠ none ∧
        (p.redirectUri = uri ∨ ∃ st, req.state = some st ∧ p.redirectUri = uri ++ '?' :: env.lib.urlencode [(c!"state", [st])]) ∧
        (∀ c', (req.clientId <|> some c) = some c' → ∃ cl, cdb c' = some cl ∧ PostLogoutRegistered env.lib cl uri) ∧
        (req.clientId = none ∨ req.clientId = some c → ∃ cl, cdb c = some cl ∧ PostLogoutRegistered env.lib cl uri)) ∧
      (req.postLogoutRedirectUri = none → ∀ base, env.issuer = base ++ c!"/" ∨ (env.issuer = base ∧ env.issuer.getLast? ≠ some '/') →
        p.redirectUri = base ++ c!"/" ++ env.postLogoutUriPath) := by
  unfold endSessionEndpoint at h
  cases hp : endParse env req with
  | error e => simp [hp] at h
  | ok hint =>
    simp only [hp] at h
    unfold endProcess at h
    split at h
    · cases h
    · rename_i hno
      cases hs : endSession env s raw with
      | error e => simp [hs] at h
      | ok x =>
        obtain ⟨sid, c, o⟩ := x
        simp only [hs] at h
        obtain ⟨r, v, ts, ty, u, g, rfl, hv, hd, hu, hg⟩ := endSession_ok hs
        obtain ⟨i, hi, rfl, _, _⟩ := C06_no_recut env.ccr env.dealer issued hok hmac hgcm r v ts ty hv
        cases hh : hintCheck c o hint with
        | error e => simp [hh] at h
        | ok y =>
          simp only [hh] at h
          cases hc : cdb c with
          | none => simp [hc] at h
          | some cl0 =>
            simp only [hc] at h
            have hsid : p.sid = sid := by
              unfold endTarget at h
              split at h
              · cases h; rfl
              · split at h
                · cases h
                · split at h <;> cases h <;> rfl
            refine ⟨i, hi, u, c, g, o, hsid ▸ hd, hsid ▸ hu, hg, ?_, ?_, ?_⟩
            · intro st hst
              simp only [endParse, hst] at hp
              cases ht : env.unpackHint st with
              | none => simp [ht] at hp
              | some t =>
                simp only [ht] at hp
                split at hp
                · rename_i halg
                  cases hp
                  simp only [hintCheck] at hh
                  split at hh
                  · cases hh
                  · rename_i haud
                    cases o with
                    | info _ => simp at hh
                    | grant gr =>
                      simp only at hh
                      split at hh
                      · rename_i hsub
                        exact ⟨t, gr, rfl, halg, Decidable.not_not.1 haud, rfl, hsub⟩
                      · cases hh
                · cases hp
            · intro uri huri
              have hver : verifyUri env.lib cdb .postLogout req.clientId (some c) (some uri) = .ok () ∧
                  (p.redirectUri = uri ∨ ∃ st, req.state = some st ∧
                    p.redirectUri = uri ++ '?' :: env.lib.urlencode [(c!"state", [st])]) := by
                unfold endTarget at h
                simp only [huri] at h
                split at h
                · cases h
                · rename_i hv
                  refine ⟨hv, ?_⟩
                  split at h
                  · cases h; exact .inl rfl
                  · rename_i st hst
                    cases h
                    exact .inr ⟨st, hst, rfl⟩
              obtain ⟨cid, cl, e1, _, e3, e4, pre, rq, post, e5, _, e6⟩ :=
                (C22_accepted_iff env.lib hlib cdb .postLogout _ _ uri hreg).1 hver.1
              have hP : PostLogoutRegistered env.lib cl uri :=
                ⟨e4, rq, by show _ ∈ cl.uris .postLogout; rw [e5]; simp, e6⟩
              refine ⟨?_, hver.2, ?_, ?_⟩
              · intro hn
                exact hno ⟨by simp [huri], hn⟩
              · intro c' hc'
                rw [e1] at hc'; cases hc'
                exact ⟨cl, e3, hP⟩
              · intro hcl
                have : cid = c := by
                  rcases hcl with hcl | hcl <;> simpa [hcl] using e1.symm
                subst this
                exact ⟨cl, e3, hP⟩
            · intro hn base hbase
              simp only [endTarget, hn] at h
              cases h
              simp only [defaultPostLogout]
              rcases hbase with hb | ⟨hb, hb'⟩
              · rw [if_pos (by rw [hb]; simp), hb]
              · rw [if_neg hb', hb]; simp

/-! ### Concrete end-session requests -/

def endCdb : Cdb := fun c => if c = c!"c1" then some { postLogoutRedirectUris := [(c!"https://rp/out", [])] }
  else if c = c!"c2" then some { postLogoutRedirectUris := [(c!"https://evil/out", [])] } else none

/-- The one cookie the server has issued. -/
def endIssued : Spec.Issued := ⟨c!"diana;;c1;;g1", 5, c!"session"⟩

/-- The hint "H" is an ID token for the logged in user and client `c1`. -/
def endEnv : EndEnv where
  unpackHint h := if h = c!"H" then some ⟨c!"RS256", [c!"c1"], c!"pub-diana"⟩ else none
  supportedAlgs := [c!"RS256"]
  ccr := oneMac endIssued
  dealer := ⟨some c!"k", none⟩
  decodeSid v := .ok (some v)
  lib := demoLib
  issuer := c!"https://op"
  postLogoutUriPath := c!"out"

def endCookie : Str := c!"5|diana;;c1;;g1::5::session|B"

def loginStore : Store := (sysRun (envCfg demoEnv) loginOps).store

set_option maxRecDepth 8000 in
/-- The hypotheses of C47 are met, and the request succeeds. -/
example : (∀ i ∈ [endIssued], CookieValueOk i.value) ∧ MacUnforgeable endEnv.ccr c!"k" [endIssued] ∧
    endSessionEndpoint endEnv endCdb loginStore (some endCookie)
      { hint := some c!"H", postLogoutRedirectUri := some c!"https://rp/out", state := some c!"s" } =
      .ok ⟨c!"diana;;c1;;g1", some c!"s", c!"https://rp/out?state=s"⟩ := by
  refine ⟨?_, ?_, by decide⟩
  · intro i hi
    simp only [List.mem_cons, List.not_mem_nil, or_false] at hi
    subst hi
    refine ⟨fun h => ?_, by decide⟩
    have := h.subset (a := ':') (by simp)
    revert this; decide
  · intro msg mac h
    exact ⟨endIssued, by simp, by simpa [endEnv, oneMac] using h⟩

set_option maxRecDepth 8000 in
/-- **C47** is false of the code in its last part: a request that names another client in `client_id` is checked against
that client's URIs, so that the user ends up at a URI the client of the session never registered. -/
theorem C47_foreign_client_uri :
    endSessionEndpoint endEnv endCdb loginStore (some endCookie)
      { clientId := some c!"c2", hint := some c!"H", postLogoutRedirectUri := some c!"https://evil/out" } =
      .ok ⟨c!"diana;;c1;;g1", none, c!"https://evil/out"⟩ ∧
    ∀ cl, endCdb c!"c1" = some cl → ¬ PostLogoutRegistered demoLib cl c!"https://evil/out" := by
  refine ⟨by decide, ?_⟩
  intro cl hcl ⟨_, rq, hm, _⟩
  have : cl = { postLogoutRedirectUris := [(c!"https://rp/out", [])] } := by
    have e : endCdb c!"c1" = some { postLogoutRedirectUris := [(c!"https://rp/out", [])] } := by decide
    rw [e] at hcl; cases hcl; rfl
  subst this
  simp only [List.mem_cons, List.not_mem_nil, or_false, Prod.mk.injEq] at hm
  exact absurd hm.1 (by decide)

/-! ### C46: a concrete logout -/

def outEnv : LogoutEnv where
  issuer := c!"https://op"
  logoutToken _ sid := .ok (c!"LT-" ++ sid)
  cutQuery u := (u, [])
  urlencode _ := c!"q"

def outCdb : Cdb := fun c => if c = c!"c1" then some { backchannelLogoutUri := some c!"https://rp/bc" } else none

set_option maxRecDepth 8000 in
/-- The user is logged in with `c1`; logout marks the session, and the access token still gets the user's claims. -/
example :
    let r := doVerifiedLogout outEnv outCdb (fun _ _ => .ok ()) loginStore c!"diana;;c1;;g1" false
    r.2.1 = [c!"c1"] ∧
    (match dbGet r.1 [c!"diana", c!"c1"] with | .ok (.info i) => i.revoked | _ => false) = true ∧
    isVal (userinfoProcess demoEnv demoUsers r.1 3 demoAt) = true := by
  decide

/-- A user with two sessions; only the first client has a logout URI. -/
def outOps : List MgrOp :=
  [.createSession 1 c!"g1" c!"diana" c!"c1" { authReq := reqSample c!"c1" },
   .createSession 2 c!"g2" c!"diana" c!"c2" { authReq := reqSample c!"c2" }]

def outCdb2 : Cdb := fun c => if c = c!"c1" then some { frontchannelLogoutUri := some c!"https://rp/fc" }
  else if c = c!"c2" then some {} else none

/-- The hypotheses of `C46_logout_marks_session` and of `C46_logout_all_partial`, and what happens: the session of the client
without logout URI is not marked. -/
example : (∀ op ∈ outOps, OpGood op) ∧
    (∃ gr, dbGet (mgrRun .aliased sfSample Store.empty outOps) [c!"diana", c!"c1", c!"g1"] = .ok (.grant gr)) ∧
    (∃ ui, dbGet (mgrRun .aliased sfSample Store.empty outOps) [c!"diana"] = .ok (.info ui) ∧ ui.subordinate = [c!"c1", c!"c2"]) ∧
    (∀ cl sid, ∃ t, outEnv.logoutToken cl sid = .ok t) ∧
    (let r := doVerifiedLogout outEnv outCdb2 (fun _ _ => .ok ()) (mgrRun .aliased sfSample Store.empty outOps) c!"diana;;c1;;g1" true
     (match r.2.2 with | .ok l => l | _ => []) = [c!"<iframe src=\"https://rp/fc\">"] ∧
     (match dbGet r.1 [c!"diana", c!"c1"] with | .ok (.info i) => i.revoked | _ => false) = true ∧
     (match dbGet r.1 [c!"diana", c!"c2"] with | .ok (.info i) => i.revoked | _ => true) = false) := by
  refine ⟨?_, ⟨_, rfl⟩, ⟨_, rfl, rfl⟩, fun _ _ => ⟨_, rfl⟩, by decide⟩
  intro op hop
  simp only [outOps, List.mem_cons, List.not_mem_nil, or_false] at hop
  have hgood : ∀ x ∈ [c!"g1", c!"g2", c!"diana", c!"c1", c!"c2"], GoodId x := by
    intro x hx
    refine ⟨by rintro rfl; revert hx; decide, ?_⟩
    simp only [List.mem_cons, List.not_mem_nil, or_false] at hx
    rcases hx with rfl | rfl | rfl | rfl | rfl <;> (show _ ∉ _; decide)
  rcases hop with rfl | rfl
  · exact ⟨hgood _ (by decide), hgood _ (by decide), hgood c!"c1" (by decide)⟩
  · exact ⟨hgood _ (by decide), hgood _ (by decide), hgood c!"c2" (by decide)⟩

/-! ### C70: client authentication at the end-session endpoint -/

/-- **C70** is false of the code: no method is ever tried.  If methods are configured for the endpoint — whichever they are —
every request is refused, with valid credentials or without; if none are, nobody is authenticated. -/
theorem C70_end_session_authenticates_nobody (lib : AuthnLib) (cdb : Cdb) (now : Int) (fromToken : Str → Except Exn Str)
    (jtis : List Str) (r : AuthnReq) :
    (∀ methods, methods ≠ [] → endAuthn lib cdb now methods fromToken jtis r = (jtis, .error .unAuthorizedClient)) ∧
    endAuthn lib cdb now [] fromToken jtis r = (jtis, .ok none) := by
  refine ⟨fun methods hm => ?_, ?_⟩
  · simp [endAuthn, verifyClient, tryMethods, hm]
  · simp [endAuthn, verifyClient, tryMethods]

/-- Also with the configuration that means "no authentication" at the other endpoints (an empty list of methods). -/
theorem C70_empty_configuration_refuses (lib : AuthnLib) (cdb : Cdb) (now : Int) (fromToken : Str → Except Exn Str)
    (jtis : List Str) (r : AuthnReq) :
    endAuthn lib cdb now (endpointMethods (some []) []) fromToken jtis r = (jtis, .error .unAuthorizedClient) :=
  (C70_end_session_authenticates_nobody lib cdb now fromToken jtis r).1 _ (by simp [endpointMethods])

/-- A request that another endpoint with the same methods accepts. -/
example : (clientAuthentication authnLib authnCdb 0 [some .clientSecretPost] [] (fun _ => .ok []) []
      { clientId := some c!"c1", clientSecret := some c!"s1" }).2 =
      .ok (some { method := c!"client_secret_post", clientId := some c!"c1" }) ∧
    (endAuthn authnLib authnCdb 0 [some .clientSecretPost] (fun _ => .ok []) []
      { clientId := some c!"c1", clientSecret := some c!"s1" }).2 = .error .unAuthorizedClient := by decide

/-! ### C71: telling the clients -/

/-- The clients in a list of calls that are told by back channel. -/
def backClients (calls : Dict LogoutCall) : List Str :=
  calls.filterMap fun p => match p.2 with
    | .back _ _ => some p.1
    | .front _ => none

/-- Who is told, exactly: the clients before the first one whose server cannot be reached.  The others are not. -/
theorem postAll_exact (post : Str → Str → Except Exn Unit) (calls : Dict LogoutCall) :
    ((∀ c uri t, (c, LogoutCall.back uri t) ∈ calls → post uri t = .ok ()) →
      postAll post calls = (backClients calls, .ok ())) ∧
    ∀ pre c uri t rest e, calls = pre ++ (c, .back uri t) :: rest → post uri t = .error e →
      (∀ c uri t, (c, LogoutCall.back uri t) ∈ pre → post uri t = .ok ()) →
      postAll post calls = (backClients pre, .error e) := by
  constructor
  · induction calls with
    | nil => intro _; rfl
    | cons p l ih =>
      intro h
      obtain ⟨c, x⟩ := p
      have ih' := ih fun c uri t hm => h c uri t (by simp [hm])
      cases x with
      | front f => simpa [postAll, backClients] using ih'
      | back uri t =>
        have e := h c uri t (by simp)
        simp only [postAll, e, ih']
        simp [backClients]
  · intro pre
    induction pre generalizing calls with
    | nil =>
      intro c uri t rest e he hp _
      subst he
      simp [postAll, hp, backClients]
    | cons p l ih =>
      intro c uri t rest e he hp hpre
      subst he
      obtain ⟨d, x⟩ := p
      have ih' := ih _ c uri t rest e rfl hp fun c uri t hm => hpre c uri t (by simp [hm])
      cases x with
      | front f => simpa [postAll, backClients] using ih'
      | back uri' t' =>
        have e' := hpre d uri' t' (by simp)
        simp only [List.cons_append, postAll, e', ih']
        simp [backClients]

theorem logoutCalls_back (env : LogoutEnv) (cdb : Cdb) (u : Str) (l : List Str) (calls : Dict LogoutCall)
    (h : logoutCalls env cdb u l = .ok calls) (c : Str) :
    (c ∈ backClients calls ↔ c ∈ l ∧ ∃ cl, cdb c = some cl ∧ cl.backchannelLogoutUri ≠ none) ∧
    (∀ cl uri, c ∈ l → cdb c = some cl → cl.backchannelLogoutUri = none → cl.frontchannelLogoutUri = some uri →
      logoutIframe env cl.frontchannelLogoutSessionRequired uri (sessionKey [u, c]) ∈ iframes calls) := by
  induction l generalizing calls with
  | nil => simp only [logoutCalls] at h; cases h; simp [backClients, iframes]
  | cons d l ih =>
    unfold logoutCalls at h
    cases hd : cdb d with
    | none => simp [hd] at h
    | some dl =>
      simp only [hd] at h
      cases ho : logoutCall env dl (sessionKey [u, d]) with
      | error e => simp [ho] at h
      | ok o =>
        simp only [ho] at h
        cases hr : logoutCalls env cdb u l with
        | error e => simp [hr] at h
        | ok r =>
          simp only [hr] at h
          cases h
          obtain ⟨ih1, ih2⟩ := ih r hr
          unfold logoutCall at ho
          cases hb : dl.backchannelLogoutUri with
          | some b =>
            simp only [hb] at ho
            cases ht : env.logoutToken dl (sessionKey [u, d]) with
            | error e => simp [ht] at ho
            | ok t =>
              simp only [ht] at ho
              cases ho
              constructor
              · have : backClients (addCall d (some (.back b t)) r) = d :: backClients r := by simp [addCall, backClients]
                rw [this, List.mem_cons, List.mem_cons, ih1]
                constructor
                · rintro (rfl | ⟨a, b⟩)
                  · exact ⟨.inl rfl, dl, hd, by simp [hb]⟩
                  · exact ⟨.inr a, b⟩
                · rintro ⟨rfl | a, b⟩
                  · exact .inl rfl
                  · exact .inr ⟨a, b⟩
              · intro cl uri hm hc h1 h2
                rcases List.mem_cons.1 hm with rfl | hm
                · rw [hd] at hc; cases hc; rw [hb] at h1; cases h1
                · exact ih2 cl uri hm hc h1 h2
          | none =>
            simp only [hb] at ho
            have hskip : (c ∈ backClients r ↔ c ∈ d :: l ∧ ∃ cl, cdb c = some cl ∧ cl.backchannelLogoutUri ≠ none) := by
              rw [ih1]
              constructor
              · rintro ⟨a, b⟩; exact ⟨by simp [a], b⟩
              · rintro ⟨a, cl, b, e⟩
                rcases List.mem_cons.1 a with rfl | a
                · rw [hd] at b; cases b; exact absurd hb e
                · exact ⟨a, cl, b, e⟩
            cases hf : dl.frontchannelLogoutUri with
            | none =>
              simp only [hf] at ho
              cases ho
              refine ⟨hskip, ?_⟩
              intro cl uri hm hc h1 h2
              rcases List.mem_cons.1 hm with rfl | hm
              · rw [hd] at hc; cases hc; rw [hf] at h2; cases h2
              · exact ih2 cl uri hm hc h1 h2
            | some f =>
              simp only [hf] at ho
              cases ho
              refine ⟨by simpa [addCall, backClients] using hskip, ?_⟩
              intro cl uri hm hc h1 h2
              simp only [addCall, iframes, List.mem_cons]
              rcases List.mem_cons.1 hm with rfl | hm
              · rw [hd] at hc; cases hc; rw [hf] at h2; cases h2
                exact .inl rfl
              · exact .inr (ih2 cl uri hm hc h1 h2)

/-- **C71**, provided that every client's server can be reached (and that all clients are in the client database): after
logout from all clients, exactly the clients with a back-channel URI have been sent a logout token, and for every client
with only a front-channel URI there is an iframe. -/
theorem C71_all_clients_told_partial (m : Mode) (sf : SubFuncs) (ops : List MgrOp) (hops : ∀ op ∈ ops, OpGood op)
    (env : LogoutEnv) (cdb : Cdb) (post : Str → Str → Except Exn Unit) (u c g : Str) (hu : GoodId u) (hc : GoodId c)
    (hg : GoodId g) (ui : SessInfo) (hui : dbGet (mgrRun m sf Store.empty ops) [u] = .ok (.info ui)) (hm : c ∈ ui.subordinate)
    (hk : ∀ c' ∈ ui.subordinate, ∃ cl, cdb c' = some cl) (htok : ∀ cl sid, ∃ t, env.logoutToken cl sid = .ok t)
    (hpost : ∀ uri t, post uri t = .ok ()) :
    ∃ s' told frames, doVerifiedLogout env cdb post (mgrRun m sf Store.empty ops) (sessionKey [u, c, g]) true = (s', told, .ok frames) ∧
      (∀ c', c' ∈ told ↔ c' ∈ ui.subordinate ∧ ∃ cl, cdb c' = some cl ∧ cl.backchannelLogoutUri ≠ none) ∧
      ∀ c' ∈ ui.subordinate, ∀ cl uri, cdb c' = some cl → cl.backchannelLogoutUri = none → cl.frontchannelLogoutUri = some uri →
        logoutIframe env cl.frontchannelLogoutSessionRequired uri (sessionKey [u, c']) ∈ frames := by
  obtain ⟨s', calls, h1, _⟩ := C46_logout_all_partial m sf ops hops env cdb u c g hu hc hg ui hui hm hk htok
  have hcalls : logoutCalls env cdb u ui.subordinate = .ok calls := by
    unfold logoutAllClients at h1
    simp only [unpack3_good hu hc hg, hui, Obj.subordinate] at h1
    split at h1
    · cases h1
    · split at h1
      · cases h1
      · rename_i x hx
        split at h1
        · cases h1
        · simp only [Prod.mk.injEq, Except.ok.injEq] at h1
          rw [hx, h1.2]
  refine ⟨s', backClients calls, iframes calls, ?_, fun c' => (logoutCalls_back env cdb u _ calls hcalls c').1,
    fun c' hc' cl uri h2 h3 h4 => (logoutCalls_back env cdb u _ calls hcalls c').2 cl uri hc' h2 h3 h4⟩
  have hp := (postAll_exact post calls).1 fun _ uri t _ => hpost uri t
  simp only [doVerifiedLogout, if_true, h1, hp]

/-- **C71** is false of the code otherwise: if one server cannot be reached, the clients behind it in the list are not told,
the iframes are lost, and yet all the sessions are marked as revoked, so that nothing is left to repeat. -/
theorem C71_unreachable_client_stops_logout (env : LogoutEnv) (cdb : Cdb) (post : Str → Str → Except Exn Unit) (s s' : Store)
    (sid : Str) (pre rest : Dict LogoutCall) (c uri t : Str) (e : Exn)
    (h : logoutAllClients env cdb s sid = (s', .ok (pre ++ (c, .back uri t) :: rest))) (hp : post uri t = .error e)
    (hpre : ∀ c uri t, (c, LogoutCall.back uri t) ∈ pre → post uri t = .ok ()) :
    doVerifiedLogout env cdb post s sid true = (s', backClients pre, .error e) := by
  have := (postAll_exact post _).2 pre c uri t rest e rfl hp hpre
  simp only [doVerifiedLogout, if_true, h, this]

def outCdb3 : Cdb := fun c => if c = c!"c1" then some { backchannelLogoutUri := some c!"https://down/bc" }
  else if c = c!"c2" then some { backchannelLogoutUri := some c!"https://rp/bc" } else none

def outPost : Str → Str → Except Exn Unit := fun uri _ => if uri = c!"https://down/bc" then .error .serviceError else .ok ()

/-- **C71**, what is in an iframe: its address is the registered one; if the client asked for the session, with the registered
query and in it the issuer and the session, each once, whatever the registered query has under these names. -/
theorem C71_iframe_address (env : LogoutEnv) (req : Bool) (uri sid : Str) :
    ∃ src, logoutIframe env req uri sid = c!"<iframe src=\"" ++ src ++ c!"\">" ∧ (req = false → src = uri) ∧
      (req = true → ∃ base q, src = base ++ '?' :: env.urlencode q ∧
        ('?' ∉ uri → base = uri) ∧ ('?' ∈ uri → base = (env.cutQuery uri).1) ∧
        q.get? c!"iss" = some [env.issuer] ∧ q.get? c!"sid" = some [sid] ∧
        ∀ k, k ≠ c!"iss" → k ≠ c!"sid" → q.get? k = if '?' ∈ uri then (env.cutQuery uri).2.get? k else none) := by
  unfold logoutIframe
  cases req with
  | false => exact ⟨uri, by simp, fun _ => rfl, nofun⟩
  | true =>
    simp only [if_true]
    by_cases hq : '?' ∈ uri
    · rw [if_pos hq]
      refine ⟨(env.cutQuery uri).1 ++ '?' :: env.urlencode (Dict.update (env.cutQuery uri).2 [(c!"iss", [env.issuer]), (c!"sid", [sid])]),
        by simp, nofun, fun _ => ⟨_, _, rfl, fun h => absurd hq h, fun _ => rfl, ?_, ?_, ?_⟩⟩
      · rw [Dict.get?_update _ _ _ (by simp)]; rfl
      · rw [Dict.get?_update _ _ _ (by simp)]; rfl
      · intro k h1 h2
        rw [Dict.get?_update _ _ _ (by simp), if_pos hq]
        simp [Dict.get?, h1, h2, Ne.symm h1, Ne.symm h2]
    · rw [if_neg hq]
      refine ⟨uri ++ '?' :: env.urlencode [(c!"iss", [env.issuer]), (c!"sid", [sid])], by simp, nofun,
        fun _ => ⟨_, _, rfl, fun _ => rfl, fun h => absurd h hq, rfl, rfl, ?_⟩⟩
      intro k h1 h2
      rw [if_neg hq]
      simp [Dict.get?, h1, h2, Ne.symm h1, Ne.symm h2]

/-- A case in point. -/
example :
    let r := doVerifiedLogout outEnv outCdb3 outPost (mgrRun .aliased sfSample Store.empty outOps) c!"diana;;c1;;g1" true
    r.2.1 = [] ∧ r.2.2.toOption = none ∧
    (match dbGet r.1 [c!"diana", c!"c2"] with | .ok (.info i) => i.revoked | _ => false) = true := by
  decide

end Verif
