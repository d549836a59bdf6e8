import Verif.Props.TokenThreads
import Verif.Spec.LogoutThreads
set_option linter.unusedSimpArgs false
set_option linter.unusedVariables false
/-! A logout while token requests are being served (C176). -/
namespace Verif
open Spec

/-- The record under this key is a session record that is revoked. -/
def MarkedAt (s : Store) (k : Str) : Prop := ∃ i, s k = some (.info i) ∧ i.revoked = true

theorem marked_put {s : Store} {k k' : Str} (o : Obj) (h : MarkedAt s k) (hne : k ≠ k') : MarkedAt (s.put k' o) k := by
  obtain ⟨i, h1, h2⟩ := h
  exact ⟨i, by simpa [Store.put, hne] using h1, h2⟩

theorem marked_user {s : Store} {k u c : Str} (v : Obj) (h : MarkedAt s k) : MarkedAt (dbSetUser s u (some c) v).1 k := by
  obtain ⟨i, h1, h2⟩ := h
  unfold dbSetUser
  cases c with
  | nil => exact ⟨i, h1, h2⟩
  | cons x l =>
    simp only
    split
    · rename_i hn
      exact marked_put _ ⟨i, h1, h2⟩ (by rintro rfl; rw [h1] at hn; cases hn)
    · exact ⟨i, h1, h2⟩
    · rename_i j hn
      split
      · exact ⟨i, h1, h2⟩
      · by_cases e : k = u
        · subst e
          rw [h1] at hn; cases hn
          exact ⟨i.addSubordinate (x :: l), by simp [Store.put], by unfold SessInfo.addSubordinate; split <;> exact h2⟩
        · exact marked_put _ ⟨i, h1, h2⟩ e

/-- What is stored under another key does not unmark a session record. -/
theorem marked_set {s : Store} {k : Str} (path : List Str) (v : Obj) (hp : ∀ u c gi r, path = u :: c :: gi :: r → gi ≠ [])
    (hk : MarkedAt s k) (hne : k ≠ sessionKey (path.take 3)) : MarkedAt (dbSet s path v).1 k := by
  match path, hp, hne with
  | [], _, _ => exact hk
  | [u], _, hne =>
    have hne : k ≠ u := hne
    simp only [dbSet, evalPath, truthy, dbSetUser]
    exact marked_put _ hk hne
  | [u, c], _, hne =>
    have hne : k ≠ sessionKey [u, c] := by simpa using hne
    cases c with
    | nil => exact hk
    | cons x l =>
      have := marked_user (u := u) (c := x :: l) v (marked_put v hk hne)
      simpa [dbSet, evalPath, truthy, dbSetClient] using this
  | u :: c :: gi :: r, hp, hne =>
    have hne : k ≠ sessionKey [u, c, gi] := by simpa using hne
    obtain ⟨x, l, rfl⟩ : ∃ x l, gi = x :: l := by
      cases gi with
      | nil => exact absurd rfl (hp u c _ r rfl)
      | cons x l => exact ⟨x, l, rfl⟩
    have h1 := marked_put v hk hne
    have hcl : ∀ (s1 : Store), MarkedAt s1 k → MarkedAt (dbSetClient s1 u c (some (x :: l)) v).1 k := by
      rintro s1 ⟨i, h1, h2⟩
      unfold dbSetClient
      simp only
      split
      · rename_i hn
        exact marked_put _ ⟨i, h1, h2⟩ (by rintro rfl; rw [h1] at hn; cases hn)
      · exact ⟨i, h1, h2⟩
      · rename_i j hn
        split
        · exact ⟨i, h1, h2⟩
        · by_cases e : k = sessionKey [u, c]
          · rw [← e, h1] at hn; cases hn
            exact ⟨i.addSubordinate (x :: l), by simp [Store.put, e], by unfold SessInfo.addSubordinate; split <;> exact h2⟩
          · exact marked_put _ ⟨i, h1, h2⟩ e
    unfold dbSet
    simp only [evalPath, Option.getD_some, truthy, if_true]
    by_cases hc : truthy (some c) = true
    · have h4 := hcl _ h1
      simp only [truthy] at hc
      simp only [hc, if_true]
      split
      · exact h4
      · exact marked_user _ h4
    · have : c = [] := by
        cases c with
        | nil => rfl
        | cons _ _ => exact absurd rfl hc
      subst this
      exact h1

/-- The key of a client session is not that of a grant. -/
def TwoPart (k : Str) : Prop := ∃ u c, unpackSessionKey k = [u, c]

theorem TwoPart.ne {k sid : Str} (hk : TwoPart k) (hs : Sid3 sid) : k ≠ sid := by
  rintro rfl
  obtain ⟨u, c, h⟩ := hk
  obtain ⟨a, b, d, h', _⟩ := hs
  rw [h] at h'; cases h'

theorem marked_mgrSet {s : Store} {k sid : Str} (v : Obj) (hk : TwoPart k) (hs : Sid3 sid) (h : MarkedAt s k) : MarkedAt (mgrSet s sid v).1 k := by
  have hne := hk.ne hs
  obtain ⟨u, c, g, h1, h2⟩ := hs
  have h3 := session_key_unpack sid
  unfold mgrSet
  rw [h1] at h3 ⊢
  refine marked_set _ _ (by rintro _ _ _ _ ⟨⟩; exact h2) h ?_
  rw [show [u, c, g].take 3 = [u, c, g] from rfl, h3]
  exact hne

/-- The storage changes only in grants, and where grants are listed. -/
def KeepsMarks (s s' : Store) : Prop := (∀ k, TwoPart k → MarkedAt s k → MarkedAt s' k) ∧ NoEmpty s'

theorem keeps_mint (env : Env) (h : Option Handler) {s : Store} (hn : NoEmpty s) (now : Int) (mi : MintIn) {sid : Str} (hs : Sid3 sid) (tt : Str)
    (g : Grant) (b : Option Token) : KeepsMarks s (mintAndStore env h s now mi sid tt g b).1 := by
  rcases mintAndStore_spec env h s now mi sid tt g b with ⟨h1, _⟩ | ⟨v, t, _, _, _, _, _, _, _, _, _, _, _, _, _, h3, _⟩
  · rw [h1]; exact ⟨fun _ _ h => h, hn⟩
  · rw [h3]; exact ⟨fun k hk h => marked_mgrSet _ hk hs h, mgrSet_noEmpty hn hs _⟩

theorem keeps_code (m : Mode) (env : Env) (i : TokIn) (req : TokReq) {s : Store} (hn : NoEmpty s) (p : ThPc)
    (hs : ∀ sid, p.sidOf = some sid → Sid3 sid) :
    KeepsMarks s (thStep m env i req s p).1 ∧ ∀ sid, (thStep m env i req s p).2.sidOf = some sid → Sid3 sid := by
  obtain ⟨h1, h2⟩ := thStep_spec m env i req s hn p hs
  refine ⟨?_, h1⟩
  rcases h2 with h2 | ⟨sid, g, h3, h2, _⟩
  · rw [h2]; exact ⟨fun _ _ h => h, hn⟩
  · rw [h2]; exact ⟨fun k hk h => marked_mgrSet _ hk (hs sid h3) h, mgrSet_noEmpty hn (hs sid h3) _⟩

/-- The session whose grant a refreshing thread is working on. -/
def RfPc.sidOf : RfPc → Option Str
  | .looked sid .. => some sid
  | .mintedA sid .. => some sid
  | _ => none

theorem keeps_newRefresh (m : Mode) (env : Env) {s : Store} (hn : NoEmpty s) (i : TokIn) {sid : Str} (hs : Sid3 sid) (g : Grant) (b : Token)
    (want : Bool) : KeepsMarks s (newRefresh m env s i sid g b want).1 := by
  have h1 : KeepsMarks s (refreshPart env s i sid g (some b) want).1 := by
    unfold refreshPart
    split
    · exact keeps_mint env env.th.accessToken hn i.now i.mr hs tRefreshToken g (some b)
    · exact ⟨fun _ _ h => h, hn⟩
  unfold newRefresh
  simp only
  generalize refreshPart env s i sid g (some b) want = R at *
  obtain ⟨r1, r2, r3⟩ := R
  cases r3 with
  | error e => exact h1
  | ok o =>
    cases o with
    | none => exact h1
    | some tok =>
      cases m with
      | byValue => exact h1
      | aliased => exact ⟨fun k hk h => marked_put _ (h1.1 k hk h) (hk.ne hs), noEmpty_put h1.2 _ _⟩

theorem keeps_refresh (m : Mode) (env : Env) (i : TokIn) (req : TokReq) {s : Store} (hn : NoEmpty s) (p : RfPc)
    (hs : ∀ sid, p.sidOf = some sid → Sid3 sid) :
    KeepsMarks s (rfStep m env i req s p).1 ∧ ∀ sid, (rfStep m env i req s p).2.sidOf = some sid → Sid3 sid := by
  cases p with
  | done o => exact ⟨⟨fun _ _ h => h, hn⟩, fun sid h => by cases h⟩
  | start =>
    refine ⟨?_, fun sid h => ?_⟩
    · have : (rfStep m env i req s .start).1 = s := by
        simp only [rfStep]
        repeat' split
        all_goals rfl
      rw [this]; exact ⟨fun _ _ h => h, hn⟩
    · simp only [rfStep] at h
      repeat' split at h
      all_goals first
        | (cases h; done)
        | skip
      simp only [RfPc.sidOf, Option.some.injEq] at h
      subst h
      exact (sessionByToken_key hn (by assumption)).2.2
  | looked sid g0 v =>
    have h3 := hs sid rfl
    have h4 := keeps_mint env env.th.accessToken hn i.now i.ma h3 tAccessToken (seen m s sid g0) ((seen m s sid g0).getToken v)
    simp only [rfStep]
    generalize mintAndStore env env.th.accessToken s i.now i.ma sid tAccessToken (seen m s sid g0) ((seen m s sid g0).getToken v) = M at *
    obtain ⟨m1, m2, m3⟩ := M
    cases m3 with
    | error e => exact ⟨h4, fun sid' h => by cases h⟩
    | ok tok => exact ⟨h4, fun sid' h => by cases h; exact h3⟩
  | mintedA sid g0 v tok =>
    have h3 := hs sid rfl
    simp only [rfStep]
    cases (seen m s sid g0).getToken v with
    | none => exact ⟨⟨fun _ _ h => h, hn⟩, fun sid h => by cases h⟩
    | some b =>
      simp only
      cases b.usageRules.supportsMinting with
      | none => exact ⟨⟨fun _ _ h => h, hn⟩, fun sid h => by cases h⟩
      | some mints =>
        simp only
        have h4 := keeps_newRefresh m env hn i h3 (seen m s sid g0) b (decide (tRefreshToken ∈ mints))
        generalize newRefresh m env s i sid (seen m s sid g0) b (decide (tRefreshToken ∈ mints)) = M at *
        obtain ⟨m1, m2⟩ := M
        cases m2 with
        | error e => exact ⟨h4, fun sid' h => by cases h⟩
        | ok rt =>
          refine ⟨?_, fun sid' h => by cases h⟩
          have : (finishRefresh m1 i (seen m s sid g0) mints tok rt).1 = m1 := by
            unfold finishRefresh
            split <;> rfl
          simp only [this]
          exact h4

/-- What holds of the storage and the threads all the time. -/
structure JobsFit (x : Jobs) : Prop where
  noEmpty : NoEmpty x.store
  code : ∀ t p, x.pc t = .code p → ∀ sid, p.sidOf = some sid → Sid3 sid
  refresh : ∀ t p, x.pc t = .refresh p → ∀ sid, p.sidOf = some sid → Sid3 sid

theorem jobsFit_start (req : Nat → TokReq) {s : Store} (hn : NoEmpty s) : JobsFit (jobsAt req s) := by
  refine ⟨hn, fun t p h sid hs => ?_, fun t p h sid hs => ?_⟩ <;>
    (simp only [jobsAt, jobStart] at h; split at h <;> cases h; cases hs)

theorem good_two {u c : Str} (hu : GoodId u) (hc : GoodId c) : unpackSessionKey (sessionKey [u, c]) = [u, c] :=
  unpack_good ⟨by simp, by simp [hu, hc]⟩

theorem fit_step (m : Mode) (env : Env) (i : Nat → TokIn) (req : Nat → TokReq) {u c : Str} (hu : GoodId u) (hc : GoodId c) {x : Jobs} (h : JobsFit x)
    (ev : JobEv) (he : NamesGood [ev]) :
    JobsFit (jobStep m env i req x ev) ∧ (NoLoginAt u c [ev] → LoggedOut x.store u c → LoggedOut (jobStep m env i req x ev).store u c) := by
  have h2 : TwoPart (sessionKey [u, c]) := ⟨u, c, good_two hu hc⟩
  have same : ∀ s', NoEmpty s' → JobsFit { x with store := s' } := fun s' hn => ⟨hn, h.code, h.refresh⟩
  cases ev with
  | step t =>
    simp only [jobStep, jobPiece]
    cases hp : x.pc t with
    | code p =>
      obtain ⟨a, b⟩ := keeps_code m env (i t) (req t) h.noEmpty p (h.code t p hp)
      refine ⟨⟨a.2, fun t' p' h' => ?_, fun t' p' h' => ?_⟩, fun _ hl => a.1 _ h2 hl⟩
      · simp only at h'
        split at h'
        · cases h'; exact b
        · exact h.code t' p' h'
      · simp only at h'
        split at h'
        · cases h'
        · exact h.refresh t' p' h'
    | refresh p =>
      obtain ⟨a, b⟩ := keeps_refresh m env (i t) (req t) h.noEmpty p (h.refresh t p hp)
      refine ⟨⟨a.2, fun t' p' h' => ?_, fun t' p' h' => ?_⟩, fun _ hl => a.1 _ h2 hl⟩
      · simp only at h'
        split at h'
        · cases h'
        · exact h.code t' p' h'
      · simp only at h'
        split at h'
        · cases h'; exact b
        · exact h.refresh t' p' h'
  | revokeGrant sid =>
    have hs : Sid3 sid := he.1 sid (by simp)
    refine ⟨same _ (revokeGrant_later h.noEmpty hs).2, fun _ hl => ?_⟩
    show MarkedAt (revokeGrant x.store sid).1 _
    rcases revokeGrant_three h.noEmpty hs with e | ⟨o, _, e⟩
    · rw [e]; exact hl
    · rw [e]; exact marked_mgrSet _ h2 hs hl
  | revokeToken limit sid v r =>
    have key : KeepsMarks x.store (Verif.revokeToken m x.store limit sid v r).1 := by
      unfold Verif.revokeToken
      cases hf : findToken x.store sid v with
      | error e => exact ⟨fun _ _ h => h, h.noEmpty⟩
      | ok y =>
        obtain ⟨g, t⟩ := y
        cases t with
        | none => exact ⟨fun _ _ h => h, h.noEmpty⟩
        | some t =>
          cases m with
          | byValue => exact ⟨fun _ _ h => h, h.noEmpty⟩
          | aliased =>
            have hs : Sid3 sid := by
              unfold findToken at hf
              cases hu3 : unpack3 sid with
              | error e => simp [hu3] at hf
              | ok y =>
                obtain ⟨u', c', gi⟩ := y
                simp only [hu3] at hf
                cases hd : dbGet x.store [u', c', gi] with
                | error e => simp [hd] at hf
                | ok o => exact (read3 h.noEmpty hu3 hd).2
            exact ⟨fun k hk hm => marked_put _ hm (hk.ne hs), noEmpty_put h.noEmpty _ _⟩
    exact ⟨same _ key.2, fun _ hl => key.1 _ h2 hl⟩
  | logout sid =>
    refine ⟨same _ (logout_later h.noEmpty sid).2, fun _ hl => ?_⟩
    show MarkedAt (revokeClientSession x.store sid).1 _
    have go : ∀ u' c', MarkedAt (match dbGet x.store [u', c'] with
        | .error e => ((x.store, .error e) : Store × Except Exn Unit)
        | .ok (.grant _) => (x.store, .error .typeError)
        | .ok (.info i) => dbSet x.store [u', c'] (.info i.revoke)).1 (sessionKey [u, c]) := by
      intro u' c'
      cases hd : dbGet x.store [u', c'] with
      | error e => exact hl
      | ok o =>
        cases o with
        | grant g => exact hl
        | info j =>
          obtain ⟨hk, hp⟩ := dbGet_key h.noEmpty hd
          by_cases e : sessionKey [u, c] = sessionKey [u', c']
          · cases c' with
            | nil => exact hl
            | cons y l =>
              have h1 : MarkedAt (x.store.put (sessionKey [u', y :: l]) (.info j.revoke)) (sessionKey [u, c]) :=
                ⟨j.revoke, by simp [Store.put, e], rfl⟩
              have := marked_user (u := u') (c := y :: l) (.info j.revoke) h1
              simpa [dbSet, evalPath, truthy, dbSetClient] using this
          · exact marked_set _ _ hp hl e
    unfold revokeClientSession
    simp only
    split
    · exact go _ _
    · exact go _ _
    · exact hl
  | login sf now gid u' c' a =>
    obtain ⟨hg', hu', hc'⟩ := he.2 sf now gid u' c' a (by simp)
    have d1 : sessionKey [u, c] ≠ sessionKey [u'] := by
      intro e
      have := good_two hu hc
      rw [e, unpack_good ⟨by simp, by simp [hu']⟩] at this
      cases this
    have d2 : NoLoginAt u c [.login sf now gid u' c' a] → sessionKey [u, c] ≠ sessionKey [u', c'] := by
      intro hne e
      have := good_two hu hc
      rw [e, good_two hu' hc'] at this
      cases this; exact hne sf now gid a (by simp)
    have d3 : sessionKey [u, c] ≠ sessionKey [u', c', gid] := by
      intro e
      have := good_two hu hc
      rw [e, unpack_good ⟨by simp, by simp [hu', hc', hg']⟩] at this
      cases this
    have key : NoEmpty (createSession sf x.store now gid u' c' a).1 ∧
        (NoLoginAt u c [.login sf now gid u' c' a] → LoggedOut x.store u c → LoggedOut (createSession sf x.store now gid u' c' a).1 u c) := by
      have h1 : NoEmpty (ensureUser x.store u').1 ∧ (MarkedAt x.store (sessionKey [u, c]) → MarkedAt (ensureUser x.store u').1 (sessionKey [u, c])) := by
        unfold ensureUser
        split
        · exact ⟨h.noEmpty, id⟩
        · split
          · refine ⟨noEmpty_set h.noEmpty _ _ (by rintro _ _ _ _ ⟨⟩) ?_, fun hl => marked_set _ _ (by rintro _ _ _ _ ⟨⟩) hl d1⟩
            rintro i ⟨⟩; simp [SessInfo.user]
          · exact ⟨h.noEmpty, id⟩
      unfold createSession
      simp only [if_neg hc'.1]
      generalize ensureUser x.store u' = e at *
      obtain ⟨s1, r1⟩ := e
      cases r1 with
      | error e => exact ⟨h1.1, fun _ => h1.2⟩
      | ok _ =>
        have h2 : NoEmpty (dbSet s1 [u', c'] (.info (SessInfo.client c'))).1 ∧ (NoLoginAt u c [.login sf now gid u' c' a] → MarkedAt x.store (sessionKey [u, c]) →
            MarkedAt (dbSet s1 [u', c'] (.info (SessInfo.client c'))).1 (sessionKey [u, c])) := by
          refine ⟨noEmpty_set h1.1 _ _ (by rintro _ _ _ _ ⟨⟩) ?_, fun hne hl => marked_set _ _ (by rintro _ _ _ _ ⟨⟩) (h1.2 hl) (d2 hne)⟩
          rintro i ⟨⟩; simp [SessInfo.client]
        simp only
        generalize dbSet s1 [u', c'] (.info (SessInfo.client c')) = e at *
        obtain ⟨s2, r2⟩ := e
        cases r2 with
        | error e => exact h2
        | ok _ =>
          have hp : ∀ a b g' r, [u', c', gid] = a :: b :: g' :: r → g' ≠ [] := by rintro _ _ _ _ ⟨⟩; exact hg'.1
          simp only [createGrant]
          cases newGrant sf now gid u' a with
          | error e => exact h2
          | ok ng =>
            have h3 : NoEmpty (dbSet s2 [u', c', gid] (.grant ng)).1 ∧ (NoLoginAt u c [.login sf now gid u' c' a] → MarkedAt x.store (sessionKey [u, c]) →
                MarkedAt (dbSet s2 [u', c', gid] (.grant ng)).1 (sessionKey [u, c])) :=
              ⟨noEmpty_set h2.1 _ _ hp (by rintro i ⟨⟩), fun hne hl => marked_set _ _ hp (h2.2 hne hl) d3⟩
            simp only
            generalize dbSet s2 [u', c', gid] (.grant ng) = e at *
            obtain ⟨s3, r3⟩ := e
            cases r3 <;> exact h3
    exact ⟨same _ key.1, key.2⟩

theorem fit_run (m : Mode) (env : Env) (i : Nat → TokIn) (req : Nat → TokReq) {u c : Str} (hu : GoodId u) (hc : GoodId c) (evs : List JobEv)
    {x : Jobs} (h : JobsFit x) (he : NamesGood evs) :
    JobsFit (jobRun m env i req x evs) ∧ (NoLoginAt u c evs → LoggedOut x.store u c → LoggedOut (jobRun m env i req x evs).store u c) := by
  induction evs generalizing x with
  | nil => exact ⟨h, fun _ => id⟩
  | cons ev evs ih =>
    obtain ⟨a, b⟩ := fit_step m env i req hu hc h ev
      ⟨fun sid hs => he.1 sid (by simp only [List.mem_singleton] at hs; simp [hs]),
        fun sf now gid u' c' a hs => he.2 sf now gid u' c' a (by simp only [List.mem_singleton] at hs; simp [hs])⟩
    obtain ⟨a', b'⟩ := ih a ⟨fun sid hs => he.1 sid (by simp [hs]), fun sf now gid u' c' a hs => he.2 sf now gid u' c' a (by simp [hs])⟩
    refine ⟨a', fun hne hl => b' (fun sf now gid a hs => hne sf now gid a (by simp [hs])) (b (fun sf now gid a hs => hne sf now gid a ?_) hl)⟩
    simp only [List.mem_singleton] at hs
    simp [hs]

/-- The logout itself marks the session. -/
theorem logout_marks {s : Store} {u c g : Str} (hu : GoodId u) (hc : GoodId c) (hg : GoodId g) {j : SessInfo} (hj : dbGet s [u, c] = .ok (.info j)) :
    LoggedOut (revokeClientSession s (sessionKey [u, c, g])).1 u c := by
  unfold revokeClientSession
  rw [unpack_good ⟨by simp, by simp [hu, hc, hg]⟩]
  simp only [hj]
  cases c with
  | nil => exact absurd rfl hc.1
  | cons y l =>
    have h1 : MarkedAt (s.put (sessionKey [u, y :: l]) (.info j.revoke)) (sessionKey [u, y :: l]) := ⟨j.revoke, by simp [Store.put], rfl⟩
    have := marked_user (u := u) (c := y :: l) (.info j.revoke) h1
    show MarkedAt _ _
    simpa [dbSet, evalPath, truthy, dbSetClient] using this

/-- C176: the user logs out of a client where there is a session.  However many threads serve token requests at that time, however they are
interrupted, whatever is revoked and whoever else logs in or out, and whether the back end keeps objects or copies: the session is marked as
revoked, and stays so until the user logs in at that client again. -/
theorem C176_logout_is_not_undone (m : Mode) (env : Env) (i : Nat → TokIn) (req : Nat → TokReq) (s : Store) (hn : NoEmpty s)
    (u c g : Str) (hu : GoodId u) (hc : GoodId c) (hg : GoodId g) (before after : List JobEv) (hb : NamesGood before) (ha : NamesGood after)
    (hj : ∃ j, dbGet (jobRun m env i req (jobsAt req s) before).store [u, c] = .ok (.info j)) (hl : NoLoginAt u c after) :
    LoggedOut (jobRun m env i req (jobsAt req s) (before ++ .logout (sessionKey [u, c, g]) :: after)).store u c := by
  obtain ⟨h1, _⟩ := fit_run m env i req hu hc before (jobsFit_start req hn) hb
  obtain ⟨j, hj⟩ := hj
  have h2 := fit_step m env i req hu hc h1 (.logout (sessionKey [u, c, g])) ⟨by intro _ h; simp at h, by intro _ _ _ _ _ _ h; simp at h⟩
  rw [jobRun_append]
  exact (fit_run m env i req hu hc after h2.1 ha).2 hl (logout_marks hu hc hg hj)

/-- A login at that client: the mark is gone (the session record is a new one). -/
def loginAgain : List JobEv := [.login demoEnv.sf 3 c!"g2" c!"diana" c!"c1" { authReq := demoReq [c!"code"] }]

/-- Is the session marked? -/
def loggedOutB (s : Store) (u c : Str) : Bool := match s (sessionKey [u, c]) with
  | some (.info i) => i.revoked
  | _ => false

/-- Is there a session? -/
def sessionThere (s : Store) (u c : Str) : Bool := match dbGet s [u, c] with
  | .ok (.info _) => true
  | _ => false

/-- Two threads are in the middle of a refresh when the user logs out. -/
def logoutRace : List JobEv := [.step 0, .step 1, .step 0, .logout c!"diana;;c1;;g1", .step 0, .step 1, .step 1]

set_option maxRecDepth 16000 in
/-- The hypotheses of the theorem are met; the threads answer; a new login removes the mark. -/
example : ∀ m, sessionThere (raceRun m (logoutRace.take 3)).store c!"diana" c!"c1" = true ∧
    loggedOutB (raceRun m (logoutRace.take 3)).store c!"diana" c!"c1" = false ∧
    loggedOutB (raceRun m logoutRace).store c!"diana" c!"c1" = true ∧
    answerTokens ((raceRun m logoutRace).pc 1) = [demoRt 3 c!"n9", demoRt 3 c!"n10"] ∧
    loggedOutB (raceRun m (logoutRace ++ loginAgain)).store c!"diana" c!"c1" = false := by
  intro m
  cases m <;> refine ⟨by decide +kernel, by decide +kernel, by decide +kernel, by decide +kernel, by decide +kernel⟩

example : NamesGood logoutRace ∧ NoLoginAt c!"diana" c!"c1" logoutRace := by
  refine ⟨⟨?_, ?_⟩, ?_⟩
  · intro sid h; simp [logoutRace] at h
  · intro sf now gid u c a h; simp [logoutRace] at h
  · intro sf now gid a h; simp [logoutRace] at h

end Verif
