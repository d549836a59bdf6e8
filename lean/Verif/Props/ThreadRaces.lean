import Verif.Model.ManyThreads
import Verif.Props.Threads
import Verif.Props.Work
set_option linter.unusedSimpArgs false
set_option linter.unusedVariables false
/-! Threads that work on sessions of the same user (C168, C170). -/
namespace Verif
open Spec

/-! ### Two first logins -/

/-- `diana` logs in at `c1` and at `c2`, at the same time. -/
def twoLogins : Nat → Work
  | 0 => .authorize demoDb 1 c!"g1" (mintIn c!"n1") (mintIn c!"n2") (.val c!"IDT") { ident := .plain c!"diana" } (demoReq [c!"code"])
  | _ => .authorize demoDb 1 c!"g2" (mintIn c!"m1") (mintIn c!"m2") (.val c!"IDT") { ident := .plain c!"diana" }
      { demoReq [c!"code"] with clientId := c!"c2", redirectUri := some c!"https://rp2/cb" }

/-- Thread 1 has found that there is no record for the user; then thread 0 is served; then thread 1 goes on. -/
def loginRace : List Nat := 1 :: List.replicate 60 0 ++ List.replicate 60 1

/-- The storage after that. -/
def racedLogins : Threads WorkOut := (workers demoWork Store.empty twoLogins).run loginRace

set_option maxRecDepth 32000 in
/-- C168 is false of the code: the two first logins of a user at the same time both succeed, but one of the sessions is lost: the
client's code is not redeemed.  Served in turn, in either order, it is. -/
theorem C168_login_lost :
    gotCode (racedLogins.prog 0) = true ∧ gotCode (racedLogins.prog 1) = true ∧
    (∀ r, (tokenEndpoint .byValue demoEnv demoHelpers racedLogins.store (tokIn 2 c!"n3" c!"n4") demoTokReq).2 ≠ .val r) ∧
    (∃ r, (tokenEndpoint .byValue demoEnv demoHelpers (serve demoWork (serve demoWork Store.empty (twoLogins 0)).1 (twoLogins 1)).1
      (tokIn 2 c!"n3" c!"n4") demoTokReq).2 = .val r) ∧
    (∃ r, (tokenEndpoint .byValue demoEnv demoHelpers (serve demoWork (serve demoWork Store.empty (twoLogins 1)).1 (twoLogins 0)).1
      (tokIn 2 c!"n3" c!"n4") demoTokReq).2 = .val r) := by
  have key : ∀ o : Out TokResp, (∃ r, o = .val r) ↔ isVal o = true := by
    intro o; cases o <;> simp [isVal]
  have key' : ∀ o : Out TokResp, (∀ r, o ≠ .val r) ↔ isVal o = false := by
    intro o; cases o <;> simp [isVal]
  rw [key, key, key']
  refine ⟨by decide, by decide, by decide, by decide, by decide⟩

/-- The rest of `create_session` for a thread that has found no record for the user. -/
def afterMissing (sf : SubFuncs) (now : Int) (gid u c : Str) (a : SessArgs) : Prog (Except Exn Str) :=
  match createSessionP sf now gid u c a with
  | .read _ f => f none
  | p => p

/-- For all users, clients and storages: once a thread has found that there is no record for the user, whatever sessions of that user
other threads store at other clients before it goes on cannot be found any more when it is through. -/
theorem C168_others_hidden (sf : SubFuncs) (now : Int) (gid u c : Str) (a : SessArgs) (s : Store) (hu : GoodId u) (hc : GoodId c) (hg : GoodId gid)
    (c' : Str) (r : List Str) (hne : c' ≠ c) :
    dbGet ((afterMissing sf now gid u c a).run s).1 (u :: c' :: r) = .error .valueError := by
  have hcn : c ≠ [] := by obtain ⟨x, l, rfl⟩ := goodId_cons hc; simp
  have e : (afterMissing sf now gid u c a).run s =
      (match dbSet s [u] (.info (SessInfo.user u)) with
       | (s1, .error e) => (s1, .error e)
       | (s1, .ok ()) => match dbSet s1 [u, c] (.info (SessInfo.client c)) with
         | (s2, .error e) => (s2, .error e)
         | (s2, .ok ()) => createGrant sf s2 now gid u c a) := by
    unfold afterMissing createSessionP ensureUserP getP
    simp only [evalPath, Prog.bind, run_bind, Exn.isKeyError, if_neg hcn, setP_run, createGrantP_run, if_true]
    rw [dbSet1]
    simp only [run_bind, setP_run]
    generalize dbSet (s.put (sessionKey [u]) (.info (SessInfo.user u))) [u, c] (.info (SessInfo.client c)) = w
    obtain ⟨w1, w2⟩ := w
    cases w2 <;> simp [run_ret, createGrantP_run]
  have g1 := goodPath_one hu
  have fin : ∀ s' : Store, (∃ i : SessInfo, s'.at [u] = some (.info i) ∧ i.subordinate = [c]) → dbGet s' (u :: c' :: r) = .error .valueError := by
    rintro s' ⟨i, h1, h2⟩
    have h3 : s' u = some (.info i) := h1
    cases r with
    | nil => simp [dbGet, evalPath, h3, Obj.subordinate, h2, hne]
    | cons g r => simp [dbGet, evalPath, h3, Obj.subordinate, h2, hne]
  rw [e, dbSet1]
  simp only
  have a1 : (s.put (sessionKey [u]) (.info (SessInfo.user u))).at [u] = some (.info (SessInfo.user u)) := by
    rw [put_at _ _ g1 g1, if_pos rfl]
  obtain ⟨s2, h2, h2'⟩ := dbSet2 (s.put (sessionKey [u]) (.info (SessInfo.user u))) (.info (SessInfo.client c)) hu hc (by
    intro g; rw [a1]; simp)
  rw [h2]
  simp only
  have a2 : s2.at [u] = some (.info ((SessInfo.user u).addSubordinate c)) := by
    rw [h2' _ g1, if_neg (by simp), if_pos rfl]
    unfold userOr; rw [a1]
  have a2c : s2.at [u, c] = some (.info (SessInfo.client c)) := by
    rw [h2' _ (goodPath_two hu hc), if_pos rfl]
  have one : ((SessInfo.user u).addSubordinate c).subordinate = [c] := by simp [SessInfo.user, SessInfo.addSubordinate]
  unfold createGrant
  split
  · exact fin _ ⟨_, a2, one⟩
  · rename_i gr _
    obtain ⟨s3, h3, h3'⟩ := dbSet3 s2 (.grant gr) hu hc hg (by intro g; rw [a2]; simp) (by intro g; rw [a2c]; simp)
    rw [h3]
    refine fin _ ⟨((SessInfo.user u).addSubordinate c).addSubordinate c, ?_, ?_⟩
    · dsimp only
      rw [h3' _ g1, if_neg (by simp), if_neg (by simp), if_pos rfl]
      unfold userOr; rw [a2]
    · simp [SessInfo.user, SessInfo.addSubordinate]

/-! ### Revocation while token requests are served -/

/-- The grant with this session id is revoked. -/
def Spec.RevokedAt (s : Store) (sid : Str) : Prop := ∃ g : Grant, s sid = some (.grant g) ∧ g.revoked = true

/-- The session whose grant a thread is working on. -/
def ThPc.sidOf : ThPc → Option Str
  | .start => none
  | .looked sid .. => some sid
  | .mintedA sid .. => some sid
  | .mintedR sid .. => some sid
  | .done _ => none

/-- A grant that is stored is overwritten only by what is stored under its own key. -/
theorem mgrSet_keeps {s : Store} {k sid : Str} {g : Grant} (v : Obj) (hs : Sid3 sid) (hk : s k = some (.grant g)) (hne : k ≠ sid) :
    (mgrSet s sid v).1 k = some (.grant g) := by
  obtain ⟨u, c, gi, h1, h2⟩ := hs
  have h3 := session_key_unpack sid
  rw [h1] at h3
  have htg : truthy (some gi) = true := by
    cases gi with
    | nil => exact absurd rfl h2
    | cons a b => rfl
  unfold mgrSet
  rw [h1]
  have h0 : (s.put (sessionKey [u, c, gi]) v) k = some (.grant g) := by
    unfold Store.put; rw [h3, if_neg hne]; exact hk
  have hcl : ∀ (s1 : Store) c, s1 k = some (.grant g) → (dbSetClient s1 u c (some gi) v).1 k = some (.grant g) := by
    intro s1 c h
    obtain ⟨x, l, rfl⟩ : ∃ x l, gi = x :: l := by
      cases gi with
      | nil => exact absurd rfl h2
      | cons x l => exact ⟨x, l, rfl⟩
    unfold dbSetClient
    simp only
    split
    · rename_i hn
      have : k ≠ sessionKey [u, c] := by rintro rfl; rw [h] at hn; cases hn
      simpa [Store.put, this] using h
    · exact h
    · rename_i i hn
      have : k ≠ sessionKey [u, c] := by rintro rfl; rw [h] at hn; cases hn
      split
      · exact h
      · simpa [Store.put, this] using h
  have husr : ∀ (s1 : Store) c, s1 k = some (.grant g) → (dbSetUser s1 u (some c) v).1 k = some (.grant g) := by
    intro s1 c h
    unfold dbSetUser
    cases c with
    | nil => exact h
    | cons x l =>
      simp only
      split
      · rename_i hn
        have : k ≠ u := by rintro rfl; rw [h] at hn; cases hn
        simpa [Store.put, this] using h
      · exact h
      · rename_i i hn
        have : k ≠ u := by rintro rfl; rw [h] at hn; cases hn
        split
        · exact h
        · simpa [Store.put, this] using h
  unfold dbSet
  simp only [evalPath, htg, if_true, Option.getD_some]
  by_cases hc : truthy (some c) = true
  · simp only [hc, if_true]
    have h4 := hcl _ c h0
    split
    · exact h4
    · exact husr _ c h4
  · simp only [hc, if_false]
    exact husr _ c h0

theorem mgrSet_noEmpty {s : Store} (hn : NoEmpty s) {sid : Str} (hs : Sid3 sid) (g : Grant) : NoEmpty (mgrSet s sid (.grant g)).1 := by
  refine noEmpty_of_writes (fun k o h => ?_) hn
  obtain ⟨u, c, gi, h1, h2⟩ := hs
  rcases dbSet_writes s _ _ (by rintro u' c' g' r h4; rw [h1] at h4; cases h4; exact h2) (by intro _ i h; cases h) k o h with h | ⟨_, h⟩ | h
  · exact Or.inl h
  · exact Or.inr (Or.inr ⟨g, h⟩)
  · exact Or.inr (Or.inl h)

/-- What holds of the storage and the threads all the time. -/
structure ManyOk (x : Many) : Prop where
  noEmpty : NoEmpty x.store
  sids : ∀ t sid, (x.pc t).sidOf = some sid → Sid3 sid

/-- A piece of a thread stores nothing, or one grant, in the session it works on; and what it does not store it has not made. -/
theorem thStep_spec (m : Mode) (env : Env) (i : TokIn) (req : TokReq) (s : Store) (hn : NoEmpty s) (pc : ThPc)
    (hs : ∀ sid, pc.sidOf = some sid → Sid3 sid) :
    (∀ sid, (thStep m env i req s pc).2.sidOf = some sid → Sid3 sid) ∧
    ((thStep m env i req s pc).1 = s ∨ ∃ sid g, pc.sidOf = some sid ∧ (thStep m env i req s pc).1 = (mgrSet s sid (.grant g)).1 ∧
      (m = .aliased → ∀ g0 : Grant, s sid = some (.grant g0) → g0.revoked = true → g.revoked = true)) := by
  have minted : ∀ h now mi sid tt (g : Grant) b, (mintAndStore env h s now mi sid tt g b).1 = s ∨
      (mintAndStore env h s now mi sid tt g b).1 = (mgrSet s sid (.grant (mintAndStore env h s now mi sid tt g b).2.1)).1 ∧ g.isActive now = true := by
    intro h now mi sid tt g b
    rcases mintAndStore_spec env h s now mi sid tt g b with ⟨h1, _⟩ | ⟨v, t, _, h2, _, _, _, _, _, _, _, _, _, _, _, h3, _⟩
    · exact Or.inl h1
    · exact Or.inr ⟨h3, h2⟩
  have inactive : ∀ (g : Grant) now, g.revoked = true → g.isActive now = true → False := by
    intro g now h1 h2
    simp [Grant.isActive, Item.isActive, h1] at h2
  have seenIs : ∀ sid (g0 g1 : Grant), m = .aliased → s sid = some (.grant g1) → seen m s sid g0 = g1 := by
    rintro sid g0 g1 rfl h
    simp [seen, h]
  cases pc with
  | done o => exact ⟨hs, Or.inl rfl⟩
  | start =>
    refine ⟨fun sid h => ?_, Or.inl ?_⟩
    · simp only [thStep] at h
      repeat' split at h
      all_goals first
        | (cases h; done)
        | skip
      simp only [ThPc.sidOf, Option.some.injEq] at h
      subst h
      exact (sessionByToken_key hn (by assumption)).2.2
    · simp only [thStep]
      repeat' split
      all_goals rfl
  | looked sid g0 code ar want =>
    have h3 := hs sid rfl
    simp only [thStep]
    refine ⟨fun sid' h => ?_, ?_⟩
    · split at h
      · cases h
      · cases h; exact h3
    · have := minted env.th.accessToken i.now i.ma sid tAccessToken (seen m s sid g0) ((seen m s sid g0).getToken code)
      have ha' : ∀ g1 : Grant, m = .aliased → s sid = some (.grant g1) → g1.revoked = true → (seen m s sid g0).isActive i.now = true → False := by
        intro g1 hm h1 hr ha
        rw [seenIs sid g0 g1 hm h1] at ha
        exact inactive _ _ hr ha
      generalize mintAndStore env env.th.accessToken s i.now i.ma sid tAccessToken (seen m s sid g0) ((seen m s sid g0).getToken code) = M at *
      have fin : M.1 = s ∨ ∃ sid' g, (ThPc.looked sid g0 code ar want).sidOf = some sid' ∧ M.1 = (mgrSet s sid' (.grant g)).1 ∧
          (m = .aliased → ∀ g0 : Grant, s sid' = some (.grant g0) → g0.revoked = true → g.revoked = true) := by
        rcases this with h | ⟨h, ha⟩
        · exact Or.inl h
        · exact Or.inr ⟨sid, _, rfl, h, fun hm g1 h1 hr => (ha' g1 hm h1 hr ha).elim⟩
      obtain ⟨m1, m2, m3⟩ := M
      cases m3 <;> exact fin
  | mintedA sid g0 code ar want tok =>
    have h3 := hs sid rfl
    simp only [thStep]
    refine ⟨fun sid' h => ?_, ?_⟩
    · split at h
      · cases h
      · cases h; exact h3
    · have fin : (refreshPart env s i sid (seen m s sid g0) ((seen m s sid g0).getToken code) want).1 = s ∨
          ∃ sid' g, (ThPc.mintedA sid g0 code ar want tok).sidOf = some sid' ∧
          (refreshPart env s i sid (seen m s sid g0) ((seen m s sid g0).getToken code) want).1 = (mgrSet s sid' (.grant g)).1 ∧
          (m = .aliased → ∀ g0 : Grant, s sid' = some (.grant g0) → g0.revoked = true → g.revoked = true) := by
        unfold refreshPart
        split
        · have := minted env.th.accessToken i.now i.mr sid tRefreshToken (seen m s sid g0) ((seen m s sid g0).getToken code)
          rcases this with h | ⟨h, ha⟩
          · exact Or.inl h
          · refine Or.inr ⟨sid, _, rfl, h, fun hm g1 h1 hr => ?_⟩
            rw [seenIs sid g0 g1 hm h1] at ha
            exact (inactive _ _ hr ha).elim
        · exact Or.inl rfl
      generalize refreshPart env s i sid (seen m s sid g0) ((seen m s sid g0).getToken code) want = M at *
      obtain ⟨m1, m2, m3⟩ := M
      cases m3 <;> exact fin
  | mintedR sid g0 code ar tok rt =>
    simp only [thStep]
    refine ⟨fun sid' h => ?_, ?_⟩
    · cases h
    · unfold finishCode
      split
      · exact Or.inl rfl
      · rename_i b _
        have e : (mgrSet s sid (.grant ((seen m s sid g0).registerUsage b.value))).1 = (mgrSet s sid (.grant ((seen m s sid g0).registerUsage b.value))).1 := rfl
        refine Or.inr ⟨sid, (seen m s sid g0).registerUsage b.value, rfl, ?_, fun hm g1 h1 hr => ?_⟩
        · simp only
          repeat' split
          all_goals rfl
        · rw [seenIs sid g0 g1 hm h1]
          exact hr

theorem revokeGrant_three {s : Store} (hn : NoEmpty s) {sid : Str} (hs : Sid3 sid) :
    (revokeGrant s sid).1 = s ∨ ∃ o : Obj, s sid = some o ∧ (revokeGrant s sid).1 = (mgrSet s sid o.revoke).1 := by
  unfold revokeGrant
  cases h : dbGet s (unpackSessionKey sid) with
  | error e => exact Or.inl rfl
  | ok o =>
    obtain ⟨u, c, g, h1, h2⟩ := hs
    have h3 := session_key_unpack sid
    have := (dbGet_key hn h).1
    rw [h1] at this h3
    rw [show [u, c, g].take 3 = [u, c, g] from rfl, h3] at this
    exact Or.inr ⟨o, this, rfl⟩

/-- Revocations are of grants: session ids with three parts. -/
def Spec.RevokesGrants (evs : List ManyEv) : Prop := ∀ sid, ManyEv.revoke sid ∈ evs → Sid3 sid

theorem many_ok_step (m : Mode) (env : Env) (i : Nat → TokIn) (req : Nat → TokReq) {x : Many} (h : ManyOk x) (ev : ManyEv)
    (hr : ∀ sid, ev = .revoke sid → Sid3 sid) : ManyOk (manyStep m env i req x ev) := by
  cases ev with
  | step t =>
    obtain ⟨h1, h2⟩ := thStep_spec m env (i t) (req t) x.store h.noEmpty (x.pc t) (h.sids t)
    refine ⟨?_, fun t' sid hs => ?_⟩
    · simp only [manyStep]
      rcases h2 with h2 | ⟨sid, g, h3, h2, _⟩
      · rw [h2]; exact h.noEmpty
      · rw [h2]; exact mgrSet_noEmpty h.noEmpty (h.sids t sid h3) g
    · simp only [manyStep] at hs
      split at hs
      · exact h1 sid hs
      · exact h.sids t' sid hs
  | revoke sid =>
    refine ⟨?_, h.sids⟩
    simp only [manyStep]
    have h3 := hr sid rfl
    rcases revokeGrant_three h.noEmpty h3 with e | ⟨o, ho, e⟩
    · rw [e]; exact h.noEmpty
    · rw [e]
      cases o with
      | grant g => exact mgrSet_noEmpty h.noEmpty h3 _
      | info j =>
        refine noEmpty_of_writes (fun k o h' => ?_) h.noEmpty
        obtain ⟨u, c, gi, h1, h2⟩ := h3
        have hj : NoEmpty x.store → ∀ j', Obj.revoke (.info j) = .info j' → [] ∉ j'.subordinate := by
          intro hn j' e
          cases e
          exact hn sid j ho
        rcases dbSet_writes x.store _ _ (by rintro u' c' g' r h4; rw [h1] at h4; cases h4; exact h2) hj k o h' with h | ⟨_, h⟩ | h
        · exact Or.inl h
        · exact Or.inr (Or.inl ⟨_, h, fun hn => hj hn _ rfl⟩)
        · exact Or.inr (Or.inl h)

theorem revoked_step (env : Env) (i : Nat → TokIn) (req : Nat → TokReq) {x : Many} (h : ManyOk x) (ev : ManyEv)
    (hr : ∀ sid, ev = .revoke sid → Sid3 sid) {sid : Str} (hd : RevokedAt x.store sid) :
    RevokedAt (manyStep .aliased env i req x ev).store sid := by
  obtain ⟨g0, h0, hrev⟩ := hd
  cases ev with
  | step t =>
    obtain ⟨_, h2⟩ := thStep_spec .aliased env (i t) (req t) x.store h.noEmpty (x.pc t) (h.sids t)
    simp only [manyStep]
    rcases h2 with h2 | ⟨sid', g, h3, h2, h4⟩
    · rw [h2]; exact ⟨g0, h0, hrev⟩
    · rw [h2]
      have h5 := h.sids t sid' h3
      by_cases e : sid = sid'
      · subst e
        exact ⟨g, mgrSet_own _ _ h5 _, h4 rfl g0 h0 hrev⟩
      · exact ⟨g0, mgrSet_keeps _ h5 h0 e, hrev⟩
  | revoke sid' =>
    simp only [manyStep]
    have h3 := hr sid' rfl
    rcases revokeGrant_three h.noEmpty h3 with e | ⟨o, ho, e⟩
    · rw [e]; exact ⟨g0, h0, hrev⟩
    · rw [e]
      by_cases e : sid = sid'
      · subst e
        rw [h0] at ho
        cases ho
        exact ⟨g0.revoke, mgrSet_own _ _ h3 _, rfl⟩
      · exact ⟨g0, mgrSet_keeps _ h3 h0 e, hrev⟩

theorem many_run_snoc (m : Mode) (env : Env) (i : Nat → TokIn) (req : Nat → TokReq) (s : Store) (evs : List ManyEv) (ev : ManyEv) :
    manyRun m env i req s (evs ++ [ev]) = manyStep m env i req (manyRun m env i req s evs) ev := by
  unfold manyRun; rw [List.foldl_append]; rfl

theorem many_ok (m : Mode) (env : Env) (i : Nat → TokIn) (req : Nat → TokReq) {s : Store} (hn : NoEmpty s) (evs : List ManyEv)
    (hr : RevokesGrants evs) : ManyOk (manyRun m env i req s evs) := by
  have key : ∀ l : List ManyEv, RevokesGrants l.reverse → ManyOk (manyRun m env i req s l.reverse) := by
    intro l
    induction l with
    | nil => intro _; exact ⟨hn, fun t sid h => by cases h⟩
    | cons ev l ih =>
      intro hr
      rw [List.reverse_cons] at hr ⊢
      rw [many_run_snoc]
      exact many_ok_step m env i req (ih fun sid h => hr sid (List.mem_append_left _ h)) ev (fun sid e => hr sid (by simp [e]))
  have := key evs.reverse
  rw [List.reverse_reverse] at this
  exact this hr

/-- With a back end that keeps objects: a revoked grant stays revoked, however many token requests are being served when it is
revoked, and however their threads are interrupted. -/
theorem C170_stays_revoked_partial (env : Env) (i : Nat → TokIn) (req : Nat → TokReq) (s : Store) (hn : NoEmpty s) (evs more : List ManyEv)
    (hr : RevokesGrants (evs ++ more)) (sid : Str) (h : RevokedAt (manyRun .aliased env i req s evs).store sid) :
    RevokedAt (manyRun .aliased env i req s (evs ++ more)).store sid := by
  have key : ∀ l : List ManyEv, RevokesGrants (evs ++ l.reverse) → RevokedAt (manyRun .aliased env i req s (evs ++ l.reverse)).store sid := by
    intro l
    induction l with
    | nil => intro _; simpa using h
    | cons ev l ih =>
      intro hr
      rw [List.reverse_cons, ← List.append_assoc] at hr ⊢
      rw [many_run_snoc]
      have hr' : RevokesGrants (evs ++ l.reverse) := fun sid h => hr sid (List.mem_append_left _ h)
      exact revoked_step env i req (many_ok .aliased env i req hn _ hr') ev (fun sid e => hr sid (by simp [e])) (ih hr')
  have := key more.reverse
  rw [List.reverse_reverse] at this
  exact this hr

/-- And a thread that has found the grant, but made no token when it is revoked, makes none. -/
theorem C170_no_token_afterwards_partial (env : Env) (i : Nat → TokIn) (req : Nat → TokReq) (s : Store) (hn : NoEmpty s) (evs more : List ManyEv)
    (hr : RevokesGrants (evs ++ more)) (sid : Str) (h : RevokedAt (manyRun .aliased env i req s evs).store sid)
    (t : Nat) (g : Grant) (code : Str) (ar : AuthReq) (want : Bool) (hpc : (manyRun .aliased env i req s evs).pc t = .looked sid g code ar want) :
    ((manyRun .aliased env i req s (evs ++ more)).pc t).token = none := by
  have key : ∀ l : List ManyEv, RevokesGrants (evs ++ l.reverse) →
      (manyRun .aliased env i req s (evs ++ l.reverse)).pc t = .looked sid g code ar want ∨
      ∃ e, (manyRun .aliased env i req s (evs ++ l.reverse)).pc t = .done (.raise e) := by
    intro l
    induction l with
    | nil => intro _; left; simpa using hpc
    | cons ev l ih =>
      intro hr
      rw [List.reverse_cons, ← List.append_assoc] at hr ⊢
      rw [many_run_snoc]
      have hr' : RevokesGrants (evs ++ l.reverse) := fun sid h => hr sid (List.mem_append_left _ h)
      obtain ⟨g0, h0, hrev⟩ := C170_stays_revoked_partial env i req s hn evs l.reverse hr' sid h
      have := ih hr'
      generalize manyRun .aliased env i req s (evs ++ l.reverse) = x at *
      cases ev with
      | revoke sid' => exact this
      | step t' =>
        simp only [manyStep]
        split
        · rename_i e
          subst e
          rcases this with h1 | ⟨e, h1⟩
          · right
            rw [h1]
            simp only [thStep, seen, h0]
            rcases mintAndStore_spec env env.th.accessToken x.store (i t).now (i t).ma sid tAccessToken g0 (g0.getToken code) with
              ⟨_, _, e, he⟩ | ⟨v, tk, _, ha, _⟩
            · rw [he]; exact ⟨e, rfl⟩
            · simp [Grant.isActive, Item.isActive, hrev] at ha
          · right; rw [h1]; exact ⟨e, rfl⟩
        · exact this
  have := key more.reverse
  rw [List.reverse_reverse] at this
  rcases this hr with h1 | ⟨e, h1⟩ <;> rw [h1] <;> rfl

/-- The demo code is looked up; then the grant is revoked; then the thread goes on. -/
def revokeRace : List ManyEv := [.step 0, .revoke c!"diana;;c1;;g1", .step 0, .step 0, .step 0]

/-- Is the grant active? -/
def activeIn (s : Store) (sid : Str) (now : Int) : Bool := match getGrant s sid with
  | .ok g => g.isActive now
  | .error _ => false

set_option maxRecDepth 8000 in
/-- C170 is false of the code with a back end that stores copies: the thread writes its copy of the grant back, so that the grant is
active again, and the client has working tokens. -/
theorem C170_revocation_undone :
    let x := manyRun .byValue demoEnv (fun _ => tokIn 2 c!"n3" c!"n4") (fun _ => demoTokReq) racedStore
    activeIn (x (revokeRace.take 2)).store c!"diana;;c1;;g1" 2 = false ∧
    activeIn (x revokeRace).store c!"diana;;c1;;g1" 2 = true ∧
    ∃ v, ((x revokeRace).pc 0).token = some v ∧ isVal (userinfoProcess demoEnv demoUsers (x revokeRace).store 3 v) = true := by
  refine ⟨by decide, by decide, demoRt 2 c!"n3", by decide, by decide⟩

set_option maxRecDepth 8000 in
/-- The same schedule with a back end that keeps objects: the hypotheses of the theorems are met, and the thread raises. -/
example : let x := manyRun .aliased demoEnv (fun _ => tokIn 2 c!"n3" c!"n4") (fun _ => demoTokReq) racedStore
    activeIn (x (revokeRace.take 2)).store c!"diana;;c1;;g1" 2 = false ∧ activeIn (x revokeRace).store c!"diana;;c1;;g1" 2 = false ∧
    ((x revokeRace).pc 0).token = none := by decide

/-- Storages that a provider's history leads to have no empty names in them; and the revocation is of a grant. -/
example : NoEmpty racedStore ∧ RevokesGrants revokeRace := by
  refine ⟨(sysRun_inv (demoCfg .byValue) demoOps demoOps_fresh demoEnv_blankFree 1).noEmpty, ?_⟩
  intro sid h
  simp only [revokeRace, List.mem_cons, ManyEv.revoke.injEq, reduceCtorEq, false_or, List.not_mem_nil, or_false] at h
  subst h
  exact ⟨c!"diana", c!"c1", c!"g1", by decide, by decide⟩

end Verif
