import Verif.Lemmas.WebTree
import Verif.Lemmas.StoreFrame
import Verif.Props.Store
import Verif.Lemmas.WebFrame
set_option linter.unusedSimpArgs false
set_option linter.unusedVariables false
/-! What is done for one client leaves the sessions of the other clients of the same user as they are. -/
namespace Verif
open Spec

/-- Everything of user `u` at client `c` is the same in both storages. -/
structure ClientKept (u c : Str) (s s' : Store) : Prop where
  listed : Listed s' u c ↔ Listed s u c
  same : ∀ q, GoodPath q → [u, c] <+: q → s'.at q = s.at q

theorem ClientKept.refl (u c : Str) (s : Store) : ClientKept u c s s := ⟨Iff.rfl, fun _ _ _ => rfl⟩

theorem ClientKept.trans {u c : Str} {s s' s'' : Store} (h : ClientKept u c s s') (k : ClientKept u c s' s'') : ClientKept u c s s'' :=
  ⟨k.listed.trans h.listed, fun q a b => (k.same q a b).trans (h.same q a b)⟩

theorem ClientKept.of_elsewhere {u c u' c' : Str} {s s' : Store} (hu : GoodId u) (h : SameElsewhere s s' u' c') (hne : ¬ (u' = u ∧ c' = c)) :
    ClientKept u c s s' := by
  constructor
  · by_cases e : u' = u
    · subst e; exact h.listed c (fun e => hne ⟨rfl, e.symm⟩)
    · unfold Listed
      rw [h.same [u] (goodPath_one hu) (by simpa using fun x => e x.symm) (by simp [List.cons_prefix_cons])]
  · rintro q hq ⟨r, rfl⟩
    refine h.same _ hq (by simp) ?_
    rw [show ([u, c] ++ r) = u :: c :: r from rfl, prefix2]
    exact hne

/-- What can be read of user `u` at client `c`. -/
theorem ClientKept.read {u c : Str} {s s' : Store} (h : ClientKept u c s s') (hu : GoodId u) (hc : GoodId c) (o : Obj) :
    dbGet s' [u, c] = .ok o ↔ dbGet s [u, c] = .ok o := by
  rw [dbGet2', dbGet2', h.listed, h.same _ (goodPath_two hu hc) (List.prefix_refl _)]

theorem ClientKept.read3 {u c g : Str} {s s' : Store} (h : ClientKept u c s s') (hu : GoodId u) (hc : GoodId c) (hg : GoodId g) (o : Obj) :
    dbGet s' [u, c, g] = .ok o ↔ dbGet s [u, c, g] = .ok o := by
  rw [dbGet3', dbGet3', h.listed, h.same _ (goodPath_two hu hc) (List.prefix_refl _),
    h.same [u, c, g] (goodPath_three hu hc hg) (by simp [List.cons_prefix_cons])]

/-- A session id of another user or another client. -/
def ElseSid (u c sid : Str) : Prop := ∃ u' c' g', GoodId u' ∧ GoodId c' ∧ GoodId g' ∧ sid = sessionKey [u', c', g'] ∧ ¬ (u' = u ∧ c' = c)

theorem ElseSid.good {u c sid : Str} (h : ElseSid u c sid) : GoodSid sid := by
  obtain ⟨u', c', g', h1, h2, h3, h4, _⟩ := h
  exact ⟨u', c', g', h1, h2, h3, h4⟩

/-- Nothing of `u` at `c` was changed, and the session set up is not at `c`. -/
def KeptSetup (u c : Str) (s : Store) (r : Store × Out Setup) : Prop :=
  ClientKept u c s r.1 ∧ ∀ sid v, r.2 = .val (.session sid v) → ∀ u' c' g', unpack3 sid = .ok (u', c', g') → c' ≠ c

section
variable {u c : Str} (hu : GoodId u)
include hu

theorem kept_set3 {s : Store} (h : Sound s) {u' c' g' : Str} (h1 : GoodId u') (h2 : GoodId c') (h3 : GoodId g') (hne : ¬ (u' = u ∧ c' = c))
    (gr : Grant) : ClientKept u c s (dbSet s [u', c', g'] (.grant gr)).1 := by
  obtain ⟨s', e, _⟩ := tree_set3 h.tree h1 h2 h3 gr
  rw [e]
  exact .of_elsewhere hu (same_set3 h1 h2 h3 (h.tree.typed.user' h1) (h.tree.typed.client' h1 h2) e) hne

theorem kept_set2 {s : Store} (h : Sound s) {u' c' : Str} (h1 : GoodId u') (h2 : GoodId c') (hne : ¬ (u' = u ∧ c' = c)) (o : Obj) :
    ClientKept u c s (dbSet s [u', c'] o).1 := by
  obtain ⟨s', e, _⟩ := dbSet2 s o h1 h2 (h.tree.typed.user' h1)
  rw [e]
  exact .of_elsewhere hu (same_set2 h1 h2 (h.tree.typed.user' h1) e) hne

theorem kept_mgrSet {s : Store} (h : Sound s) {sid : Str} (hs : ElseSid u c sid) (gr : Grant) : ClientKept u c s (mgrSet s sid (.grant gr)).1 := by
  obtain ⟨u', c', g', h1, h2, h3, rfl, hne⟩ := hs
  unfold Verif.mgrSet
  rw [unpack_good (goodPath_three h1 h2 h3)]
  exact kept_set3 hu h h1 h2 h3 hne gr

theorem kept_put {s : Store} {sid : Str} (hs : ElseSid u c sid) (o : Obj) : ClientKept u c s (s.put sid o) := by
  obtain ⟨u', c', g', h1, h2, h3, rfl, hne⟩ := hs
  constructor
  · unfold Listed
    rw [put_at _ _ (goodPath_three h1 h2 h3) (goodPath_one hu), if_neg (by simp)]
  · rintro q hq ⟨r, rfl⟩
    rw [put_at _ _ (goodPath_three h1 h2 h3) hq, if_neg]
    intro e
    simp only [List.cons_append, List.nil_append, List.cons.injEq] at e
    exact hne ⟨e.1.symm, e.2.1.symm⟩

theorem kept_createGrant {sf : SubFuncs} {s : Store} (h : Sound s) (now : Int) {gid u' c' : Str} (a : SessArgs)
    (h3 : GoodId gid) (h1 : GoodId u') (h2 : GoodId c') (hne : ¬ (u' = u ∧ c' = c)) : ClientKept u c s (createGrant sf s now gid u' c' a).1 := by
  unfold createGrant
  cases newGrant sf now gid u' a with
  | error e => exact .refl _ _ _
  | ok g =>
    simp only
    have := kept_set3 hu h h1 h2 h3 hne g
    generalize dbSet s [u', c', gid] (.grant g) = r at this ⊢
    obtain ⟨r1, r2⟩ := r
    cases r2 <;> exact this

theorem kept_createSession {sf : SubFuncs} {s : Store} (h : Sound s) (now : Int) {gid u' c' : Str} (a : SessArgs)
    (h3 : GoodId gid) (h1 : GoodId u') (h2 : GoodId c') (hne : ¬ (u' = u ∧ c' = c)) : ClientKept u c s (createSession sf s now gid u' c' a).1 := by
  obtain ⟨s1, e1, t1, hat⟩ := createSession_user h.tree h1
  unfold createSession
  simp only [e1, if_neg h2.1]
  have k1 : ClientKept u c s s1 := .of_elsewhere hu (same_ensureUser (c := c') h1 hat) hne
  obtain ⟨s2, e2, t2⟩ := tree_set2 t1 h1 h2 (SessInfo.client c') (by simp [SessInfo.client])
  have k2 : ClientKept u c s1 s2 := .of_elsewhere hu (same_set2 h1 h2 (t1.typed.user' h1) e2) hne
  simp only [e2]
  refine (k1.trans k2).trans ?_
  unfold createGrant
  cases newGrant sf now gid u' a with
  | error e => exact .refl _ _ _
  | ok g =>
    simp only
    obtain ⟨s3, e3, _⟩ := tree_set3 t2 h1 h2 h3 g
    rw [e3]
    exact .of_elsewhere hu (same_set3 h1 h2 h3 (t2.typed.user' h1) (t2.typed.client' h1 h2) e3) hne

theorem kept_mint {s : Store} (h : Sound s) {sid : Str} (hs : ElseSid u c sid) (env : Env) (hd : Option Handler) (now : Int) (m : MintIn)
    (tt : Str) (g : Grant) (b : Option Token) : ClientKept u c s (mintAndStore env hd s now m sid tt g b).1 := by
  rcases mintAndStore_spec env hd s now m sid tt g b with ⟨h1, _⟩ | ⟨v, t, hrest⟩
  · rw [h1]; exact .refl _ _ _
  · obtain ⟨_, _, _, _, _, _, _, _, _, _, _, _, _, h1, _⟩ := hrest
    rw [h1]; exact kept_mgrSet hu h hs _

theorem kept_codePart {s : Store} (h : Sound s) {sid : Str} (hs : ElseSid u c sid) (env : Env) (now : Int) (m : MintIn) (g : Grant) (req : AuthReq) :
    ClientKept u c s (codePart env s now m sid g req).1 := by
  unfold codePart
  split
  · exact kept_mint hu h hs _ _ _ _ _ _ _
  · exact .refl _ _ _

theorem kept_tokenPart {s : Store} (h : Sound s) {sid : Str} (hs : ElseSid u c sid) (env : Env) (now : Int) (m : MintIn) (g : Grant)
    (code : Option Token) (req : AuthReq) : ClientKept u c s (tokenPart env s now m sid g code req).1 := by
  unfold tokenPart
  split
  · exact kept_mint hu h hs _ _ _ _ _ _ _
  · exact .refl _ _ _

theorem kept_idTokenPart {s : Store} (h : Sound s) {sid : Str} (hs : ElseSid u c sid) (idt : Out Str) (req : AuthReq) :
    ClientKept u c s (idTokenPart s idt sid req).1 := by
  obtain ⟨u', c', g', h1, h2, h3, rfl, hne⟩ := hs
  unfold idTokenPart
  split
  · cases idt with
    | raise e => exact .refl _ _ _
    | errMsg e => exact .refl _ _ _
    | val i =>
      simp only [unpack3_good h1 h2 h3]
      cases hd : dbGet s [u', c'] with
      | error e => exact .refl _ _ _
      | ok o =>
        simp only
        have := kept_set2 hu h h1 h2 hne o
        generalize dbSet s [u', c'] o = r at this ⊢
        obtain ⟨r1, r2⟩ := r
        cases r2 <;> exact this
  · exact .refl _ _ _

theorem kept_authnResponse {s : Store} (h : Sound s) {sid : Str} (hs : ElseSid u c sid) (env : Env) (now : Int) (mc ma : MintIn) (idt : Out Str)
    (req : AuthReq) : ClientKept u c s (createAuthnResponse env s now mc ma idt req sid).1 := by
  have hs' := hs.good
  unfold createAuthnResponse
  split
  · exact .refl _ _ _
  · cases getGrant s sid with
    | error e => exact .refl _ _ _
    | ok g =>
      simp only
      have h1 := sound_codePart h hs' env now mc g req
      have k1 := kept_codePart hu h hs env now mc g req
      generalize codePart env s now mc sid g req = r at h1 k1 ⊢
      obtain ⟨s1, g1, o1⟩ := r
      cases o1 with
      | error e => exact k1
      | ok code =>
        simp only at h1 k1 ⊢
        have h2 := sound_tokenPart h1 hs' env now ma g1 code req
        have k2 := k1.trans (kept_tokenPart hu h1 hs env now ma g1 code req)
        generalize tokenPart env s1 now ma sid g1 code req = r at h2 k2 ⊢
        obtain ⟨s2, g2, o2⟩ := r
        cases o2 with
        | error e => exact k2
        | ok tok =>
          simp only at h2 k2 ⊢
          have k3 := k2.trans (kept_idTokenPart hu h2 hs idt req)
          generalize idTokenPart s2 idt sid req = r at k3 ⊢
          obtain ⟨s3, o3⟩ := r
          cases o3 with
          | raise e => exact k3
          | errMsg e => exact k3
          | val i => simp only; split <;> exact k3

theorem kept_authzPart2 {s : Store} (h : Sound s) (env : Env) (cdb : Cdb) (now : Int) (mc ma : MintIn) (idt : Out Str)
    (req : AuthReq) (sid : Str) (hs : ∀ g, getGrant s sid = .ok g → ElseSid u c sid) :
    ClientKept u c s (authzPart2 env cdb s now mc ma idt req sid).2.1 := by
  unfold authzPart2
  cases hg : getGrant s sid with
  | error e => exact .refl _ _ _
  | ok g =>
    have hs := hs g hg
    obtain ⟨u', c', g', h1, h2, h3, rfl, hne⟩ := id hs
    simp only [unpack3_good h1 h2 h3]
    generalize authzCall env.gc env.ccfg cdb now c' g req = r
    obtain ⟨r1, r2⟩ := r
    cases r2 with
    | error e => exact .refl _ _ _
    | ok gg =>
      simp only
      have q1 := h.set3 h1 h2 h3 gg
      have k1 := kept_set3 hu h h1 h2 h3 hne gg
      generalize dbSet s [u', c', g'] (.grant gg) = r at q1 k1 ⊢
      obtain ⟨s1, o1⟩ := r
      cases o1 with
      | error e => exact k1
      | ok _ =>
        simp only at q1 k1 ⊢
        have k2 := k1.trans (kept_authnResponse hu q1 hs env now mc ma idt req)
        generalize createAuthnResponse env s1 now mc ma idt req (sessionKey [u', c', g']) = r at k2 ⊢
        obtain ⟨s2, o2⟩ := r
        cases o2 with
        | error e => exact k2
        | ok cf =>
          obtain ⟨content, frag⟩ := cf
          simp only
          split
          · exact k2
          · split <;> exact k2

omit hu in
theorem kept_setupAuth_aux {s : Store} (c : Str) (x : Setup) (hx : ∀ sid v, x ≠ .session sid v) : KeptSetup u c s (s, .val x) :=
  ⟨.refl _ _ _, fun sid v e => absurd (Out.val.inj e) (hx sid v)⟩

/-- Setting up the session for a request of a client other than `c` leaves `c`'s sessions alone, and the session that results is
not one of `c`'s. -/
theorem kept_setupAuth {s : Store} (h : Sound s) (env : Env) (cdb : Cdb) (now : Int) {gid : Str} (req : AuthReq) (a : AuthnIn)
    (hg : GoodId gid) (hc : GoodId req.clientId) (hi : GoodIdent a.ident) (hne : req.clientId ≠ c) :
    KeptSetup u c s (setupAuth env cdb s now gid req a) := by
  have none : ∀ x : Setup, (∀ sid v, x ≠ .session sid v) → KeptSetup u c s (s, .val x) := kept_setupAuth_aux c
  have raise : ∀ e : Exn, KeptSetup u c s (s, .raise e) := fun e => ⟨.refl _ _ _, fun _ _ h => nomatch h⟩
  have login : ∀ sid v, Setup.login ≠ .session sid v := fun _ _ h => nomatch h
  have own : ∀ (v : Str) {sid : Str}, GoodId v → sid = sessionKey [v, req.clientId, gid] →
      ∀ u' c' g', unpack3 sid = .ok (u', c', g') → c' ≠ c := by
    rintro v sid hv rfl u' c' g' hx
    rw [unpack3_good hv hc hg] at hx
    cases hx
    exact hne
  unfold setupAuth
  cases hid : a.ident with
  | nobody => exact none _ (fun sid v => needLogin_ne _ _ _)
  | plain uid =>
    rw [hid] at hi
    dsimp only
    split
    · exact none _ login
    · split
      · exact none _ (fun sid v => needLogin_ne _ _ _)
      · unfold startSession
        dsimp only
        generalize hA : ({ authnEvent := _, authReq := req, usageRules := usageRulesOf env.gc cdb req.clientId } : SessArgs) = A
        have := kept_createSession (sf := env.sf) hu h now A hg hi hc (fun e => hne e.2)
        have hsid : ∀ sid, (createSession env.sf s now gid uid req.clientId A).2 = .ok sid → sid = sessionKey [uid, req.clientId, gid] := by
          intro sid hs
          unfold createSession at hs
          simp only [if_neg hc.1] at hs
          split at hs
          · cases hs
          · split at hs
            · cases hs
            · exact createGrant_sid _ _ _ _ _ _ _ hs
        generalize createSession env.sf s now gid uid req.clientId A = r at this hsid ⊢
        obtain ⟨r1, r2⟩ := r
        cases r2 with
        | error e => exact ⟨this, fun _ _ h => nomatch h⟩
        | ok sid =>
          refine ⟨this, fun sid' v e => ?_⟩
          cases e
          exact own uid hi (hsid _ rfl)
  | decoded uid sid0 =>
    rw [hid] at hi
    dsimp only
    cases sid0 with
    | none => exact raise _
    | some sid0 =>
      dsimp only
      cases mgrGet s sid0 with
      | error e => exact raise _
      | ok o =>
        cases o with
        | info i => exact raise _
        | grant g0 =>
          dsimp only
          split
          · exact none _ (fun sid v => needLogin_ne _ _ _)
          · split
            · exact none _ login
            · cases uid with
              | none => exact raise _
              | some uid =>
                dsimp only
                split
                · exact none _ (fun sid v => needLogin_ne _ _ _)
                · cases hun : unpack3 sid0 with
                  | error e => exact raise _
                  | ok t =>
                    obtain ⟨u1, c1, g1⟩ := t
                    dsimp only
                    split
                    · exact none _ login
                    · rename_i hcc
                      have hcc : req.clientId = c1 := Classical.not_not.1 hcc
                      generalize hR : (if g0.authReq = some req then (s, Out.val sid0) else _ : Store × Out Str) = R
                      have hR1 : ClientKept u c s R.1 ∧ ∀ sid, R.2 = .val sid → ∀ u' c' g', unpack3 sid = .ok (u', c', g') → c' ≠ c := by
                        rw [← hR]
                        split
                        · refine ⟨.refl _ _ _, fun sid e => ?_⟩
                          cases e
                          intro u' c' g' hx
                          rw [hun] at hx
                          cases hx
                          rw [← hcc]; exact hne
                        · split
                          · exact ⟨.refl _ _ _, fun _ h => nomatch h⟩
                          · exact ⟨.refl _ _ _, fun _ h => nomatch h⟩
                          · have := kept_createGrant (sf := env.sf) hu h now (c' := req.clientId) { authnEvent := g0.authnEvent, authReq := req } hg
                              (hi uid rfl) hc (fun e => hne e.2)
                            have hsid := fun sid => createGrant_sid env.sf s now gid uid req.clientId { authnEvent := g0.authnEvent, authReq := req } (sid := sid)
                            generalize createGrant env.sf s now gid uid req.clientId { authnEvent := g0.authnEvent, authReq := req } = r at this hsid ⊢
                            obtain ⟨r1, r2⟩ := r
                            cases r2 with
                            | error e => exact ⟨this, fun _ h => nomatch h⟩
                            | ok sid =>
                              refine ⟨this, fun sid' e => ?_⟩
                              cases e
                              exact own uid (hi uid rfl) (hsid _ rfl)
                      obtain ⟨R1, R2⟩ := R
                      cases R2 with
                      | raise e => exact ⟨hR1.1, fun _ _ h => nomatch h⟩
                      | errMsg e => exact ⟨hR1.1, fun _ _ h => nomatch h⟩
                      | val sid' =>
                        dsimp only
                        split
                        · exact ⟨hR1.1, fun _ _ h => nomatch h⟩
                        · split
                          · exact ⟨hR1.1, fun _ _ h => nomatch h⟩
                          · exact ⟨hR1.1, fun _ _ h => nomatch h⟩
                          · refine ⟨hR1.1, fun sid v e => ?_⟩
                            cases e
                            exact hR1.2 sid' rfl

theorem kept_authzProcess {s : Store} (h : Sound s) (env : Env) (cdb : Cdb) (now : Int) {gid : Str} (mc ma : MintIn) (idt : Out Str)
    (a : AuthnIn) (req : AuthReq) (hg : GoodId gid) (hc : (cdb req.clientId).isSome = true → GoodId req.clientId) (hi : GoodIdent a.ident)
    (hne : req.clientId ≠ c) : ClientKept u c s (authzProcess env cdb s now gid mc ma idt a req).2.1 := by
  unfold authzProcess
  cases hcl : cdb req.clientId with
  | none => exact .refl _ _ _
  | some cl =>
    simp only
    split
    · exact .refl _ _ _
    · have hcg := hc (by rw [hcl]; rfl)
      have h1 := sound_setupAuth h env cdb now req a hg hcg hi
      have k1 := kept_setupAuth hu h env cdb now req a hg hcg hi hne
      generalize setupAuth env cdb s now gid req a = r at h1 k1 ⊢
      obtain ⟨s1, o1⟩ := r
      cases o1 with
      | raise e => exact k1.1
      | errMsg e => exact k1.1
      | val x =>
        cases x with
        | login => exact k1.1
        | loginRequired => exact k1.1
        | session sid v =>
          refine k1.1.trans (kept_authzPart2 hu h1 env cdb now mc ma idt req sid fun g hgr => ?_)
          obtain ⟨u', c', g', q1, q2, q3, rfl⟩ := h1.sid (getGrant_key h1.noEmpty hgr).1
          exact ⟨u', c', g', q1, q2, q3, rfl, fun e => k1.2 _ _ rfl _ _ _ (unpack3_good q1 q2 q3) e.2⟩

/-! ### The token endpoint -/

theorem kept_refreshPart {s : Store} (h : Sound s) {sid : Str} (hs : ElseSid u c sid) (env : Env) (i : TokIn) (g : Grant) (b : Option Token)
    (want : Bool) : ClientKept u c s (refreshPart env s i sid g b want).1 := by
  unfold refreshPart
  split
  · exact kept_mint hu h hs _ _ _ _ _ _ _
  · exact .refl _ _ _

theorem kept_exchangeCode {s : Store} (h : Sound s) {sid : Str} (hs : ElseSid u c sid) (env : Env) (i : TokIn) (g : Grant) (b : Option Token)
    (ar : AuthReq) : ClientKept u c s (exchangeCode env s i sid g b ar).1 := by
  have hs' := hs.good
  unfold exchangeCode
  simp only
  have h1 := sound_mint h hs' env env.th.accessToken i.now i.ma tAccessToken g b
  have k1 := kept_mint hu h hs env env.th.accessToken i.now i.ma tAccessToken g b
  generalize mintAndStore env env.th.accessToken s i.now i.ma sid tAccessToken g b = r at h1 k1 ⊢
  obtain ⟨s1, g1, o1⟩ := r
  cases o1 with
  | error e => exact k1
  | ok tok =>
    simp only at h1 k1 ⊢
    have h2 := sound_refreshPart h1 hs' env i g1 b (decide (c!"offline_access" ∈ g.scope))
    have k2 := k1.trans (kept_refreshPart hu h1 hs env i g1 b (decide (c!"offline_access" ∈ g.scope)))
    generalize refreshPart env s1 i sid g1 b (decide (c!"offline_access" ∈ g.scope)) = r at h2 k2 ⊢
    obtain ⟨s2, g2, o2⟩ := r
    cases o2 with
    | error e => exact k2
    | ok rt =>
      simp only at h2 k2 ⊢
      unfold finishCode
      cases b with
      | none => exact k2
      | some b =>
        simp only
        have k3 := k2.trans (kept_mgrSet hu h2 hs (g2.registerUsage b.value))
        generalize mgrSet s2 sid (.grant (g2.registerUsage b.value)) = r at k3 ⊢
        obtain ⟨s3, o3⟩ := r
        cases o3 with
        | error e => exact k3
        | ok _ => simp only; split <;> exact k3

theorem kept_newRefresh {s : Store} (h : Sound s) {sid : Str} (hs : ElseSid u c sid) (m : Mode) (env : Env) (i : TokIn) (g : Grant) (b : Token)
    (want : Bool) : ClientKept u c s (newRefresh m env s i sid g b want).1 := by
  unfold newRefresh
  simp only
  have k1 := kept_refreshPart hu h hs env i g (some b) want
  generalize refreshPart env s i sid g (some b) want = r at k1 ⊢
  obtain ⟨s1, g1, o1⟩ := r
  cases o1 with
  | error e => exact k1
  | ok o =>
    cases o with
    | none => exact k1
    | some t =>
      simp only
      unfold touch
      cases m with
      | byValue => exact k1
      | aliased => exact k1.trans (kept_put hu hs _)

theorem kept_exchangeRefresh {s : Store} (h : Sound s) {sid : Str} (hs : ElseSid u c sid) (m : Mode) (env : Env) (i : TokIn) (g : Grant)
    (b : Option Token) : ClientKept u c s (exchangeRefresh m env s i sid g b).1 := by
  have hs' := hs.good
  unfold exchangeRefresh
  simp only
  have h1 := sound_mint h hs' env env.th.accessToken i.now i.ma tAccessToken g b
  have k1 := kept_mint hu h hs env env.th.accessToken i.now i.ma tAccessToken g b
  generalize mintAndStore env env.th.accessToken s i.now i.ma sid tAccessToken g b = r at h1 k1 ⊢
  obtain ⟨s1, g1, o1⟩ := r
  cases o1 with
  | error e => exact k1
  | ok tok =>
    simp only at h1 k1 ⊢
    cases b with
    | none => exact k1
    | some b =>
      simp only
      cases b.usageRules.supportsMinting with
      | none => exact k1
      | some mints =>
        simp only
        have k2 := k1.trans (kept_newRefresh hu h1 hs m env i g1 b (decide (tRefreshToken ∈ mints)))
        generalize newRefresh m env s1 i sid g1 b (decide (tRefreshToken ∈ mints)) = r at k2 ⊢
        obtain ⟨s2, o2⟩ := r
        cases o2 with
        | error e => exact k2
        | ok rt => simp only; rw [finishRefresh_store]; exact k2

/-- The token request names no session of `u` at `c`: neither its code nor its refresh token resolves to one. -/
theorem kept_tokProcess {s : Store} (h : Sound s) (m : Mode) (env : Env) (helpers : Dict Helper) (i : TokIn) (req : TokReq)
    (hno : ∀ v, (req.code.map plusForBlank = some v ∨ req.refreshToken = some v) → ∀ g', env.th.sid env.cr i.now v ≠ .ok (sessionKey [u, c, g'])) :
    ClientKept u c s (tokProcess m env helpers s i req).1 := by
  have else_of : ∀ {sid v : Str} {g : Grant}, sessionByToken env.th env.cr s i.now v = .ok (sid, .grant g) →
      (req.code.map plusForBlank = some v ∨ req.refreshToken = some v) → ElseSid u c sid := by
    intro sid v g hsb hv
    obtain ⟨u', c', g', q1, q2, q3, rfl⟩ := h.sid (sessionByToken_key h.noEmpty hsb).2.1
    refine ⟨u', c', g', q1, q2, q3, rfl, ?_⟩
    rintro ⟨rfl, rfl⟩
    exact hno v hv g' (sessionByToken_key h.noEmpty hsb).1
  have hcode : ClientKept u c s (codeProcess env s i req).1 := by
    unfold codeProcess
    split
    · exact .refl _ _ _
    · split
      · exact .refl _ _ _
      · rename_i v hv
        split
        · exact .refl _ _ _
        · exact .refl _ _ _
        · rename_i sid g hsb
          have hs := else_of hsb (Or.inl (by rw [hv]; rfl))
          split
          · exact .refl _ _ _
          · split
            · exact .refl _ _ _
            · exact .refl _ _ _
            · exact kept_exchangeCode hu h hs _ _ _ _ _
  have href : ClientKept u c s (refreshProcess m env s i req).1 := by
    unfold refreshProcess
    split
    · exact .refl _ _ _
    · split
      · exact .refl _ _ _
      · rename_i v hv
        split
        · exact .refl _ _ _
        · exact .refl _ _ _
        · rename_i sid g hsb
          exact kept_exchangeRefresh hu h (else_of hsb (Or.inr hv)) _ _ _ _ _
  have hh : ClientKept u c s (helperProcess m env helpers s i req).1 := by
    unfold helperProcess
    split
    · exact .refl _ _ _
    · split
      · exact .refl _ _ _
      · exact .refl _ _ _
      · exact hcode
      · exact href
  unfold tokProcess
  simp only
  generalize helperProcess m env helpers s i req = r at hh ⊢
  obtain ⟨s1, o1⟩ := r
  cases o1 with
  | raise e => exact hh
  | errMsg e => exact hh
  | val resp => simp only; split <;> exact hh

/-! ### Logout -/

theorem kept_revokeClient {s : Store} (h : Sound s) (sid : Str) (hno : ∀ r, unpackSessionKey sid ≠ u :: c :: r) :
    ClientKept u c s (revokeClientSession s sid).1 := by
  have go : ∀ u' c', ¬ (u' = u ∧ c' = c) → ClientKept u c s (match dbGet s [u', c'] with
      | .error e => (s, .error e)
      | .ok (.grant _) => (s, .error .typeError)
      | .ok (.info i) => dbSet s [u', c'] (.info i.revoke) : Store × Except Exn Unit).1 := by
    intro u' c' hne
    cases hd : dbGet s [u', c'] with
    | error e => exact .refl _ _ _
    | ok o =>
      cases o with
      | grant g => exact .refl _ _ _
      | info i =>
        obtain ⟨h1, h2, h3⟩ := h.get2 hd
        exact kept_set2 hu h h1 h2 hne _
  unfold revokeClientSession
  simp only
  split
  · rename_i u' c' e; exact go _ _ (fun x => hno [] (by rw [e, x.1, x.2]))
  · rename_i u' c' g' e; exact go _ _ (fun x => hno [g'] (by rw [e, x.1, x.2]))
  · exact .refl _ _ _

theorem kept_clean {s : Store} (h : Sound s) (l : List Str) (hno : ∀ sid ∈ l, ∀ r, unpackSessionKey sid ≠ u :: c :: r) :
    ClientKept u c s (cleanSessions s l).1 := by
  induction l generalizing s with
  | nil => exact .refl _ _ _
  | cons sid l ih =>
    unfold cleanSessions
    have h1 := sound_revokeClient h sid
    have k1 := kept_revokeClient hu h sid (hno sid (by simp))
    generalize revokeClientSession s sid = r at h1 k1 ⊢
    obtain ⟨s1, o1⟩ := r
    cases o1 with
    | error e => exact k1
    | ok _ => exact k1.trans (ih h1 fun x hx => hno x (by simp [hx]))

/-- Logging out from one session of another client, or another user from everything. -/
theorem kept_logout {s : Store} (h : Sound s) (env : LogoutEnv) (cdb : Cdb) (post : Str → Str → Except Exn Unit) (sid : Str) (alla : Bool)
    (hno : ∀ u' c' g', unpackSessionKey sid = [u', c', g'] → u' = u → alla = false ∧ c' ≠ c) :
    ClientKept u c s (doVerifiedLogout env cdb post s sid alla).1 := by
  have hall : alla = true → ClientKept u c s (logoutAllClients env cdb s sid).1 := by
    intro ha
    unfold logoutAllClients
    split
    · exact .refl _ _ _
    · rename_i u' c' g' hun
      have hne : u' ≠ u := fun e => by have := (hno u' c' g' (unpack3_list hun) e).1; rw [ha] at this; cases this
      split
      · exact .refl _ _ _
      · split
        · exact .refl _ _ _
        · split
          · exact .refl _ _ _
          · split
            · exact .refl _ _ _
            · rename_i calls _
              have h1 := kept_clean hu h (calls.map fun p => sessionKey [u', p.1]) (c := c) (by
                intro x hx r e
                obtain ⟨p, _, rfl⟩ := List.mem_map.1 hx
                have := owner_of_part hun p.1
                unfold ownerOf at this
                rw [e] at this
                exact hne this.symm)
              dsimp only
              generalize cleanSessions s _ = r at h1 ⊢
              obtain ⟨s1, o1⟩ := r
              cases o1 <;> exact h1
  have hone : alla = false → ClientKept u c s (logoutFromClient env cdb s sid).1 := by
    intro ha
    unfold logoutFromClient
    split
    · exact .refl _ _ _
    · rename_i u' c' g' hun
      split
      · exact .refl _ _ _
      · split
        · exact .refl _ _ _
        · split
          · exact .refl _ _ _
          · simp only
            have h1 := kept_clean hu h [sid] (c := c) (by
              intro x hx r e
              simp only [List.mem_singleton] at hx
              subst hx
              have := unpack3_list hun
              rw [e] at this
              simp only [List.cons.injEq] at this
              exact (hno u' c' g' (unpack3_list hun) this.1.symm).2 this.2.1.symm)
            generalize cleanSessions s [sid] = r at h1 ⊢
            obtain ⟨s1, o1⟩ := r
            cases o1 <;> exact h1
  unfold doVerifiedLogout
  have hr : ClientKept u c s (if alla then logoutAllClients env cdb s sid else logoutFromClient env cdb s sid).1 := by
    split
    · rename_i ha; exact hall ha
    · rename_i ha; exact hone (by simpa using ha)
  generalize (if alla then logoutAllClients env cdb s sid else logoutFromClient env cdb s sid) = r at hr ⊢
  obtain ⟨s1, o1⟩ := r
  cases o1 with
  | error e => exact hr
  | ok calls => simp only; split <;> exact hr

end

end Verif
