import Verif.Lemmas.SysMoves
import Verif.Spec.System
set_option linter.unusedSimpArgs false
set_option linter.unusedVariables false
/-! Each kind of step, seen from the stored grants. -/
namespace Verif
open Spec

variable {env : Env} {C : Str → Grant → Prop} {s0 s : Store}

theorem St.mint (h : St env C s0 s) {sid : Str} (hs : Sid3 sid) {g : Grant} (hg : Has env C s0 sid g) (now : Int)
    (m : MintIn) (tt : Str) (hd : Option Handler) (b : Option Token)
    (hh : (if tt = tAuthorizationCode then env.th.code else env.th.accessToken) = hd)
    (hb : ∀ bt, b = some bt → ∃ i, g.tokenAt i = some bt) (hsc : ScopeOk env g) :
    St env C s0 (mintAndStore env hd s now m sid tt g b).1 ∧
    Evo env sid g (mintAndStore env hd s now m sid tt g b).2.1 ∧
    Has env C s0 sid (mintAndStore env hd s now m sid tt g b).2.1 := by
  rcases mintAndStore_spec env hd s now m sid tt g b with ⟨h1, h2, _⟩ | ⟨v, t, hrest⟩
  · rw [h1, h2]; exact ⟨h, Evo.refl g, hg⟩
  · obtain ⟨_, _, _, _, _, _, _, _, _, _, _, _, _, h2, _, h3⟩ := hrest
    have he := h3 hb hsc hh
    have hg' := hg.evo he
    exact ⟨by rw [h2]; exact h.mgrSet hs hg', he, hg'⟩

theorem newGrant_ok {sf : SubFuncs} {now : Int} {gid u : Str} {a : SessArgs} {g : Grant} (h : newGrant sf now gid u a = .ok g) :
    ∃ f, sf a.subType = some f ∧ g.sub = f u a.authReq.sectorIdentifierUri ∧ g.authnEvent = a.authnEvent ∧
      g.maxUsage = a.maxUsage := by
  unfold newGrant at h
  cases hf : sf a.subType with
  | none => simp [hf] at h
  | some f => simp only [hf] at h; cases h; exact ⟨f, rfl, rfl, rfl, rfl⟩

theorem mgrGet_getGrant {s : Store} {sid : Str} {t : Str × Str × Str} (hu : unpack3 sid = .ok t) {g : Grant}
    (h : mgrGet s sid = .ok (.grant g)) : getGrant s sid = .ok g := by
  obtain ⟨u, c, gi⟩ := t
  have : unpackSessionKey sid = [u, c, gi] := by
    unfold unpack3 at hu
    split at hu
    · cases hu; assumption
    · cases hu
  unfold mgrGet at h
  rw [this] at h
  unfold getGrant
  simp only [hu, h]

theorem createGrant_st (h : St env C s0 s) (now : Int) (gid u c : Str) (a : SessArgs) (hgid : gid ≠ [])
    (hC : ∀ g, newGrant env.sf now gid u a = .ok g → g.issuedToken = [] → g.tokenMap = defaultTokenMap → g.authReq = some a.authReq → (g.scope = a.scopes ∧ g.claims = []) →
      C (sessionKey [u, c, gid]) g) :
    St env C s0 (createGrant env.sf s now gid u c a).1 := by
  unfold createGrant
  cases hn : newGrant env.sf now gid u a with
  | error e => exact h
  | ok g =>
    simp only
    have hg : g.issuedToken = [] ∧ g.tokenMap = defaultTokenMap ∧ g.authReq = some a.authReq ∧
        g.scope = a.scopes ∧ g.claims = [] := by
      unfold newGrant at hn
      cases hf : env.sf a.subType with
      | none => simp [hf] at hn
      | some f => simp only [hf] at hn; cases hn; exact ⟨rfl, rfl, rfl, rfl, rfl⟩
    have hset : St env C s0 (dbSet s [u, c, gid] (.grant g)).1 := by
      apply h.set
      · rintro _ _ _ _ ⟨⟩; exact hgid
      · simp
      · rintro g' ⟨⟩
        exact ⟨g, Or.inr (hC g hn hg.1 hg.2.1 hg.2.2.1 hg.2.2.2), Evo.refl g⟩
    cases hw : (dbSet s [u, c, gid] (.grant g)).2 with
    | error e => exact hset
    | ok _ => exact hset

theorem createGrant_sid (sf : SubFuncs) (s : Store) (now : Int) (gid u c : Str) (a : SessArgs) {sid : Str}
    (h : (createGrant sf s now gid u c a).2 = .ok sid) : sid = sessionKey [u, c, gid] := by
  unfold createGrant at h
  cases hn : newGrant sf now gid u a with
  | error e => simp [hn] at h
  | ok g =>
    simp only [hn] at h
    cases hw : (dbSet s [u, c, gid] (.grant g)).2 with
    | error e => simp [hw] at h
    | ok _ => simp only [hw] at h; exact (Except.ok.inj h).symm

theorem ensureUser_st (h : St env C s0 s) (u : Str) : St env C s0 (ensureUser s u).1 := by
  unfold ensureUser
  cases dbGet s [u] with
  | ok _ => exact h
  | error e =>
    simp only
    split
    · apply h.set
      · simp
      · rintro i ⟨⟩; simp [SessInfo.user]
      · rintro g ⟨⟩
    · exact h

theorem createSession_st (h : St env C s0 s) (now : Int) (gid u c : Str) (a : SessArgs) (hgid : gid ≠ [])
    (hC : ∀ c' g, c' = (if c = [] then a.authReq.clientId else c) → newGrant env.sf now gid u a = .ok g → g.issuedToken = [] → g.tokenMap = defaultTokenMap → g.authReq = some a.authReq → (g.scope = a.scopes ∧ g.claims = []) →
      C (sessionKey [u, c', gid]) g) :
    St env C s0 (createSession env.sf s now gid u c a).1 := by
  unfold createSession
  simp only
  have h1 := ensureUser_st h u
  cases he : (ensureUser s u).2 with
  | error e => exact h1
  | ok _ =>
    simp only
    generalize hc' : (if c = [] then a.authReq.clientId else c) = c'
    have h2 : St env C s0 (dbSet (ensureUser s u).1 [u, c'] (.info (SessInfo.client c'))).1 := by
      apply h1.set
      · simp
      · rintro i ⟨⟩; simp [SessInfo.client]
      · rintro g ⟨⟩
    cases hw : (dbSet (ensureUser s u).1 [u, c'] (.info (SessInfo.client c'))).2 with
    | error e => exact h2
    | ok _ => exact createGrant_st h2 now gid u c' a hgid (fun g => hC c' g hc'.symm)

theorem createSession_sid (sf : SubFuncs) (s : Store) (now : Int) (gid u c : Str) (a : SessArgs) {sid : Str}
    (h : (createSession sf s now gid u c a).2 = .ok sid) : ∃ c', sid = sessionKey [u, c', gid] := by
  unfold createSession at h
  simp only at h
  cases he : (ensureUser s u).2 with
  | error e => simp [he] at h
  | ok _ =>
    simp only [he] at h
    generalize (if c = [] then a.authReq.clientId else c) = c' at h
    cases hw : (dbSet (ensureUser s u).1 [u, c'] (.info (SessInfo.client c'))).2 with
    | error e => simp [hw] at h
    | ok _ => simp only [hw] at h; exact ⟨c', createGrant_sid _ _ _ _ _ _ _ h⟩

theorem getGrant_key (hn : NoEmpty s) {sid : Str} {g : Grant} (h : getGrant s sid = .ok g) :
    s sid = some (.grant g) ∧ Sid3 sid ∧ ∃ u c gi, unpack3 sid = .ok (u, c, gi) := by
  unfold getGrant at h
  cases hu : unpack3 sid with
  | error e => simp [hu] at h
  | ok t =>
    obtain ⟨u, c, gi⟩ := t
    simp only [hu] at h
    cases hd : dbGet s [u, c, gi] with
    | error e => simp [hd] at h
    | ok o =>
      cases o with
      | info i => simp [hd] at h
      | grant g' =>
        simp only [hd] at h
        cases h
        obtain ⟨h1, h2⟩ := read3 hn hu hd
        exact ⟨h1, h2, u, c, gi, rfl⟩

/-- How the authorization endpoint comes to create a grant: the user logs in, or returns with a cookie. -/
def FromLogin (env : Env) (s0 : Store) (now : Int) (a : AuthnIn) (gid : Str) (req : AuthReq) (k : Str) (g : Grant) : Prop :=
  g.maxUsage = none ∧
  ∃ u f, k = sessionKey [u, req.clientId, gid] ∧ env.sf c!"public" = some f ∧ g.sub = f u req.sectorIdentifierUri ∧
    ((a.ident = .plain u ∧ g.authnEvent = some (loginEvent now u a)) ∨
      ∃ sid g0, a.ident = .decoded (some u) (some sid) ∧ getGrant s0 sid = .ok g0 ∧ g.authnEvent = g0.authnEvent)

/-- The grants that the authorization endpoint creates. -/
def NewFor (env : Env) (s0 : Store) (now : Int) (a : AuthnIn) (gid : Str) (req : AuthReq) (k : Str) (g : Grant) : Prop :=
  FromLogin env s0 now a gid req k g ∧
  (∃ u c, k = sessionKey [u, c, gid]) ∧ g.issuedToken = [] ∧ g.tokenMap = defaultTokenMap ∧ g.authReq = some req ∧
    g.scope = [] ∧ g.claims = []

theorem startSession_st {gid : Str} {req : AuthReq} (hn : NoEmpty s0) (hgid : gid ≠ []) (cdb : Cdb) (now : Int) (a : AuthnIn)
    (uid : Str) (hid : a.ident = .plain uid) :
    St env (NewFor env s0 now a gid req) s0 (startSession env cdb s0 now gid req a uid).1 ∧
    ∀ sid u, (startSession env cdb s0 now gid req a uid).2 = .val (.session sid u) → ∃ u c, sid = sessionKey [u, c, gid] := by
  unfold startSession
  simp only
  generalize hA : ({ authnEvent := _, authReq := req, usageRules := usageRulesOf env.gc cdb req.clientId } : SessArgs) = A
  have hAev : A.authnEvent = some (loginEvent now uid a) := by
    rw [← hA]
    simp only [loginEvent]
    cases a.expiresIn with
    | none => rfl
    | some e => by_cases he : e = 0 <;> simp [he, createAuthnEvent]
  have hreq : A.authReq = req := by rw [← hA]
  have hsco : A.scopes = [] := by rw [← hA]
  have h1 : St env (NewFor env s0 now a gid req) s0 (createSession env.sf s0 now gid uid req.clientId A).1 := by
    apply createSession_st (St.start hn) now gid uid req.clientId A hgid
    intro c g hc hn e1 e2 e3 e4
    refine ⟨?_, ⟨uid, c, rfl⟩, e1, e2, by rw [e3, hreq], by rw [e4.1, hsco], e4.2⟩
    obtain ⟨f, h1, h2, h3, h4⟩ := newGrant_ok hn
    rw [hAev] at h3
    rw [← hA] at h1 h2 hc h4
    refine ⟨h4, uid, f, ?_, h1, h2, Or.inl ⟨hid, h3⟩⟩
    rw [hc]
    split <;> rename_i h <;> simp [h]
  cases hr : (createSession env.sf s0 now gid uid req.clientId A).2 with
  | error e => exact ⟨h1, by simp⟩
  | ok sid =>
    refine ⟨h1, ?_⟩
    intro sid' u' h
    simp only at h
    cases h
    obtain ⟨c', hc'⟩ := createSession_sid _ _ _ _ _ _ _ hr
    exact ⟨uid, c', hc'⟩

theorem needLogin_ne (req : AuthReq) (sid u : Str) : needLogin req ≠ .session sid u := by
  unfold needLogin
  split <;> simp

/-- The reusing part of `setup_auth`: what is decided once the session in the cookie matches. -/
theorem setupAuth_st {gid : Str} {req : AuthReq} (hn : NoEmpty s0) (hgid : gid ≠ []) (cdb : Cdb) (now : Int) (a : AuthnIn) :
    St env (NewFor env s0 now a gid req) s0 (setupAuth env cdb s0 now gid req a).1 ∧
    ∀ sid u, (setupAuth env cdb s0 now gid req a).2 = .val (.session sid u) →
      (∃ u c, sid = sessionKey [u, c, gid]) ∨
      (∃ g, mgrGet s0 sid = .ok (.grant g) ∧ g.authReq = some req ∧ (setupAuth env cdb s0 now gid req a).1 = s0) := by
  unfold setupAuth
  have hst : St env (NewFor env s0 now a gid req) s0 s0 := St.start hn
  cases hid : a.ident with
  | nobody =>
    exact ⟨hst, fun sid u h => absurd (Out.val.inj h) (needLogin_ne _ _ _)⟩
  | plain uid =>
    simp only
    by_cases h1 : a.reAuth = true
    · rw [if_pos h1]; exact ⟨hst, by simp⟩
    · rw [if_neg h1]
      by_cases h2 : a.reqUser.isSome = true ∧ a.reqUser ≠ some uid
      · rw [if_pos h2]
        exact ⟨hst, fun sid u h => absurd (Out.val.inj h) (needLogin_ne _ _ _)⟩
      · rw [if_neg h2]
        have := startSession_st (env := env) (req := req) hn hgid cdb now a uid hid
        exact ⟨this.1, fun sid u h => Or.inl (this.2 sid u h)⟩
  | decoded uid sid0 =>
    simp only
    cases sid0 with
    | none => exact ⟨hst, by simp⟩
    | some sid0 =>
      simp only
      cases hg0 : mgrGet s0 sid0 with
      | error e => exact ⟨hst, by simp⟩
      | ok o =>
        cases o with
        | info i => exact ⟨hst, by simp⟩
        | grant g0 =>
          simp only
          by_cases hact : g0.isActive now = false
          · rw [if_pos hact]
            exact ⟨hst, fun sid u h => absurd (Out.val.inj h) (needLogin_ne _ _ _)⟩
          · rw [if_neg hact]
            by_cases h1 : a.reAuth = true
            · rw [if_pos h1]; exact ⟨hst, by simp⟩
            · rw [if_neg h1]
              cases uid with
              | none => exact ⟨hst, by simp⟩
              | some uid =>
                simp only
                by_cases h2 : a.reqUser.isSome = true ∧ a.reqUser ≠ some uid
                · rw [if_pos h2]
                  exact ⟨hst, fun sid u h => absurd (Out.val.inj h) (needLogin_ne _ _ _)⟩
                · rw [if_neg h2]
                  cases hu : unpack3 sid0 with
                  | error e => exact ⟨hst, by simp⟩
                  | ok t =>
                    obtain ⟨u1, c1, g1⟩ := t
                    simp only
                    by_cases h3 : req.clientId = c1
                    · simp only [h3, ne_eq, not_true_eq_false, if_false]
                      generalize hR : (if g0.authReq = some req then (s0, Out.val sid0) else _ : Store × Out Str) = R
                      have hR1 : St env (NewFor env s0 now a gid req) s0 R.1 ∧ ∀ sid, R.2 = .val sid →
                          (∃ u c, sid = sessionKey [u, c, gid]) ∨
                          (∃ g, mgrGet s0 sid = .ok (.grant g) ∧ g.authReq = some req ∧ R.1 = s0) := by
                        rw [← hR]
                        by_cases h4 : g0.authReq = some req
                        · simp only [h4, if_true]
                          refine ⟨hst, ?_⟩
                          intro sid hsid
                          cases hsid
                          exact Or.inr ⟨g0, hg0, h4, trivial⟩
                        · simp only [h4, if_false]
                          cases hev : eventValid now g0.authnEvent with
                          | error e => exact ⟨hst, by simp⟩
                          | ok b =>
                            cases b with
                            | false => exact ⟨hst, by simp⟩
                            | true =>
                              simp only
                              have hc := createGrant_st hst now gid uid c1
                                { authnEvent := g0.authnEvent, authReq := req } hgid
                                (C := NewFor env s0 now a gid req) (by
                                  intro g hng e1 e2 e3 e4
                                  obtain ⟨f, f1, f2, f3, f4⟩ := newGrant_ok hng
                                  exact ⟨⟨f4, uid, f, by rw [h3], f1, f2, Or.inr ⟨sid0, g0, hid, mgrGet_getGrant hu hg0, f3⟩⟩,
                                    ⟨uid, c1, rfl⟩, e1, e2, e3, e4⟩)
                              cases hcr : (createGrant env.sf s0 now gid uid c1
                                  { authnEvent := g0.authnEvent, authReq := req }).2 with
                              | error e => exact ⟨hc, by simp⟩
                              | ok sid' =>
                                refine ⟨hc, ?_⟩
                                intro sid hsid
                                simp only at hsid
                                cases hsid
                                exact Or.inl ⟨uid, c1, createGrant_sid _ _ _ _ _ _ _ hcr⟩
                      cases hr2 : R.2 with
                      | raise e => exact ⟨hR1.1, by simp⟩
                      | errMsg e => exact ⟨hR1.1, by simp⟩
                      | val sid' =>
                        simp only
                        cases hev : getAuthnEvent R.1 sid' with
                        | error e => exact ⟨hR1.1, by simp⟩
                        | ok ev =>
                          simp only
                          cases hv : eventValid now ev with
                          | error e => exact ⟨hR1.1, by simp⟩
                          | ok b =>
                            cases b with
                            | false => exact ⟨hR1.1, by simp⟩
                            | true =>
                              refine ⟨hR1.1, ?_⟩
                              intro sid u h
                              simp only at h
                              cases h
                              exact hR1.2 sid' hr2
                    · simp only [h3, ne_eq, not_false_eq_true, if_true]; exact ⟨hst, by simp⟩

end Verif
