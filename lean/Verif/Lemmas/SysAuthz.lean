import Verif.Lemmas.SysSteps
set_option linter.unusedSimpArgs false
set_option linter.unusedVariables false
/-! The authorization endpoint, seen from the stored grants. -/
namespace Verif
open Spec

variable {env : Env} {C : Str → Grant → Prop} {s0 s : Store}

theorem authzCall_evo {cdb : Cdb} {now : Int} {client k : Str} {g g' : Grant} {req : AuthReq}
    (h : (authzCall env.gc env.ccfg cdb now client g req).2 = .ok g') (hr : g.authReq = some req) :
    Evo env k g g' ∧ ScopeOk env g' := by
  unfold authzCall at h
  by_cases h0 : env.gc.implicit = true
  · simp only [h0, if_true, implicitCall] at h
    split at h
    · cases h
    · cases h
      exact ⟨Evo.refl g, req, hr, fun hc => by rw [h0] at hc; cases hc⟩
  rw [Bool.not_eq_true] at h0
  simp only [h0, Bool.false_eq_true, if_false] at h
  by_cases h1 : req.scope = []
  · simp [h1] at h
  · simp only [h1, if_false, hr] at h
    cases hc : (claimsForAll env.ccfg client req.claims req.scope interfaces cdb (req.claims.getD g.claims)).2 with
    | error e => simp [hc] at h
    | ok cl =>
      simp only [hc] at h
      have h2 := Evo.one (env := env) (k := k) g (.configure
        { expiresAt := (match env.gc.expiresIn with | some e => now + e | none => g.expiresAt), scope := req.scope,
          claims := cl, resources := [client], usageRules := env.gc.usageRules.getD g.usageRules, maxUsage := g.maxUsage })
        ⟨h0, rfl, req, hr, rfl⟩
      simp only [Grant.step] at h2
      rw [hr] at h2
      cases h
      exact ⟨h2, req, rfl, fun _ => ⟨rfl, h1⟩⟩

theorem getToken_tokenAt {g : Grant} {v : Str} {t : Token} (h : g.getToken v = some t) : ∃ i, g.tokenAt i = some t := by
  obtain ⟨i, h1, _⟩ := findValue_pos h
  exact ⟨i, h1⟩

theorem codePart_st (h : St env C s0 s) {sid : Str} (hs : Sid3 sid) {g : Grant} (hg : Has env C s0 sid g) (hsc : ScopeOk env g)
    (now : Int) (mc : MintIn) (req : AuthReq) :
    St env C s0 (codePart env s now mc sid g req).1 ∧ Has env C s0 sid (codePart env s now mc sid g req).2.1 ∧
    ScopeOk env (codePart env s now mc sid g req).2.1 ∧
    ∀ t, (codePart env s now mc sid g req).2.2 = .ok (some t) → ∃ i, (codePart env s now mc sid g req).2.1.tokenAt i = some t := by
  unfold codePart
  by_cases hc : c!"code" ∈ req.responseType
  · simp only [hc, if_true]
    have h1 := h.mint hs hg now mc tAuthorizationCode env.th.code none (by simp) (by simp) hsc
    refine ⟨h1.1, h1.2.2, h1.2.1.scopeOk hsc, ?_⟩
    intro t ht
    rcases mintAndStore_spec env env.th.code s now mc sid tAuthorizationCode g none with ⟨_, _, e, h3⟩ | ⟨v, t', hrest⟩
    · rw [h3] at ht; simp [Except.map] at ht
    · obtain ⟨_, _, _, h4, _, _, _, _, _, _, _, _, _, _, h5, _⟩ := hrest
      rcases h5 with ⟨e, h5⟩ | ⟨h5, _⟩
      · rw [h5] at ht; simp [Except.map] at ht
      · rw [h5] at ht
        simp only [Except.map, Except.ok.injEq, Option.some.injEq] at ht
        subst ht
        refine ⟨g.issuedToken.length, ?_⟩
        unfold Grant.tokenAt
        rw [h4]
        simp
  · simp only [hc, if_false]
    exact ⟨h, hg, hsc, by simp⟩

theorem tokenPart_st (h : St env C s0 s) {sid : Str} (hs : Sid3 sid) {g : Grant} (hg : Has env C s0 sid g) (hsc : ScopeOk env g)
    (now : Int) (ma : MintIn) (code : Option Token) (hb : ∀ t, code = some t → ∃ i, g.tokenAt i = some t) (req : AuthReq) :
    St env C s0 (tokenPart env s now ma sid g code req).1 := by
  unfold tokenPart
  by_cases hc : c!"token" ∈ req.responseType
  · simp only [hc, if_true]
    exact (h.mint hs hg now ma tAccessToken env.th.accessToken code (by simp [tAccessToken, tAuthorizationCode]) hb hsc).1
  · simp only [hc, if_false]
    exact h

theorem idTokenPart_st (h : St env C s0 s) (idt : Out Str) (sid : Str) (req : AuthReq) :
    St env C s0 (idTokenPart s idt sid req).1 := by
  unfold idTokenPart
  split
  · cases idt with
    | raise e => exact h
    | errMsg e => exact h
    | val i =>
      simp only
      cases hu : unpack3 sid with
      | error e => exact h
      | ok t =>
        obtain ⟨u, c, gi⟩ := t
        simp only
        cases hd : dbGet s [u, c] with
        | error e => exact h
        | ok o =>
          simp only
          have hset : St env C s0 (dbSet s [u, c] o).1 := by
            obtain ⟨hk, _⟩ := dbGet_key h.noEmpty hd
            apply h.set
            · simp
            · intro i hi
              rw [hi] at hk
              exact h.noEmpty _ _ hk
            · intro g hg
              rw [hg] at hk
              exact h.moves _ _ hk
          cases hw : (dbSet s [u, c] o).2 with
          | error e => exact hset
          | ok _ => exact hset
  · exact h

theorem createAuthnResponse_st (h : St env C s0 s) {sid : Str} (now : Int) (mc ma : MintIn) (idt : Out Str) (req : AuthReq)
    (hsc : ∀ g, s sid = some (.grant g) → ScopeOk env g) :
    St env C s0 (createAuthnResponse env s now mc ma idt req sid).1 := by
  unfold createAuthnResponse
  split
  · exact h
  · cases hg : getGrant s sid with
    | error e => exact h
    | ok g =>
      obtain ⟨hk, hs, _⟩ := getGrant_key h.noEmpty hg
      simp only
      have h1 := codePart_st h hs (h.moves _ _ hk) (hsc g hk) now mc req
      cases h2 : (codePart env s now mc sid g req).2.2 with
      | error e => exact h1.1
      | ok code =>
        simp only
        have h3 := tokenPart_st h1.1 hs h1.2.1 h1.2.2.1 now ma code (by
          intro t ht
          rw [ht] at h2
          exact h1.2.2.2 t h2) req
        cases h4 : (tokenPart env (codePart env s now mc sid g req).1 now ma sid (codePart env s now mc sid g req).2.1 code req).2.2 with
        | error e => exact h3
        | ok tok =>
          simp only
          have h5 := idTokenPart_st h3 idt sid req
          cases h6 : (idTokenPart (tokenPart env (codePart env s now mc sid g req).1 now ma sid
              (codePart env s now mc sid g req).2.1 code req).1 idt sid req).2 with
          | raise e => exact h5
          | errMsg e => exact h5
          | val i =>
            simp only
            split
            · exact h5
            · exact h5

/-- What is stored last under a three-part key is read back. -/
theorem dbSet3_own (s : Store) (u c g : Str) (v : Obj) (hg : g ≠ []) : (dbSet s [u, c, g] v).1 (sessionKey [u, c, g]) = some v := by
  have htg : truthy (some g) = true := by
    cases g with
    | nil => exact absurd rfl hg
    | cons a b => rfl
  have hne1 : sessionKey [u, c, g] ≠ u := by
    intro e
    have := congrArg List.length e
    simp [sessionKey, pyJoin, divider] at this
  have hne2 : sessionKey [u, c, g] ≠ sessionKey [u, c] := by
    intro e
    have := congrArg List.length e
    simp [sessionKey, pyJoin, divider] at this
  have husr : ∀ (s1 : Store) (c : Str), s1 (sessionKey [u, c, g]) = some v →
      sessionKey [u, c, g] ≠ u → (dbSetUser s1 u (some c) v).1 (sessionKey [u, c, g]) = some v := by
    intro s1 c h1 h2
    unfold dbSetUser
    cases c with
    | nil => exact h1
    | cons c0 cs =>
      simp only
      cases hu : s1 u with
      | none => simp only [Store.put, h2, if_false]; exact h1
      | some o =>
        cases o with
        | grant _ => exact h1
        | info i =>
          simp only
          split
          · exact h1
          · simp only [Store.put, h2, if_false]; exact h1
  have hcl : ∀ (s1 : Store), s1 (sessionKey [u, c, g]) = some v →
      (dbSetClient s1 u c (some g) v).1 (sessionKey [u, c, g]) = some v := by
    intro s1 h1
    unfold dbSetClient
    cases g with
    | nil => exact absurd rfl hg
    | cons g0 gs =>
      simp only
      cases hu : s1 (sessionKey [u, c]) with
      | none => simp only [Store.put, hne2, if_false]; exact h1
      | some o =>
        cases o with
        | grant _ => exact h1
        | info i =>
          simp only
          split
          · exact h1
          · simp only [Store.put, hne2, if_false]; exact h1
  have h0 : (s.put (sessionKey [u, c, g]) v) (sessionKey [u, c, g]) = some v := by simp [Store.put]
  unfold dbSet
  simp only [evalPath, htg, if_true, Option.getD_some]
  by_cases hc : truthy (some c) = true
  · simp only [hc, if_true]
    have h1 := hcl _ h0
    cases hr : (dbSetClient (s.put (sessionKey [u, c, g]) v) u c (some g) v).2 with
    | error e => exact h1
    | ok _ => exact husr _ c h1 hne1
  · simp only [hc, if_false]
    exact husr _ c h0 hne1

theorem mgrSet_own (s : Store) (sid : Str) (hs : Sid3 sid) (v : Obj) : (mgrSet s sid v).1 sid = some v := by
  obtain ⟨u, c, g, h1, h2⟩ := hs
  have h3 := session_key_unpack sid
  unfold mgrSet
  rw [h1] at h3 ⊢
  have := dbSet3_own s u c g v h2
  rw [h3] at this
  exact this

theorem authzPart2_st (h : St env C s0 s) {sid : Str} (cdb : Cdb) (now : Int) (mc ma : MintIn) (idt : Out Str) (req : AuthReq)
    (hreq : ∀ g, getGrant s sid = .ok g → g.authReq = some req) :
    St env C s0 (authzPart2 env cdb s now mc ma idt req sid).2.1 := by
  unfold authzPart2
  cases hg : getGrant s sid with
  | error e => exact h
  | ok g =>
    obtain ⟨hk, hs, u, c, gi, hu⟩ := getGrant_key h.noEmpty hg
    obtain ⟨hu1, hu2⟩ := unpack3_key hu
    simp only [hu]
    cases ha : (authzCall env.gc env.ccfg cdb now c g req).2 with
    | error e => exact h
    | ok g' =>
      simp only
      have hev := authzCall_evo (env := env) (k := sid) ha (hreq g hg)
      have hgi : gi ≠ [] := by
        obtain ⟨u', c', gi', e1, e2⟩ := hs
        rw [hu1] at e1
        cases e1
        exact e2
      have hset : St env C s0 (dbSet s [u, c, gi] (.grant g')).1 := by
        apply h.set
        · rintro _ _ _ _ ⟨⟩; exact hgi
        · simp
        · rintro g2 ⟨⟩
          have : sessionKey ([u, c, gi].take 3) = sid := hu2
          rw [this]
          exact (h.moves _ _ hk).evo hev.1
      cases hw : (dbSet s [u, c, gi] (.grant g')).2 with
      | error e => exact hset
      | ok _ =>
        simp only
        have hr := createAuthnResponse_st hset (sid := sid) now mc ma idt req (by
          intro g2 hg2
          have := dbSet3_own s u c gi (.grant g') hgi
          rw [hu2, hg2] at this
          cases this
          exact hev.2)
        cases hx : (createAuthnResponse env (dbSet s [u, c, gi] (.grant g')).1 now mc ma idt req sid).2 with
        | error e => exact hr
        | ok cf =>
          obtain ⟨content, frag⟩ := cf
          simp only
          cases getUri env.lib (authzCall env.gc env.ccfg cdb now c g req).1 .redirect req.clientId req.redirectUri with
          | error e => exact hr
          | ok uri =>
            simp only
            cases responseMode req.responseMode frag with
            | error e => exact hr
            | ok pl => exact hr

theorem authzProcess_st {gid : Str} {req : AuthReq} (hn : NoEmpty s0) (hgid : gid ≠ [])
    (hfresh : ∀ u c g, s0 (sessionKey [u, c, gid]) ≠ some (.grant g)) (cdb : Cdb) (now : Int) (mc ma : MintIn) (idt : Out Str)
    (a : AuthnIn) : St env (NewFor env s0 now a gid req) s0 (authzProcess env cdb s0 now gid mc ma idt a req).2.1 := by
  unfold authzProcess
  cases hc : cdb req.clientId with
  | none => exact St.start hn
  | some c =>
    simp only
    split
    · exact St.start hn
    · have h1 := setupAuth_st (env := env) (req := req) hn hgid cdb now a
      cases hs : (setupAuth env cdb s0 now gid req a).2 with
      | raise e => exact h1.1
      | errMsg e => exact h1.1
      | val x =>
        cases x with
        | login => exact h1.1
        | loginRequired => exact h1.1
        | session sid u =>
          simp only
          apply authzPart2_st h1.1
          intro g hgg
          obtain ⟨hg, _, u1, c1, gi, hu1⟩ := getGrant_key h1.1.noEmpty hgg
          rcases h1.2 sid u hs with ⟨u', c', hk⟩ | ⟨g0, h2, h3, h4⟩
          · obtain ⟨g0, h5, h6⟩ := h1.1.moves _ _ hg
            rcases h5 with h5 | h5
            · rw [hk] at h5
              exact absurd h5 (hfresh _ _ _)
            · rw [h6.authReq]
              exact h5.2.2.2.2.1
          · rw [h4] at hg
            have h5 := (dbGet_key hn h2).1
            rw [(unpack3_key hu1).1] at h5
            have h6 : s0 (sessionKey [u1, c1, gi]) = some (.grant g0) := h5
            rw [(unpack3_key hu1).2, hg] at h6
            cases h6
            exact h3

end Verif
