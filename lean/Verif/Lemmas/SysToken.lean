import Verif.Lemmas.SysAuthz
set_option linter.unusedSimpArgs false
set_option linter.unusedVariables false
/-! The token endpoint and the session manager's calls, seen from the stored grants. -/
namespace Verif
open Spec

variable {env : Env} {C : Str → Grant → Prop} {s0 s : Store}

theorem sessionByToken_key {th : TokenHandler} {cr : TokenCrypto} (hn : NoEmpty s) {now : Int} {v sid : Str} {o : Obj}
    (h : sessionByToken th cr s now v = .ok (sid, o)) : th.sid cr now v = .ok sid ∧ s sid = some o ∧ Sid3 sid := by
  unfold sessionByToken at h
  cases h1 : th.sid cr now v with
  | error e => simp [h1] at h
  | ok sid' =>
    simp only [h1] at h
    cases hu : unpack3 sid' with
    | error e => simp [hu] at h
    | ok t =>
      obtain ⟨u, c, g⟩ := t
      simp only [hu] at h
      cases hd : dbGet s [u, c, g] with
      | error e => simp [hd] at h
      | ok o' =>
        simp only [hd] at h
        cases h
        obtain ⟨h2, h3⟩ := read3 hn hu hd
        exact ⟨rfl, h2, h3⟩

/-- After minting, the tokens that were there are where they were, unchanged. -/
theorem mint_keeps (env : Env) (hd : Option Handler) (s : Store) (now : Int) (m : MintIn) (sid tt : Str) (g : Grant)
    (b : Option Token) (i : Nat) (t : Token) (h : g.tokenAt i = some t) :
    (mintAndStore env hd s now m sid tt g b).2.1.tokenAt i = some t := by
  rcases mintAndStore_spec env hd s now m sid tt g b with ⟨_, h2, _⟩ | ⟨v, t', hrest⟩
  · rw [h2]; exact h
  · obtain ⟨_, _, _, h4, _⟩ := hrest
    unfold Grant.tokenAt at h ⊢
    rw [h4, List.getElem?_append_left (List.getElem?_eq_some_iff.1 h).1]
    exact h

theorem refreshPart_st (h : St env C s0 s) {sid : Str} (hs : Sid3 sid) {g : Grant} (hg : Has env C s0 sid g) (hsc : ScopeOk env g)
    (i : TokIn) (b : Option Token) (hb : ∀ bt, b = some bt → ∃ i, g.tokenAt i = some bt) (want : Bool) :
    St env C s0 (refreshPart env s i sid g b want).1 ∧ Evo env sid g (refreshPart env s i sid g b want).2.1 := by
  unfold refreshPart
  cases want with
  | true =>
    simp only [if_true]
    have := h.mint hs hg i.now i.mr tRefreshToken env.th.accessToken b (by simp [tRefreshToken, tAuthorizationCode]) hb hsc
    exact ⟨this.1, this.2.1⟩
  | false => exact ⟨h, Evo.refl g⟩

theorem finishCode_st (h : St env C s0 s) {sid : Str} (hs : Sid3 sid) {g : Grant} (hg : Has env C s0 sid g) (i : TokIn)
    (b : Option Token) (ar : AuthReq) (tok : Token) (rt : Option Token) :
    St env C s0 (finishCode s i sid g b ar tok rt).1 := by
  unfold finishCode
  cases b with
  | none => exact h
  | some b =>
    simp only
    have h1 : St env C s0 (mgrSet s sid (.grant (g.registerUsage b.value))).1 :=
      h.mgrSet hs (hg.evo (Evo.one g (.use b.value) trivial))
    cases hw : (mgrSet s sid (.grant (g.registerUsage b.value))).2 with
    | error e => exact h1
    | ok _ =>
      simp only
      cases idTokenFor (decide (c!"openid" ∈ ar.scope)) i.idt with
      | raise e => exact h1
      | errMsg e => exact h1
      | val x => exact h1

theorem exchangeCode_st (h : St env C s0 s) {sid : Str} (hs : Sid3 sid) {g : Grant} (hg : Has env C s0 sid g) (hsc : ScopeOk env g)
    (i : TokIn) (b : Option Token) (hb : ∀ bt, b = some bt → ∃ i, g.tokenAt i = some bt) (ar : AuthReq) :
    St env C s0 (exchangeCode env s i sid g b ar).1 := by
  unfold exchangeCode
  simp only
  have h1 := h.mint hs hg i.now i.ma tAccessToken env.th.accessToken b (by simp [tAccessToken, tAuthorizationCode]) hb hsc
  cases he : (mintAndStore env env.th.accessToken s i.now i.ma sid tAccessToken g b).2.2 with
  | error e => exact h1.1
  | ok tok =>
    simp only
    have hb' : ∀ bt, b = some bt → ∃ j, (mintAndStore env env.th.accessToken s i.now i.ma sid tAccessToken g b).2.1.tokenAt j = some bt := by
      intro bt hbt
      obtain ⟨j, hj⟩ := hb bt hbt
      exact ⟨j, mint_keeps env _ s i.now i.ma sid tAccessToken g b j bt hj⟩
    have h2 := refreshPart_st h1.1 hs h1.2.2 (h1.2.1.scopeOk hsc) i b hb' (decide (c!"offline_access" ∈ g.scope))
    generalize refreshPart env (mintAndStore env env.th.accessToken s i.now i.ma sid tAccessToken g b).1 i sid
      (mintAndStore env env.th.accessToken s i.now i.ma sid tAccessToken g b).2.1 b (decide (c!"offline_access" ∈ g.scope)) = R at h2 ⊢
    cases hR : R.2.2 with
    | error e => exact h2.1
    | ok rt => exact finishCode_st h2.1 hs (h1.2.2.evo h2.2) i b ar tok rt

theorem modify_congr {α : Type} (l : List α) (n : Nat) (f f' : α → α) (h : ∀ x, l[n]? = some x → f x = f' x) :
    l.modify n f = l.modify n f' := by
  apply List.ext_getElem?
  intro i
  rw [List.getElem?_modify, List.getElem?_modify]
  by_cases hi : n = i
  · subst hi
    cases hx : l[n]? with
    | none => rfl
    | some x => simp [h x hx]
  · simp [hi]

theorem newRefresh_st (m : Mode) (h : St env C s0 s) {sid : Str} (hs : Sid3 sid) {g : Grant} (hg : Has env C s0 sid g)
    (hsc : ScopeOk env g) (hm : g.tokenMap = defaultTokenMap) (i : TokIn) (b : Token) (hb : ∃ i, g.tokenAt i = some b) (want : Bool) :
    St env C s0 (newRefresh m env s i sid g b want).1 := by
  unfold newRefresh
  simp only
  have h1 := refreshPart_st h hs hg hsc i (some b) (by rintro bt ⟨⟩; exact hb) want
  cases hr : (refreshPart env s i sid g (some b) want).2.2 with
  | error e => exact h1.1
  | ok o =>
    cases o with
    | none => exact h1.1
    | some t =>
      simp only
      unfold touch
      cases m with
      | byValue => exact h1.1
      | aliased =>
        simp only
        apply h1.1.putGrant
        refine (hg.evo h1.2).evo ?_
        -- copying the rules is the operation `copyRules`
        cases want with
        | false => simp [refreshPart] at hr
        | true =>
          simp only [refreshPart, if_true] at hr ⊢
          obtain ⟨j, hj⟩ := hb
          have hk := mint_keeps env env.th.accessToken s i.now i.mr sid tRefreshToken g (some b) j b hj
          rcases mintAndStore_spec env env.th.accessToken s i.now i.mr sid tRefreshToken g (some b) with ⟨_, _, e, h3⟩ | ⟨v, t', hrest⟩
          · rw [h3] at hr; simp [Except.map] at hr
          · obtain ⟨_, _, _, h4, _, _, _, _, _, _, h5, _⟩ := hrest
            generalize (mintAndStore env env.th.accessToken s i.now i.mr sid tRefreshToken g (some b)).2.1 = G at hk h4 ⊢
            have h6 := Evo.one (env := env) (k := sid) G (.copyRules j (G.issuedToken.length - 1)) trivial
            simp only [Grant.step, hk] at h6
            have hkind : t'.kind = .refreshToken := by
              rw [hm] at h5
              simp [defaultTokenMap, Dict.get?, tRefreshToken, tAuthorizationCode, tAccessToken] at h5
              exact h5.symm
            have h7 : G.issuedToken.modify (G.issuedToken.length - 1) (setRules b.usageRules) =
                G.issuedToken.modify (G.issuedToken.length - 1) (fun t => { t with usageRules := b.usageRules }) := by
              apply modify_congr
              intro x hx
              rw [h4] at hx
              simp at hx
              subst hx
              simp [setRules, hkind]
            rw [h7] at h6
            exact h6

theorem finishRefresh_store (s : Store) (i : TokIn) (g : Grant) (mints : List Str) (tok : Token) (rt : Option Token) :
    (finishRefresh s i g mints tok rt).1 = s := by
  unfold finishRefresh
  cases idTokenFor (decide (c!"id_token" ∈ mints)) i.idt <;> rfl

theorem exchangeRefresh_st (m : Mode) (h : St env C s0 s) {sid : Str} (hs : Sid3 sid) {g : Grant} (hg : Has env C s0 sid g)
    (hsc : ScopeOk env g) (hm : g.tokenMap = defaultTokenMap) (i : TokIn) (b : Option Token)
    (hb : ∀ bt, b = some bt → ∃ i, g.tokenAt i = some bt) :
    St env C s0 (exchangeRefresh m env s i sid g b).1 := by
  unfold exchangeRefresh
  simp only
  have h1 := h.mint hs hg i.now i.ma tAccessToken env.th.accessToken b (by simp [tAccessToken, tAuthorizationCode]) hb hsc
  cases he : (mintAndStore env env.th.accessToken s i.now i.ma sid tAccessToken g b).2.2 with
  | error e => exact h1.1
  | ok tok =>
    simp only
    cases b with
    | none => exact h1.1
    | some b =>
      simp only
      cases b.usageRules.supportsMinting with
      | none => exact h1.1
      | some mints =>
        simp only
        obtain ⟨j, hj⟩ := hb b rfl
        have hk := mint_keeps env env.th.accessToken s i.now i.ma sid tAccessToken g (some b) j b hj
        have h2 := newRefresh_st m h1.1 hs h1.2.2 (h1.2.1.scopeOk hsc) (by rw [h1.2.1.tokenMap]; exact hm) i b ⟨j, hk⟩
          (decide (tRefreshToken ∈ mints))
        generalize newRefresh m env (mintAndStore env env.th.accessToken s i.now i.ma sid tAccessToken g (some b)).1 i sid
          (mintAndStore env env.th.accessToken s i.now i.ma sid tAccessToken g (some b)).2.1 b (decide (tRefreshToken ∈ mints)) = R at h2 ⊢
        cases hR : R.2 with
        | error e => exact h2
        | ok rt => simp only; rw [finishRefresh_store]; exact h2

/-- The key belongs to one of the grant ids `used`. -/
def UsedKey (used : List Str) (k : Str) : Prop := ∃ u c gid, gid ∈ used ∧ k = sessionKey [u, c, gid]

/-- What is known of a parsed token request for the helper that will process it: the token it names was, and still is
unless the grant is gone, a code (or a refresh token) of its session. -/
def PendOk (env : Env) (helpers : Dict Helper) (used : List Str) (s : Store) (req : TokReq) : Prop :=
  ∀ gt, req.grantType = some gt →
    (helpers.get? gt = some (.inst .accessToken) → ∃ c, req.code = some c ∧ plusForBlank c = c ∧
      ∀ now sid, env.th.sid env.cr now c = .ok sid → UsedKey used sid ∧
        ∀ g, s sid = some (.grant g) → ∃ t, g.getToken c = some t ∧ t.kind = .authorizationCode) ∧
    (helpers.get? gt = some (.inst .refreshToken) → ∃ v, req.refreshToken = some v ∧
      ∀ now sid, env.th.sid env.cr now v = .ok sid → UsedKey used sid ∧
        ∀ g, s sid = some (.grant g) → ∃ t, g.getToken v = some t ∧ t.kind = .refreshToken)

theorem getToken_nonempty {g : Grant} {v : Str} {t : Token} (h : g.getToken v = some t) : g.issuedToken ≠ [] := by
  intro e
  simp [Grant.getToken, findValue, e] at h

theorem tokProcess_st (m : Mode) {helpers : Dict Helper} {used : List Str} (hn : NoEmpty s0)
    (hgi : ∀ k g, s0 k = some (.grant g) → GInv env k g) (i : TokIn) (req : TokReq) (hp : PendOk env helpers used s0 req) :
    St env C s0 (tokProcess m env helpers s0 i req).1 := by
  have hst : St env C s0 s0 := St.start hn
  have hh : St env C s0 (helperProcess m env helpers s0 i req).1 := by
    unfold helperProcess
    cases hgt : req.grantType with
    | none => exact hst
    | some gt =>
      simp only
      cases hx : helpers.get? gt with
      | none => exact hst
      | some hc =>
        cases hc with
        | bare c => exact hst
        | inst c =>
          cases c with
          | accessToken =>
            simp only
            obtain ⟨c, hc, hpl, hpend⟩ := (hp gt hgt).1 hx
            unfold codeProcess
            split
            · exact hst
            · simp only [hc, hpl]
              cases hsb : sessionByToken env.th env.cr s0 i.now c with
              | error e => exact hst
              | ok x =>
                obtain ⟨sid, o⟩ := x
                obtain ⟨h1, h2, h3⟩ := sessionByToken_key hn hsb
                cases o with
                | info _ => exact hst
                | grant g =>
                  simp only
                  obtain ⟨t, ht, _⟩ := (hpend _ _ h1).2 g h2
                  cases har : g.authReq with
                  | none => exact hst
                  | some ar =>
                    simp only
                    cases redirectCheck ar req with
                    | raise e => exact hst
                    | errMsg e => exact hst
                    | val _ =>
                      exact exchangeCode_st hst h3 ⟨g, Or.inl h2, Evo.refl g⟩ ((hgi _ _ h2).scope (getToken_nonempty ht)) i _
                        (fun bt hbt => getToken_tokenAt hbt) ar
          | refreshToken =>
            simp only
            obtain ⟨v, hv, hpend⟩ := (hp gt hgt).2 hx
            unfold refreshProcess
            split
            · exact hst
            · simp only [hv]
              cases hsb : sessionByToken env.th env.cr s0 i.now v with
              | error e => exact hst
              | ok x =>
                obtain ⟨sid, o⟩ := x
                obtain ⟨h1, h2, h3⟩ := sessionByToken_key hn hsb
                cases o with
                | info _ => exact hst
                | grant g =>
                  simp only
                  obtain ⟨t, ht, _⟩ := (hpend _ _ h1).2 g h2
                  exact exchangeRefresh_st m hst h3 ⟨g, Or.inl h2, Evo.refl g⟩
                    ((hgi _ _ h2).scope (getToken_nonempty ht)) (hgi _ _ h2).tokenMap i _ (fun bt hbt => getToken_tokenAt hbt)
  unfold tokProcess
  simp only
  cases h1 : (helperProcess m env helpers s0 i req).2 with
  | raise e => exact hh
  | errMsg e => exact hh
  | val resp =>
    simp only
    cases sessionByToken env.th env.cr (helperProcess m env helpers s0 i req).1 i.now resp.accessToken with
    | error e => exact hh
    | ok x =>
      obtain ⟨sid, o⟩ := x
      cases o <;> exact hh

/-! ### Session-manager calls -/

theorem revokeToken_st (m : Mode) (h : St env C s0 s) (limit : Nat) (sid v : Str) (r : Bool) :
    St env C s0 (revokeToken m s limit sid v r).1 := by
  unfold Verif.revokeToken
  cases hf : findToken s sid v with
  | error e => exact h
  | ok x =>
    obtain ⟨g, t⟩ := x
    cases t with
    | none => exact h
    | some t =>
      simp only
      cases m with
      | byValue => exact h
      | aliased =>
        simp only
        have hk : s sid = some (.grant g) := by
          unfold findToken at hf
          cases hu : unpack3 sid with
          | error e => simp [hu] at hf
          | ok y =>
            obtain ⟨u, c, gi⟩ := y
            simp only [hu] at hf
            cases hd : dbGet s [u, c, gi] with
            | error e => simp [hd] at hf
            | ok o =>
              cases o with
              | info _ => simp [hd] at hf
              | grant g' =>
                simp only [hd, Except.ok.injEq, Prod.mk.injEq] at hf
                obtain ⟨rfl, _⟩ := hf
                exact (read3 h.noEmpty hu hd).1
        apply h.putGrant
        refine (h.moves _ _ hk).evo ?_
        have e1 := Evo.one (env := env) (k := sid) g (.revokeOne v) trivial
        cases r with
        | false => exact e1
        | true => exact Evo.step (.revokeDependent limit v) e1 trivial

theorem revokeGrant_st (h : St env C s0 s) (sid : Str) : St env C s0 (revokeGrant s sid).1 := by
  unfold Verif.revokeGrant
  cases hd : dbGet s (unpackSessionKey sid) with
  | error e => exact h
  | ok o =>
    simp only
    obtain ⟨hk, hp⟩ := dbGet_key h.noEmpty hd
    apply h.set _ _ hp
    · intro i hi
      cases o with
      | grant g => cases hi
      | info i0 =>
        cases hi
        exact h.noEmpty _ i0 hk
    · intro g hg
      cases o with
      | info i0 => cases hg
      | grant g0 =>
        cases hg
        exact (h.moves _ _ hk).evo (Evo.one g0 .revokeGrant trivial)

theorem revokeClientSession_st (h : St env C s0 s) (sid : Str) : St env C s0 (revokeClientSession s sid).1 := by
  have go : ∀ u c, St env C s0 (match dbGet s [u, c] with
      | .error e => ((s, .error e) : Store × Except Exn Unit)
      | .ok (.grant _) => (s, .error .typeError)
      | .ok (.info i) => dbSet s [u, c] (.info i.revoke)).1 := by
    intro u c
    cases hd : dbGet s [u, c] with
    | error e => exact h
    | ok o =>
      cases o with
      | grant g => exact h
      | info i =>
        simp only
        obtain ⟨hk, hp⟩ := dbGet_key h.noEmpty hd
        apply h.set _ _ hp
        · rintro i' ⟨⟩; exact h.noEmpty _ i hk
        · rintro g ⟨⟩
  unfold Verif.revokeClientSession
  simp only
  split
  · exact go _ _
  · exact go _ _
  · exact h

theorem delete_st (m : Mode) (h : St env C s0 s) (path : List Str) : St env C s0 (dbDelete m s path).1 := by
  refine ⟨?_, ?_⟩
  · intro k g hk
    rcases dbDelete_writes m s path k _ hk with h1 | ⟨i, h1, _⟩
    · exact h.moves k g h1
    · cases h1
  · intro k i hk
    rcases dbDelete_writes m s path k _ hk with h1 | ⟨i', h1, h2⟩
    · exact h.noEmpty k i h1
    · cases h1; exact h2 h.noEmpty

theorem addGrant_st (h : St env C s0 s) (now : Int) (gid u c : Str) (a : GrantArgs) (hgid : gid ≠ [])
    (hC : C (sessionKey [u, c, gid]) (Grant.new now gid { a with claims := [] })) :
    St env C s0 (addGrant s now gid u c a).1 := by
  unfold Verif.addGrant
  simp only
  generalize hG : Grant.new now gid { a with claims := [] } = G at hC ⊢
  have h1 : St env C s0 (dbSet s [u, c, gid] (.grant G)).1 := by
    apply h.set
    · rintro _ _ _ _ ⟨⟩; exact hgid
    · simp
    · rintro g ⟨⟩
      exact ⟨G, Or.inr hC, Evo.refl G⟩
  cases hw : (dbSet s [u, c, gid] (.grant G)).2 with
  | error e => exact h1
  | ok _ =>
    simp only
    cases hd : dbGet (dbSet s [u, c, gid] (.grant G)).1 [u, c] with
    | error e => exact h1
    | ok o =>
      cases o with
      | grant g => exact h1
      | info i =>
        simp only
        obtain ⟨hk, hp⟩ := dbGet_key h1.noEmpty hd
        have h2 : St env C s0 (dbSet (dbSet s [u, c, gid] (.grant G)).1 [u, c]
            (.info { i with subordinate := i.subordinate ++ [gid] })).1 := by
          apply h1.set _ _ hp
          · rintro i' ⟨⟩
            simp only [List.mem_append, List.mem_singleton, not_or]
            exact ⟨h1.noEmpty _ _ hk, fun e => hgid e.symm⟩
          · rintro g ⟨⟩
        cases hw2 : (dbSet (dbSet s [u, c, gid] (.grant G)).1 [u, c]
            (.info { i with subordinate := i.subordinate ++ [gid] })).2 with
        | error e => exact h2
        | ok _ => exact h2

end Verif
