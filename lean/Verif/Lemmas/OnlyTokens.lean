import Verif.Lemmas.SysToken
import Verif.Props.AuthzResponse
set_option linter.unusedSimpArgs false
set_option linter.unusedVariables false
/-! Where the token strings in the storage come from: each function of the endpoints, seen from the strings that are stored
after it. -/
namespace Verif
open Spec

/-- Every token of the grant satisfies `P`: session id, token type, string. -/
def GOnly (P : Str → Str → Str → Prop) (k : Str) (g : Grant) : Prop := ∀ t ∈ g.issuedToken, P k t.typ t.value

/-- Every stored token satisfies `P`. -/
structure Only (P : Str → Str → Str → Prop) (s : Store) : Prop where
  noEmpty : NoEmpty s
  toks : ∀ k g, s k = some (.grant g) → GOnly P k g

variable {env : Env} {P : Str → Str → Str → Prop} {s : Store}

theorem Only.set (h : Only P s) (path : List Str) (v : Obj) (hp : ∀ u c g r, path = u :: c :: g :: r → g ≠ [])
    (hi : ∀ i, v = .info i → [] ∉ i.subordinate) (hg : ∀ g, v = .grant g → GOnly P (sessionKey (path.take 3)) g) :
    Only P (dbSet s path v).1 := by
  refine ⟨?_, ?_⟩
  · intro k i hk
    rcases dbSet_writes s path v hp (fun _ => hi) k _ hk with h1 | ⟨h1, h2⟩ | ⟨i', h1, h2⟩
    · exact h.noEmpty k i h1
    · exact hi i h2.symm
    · cases h1; exact h2 h.noEmpty
  · intro k g hk
    rcases dbSet_writes s path v hp (fun _ => hi) k _ hk with h1 | ⟨h1, h2⟩ | ⟨i, h1, _⟩
    · exact h.toks k g h1
    · rw [h1]; exact hg g h2.symm
    · cases h1

theorem Only.putGrant (h : Only P s) {k : Str} {g : Grant} (hg : GOnly P k g) : Only P (s.put k (.grant g)) := by
  refine ⟨?_, ?_⟩
  · intro k' i hk
    simp only [Store.put] at hk
    split at hk
    · cases hk
    · exact h.noEmpty _ _ hk
  · intro k' g' hk
    simp only [Store.put] at hk
    split at hk
    · cases hk; simp_all
    · exact h.toks _ _ hk

theorem Only.mgrSet (h : Only P s) {sid : Str} (hs : Sid3 sid) {g : Grant} (hg : GOnly P sid g) :
    Only P (mgrSet s sid (.grant g)).1 := by
  unfold Verif.mgrSet
  obtain ⟨u, c, gi, h1, h2⟩ := hs
  have h3 := session_key_unpack sid
  apply h.set
  · rintro u' c' g' r h4
    rw [h1] at h4
    cases h4
    exact h2
  · simp
  · intro g' hg'
    cases hg'
    rw [h1] at h3 ⊢
    have : sessionKey ([u, c, gi].take 3) = sid := h3
    rw [this]
    exact hg

theorem gonly_evolves {k : Str} {g g' : Grant} (h : Evolves g.issuedToken g'.issuedToken) (hg : GOnly P k g) : GOnly P k g' := by
  intro t' ht'
  obtain ⟨t, ht, hp⟩ := mem_evolves h ht'
  rw [hp.typ, hp.value]
  exact hg t ht

/-- Operations other than minting make no token. -/
theorem gonly_step {k : Str} {g : Grant} (op : GrantOp) (hop : ∀ now id tt b rules scope args v, op ≠ .mint now id tt b rules scope args v)
    (hg : GOnly P k g) : GOnly P k (g.step op) := by
  rcases step_tokens g op with he | ⟨now, id, tt, b, rules, scope, args, v, k0, a, rfl, _⟩
  · exact gonly_evolves he hg
  · exact absurd rfl (hop _ _ _ _ _ _ _ _)

theorem only_mint (h : Only P s) {sid : Str} (hs : Sid3 sid) {g : Grant} (hg : GOnly P sid g) (now : Int) (m : MintIn) (tt : Str)
    (hd : Option Handler) (b : Option Token) (hv : ∀ v, tokenString env hd now m sid = .ok v → P sid tt v) :
    Only P (mintAndStore env hd s now m sid tt g b).1 ∧ GOnly P sid (mintAndStore env hd s now m sid tt g b).2.1 ∧
    ∀ t, (mintAndStore env hd s now m sid tt g b).2.2 = .ok t → tokenString env hd now m sid = .ok t.value := by
  rcases mintAndStore_spec env hd s now m sid tt g b with ⟨h1, h2, e, h3⟩ | ⟨v, t, hrest⟩
  · rw [h1, h2, h3]; exact ⟨h, hg, by simp⟩
  · obtain ⟨e1, _, _, e2, e3, _, e4, _, _, _, _, _, _, e5, e6, _⟩ := hrest
    have hg' : GOnly P sid (mintAndStore env hd s now m sid tt g b).2.1 := by
      intro t' ht'
      rw [e2, List.mem_append, List.mem_singleton] at ht'
      rcases ht' with ht' | rfl
      · exact hg t' ht'
      · rw [e4, e3]; exact hv v e1
    refine ⟨by rw [e5]; exact h.mgrSet hs hg', hg', ?_⟩
    intro t' ht'
    rcases e6 with ⟨e, e6⟩ | ⟨e6, _⟩
    · rw [e6] at ht'; cases ht'
    · rw [e6] at ht'
      cases ht'
      rw [e1, e3]

theorem only_createGrant (h : Only P s) (sf : SubFuncs) (now : Int) (gid u c : Str) (a : SessArgs) (hgid : gid ≠ []) :
    Only P (createGrant sf s now gid u c a).1 := by
  unfold createGrant
  cases hn : newGrant sf now gid u a with
  | error e => exact h
  | ok g =>
    simp only
    have hg : g.issuedToken = [] := by
      unfold newGrant at hn
      cases hf : sf a.subType with
      | none => simp [hf] at hn
      | some f => simp only [hf] at hn; cases hn; rfl
    have hset : Only P (dbSet s [u, c, gid] (.grant g)).1 := by
      apply h.set
      · rintro _ _ _ _ ⟨⟩; exact hgid
      · simp
      · rintro g' ⟨⟩ t ht
        rw [hg] at ht
        cases ht
    cases hw : (dbSet s [u, c, gid] (.grant g)).2 <;> exact hset

theorem only_ensureUser (h : Only P s) (u : Str) : Only P (ensureUser s u).1 := by
  unfold ensureUser
  cases dbGet s [u] with
  | ok _ => exact h
  | error e =>
    simp only
    split
    · apply h.set
      · simp
      · rintro i ⟨⟩; simp [SessInfo.user]
      · rintro g ⟨⟩
    · exact h

theorem only_createSession (h : Only P s) (sf : SubFuncs) (now : Int) (gid u c : Str) (a : SessArgs) (hgid : gid ≠ []) :
    Only P (createSession sf s now gid u c a).1 := by
  unfold createSession
  simp only
  have h1 := only_ensureUser h u
  cases he : (ensureUser s u).2 with
  | error e => exact h1
  | ok _ =>
    simp only
    generalize (if c = [] then a.authReq.clientId else c) = c'
    have h2 : Only P (dbSet (ensureUser s u).1 [u, c'] (.info (SessInfo.client c'))).1 := by
      apply h1.set
      · simp
      · rintro i ⟨⟩; simp [SessInfo.client]
      · rintro g ⟨⟩
    cases hw : (dbSet (ensureUser s u).1 [u, c'] (.info (SessInfo.client c'))).2 with
    | error e => exact h2
    | ok _ => exact only_createGrant h2 sf now gid u c' a hgid

theorem only_setupAuth (h : Only P s) (cdb : Cdb) (now : Int) (gid : Str) (req : AuthReq) (a : AuthnIn) (hgid : gid ≠ []) :
    Only P (setupAuth env cdb s now gid req a).1 := by
  unfold setupAuth
  cases a.ident with
  | nobody => exact h
  | plain uid =>
    simp only
    split
    · exact h
    · split
      · exact h
      · unfold startSession
        simp only
        generalize ({ authnEvent := _, authReq := req, usageRules := usageRulesOf env.gc cdb req.clientId } : SessArgs) = A
        have h1 := only_createSession h env.sf now gid uid req.clientId A hgid
        cases (createSession env.sf s now gid uid req.clientId A).2 <;> exact h1
  | decoded uid sid0 =>
    simp only
    cases sid0 with
    | none => exact h
    | some sid0 =>
      simp only
      cases hg0 : mgrGet s sid0 with
      | error e => exact h
      | ok o =>
        cases o with
        | info i => exact h
        | grant g0 =>
          simp only
          by_cases hact : g0.isActive now = false
          · rw [if_pos hact]; exact h
          · rw [if_neg hact]
            by_cases h1 : a.reAuth = true
            · rw [if_pos h1]; exact h
            · rw [if_neg h1]
              cases uid with
              | none => exact h
              | some uid =>
                simp only
                by_cases h2 : a.reqUser.isSome = true ∧ a.reqUser ≠ some uid
                · rw [if_pos h2]; exact h
                · rw [if_neg h2]
                  cases hu : unpack3 sid0 with
                  | error e => exact h
                  | ok t =>
                    obtain ⟨u1, c1, g1⟩ := t
                    simp only
                    by_cases h3 : req.clientId = c1
                    · simp only [h3, ne_eq, not_true_eq_false, if_false]
                      generalize hR : (if g0.authReq = some req then (s, Out.val sid0) else _ : Store × Out Str) = R
                      have hR1 : Only P R.1 := by
                        rw [← hR]
                        by_cases h4 : g0.authReq = some req
                        · simp only [h4, if_true]; exact h
                        · simp only [h4, if_false]
                          cases hev : eventValid now g0.authnEvent with
                          | error e => exact h
                          | ok b =>
                            cases b with
                            | false => exact h
                            | true =>
                              simp only
                              have hc := only_createGrant h env.sf now gid uid c1 { authnEvent := g0.authnEvent, authReq := req } hgid
                              cases (createGrant env.sf s now gid uid c1 { authnEvent := g0.authnEvent, authReq := req }).2 <;> exact hc
                      cases hr2 : R.2 with
                      | raise e => exact hR1
                      | errMsg e => exact hR1
                      | val sid' =>
                        simp only
                        cases hev : getAuthnEvent R.1 sid' with
                        | error e => exact hR1
                        | ok ev =>
                          simp only
                          cases hv : eventValid now ev with
                          | error e => exact hR1
                          | ok b => cases b <;> exact hR1
                    · simp only [h3, ne_eq, not_false_eq_true, if_true]; exact h

theorem gonly_authzCall {cdb : Cdb} {now : Int} {client k : Str} {g g' : Grant} {req : AuthReq}
    (h : (authzCall env.gc env.ccfg cdb now client g req).2 = .ok g') (hg : GOnly P k g) : GOnly P k g' := by
  have : g'.issuedToken = g.issuedToken := by
    unfold authzCall at h
    split at h
    · simp only [implicitCall] at h
      split at h
      · cases h
      · cases h; rfl
    · split at h
      · cases h
      · split at h
        · cases h
        · dsimp only at h
          split at h
          · cases h
          · cases h; rfl
  intro t ht
  rw [this] at ht
  exact hg t ht

/-- The strings that an authorization request may make, for the session `sid`. -/
def AuthzMakes (env : Env) (now : Int) (mc ma : MintIn) (req : AuthReq) (sid k tt v : Str) : Prop :=
  k = sid ∧ ((tt = tAuthorizationCode ∧ c!"code" ∈ req.responseType ∧ tokenString env env.th.code now mc sid = .ok v) ∨
    (tt = tAccessToken ∧ c!"token" ∈ req.responseType ∧ tokenString env env.th.accessToken now ma sid = .ok v))

theorem only_codePart (h : Only P s) {sid : Str} (hs : Sid3 sid) {g : Grant} (hg : GOnly P sid g) (now : Int) (mc ma : MintIn)
    (req : AuthReq) (hv : ∀ k tt v, AuthzMakes env now mc ma req sid k tt v → P k tt v) :
    Only P (codePart env s now mc sid g req).1 ∧ GOnly P sid (codePart env s now mc sid g req).2.1 ∧
    ∀ t, (codePart env s now mc sid g req).2.2 = .ok (some t) → tokenString env env.th.code now mc sid = .ok t.value := by
  unfold codePart
  by_cases hc : c!"code" ∈ req.responseType
  · simp only [hc, if_true]
    have h1 := only_mint (env := env) h hs hg now mc tAuthorizationCode env.th.code none
      (fun v e => hv sid _ v ⟨rfl, Or.inl ⟨rfl, hc, e⟩⟩)
    refine ⟨h1.1, h1.2.1, ?_⟩
    intro t ht
    apply h1.2.2
    cases hx : (mintAndStore env env.th.code s now mc sid tAuthorizationCode g none).2.2 with
    | error e => rw [hx] at ht; simp [Except.map] at ht
    | ok t' => rw [hx] at ht; simp [Except.map] at ht; rw [ht]
  · simp only [hc, if_false]
    exact ⟨h, hg, by simp⟩

theorem only_tokenPart (h : Only P s) {sid : Str} (hs : Sid3 sid) {g : Grant} (hg : GOnly P sid g) (now : Int) (mc ma : MintIn)
    (code : Option Token) (req : AuthReq) (hv : ∀ k tt v, AuthzMakes env now mc ma req sid k tt v → P k tt v) :
    Only P (tokenPart env s now ma sid g code req).1 ∧
    ∀ t, (tokenPart env s now ma sid g code req).2.2 = .ok (some t) → tokenString env env.th.accessToken now ma sid = .ok t.value := by
  unfold tokenPart
  by_cases hc : c!"token" ∈ req.responseType
  · simp only [hc, if_true]
    have h1 := only_mint (env := env) h hs hg now ma tAccessToken env.th.accessToken code
      (fun v e => hv sid _ v ⟨rfl, Or.inr ⟨rfl, hc, e⟩⟩)
    refine ⟨h1.1, ?_⟩
    intro t ht
    apply h1.2.2
    cases hx : (mintAndStore env env.th.accessToken s now ma sid tAccessToken g code).2.2 with
    | error e => rw [hx] at ht; simp [Except.map] at ht
    | ok t' => rw [hx] at ht; simp [Except.map] at ht; rw [ht]
  · simp only [hc, if_false]
    exact ⟨h, by simp⟩

theorem only_idTokenPart (h : Only P s) (idt : Out Str) (sid : Str) (req : AuthReq) : Only P (idTokenPart s idt sid req).1 := by
  unfold idTokenPart
  split
  · cases idt with
    | raise e => exact h
    | errMsg e => exact h
    | val i =>
      simp only
      cases hu : unpack3 sid with
      | error e => exact h
      | ok t =>
        obtain ⟨u, c, gi⟩ := t
        simp only
        cases hd : dbGet s [u, c] with
        | error e => exact h
        | ok o =>
          simp only
          have hset : Only P (dbSet s [u, c] o).1 := by
            obtain ⟨hk, _⟩ := dbGet_key h.noEmpty hd
            apply h.set
            · simp
            · intro i hi
              rw [hi] at hk
              exact h.noEmpty _ _ hk
            · intro g hg
              rw [hg] at hk
              exact h.toks _ _ hk
          cases hw : (dbSet s [u, c] o).2 <;> exact hset
  · exact h

theorem only_createAuthnResponse (h : Only P s) {sid : Str} (now : Int) (mc ma : MintIn) (idt : Out Str) (req : AuthReq)
    (hv : ∀ k tt v, AuthzMakes env now mc ma req sid k tt v → P k tt v) :
    Only P (createAuthnResponse env s now mc ma idt req sid).1 ∧
    ∀ a frag, (createAuthnResponse env s now mc ma idt req sid).2 = .ok (.val a, frag) → ∀ v,
      ((c!"code" ∈ req.responseType ∧ tokenString env env.th.code now mc sid = .ok v) → a.code = some v) ∧
      ((c!"token" ∈ req.responseType ∧ tokenString env env.th.accessToken now ma sid = .ok v) → a.accessToken = some v) := by
  unfold createAuthnResponse
  by_cases hnone : req.responseType = [c!"none"]
  · simp only [hnone, if_true]
    refine ⟨h, ?_⟩
    intro a frag _ v
    constructor <;> (intro ⟨hm, _⟩; simp at hm)
  · simp only [hnone, if_false]
    cases hg : getGrant s sid with
    | error e => exact ⟨h, by simp⟩
    | ok g =>
      obtain ⟨hk, hs, _⟩ := getGrant_key h.noEmpty hg
      simp only
      have h1 := only_codePart (env := env) h hs (h.toks _ _ hk) now mc ma req hv
      have h1' := @codePart_ok env s now mc sid g req
      generalize codePart env s now mc sid g req = R1 at h1 h1' ⊢
      obtain ⟨s1, g1, o1⟩ := R1
      cases o1 with
      | error e => exact ⟨h1.1, by simp⟩
      | ok code =>
        simp only at h1 h1' ⊢
        have h3 := only_tokenPart (env := env) h1.1 hs h1.2.1 now mc ma code req hv
        have h3' := @tokenPart_ok env s1 now ma sid g1 code req
        generalize tokenPart env s1 now ma sid g1 code req = R2 at h3 h3' ⊢
        obtain ⟨s2, g2, o2⟩ := R2
        cases o2 with
        | error e => exact ⟨h3.1, by simp⟩
        | ok tok =>
          simp only at h3 h3' ⊢
          have h5 := only_idTokenPart h3.1 idt sid req
          generalize idTokenPart s2 idt sid req = R3 at h5 ⊢
          obtain ⟨s3, o3⟩ := R3
          cases o3 with
          | raise e => exact ⟨h5, by simp⟩
          | errMsg e => exact ⟨h5, by simp⟩
          | val i =>
            simp only
            split
            · refine ⟨h5, ?_⟩
              intro a frag e v
              simp only [Except.ok.injEq, Prod.mk.injEq, Out.val.injEq] at e
              obtain ⟨rfl, rfl⟩ := e
              constructor
              · rintro ⟨hm, hs⟩
                have := (h1' rfl).2 hm
                cases hc : code with
                | none => rw [hc] at this; cases this
                | some t =>
                  have e := h1.2.2 t (by rw [hc])
                  rw [e] at hs
                  cases hs
                  rfl
              · rintro ⟨hm, hs⟩
                have := (h3' rfl).2 hm
                cases hc : tok with
                | none => rw [hc] at this; cases this
                | some t =>
                  have e := h3.2 t (by rw [hc])
                  rw [e] at hs
                  cases hs
                  rfl
            · exact ⟨h5, by simp⟩

theorem only_authzPart2 (h : Only P s) {sid : Str} (cdb : Cdb) (now : Int) (mc ma : MintIn) (idt : Out Str) (req : AuthReq)
    (hv : ∀ k tt v, AuthzMakes env now mc ma req sid k tt v → P k tt v) :
    Only P (authzPart2 env cdb s now mc ma idt req sid).2.1 := by
  unfold authzPart2
  cases hg : getGrant s sid with
  | error e => exact h
  | ok g =>
    obtain ⟨hk, hs, u, c, gi, hu⟩ := getGrant_key h.noEmpty hg
    obtain ⟨hu1, hu2⟩ := unpack3_key hu
    simp only [hu]
    cases ha : (authzCall env.gc env.ccfg cdb now c g req).2 with
    | error e => exact h
    | ok g' =>
      simp only
      have hgi : gi ≠ [] := by
        obtain ⟨u', c', gi', e1, e2⟩ := hs
        rw [hu1] at e1
        cases e1
        exact e2
      have hset : Only P (dbSet s [u, c, gi] (.grant g')).1 := by
        apply h.set
        · rintro _ _ _ _ ⟨⟩; exact hgi
        · simp
        · rintro g2 ⟨⟩
          have : sessionKey ([u, c, gi].take 3) = sid := hu2
          rw [this]
          exact gonly_authzCall ha (h.toks _ _ hk)
      cases hw : (dbSet s [u, c, gi] (.grant g')).2 with
      | error e => exact hset
      | ok _ =>
        simp only
        have hr := (only_createAuthnResponse (env := env) hset (sid := sid) now mc ma idt req hv).1
        cases hx : (createAuthnResponse env (dbSet s [u, c, gi] (.grant g')).1 now mc ma idt req sid).2 with
        | error e => exact hr
        | ok cf =>
          obtain ⟨content, frag⟩ := cf
          simp only
          cases getUri env.lib (authzCall env.gc env.ccfg cdb now c g req).1 .redirect req.clientId req.redirectUri with
          | error e => exact hr
          | ok uri =>
            simp only
            cases responseMode req.responseMode frag with
            | error e => exact hr
            | ok pl => exact hr

/-- A token that was minted is the string the handler made. -/
theorem mint_string {env : Env} {hd : Option Handler} {s : Store} {now : Int} {m : MintIn} {sid tt : Str} {g : Grant} {b : Option Token}
    {t : Token} (h : (mintAndStore env hd s now m sid tt g b).2.2 = .ok t) : tokenString env hd now m sid = .ok t.value := by
  rcases mintAndStore_spec env hd s now m sid tt g b with ⟨h1, h2, e, h3⟩ | ⟨v, t', hrest⟩
  · rw [h3] at h; cases h
  · obtain ⟨e1, _, _, e2, e3, _, e4, _, _, _, _, _, _, e5, e6, _⟩ := hrest
    rcases e6 with ⟨e, e6⟩ | ⟨e6, _⟩
    · rw [e6] at h; cases h
    · rw [e6] at h
      cases h
      rw [e1, e3]

theorem codePart_string {env : Env} {s : Store} {now : Int} {mc : MintIn} {sid : Str} {g : Grant} {req : AuthReq} {code : Option Token}
    (h : (codePart env s now mc sid g req).2.2 = .ok code) {v : Str} (hm : c!"code" ∈ req.responseType)
    (hs : tokenString env env.th.code now mc sid = .ok v) : code.map (·.value) = some v := by
  unfold codePart at h
  simp only [hm, if_true] at h
  cases hx : (mintAndStore env env.th.code s now mc sid tAuthorizationCode g none).2.2 with
  | error e => rw [hx] at h; simp [Except.map] at h
  | ok t =>
    have := mint_string hx
    rw [hs] at this
    rw [hx] at h
    simp [Except.map] at h
    rw [← h]
    cases this
    rfl

theorem tokenPart_string {env : Env} {s : Store} {now : Int} {ma : MintIn} {sid : Str} {g : Grant} {req : AuthReq} {code tok : Option Token}
    (h : (tokenPart env s now ma sid g code req).2.2 = .ok tok) {v : Str} (hm : c!"token" ∈ req.responseType)
    (hs : tokenString env env.th.accessToken now ma sid = .ok v) : tok.map (·.value) = some v := by
  unfold tokenPart at h
  simp only [hm, if_true] at h
  cases hx : (mintAndStore env env.th.accessToken s now ma sid tAccessToken g code).2.2 with
  | error e => rw [hx] at h; simp [Except.map] at h
  | ok t =>
    have := mint_string hx
    rw [hs] at this
    rw [hx] at h
    simp [Except.map] at h
    rw [← h]
    cases this
    rfl

theorem createAuthnResponse_gives {sid : Str} {s : Store} {now : Int} {mc ma : MintIn} {idt : Out Str} {req : AuthReq} {a : RespArgs}
    {frag : Bool} (h : (createAuthnResponse env s now mc ma idt req sid).2 = .ok (.val a, frag)) {k tt v : Str}
    (hm : AuthzMakes env now mc ma req sid k tt v) :
    (tt = tAuthorizationCode ∧ a.code = some v) ∨ (tt = tAccessToken ∧ a.accessToken = some v) := by
  unfold createAuthnResponse at h
  have hnone : req.responseType ≠ [c!"none"] := by
    intro e
    rcases hm.2 with ⟨_, h1, _⟩ | ⟨_, h1, _⟩ <;> (rw [e] at h1; simp at h1)
  simp only [hnone, if_false] at h
  cases hg : getGrant s sid with
  | error e => simp [hg] at h
  | ok g =>
    simp only [hg] at h
    cases h1 : (codePart env s now mc sid g req).2.2 with
    | error e => simp [h1] at h
    | ok code =>
      simp only [h1] at h
      generalize codePart env s now mc sid g req = r1 at h
      cases h2 : (tokenPart env r1.1 now ma sid r1.2.1 code req).2.2 with
      | error e => simp [h2] at h
      | ok tok =>
        simp only [h2] at h
        generalize (tokenPart env r1.1 now ma sid r1.2.1 code req).1 = s2 at h
        cases h3 : (idTokenPart s2 idt sid req).2 with
        | raise e => simp [h3] at h
        | errMsg e => simp [h3] at h
        | val i =>
          simp only [h3] at h
          split at h
          · simp only [Except.ok.injEq, Prod.mk.injEq, Out.val.injEq] at h
            obtain ⟨rfl, rfl⟩ := h
            rcases hm.2 with ⟨rfl, h4, h5⟩ | ⟨rfl, h4, h5⟩
            · exact Or.inl ⟨rfl, codePart_string h1 h4 h5⟩
            · exact Or.inr ⟨rfl, tokenPart_string h2 h4 h5⟩
          · simp at h

/-- The strings that an authorization request made are in the answer, if that is a response. -/
theorem authzProcess_gives {cdb : Cdb} {s : Store} {now : Int} {gid : Str} {mc ma : MintIn} {idt : Out Str} {a : AuthnIn} {req : AuthReq}
    {sid u k tt v : Str} (hs : (setupAuth env cdb s now gid req a).2 = .val (.session sid u))
    (hm : AuthzMakes env now mc ma req sid k tt v) {r : AuthzReply} {ra : RespArgs}
    (hr : (authzProcess env cdb s now gid mc ma idt a req).2.2 = .reply r) (hc : r.content = .val ra) :
    (tt = tAuthorizationCode ∧ ra.code = some v) ∨ (tt = tAccessToken ∧ ra.accessToken = some v) := by
  unfold authzProcess at hr
  cases hcl : cdb req.clientId with
  | none => simp [hcl] at hr
  | some c =>
    simp only [hcl] at hr
    split at hr
    · simp at hr
    · simp only [hs] at hr
      have : (authzPart2 env cdb (setupAuth env cdb s now gid req a).1 now mc ma idt req sid).2.2 = r := by
        injection hr
      obtain ⟨cdb', s', frag, uu, h1, _⟩ := authzPart2_val env cdb _ now mc ma idt req sid ra (by rw [this]; exact hc)
      exact createAuthnResponse_gives h1 hm

theorem only_authzProcess (h : Only P s) (cdb : Cdb) (now : Int) (gid : Str) (mc ma : MintIn) (idt : Out Str)
    (a : AuthnIn) (req : AuthReq) (hgid : gid ≠ [])
    (hv : ∀ sid u k tt v, (setupAuth env cdb s now gid req a).2 = .val (.session sid u) → AuthzMakes env now mc ma req sid k tt v →
      P k tt v) :
    Only P (authzProcess env cdb s now gid mc ma idt a req).2.1 := by
  unfold authzProcess
  cases hc : cdb req.clientId with
  | none => exact h
  | some c =>
    simp only
    split
    · exact h
    · have h1 := only_setupAuth (env := env) h cdb now gid req a hgid
      have h2 := hv
      generalize setupAuth env cdb s now gid req a = R at h1 h2 ⊢
      obtain ⟨s1, o⟩ := R
      cases o with
      | raise e => exact h1
      | errMsg e => exact h1
      | val x =>
        cases x with
        | login => exact h1
        | loginRequired => exact h1
        | session sid u => exact only_authzPart2 h1 cdb now mc ma idt req (fun k tt v => h2 sid u k tt v rfl)

/-! ### The token endpoint -/

/-- An access or refresh token, and it is in the answer, if that is a token response. -/
def TokGives (o : Out TokResp) (tt v : Str) : Prop :=
  (tt = tAccessToken ∨ tt = tRefreshToken) ∧ ∀ resp, o = .val resp → (tt = tAccessToken ∧ resp.accessToken = v) ∨ (tt = tRefreshToken ∧ resp.refreshToken = some v)

theorem refreshPart_string {env : Env} {s : Store} {i : TokIn} {sid : Str} {g : Grant} {b rt : Option Token} {want : Bool}
    (h : (refreshPart env s i sid g b want).2.2 = .ok rt) {v : Str} (hw : want = true)
    (hs : tokenString env env.th.accessToken i.now i.mr sid = .ok v) : rt.map (·.value) = some v := by
  unfold refreshPart at h
  simp only [hw, if_true] at h
  cases hx : (mintAndStore env env.th.accessToken s i.now i.mr sid tRefreshToken g b).2.2 with
  | error e => rw [hx] at h; simp [Except.map] at h
  | ok t =>
    have := mint_string hx
    rw [hs] at this
    rw [hx] at h
    simp [Except.map] at h
    rw [← h]
    cases this
    rfl

theorem only_refreshPart (h : Only P s) {sid : Str} (hs : Sid3 sid) {g : Grant} (hg : GOnly P sid g) (i : TokIn) (b : Option Token)
    (want : Bool) (hv : want = true → ∀ v, tokenString env env.th.accessToken i.now i.mr sid = .ok v → P sid tRefreshToken v) :
    Only P (refreshPart env s i sid g b want).1 ∧ GOnly P sid (refreshPart env s i sid g b want).2.1 := by
  unfold refreshPart
  cases want with
  | true =>
    simp only [if_true]
    have := only_mint (env := env) h hs hg i.now i.mr tRefreshToken env.th.accessToken b (hv rfl)
    exact ⟨this.1, this.2.1⟩
  | false => exact ⟨h, hg⟩

theorem only_finishCode (h : Only P s) {sid : Str} (hs : Sid3 sid) {g : Grant} (hg : GOnly P sid g) (i : TokIn)
    (b : Option Token) (ar : AuthReq) (tok : Token) (rt : Option Token) : Only P (finishCode s i sid g b ar tok rt).1 := by
  unfold finishCode
  cases b with
  | none => exact h
  | some b =>
    simp only
    have h1 : Only P (mgrSet s sid (.grant (g.registerUsage b.value))).1 :=
      h.mgrSet hs (gonly_step (.use b.value) (by simp) hg)
    cases hw : (mgrSet s sid (.grant (g.registerUsage b.value))).2 with
    | error e => exact h1
    | ok _ =>
      simp only
      cases idTokenFor (decide (c!"openid" ∈ ar.scope)) i.idt <;> exact h1

theorem finishCode_val {s : Store} {i : TokIn} {sid : Str} {g : Grant} {b : Option Token} {ar : AuthReq} {tok : Token} {rt : Option Token}
    {resp : TokResp} (h : (finishCode s i sid g b ar tok rt).2 = .val resp) :
    resp.accessToken = tok.value ∧ resp.refreshToken = rt.map (·.value) := by
  unfold finishCode at h
  cases b with
  | none => cases h
  | some b =>
    simp only at h
    cases hw : (mgrSet s sid (.grant (g.registerUsage b.value))).2 with
    | error e => rw [hw] at h; cases h
    | ok _ =>
      simp only [hw] at h
      cases hi : idTokenFor (decide (c!"openid" ∈ ar.scope)) i.idt with
      | raise e => rw [hi] at h; cases h
      | errMsg e => rw [hi] at h; cases h
      | val x => rw [hi] at h; cases h; exact ⟨rfl, rfl⟩

theorem only_exchangeCode (h : Only P s) {sid : Str} (hs : Sid3 sid) {g : Grant} (hg : GOnly P sid g) (i : TokIn) (b : Option Token)
    (ar : AuthReq) (hv : ∀ tt v, TokGives (exchangeCode env s i sid g b ar).2 tt v → P sid tt v) :
    Only P (exchangeCode env s i sid g b ar).1 := by
  have hva : ∀ v, tokenString env env.th.accessToken i.now i.ma sid = .ok v → P sid tAccessToken v := by
    intro v hs
    apply hv
    refine ⟨Or.inl rfl, ?_⟩
    intro resp hr
    left
    refine ⟨rfl, ?_⟩
    unfold exchangeCode at hr
    simp only at hr
    cases he : (mintAndStore env env.th.accessToken s i.now i.ma sid tAccessToken g b).2.2 with
    | error e => simp [he] at hr
    | ok tok =>
      simp only [he] at hr
      have e1 := mint_string he
      rw [hs] at e1
      split at hr
      · cases hr
      · rw [(finishCode_val hr).1]; cases e1; rfl
  have hvr : decide (c!"offline_access" ∈ g.scope) = true → ∀ v, tokenString env env.th.accessToken i.now i.mr sid = .ok v →
      P sid tRefreshToken v := by
    intro hw v hs
    apply hv
    refine ⟨Or.inr rfl, ?_⟩
    intro resp hr
    right
    refine ⟨rfl, ?_⟩
    unfold exchangeCode at hr
    simp only at hr
    cases he : (mintAndStore env env.th.accessToken s i.now i.ma sid tAccessToken g b).2.2 with
    | error e => simp [he] at hr
    | ok tok =>
      simp only [he] at hr
      split at hr
      · cases hr
      · rename_i rt hrt
        rw [(finishCode_val hr).2]
        exact refreshPart_string hrt hw hs
  clear hv
  unfold exchangeCode
  simp only
  have h1 := only_mint (env := env) h hs hg i.now i.ma tAccessToken env.th.accessToken b hva
  generalize mintAndStore env env.th.accessToken s i.now i.ma sid tAccessToken g b = R1 at h1 ⊢
  obtain ⟨s1, g1, o1⟩ := R1
  cases o1 with
  | error e => exact h1.1
  | ok tok =>
    simp only at h1 ⊢
    have h2 := only_refreshPart (env := env) h1.1 hs h1.2.1 i b (decide (c!"offline_access" ∈ g.scope)) hvr
    generalize refreshPart env s1 i sid g1 b (decide (c!"offline_access" ∈ g.scope)) = R at h2 ⊢
    obtain ⟨s2, g2, o2⟩ := R
    cases o2 with
    | error e => exact h2.1
    | ok rt => exact only_finishCode h2.1 hs h2.2 i b ar tok rt

theorem only_newRefresh (m : Mode) (h : Only P s) {sid : Str} (hs : Sid3 sid) {g : Grant} (hg : GOnly P sid g) (i : TokIn) (b : Token)
    (want : Bool) (hv : want = true → ∀ v, tokenString env env.th.accessToken i.now i.mr sid = .ok v → P sid tRefreshToken v) :
    Only P (newRefresh m env s i sid g b want).1 := by
  unfold newRefresh
  simp only
  have h1 := only_refreshPart (env := env) h hs hg i (some b) want hv
  generalize refreshPart env s i sid g (some b) want = R at h1 ⊢
  obtain ⟨s1, g1, o1⟩ := R
  cases o1 with
  | error e => exact h1.1
  | ok o =>
    cases o with
    | none => exact h1.1
    | some t =>
      simp only
      unfold touch
      cases m with
      | byValue => exact h1.1
      | aliased =>
        simp only
        apply h1.1.putGrant
        intro t' ht'
        unfold Grant.copyRulesToLast at ht'
        obtain ⟨j, hj⟩ := List.getElem?_of_mem ht'
        simp only [List.getElem?_modify] at hj
        split at hj
        all_goals
          cases hx : g1.issuedToken[j]? with
          | none => rw [hx] at hj; cases hj
          | some x =>
            rw [hx] at hj
            cases hj
            exact h1.2 x (List.mem_of_getElem? hx)

theorem newRefresh_string {m : Mode} {env : Env} {s : Store} {i : TokIn} {sid : Str} {g : Grant} {b : Token} {rt : Option Token} {want : Bool}
    (h : (newRefresh m env s i sid g b want).2 = .ok rt) {v : Str} (hw : want = true)
    (hs : tokenString env env.th.accessToken i.now i.mr sid = .ok v) : rt.map (·.value) = some v := by
  unfold newRefresh at h
  simp only at h
  cases hx : (refreshPart env s i sid g (some b) want).2.2 with
  | error e => simp [hx] at h
  | ok o =>
    have := refreshPart_string hx hw hs
    cases o with
    | none => cases this
    | some t => simp only [hx, Except.ok.injEq] at h; rw [← h]; exact this

theorem finishRefresh_val {s : Store} {i : TokIn} {g : Grant} {mints : List Str} {tok : Token} {rt : Option Token} {resp : TokResp}
    (h : (finishRefresh s i g mints tok rt).2 = .val resp) : resp.accessToken = tok.value ∧ resp.refreshToken = rt.map (·.value) := by
  unfold finishRefresh at h
  cases hi : idTokenFor (decide (c!"id_token" ∈ mints)) i.idt with
  | raise e => rw [hi] at h; cases h
  | errMsg e => rw [hi] at h; cases h
  | val x => rw [hi] at h; cases h; exact ⟨rfl, rfl⟩

theorem only_exchangeRefresh (m : Mode) (h : Only P s) {sid : Str} (hs : Sid3 sid) {g : Grant} (hg : GOnly P sid g) (i : TokIn)
    (b : Option Token) (hv : ∀ tt v, TokGives (exchangeRefresh m env s i sid g b).2 tt v → P sid tt v) :
    Only P (exchangeRefresh m env s i sid g b).1 := by
  have hva : ∀ v, tokenString env env.th.accessToken i.now i.ma sid = .ok v → P sid tAccessToken v := by
    intro v hs
    apply hv
    refine ⟨Or.inl rfl, ?_⟩
    intro resp hr
    left
    refine ⟨rfl, ?_⟩
    unfold exchangeRefresh at hr
    simp only at hr
    cases he : (mintAndStore env env.th.accessToken s i.now i.ma sid tAccessToken g b).2.2 with
    | error e => simp [he] at hr
    | ok tok =>
      simp only [he] at hr
      have e1 := mint_string he
      rw [hs] at e1
      split at hr
      · cases hr
      · split at hr
        · cases hr
        · split at hr
          · cases hr
          · rw [(finishRefresh_val hr).1]; cases e1; rfl
  have hvr : ∀ bt mints, b = some bt → bt.usageRules.supportsMinting = some mints → decide (tRefreshToken ∈ mints) = true →
      ∀ v, tokenString env env.th.accessToken i.now i.mr sid = .ok v → P sid tRefreshToken v := by
    intro bt mints hb hm hw v hs
    subst hb
    apply hv
    refine ⟨Or.inr rfl, ?_⟩
    intro resp hr
    right
    refine ⟨rfl, ?_⟩
    unfold exchangeRefresh at hr
    simp only at hr
    cases he : (mintAndStore env env.th.accessToken s i.now i.ma sid tAccessToken g (some bt)).2.2 with
    | error e => simp [he] at hr
    | ok tok =>
      simp only [he, hm] at hr
      split at hr
      · cases hr
      · rename_i rt hrt
        rw [(finishRefresh_val hr).2]
        exact newRefresh_string hrt hw hs
  clear hv
  unfold exchangeRefresh
  simp only
  have h1 := only_mint (env := env) h hs hg i.now i.ma tAccessToken env.th.accessToken b hva
  generalize mintAndStore env env.th.accessToken s i.now i.ma sid tAccessToken g b = R1 at h1 ⊢
  obtain ⟨s1, g1, o1⟩ := R1
  cases o1 with
  | error e => exact h1.1
  | ok tok =>
    simp only at h1 ⊢
    cases hb : b with
    | none => exact h1.1
    | some b' =>
      simp only
      cases hm : b'.usageRules.supportsMinting with
      | none => exact h1.1
      | some mints =>
        simp only
        have h2 := only_newRefresh (env := env) m h1.1 hs h1.2.1 i b' (decide (tRefreshToken ∈ mints)) (hvr b' mints hb hm)
        generalize newRefresh m env s1 i sid g1 b' (decide (tRefreshToken ∈ mints)) = R at h2 ⊢
        obtain ⟨s2, o2⟩ := R
        cases o2 with
        | error e => exact h2
        | ok rt => simp only; rw [finishRefresh_store]; exact h2

theorem only_tokProcess (m : Mode) (h : Only P s) (helpers : Dict Helper) (i : TokIn) (req : TokReq)
    (hv : ∀ k tt v, TokGives (tokProcess m env helpers s i req).2 tt v → P k tt v) :
    Only P (tokProcess m env helpers s i req).1 := by
  have hv' : ∀ k tt v, TokGives (helperProcess m env helpers s i req).2 tt v → P k tt v := by
    intro k tt v hg
    apply hv
    refine ⟨hg.1, ?_⟩
    intro resp hr
    apply hg.2
    unfold tokProcess at hr
    simp only at hr
    split at hr
    · cases hr
    · cases hr
    · rename_i resp' hr'
      split at hr
      · cases hr
      · cases hr
      · cases hr; exact hr'
  have hh : Only P (helperProcess m env helpers s i req).1 := by
    clear hv
    unfold helperProcess at hv' ⊢
    cases hgt : req.grantType with
    | none => exact h
    | some gt =>
      simp only [hgt] at hv' ⊢
      cases hx : helpers.get? gt with
      | none => exact h
      | some hc =>
        simp only [hx] at hv' ⊢
        cases hc with
        | bare c => exact h
        | inst c =>
          cases c with
          | accessToken =>
            simp only at hv' ⊢
            unfold codeProcess at hv' ⊢
            split
            · exact h
            · rename_i hne
              simp only [hne, if_false] at hv'
              cases hc : req.code with
              | none => exact h
              | some c0 =>
                simp only [hc] at hv' ⊢
                cases hsb : sessionByToken env.th env.cr s i.now (plusForBlank c0) with
                | error e => exact h
                | ok x =>
                  obtain ⟨sid, o⟩ := x
                  obtain ⟨h1, h2, h3⟩ := sessionByToken_key h.noEmpty hsb
                  simp only [hsb] at hv' ⊢
                  cases o with
                  | info _ => exact h
                  | grant g =>
                    simp only at hv' ⊢
                    cases har : g.authReq with
                    | none => exact h
                    | some ar =>
                      simp only [har] at hv' ⊢
                      cases hrc : redirectCheck ar req with
                      | raise e => exact h
                      | errMsg e => exact h
                      | val _ =>
                        simp only [hrc] at hv' ⊢
                        exact only_exchangeCode h h3 (h.toks _ _ h2) i _ ar (hv' sid)
          | refreshToken =>
            simp only at hv' ⊢
            unfold refreshProcess at hv' ⊢
            split
            · exact h
            · rename_i hne
              simp only [hne, if_false] at hv'
              cases hc : req.refreshToken with
              | none => exact h
              | some c0 =>
                simp only [hc] at hv' ⊢
                cases hsb : sessionByToken env.th env.cr s i.now c0 with
                | error e => exact h
                | ok x =>
                  obtain ⟨sid, o⟩ := x
                  obtain ⟨h1, h2, h3⟩ := sessionByToken_key h.noEmpty hsb
                  simp only [hsb] at hv' ⊢
                  cases o with
                  | info _ => exact h
                  | grant g =>
                    simp only at hv' ⊢
                    exact only_exchangeRefresh m h h3 (h.toks _ _ h2) i _ (hv' sid)
  clear hv hv'
  unfold tokProcess
  simp only
  cases h1 : (helperProcess m env helpers s i req).2 with
  | raise e => exact hh
  | errMsg e => exact hh
  | val resp =>
    simp only
    cases sessionByToken env.th env.cr (helperProcess m env helpers s i req).1 i.now resp.accessToken with
    | error e => exact hh
    | ok x =>
      obtain ⟨sid, o⟩ := x
      cases o <;> exact hh

end Verif
