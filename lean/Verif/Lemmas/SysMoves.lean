import Verif.Lemmas.Moves
set_option linter.unusedSimpArgs false
set_option linter.unusedVariables false
/-! The steps of the provider, seen from each stored grant: it changes only through the operations of `Grant.step`. -/
namespace Verif
open Spec

/-- The string was made by a configured handler for the session `k`: the code handler for codes, the access token handler
for everything else. -/
def FromHandler (env : Env) (k tt v : Str) : Prop :=
  ∃ h, (if tt = tAuthorizationCode then env.th.code else env.th.accessToken) = some h ∧
    ∃ now rnd nonce ttype, v = handlerCall env.cr h now rnd nonce k ttype

/-- The scope of the grant is the one of its authorization request, and not empty (unless the default policy is used). -/
def ScopeOk (env : Env) (g : Grant) : Prop :=
  ∃ ar, g.authReq = some ar ∧ (env.gc.implicit = false → g.scope = ar.scope ∧ ar.scope ≠ [])

/-- Restrictions on the operations that the endpoints apply to the grant of session `k`. -/
def Allowed (env : Env) (k : Str) (g : Grant) : GrantOp → Prop
  | .mint _ _ tt _ _ scope _ (.ok v) => scope = [] ∧ ScopeOk env g ∧ FromHandler env k tt v
  | .configure c => env.gc.implicit = false ∧ c.maxUsage = g.maxUsage ∧ ∃ ar, g.authReq = some ar ∧ c.scope = ar.scope
  | _ => True

/-- `g'` arises from `g` by a sequence of such operations. -/
inductive Evo (env : Env) (k : Str) : Grant → Grant → Prop
  | refl (g : Grant) : Evo env k g g
  | step {g g' : Grant} (op : GrantOp) : Evo env k g g' → Allowed env k g' op → Evo env k g (g'.step op)

theorem Evo.trans {env : Env} {k : Str} {a b c : Grant} (h : Evo env k a b) (h2 : Evo env k b c) : Evo env k a c := by
  induction h2 with
  | refl => exact h
  | step op _ ha ih => exact Evo.step op ih ha

theorem Evo.one {env : Env} {k : Str} (g : Grant) (op : GrantOp) (h : Allowed env k g op) : Evo env k g (g.step op) :=
  Evo.step op (Evo.refl g) h

theorem Grant.step_authReq (g : Grant) (op : GrantOp) : (g.step op).authReq = g.authReq := by
  cases op with
  | mint now id tt b rules scope args value =>
    simp only [Grant.step]
    rcases mintToken_cases g now id tt (b.bind g.tokenAt) rules scope args value with h | h
    · rw [h.1]
    · obtain ⟨v, k, rfl, _, _, _, item, hi, hr⟩ := h; rw [hr]
  | copyRules s d => simp only [Grant.step]; cases g.tokenAt s <;> rfl
  | _ => rfl

theorem Grant.step_tokenMap (g : Grant) (op : GrantOp) : (g.step op).tokenMap = g.tokenMap := by
  cases op with
  | mint now id tt b rules scope args value =>
    simp only [Grant.step]
    rcases mintToken_cases g now id tt (b.bind g.tokenAt) rules scope args value with h | h
    · rw [h.1]
    · obtain ⟨v, k, rfl, _, _, _, item, hi, hr⟩ := h; rw [hr]
  | copyRules s d => simp only [Grant.step]; cases g.tokenAt s <;> rfl
  | _ => rfl

theorem Grant.step_scope (g : Grant) (op : GrantOp) (h : ∀ c, op ≠ .configure c) : (g.step op).scope = g.scope := by
  cases op with
  | mint now id tt b rules scope args value =>
    simp only [Grant.step]
    rcases mintToken_cases g now id tt (b.bind g.tokenAt) rules scope args value with h | h
    · rw [h.1]
    · obtain ⟨v, k, rfl, _, _, _, item, hi, hr⟩ := h; rw [hr]
  | copyRules s d => simp only [Grant.step]; cases g.tokenAt s <;> rfl
  | configure c => exact absurd rfl (h c)
  | _ => rfl

theorem Grant.step_sub (g : Grant) (op : GrantOp) : (g.step op).sub = g.sub := by
  cases op with
  | mint now id tt b rules scope args value =>
    simp only [Grant.step]
    rcases mintToken_cases g now id tt (b.bind g.tokenAt) rules scope args value with h | h
    · rw [h.1]
    · obtain ⟨v, k, rfl, _, _, _, item, hi, hr⟩ := h; rw [hr]
  | copyRules s d => simp only [Grant.step]; cases g.tokenAt s <;> rfl
  | _ => rfl

theorem Grant.step_authnEvent (g : Grant) (op : GrantOp) : (g.step op).authnEvent = g.authnEvent := by
  cases op with
  | mint now id tt b rules scope args value =>
    simp only [Grant.step]
    rcases mintToken_cases g now id tt (b.bind g.tokenAt) rules scope args value with h | h
    · rw [h.1]
    · obtain ⟨v, k, rfl, _, _, _, item, hi, hr⟩ := h; rw [hr]
  | copyRules s d => simp only [Grant.step]; cases g.tokenAt s <;> rfl
  | _ => rfl

theorem Grant.step_revoked (g : Grant) (op : GrantOp) (h : g.revoked = true) : (g.step op).revoked = true := by
  cases op with
  | mint now id tt b rules scope args value =>
    simp only [Grant.step]
    rcases mintToken_cases g now id tt (b.bind g.tokenAt) rules scope args value with h' | h'
    · rw [h'.1]; exact h
    · obtain ⟨v, k, rfl, _, _, _, item, hi, hr⟩ := h'; rw [hr]; exact h
  | copyRules s d => simp only [Grant.step]; cases g.tokenAt s <;> exact h
  | revokeGrant => rfl
  | _ => exact h

theorem Evo.authReq {env : Env} {k : Str} {g g' : Grant} (h : Evo env k g g') : g'.authReq = g.authReq := by
  induction h with
  | refl => rfl
  | step op _ _ ih => rw [Grant.step_authReq, ih]

theorem Evo.tokenMap {env : Env} {k : Str} {g g' : Grant} (h : Evo env k g g') : g'.tokenMap = g.tokenMap := by
  induction h with
  | refl => rfl
  | step op _ _ ih => rw [Grant.step_tokenMap, ih]

theorem Evo.sub {env : Env} {k : Str} {g g' : Grant} (h : Evo env k g g') : g'.sub = g.sub := by
  induction h with
  | refl => rfl
  | step op _ _ ih => rw [Grant.step_sub, ih]

theorem Evo.authnEvent {env : Env} {k : Str} {g g' : Grant} (h : Evo env k g g') : g'.authnEvent = g.authnEvent := by
  induction h with
  | refl => rfl
  | step op _ _ ih => rw [Grant.step_authnEvent, ih]

theorem Evo.revoked {env : Env} {k : Str} {g g' : Grant} (h : Evo env k g g') (hr : g.revoked = true) :
    g'.revoked = true := by
  induction h with
  | refl => exact hr
  | step op _ _ ih => exact Grant.step_revoked _ _ ih

theorem step_scopeOk {env : Env} {k : Str} {g : Grant} {op : GrantOp} (ha : Allowed env k g op) (h : ScopeOk env g) :
    ScopeOk env (g.step op) := by
  obtain ⟨ar, har, hs⟩ := h
  refine ⟨ar, by rw [Grant.step_authReq, har], ?_⟩
  cases op with
  | configure c =>
    obtain ⟨_, _, ar', har', hs'⟩ := ha
    rw [har] at har'
    cases har'
    exact fun hx => ⟨hs', (hs hx).2⟩
  | _ => rw [Grant.step_scope _ _ (by simp)]; exact hs

theorem Evo.scopeOk {env : Env} {k : Str} {g g' : Grant} (h : Evo env k g g') (hs : ScopeOk env g) : ScopeOk env g' := by
  induction h with
  | refl => exact hs
  | step op _ ha ih => exact step_scopeOk ha ih

/-- Tokens keep their position. -/
theorem Evo.pres {env : Env} {k : Str} {g g' : Grant} (h : Evo env k g g') (i : Nat) (t : Token)
    (ht : g.issuedToken[i]? = some t) : ∃ t', g'.issuedToken[i]? = some t' ∧ Pres t t' := by
  induction h with
  | refl => exact ⟨t, ht, Pres.refl t⟩
  | step op _ _ ih =>
    obtain ⟨t1, h1, p1⟩ := ih
    obtain ⟨t2, h2, p2⟩ := step_pres _ op i t1 h1
    exact ⟨t2, h2, p1.trans p2⟩

/-- The first token with a value, by position. -/
theorem findValue_pos {v : Str} {l : List Token} {t : Token} (h : findValue v l = some t) :
    ∃ i : Nat, l[i]? = some t ∧ t.value = v ∧ ∀ (j : Nat) (u : Token), j < i → l[j]? = some u → u.value ≠ v := by
  unfold findValue at h
  induction l with
  | nil => simp at h
  | cons a l ih =>
    rw [List.find?_cons] at h
    by_cases ha : a.value = v
    · simp only [ha, decide_true] at h
      cases h
      exact ⟨0, by simp, ha, by simp⟩
    · simp only [ha, decide_false] at h
      obtain ⟨i, h1, h2, h3⟩ := ih h
      refine ⟨i + 1, by simpa using h1, h2, ?_⟩
      intro j u hj hu
      cases j with
      | zero => simp at hu; subst hu; exact ha
      | succ j => exact h3 j u (by omega) (by simpa using hu)

theorem findValue_of_pos {v : Str} {l : List Token} {t : Token} {i : Nat} (h1 : l[i]? = some t) (h2 : t.value = v)
    (h3 : ∀ (j : Nat) (u : Token), j < i → l[j]? = some u → u.value ≠ v) : findValue v l = some t := by
  unfold findValue
  induction l generalizing i with
  | nil => simp at h1
  | cons a l ih =>
    rw [List.find?_cons]
    cases i with
    | zero =>
      simp at h1; subst h1
      simp [h2]
    | succ i =>
      have ha : a.value ≠ v := h3 0 a (by omega) (by simp)
      simp only [ha, decide_false]
      exact ih (by simpa using h1) (fun j u hj hu => h3 (j + 1) u (by omega) (by simpa using hu))

/-- A token that was found is found again, changed only by `Pres`. -/
theorem Evo.getToken {env : Env} {k : Str} {g g' : Grant} (h : Evo env k g g') {v : Str} {t : Token}
    (ht : g.getToken v = some t) : ∃ t', g'.getToken v = some t' ∧ Pres t t' := by
  obtain ⟨i, h1, h2, h3⟩ := findValue_pos ht
  obtain ⟨t', h4, h5⟩ := h.pres i t h1
  refine ⟨t', findValue_of_pos h4 (h5.value.trans h2) ?_, h5⟩
  intro j u' hj hu'
  have hil : i < g.issuedToken.length := (List.getElem?_eq_some_iff.1 h1).1
  have hjl : j < g.issuedToken.length := by omega
  obtain ⟨u2, h6, h7⟩ := h.pres j g.issuedToken[j] (by simp [hjl])
  rw [hu'] at h6
  cases h6
  rw [h7.value]
  exact h3 j _ hj (by simp [hjl])

/-! ### What holds of every stored grant -/

/-- Facts about every grant stored under the key `k`. -/
structure GInv (env : Env) (k : Str) (g : Grant) : Prop where
  tokenMap : g.tokenMap = defaultTokenMap
  scope : g.issuedToken ≠ [] → ScopeOk env g
  tokens : ∀ t ∈ g.issuedToken, t.scope = [] ∧ FromHandler env k t.typ t.value ∧
    defaultTokenMap.get? t.typ = some t.kind
  codes : ∀ t ∈ g.issuedToken, t.kind = .authorizationCode → t.usageRules.maxUsage = some 1

theorem mem_evolves {l r : List Token} (h : Evolves l r) {t' : Token} (ht' : t' ∈ r) : ∃ t ∈ l, Pres t t' := by
  obtain ⟨k, hk⟩ := List.getElem?_of_mem ht'
  have hlt : k < l.length := by rw [← h.1]; exact (List.getElem?_eq_some_iff.1 hk).1
  obtain ⟨t2, h2, h3⟩ := h.2 k l[k] (by simp [hlt])
  rw [hk] at h2
  cases h2
  exact ⟨_, List.getElem_mem hlt, h3⟩

theorem step_tokens_or (env : Env) (k : Str) (g : Grant) (op : GrantOp) (hg : g.tokenMap = defaultTokenMap)
    (ha : Allowed env k g op) :
    Evolves g.issuedToken (g.step op).issuedToken ∨
    (ScopeOk env g ∧ ∃ t, (g.step op).issuedToken = g.issuedToken ++ [t] ∧ t.scope = [] ∧ FromHandler env k t.typ t.value ∧
      defaultTokenMap.get? t.typ = some t.kind ∧ (t.kind = .authorizationCode → t.usageRules.maxUsage = some 1)) := by
  rcases step_tokens g op with he | ⟨now, id, tt, b, rules, scope, args, v, k0, a, rfl, _⟩
  · exact Or.inl he
  · rcases mintToken_cases g now id tt (b.bind g.tokenAt) rules scope args (.ok v) with h | h
    · left; simp only [Grant.step]; rw [h.1]; exact Evolves.refl _
    · obtain ⟨v', k', hv, hact, hm, _, item, hi, hr⟩ := h
      cases hv
      right
      obtain ⟨h1, h2, h3⟩ := ha
      refine ⟨h2, item, by simp only [Grant.step]; rw [hr], ?_⟩
      rw [hg] at hm
      rw [hi]
      refine ⟨h1, h3, hm, ?_⟩
      intro hk
      have : k' = .authorizationCode := hk
      subst this
      rfl

theorem GInv.step {env : Env} {k : Str} {g : Grant} (h : GInv env k g) {op : GrantOp} (ha : Allowed env k g op) :
    GInv env k (g.step op) := by
  rcases step_tokens_or env k g op h.tokenMap ha with he | ⟨hs, t, he, h1, h2, h3, h4⟩
  · refine ⟨by rw [Grant.step_tokenMap]; exact h.tokenMap, ?_, ?_, ?_⟩
    · intro hne
      apply step_scopeOk ha
      apply h.scope
      intro h0
      apply hne
      rw [h0] at he
      exact List.eq_nil_of_length_eq_zero he.1
    · intro t' ht'
      obtain ⟨t, ht, hp⟩ := mem_evolves he ht'
      obtain ⟨x1, x2, x3⟩ := h.tokens t ht
      exact ⟨by rw [hp.scope, x1], by rw [hp.typ, hp.value]; exact x2, by rw [hp.typ, hp.kind]; exact x3⟩
    · intro t' ht' hk
      obtain ⟨t, ht, hp⟩ := mem_evolves he ht'
      have hk' : t.kind = .authorizationCode := by rw [← hp.kind]; exact hk
      rw [hp.rules hk']
      exact h.codes t ht hk'
  · refine ⟨by rw [Grant.step_tokenMap]; exact h.tokenMap, fun _ => step_scopeOk ha hs, ?_, ?_⟩
    · rw [he]
      intro t' ht'
      rcases List.mem_append.1 ht' with ht' | ht'
      · exact h.tokens t' ht'
      · rw [List.mem_singleton] at ht'; subst ht'; exact ⟨h1, h2, h3⟩
    · rw [he]
      intro t' ht' hk
      rcases List.mem_append.1 ht' with ht' | ht'
      · exact h.codes t' ht' hk
      · rw [List.mem_singleton] at ht'; subst ht'; exact h4 hk

theorem GInv.evo {env : Env} {k : Str} {g g' : Grant} (h : GInv env k g) (he : Evo env k g g') : GInv env k g' := by
  induction he with
  | refl => exact h
  | step op _ ha ih => exact ih.step ha

theorem GInv.new {env : Env} {k : Str} {g : Grant} (h1 : g.issuedToken = []) (h2 : g.tokenMap = defaultTokenMap) :
    GInv env k g :=
  ⟨h2, fun h => absurd h1 h, by rw [h1]; simp, by rw [h1]; simp⟩

/-! ### Storages -/

/-- The grant `g` in hand comes from the one stored under `k` at the start of a step, or one created (`C`). -/
def Has (env : Env) (C : Str → Grant → Prop) (s0 : Store) (k : Str) (g : Grant) : Prop :=
  ∃ g0, (s0 k = some (.grant g0) ∨ C k g0) ∧ Evo env k g0 g

/-- All stored grants come from the storage `s0`. -/
def Moves (env : Env) (C : Str → Grant → Prop) (s0 s : Store) : Prop :=
  ∀ k g, s k = some (.grant g) → Has env C s0 k g

/-- The invariant within one step that started in `s0`. -/
structure St (env : Env) (C : Str → Grant → Prop) (s0 s : Store) : Prop where
  moves : Moves env C s0 s
  noEmpty : NoEmpty s

theorem Has.evo {env : Env} {C : Str → Grant → Prop} {s0 : Store} {k : Str} {g g' : Grant} (h : Has env C s0 k g)
    (he : Evo env k g g') : Has env C s0 k g' := by
  obtain ⟨g0, h1, h2⟩ := h
  exact ⟨g0, h1, h2.trans he⟩

theorem St.start {env : Env} {C : Str → Grant → Prop} {s : Store} (h : NoEmpty s) : St env C s s :=
  ⟨fun k g hk => ⟨g, Or.inl hk, Evo.refl g⟩, h⟩

theorem Has.mono {env : Env} {C C' : Str → Grant → Prop} (hC : ∀ k g, C k g → C' k g) {s0 : Store} {k : Str} {g : Grant}
    (h : Has env C s0 k g) : Has env C' s0 k g := by
  obtain ⟨g0, h1, h2⟩ := h
  exact ⟨g0, h1.imp_right (hC _ _), h2⟩

theorem St.mono {env : Env} {C C' : Str → Grant → Prop} (hC : ∀ k g, C k g → C' k g) {s0 s : Store}
    (h : St env C s0 s) : St env C' s0 s :=
  ⟨fun k g hk => (h.moves k g hk).mono hC, h.noEmpty⟩

theorem St.set {env : Env} {C : Str → Grant → Prop} {s0 s : Store} (h : St env C s0 s) (path : List Str) (v : Obj)
    (hp : ∀ u c g r, path = u :: c :: g :: r → g ≠ []) (hi : ∀ i, v = .info i → [] ∉ i.subordinate)
    (hg : ∀ g, v = .grant g → Has env C s0 (sessionKey (path.take 3)) g) : St env C s0 (dbSet s path v).1 := by
  refine ⟨?_, ?_⟩
  · intro k g hk
    rcases dbSet_writes s path v hp (fun _ => hi) k _ hk with h1 | ⟨h1, h2⟩ | ⟨i, h1, _⟩
    · exact h.moves k g h1
    · rw [h1]; exact hg g h2.symm
    · cases h1
  · intro k i hk
    rcases dbSet_writes s path v hp (fun _ => hi) k _ hk with h1 | ⟨h1, h2⟩ | ⟨i', h1, h2⟩
    · exact h.noEmpty k i h1
    · exact hi i h2.symm
    · cases h1; exact h2 h.noEmpty

theorem St.putGrant {env : Env} {C : Str → Grant → Prop} {s0 s : Store} (h : St env C s0 s) {k : Str} {g : Grant}
    (hg : Has env C s0 k g) : St env C s0 (s.put k (.grant g)) := by
  refine ⟨?_, ?_⟩
  · intro k' g' hk
    simp only [Store.put] at hk
    split at hk
    · cases hk; simp_all
    · exact h.moves _ _ hk
  · intro k' i hk
    simp only [Store.put] at hk
    split at hk
    · cases hk
    · exact h.noEmpty _ _ hk

/-- A session id with three parts, the last one not empty. -/
def Sid3 (sid : Str) : Prop := ∃ u c g, unpackSessionKey sid = [u, c, g] ∧ g ≠ []

theorem unpack3_key {sid u c g : Str} (h : unpack3 sid = .ok (u, c, g)) :
    unpackSessionKey sid = [u, c, g] ∧ sessionKey [u, c, g] = sid := by
  unfold unpack3 at h
  have h2 : unpackSessionKey sid = [u, c, g] := by
    split at h
    · rename_i h3; cases h; exact h3
    · cases h
  exact ⟨h2, by rw [← h2]; exact session_key_unpack sid⟩

theorem read3 {s : Store} (hn : NoEmpty s) {sid u c g : Str} {o : Obj} (h : unpack3 sid = .ok (u, c, g))
    (hr : dbGet s [u, c, g] = .ok o) : s sid = some o ∧ Sid3 sid := by
  obtain ⟨h1, h2⟩ := unpack3_key h
  obtain ⟨h3, h4⟩ := dbGet_key hn hr
  have h3' : s (sessionKey [u, c, g]) = some o := h3
  rw [h2] at h3'
  exact ⟨h3', u, c, g, h1, h4 u c g [] rfl⟩

theorem St.mgrSet {env : Env} {C : Str → Grant → Prop} {s0 s : Store} (h : St env C s0 s) {sid : Str} (hs : Sid3 sid)
    {g : Grant} (hg : Has env C s0 sid g) : St env C s0 (mgrSet s sid (.grant g)).1 := by
  unfold Verif.mgrSet
  obtain ⟨u, c, gi, h1, h2⟩ := hs
  have h3 := session_key_unpack sid
  apply h.set
  · rintro u' c' g' r h4
    rw [h1] at h4
    cases h4
    exact h2
  · simp
  · intro g' hg'
    cases hg'
    rw [h1] at h3 ⊢
    have : sessionKey ([u, c, gi].take 3) = sid := h3
    rw [this]
    exact hg

theorem setLastExpiry_append (e : Int) (l : List Token) (t : Token) :
    setLastExpiry e (l ++ [t]) = (l ++ [t]).modify l.length (setExpiresAt e) := by
  unfold setLastExpiry
  rw [List.getLast?_append]
  simp only [List.getLast?_singleton, Option.some_or, List.dropLast_concat]
  apply List.ext_getElem?
  intro i
  rw [List.getElem?_modify]
  by_cases h : l.length = i
  · subst h
    simp [setExpiresAt]
  · by_cases h2 : i < l.length
    · simp [h, List.getElem?_append_left h2]
    · have h3 : i ≥ l.length + 1 := by omega
      have e1 : (l ++ [t])[i]? = none := by rw [List.getElem?_eq_none_iff]; simp; omega
      have e2 : ∀ x : Token, (l ++ [x])[i]? = none := by intro x; rw [List.getElem?_eq_none_iff]; simp; omega
      rw [e1, e2]; rfl

/-- Everything about `mintAndStore`. -/
theorem mintAndStore_spec (env : Env) (h : Option Handler) (s : Store) (now : Int) (m : MintIn) (sid tt : Str) (g : Grant)
    (b : Option Token) :
    let r := mintAndStore env h s now m sid tt g b
    (r.1 = s ∧ r.2.1 = g ∧ ∃ e, r.2.2 = .error e) ∨
    ∃ v t, tokenString env h now m sid = .ok v ∧ g.isActive now = true ∧
      (∀ bt, b = some bt → bt.supportsMinting tt = true ∧ bt.isActive now = true) ∧
      r.2.1.issuedToken = g.issuedToken ++ [t] ∧ t.value = v ∧ t.basedOn = b.map Token.value ∧ t.typ = tt ∧ t.scope = [] ∧
      t.revoked = false ∧ t.used = 0 ∧ g.tokenMap.get? tt = some t.kind ∧
      r.2.1.scope = g.scope ∧ r.2.1.authReq = g.authReq ∧
      r.1 = (mgrSet s sid (.grant r.2.1)).1 ∧
      ((∃ e, r.2.2 = .error e) ∨ (r.2.2 = .ok t ∧ (mgrSet s sid (.grant r.2.1)).2 = .ok ())) ∧
      ((∀ bt, b = some bt → ∃ i, g.tokenAt i = some bt) → ScopeOk env g →
        (if tt = tAuthorizationCode then env.th.code else env.th.accessToken) = h → Evo env sid g r.2.1) := by
  simp only
  unfold mintAndStore
  simp only
  rcases mintToken_cases g now m.id tt b (some ((g.usageRules.get? tt).getD {})) [] {} (tokenString env h now m sid)
    with ⟨h1, h2⟩ | ⟨v, k, hv, hact, hm, hb, item, hi, hr⟩
  · left
    cases hx : (g.mintToken now m.id tt b (some ((g.usageRules.get? tt).getD {})) [] {} (tokenString env h now m sid)).2 with
    | error e => simp only; exact ⟨trivial, h1, _, rfl⟩
    | ok o =>
      cases o with
      | none => simp only; exact ⟨trivial, h1, _, rfl⟩
      | some t => exact absurd hx (h2 t)
  · right
    rw [hr]
    simp only
    -- the value comes from the handler
    have hval : ∀ hd, h = some hd → ∃ rnd nonce ttype, v = handlerCall env.cr hd now rnd nonce sid ttype := by
      intro hd hhd
      subst hhd
      unfold tokenString at hv
      cases hp : m.payload with
      | error e => simp [hp] at hv
      | ok _ => simp only [hp] at hv; exact ⟨m.rnd, m.nonce, m.ttype, (Except.ok.inj hv).symm⟩
    have hsome : ∃ hd, h = some hd := by
      cases h with
      | some hd => exact ⟨hd, rfl⟩
      | none =>
        unfold tokenString at hv
        cases hp : m.payload with
        | error e => simp [hp] at hv
        | ok _ => simp [hp] at hv
    have hfrom : (if tt = tAuthorizationCode then env.th.code else env.th.accessToken) = h → FromHandler env sid tt v := by
      intro hh
      obtain ⟨hd, hhd⟩ := hsome
      obtain ⟨rnd, nonce, ttype, hv'⟩ := hval hd hhd
      exact ⟨hd, by rw [hh, hhd], now, rnd, nonce, ttype, hv'⟩
    have finish : ∀ (G : Grant) (t : Token), G.issuedToken = g.issuedToken ++ [t] → t.value = v →
        t.basedOn = b.map Token.value → t.typ = tt → t.scope = [] → t.revoked = false → t.used = 0 →
        g.tokenMap.get? tt = some t.kind → G.scope = g.scope → G.authReq = g.authReq →
        ((∀ bt, b = some bt → ∃ i, g.tokenAt i = some bt) → ScopeOk env g →
          (if tt = tAuthorizationCode then env.th.code else env.th.accessToken) = h → Evo env sid g G) →
        ∀ r : Store × Grant × Except Exn Token, r = (match (mgrSet s sid (.grant G)).2 with
          | .error e => ((mgrSet s sid (.grant G)).1, G, .error e)
          | .ok () => ((mgrSet s sid (.grant G)).1, G, .ok t)) →
        ∃ v t, tokenString env h now m sid = .ok v ∧ g.isActive now = true ∧
          (∀ bt, b = some bt → bt.supportsMinting tt = true ∧ bt.isActive now = true) ∧
          r.2.1.issuedToken = g.issuedToken ++ [t] ∧ t.value = v ∧ t.basedOn = b.map Token.value ∧ t.typ = tt ∧
          t.scope = [] ∧ t.revoked = false ∧ t.used = 0 ∧ g.tokenMap.get? tt = some t.kind ∧
          r.2.1.scope = g.scope ∧ r.2.1.authReq = g.authReq ∧
          r.1 = (mgrSet s sid (.grant r.2.1)).1 ∧
          ((∃ e, r.2.2 = .error e) ∨ (r.2.2 = .ok t ∧ (mgrSet s sid (.grant r.2.1)).2 = .ok ())) ∧
          ((∀ bt, b = some bt → ∃ i, g.tokenAt i = some bt) → ScopeOk env g →
            (if tt = tAuthorizationCode then env.th.code else env.th.accessToken) = h → Evo env sid g r.2.1) := by
      intro G t e1 e2 e3 e4 e5 e6 e7 e8 e9 e10 e11 r hrr
      cases hw : (mgrSet s sid (.grant G)).2 with
      | error e =>
        simp only [hw] at hrr
        subst hrr
        exact ⟨v, t, hv, hact, hb, e1, e2, e3, e4, e5, e6, e7, e8, e9, e10, rfl, Or.inl ⟨e, rfl⟩, e11⟩
      | ok _ =>
        simp only [hw] at hrr
        subst hrr
        exact ⟨v, t, hv, hact, hb, e1, e2, e3, e4, e5, e6, e7, e8, e9, e10, rfl, Or.inr ⟨rfl, hw⟩, e11⟩
    have hevo1 : (∀ bt, b = some bt → ∃ i, g.tokenAt i = some bt) → ScopeOk env g →
        (if tt = tAuthorizationCode then env.th.code else env.th.accessToken) = h →
        Evo env sid g { g with issuedToken := g.issuedToken ++ [item], used := g.used + 1 } := by
      intro hpos hsc hh
      have hex : ∃ i : Option Nat, i.bind g.tokenAt = b := by
        cases b with
        | none => exact ⟨none, rfl⟩
        | some bt => obtain ⟨i, hi⟩ := hpos bt rfl; exact ⟨some i, hi⟩
      obtain ⟨i, hi'⟩ := hex
      have := Evo.one (env := env) (k := sid) g
        (.mint now m.id tt i (some ((g.usageRules.get? tt).getD {})) [] {} (.ok v)) ⟨rfl, hsc, hfrom hh⟩
      simp only [Grant.step, hi', ← hv, hr] at this
      exact this
    by_cases he : ((g.usageRules.get? tt).getD {}).expiresIn.getD 0 = 0
    · simp only [he, if_true]
      exact finish { g with issuedToken := g.issuedToken ++ [item], used := g.used + 1 } item rfl
        (by rw [hi]; rfl) (by rw [hi]; rfl) (by rw [hi]; rfl) (by rw [hi]; rfl) (by rw [hi]; rfl) (by rw [hi]; rfl)
        (by rw [hi]; exact hm) rfl rfl hevo1 _ rfl
    · simp only [he, if_false]
      generalize now + ((g.usageRules.get? tt).getD {}).expiresIn.getD 0 = ex
      have hl : setLastExpiry ex (g.issuedToken ++ [item]) = g.issuedToken ++ [setExpiresAt ex item] := by
        unfold setLastExpiry
        rw [List.getLast?_append]
        simp only [List.getLast?_singleton, Option.some_or, List.dropLast_concat, setExpiresAt]
      refine finish { g with issuedToken := setLastExpiry ex (g.issuedToken ++ [item]), used := g.used + 1 } (setExpiresAt ex item) hl
        (by rw [hi]; rfl) (by rw [hi]; rfl) (by rw [hi]; rfl) (by rw [hi]; rfl) (by rw [hi]; rfl) (by rw [hi]; rfl)
        (by rw [hi]; exact hm) rfl rfl ?_ _ rfl
      intro a1 a2 a3
      have h1 := hevo1 a1 a2 a3
      have := Evo.step (.setExpiry g.issuedToken.length ex) h1 trivial
      simp only [Grant.step] at this
      rw [setLastExpiry_append]
      exact this

end Verif
