import Verif.Spec.Honest
import Verif.Spec.Grant
import Verif.Lemmas.TokenSuccess
import Verif.Props.TokenString
import Verif.Props.TokenHistory
import Verif.Props.Grant
set_option linter.unusedSimpArgs false
/-! Forward lemmas: when minting and the endpoints succeed. -/
namespace Verif
open Spec

/-- Writing a grant of a session succeeds and is read back. -/
theorem set_grant {s : Store} (ht : Tree s) {u c gid : Str} (hu : GoodId u) (hc : GoodId c) (hg : GoodId gid) (g : Grant) :
    ∃ s', mgrSet s (sessionKey [u, c, gid]) (.grant g) = (s', .ok ()) ∧ Tree s' ∧
      getGrant s' (sessionKey [u, c, gid]) = .ok g ∧ dbGet s' [u, c, gid] = .ok (.grant g) := by
  obtain ⟨s', h1, h2⟩ := tree_set3 ht hu hc hg g
  obtain ⟨s'', h3, h4⟩ := C13_read_own_write s ht.typed [u, c, gid] (goodPath_three hu hc hg) (by simp) (.grant g)
  rw [h1] at h3
  cases h3
  refine ⟨s', ?_, h2, (getGrant_iff hu hc hg g).2 h4, h4⟩
  unfold mgrSet
  rw [unpack_good (goodPath_three hu hc hg)]
  exact h1

/-- A string made by a configured handler is read back as its session while its lifetime lasts. -/
theorem handler_resolves {env : Env} {hc ha : Handler} (hi : IssuesTokens env hc ha) {h : Handler} (hh : h = hc ∨ h = ha)
    {made now : Int} (hr : Readable h made now) (rnd nonce sid : Str) :
    env.th.sid env.cr now (handlerCall env.cr h made rnd nonce sid []) = .ok sid := by
  have hf : FactoryTypes env.th := by
    refine ⟨fun x hx => ?_, fun x hx => ?_, hi.refreshType⟩
    · rw [hi.code] at hx; cases hx; exact hi.codeType
    · rw [hi.access] at hx; cases hx; exact hi.accessType
  have hmem : h ∈ env.th.order := by
    rcases hh with rfl | rfl <;> simp [TokenHandler.order, hi.code, hi.access]
  unfold TokenHandler.sid
  cases hcl : h.cls with
  | default => rw [C04_default_token_resolves env.cr hi.laws env.th hf h hmem hcl]
  | jwt =>
    rw [C04_jwt_token_resolves env.cr hi.laws env.th hf h hmem hcl]
    have : now ≤ made + h.lifetime := by
      rcases hr with hr | hr
      · rw [hcl] at hr; cases hr
      · exact hr
    rw [if_pos (.inr this)]

/-- A session found by a string that resolves to it. -/
theorem sessionByToken_resolves {env : Env} {s : Store} {now : Int} {v u c gid : Str} (hu : GoodId u) (hc : GoodId c)
    (hg : GoodId gid) (hr : env.th.sid env.cr now v = .ok (sessionKey [u, c, gid])) {g : Grant}
    (hgr : getGrant s (sessionKey [u, c, gid]) = .ok g) :
    sessionByToken env.th env.cr s now v = .ok (sessionKey [u, c, gid], .grant g) := by
  unfold sessionByToken
  rw [hr]
  simp only
  rw [unpack3_good hu hc hg]
  simp only
  rw [(getGrant_iff hu hc hg g).1 hgr]

/-- Minting succeeds for an active grant, on the basis of an active token with the right to mint. -/
theorem mint_succeeds {env : Env} {h : Option Handler} {hd : Handler} {s : Store} {now : Int} {m : MintIn} {u c gid tt : Str}
    {g : Grant} {b : Option Token} {k : TokenKind} (ht : Tree s) (hu : GoodId u) (hc : GoodId c) (hg : GoodId gid)
    (hact : g.isActive now = true) (hb : ∀ bt, b = some bt → bt.supportsMinting tt = true ∧ bt.isActive now = true)
    (hk : g.tokenMap.get? tt = some k) (hh : h = some hd) (hp : m.payload = .ok ()) :
    ∃ s' t, mintAndStore env h s now m (sessionKey [u, c, gid]) tt g b =
        (s', { g with issuedToken := g.issuedToken ++ [t], used := g.used + 1 }, .ok t) ∧ Tree s' ∧
      getGrant s' (sessionKey [u, c, gid]) = .ok { g with issuedToken := g.issuedToken ++ [t], used := g.used + 1 } ∧
      t.value = handlerCall env.cr hd now m.rnd m.nonce (sessionKey [u, c, gid]) m.ttype ∧ t.kind = k ∧ t.typ = tt ∧
      t.basedOn = b.map Token.value ∧
      t.usageRules = setDefaults k ((g.usageRules.get? tt).getD {}) ∧ t.used = 0 ∧ t.revoked = false ∧ t.notBefore = 0 ∧
      t.expiresAt = (if ((g.usageRules.get? tt).getD {}).expiresIn.getD 0 = 0 then 0
        else now + ((g.usageRules.get? tt).getD {}).expiresIn.getD 0) := by
  subst hh
  generalize hrules : (g.usageRules.get? tt).getD {} = rules
  generalize hv : handlerCall env.cr hd now m.rnd m.nonce (sessionKey [u, c, gid]) m.ttype = v
  have hts : tokenString env (some hd) now m (sessionKey [u, c, gid]) = .ok v := by
    simp [tokenString, hp, hv]
  generalize hitem : Token.new k now m.id { typ := tt, value := v, basedOn := b.map Token.value, usageRules := rules } = item
  have hmint : g.mintToken now m.id tt b (some rules) [] {} (.ok v) =
      ({ g with issuedToken := g.issuedToken ++ [item], used := g.used + 1 }, .ok (some item)) := by
    unfold Grant.mintToken
    rw [if_neg (by simp [hact])]
    cases b with
    | none => simp only [hk]; rw [← hitem]; rfl
    | some bt =>
      obtain ⟨h1, h2⟩ := hb bt rfl
      simp only [h1, h2, Bool.and_self, if_true, hk]
      rw [← hitem]; rfl
  generalize hexp : rules.expiresIn.getD 0 = e
  refine (fun (key : ∃ s' t, mintAndStore env (some hd) s now m (sessionKey [u, c, gid]) tt g b =
        (s', { g with issuedToken := g.issuedToken ++ [t], used := g.used + 1 }, .ok t) ∧ Tree s' ∧
      getGrant s' (sessionKey [u, c, gid]) = .ok { g with issuedToken := g.issuedToken ++ [t], used := g.used + 1 } ∧
      t = (if e = 0 then item else { item with expiresAt := now + e })) => ?_) ?_
  · obtain ⟨s', t, k1, k2, k3, k4⟩ := key
    refine ⟨s', t, k1, k2, k3, ?_⟩
    subst k4
    subst hitem
    by_cases he : e = 0
    · simp [he, Token.new, Item.mk']
    · simp [he, Token.new, Item.mk']
  · unfold mintAndStore
    simp only [hts, hrules, hmint, hexp]
    by_cases he : e = 0
    · simp only [he, if_true]
      obtain ⟨s', e1, e2, e3, _⟩ := set_grant ht hu hc hg { g with issuedToken := g.issuedToken ++ [item], used := g.used + 1 }
      exact ⟨s', item, by simp only [e1], e2, e3, rfl⟩
    · simp only [he, if_false]
      have hl : setLastExpiry (now + e) (g.issuedToken ++ [item]) = g.issuedToken ++ [{ item with expiresAt := now + e }] := by
        simp [setLastExpiry]
      rw [hl]
      obtain ⟨s', e1, e2, e3, _⟩ := set_grant ht hu hc hg
        { g with issuedToken := g.issuedToken ++ [{ item with expiresAt := now + e }], used := g.used + 1 }
      exact ⟨s', _, by simp only [e1], e2, e3, rfl⟩

theorem active_more {g : Grant} (hm : g.maxUsage = none) (l : List Token) (n : Nat) (now : Int) :
    ({ g with issuedToken := l, used := n } : Grant).isActive now = g.isActive now := by
  simp [Grant.isActive, Item.isActive, Item.maxUsageReached, hm]

/-- What is stored after a code was exchanged: the code is used, the new tokens are there. -/
def Grant.exchanged (g : Grant) (code : Str) (new : List Token) : Grant :=
  { g with issuedToken := updateFirst code Token.registerUsage g.issuedToken ++ new, used := g.used + new.length }

/-- What the tokens made by the token endpoint look like. -/
structure MadeBy (env : Env) (ha : Handler) (g : Grant) (now : Int) (m : MintIn) (sid tt base : Str) (k : TokenKind) (t : Token) :
    Prop where
  value : t.value = handlerCall env.cr ha now m.rnd m.nonce sid []
  kind : t.kind = k
  typ : t.typ = tt
  basedOn : t.basedOn = some base
  rules : t.usageRules = setDefaults k ((g.usageRules.get? tt).getD {})
  used : t.used = 0
  revoked : t.revoked = false
  notBefore : t.notBefore = 0
  expiresAt : t.expiresAt = (if ((g.usageRules.get? tt).getD {}).expiresIn.getD 0 = 0 then 0
        else now + ((g.usageRules.get? tt).getD {}).expiresIn.getD 0)

theorem mint_based {env : Env} {ha : Handler} {s : Store} {now : Int} {m : MintIn} {u c gid tt : Str}
    {g : Grant} {b : Token} {k : TokenKind} (ht : Tree s) (hu : GoodId u) (hc : GoodId c) (hg : GoodId gid)
    (hact : g.isActive now = true) (hb : b.supportsMinting tt = true ∧ b.isActive now = true)
    (hk : g.tokenMap.get? tt = some k) (hh : env.th.accessToken = some ha) (hp : m.payload = .ok () ∧ m.ttype = []) :
    ∃ s' t, mintAndStore env env.th.accessToken s now m (sessionKey [u, c, gid]) tt g (some b) =
        (s', { g with issuedToken := g.issuedToken ++ [t], used := g.used + 1 }, .ok t) ∧ Tree s' ∧
      getGrant s' (sessionKey [u, c, gid]) = .ok { g with issuedToken := g.issuedToken ++ [t], used := g.used + 1 } ∧
      MadeBy env ha g now m (sessionKey [u, c, gid]) tt b.value k t := by
  obtain ⟨s', t, h1, h2, h3, h4, h5, h6, h7, h8, h9, h10, h11, h12⟩ := mint_succeeds (env := env) (m := m) (b := some b)
    ht hu hc hg hact (by rintro bt ⟨⟩; exact hb) hk hh hp.1
  refine ⟨s', t, h1, h2, h3, ⟨?_, h5, h6, h7, h8, h9, h10, h11, h12⟩⟩
  rw [h4, hp.2]

/-- Exchanging a code for tokens succeeds. -/
theorem exchangeCode_succeeds {env : Env} {hc0 ha : Handler} (hi : IssuesTokens env hc0 ha) {s : Store} {i : TokIn} {u c gid : Str}
    {g : Grant} {t : Token} {ar : AuthReq} (ht : Tree s) (hu : GoodId u) (hc : GoodId c) (hg : GoodId gid)
    (hact : g.isActive i.now = true) (hmax : g.maxUsage = none) (hmap : g.tokenMap = defaultTokenMap)
    (htok : g.getToken t.value = some t) (hta : t.isActive i.now = true) (hm : t.supportsMinting tAccessToken = true)
    (hoff : c!"offline_access" ∈ g.scope → t.supportsMinting tRefreshToken = true) (hn : NoFailure i) :
    ∃ s' resp at' new, exchangeCode env s i (sessionKey [u, c, gid]) g (some t) ar = (s', .val resp) ∧ Tree s' ∧
      getGrant s' (sessionKey [u, c, gid]) = .ok (g.exchanged t.value (at' :: new)) ∧
      MadeBy env ha g i.now i.ma (sessionKey [u, c, gid]) tAccessToken t.value .accessToken at' ∧
      (∀ r ∈ new, MadeBy env ha g i.now i.mr (sessionKey [u, c, gid]) tRefreshToken t.value .refreshToken r) ∧
      new.length = (if c!"offline_access" ∈ g.scope then 1 else 0) ∧
      resp.accessToken = at'.value ∧ resp.refreshToken = (new.map Token.value).head? ∧ resp.scope = g.scope ∧
      (resp.idToken.isSome = decide (c!"openid" ∈ ar.scope)) ∧ resp.expiresIn = some (at'.expiresAt - i.now) := by
  obtain ⟨s1, a, h1, h2, h3, h4⟩ := mint_based (m := i.ma) ht hu hc hg hact ⟨hm, hta⟩
    (by rw [hmap]; rfl : g.tokenMap.get? tAccessToken = some .accessToken) hi.access hn.ma
  obtain ⟨x, hx⟩ := hn.idt
  have hid : ∃ y, idTokenFor (decide (c!"openid" ∈ ar.scope)) i.idt = .val y ∧ (y.isSome = decide (c!"openid" ∈ ar.scope)) := by
    unfold idTokenFor
    rw [hx]
    by_cases ho : c!"openid" ∈ ar.scope <;> simp [ho]
  obtain ⟨y, hy, hy2⟩ := hid
  unfold exchangeCode
  simp only [h1]
  by_cases ho : c!"offline_access" ∈ g.scope
  · obtain ⟨s2, r, k1, k2, k3, k4⟩ := mint_based (m := i.mr) h2 hu hc hg
      (g := { g with issuedToken := g.issuedToken ++ [a], used := g.used + 1 }) (by rw [active_more hmax]; exact hact)
      ⟨hoff ho, hta⟩ (by simp only; rw [hmap]; rfl : _ = some TokenKind.refreshToken) hi.access hn.mr
    simp only [ho, decide_true, refreshPart, if_true, k1, Except.map, finishCode]
    have hfin : ({ g with issuedToken := g.issuedToken ++ [a] ++ [r], used := g.used + 1 + 1 } : Grant).registerUsage t.value =
        g.exchanged t.value [a, r] := by
      simp only [Grant.registerUsage, Grant.exchanged]
      rw [List.append_assoc, updateFirst_append htok]
      rfl
    obtain ⟨s3, m1, m2, m3, _⟩ := set_grant k2 hu hc hg (g.exchanged t.value [a, r])
    simp only [hfin, m1, hy]
    refine ⟨s3, _, a, [r], rfl, m2, m3, h4, ?_, rfl, rfl, rfl, rfl, hy2, rfl⟩
    intro r' hr'
    simp only [List.mem_singleton] at hr'
    subst hr'
    exact ⟨k4.value, k4.kind, k4.typ, k4.basedOn, k4.rules, k4.used, k4.revoked, k4.notBefore, k4.expiresAt⟩
  · simp only [ho, decide_false, refreshPart, Bool.false_eq_true, if_false, finishCode]
    have hfin : ({ g with issuedToken := g.issuedToken ++ [a], used := g.used + 1 } : Grant).registerUsage t.value =
        g.exchanged t.value [a] := by
      simp only [Grant.registerUsage, Grant.exchanged]
      rw [updateFirst_append htok]
      rfl
    obtain ⟨s3, m1, m2, m3, _⟩ := set_grant h2 hu hc hg (g.exchanged t.value [a])
    simp only [hfin, m1, hy]
    refine ⟨s3, _, a, [], rfl, m2, m3, h4, ?_, rfl, rfl, rfl, rfl, hy2, rfl⟩
    simp

end Verif
