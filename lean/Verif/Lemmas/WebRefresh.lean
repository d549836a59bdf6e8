import Verif.Spec.WebRefresh
import Verif.Lemmas.WebFlow
import Verif.Lemmas.WebElsewhere
import Verif.Lemmas.Open
set_option linter.unusedSimpArgs false
set_option linter.unusedVariables false
/-! A refresh only adds tokens to a session. -/
namespace Verif
open Spec

/-- The grant has more tokens and has been used more often; nothing else is different. -/
def Grown (g g' : Grant) : Prop := ∃ l n, g' = { g with issuedToken := g.issuedToken ++ l, used := n }

theorem Grown.refl (g : Grant) : Grown g g := ⟨[], g.used, by simp⟩

theorem Grown.trans {a b c : Grant} (h : Grown a b) (h2 : Grown b c) : Grown a c := by
  obtain ⟨l, n, rfl⟩ := h
  obtain ⟨l', n', rfl⟩ := h2
  exact ⟨l ++ l', n', by simp [List.append_assoc]⟩

theorem Grown.getToken {g g' : Grant} (h : Grown g g') {v : Str} {t : Token} (ht : g.getToken v = some t) : g'.getToken v = some t := by
  obtain ⟨l, n, rfl⟩ := h
  unfold Grant.getToken
  exact findValue_append_left ht

/-- What minting does to the grant and the store. -/
theorem mint_grown {env : Env} {h : Option Handler} {s : Store} {now : Int} {m : MintIn} {sid tt : Str} {g : Grant}
    {b : Option Token} (ho : OpenAt s sid) (hs : s sid = some (.grant g)) :
    let r := mintAndStore env h s now m sid tt g b
    r.1 = s.put sid (.grant r.2.1) ∧
    (r.2.1 = g ∨ ∃ t, r.2.1 = { g with issuedToken := g.issuedToken ++ [t], used := g.used + 1 }) ∧
    (∀ t, r.2.2 = .ok t → ∃ t, r.2.1 = { g with issuedToken := g.issuedToken ++ [t], used := g.used + 1 }) := by
  have same : s.put sid (.grant g) = s := by
    funext x
    unfold Store.put
    split
    · rename_i e; rw [e, hs]
    · rfl
  simp only
  unfold mintAndStore
  simp only
  rcases mintToken_cases g now m.id tt b (some ((g.usageRules.get? tt).getD {})) [] {} (tokenString env h now m sid)
    with ⟨h1, h2⟩ | ⟨v, k, hv, hact, hm, hb, item, hi, hr⟩
  · cases hx : (g.mintToken now m.id tt b (some ((g.usageRules.get? tt).getD {})) [] {} (tokenString env h now m sid)).2 with
    | error e => simp only [h1, same, true_or, true_and]; intro t ht; cases ht
    | ok o =>
      cases o with
      | none => simp only [h1, same, true_or, true_and]; intro t ht; cases ht
      | some t => exact absurd hx (h2 t)
  · rw [hr]
    simp only
    simp only [(ho.mgrSet _).1]
    have hG : ∃ t, (if ((g.usageRules.get? tt).getD {}).expiresIn.getD 0 = 0 then { g with issuedToken := g.issuedToken ++ [item], used := g.used + 1 }
        else { g with issuedToken := setLastExpiry (now + ((g.usageRules.get? tt).getD {}).expiresIn.getD 0) (g.issuedToken ++ [item]), used := g.used + 1 }) =
        ({ g with issuedToken := g.issuedToken ++ [t], used := g.used + 1 } : Grant) := by
      split
      · exact ⟨item, rfl⟩
      · refine ⟨{ item with expiresAt := now + ((g.usageRules.get? tt).getD {}).expiresIn.getD 0 }, ?_⟩
        simp [setLastExpiry]
    exact ⟨trivial, Or.inr hG, fun _ _ => hG⟩

theorem grown_mint {g g' : Grant} (h : g' = g ∨ ∃ t, g' = { g with issuedToken := g.issuedToken ++ [t], used := g.used + 1 }) : Grown g g' := by
  rcases h with rfl | ⟨t, rfl⟩
  · exact Grown.refl _
  · exact ⟨[t], g.used + 1, rfl⟩

theorem newRefresh_grown {m : Mode} {env : Env} {s : Store} {i : TokIn} {sid : Str} {g : Grant} {b : Token} {want : Bool}
    (ho : OpenAt s sid) (hs : s sid = some (.grant g)) :
    ∃ g', (newRefresh m env s i sid g b want).1 = s.put sid (.grant g') ∧ Grown g g' := by
  have same : s.put sid (.grant g) = s := by
    funext x
    unfold Store.put
    split
    · rename_i e; rw [e, hs]
    · rfl
  unfold newRefresh refreshPart
  cases want with
  | false => exact ⟨g, same.symm, Grown.refl g⟩
  | true =>
    simp only [if_true]
    obtain ⟨h1, h2, h3⟩ := mint_grown (env := env) (h := env.th.accessToken) (now := i.now) (m := i.mr) (tt := tRefreshToken) (b := some b) ho hs
    generalize mintAndStore env env.th.accessToken s i.now i.mr sid tRefreshToken g (some b) = M at h1 h2 h3 ⊢
    obtain ⟨M1, M2, M3⟩ := M
    simp only at h1 h2 h3 ⊢
    cases M3 with
    | error e => exact ⟨M2, h1, grown_mint h2⟩
    | ok t =>
      simp only [Except.map]
      cases m with
      | byValue => exact ⟨M2, h1, grown_mint h2⟩
      | aliased =>
        refine ⟨M2.copyRulesToLast b.usageRules, ?_, ?_⟩
        · simp only [touch, h1, put_put]
        · obtain ⟨t', rfl⟩ := h3 t rfl
          refine ⟨[{ t' with usageRules := b.usageRules }], g.used + 1, ?_⟩
          unfold Grant.copyRulesToLast
          simp only [List.length_append, List.length_cons, List.length_nil, Nat.zero_add, Nat.add_sub_cancel]
          rw [modify_append_last]

theorem exchangeRefresh_grown {m : Mode} {env : Env} {s : Store} {i : TokIn} {sid : Str} {g : Grant} {b : Option Token}
    (ho : OpenAt s sid) (hs : s sid = some (.grant g)) :
    ∃ g', (exchangeRefresh m env s i sid g b).1 = s.put sid (.grant g') ∧ Grown g g' := by
  unfold exchangeRefresh
  obtain ⟨h1, h2, h3⟩ := mint_grown (env := env) (h := env.th.accessToken) (now := i.now) (m := i.ma) (tt := tAccessToken) (b := b) ho hs
  generalize mintAndStore env env.th.accessToken s i.now i.ma sid tAccessToken g b = M at h1 h2 h3 ⊢
  obtain ⟨M1, M2, M3⟩ := M
  simp only at h1 h2 h3 ⊢
  cases M3 with
  | error e => exact ⟨M2, h1, grown_mint h2⟩
  | ok t =>
    cases b with
    | none => exact ⟨M2, h1, grown_mint h2⟩
    | some b =>
      simp only
      cases hb : b.usageRules.supportsMinting with
      | none => exact ⟨M2, h1, grown_mint h2⟩
      | some mints =>
        simp only
        subst h1
        obtain ⟨g', k1, k2⟩ := newRefresh_grown (m := m) (env := env) (i := i) (g := M2) (b := b) (want := decide (tRefreshToken ∈ mints)) (ho.put (.grant M2))
          (by simp [Store.put])
        generalize newRefresh m env (s.put sid (.grant M2)) i sid M2 b (decide (tRefreshToken ∈ mints)) = R at k1 ⊢
        obtain ⟨R1, R2⟩ := R
        simp only at k1 ⊢
        refine ⟨g', ?_, (grown_mint h2).trans k2⟩
        rw [put_put] at k1
        cases R2 with
        | error e => exact k1
        | ok rt =>
          simp only [finishRefresh]
          split <;> exact k1

/-- A refresh request, whosever, leaves the grants as they are or adds tokens. -/
theorem refresh_grows {m : Mode} {env : Env} {helpers : Dict Helper} {s : Store} (hS : Sound s) {i : TokIn} {req : TokReq}
    (hr : req.grantType = some c!"refresh_token") {u c gid : Str} (hu : GoodId u) (hc : GoodId c) (hg : GoodId gid) {g : Grant}
    (h : getGrant s (sessionKey [u, c, gid]) = .ok g) :
    ∃ g', getGrant (tokProcess m env helpers s i req).1 (sessionKey [u, c, gid]) = .ok g' ∧ Grown g g' := by
  have key : ∀ s', (tokProcess m env helpers s i req).1 = s' → s' = s ∨
      (∃ sid g0 g1, getGrant s sid = .ok g0 ∧ Grown g0 g1 ∧ s' = s.put sid (.grant g1)) := by
    intro s' hs'
    have e1 : s' = (helperProcess m env helpers s i req).1 := by
      rw [← hs']
      unfold tokProcess
      generalize helperProcess m env helpers s i req = H
      obtain ⟨H1, H2⟩ := H
      cases H2 with
      | val r => simp only; split <;> rfl
      | _ => rfl
    rw [e1]
    unfold helperProcess
    simp only [hr]
    split
    · exact Or.inl rfl
    · exact Or.inl rfl
    · refine Or.inl ?_
      unfold codeProcess
      rw [if_pos (by rw [hr]; decide)]
    · unfold refreshProcess
      rw [if_neg (by rw [hr]; simp)]
      split
      · exact Or.inl rfl
      · split
        · exact Or.inl rfl
        · exact Or.inl rfl
        · rename_i _ v _ _ sid g0 hb
          have hgr := sessionByToken_getGrant hb
          have hk := (sessionByToken_key hS.noEmpty hb).2.1
          obtain ⟨g1, k1, k2⟩ := exchangeRefresh_grown (m := m) (env := env) (i := i) (b := g0.getToken v) (openAt_of_getGrant hS.noEmpty hgr) hk
          exact Or.inr ⟨sid, g0, g1, hgr, k2, k1⟩
  rcases key _ rfl with e | ⟨sid, g0, g1, h0, hg1, e⟩
  · rw [e]; exact ⟨g, h, Grown.refl g⟩
  · rw [e]
    obtain ⟨u', c', gid', hu', hc', hg', rfl⟩ := hS.sid (getGrant_key hS.noEmpty h0).1
    have ho := openAt_of_getGrant hS.noEmpty h0
    by_cases hk : sessionKey [u', c', gid'] = sessionKey [u, c, gid]
    · rw [hk] at h0 ho ⊢
      rw [h] at h0
      cases h0
      exact ⟨g1, ho.getGrant g1, hg1⟩
    · refine ⟨g, (getGrant_iff hu hc hg g).2 ?_, Grown.refl g⟩
      obtain ⟨ui, ci, d1, d2, d3, d4, d5⟩ := (dbGet3 _ _ _ _ _).1 ((getGrant_iff hu hc hg g).1 h)
      have hp := goodPath_three hu' hc' hg'
      refine (dbGet3 _ _ _ _ _).2 ⟨ui, ci, ?_, d2, ?_, d4, ?_⟩
      · rw [put_at _ _ hp (goodPath_one hu)]; simpa using d1
      · rw [put_at _ _ hp (goodPath_two hu hc)]; simpa using d3
      · rw [put_at _ _ hp (goodPath_three hu hc hg), if_neg, d5]
        intro e
        exact hk (by rw [e])

/-- Over any stretch of requests of others, restarts of a provider with its sessions on disk, and refreshes by whomever, a
session only gets more tokens. -/
theorem stretch_grows {cfg : ProvCfg} (L : TokenCryptoLaws cfg.sys.env.cr) (l mid : List HttpOp) (hn : GoodNames cfg (l ++ mid)) {u c gid : Str}
    (hu : GoodId u) (hc : GoodId c) (hg : GoodId gid) (h : During cfg l mid fun st op => ByOthersOrRestart cfg u c st op ∨ RefreshProcessed op) {g : Grant}
    (hgr : getGrant (provRun cfg l).sys.store (sessionKey [u, c, gid]) = .ok g) :
    ∃ g', getGrant (provRun cfg (l ++ mid)).sys.store (sessionKey [u, c, gid]) = .ok g' ∧ Grown g g' := by
  induction mid using snocInd with
  | nil => simp only [List.append_nil]; exact ⟨g, hgr, Grown.refl g⟩
  | append_singleton m op ih =>
    rw [← List.append_assoc] at hn ⊢
    obtain ⟨g', h1, h2⟩ := ih hn.snoc_left (During.init h)
    rcases During.last h with ho | ho
    · refine ⟨g', ?_, h2⟩
      exact (others_grant L (l ++ m) [op] hn hu hc hg (During.one ho)).2 h1
    · cases op with
      | tokenProcess i req =>
        have hS := provRun_sound hn.snoc_left
        rw [provRun_snoc]
        simp only [provStep, sysStep]
        split
        · obtain ⟨g'', k1, k2⟩ := refresh_grows (m := cfg.sys.mode) (env := cfg.sys.env) (helpers := cfg.sys.helpers) hS (i := i) ho hu hc hg h1
          exact ⟨g'', k1, h2.trans k2⟩
        · exact ⟨g', h1, h2⟩
      | _ => exact absurd ho (fun h => h)

theorem Grown.active {g g' : Grant} (h : Grown g g') (hm : g.maxUsage = none) {now : Int} (ha : ActiveAt g.toItem g.maxUsage now) :
    ActiveAt g'.toItem g'.maxUsage now := by
  obtain ⟨l, n, rfl⟩ := h
  rw [hm] at ha
  simp only [ActiveAt, hm] at ha ⊢
  exact ⟨ha.1, by simp, ha.2.2⟩

/-- The refresh token from the code can be used while it and the session live. -/
theorem refreshable_after_code {cfg : ProvCfg} {hc ha : Handler} {f : Str → Option Str → Str} (P : CodeFlowProvider cfg hc ha f) (RP : RefreshProvider cfg)
    {cdb : Cdb} {u c gid : Str} {q : AuthReq} (hq : q.clientId = c) {made : Int} {g : Grant} {t : Token}
    (hr : ∀ tt, rulesFor cfg.sys.env cdb c tt = providerRules cfg tt)
    (I : CodeIssued cfg.sys.env hc cdb (asParsed cfg.sys.env q) made (sessionKey [u, c, gid]) g t) {at' : Token} {new : List Token} {i : TokIn}
    (M : MadeBy cfg.sys.env ha g i.now i.ma (sessionKey [u, c, gid]) tAccessToken t.value .accessToken at')
    (N : ∀ r ∈ new, MadeBy cfg.sys.env ha g i.now i.mr (sessionKey [u, c, gid]) tRefreshToken t.value .refreshToken r) {rt : Str}
    (hrt : (new.map Token.value).head? = some rt) (hne : rt ≠ at'.value) {s : Store}
    (hgr : getGrant s (sessionKey [u, c, gid]) = .ok (g.exchanged t.value (at' :: new))) {later : Int}
    (hw : Within i.now (providerRules cfg tRefreshToken).expiresIn later) (hwg : Within made cfg.sys.env.gc.expiresIn later)
    (hrd : Readable ha i.now later) : Refreshable cfg s u c gid rt later := by
  have e1 : (asParsed cfg.sys.env q).clientId = c := by unfold asParsed; split <;> exact hq
  cases new with
  | nil => cases hrt
  | cons r new =>
    simp only [List.map_cons, List.head?_cons, Option.some.injEq] at hrt
    have K := N r (by simp)
    obtain ⟨rnd, nonce, hval⟩ := I.codeValue
    have hn1 : t.value ≠ rt := by
      rw [hval, ← hrt, K.value]; exact code_ne_access P.tokens _ _ _ _ _ _ _ _
    have hrules : (g.usageRules.get? tRefreshToken).getD {} = providerRules cfg tRefreshToken := by
      rw [I.rules, e1, hr]
    refine ⟨g.exchanged t.value (at' :: r :: new), r, hgr, ?_, K.kind, I.unlimited, I.map, ?_, ?_, ?_, ?_⟩
    · unfold Grant.getToken Grant.exchanged
      simp only [I.tokens, updateFirst, if_true, List.cons_append, List.nil_append, findValue, Token.registerUsage]
      simp [hn1, Ne.symm hne, hrt]
    · refine within_active (made := made) (e := cfg.sys.env.gc.expiresIn) I.unrevoked ?_ I.notBefore ?_ hwg
      · intro x hx
        rw [show (g.exchanged t.value (at' :: r :: new)).maxUsage = none from I.unlimited] at hx
        cases hx
      · have := I.expiry
        rw [show (g.exchanged t.value (at' :: r :: new)).toItem.expiresAt = _ from this]
        cases he : cfg.sys.env.gc.expiresIn with
        | none => rfl
        | some e =>
          have : e ≠ 0 := by have := P.lifetime e he; omega
          simp [this]
    · refine within_active (made := i.now) (e := (providerRules cfg tRefreshToken).expiresIn) K.revoked ?_ K.notBefore ?_ hw
      · intro y hy
        rw [K.rules, hrules] at hy
        rw [K.used]; exact RP.uses y hy
      · rw [show r.toItem.expiresAt = _ from K.expiresAt, hrules]
    · unfold Token.supportsMinting
      rw [K.rules, hrules]
      simp only [setDefaults]
      cases hs : (providerRules cfg tRefreshToken).supportsMinting with
      | none => decide
      | some l => simpa using RP.mints l hs
    · rw [← hrt, K.value]; exact handler_resolves P.tokens (.inr rfl) hrd _ _ _

theorem findValue_append_none {v : Str} {l r : List Token} (h : findValue v l = none) : findValue v (l ++ r) = findValue v r := by
  unfold findValue at h ⊢
  rw [List.find?_append, h]
  rfl

theorem findValue_some_value {v : Str} {l : List Token} {t : Token} (h : findValue v l = some t) : t.value = v := by
  unfold findValue at h
  simpa using List.find?_some h

/-- Without a restart, a parsed request stays one, refreshes included. -/
theorem pending_stays {cfg : ProvCfg} {u c : Str} (l mid : List HttpOp) (h : During cfg l mid fun st op => ByOthers cfg u c st op ∨ RefreshProcessed op) {q : TokReq}
    (hq : q ∈ (provRun cfg l).sys.pending) : q ∈ (provRun cfg (l ++ mid)).sys.pending := by
  induction mid using snocInd with
  | nil => simpa using hq
  | append_singleton m op ih =>
    have ih := ih (During.init h)
    rcases During.last h with ho | ho
    · have := others_pending (l ++ m) [op] (During.one ho) ih
      rw [← List.append_assoc]; exact this
    · rw [← List.append_assoc, provRun_snoc]
      cases op with
      | tokenProcess i req =>
        simp only [provStep, sysStep]
        split <;> exact ih
      | _ => exact absurd ho (fun h => h)

end Verif
