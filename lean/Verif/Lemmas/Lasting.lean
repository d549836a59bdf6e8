import Verif.Spec.Lasting
import Verif.Lemmas.WebRefresh
import Verif.Lemmas.ProviderInv
import Verif.Props.Logout
set_option linter.unusedSimpArgs false
set_option linter.unusedVariables false
/-! Nothing but authorization requests changes what a session has, except that it gets more tokens and its code is used. -/
namespace Verif
open Spec

/-- The grant has more tokens and other counts of use; tokens that are no codes are as they were, and nothing else is different. -/
def Lasts (g g' : Grant) : Prop := ∃ l n, g' = { g with issuedToken := l, used := n } ∧
  ∀ v t, findValue v g.issuedToken = some t → (t.kind ≠ .authorizationCode → findValue v l = some t) ∧
    ∃ t', findValue v l = some t' ∧ t'.kind = t.kind

/-- The same, when of the codes only those in `W` are used. -/
def LastsW (W : Str → Prop) (g g' : Grant) : Prop := ∃ l n, g' = { g with issuedToken := l, used := n } ∧
  ∀ v t, findValue v g.issuedToken = some t → (t.kind ≠ .authorizationCode ∨ ¬ W v → findValue v l = some t) ∧
    ∃ t', findValue v l = some t' ∧ t'.kind = t.kind

theorem LastsW.lasts {W : Str → Prop} {g g' : Grant} (h : LastsW W g g') : Lasts g g' := by
  obtain ⟨l, n, e, k⟩ := h
  exact ⟨l, n, e, fun v t ht => ⟨fun hk => (k v t ht).1 (Or.inl hk), (k v t ht).2⟩⟩

theorem LastsW.refl (W : Str → Prop) (g : Grant) : LastsW W g g := ⟨g.issuedToken, g.used, rfl, fun _ t h => ⟨fun _ => h, t, h, rfl⟩⟩

theorem LastsW.trans {W : Str → Prop} {a b c : Grant} (h : LastsW W a b) (h2 : LastsW W b c) : LastsW W a c := by
  obtain ⟨l, n, rfl, k⟩ := h
  obtain ⟨l', n', rfl, k'⟩ := h2
  refine ⟨l', n', rfl, fun v t ht => ⟨fun hk => (k' v t ((k v t ht).1 hk)).1 hk, ?_⟩⟩
  obtain ⟨t1, e1, e2⟩ := (k v t ht).2
  obtain ⟨t2, e3, e4⟩ := (k' v t1 e1).2
  exact ⟨t2, e3, e4.trans e2⟩

theorem Lasts.refl (g : Grant) : Lasts g g := ⟨g.issuedToken, g.used, rfl, fun _ t h => ⟨fun _ => h, t, h, rfl⟩⟩

theorem Lasts.trans {a b c : Grant} (h : Lasts a b) (h2 : Lasts b c) : Lasts a c := by
  obtain ⟨l, n, rfl, k⟩ := h
  obtain ⟨l', n', rfl, k'⟩ := h2
  refine ⟨l', n', rfl, fun v t ht => ⟨fun hk => (k' v t ((k v t ht).1 hk)).1 hk, ?_⟩⟩
  obtain ⟨t1, e1, e2⟩ := (k v t ht).2
  obtain ⟨t2, e3, e4⟩ := (k' v t1 e1).2
  exact ⟨t2, e3, e4.trans e2⟩

theorem Grown.lastsW {g g' : Grant} (h : Grown g g') (W : Str → Prop) : LastsW W g g' := by
  obtain ⟨l, n, rfl⟩ := h
  exact ⟨_, n, rfl, fun v t ht => ⟨fun _ => findValue_append_left ht, t, findValue_append_left ht, rfl⟩⟩

theorem Grown.lasts {g g' : Grant} (h : Grown g g') : Lasts g g' := (h.lastsW fun _ => True).lasts

theorem findValue_usedFirst {w : Str} {l : List Token} (v : Str) :
    findValue v (updateFirst w Token.registerUsage l) = if v = w then (findValue v l).map Token.registerUsage else findValue v l := by
  induction l with
  | nil => simp [updateFirst, findValue]
  | cons a l ih =>
    have hv : a.registerUsage.value = a.value := rfl
    unfold updateFirst
    by_cases ha : a.value = w
    · rw [if_pos ha]
      unfold findValue
      simp only [List.find?_cons, hv]
      by_cases hw : v = w
      · simp [ha, hw]
      · have : a.value ≠ v := by rw [ha]; exact fun e => hw e.symm
        simp [hw, this]
    · rw [if_neg ha]
      unfold findValue at ih ⊢
      simp only [List.find?_cons]
      by_cases hav : a.value = v
      · have : v ≠ w := by rw [← hav]; exact ha
        simp [hav, this]
      · simp only [hav, decide_false]; exact ih

/-- Using a code changes no other token. -/
theorem lasts_usedW {g g' : Grant} (h : Grown g g') {W : Str → Prop} {w : Str} (hW : W w) {t : Token} (ht : g.getToken w = some t)
    (hk : t.kind = .authorizationCode) : LastsW W g (g'.registerUsage w) := by
  obtain ⟨l, n, rfl⟩ := h
  refine ⟨_, n, rfl, ?_⟩
  intro v t' ht'
  simp only [findValue_usedFirst, findValue_append_left ht']
  by_cases hv : v = w
  · subst hv
    have : t' = t := by
      have e : findValue v g.issuedToken = some t := ht
      rw [e] at ht'; exact (Option.some.inj ht').symm
    subst this
    simp only [if_true, Option.map_some]
    exact ⟨fun h => h.elim (absurd hk) (absurd hW), _, rfl, rfl⟩
  · simp only [hv, if_false]
    exact ⟨fun _ => trivial, t', rfl, rfl⟩

theorem lasts_used {g g' : Grant} (h : Grown g g') {w : Str} {t : Token} (ht : g.getToken w = some t) (hk : t.kind = .authorizationCode) :
    Lasts g (g'.registerUsage w) := (lasts_usedW h (W := fun _ => True) trivial ht hk).lasts

theorem refreshPart_grown {env : Env} {s : Store} {i : TokIn} {sid : Str} {g : Grant} {b : Option Token} {want : Bool}
    (ho : OpenAt s sid) (hs : s sid = some (.grant g)) :
    let r := refreshPart env s i sid g b want
    r.1 = s.put sid (.grant r.2.1) ∧ Grown g r.2.1 := by
  have same : s.put sid (.grant g) = s := by
    funext x
    unfold Store.put
    split
    · rename_i e; rw [e, hs]
    · rfl
  unfold refreshPart
  cases want with
  | false => exact ⟨same.symm, Grown.refl g⟩
  | true =>
    simp only [if_true]
    obtain ⟨h1, h2, _⟩ := mint_grown (env := env) (h := env.th.accessToken) (now := i.now) (m := i.mr) (tt := tRefreshToken) (b := b) ho hs
    exact ⟨h1, grown_mint h2⟩

/-- Redeeming a code: the session gets tokens and the code is used. -/
theorem exchangeCode_lastsW {env : Env} {W : Str → Prop} {s : Store} {i : TokIn} {sid w : Str} {g : Grant} {t : Token} {ar : AuthReq}
    (ho : OpenAt s sid) (hs : s sid = some (.grant g)) (ht : g.getToken w = some t) (hk : t.kind = .authorizationCode) (hW : W w) :
    ∃ g', (exchangeCode env s i sid g (some t) ar).1 = s.put sid (.grant g') ∧ LastsW W g g' := by
  unfold exchangeCode
  obtain ⟨h1, h2, h3⟩ := mint_grown (env := env) (h := env.th.accessToken) (now := i.now) (m := i.ma) (tt := tAccessToken) (b := some t) ho hs
  generalize mintAndStore env env.th.accessToken s i.now i.ma sid tAccessToken g (some t) = M at h1 h2 h3 ⊢
  obtain ⟨M1, M2, M3⟩ := M
  simp only at h1 h2 h3 ⊢
  cases M3 with
  | error e => exact ⟨M2, h1, (grown_mint h2).lastsW W⟩
  | ok tok =>
    simp only
    subst h1
    obtain ⟨k1, k2⟩ := refreshPart_grown (env := env) (i := i) (g := M2) (b := some t) (want := decide (c!"offline_access" ∈ g.scope)) (ho.put (.grant M2))
      (by simp [Store.put])
    generalize refreshPart env (s.put sid (.grant M2)) i sid M2 (some t) (decide (c!"offline_access" ∈ g.scope)) = R at k1 k2 ⊢
    obtain ⟨R1, R2, R3⟩ := R
    simp only at k1 k2 ⊢
    rw [put_put] at k1
    have hgr : Grown g R2 := (grown_mint h2).trans k2
    cases R3 with
    | error e => exact ⟨R2, k1, hgr.lastsW W⟩
    | ok rt =>
      simp only [finishCode]
      subst k1
      simp only [((ho.put (.grant R2)).mgrSet (.grant (R2.registerUsage t.value))).1, put_put]
      refine ⟨R2.registerUsage t.value, ?_, ?_⟩
      · split <;> rfl
      · rw [(getToken_value ht).1]
        exact lasts_usedW hgr hW ht hk

theorem exchangeCode_lasts {env : Env} {s : Store} {i : TokIn} {sid w : Str} {g : Grant} {t : Token} {ar : AuthReq}
    (ho : OpenAt s sid) (hs : s sid = some (.grant g)) (ht : g.getToken w = some t) (hk : t.kind = .authorizationCode) :
    ∃ g', (exchangeCode env s i sid g (some t) ar).1 = s.put sid (.grant g') ∧ Lasts g g' := by
  obtain ⟨g', h1, h2⟩ := exchangeCode_lastsW (env := env) (W := fun _ => True) (i := i) (ar := ar) ho hs ht hk trivial
  exact ⟨g', h1, h2.lasts⟩

/-- A token request in processing, whosever, leaves the grants as they are, adds tokens or uses a code. -/
theorem tokProcess_lasts {W : Str → Prop} {m : Mode} {env : Env} {helpers : Dict Helper} {used : List Str} {s : Store} (hS : Sound s) {i : TokIn} {req : TokReq}
    (hp : PendOk env helpers used s req) (hW : ∀ c, req.code = some c → W c) {u c gid : Str} (hu : GoodId u) (hc : GoodId c) (hg : GoodId gid) {g : Grant}
    (h : getGrant s (sessionKey [u, c, gid]) = .ok g) :
    ∃ g', getGrant (tokProcess m env helpers s i req).1 (sessionKey [u, c, gid]) = .ok g' ∧ LastsW W g g' := by
  have key : ∀ s', (tokProcess m env helpers s i req).1 = s' → s' = s ∨
      (∃ sid g0 g1, getGrant s sid = .ok g0 ∧ LastsW W g0 g1 ∧ s' = s.put sid (.grant g1)) := by
    intro s' hs'
    have e1 : s' = (helperProcess m env helpers s i req).1 := by
      rw [← hs']
      unfold tokProcess
      generalize helperProcess m env helpers s i req = H
      obtain ⟨H1, H2⟩ := H
      cases H2 with
      | val r => simp only; split <;> rfl
      | _ => rfl
    rw [e1]
    unfold helperProcess
    split
    · exact Or.inl rfl
    · rename_i gt hgt
      split
      · exact Or.inl rfl
      · exact Or.inl rfl
      · rename_i hh
        obtain ⟨c', q1, q2, q3⟩ := (hp gt hgt).1 hh
        unfold codeProcess
        split
        · exact Or.inl rfl
        · rw [q1]
          simp only [q2]
          split
          · exact Or.inl rfl
          · exact Or.inl rfl
          · rename_i sid g0 hb
            split
            · exact Or.inl rfl
            · split
              · exact Or.inl rfl
              · exact Or.inl rfl
              · have hgr := sessionByToken_getGrant hb
                have hk := sessionByToken_key hS.noEmpty hb
                obtain ⟨t, ht, htk⟩ := (q3 _ _ hk.1).2 g0 hk.2.1
                rw [ht]
                rename_i ar _ _ _
                obtain ⟨g1, k1, k2⟩ := exchangeCode_lastsW (W := W) (env := env) (i := i) (ar := ar) (openAt_of_getGrant hS.noEmpty hgr) hk.2.1 ht htk (hW _ q1)
                exact Or.inr ⟨sid, g0, g1, hgr, k2, k1⟩
      · unfold refreshProcess
        split
        · exact Or.inl rfl
        · split
          · exact Or.inl rfl
          · split
            · exact Or.inl rfl
            · exact Or.inl rfl
            · rename_i _ v _ _ sid g0 hb
              have hgr := sessionByToken_getGrant hb
              have hk := (sessionByToken_key hS.noEmpty hb).2.1
              obtain ⟨g1, k1, k2⟩ := exchangeRefresh_grown (m := m) (env := env) (i := i) (b := g0.getToken v) (openAt_of_getGrant hS.noEmpty hgr) hk
              exact Or.inr ⟨sid, g0, g1, hgr, k2.lastsW W, k1⟩
  rcases key _ rfl with e | ⟨sid, g0, g1, h0, hg1, e⟩
  · rw [e]; exact ⟨g, h, LastsW.refl W g⟩
  · rw [e]
    obtain ⟨u', c', gid', hu', hc', hg', rfl⟩ := hS.sid (getGrant_key hS.noEmpty h0).1
    have ho := openAt_of_getGrant hS.noEmpty h0
    by_cases hk : sessionKey [u', c', gid'] = sessionKey [u, c, gid]
    · rw [hk] at h0 ho ⊢
      rw [h] at h0
      cases h0
      exact ⟨g1, ho.getGrant g1, hg1⟩
    · refine ⟨g, (getGrant_iff hu hc hg g).2 ?_, LastsW.refl W g⟩
      obtain ⟨ui, ci, d1, d2, d3, d4, d5⟩ := (dbGet3 _ _ _ _ _).1 ((getGrant_iff hu hc hg g).1 h)
      have hp := goodPath_three hu' hc' hg'
      refine (dbGet3 _ _ _ _ _).2 ⟨ui, ci, ?_, d2, ?_, d4, ?_⟩
      · rw [put_at _ _ hp (goodPath_one hu)]; simpa using d1
      · rw [put_at _ _ hp (goodPath_two hu hc)]; simpa using d3
      · rw [put_at _ _ hp (goodPath_three hu hc hg), if_neg, d5]
        intro e
        exact hk (by rw [e])

theorem Blind.getGrant {s s' : Store} (h : Blind s s') {sid : Str} {g : Grant} (hg : getGrant s sid = .ok g) : getGrant s' sid = .ok g := by
  unfold Verif.getGrant at hg ⊢
  cases hu : unpack3 sid with
  | error e => rw [hu] at hg; cases hg
  | ok p =>
    obtain ⟨u, c, gi⟩ := p
    rw [hu] at hg
    simp only at hg ⊢
    have := h.get [u, c, gi]
    cases h1 : dbGet s [u, c, gi] with
    | error e => rw [h1] at hg; cases hg
    | ok o =>
      rw [h1] at hg this
      cases h2 : dbGet s' [u, c, gi] with
      | error e => rw [h2] at this; exact absurd this (fun h => h)
      | ok o' =>
        rw [h2] at this
        cases o <;> cases o' <;> simp [SameRead, SameObj] at this hg ⊢
        rw [← this]; exact hg

/-- Over any stretch of requests without a new login of `u` at `c`. -/
theorem stretch_lastsW (W : Str → Prop) {cfg : ProvCfg} (L : TokenCryptoLaws cfg.sys.env.cr) (l mid : List HttpOp) (hw : WebRun cfg (l ++ mid)) (hn : GoodNames cfg (l ++ mid))
    {u c gid : Str} (hu : GoodId u) (hc : GoodId c) (hg : GoodId gid) (h : During cfg l mid fun st op => NoNewLogin cfg u c st op ∧
      ∀ i req x, op = .tokenProcess i req → req.code = some x → W x) {g : Grant}
    (hgr : getGrant (provRun cfg l).sys.store (sessionKey [u, c, gid]) = .ok g) :
    ∃ g', getGrant (provRun cfg (l ++ mid)).sys.store (sessionKey [u, c, gid]) = .ok g' ∧ LastsW W g g' := by
  induction mid using snocInd with
  | nil => simp only [List.append_nil]; exact ⟨g, hgr, LastsW.refl W g⟩
  | append_singleton m op ih =>
    rw [← List.append_assoc] at hn hw ⊢
    have hw' : WebRun cfg (l ++ m) := by
      have := hw.take (l ++ m).length
      rwa [List.take_left] at this
    obtain ⟨g', h1, h2⟩ := ih hw' hn.snoc_left (During.init h)
    have ho := During.last h
    have others : ByOthersOrRestart cfg u c (provRun cfg (l ++ m)) op →
        ∃ g', getGrant (provRun cfg (l ++ m ++ [op])).sys.store (sessionKey [u, c, gid]) = .ok g' ∧ LastsW W g g' :=
      fun hx => ⟨g', (others_grant L (l ++ m) [op] hn hu hc hg (During.one hx)).2 h1, h2⟩
    cases op with
    | authorize now gid mc ma idt raw req => exact others (Or.inl ho.1)
    | restart => exact others (Or.inr ⟨rfl, ho.1⟩)
    | push now r req urn => exact others (Or.inl trivial)
    | userinfo now r => exact others (Or.inl trivial)
    | introspect now r t => exact others (Or.inl trivial)
    | tokenParse now r req => exact others (Or.inl trivial)
    | register i newId ss v req => refine ⟨g', ?_, h2⟩; rw [provRun_snoc]; exact h1
    | logout post sid alla =>
      refine ⟨g', ?_, h2⟩
      rw [provRun_snoc]
      exact (blind_logout _ _ _ _ _ _).getGrant h1
    | tokenProcess i req =>
      have hS := provRun_sound hn.snoc_left
      obtain ⟨hf, -, -⟩ := expand_ok hw'
      have hi := sysRun_inv cfg.sys (expand cfg (l ++ m)) hf hw.blank (expand cfg (l ++ m)).length
      rw [List.take_length, ← provRun_sys] at hi
      rw [provRun_snoc]
      simp only [provStep, sysStep]
      split
      · rename_i hpend
        obtain ⟨g'', k1, k2⟩ := tokProcess_lasts (m := cfg.sys.mode) (i := i) hS (hi.pending req hpend) (fun x hx => ho.2 i req x rfl hx) hu hc hg h1
        exact ⟨g'', k1, h2.trans k2⟩
      · exact ⟨g', h1, h2⟩

theorem stretch_lasts {cfg : ProvCfg} (L : TokenCryptoLaws cfg.sys.env.cr) (l mid : List HttpOp) (hw : WebRun cfg (l ++ mid)) (hn : GoodNames cfg (l ++ mid))
    {u c gid : Str} (hu : GoodId u) (hc : GoodId c) (hg : GoodId gid) (h : During cfg l mid (NoNewLogin cfg u c)) {g : Grant}
    (hgr : getGrant (provRun cfg l).sys.store (sessionKey [u, c, gid]) = .ok g) :
    ∃ g', getGrant (provRun cfg (l ++ mid)).sys.store (sessionKey [u, c, gid]) = .ok g' ∧ Lasts g g' := by
  obtain ⟨g', h1, h2⟩ := stretch_lastsW (fun _ => True) L l mid hw hn hu hc hg (During.mono h fun _ _ hx => ⟨hx, fun _ _ _ _ _ => trivial⟩) hgr
  exact ⟨g', h1, h2.lasts⟩

end Verif
