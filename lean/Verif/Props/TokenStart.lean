import Verif.Spec.TokenStart
import Verif.Props.TokenString
/-! C131, C132: the token handlers of a provider that has just been started. -/
set_option linter.unusedSimpArgs false
namespace Verif
open Spec

/-- The options after `_add_passwd`, as the specification has them. -/
theorem addPasswd_options (kj : Option TokenKeys) (s : HandlerSpec) (kid : Str) :
    optionsOf (addPasswd kj s kid) = { optionsOf s with password := passwordOf kj kid s } ∧ (addPasswd kj s kid).cls = s.cls := by
  unfold addPasswd passwordOf
  cases kj with
  | none => exact ⟨by simp [Option.bind], rfl⟩
  | some keys =>
    cases hk : keys kid with
    | none => simp [hk]
    | some pw =>
      cases hs : s.kwargs with
      | some o => simp [hk, optionsOf, hs]
      | none => simp [hk, optionsOf, hs]

/-- **C131** One handler: it is made exactly as described, and cannot be made exactly when it needs a password that neither
the key jar nor the configuration has. -/
theorem C131_handler_as_described (kl : KeyLib) (kj : Option TokenKeys) (s : HandlerSpec) (kid typ : Str) :
    (∃ h, initTokenHandler kl (addPasswd kj s kid) typ = .ok h ∧ Describes kl kj kid typ s h ∧ ¬ Unusable kj kid s) ∨
    (initTokenHandler kl (addPasswd kj s kid) typ = .error .typeError ∧ Unusable kj kid s) := by
  obtain ⟨ho, hc⟩ := addPasswd_options kj s kid
  have hi : initTokenHandler kl (addPasswd kj s kid) typ =
      makeHandler kl (s.cls.getD .default) typ { optionsOf s with password := passwordOf kj kid s } := by
    unfold initTokenHandler
    rw [hc]
    exact congrArg _ ho
  rw [hi]
  unfold makeHandler
  cases hcl : s.cls.getD .default with
  | default =>
    cases hp : passwordOf kj kid s with
    | none => exact .inr ⟨by simp, hcl, hp⟩
    | some p =>
      refine .inl ⟨_, rfl, ⟨hcl.symm, rfl, rfl, fun _ => ⟨p, hp, rfl⟩, fun h => by cases h⟩, fun h => ?_⟩
      have := h.2
      rw [hp] at this
      cases this
  | jwt =>
    refine .inl ⟨_, rfl, ⟨hcl.symm, rfl, rfl, (fun h => by cases h), fun _ => rfl⟩, fun h => ?_⟩
    have := h.1
    rw [hcl] at this
    cases this

theorem handlerFor_none (kl : KeyLib) (kj : Option TokenKeys) (kid typ : Str) : handlerFor kl kj none kid typ = .ok none := rfl

theorem handlerFor_ok {kl : KeyLib} {kj : Option TokenKeys} {o : Option HandlerSpec} {kid typ : Str} {r : Option Handler}
    (h : handlerFor kl kj o kid typ = .ok r) :
    (o = none ∧ r = none) ∨ ∃ s x, o = some s ∧ r = some x ∧ Describes kl kj kid typ s x := by
  unfold handlerFor at h
  cases o with
  | none => exact .inl ⟨rfl, by cases h <;> rfl⟩
  | some s =>
    rcases C131_handler_as_described kl kj s kid typ with ⟨x, hx, hd, _⟩ | ⟨hx, _⟩
    · simp only [hx, Except.map] at h
      exact .inr ⟨s, x, rfl, by cases h <;> rfl, hd⟩
    · simp [hx, Except.map] at h

theorem handlerFor_error {kl : KeyLib} {kj : Option TokenKeys} {o : Option HandlerSpec} {kid typ : Str} {e : Exn}
    (h : handlerFor kl kj o kid typ = .error e) : ∃ s, o = some s ∧ Unusable kj kid s := by
  unfold handlerFor at h
  cases o with
  | none => cases h
  | some s =>
    rcases C131_handler_as_described kl kj s kid typ with ⟨x, hx, hd, _⟩ | ⟨_, hu⟩
    · simp [hx, Except.map] at h
    · exact ⟨s, rfl, hu⟩

/-- **C131** The three handlers of a provider that starts: each is made exactly as its part of the configuration says (absent
parts give no handler), and each gets the type letter of its kind. -/
theorem C131_started_as_configured (kl : KeyLib) (kj : Option TokenKeys) (a : HandlerArgs) (t : TokenHandler)
    (h : handlerFactory kl kj a = .ok t) :
    (∀ x, t.code = some x → ∃ s, a.code = some s ∧ Describes kl kj c!"code" c!"A" s x) ∧
    (∀ x, t.accessToken = some x → ∃ s, a.token = some s ∧ Describes kl kj c!"token" c!"T" s x) ∧
    (∀ x, t.refreshToken = some x → ∃ s, a.refresh = some s ∧ Describes kl kj c!"refresh" c!"R" s x) ∧
    (t.refreshToken = none ↔ a.refresh = none) ∧
    (t.code = none ↔ a.code = none ∨ a.code = some {}) ∧
    (t.accessToken = none ↔ a.token = none ∨ a.token = some {}) := by
  unfold handlerFactory at h
  cases h1 : handlerFor kl kj (nonEmpty a.code) c!"code" c!"A" with
  | error e => simp [h1] at h
  | ok code =>
    cases h2 : handlerFor kl kj (nonEmpty a.token) c!"token" c!"T" with
    | error e => simp [h1, h2] at h
    | ok token =>
      cases h3 : handlerFor kl kj a.refresh c!"refresh" c!"R" with
      | error e => simp [h1, h2, h3] at h
      | ok refresh =>
        simp only [h1, h2, h3, Except.ok.injEq] at h
        subst h
        have ne : ∀ (o : Option HandlerSpec), nonEmpty o = none ↔ o = none ∨ o = some {} := by
          intro o
          cases o with
          | none => simp [nonEmpty]
          | some s =>
            obtain ⟨cls, ⟨pw, lt⟩, kw, ot⟩ := s
            simp only [nonEmpty, Option.filter_eq_none_iff, Option.some.injEq, reduceCtorEq, false_or, HandlerSpec.isEmpty,
              forall_eq', HandlerSpec.mk.injEq, HandlerOpts.mk.injEq]
            cases cls <;> cases pw <;> cases lt <;> cases kw <;> cases ot <;> simp
        have sub : ∀ (o : Option HandlerSpec) s, nonEmpty o = some s → o = some s := by
          intro o s h
          cases o with
          | none => simp [nonEmpty] at h
          | some s' => simp [nonEmpty] at h; simp [h.1]
        refine ⟨?_, ?_, ?_, ?_, ?_, ?_⟩
        · rintro x rfl
          rcases handlerFor_ok h1 with ⟨_, hx⟩ | ⟨s, x', ho, hx, hd⟩
          · cases hx
          · cases hx
            exact ⟨s, sub _ _ ho, hd⟩
        · rintro x rfl
          rcases handlerFor_ok h2 with ⟨_, hx⟩ | ⟨s, x', ho, hx, hd⟩
          · cases hx
          · cases hx
            exact ⟨s, sub _ _ ho, hd⟩
        · rintro x rfl
          rcases handlerFor_ok h3 with ⟨_, hx⟩ | ⟨s, x', ho, hx, hd⟩
          · cases hx
          · cases hx
            exact ⟨s, ho, hd⟩
        · rcases handlerFor_ok h3 with ⟨ho, hx⟩ | ⟨s, x', ho, hx, hd⟩ <;> simp [ho, hx]
        · rw [← ne]
          rcases handlerFor_ok h1 with ⟨ho, hx⟩ | ⟨s, x', ho, hx, hd⟩ <;> simp [ho, hx]
        · rw [← ne]
          rcases handlerFor_ok h2 with ⟨ho, hx⟩ | ⟨s, x', ho, hx, hd⟩ <;> simp [ho, hx]

/-- **C131** Start-up fails only because a configured handler needs a password that nobody gave. -/
theorem C131_start_fails_only_if (kl : KeyLib) (kj : Option TokenKeys) (a : HandlerArgs) (e : Exn)
    (h : handlerFactory kl kj a = .error e) :
    (∃ s, a.code = some s ∧ Unusable kj c!"code" s) ∨ (∃ s, a.token = some s ∧ Unusable kj c!"token" s) ∨
    (∃ s, a.refresh = some s ∧ Unusable kj c!"refresh" s) := by
  have sub : ∀ (o : Option HandlerSpec) s, nonEmpty o = some s → o = some s := by
    intro o s h
    cases o with
    | none => simp [nonEmpty] at h
    | some s' => simp [nonEmpty] at h; simp [h.1]
  unfold handlerFactory at h
  cases h1 : handlerFor kl kj (nonEmpty a.code) c!"code" c!"A" with
  | error e =>
    obtain ⟨s, hs, hu⟩ := handlerFor_error h1
    exact .inl ⟨s, sub _ _ hs, hu⟩
  | ok code =>
    cases h2 : handlerFor kl kj (nonEmpty a.token) c!"token" c!"T" with
    | error e =>
      obtain ⟨s, hs, hu⟩ := handlerFor_error h2
      exact .inr (.inl ⟨s, sub _ _ hs, hu⟩)
    | ok token =>
      cases h3 : handlerFor kl kj a.refresh c!"refresh" c!"R" with
      | error e =>
        obtain ⟨s, hs, hu⟩ := handlerFor_error h3
        exact .inr (.inr ⟨s, hs, hu⟩)
      | ok refresh => simp [h1, h2, h3] at h

/-- The type letters of a started provider are those the other theorems about token strings assume. -/
theorem started_types {kl : KeyLib} {kj : Option TokenKeys} {a : HandlerArgs} {t : TokenHandler}
    (h : handlerFactory kl kj a = .ok t) : FactoryTypes t := by
  obtain ⟨h1, h2, h3, _⟩ := C131_started_as_configured kl kj a t h
  refine ⟨fun x hx => ?_, fun x hx => ?_, fun x hx => ?_⟩
  · obtain ⟨_, _, d⟩ := h1 x hx
    exact d.typ
  · obtain ⟨_, _, d⟩ := h2 x hx
    exact d.typ
  · obtain ⟨_, _, d⟩ := h3 x hx
    exact d.typ

/-- With handlers for codes and access tokens, looking a string up in the table is what the rest of the model does. -/
theorem tableInfo_eq (cr : TokenCrypto) (now : Int) (token : Str) (t : TokenHandler) (hc : t.code ≠ none)
    (ha : t.accessToken ≠ none) : tableInfo cr now token t.table = t.info cr now token := by
  have loop : ∀ l : List Handler, tableInfo cr now token (l.map some) = infoLoop cr now token l := by
    intro l
    induction l with
    | nil => rfl
    | cons h hs ih =>
      simp only [List.map_cons, tableInfo, infoLoop, ih]
      cases handlerInfo cr h now token <;> rfl
  obtain ⟨c, a, r⟩ := t
  cases c with
  | none => exact absurd rfl hc
  | some c =>
    cases a with
    | none => exact absurd rfl ha
    | some a => exact loop ([c, a] ++ r.toList)

/-- **C131** With both a code and an access-token handler, every string a started provider makes is read back by it: a
`DefaultToken` string at any time, as the kind, session and expiry it was made with. -/
theorem C131_started_reads_own_tokens (cr : TokenCrypto) (L : TokenCryptoLaws cr) (kl : KeyLib) (kj : Option TokenKeys)
    (a : HandlerArgs) (t : TokenHandler) (h : handlerFactory kl kj a = .ok t) (hc : t.code ≠ none) (ha : t.accessToken ≠ none)
    (x : Handler) (hx : t.code = some x ∨ t.accessToken = some x ∨ t.refreshToken = some x) (now later : Int)
    (rnd nonce sid : Str) :
    (x.cls = .default → tableInfo cr later (handlerCall cr x now rnd nonce sid []) t.table =
      .ok { rid := some rnd, typ := x.typ, sid := some sid,
            exp := some (if 0 ≤ x.lifetime then intStr (now + x.lifetime) else c!"-1") }) ∧
    (x.cls = .jwt → tableInfo cr later (handlerCall cr x now rnd nonce sid []) t.table =
      if now + x.lifetime < 0 ∨ later ≤ now + x.lifetime then
        .ok { rid := none, typ := x.typ, sid := some sid, exp := some (intStr (now + x.lifetime)) }
      else .error .tooOld) := by
  have hm : x ∈ t.order := by
    simp only [TokenHandler.order, List.mem_append, Option.mem_toList]
    rcases hx with hx | hx | hx
    · exact .inl (.inl hx)
    · exact .inl (.inr hx)
    · exact .inr hx
  rw [tableInfo_eq cr later _ t hc ha]
  exact ⟨fun hd => C04_default_token_resolves cr L t (started_types h) x hm hd now later rnd nonce sid,
    fun hd => C04_jwt_token_resolves cr L t (started_types h) x hm hd now later rnd nonce sid⟩

/-- **C131** Nothing configured: codes live ten minutes, access tokens an hour, refresh tokens a day, each sealed with the
key of its own id. -/
theorem C131_defaults (kl : KeyLib) (disk : Option TokenKeys) (new : TokenKeys) (c t r : Str)
    (hc : (disk.getD new) c!"code" = some c) (ht : (disk.getD new) c!"token" = some t)
    (hr : (disk.getD new) c!"refresh" = some r) :
    (startHandlers kl disk new .absent).2 = .ok
      { code := some ⟨.default, c!"A", 600, kl.derive c⟩
        accessToken := some ⟨.default, c!"T", 3600, kl.derive t⟩
        refreshToken := some ⟨.default, c!"R", 86400, kl.derive r⟩ } := by
  have hk : (initTokenKeys disk new).2 = disk.getD new := by
    cases disk <;> rfl
  unfold startHandlers
  simp only [hk]
  generalize disk.getD new = keys at hc ht hr
  have n1 : nonEmpty defaultHandlerArgs.code = some { inline := { lifetime := some 600 } } := rfl
  have n2 : nonEmpty defaultHandlerArgs.token = some { inline := { lifetime := some 3600 } } := rfl
  have n3 : defaultHandlerArgs.refresh = some { inline := { lifetime := some 86400 } } := rfl
  simp [handlerFactory, handlerFor, n1, n2, n3, addPasswd, hc, ht, hr, initTokenHandler, makeHandler, Except.map]

/-- **C131** Which keys a start uses: those of the key file, or new ones, which are then kept; none (only configured passwords)
if handlers are configured without a key definition, and then nothing is written. -/
theorem C131_start_uses_the_keys (kl : KeyLib) (disk : Option TokenKeys) (new : TokenKeys) (conf : HandlerConf) :
    (∀ t, (startHandlers kl disk new conf).2 = .ok t →
      (∀ x, t.code = some x → ∃ s, (handlersAtStart conf).code = some s ∧ Describes kl (keysAtStart disk new conf) c!"code" c!"A" s x) ∧
      (∀ x, t.accessToken = some x → ∃ s, (handlersAtStart conf).token = some s ∧ Describes kl (keysAtStart disk new conf) c!"token" c!"T" s x) ∧
      (∀ x, t.refreshToken = some x →
        ∃ s, (handlersAtStart conf).refresh = some s ∧ Describes kl (keysAtStart disk new conf) c!"refresh" c!"R" s x)) ∧
    (startHandlers kl disk new conf).1 = (keysAtStart disk new conf <|> disk) := by
  have e : (startHandlers kl disk new conf).2 = handlerFactory kl (keysAtStart disk new conf) (handlersAtStart conf) := by
    cases conf with
    | absent => cases disk <;> rfl
    | given a b => cases b <;> cases disk <;> rfl
  refine ⟨fun t h => ?_, ?_⟩
  · rw [e] at h
    obtain ⟨a, b, c, -⟩ := C131_started_as_configured kl _ _ t h
    exact ⟨a, b, c⟩
  · cases conf with
    | absent => cases disk <;> rfl
    | given a b => cases b <;> cases disk <;> rfl

/-- **C131** A restart with the key file in place: the handlers are the same whatever keys would have been made afresh, so
every string issued before the restart reads the same after it. -/
theorem C131_restart_keeps_handlers (kl : KeyLib) (disk : Option TokenKeys) (new1 new2 : TokenKeys) (conf : HandlerConf) :
    (startHandlers kl (startHandlers kl disk new1 conf).1 new2 conf).2 = (startHandlers kl disk new1 conf).2 ∧
    (startHandlers kl (startHandlers kl disk new1 conf).1 new2 conf).1 = (startHandlers kl disk new1 conf).1 := by
  cases conf with
  | absent => cases disk <;> exact ⟨rfl, rfl⟩
  | given a b => cases b <;> cases disk <;> exact ⟨rfl, rfl⟩

/-- **C131** A restart without the key file: when the new keys differ from the old ones, every string of the old provider is
refused as unknown by the new one; none is taken for another session. -/
theorem C131_lost_keys (cr : TokenCrypto) (L : TokenCryptoLaws cr) (kl : KeyLib) (hinj : ∀ p q, kl.derive p = kl.derive q → p = q)
    (new1 new2 : TokenKeys) (t1 t2 : TokenHandler)
    (h1 : (startHandlers kl none new1 .absent).2 = .ok t1) (h2 : (startHandlers kl none new2 .absent).2 = .ok t2)
    (hne : ∀ k k' p q, new1 k = some p → new2 k' = some q → p ≠ q)
    (x : Handler) (hx : x ∈ t1.order) (now later : Int) (rnd nonce sid ttype : Str) :
    tableInfo cr later (handlerCall cr x now rnd nonce sid ttype) t2.table = .error .unknownToken := by
  have desc : ∀ (new : TokenKeys) (t : TokenHandler), (startHandlers kl none new .absent).2 = .ok t →
      (∀ x ∈ t.order, ∃ k p, new k = some p ∧ x.key = kl.derive p) ∧ t.code ≠ none ∧ t.accessToken ≠ none := by
    intro new t h
    have hf : handlerFactory kl (some new) defaultHandlerArgs = .ok t := h
    obtain ⟨d1, d2, d3, _, e1, e2⟩ := C131_started_as_configured kl (some new) defaultHandlerArgs t hf
    refine ⟨?_, ?_, ?_⟩
    · intro x hx
      have key : ∀ kid typ (s : HandlerSpec), s.cls = none → s.kwargs = none → s.inline.password = none →
          Describes kl (some new) kid typ s x → ∃ k p, new k = some p ∧ x.key = kl.derive p := by
        intro kid typ s hs1 hs2 hs3 d
        obtain ⟨p, hp, hkey⟩ := d.sealed (by rw [d.cls, hs1]; rfl)
        refine ⟨kid, p, ?_, hkey⟩
        cases hk : new kid with
        | none => simp [passwordOf, hk, optionsOf, hs2, hs3] at hp
        | some q => simpa [passwordOf, hk] using hp
      simp only [TokenHandler.order, List.mem_append, Option.mem_toList] at hx
      rcases hx with (hx | hx) | hx
      · obtain ⟨s, hs, d⟩ := d1 x hx
        cases hs
        exact key _ _ _ rfl rfl rfl d
      · obtain ⟨s, hs, d⟩ := d2 x hx
        cases hs
        exact key _ _ _ rfl rfl rfl d
      · obtain ⟨s, hs, d⟩ := d3 x hx
        cases hs
        exact key _ _ _ rfl rfl rfl d
    · intro hn
      rcases e1.1 hn with e | e <;> cases e
    · intro hn
      rcases e2.1 hn with e | e <;> cases e
  obtain ⟨k1, _, _⟩ := desc new1 t1 h1
  obtain ⟨k2, hc, ha⟩ := desc new2 t2 h2
  rw [tableInfo_eq cr later _ t2 hc ha]
  refine C04_foreign_token_refused cr L t2 x (fun x' hx' e => ?_) now later rnd nonce sid ttype
  obtain ⟨ka, p, hp, hkp⟩ := k1 x hx
  obtain ⟨kb, q, hq, hkq⟩ := k2 x' hx'
  rw [hkp, hkq] at e
  exact hne ka kb p q hp hq (hinj _ _ e).symm

/-- **C132** (refuted) A configuration without a code handler is accepted, and then no string whatever can be looked up:
every attempt, even with the provider's own access tokens, ends in an exception nobody catches. -/
theorem C132_half_configured_reads_nothing (cr : TokenCrypto) (kl : KeyLib) (kj : Option TokenKeys) (a : HandlerArgs)
    (hc : a.code = none) (ht : ∀ s, a.token = some s → ¬ Unusable kj c!"token" s)
    (hr : ∀ s, a.refresh = some s → ¬ Unusable kj c!"refresh" s) :
    ∃ t, handlerFactory kl kj a = .ok t ∧ ∀ now token, tableInfo cr now token t.table = .error .attributeError := by
  have hn : nonEmpty a.token = none ∨ nonEmpty a.token = a.token := by
    cases ho : a.token with
    | none => exact .inl rfl
    | some s => cases hs : s.isEmpty <;> simp [nonEmpty, hs]
  have total : ∀ (o : Option HandlerSpec) kid typ, (∀ s, o = some s → ¬ Unusable kj kid s) →
      ∃ r, handlerFor kl kj o kid typ = .ok r := by
    intro o kid typ h
    cases o with
    | none => exact ⟨none, rfl⟩
    | some s =>
      rcases C131_handler_as_described kl kj s kid typ with ⟨x, hx, _⟩ | ⟨_, hu⟩
      · exact ⟨some x, by simp [handlerFor, hx, Except.map]⟩
      · exact absurd hu (h s rfl)
  have h2 : ∃ r, handlerFor kl kj (nonEmpty a.token) c!"token" c!"T" = .ok r := by
    rcases hn with hn | hn
    · rw [hn]
      exact ⟨none, rfl⟩
    · rw [hn]
      exact total _ _ _ ht
  obtain ⟨r2, h2⟩ := h2
  obtain ⟨r3, h3⟩ := total a.refresh c!"refresh" c!"R" hr
  refine ⟨{ code := none, accessToken := r2, refreshToken := r3 }, ?_, fun _ _ => rfl⟩
  have h1 : handlerFor kl kj (nonEmpty a.code) c!"code" c!"A" = .ok none := by
    rw [hc]
    rfl
  simp only [handlerFactory, h1, h2, h3]

/-- **C132** (what holds) Leaving out the refresh handler is fine: the other strings are read as before. -/
theorem C132_refresh_may_be_absent_partial (cr : TokenCrypto) (L : TokenCryptoLaws cr) (kl : KeyLib) (kj : Option TokenKeys)
    (a : HandlerArgs) (t : TokenHandler) (h : handlerFactory kl kj a = .ok t) (hr : a.refresh = none)
    (x : Handler) (hx : t.code = some x ∨ t.accessToken = some x) (hc : t.code ≠ none) (ha : t.accessToken ≠ none)
    (hd : x.cls = .default) (now later : Int) (rnd nonce sid : Str) :
    t.refreshToken = none ∧ ∃ i, tableInfo cr later (handlerCall cr x now rnd nonce sid []) t.table = .ok i ∧
      i.sid = some sid ∧ i.typ = x.typ := by
  refine ⟨((C131_started_as_configured kl kj a t h).2.2.2.1).2 hr, _,
    (C131_started_reads_own_tokens cr L kl kj a t h hc ha x (by rcases hx with hx | hx <;> simp [hx]) now later rnd nonce sid).1 hd,
    rfl, rfl⟩

/-! ### Non-vacuity -/

/-- Keys by id, a derivation that is injective. -/
def demoKeyLib : KeyLib := ⟨fun p => 'd' :: p, c!"jwt"⟩
def demoKeys : TokenKeys := fun k => some ('k' :: k)
def otherKeys : TokenKeys := fun k => some ('o' :: k)

/-- The default start, a restart with the file, and the loss of the file: all hypotheses are met. -/
example : (startHandlers demoKeyLib none demoKeys .absent).2 = .ok
      { code := some ⟨.default, c!"A", 600, c!"dkcode"⟩
        accessToken := some ⟨.default, c!"T", 3600, c!"dktoken"⟩
        refreshToken := some ⟨.default, c!"R", 86400, c!"dkrefresh"⟩ } ∧
    (startHandlers demoKeyLib (startHandlers demoKeyLib none demoKeys .absent).1 otherKeys .absent).2 =
      (startHandlers demoKeyLib none demoKeys .absent).2 ∧
    (∀ p q, demoKeyLib.derive p = demoKeyLib.derive q → p = q) ∧
    (∀ k k' p q, demoKeys k = some p → otherKeys k' = some q → p ≠ q) := by
  refine ⟨C131_defaults demoKeyLib none demoKeys c!"kcode" c!"ktoken" c!"krefresh" rfl rfl rfl,
    (C131_restart_keeps_handlers demoKeyLib none demoKeys otherKeys .absent).1, ?_, ?_⟩
  · intro p q h
    exact (List.cons.inj h).2
  · intro k k' p q hp hq e
    cases hp
    cases hq
    cases e

/-- A configured mixture: JWT access tokens, a password for the others, no refresh handler. -/
def mixedArgs : HandlerArgs :=
  { code := some { inline := { password := some c!"pw", lifetime := some 60 } }
    token := some { cls := some .jwt, kwargs := some { lifetime := some 900 } } }

example : handlerFactory demoKeyLib none mixedArgs =
    .ok { code := some ⟨.default, c!"A", 60, c!"dpw"⟩, accessToken := some ⟨.jwt, c!"T", 900, c!"jwt"⟩, refreshToken := none } ∧
    handlerFactory demoKeyLib none { mixedArgs with refresh := some {} } = .error .typeError ∧
    (∃ t, handlerFactory demoKeyLib none { mixedArgs with code := none } = .ok t ∧
      ∀ now token, tableInfo toyCrypto now token t.table = .error .attributeError) := by
  refine ⟨rfl, rfl, C132_half_configured_reads_nothing toyCrypto demoKeyLib none _ rfl ?_ ?_⟩
  · intro s hs
    cases hs
    rintro ⟨h, _⟩
    cases h
  · intro s hs
    cases hs

end Verif
