import Verif.Model.UsageLookup
import Verif.Props.SharedRules
import Verif.Props.TokenString
/-! C172: the rules in force for a grant's tokens.  C173: what the token handlers say about expiry. -/
namespace Verif
open Spec

/-- The rules a client and the provider have for a type. -/
def clientRule (cdb : Cdb) (client typ : Str) : UsageRules := (((cdb client).bind (·.tokenUsageRules)).bind (·.get? typ)).getD {}
def providerRule (gc : AuthzConfig) (typ : Str) : UsageRules := ((gc.usageRules.getD []).get? typ).getD {}

/-- First the grant, then the client, then the provider. -/
def firstOf {α : Type} (field : UsageRules → Option α) : List UsageRules → Option α
  | [] => none
  | r :: rs => match field r with
    | some x => some x
    | none => firstOf field rs

theorem usageRulesFor_fields (gc : AuthzConfig) (cdb : Cdb) (client typ : Str) :
    usageRulesFor gc cdb client typ = (providerRule gc typ).update (clientRule cdb client typ) := by
  unfold usageRulesFor providerRule clientRule
  rw [usageRulesOf_get]
  cases (gc.usageRules.getD []).get? typ <;> cases ((cdb client).bind (·.tokenUsageRules)).bind (·.get? typ) with
  | none => simp [UsageRules.update]
  | some p => cases p with | mk a b c => cases a <;> cases b <;> cases c <;> rfl

theorem update_fields (a b : UsageRules) :
    (a.update b).maxUsage = firstOf UsageRules.maxUsage [b, a] ∧ (a.update b).supportsMinting = firstOf UsageRules.supportsMinting [b, a] ∧
    (a.update b).expiresIn = firstOf UsageRules.expiresIn [b, a] := by
  cases a with | mk a1 a2 a3 =>
  cases b with | mk b1 b2 b3 =>
  refine ⟨?_, ?_, ?_⟩
  · cases b1 <;> cases a1 <;> rfl
  · cases b2 <;> cases a2 <;> rfl
  · cases b3 <;> cases a3 <;> rfl

theorem update_update (a b c : UsageRules) :
    ((a.update b).update c).maxUsage = firstOf UsageRules.maxUsage [c, b, a] ∧
    ((a.update b).update c).supportsMinting = firstOf UsageRules.supportsMinting [c, b, a] ∧
    ((a.update b).update c).expiresIn = firstOf UsageRules.expiresIn [c, b, a] := by
  obtain ⟨h1, h2, h3⟩ := update_fields (a.update b) c
  obtain ⟨k1, k2, k3⟩ := update_fields a b
  refine ⟨?_, ?_, ?_⟩
  · rw [h1]; simp only [firstOf] at k1 ⊢; rw [k1]; cases c.maxUsage <;> cases b.maxUsage <;> cases a.maxUsage <;> rfl
  · rw [h2]; simp only [firstOf] at k2 ⊢; rw [k2]; cases c.supportsMinting <;> cases b.supportsMinting <;> cases a.supportsMinting <;> rfl
  · rw [h3]; simp only [firstOf] at k3 ⊢; rw [k3]; cases c.expiresIn <;> cases b.expiresIn <;> cases a.expiresIn <;> rfl

/-- **C172** If the client or the provider has rules for the type, the answer has every entry from the first of grant, client and
provider that has it. -/
theorem C172_order_of_importance_partial (gc : AuthzConfig) (st : UsageSt) (typ client : Str) (gr : Dict UsageRules)
    (h : clientRule st.cdb client typ ≠ {} ∨ providerRule gc typ ≠ {}) :
    ∃ r, (getUsageRules gc st typ client gr).2 = .ok r ∧
      r.maxUsage = firstOf UsageRules.maxUsage [(gr.get? typ).getD {}, clientRule st.cdb client typ, providerRule gc typ] ∧
      r.supportsMinting = firstOf UsageRules.supportsMinting [(gr.get? typ).getD {}, clientRule st.cdb client typ, providerRule gc typ] ∧
      r.expiresIn = firstOf UsageRules.expiresIn [(gr.get? typ).getD {}, clientRule st.cdb client typ, providerRule gc typ] := by
  have hf : usageRulesFor gc st.cdb client typ ≠ {} := by
    rw [usageRulesFor_fields, Ne, update_empty_iff]
    rintro ⟨h1, h2⟩
    rcases h with h | h
    · exact h h2
    · exact h h1
  refine ⟨(usageRulesFor gc st.cdb client typ).update ((gr.get? typ).getD {}), ?_, ?_⟩
  · unfold getUsageRules
    simp only [if_pos hf]
    split <;> rfl
  · rw [usageRulesFor_fields]
    exact update_update _ _ _

/-- **C172** With neither, the defaults of the module take their place. -/
theorem C172_defaults_otherwise (gc : AuthzConfig) (st : UsageSt) (typ client : Str) (gr : Dict UsageRules) (d : UsageRules)
    (h1 : clientRule st.cdb client typ = {}) (h2 : providerRule gc typ = {}) (hd : st.defaults.get? typ = some d) :
    ∃ r, getUsageRules gc st typ client gr = ({ st with defaults := st.defaults.set typ r }, .ok r) ∧
      r.maxUsage = firstOf UsageRules.maxUsage [(gr.get? typ).getD {}, d] ∧
      r.supportsMinting = firstOf UsageRules.supportsMinting [(gr.get? typ).getD {}, d] ∧
      r.expiresIn = firstOf UsageRules.expiresIn [(gr.get? typ).getD {}, d] := by
  have hf : usageRulesFor gc st.cdb client typ = {} := by rw [usageRulesFor_fields, update_empty_iff]; exact ⟨h2, h1⟩
  refine ⟨d.update ((gr.get? typ).getD {}), ?_, update_fields _ _⟩
  unfold getUsageRules
  simp only [hf, ne_eq, not_true, if_false, hd]

/-- **C172** Before anybody asked, without rules at the provider, the client and the grant: a code can be used once, within five minutes, for
all three kinds of tokens; an access token lasts an hour and yields nothing; a refresh token yields all three; other types are unknown. -/
theorem C172_default_rules (gc : AuthzConfig) (cdb : Cdb) (typ client : Str) (gr : Dict UsageRules)
    (h1 : clientRule cdb client typ = {}) (h2 : providerRule gc typ = {}) (h3 : gr.get? typ = none) :
    (getUsageRules gc { cdb := cdb } typ client gr).2 =
      if typ = c!"authorization_code" then
        .ok { maxUsage := some 1, supportsMinting := some [c!"access_token", c!"refresh_token", c!"id_token"], expiresIn := some 300 }
      else if typ = c!"access_token" then .ok { maxUsage := none, supportsMinting := some [], expiresIn := some 3600 }
      else if typ = c!"refresh_token" then
        .ok { maxUsage := none, supportsMinting := some [c!"access_token", c!"refresh_token", c!"id_token"], expiresIn := none }
      else .error .keyError := by
  have hf : usageRulesFor gc cdb client typ = {} := by rw [usageRulesFor_fields, update_empty_iff]; exact ⟨h2, h1⟩
  have hu : ∀ r : UsageRules, r.update {} = r := fun r => by cases r with | mk a b c => cases a <;> cases b <;> cases c <;> rfl
  unfold getUsageRules
  simp only [hf, ne_eq, not_true_eq_false, if_false, h3, Option.getD_none]
  by_cases a : typ = c!"authorization_code"
  · subst a; rfl
  · by_cases b : typ = c!"access_token"
    · subst b; rfl
    · by_cases d : typ = c!"refresh_token"
      · subst d; rfl
      · have : Dict.get? defaultUsage typ = none := by
          simp [defaultUsage, Dict.get?, tAuthorizationCode, tAccessToken, tRefreshToken, Ne.symm a, Ne.symm b, Ne.symm d]
        simp only [this, if_neg a, if_neg b, if_neg d]

/-- The hypotheses are met by a provider and a client without rules. -/
example : clientRule (fun _ => none) c!"c1" c!"access_token" = {} ∧ providerRule {} c!"access_token" = {} := by decide

/-- **C172** Where the provider has rules for the type, asking changes nothing, for any client, grant and state. -/
theorem C172_asking_is_harmless_partial (gc : AuthzConfig) (st : UsageSt) (typ client : Str) (gr : Dict UsageRules) (h : providerRule gc typ ≠ {}) :
    (getUsageRules gc st typ client gr).1 = st := by
  have hf : usageRulesFor gc st.cdb client typ ≠ {} := by
    rw [usageRulesFor_fields, Ne, update_empty_iff]
    exact fun hx => h hx.1
  have hp : (gc.usageRules.getD []).get? typ ≠ none := fun e => h (by unfold providerRule; rw [e]; rfl)
  unfold getUsageRules
  simp only [if_pos hf, if_neg hp]

/-- **C172** is false otherwise.  (1) Where nobody has rules for the type, asking for a grant with rules of its own makes these the
default: every client without rules is told them, for every grant.  (2) Where only the client has rules, its record is changed, and
its other grants are told what this one has. -/
theorem C172_asking_changes_the_answers (gc : AuthzConfig) (st : UsageSt) (typ client other : Str) (own : UsageRules) (d : UsageRules)
    (hd : st.defaults.get? typ = some d) (hp : providerRule gc typ = {}) :
    (clientRule st.cdb client typ = {} → clientRule st.cdb other typ = {} →
      (getUsageRules gc (getUsageRules gc st typ client [(typ, own)]).1 typ other []).2 = .ok (d.update own)) ∧
    (clientRule st.cdb client typ ≠ {} → (gc.usageRules.getD []).get? typ = none →
      (getUsageRules gc (getUsageRules gc st typ client [(typ, own)]).1 typ client []).2 = .ok ((clientRule st.cdb client typ).update own)) := by
  have hg : (Dict.get? [(typ, own)] typ).getD {} = own := by simp [Dict.get?]
  have hu : ∀ r : UsageRules, r.update {} = r := fun r => by cases r with | mk a b c => cases a <;> cases b <;> cases c <;> rfl
  have hv : ∀ r : UsageRules, UsageRules.update {} r = r := fun r => by cases r with | mk a b c => cases a <;> cases b <;> cases c <;> rfl
  refine ⟨fun h1 h2 => ?_, fun h1 h2 => ?_⟩
  · have hf1 : usageRulesFor gc st.cdb client typ = {} := by rw [usageRulesFor_fields, update_empty_iff]; exact ⟨hp, h1⟩
    have hf2 : usageRulesFor gc st.cdb other typ = {} := by rw [usageRulesFor_fields, update_empty_iff]; exact ⟨hp, h2⟩
    simp [getUsageRules, hf1, hf2, hd, Dict.get?_set, Dict.get?, hu]
  · have hf1 : usageRulesFor gc st.cdb client typ = clientRule st.cdb client typ := by rw [usageRulesFor_fields, hp, hv]
    have e1 : (getUsageRules gc st typ client [(typ, own)]).1 =
        { st with cdb := setClientRule st.cdb client typ ((clientRule st.cdb client typ).update own) } := by
      unfold getUsageRules
      simp only [hf1, hg, if_pos h1, if_pos h2]
    rw [e1]
    have e2 : clientRule (setClientRule st.cdb client typ ((clientRule st.cdb client typ).update own)) client typ =
        (clientRule st.cdb client typ).update own := by
      cases hc : st.cdb client with
      | none => exact absurd (by simp [clientRule, hc]) h1
      | some cl => cases ht : cl.tokenUsageRules with
        | none => exact absurd (by simp [clientRule, hc, ht]) h1
        | some p => simp [clientRule, setClientRule, hc, ht, Dict.get?_set]
    have hne : (clientRule st.cdb client typ).update own ≠ {} := by
      rw [Ne, update_empty_iff]
      exact fun hx => h1 hx.1
    unfold getUsageRules
    simp only [usageRulesFor_fields, hp, hv, e2, if_pos hne, if_pos h2, Dict.get?, Option.getD_none, hu]

/-- And the defaults do not fill in what is missing from the rules of the client and the provider, for every type and grant. -/
theorem C172_defaults_are_not_filled_in (gc : AuthzConfig) (st : UsageSt) (typ client : Str)
    (h : clientRule st.cdb client typ ≠ {} ∨ providerRule gc typ ≠ {}) (h1 : (clientRule st.cdb client typ).expiresIn = none)
    (h2 : (providerRule gc typ).expiresIn = none) : ∃ r, (getUsageRules gc st typ client []).2 = .ok r ∧ r.expiresIn = none := by
  obtain ⟨r, hr, _, _, h3⟩ := C172_order_of_importance_partial gc st typ client [] h
  exact ⟨r, hr, by rw [h3]; simp [firstOf, Dict.get?, h1, h2]⟩

/-- All cases occur: one client's grant makes the access tokens of every other client's grants last a minute, by default. -/
example : (getUsageRules {} (getUsageRules {} { cdb := fun _ => none } tAccessToken c!"c1" [(tAccessToken, { expiresIn := some 60 })]).1
    tAccessToken c!"c2" []).2 = .ok { supportsMinting := some [], expiresIn := some 60 } ∧
    (getUsageRules {} { cdb := fun _ => none } tAccessToken c!"c2" []).2 = .ok { supportsMinting := some [], expiresIn := some 3600 } ∧
    clientRule rulesDemoDb c!"c1" tAccessToken ≠ {} ∧ providerRule {} tAccessToken = {} := by decide

/-! ### C173 -/

/-- **C173** A handler for encrypted tokens says of every token it made, for every time asked about and at every time, exactly
whether the token's lifetime is over by then; a negative lifetime never is. -/
theorem C173_encrypted_exact (cr : TokenCrypto) (L : TokenCryptoLaws cr) (h : Handler) (hd : h.cls = .default) (ht : h.typ ≠ [])
    (made now when_ : Int) (rnd nonce sid : Str) (h0 : 0 ≤ made) (hw : when_ ≠ 0) :
    handlerIsExpired cr h now (handlerCall cr h made rnd nonce sid []) when_ = .ok (decide (0 ≤ h.lifetime ∧ made + h.lifetime < when_)) ∧
    handlerIsExpired cr h now (handlerCall cr h made rnd nonce sid []) 0 =
      .ok (decide (0 ≤ h.lifetime ∧ made + h.lifetime < now)) := by
  have he : effectiveType h [] = h.typ := by simp [effectiveType, ht]
  have hi : handlerInfo cr h now (handlerCall cr h made rnd nonce sid []) =
      .ok { rid := some rnd, typ := h.typ, sid := some sid, exp := some (defaultExp h made) } := by
    simp [handlerInfo, hd, splitToken_call cr L h h hd rfl, he]
  have key : ∀ t : Int, (if defaultExp h made = c!"-1" then (.ok false : Except Exn Bool) else match pyInt (defaultExp h made) with
      | none => .error .valueError
      | some e => .ok (isExpired e t)) = .ok (decide (0 ≤ h.lifetime ∧ made + h.lifetime < t)) := by
    intro t
    by_cases hl : 0 ≤ h.lifetime
    · have hx : defaultExp h made = intStr (made + h.lifetime) := if_pos hl
      have hne : intStr (made + h.lifetime) ≠ c!"-1" := by
        intro e
        have h1 := pyInt_intStr (made + h.lifetime)
        rw [e] at h1
        have h2 : pyInt c!"-1" = some (-1) := by decide
        rw [h2] at h1
        have := Option.some.inj h1
        omega
      rw [hx, if_neg hne, pyInt_intStr]
      simp only [isExpired, if_neg (show ¬ made + h.lifetime < 0 by omega), hl, true_and, gt_iff_lt]
    · have hx : defaultExp h made = c!"-1" := if_neg hl
      rw [hx, if_pos rfl]
      simp [hl]
  refine ⟨?_, ?_⟩
  · simp only [handlerIsExpired, hd, hi, if_neg hw]
    exact key when_
  · simp only [handlerIsExpired, hd, hi, if_true]
    exact key now

/-- **C173** The same for signed tokens with a positive lifetime. -/
theorem C173_signed_exact_partial (cr : TokenCrypto) (L : TokenCryptoLaws cr) (h : Handler) (hd : h.cls = .jwt)
    (made now when_ : Int) (rnd nonce sid : Str) (h0 : 0 ≤ made) (hl : 0 < h.lifetime) (hw : when_ ≠ 0) :
    handlerIsExpired cr h now (handlerCall cr h made rnd nonce sid []) when_ = .ok (decide (made + h.lifetime < when_)) ∧
    handlerIsExpired cr h now (handlerCall cr h made rnd nonce sid []) 0 = .ok (decide (made + h.lifetime < now)) := by
  have hn : ¬ made + h.lifetime < 0 := by omega
  simp only [handlerIsExpired, hd, handlerCall, L.unpack_pack, isExpired, if_neg hn, if_neg hw, if_true, gt_iff_lt]
  exact ⟨trivial, trivial⟩

/-- **C173** A token that another handler made is not judged: encrypted tokens need the handler's key and type, signed tokens the
handler's key. -/
theorem C173_others_are_refused (cr : TokenCrypto) (L : TokenCryptoLaws cr) (h h' : Handler) (ht : h'.typ ≠ [])
    (made now when_ : Int) (rnd nonce sid : Str) (hk : h.key ≠ h'.key ∨ h.cls ≠ h'.cls ∨ (h.cls = .default ∧ h.typ ≠ h'.typ)) :
    ∃ e, handlerIsExpired cr h now (handlerCall cr h' made rnd nonce sid []) when_ = .error e ∧
      e ∈ [Exn.unknownToken, .wrongTokenType, .verificationError] := by
  have he : effectiveType h' [] = h'.typ := by simp [effectiveType, ht]
  cases hc : h.cls with
  | default =>
    cases hc' : h'.cls with
    | default =>
      by_cases hkey : h.key = h'.key
      · have hty : h.typ ≠ h'.typ := by
          rcases hk with hk | hk | hk
          · exact absurd hkey hk
          · exact absurd (hc.trans hc'.symm) hk
          · exact hk.2
        exact ⟨.wrongTokenType, by simp [handlerIsExpired, hc, handlerInfo, splitToken_call cr L h' h hc' hkey, he, Ne.symm hty], by simp⟩
      · exact ⟨.unknownToken, by simp [handlerIsExpired, hc, handlerInfo, splitToken_other cr L h' h hc' hkey], by simp⟩
    | jwt =>
      exact ⟨.unknownToken, by simp [handlerIsExpired, hc, handlerInfo, splitToken, cryptDecrypt, handlerCall, hc', L.open_pack], by simp⟩
  | jwt =>
    refine ⟨.verificationError, ?_, by simp⟩
    cases hc' : h'.cls with
    | default => simp [handlerIsExpired, hc, handlerCall, hc', cryptEncrypt, L.unpack_seal]
    | jwt =>
      have hkey : h'.key ≠ h.key := by
        rcases hk with hk | hk | hk
        · exact Ne.symm hk
        · exact absurd (hc.trans hc'.symm) hk
        · rw [hc] at hk; cases hk.1
      simp [handlerIsExpired, hc, handlerCall, hc', L.unpack_other _ _ _ _ _ _ hkey]

/-- **C173** is false of signed tokens for the two other kinds of questions: a negative lifetime does not mean for ever, and the
handler of one kind of tokens answers for all signed tokens made with the key (which in a provider is the same for all), so a code
is judged as an access token. -/
theorem C173_signed_differs (cr : TokenCrypto) (L : TokenCryptoLaws cr) (h h' : Handler) (hd : h.cls = .jwt) (hd' : h'.cls = .jwt)
    (hk : h.key = h'.key) (made now when_ : Int) (rnd nonce sid : Str) :
    (h.lifetime < 0 → 0 ≤ made + h.lifetime → made ≤ when_ → when_ ≠ 0 → handlerIsExpired cr h now (handlerCall cr h made rnd nonce sid []) when_ = .ok true) ∧
    ∃ b, handlerIsExpired cr h now (handlerCall cr h' made rnd nonce sid []) when_ = .ok b := by
  refine ⟨fun h1 h2 h3 hw => ?_, ?_⟩
  · have hn : ¬ made + h.lifetime < 0 := by omega
    simp only [handlerIsExpired, hd, handlerCall, L.unpack_pack, isExpired, if_neg hn, if_neg hw]
    exact congrArg _ (decide_eq_true (by omega))
  · exact ⟨_, by simp only [handlerIsExpired, hd, hd', handlerCall, hk, L.unpack_pack]; rfl⟩

/-- The hypotheses are met: an encrypted token of 10 seconds, and one that lasts for ever. -/
example : (handlerIsExpired toyCrypto ⟨.default, c!"A", 10, c!"k"⟩ 5 (handlerCall toyCrypto ⟨.default, c!"A", 10, c!"k"⟩ 5 c!"r" c!"n" c!"s" []) 16 = .ok true) ∧
    (handlerIsExpired toyCrypto ⟨.default, c!"A", 10, c!"k"⟩ 5 (handlerCall toyCrypto ⟨.default, c!"A", 10, c!"k"⟩ 5 c!"r" c!"n" c!"s" []) 15 = .ok false) ∧
    (handlerIsExpired toyCrypto ⟨.default, c!"A", -1, c!"k"⟩ 5 (handlerCall toyCrypto ⟨.default, c!"A", -1, c!"k"⟩ 5 c!"r" c!"n" c!"s" []) 99 = .ok false) := by
  refine ⟨?_, ?_, ?_⟩
  · rw [(C173_encrypted_exact toyCrypto toyCrypto_laws _ rfl (by decide) 5 5 16 c!"r" c!"n" c!"s" (by decide) (by decide)).1]; rfl
  · rw [(C173_encrypted_exact toyCrypto toyCrypto_laws _ rfl (by decide) 5 5 15 c!"r" c!"n" c!"s" (by decide) (by decide)).1]; rfl
  · rw [(C173_encrypted_exact toyCrypto toyCrypto_laws _ rfl (by decide) 5 5 99 c!"r" c!"n" c!"s" (by decide) (by decide)).1]; rfl

end Verif
