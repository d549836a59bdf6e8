import Verif.Model.Serial
import Verif.Spec.Serial
import Verif.Lemmas.GrantHist
import Verif.Props.Grant
set_option linter.unusedSimpArgs false
set_option linter.unusedVariables false
/-! Serialisation: C52. -/
namespace Verif
open Spec

/-- **C52**, for a token by itself: written out and read back into any token object of its class it is the same token, with
its use count, revocation and expiry. -/
theorem C52_token_roundtrip (t t0 : Token) (h : t0.kind = t.kind) : Token.fromJson t0 t.toJson = t := by
  cases t
  simp [Token.fromJson, Token.toJson, h]

/-- What a token needs to come back unchanged through the constructor. -/
structure Restorable (tm : Dict TokenKind) (t : Token) : Prop where
  kind : tm.get? t.typ = some t.kind
  time : t.issuedAt ≠ 0
  id : t.id ≠ []
  rules : setDefaults t.kind t.usageRules = t.usageRules

theorem setDefaults_idem (k : TokenKind) (r : UsageRules) : setDefaults k (setDefaults k r) = setDefaults k r := by
  cases k <;> simp only [setDefaults]
  · cases r.supportsMinting <;> rfl
  · cases r.supportsMinting <;> rfl

theorem Restorable.new {tm : Dict TokenKind} {k : TokenKind} {now : Int} {id : Str} {a : TokenArgs} (hk : tm.get? a.typ = some k)
    (hn : now ≠ 0) (hi : id ≠ []) : Restorable tm (Token.new k now id a) := by
  refine ⟨hk, ?_, ?_, setDefaults_idem _ _⟩
  · simp only [Token.new, Item.mk']
    split <;> assumption
  · simp only [Token.new]
    split <;> assumption

/-- The fields that matter are the same. -/
structure SameFields (t t' : Token) : Prop where
  kind : t'.kind = t.kind
  typ : t'.typ = t.typ
  time : t'.issuedAt = t.issuedAt
  id : t'.id = t.id

theorem restorable_of_mem {tm : Dict TokenKind} {l r : List Token} (hl : ∀ t ∈ l, Restorable tm t)
    (h : ∀ t' ∈ r, ∃ t ∈ l, SameFields t t' ∧ setDefaults t'.kind t'.usageRules = t'.usageRules) : ∀ t ∈ r, Restorable tm t := by
  intro t' ht'
  obtain ⟨t, ht, hs, hr⟩ := h t' ht'
  have k := hl t ht
  exact ⟨by rw [hs.typ, hs.kind]; exact k.kind, by rw [hs.time]; exact k.time, by rw [hs.id]; exact k.id, hr⟩

theorem restorable_onlyRevokes {tm : Dict TokenKind} {l r : List Token} (hl : ∀ t ∈ l, Restorable tm t) (h : OnlyRevokes l r) :
    ∀ t ∈ r, Restorable tm t := by
  obtain ⟨P, hlen, hP⟩ := h
  apply restorable_of_mem hl
  intro t' ht'
  obtain ⟨k, hk⟩ := List.getElem?_of_mem ht'
  have hlt : k < l.length := by rw [← hlen]; exact (List.getElem?_eq_some_iff.1 hk).1
  obtain ⟨t2, h2, hs, _⟩ := hP k l[k] (by simp [hlt])
  rw [hk] at h2; cases h2
  refine ⟨l[k], List.getElem_mem _, ⟨hs.kind, (congrArg Token.typ hs).symm, (congrArg (fun t => t.issuedAt) hs).symm,
    (congrArg Token.id hs).symm⟩, ?_⟩
  rw [hs.kind, hs.usageRules]
  exact (hl _ (List.getElem_mem _)).rules

theorem mem_modify {l : List Token} {i : Nat} {f : Token → Token} {t' : Token} (h : t' ∈ l.modify i f) :
    t' ∈ l ∨ ∃ t ∈ l, t' = f t := by
  obtain ⟨k, hk⟩ := List.getElem?_of_mem h
  rw [List.getElem?_modify] at hk
  by_cases e : i = k
  · simp only [e, if_true, Option.map_eq_some_iff, Option.map_eq_map] at hk
    obtain ⟨t, h1, h2⟩ := hk
    exact .inr ⟨t, List.mem_of_getElem? h1, h2.symm⟩
  · simp only [e, if_false] at hk
    exact .inl (List.mem_of_getElem? (by simpa using hk))

theorem mem_updateFirst {v : Str} {f : Token → Token} {l : List Token} {t' : Token} (h : t' ∈ updateFirst v f l) :
    t' ∈ l ∨ ∃ t ∈ l, t' = f t := by
  induction l with
  | nil => simp [updateFirst] at h
  | cons a l ih =>
    unfold updateFirst at h
    split at h
    · rcases List.mem_cons.1 h with rfl | h
      · exact .inr ⟨a, by simp, rfl⟩
      · exact .inl (by simp [h])
    · rcases List.mem_cons.1 h with rfl | h
      · exact .inl (by simp)
      · rcases ih h with h | ⟨t, h1, h2⟩
        · exact .inl (by simp [h])
        · exact .inr ⟨t, by simp [h1], h2⟩

theorem restorable_map {tm : Dict TokenKind} {l r : List Token} (hl : ∀ t ∈ l, Restorable tm t) {f : Token → Token}
    (hf : ∀ t, Restorable tm t → Restorable tm (f t)) (h : ∀ t' ∈ r, t' ∈ l ∨ ∃ t ∈ l, t' = f t) : ∀ t ∈ r, Restorable tm t := by
  intro t' ht'
  rcases h t' ht' with h | ⟨t, h, rfl⟩
  · exact hl _ h
  · exact hf _ (hl _ h)

theorem step_tokenMap (g : Grant) (op : GrantOp) : (g.step op).tokenMap = g.tokenMap := by
  cases op with
  | mint now id tt b rules scope args value =>
    simp only [Grant.step]
    rcases mintToken_cases g now id tt (b.bind g.tokenAt) rules scope args value with h | ⟨v, k, _, _, _, _, item, _, h⟩
    · rw [h.1]
    · rw [h]
  | copyRules s d => simp only [Grant.step]; split <;> rfl
  | _ => rfl

/-- Every token of an ordinary grant can be restored. -/
theorem ordinary_restorable {g : Grant} (h : OrdinaryGrant g) : ∀ t ∈ g.issuedToken, Restorable g.tokenMap t := by
  induction h with
  | new now id a ha => simp only [Grant.new, ha]; simp
  | step g op _ hop ih =>
    rw [step_tokenMap]
    cases op with
    | mint now id tt b rules scope args value =>
      simp only [Grant.step]
      rcases mintToken_cases g now id tt (b.bind g.tokenAt) rules scope args value with h | ⟨v, k, _, _, hk, _, item, hi, h⟩
      · rw [h.1]; exact ih
      · rw [h]
        intro t ht
        rcases List.mem_append.1 ht with ht | ht
        · exact ih t ht
        · rw [List.mem_singleton] at ht
          rw [ht, hi]
          exact Restorable.new hk hop.1 hop.2
    | use v =>
      exact restorable_map ih (f := Token.registerUsage) (fun t h => ⟨h.kind, h.time, h.id, h.rules⟩) fun _ h => mem_updateFirst h
    | revokeToken limit v b r => exact restorable_onlyRevokes ih (revokeTokenL_onlyRevokes _ _ _ _ _)
    | revokeDependent limit v => exact restorable_onlyRevokes ih (revokeDependentL_onlyRevokes _ _ _)
    | revokeOne v =>
      exact restorable_map ih (f := Token.revoke) (fun t h => ⟨h.kind, h.time, h.id, h.rules⟩) fun _ h => mem_updateFirst h
    | revokeGrant => exact ih
    | setExpiry i e =>
      exact restorable_map ih (f := setExpiresAt e) (fun t h => ⟨h.kind, h.time, h.id, h.rules⟩) fun _ h => mem_modify h
    | copyRules s d =>
      simp only [Grant.step]
      cases hs : g.tokenAt s with
      | none => exact ih
      | some src =>
        have hsrc : src.kind = .refreshToken := hop src hs
        have hr := (ih src (List.mem_of_getElem? hs)).rules
        refine restorable_map ih (f := setRules src.usageRules) ?_ fun _ h => mem_modify h
        intro t h
        unfold setRules
        split
        · rename_i hk
          refine ⟨h.kind, h.time, h.id, ?_⟩
          show setDefaults t.kind src.usageRules = src.usageRules
          rw [hk, ← hsrc]; exact hr
        · exact h
    | configure c => exact ih

theorem restore_token {tm : Dict TokenKind} {t : Token} (h : Restorable tm t) (now : Int) (id : Str) :
    Token.new t.kind now id t.toJson.args = t := by
  have h1 := h.time; have h2 := h.id; have h3 := h.rules
  cases t with
  | mk it kind typ value basedOn usageRules id' scope claims resources =>
    cases it
    simp only [Token.new, Token.toJson, TokenDoc.args, Item.mk', Option.getD_some] at *
    simp [h1, h2, h3]

theorem tokensFromDocs_ok {tm : Dict TokenKind} (now : Int) (ids : Nat → Str) (n : Nat) (l : List Token)
    (h : ∀ t ∈ l, Restorable tm t) : tokensFromDocs now ids tm n (l.map Token.toJson) = .ok l := by
  induction l generalizing n with
  | nil => rfl
  | cons t l ih =>
    have ht := h t (by simp)
    have e : t.toJson.typ = some t.typ := rfl
    simp only [List.map_cons, tokensFromDocs, e, ht.kind, ih (n + 1) fun t' h' => h t' (by simp [h']), restore_token ht]

/-- **C52**, for grants, all but one field: whatever the history of the grant, written to a JSON storage and read back — at
any time — it is the same grant with the same tokens, except that its own use count is 0. -/
theorem C52_grant_roundtrip_partial (g : Grant) (h : OrdinaryGrant g) (now : Int) (id : Str) (ids : Nat → Str) :
    deserialize now id ids (serialize (.grant g)) = .ok (.grant { g with used := 0 }) := by
  have ht := tokensFromDocs_ok now ids 0 g.issuedToken (ordinary_restorable h)
  simp only [serialize, deserialize, Grant.fromJson, Grant.toJson, Option.getD_some, ht]
  cases hr : g.authReq <;> cases he : g.authnEvent <;> simp [Grant.new, Item.mk', hr, he] <;> (cases g; simp_all)

/-- **C52** is false of the code: the use count of a grant is lost, so that a grant whose limit is used up is active again
after a restart — whatever the limit, unless it is 0. -/
theorem C52_grant_limit_lost (g : Grant) (h : OrdinaryGrant g) (now : Int) (id : Str) (ids : Nat → Str) (m : Int)
    (hm : g.maxUsage = some m) (hpos : 0 < m) (hrev : g.revoked = false) (hnb : g.notBefore ≤ now)
    (hexp : g.expiresAt = 0 ∨ now ≤ g.expiresAt) :
    ∃ g', deserialize now id ids (serialize (.grant g)) = .ok (.grant g') ∧ g'.isActive now = true := by
  refine ⟨_, C52_grant_roundtrip_partial g h now id ids, ?_⟩
  have e1 : ¬ (0 : Int) ≥ m := by omega
  simp only [Grant.isActive, Item.isActive, Item.maxUsageReached, hm, hrev]
  simp [e1]
  exact ⟨.inr hnb, hexp⟩

/-- **C52** is false of the code for exchange grants: the users are lost, always. -/
theorem C52_exchange_users_lost (g : ExchangeGrant) (now : Int) (id : Str) (ids : Nat → Str) (g' : ExchangeGrant)
    (h : deserialize now id ids (serialize (.exchangeGrant g)) = .ok (.exchangeGrant g')) : g'.users = [] := by
  simp only [serialize, deserialize] at h
  split at h
  · cases h
  · cases h; rfl

/-- A grant that may mint once. -/
def onceGrant : Grant := Grant.new 5 c!"g1" { maxUsage := some 1, sub := c!"S" }
def usedGrant : Grant := onceGrant.step (.mint 6 c!"t1" tAuthorizationCode none none [] {} (.ok c!"CODE"))

/-- The hypotheses are met: the grant is used up, and after the restart it is not. -/
example : OrdinaryGrant usedGrant ∧ usedGrant.isActive 7 = false ∧ usedGrant.issuedToken.length = 1 ∧
    (match deserialize 7 c!"x" (fun _ => c!"y") (serialize (.grant usedGrant)) with
      | .ok (.grant g) => g.isActive 7 && decide (g.issuedToken = usedGrant.issuedToken)
      | _ => false) = true := by
  refine ⟨.step _ _ (.new _ _ _ rfl) ⟨by decide, by decide⟩, by decide, by decide, by decide⟩

/-- A refresh token whose rules were copied from an access token (so that it can mint nothing) can mint after a restart: the
hypothesis on copied rules is needed. -/
theorem C52_copied_rules_lost :
    let g := ((onceGrant.step (.configure { expiresAt := 0, scope := [], claims := [], resources := [], usageRules := [], maxUsage := none })).step
      (.mint 6 c!"t1" tAccessToken none none [] {} (.ok c!"AT"))).step (.mint 6 c!"t2" tRefreshToken none none [] {} (.ok c!"RT"))
    let g' := g.step (.copyRules 0 1)
    (g'.issuedToken[1]?.map fun t => t.supportsMinting tAccessToken) = some false ∧
    (match deserialize 7 c!"x" (fun _ => c!"y") (serialize (.grant g')) with
      | .ok (.grant g) => g.issuedToken[1]?.map fun t => t.supportsMinting tAccessToken
      | _ => none) = some true := by
  decide

/-- An exchange grant with users. -/
example : (match deserialize 7 c!"x" (fun _ => c!"y") (serialize (.exchangeGrant { toGrant := onceGrant, users := [c!"u"] })) with
      | .ok (.exchangeGrant g) => some g.users
      | _ => none) = some [] := by decide

end Verif
