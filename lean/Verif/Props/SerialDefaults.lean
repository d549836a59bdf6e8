import Verif.Props.Serial
/-! C147: stored documents in which entries are missing. -/
namespace Verif

namespace Spec
/-- The time of issue read from a document; 0 counts as missing. -/
def readTime (now : Int) : Option Int → Int
  | none => now
  | some x => if x = 0 then now else x

/-- The identifier read from a document; the empty one counts as missing. -/
def readId (fresh : Str) : Option Str → Str
  | none => fresh
  | some x => if x = [] then fresh else x

/-- What becomes of a token's document that is read at time `now`: entries that are there are taken over, a missing time of issue is now,
a missing identifier is a fresh one, and the rest is that of a token that was neither used nor revoked and does not expire. -/
structure ReadToken (now : Int) (fresh : Str) (d : TokenDoc) (t : Token) : Prop where
  typ : some t.typ = d.typ
  issued : t.issuedAt = readTime now d.issuedAt
  start : t.notBefore = d.notBefore.getD 0
  stop : t.expiresAt = d.expiresAt.getD 0
  revoked : t.revoked = d.revoked.getD false
  used : t.used = d.used.getD 0
  value : t.value = d.value.getD []
  based : t.basedOn = d.basedOn.getD none
  ident : t.id = readId fresh d.id
  scope : t.scope = d.scope.getD []

/-- The same for a grant's document, apart from its tokens. -/
structure ReadGrant (now : Int) (fresh : Str) (rules : Dict UsageRules) (d : GrantDoc) (g : Grant) : Prop where
  issued : g.issuedAt = d.issuedAt.getD now
  start : g.notBefore = d.notBefore.getD 0
  stop : g.expiresAt = d.expiresAt.getD 0
  revoked : g.revoked = d.revoked.getD false
  used : g.used = 0
  ident : g.id = d.id.getD fresh
  sub : g.sub = d.sub.getD []
  scope : g.scope = d.scope.getD []
  resources : g.resources = d.resources.getD []
  request : g.authReq = d.authReq
  event : g.authnEvent = d.authnEvent
  limit : g.maxUsage = (d.usageRules.map Prod.fst).getD none
  rules : g.usageRules = (d.usageRules.map Prod.snd).getD rules
end Spec
open Spec

theorem readTime_eq (now : Int) (o : Option Int) : (if o.getD 0 = 0 then now else o.getD 0) = readTime now o := by
  cases o with
  | none => rfl
  | some x => rfl

theorem readId_eq (fresh : Str) (o : Option Str) : (if o.getD [] = [] then fresh else o.getD []) = readId fresh o := by
  cases o with
  | none => rfl
  | some x => rfl

theorem tokensFromDocs_read {now : Int} {ids : Nat → Str} {tm : Dict TokenKind} {n : Nat} {ds : List TokenDoc} {l : List Token}
    (h : tokensFromDocs now ids tm n ds = .ok l) :
    l.length = ds.length ∧ ∀ (i : Nat) d, ds[i]? = some d → ∃ t, l[i]? = some t ∧ ReadToken now (ids (n + i)) d t ∧
      (d.typ.bind tm.get?) = some t.kind ∧ t.usageRules = setDefaults t.kind (d.usageRules.getD {}) := by
  induction ds generalizing n l with
  | nil =>
    simp only [tokensFromDocs] at h
    cases h
    exact ⟨rfl, fun i d hd => by simp at hd⟩
  | cons d ds ih =>
    simp only [tokensFromDocs] at h
    split at h
    · cases h
    · rename_i ty hty
      split at h
      · cases h
      · rename_i k hk
        split at h
        · cases h
        · rename_i l' hl'
          cases h
          obtain ⟨h1, h2⟩ := ih hl'
          refine ⟨by simp [h1], fun i d' hd' => ?_⟩
          cases i with
          | zero =>
            simp only [List.getElem?_cons_zero, Option.some.injEq] at hd'
            subst hd'
            refine ⟨_, rfl, ⟨?_, ?_, ?_, ?_, ?_, ?_, ?_, ?_, ?_, ?_⟩, ?_, rfl⟩
            · simp [Token.new, TokenDoc.args, hty]
            · exact readTime_eq now d.issuedAt
            · rfl
            · simp [Token.new, TokenDoc.args, Item.mk']
            · rfl
            · rfl
            · rfl
            · rfl
            · exact readId_eq (ids n) d.id
            · rfl
            · simp [hty, hk, Token.new]
          | succ i =>
            simp only [List.getElem?_cons_succ] at hd' ⊢
            obtain ⟨t, a, b, c⟩ := h2 i d' hd'
            exact ⟨t, a, by rw [show n + (i + 1) = n + 1 + i from by omega]; exact b, c⟩

theorem fromJson_read {now : Int} {id : Str} {ids : Nat → Str} {rules : Dict UsageRules} {d : GrantDoc} {g : Grant}
    (h : Grant.fromJson now ids { Grant.new now id {} with usageRules := rules } d = .ok g) :
    ReadGrant now id rules d g ∧ g.issuedToken.length = (d.issuedToken.getD []).length ∧
    ∀ (i : Nat) td, (d.issuedToken.getD [])[i]? = some td → ∃ t, g.issuedToken[i]? = some t ∧ ReadToken now (ids i) td t ∧
      (td.typ.bind (d.tokenMap.getD defaultTokenMap).get?) = some t.kind ∧
      t.usageRules = setDefaults t.kind (td.usageRules.getD {}) := by
  unfold Grant.fromJson at h
  dsimp only at h
  split at h
  · cases h
  · rename_i ts hts
    cases h
    refine ⟨⟨rfl, ?_, ?_, rfl, rfl, rfl, rfl, rfl, rfl, ?_, ?_, ?_, ?_⟩, ?_⟩
    · cases d.notBefore <;> rfl
    · cases d.expiresAt <;> rfl
    · cases d.authReq <;> rfl
    · cases d.authnEvent <;> rfl
    · cases d.usageRules <;> rfl
    · cases d.usageRules <;> rfl
    · cases hd : d.issuedToken with
      | none =>
        rw [hd] at hts
        cases hts
        exact ⟨rfl, fun i td htd => by simp at htd⟩
      | some ds =>
        rw [hd] at hts
        obtain ⟨a, b⟩ := tokensFromDocs_read hts
        refine ⟨a, fun i td htd => ?_⟩
        obtain ⟨t, c1, c2, c3⟩ := b i td htd
        exact ⟨t, c1, by simpa using c2, c3⟩

/-- **C147**: a grant's document in which entries are missing is read, token by token, with the values of a new grant and of new, unused
tokens for the missing ones; entries that are there are never replaced. -/
theorem C147_missing_entries (now : Int) (id : Str) (ids : Nat → Str) (d : GrantDoc) (g : Grant)
    (h : deserialize now id ids (.grant d) = .ok (.grant g)) :
    ReadGrant now id [] d g ∧ g.issuedToken.length = (d.issuedToken.getD []).length ∧
    ∀ (i : Nat) td, (d.issuedToken.getD [])[i]? = some td → ∃ t, g.issuedToken[i]? = some t ∧ ReadToken now (ids i) td t ∧
      (td.typ.bind (d.tokenMap.getD defaultTokenMap).get?) = some t.kind ∧
      t.usageRules = setDefaults t.kind (td.usageRules.getD {}) := by
  unfold deserialize at h
  dsimp only at h
  split at h
  · cases h
  · rename_i g' hg'
    cases h
    exact fromJson_read (rules := []) hg'

/-- **C147**: the same for exchange grants; without usage rules in the document, access tokens live for a minute and may be used to mint
access tokens only. -/
theorem C147_missing_entries_exchange (now : Int) (id : Str) (ids : Nat → Str) (d : GrantDoc) (g : ExchangeGrant)
    (h : deserialize now id ids (.exchangeGrant d) = .ok (.exchangeGrant g)) :
    ReadGrant now id [(c!"access_token", { supportsMinting := some [c!"access_token"], expiresIn := some 60 })] d g.toGrant ∧
    g.issuedToken.length = (d.issuedToken.getD []).length ∧
    ∀ (i : Nat) td, (d.issuedToken.getD [])[i]? = some td → ∃ t, g.issuedToken[i]? = some t ∧ ReadToken now (ids i) td t ∧
      (td.typ.bind (d.tokenMap.getD defaultTokenMap).get?) = some t.kind ∧
      t.usageRules = setDefaults t.kind (td.usageRules.getD {}) := by
  unfold deserialize at h
  dsimp only at h
  split at h
  · cases h
  · rename_i g' hg'
    cases h
    exact fromJson_read hg'

/-- **C147**: reading never fails but for a token without a type, or of a type that is not in the map. -/
theorem C147_readable_iff (now : Int) (id : Str) (ids : Nat → Str) (d : GrantDoc) :
    (∃ g, deserialize now id ids (.grant d) = .ok (.grant g)) ↔
      ∀ td ∈ d.issuedToken.getD [], ∃ ty, td.typ = some ty ∧ ((d.tokenMap.getD defaultTokenMap).get? ty).isSome = true := by
  have key : ∀ (tm : Dict TokenKind) (ds : List TokenDoc) (n : Nat), (∃ l, tokensFromDocs now ids tm n ds = .ok l) ↔
      ∀ td ∈ ds, ∃ ty, td.typ = some ty ∧ (tm.get? ty).isSome = true := by
    intro tm ds
    induction ds with
    | nil => intro n; simp [tokensFromDocs]
    | cons td ds ih =>
      intro n
      simp only [tokensFromDocs]
      cases ht : td.typ with
      | none => simp [ht]
      | some ty =>
        cases hk : tm.get? ty with
        | none => simp [hk, ht]
        | some k =>
          have := ih (n + 1)
          cases hr : tokensFromDocs now ids tm (n + 1) ds with
          | error e =>
            rw [hr] at this
            simp only [hk]
            simp only [reduceCtorEq, exists_false, false_iff] at this ⊢
            exact fun h => this fun td' h' => h td' (by simp [h'])
          | ok l =>
            rw [hr] at this
            simp only [hk]
            simp only [Except.ok.injEq, exists_eq', true_iff] at this ⊢
            intro td' h'
            rcases List.mem_cons.1 h' with rfl | h'
            · exact ⟨ty, ht, by rw [hk]; rfl⟩
            · exact this td' h'
  unfold deserialize Grant.fromJson
  dsimp only
  cases d.issuedToken with
  | none => simp
  | some ds =>
    dsimp only [Option.getD_some]
    rw [← key _ ds 0]
    cases tokensFromDocs now ids (d.tokenMap.getD defaultTokenMap) 0 ds <;> simp

/-- Two documents with almost nothing in them. -/
example :
    (match deserialize 7 c!"x" (fun _ => c!"y") (.grant { issuedToken := some [{ typ := some tAccessToken, value := some c!"AT" }] }) with
      | .ok (.grant g) => g.issuedToken.map fun (t : Token) => (t.value, t.issuedAt, t.expiresAt, t.notBefore, t.revoked, t.used, t.id)
      | _ => []) = [(c!"AT", 7, 0, 0, false, 0, c!"y")] ∧
    (match deserialize 7 c!"x" (fun _ => c!"y") (.exchangeGrant {}) with
      | .ok (.exchangeGrant g) => some (g.issuedAt, (g.usageRules.get? tAccessToken).bind fun (u : UsageRules) => u.expiresIn)
      | _ => none) = some (7, some 60) := ⟨rfl, rfl⟩

end Verif
