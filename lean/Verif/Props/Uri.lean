import Verif.Model.Uri
import Verif.Spec.Uri
import Verif.Lemmas.Dict
set_option linter.unusedSimpArgs false
/-! C22: redirect URIs. -/
namespace Verif
open Spec

/-- One half of the comparison: every key and value of `r` occurs in `q`. -/
def covers (q r : Query) : Bool := r.all fun kv => match q.get? kv.1 with
  | none => false
  | some vs => kv.2.all fun v => vs.contains v

theorem covers_iff (q r : Query) (hr : DistinctKeys r) :
    covers q r = true ↔ ∀ k, (r.has k → q.has k) ∧ ∀ v, v ∈ values r k → v ∈ values q k := by
  unfold covers values Dict.has
  rw [List.all_eq_true]
  constructor
  · intro h k
    cases hk : r.get? k with
    | none => simp
    | some vs =>
      have := h (k, vs) (Dict.get?_mem hk)
      simp only at this
      cases hq : q.get? k with
      | none => simp [hq] at this
      | some ws =>
        simp only [hq, List.all_eq_true, List.contains_iff_mem] at this
        simp only [Option.isSome_some, imp_self, Option.getD_some, true_and]
        exact this
  · rintro h ⟨k, vs⟩ hm
    have hk := Dict.mem_get? hr hm
    obtain ⟨h1, h2⟩ := h k
    simp only [hk, Option.isSome_some, true_implies, Option.getD_some] at h1 h2
    cases hq : q.get? k with
    | none => simp [hq] at h1
    | some ws =>
      simp only [hq, Option.getD_some] at h2
      simp only [List.all_eq_true, List.contains_iff_mem]
      exact h2

theorem queryMatches_eq (q r : Query) : queryMatches q r = (covers q r && covers r q) := by
  unfold queryMatches
  cases q with
  | nil =>
    cases r with
    | nil => rfl
    | cons p r => simp [covers, Dict.get?]
  | cons p q =>
    cases r with
    | nil => simp [covers, Dict.get?]
    | cons p' r => rfl

theorem queryMatches_iff (q r : Query) (hq : DistinctKeys q) (hr : DistinctKeys r) :
    queryMatches q r = true ↔ SameQuery q r := by
  rw [queryMatches_eq, Bool.and_eq_true, covers_iff q r hr, covers_iff r q hq]
  unfold SameQuery
  constructor
  · rintro ⟨h1, h2⟩ k
    exact ⟨⟨(h2 k).1, (h1 k).1⟩, fun v => ⟨(h2 k).2 v, (h1 k).2 v⟩⟩
  · intro h
    exact ⟨fun k => ⟨(h k).1.2, fun v => ((h k).2 v).2⟩, fun k => ⟨(h k).1.1, fun v => ((h k).2 v).1⟩⟩

theorem matchRegistered_iff (base : Str) (q : Query) (hq : DistinctKeys q) (l : List RegUri)
    (hl : ∀ p ∈ l, DistinctKeys p.2) : matchRegistered base q l = .ok () ↔
      ∃ pre rq post, l = pre ++ (base, rq) :: post ∧ (∀ p ∈ pre, p.1 ≠ base) ∧ SameQuery q rq := by
  induction l with
  | nil => simp [matchRegistered]
  | cons p l ih =>
    obtain ⟨rb, rq⟩ := p
    unfold matchRegistered
    by_cases e : base = rb
    · subst e
      have hm := queryMatches_iff q rq hq (hl (base, rq) (by simp))
      simp only [if_true]
      constructor
      · intro h
        split at h
        · rename_i hk; exact ⟨[], rq, l, rfl, by simp, hm.1 hk⟩
        · cases h
      · rintro ⟨pre, rq', post, he, hpre, hs⟩
        cases pre with
        | nil => simp at he; obtain ⟨rfl, _⟩ := he; simp [hm.2 hs]
        | cons p pre =>
          simp at he
          obtain ⟨rfl, _⟩ := he
          exact absurd rfl (hpre (base, rq) (by simp))
    · simp only [e, if_false]
      rw [ih (fun p hp => hl p (by simp [hp]))]
      constructor
      · rintro ⟨pre, rq', post, rfl, hpre, hs⟩
        refine ⟨(rb, rq) :: pre, rq', post, rfl, ?_, hs⟩
        intro p hp
        rcases List.mem_cons.1 hp with rfl | hp
        · exact fun k => e k.symm
        · exact hpre p hp
      · rintro ⟨pre, rq', post, he, hpre, hs⟩
        cases pre with
        | nil => simp at he; exact absurd he.1.1.symm e
        | cons p pre =>
          simp at he
          obtain ⟨rfl, rfl⟩ := he
          exact ⟨pre, rq', post, rfl, fun p hp => hpre p (by simp [hp]), hs⟩

/-- C22, exactly when a URI is accepted: a client is named and known; the decoded URI has no fragment; and the first
URI registered by that client with the same base has the same query. -/
theorem C22_accepted_iff (lib : UriLib) (hlib : ∀ u, DistinctKeys (lib.splitUri u).2) (cdb : Cdb) (ty : UriType)
    (reqClient dflt : Option Str) (uri : Str) (hreg : ∀ c cl, cdb c = some cl → ∀ p ∈ cl.uris ty, DistinctKeys p.2) :
    verifyUri lib cdb ty reqClient dflt (some uri) = .ok () ↔
      ∃ cid cl, (reqClient <|> dflt) = some cid ∧ cid ≠ [] ∧ cdb cid = some cl ∧
        lib.fragment (lib.unquote uri) = [] ∧
        ∃ pre rq post, cl.uris ty = pre ++ ((lib.splitUri (lib.unquote uri)).1, rq) :: post ∧
          (∀ p ∈ pre, p.1 ≠ (lib.splitUri (lib.unquote uri)).1) ∧
          SameQuery (lib.splitUri (lib.unquote uri)).2 rq := by
  unfold verifyUri
  cases hc : (reqClient <|> dflt) with
  | none => simp [hc]
  | some cid =>
    simp only [hc, Option.some.injEq, exists_and_left, exists_eq_left', exists_and_left]
    by_cases h0 : cid = []
    · simp [h0]
    simp only [h0, if_false, ne_eq, not_false_eq_true, true_and]
    by_cases hf : lib.fragment (lib.unquote uri) = []
    · simp only [hf, not_true, if_false, true_and, ne_eq]
      cases hcl : cdb cid with
      | none => simp
      | some cl =>
        simp only [Option.some.injEq, exists_eq_left']
        by_cases hu : cl.uris ty = []
        · simp [hu]
        · simp only [hu, if_false]
          rw [matchRegistered_iff _ _ (hlib _) _ (hreg cid cl hcl)]
    · simp [hf]

/-- C22: an accepted URI has, after decoding, no fragment and equals (base and query) one of the URIs registered by the
client named in the request. -/
theorem C22_accepted_is_registered (lib : UriLib) (hlib : ∀ u, DistinctKeys (lib.splitUri u).2) (cdb : Cdb)
    (ty : UriType) (client : Str) (dflt : Option Str) (uri : Str)
    (hreg : ∀ c cl, cdb c = some cl → ∀ p ∈ cl.uris ty, DistinctKeys p.2)
    (h : verifyUri lib cdb ty (some client) dflt (some uri) = .ok ()) :
    ∃ cl, cdb client = some cl ∧ lib.fragment (lib.unquote uri) = [] ∧
      ∃ rq, ((lib.splitUri (lib.unquote uri)).1, rq) ∈ cl.uris ty ∧ SameQuery (lib.splitUri (lib.unquote uri)).2 rq := by
  obtain ⟨cid, cl, h1, _, h3, h4, pre, rq, post, h5, _, h6⟩ := (C22_accepted_iff lib hlib cdb ty _ dflt uri hreg).1 h
  simp at h1
  subst h1
  exact ⟨cl, h3, h4, rq, by rw [h5]; simp, h6⟩

/-- C22: the URI used is the (verified) one of the request, or, if there is none, the single registered one. For a client
that is not known the result is the empty string. -/
theorem C22_get_uri (lib : UriLib) (cdb : Cdb) (ty : UriType) (client : Str) (uri : Option Str) (u : Str)
    (h : getUri lib cdb ty client uri = .ok u) :
    (uri = some u ∧ verifyUri lib cdb ty (some client) none (some u) = .ok ()) ∨
    (uri = none ∧ ∃ cl b q, cdb client = some cl ∧ cl.uris ty = [(b, q)] ∧ u = joinQuery lib b q) ∨
    (uri = none ∧ cdb client = none ∧ u = []) := by
  unfold getUri at h
  cases uri with
  | some raw =>
    simp only at h
    split at h
    · cases h
    · rename_i hv
      cases h
      exact .inl ⟨rfl, hv⟩
  | none =>
    simp only at h
    cases hc : cdb client with
    | none => simp [hc] at h; subst h; exact .inr (.inr ⟨rfl, rfl, rfl⟩)
    | some cl =>
      simp only [hc] at h
      match hu : cl.uris ty with
      | [] => simp [hu] at h
      | [(b, q)] => simp [hu] at h; exact .inr (.inl ⟨rfl, cl, b, q, rfl, hu, h.symm⟩)
      | _ :: _ :: _ => simp [hu] at h

/-- A small URI library: decoding replaces `%41` by `A`; the fragment is what follows `#`; the query is what follows `?`,
as one key. -/
def demoUnquote : Str → Str
  | '%' :: '4' :: '1' :: r => 'A' :: demoUnquote r
  | c :: r => c :: demoUnquote r
  | [] => []

def demoLib : UriLib where
  unquote := demoUnquote
  fragment := fun u => match pySplit1 '#' u with
    | some (_, f) => f
    | none => []
  splitUri := fun u => match pySplit1 '?' u with
    | some (b, q) => match pySplit1 '=' q with
      | some (k, v) => (b, [(k, [v])])
      | none => (b, [])
    | none => (u, [])
  urlencode := fun q => match q with
    | (k, v :: _) :: _ => k ++ '=' :: v
    | _ => []

def demoCdb : Cdb := fun c => if c = c!"c1" then
  some { redirectUris := [(c!"https://rp/A", []), (c!"https://rp/B", [(c!"k", [c!"v"])]), (c!"https://rp/B", [])],
         responseTypes := [c!"code", c!"code id_token"] } else none

example : verifyUri demoLib demoCdb .redirect (some c!"c1") none (some c!"https://rp/B?k=v") = .ok () := by decide
example : (∀ u, DistinctKeys (demoLib.splitUri u).2) := by
  intro u
  simp only [demoLib]
  split
  · split <;> simp [DistinctKeys]
  · simp [DistinctKeys]
example : verifyUri demoLib demoCdb .redirect (some c!"c1") none (some c!"https://rp/A#x") = .error .uriError := by decide

/-- A consequence of "first base decides": a registered URI can be refused, namely when the same base was registered
earlier with another query. -/
theorem C22_registered_uri_refused :
    (c!"https://rp/B", []) ∈ ((demoCdb c!"c1").getD {}).redirectUris ∧
    verifyUri demoLib demoCdb .redirect (some c!"c1") none (some c!"https://rp/B") = .error .valueError := by
  decide

/-- The URI that is used is the undecoded one: it need not be a registered URI itself. -/
theorem C22_undecoded_uri_is_used :
    getUri demoLib demoCdb .redirect c!"c1" (some c!"https://rp/%41") = .ok c!"https://rp/%41" ∧
    ∀ q, (c!"https://rp/%41", q) ∉ ((demoCdb c!"c1").getD {}).redirectUris := by
  refine ⟨by decide, ?_⟩
  intro q
  simp [demoCdb]

end Verif
