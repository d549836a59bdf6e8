import Verif.Props.Grant
/-! C57: recursive revocation runs into the interpreter's recursion limit on long chains of refreshes. -/
namespace Verif
open Spec

/-- The value of the `i`th refresh token of a chain. -/
def chainVal (i : Nat) : Str := List.replicate (i + 1) 'a'

theorem chainVal_inj {i j : Nat} (h : chainVal i = chainVal j) : i = j := by
  have := congrArg List.length h
  simpa [chainVal] using this

/-- A grant in which a refresh token was refreshed `n` times, each time with the token obtained before. -/
def chainGrant : Nat → Grant
  | 0 => (Grant.new 1 c!"g" {}).step (.mint 1 c!"i" tRefreshToken none none [] {} (.ok (chainVal 0)))
  | n + 1 => (chainGrant n).step (.mint 1 c!"i" tRefreshToken (some n) none [] {} (.ok (chainVal (n + 1))))

def chainTok (i : Nat) : Token := Token.new .refreshToken 1 c!"i"
  { typ := tRefreshToken, value := chainVal i, basedOn := if i = 0 then none else some (chainVal (i - 1)) }

theorem chainGrant_form (n : Nat) : GrantReach (chainGrant n) ∧
    chainGrant n = { Grant.new 1 c!"g" {} with issuedToken := (List.range (n + 1)).map chainTok, used := n + 1 } := by
  induction n with
  | zero =>
    refine ⟨GrantReach.step _ _ (GrantReach.new _ _ _ rfl) ⟨by simp [chainVal], by simp [Grant.new]⟩, rfl⟩
  | succ n ih =>
    obtain ⟨hr, he⟩ := ih
    have hl : (chainGrant n).issuedToken = (List.range (n + 1)).map chainTok := by rw [he]
    have hget : (chainGrant n).issuedToken[n]? = some (chainTok n) := by rw [hl]; simp
    have hgt : (chainGrant n).tokenAt n = some (chainTok n) := hget
    constructor
    · refine GrantReach.step _ _ hr ⟨by simp [chainVal], ?_⟩
      intro t ht
      rw [hl] at ht
      obtain ⟨j, hj, rfl⟩ := List.mem_map.1 ht
      intro e
      have := chainVal_inj (i := j) (j := n + 1) e
      simp at hj
      omega
    · rw [chainGrant]
      simp only [Grant.step, Option.bind_some, hgt]
      rw [he, List.range_succ (n := n + 1), List.map_append]
      rfl

theorem chain_deep (n fuel i : Nat) (h : i + fuel ≤ n) (cur : List Token) (P : Nat → Prop)
    (hc : Marks ((List.range (n + 1)).map chainTok) cur P) :
    (revokeTokenL fuel [] (chainVal i) true cur).2 = false := by
  induction fuel generalizing i cur P with
  | zero => rfl
  | succ fuel ih =>
    rw [revokeTokenL_based_eq _ _ (by simp [chainVal])]
    have hlen : cur.length = n + 1 := by rw [hc.1]; simp
    have key := foldl_range_inv
      (revStep (fun x cur => revokeTokenL fuel [] x true cur) (fun t => decide (t.basedOn = some (chainVal i))))
      (cur, true) cur.length
      (fun m st => (m ≤ i + 1 → st = (cur, true)) ∧ (i + 1 < m → st.2 = false))
      ⟨fun _ => rfl, by omega⟩ ?_
    · exact key.2 (by omega)
    · intro m st hm ⟨h1, h2⟩
      by_cases hmi : i + 1 < m
      · refine ⟨by omega, fun _ => ?_⟩
        have := h2 hmi
        simp [revStep, this]
      · have hst := h1 (by omega)
        subst hst
        obtain ⟨t', ht', hs, _⟩ := hc.2 m (chainTok m) (by
          have : m < n + 1 := by omega
          simp [this])
        have hb : t'.basedOn = if m = 0 then none else some (chainVal (m - 1)) := hs.basedOn
        simp only [revStep, ht', hb]
        by_cases hme : m = i + 1
        · subst hme
          refine ⟨by omega, fun _ => ?_⟩
          simp only [Nat.add_one_ne_zero, if_false, Nat.add_sub_cancel, decide_true, if_true]
          have hv : t'.value = chainVal (i + 1) := hs.value
          rw [hv]
          exact ih (i + 1) (by omega) _ _ (hc.trans (Marks.mark cur (i + 1)))
        · refine ⟨fun _ => ?_, by omega⟩
          have : (if m = 0 then none else some (chainVal (m - 1))) ≠ some (chainVal i) := by
            by_cases h0 : m = 0
            · simp [h0]
            · simp only [h0, if_false]
              intro e
              have := chainVal_inj (Option.some.inj e)
              omega
          simp [this]

/-- C57, the claim is false: whatever the interpreter's recursion limit is, there is a grant produced by an ordinary
history of refreshes in which recursively revoking the first token does not finish (`RecursionError`). With CPython's
default limit of 1000 this takes a thousand refreshes. -/
theorem C57_deep_revocation_fails (limit : Nat) :
    ∃ g v, GrantReach g ∧ (∃ t, g.getToken v = some t ∧ t.kind = .refreshToken) ∧
      (g.revokeToken limit v [] true).2 = false := by
  obtain ⟨hr, he⟩ := chainGrant_form limit
  have hl : (chainGrant limit).issuedToken = (List.range (limit + 1)).map chainTok := by rw [he]
  refine ⟨chainGrant limit, chainVal 0, hr,
    ⟨chainTok 0, getToken_of_getElem (t := chainTok 0) (reach_forest hr).distinct (k := 0) (by rw [hl]; simp), rfl⟩, ?_⟩
  unfold Grant.revokeToken
  rw [hl]
  cases limit with
  | zero => rfl
  | succ fuel =>
    show (revokeTokenL (fuel + 1) (chainVal 0) [] true _).2 = false
    rw [revokeTokenL_value_eq _ _ (by simp [chainVal])]
    have key := foldl_range_inv
      (revStep (fun x cur => revokeTokenL fuel [] x true cur) (fun t => decide (t.value = chainVal 0)))
      ((List.range (fuel + 1 + 1)).map chainTok, true) ((List.range (fuel + 1 + 1)).map chainTok).length
      (fun m st => (m = 0 → st = ((List.range (fuel + 1 + 1)).map chainTok, true)) ∧ (0 < m → st.2 = false))
      ⟨fun _ => rfl, by omega⟩ ?_
    · exact key.2 (by simp)
    · intro m st hm ⟨h1, h2⟩
      refine ⟨by omega, fun _ => ?_⟩
      by_cases h0 : m = 0
      · subst h0
        rw [h1 rfl]
        have hg : ((List.range (fuel + 1 + 1)).map chainTok)[0]? = some (chainTok 0) := by simp
        simp only [revStep, hg]
        have hv : (chainTok 0).value = chainVal 0 := rfl
        simp only [hv, decide_true, if_true, Bool.true_eq_false, if_false]
        exact chain_deep (fuel + 1) fuel 0 (by omega) _ _ (Marks.mark _ 0)
      · have := h2 (by omega)
        simp [revStep, this]

end Verif
