import Verif.Spec.PushedOnce
import Verif.Props.ProviderPush
/-! C165: over the whole life of a provider, a pushed request is used at most as often as it was pushed. -/
namespace Verif
open Spec

theorem howMany_succ_pos {P : Nat → Prop} {n : Nat} (h : P n) : howMany P (n + 1) = howMany P n + 1 := by
  unfold howMany; rw [List.range_succ, List.countP_append, List.countP_singleton]; simp [h]

theorem howMany_succ_neg {P : Nat → Prop} {n : Nat} (h : ¬ P n) : howMany P (n + 1) = howMany P n := by
  unfold howMany; rw [List.range_succ, List.countP_append, List.countP_singleton]; simp [h]

theorem howMany_le_succ (P : Nat → Prop) (n : Nat) : howMany P n ≤ howMany P (n + 1) := by
  by_cases h : P n
  · rw [howMany_succ_pos h]; omega
  · rw [howMany_succ_neg h]; omega

/-- An authorization request leaves nothing under the URN it names. -/
theorem authorize_consumes {cfg : ProvCfg} (hpe : cfg.sys.env.parEnabled = true) {u : Str} (hu : c!"urn:uuid:".isPrefixOf u = true)
    (st : Prov) (now : Int) (gid : Str) (mc ma : MintIn) (idt : Out Str) (raw : Option Str) (ur : UserReq) (hr : ur.areq.requestUri = some u) :
    (provStep cfg st (.authorize now gid mc ma idt raw ur)).par u = none := by
  have h := authzParse_consumes hpe hu st.cdb st.par ur.areq hr
  simp only [provStep, authorizeEndpoint]
  generalize authzParse cfg.sys.env st.cdb st.par ur.areq = z at h
  obtain ⟨par', o⟩ := z
  cases o <;> exact h

/-- What is stored under a URN and was not before was put there by a push that was answered with that URN. -/
theorem par_new {cfg : ProvCfg} {st : Prov} {op : HttpOp} {u : Str} (h : ((provStep cfg st op).par u).isSome = true) (hn : st.par u = none) :
    ∃ now r req q, op = .push now r req u ∧ (pushEndpoint cfg st now r req u).2.2 = .val q := by
  obtain ⟨q, hq⟩ := Option.isSome_iff_exists.1 h
  rcases provStep_par hq with e | ⟨now, r, req, urn, j, o, c, par', rfl, h1, h2, h3⟩
  · rw [hn] at e; cases e
  · by_cases he : u = urn
    · subst he
      exact ⟨now, r, req, q, rfl, by simp [pushEndpoint, h1, h2, h3]⟩
    · exfalso
      have hm := runSteps_noAdd [doRequestUri cfg.sys.env st.cdb c, postParse cfg.sys.env st.cdb c, postParse cfg.sys.env st.cdb c] (by
            intro f hf
            simp only [List.mem_cons, List.not_mem_nil, or_false] at hf
            rcases hf with rfl | rfl | rfl
            · exact noAdd_doRequestUri _ _ _
            · exact noAdd_postParse _ _ _
            · exact noAdd_postParse _ _ _) st.par { req with clientId := c } u
      change (pushParse cfg.sys.env st.cdb st.par c req).1 u = _ ∨ (pushParse cfg.sys.env st.cdb st.par c req).1 u = _ at hm
      rw [h3] at hm
      simp only [provStep, pushEndpoint, h1, h2, h3, pushStore, if_neg he] at hq
      simp only [hq, hn] at hm
      rcases hm with hm | hm <;> cases hm

/-- Uses, and what can still be used, are at most as many as the pushes. -/
theorem uses_le {cfg : ProvCfg} (hpe : cfg.sys.env.parEnabled = true) {u : Str} (hu : c!"urn:uuid:".isPrefixOf u = true) (ops : List HttpOp) (n : Nat)
    (hn : n ≤ ops.length) :
    howMany (ServedForUri cfg ops u) n + (if ((provRun cfg (ops.take n)).par u).isSome = true then 1 else 0) ≤ howMany (AnsweredWithUri cfg ops u) n := by
  induction n with
  | zero => rw [List.take_zero]; simp [howMany, provRun, Prov.init]
  | succ n ih =>
    have ih := ih (by omega)
    have ho : ops[n]? = some ops[n] := List.getElem?_eq_getElem (by omega)
    rw [take_snoc ho, provRun_snoc]
    generalize ops[n] = op at ho
    by_cases hs : ServedForUri cfg ops u n
    · rw [howMany_succ_pos hs]
      obtain ⟨now, gid, mc, ma, idt, raw, ur, q, h1, h2, h3⟩ := hs
      rw [ho] at h1
      cases h1
      rw [authorize_consumes hpe hu _ _ _ _ _ _ _ _ h2]
      have had : ((provRun cfg (ops.take n)).par u).isSome = true := by
        cases hx : (provRun cfg (ops.take n)).par u with
        | some _ => rfl
        | none =>
          unfold Parsed at h3
          rw [authzParse_absent hpe hu _ _ _ h2 hx] at h3
          cases h3
      rw [if_pos had] at ih
      have := howMany_le_succ (AnsweredWithUri cfg ops u) n
      simp only [Option.isSome_none, Bool.false_eq_true, if_false]
      omega
    · rw [howMany_succ_neg hs]
      by_cases hnew : ((provStep cfg (provRun cfg (ops.take n)) op).par u).isSome = true
      · rw [if_pos hnew]
        cases hx : (provRun cfg (ops.take n)).par u with
        | some _ =>
          have := howMany_le_succ (AnsweredWithUri cfg ops u) n
          rw [hx] at ih
          simp only [Option.isSome_some, if_true] at ih
          omega
        | none =>
          obtain ⟨now, r, req, q, e, hv⟩ := par_new hnew hx
          rw [howMany_succ_pos ⟨now, r, req, q, by rw [ho, e], hv⟩]
          split at ih <;> omega
      · rw [if_neg hnew]
        have := howMany_le_succ (AnsweredWithUri cfg ops u) n
        split at ih <;> omega

/-- **C165**: in every history of HTTP requests, with restarts, whether or not pushed requests survive them: the authorization
requests with a given pushed request URI that are served are at most as many as the pushes that were answered with that URI
(one, if URNs are fresh). -/
theorem C165_served_at_most_once_per_push (cfg : ProvCfg) (hpe : cfg.sys.env.parEnabled = true) (ops : List HttpOp) (u : Str)
    (hu : c!"urn:uuid:".isPrefixOf u = true) :
    howMany (ServedForUri cfg ops u) ops.length ≤ howMany (AnsweredWithUri cfg ops u) ops.length := by
  have := uses_le hpe hu ops ops.length (Nat.le_refl _)
  omega

/-- **C165**, in terms of one URI: after an authorization request with it, whatever came of that, each further one is refused and
changes nothing, until a push is answered with the same URI. -/
theorem C165_second_use_refused (cfg : ProvCfg) (hpe : cfg.sys.env.parEnabled = true) (u : Str) (hu : c!"urn:uuid:".isPrefixOf u = true)
    (hist mid : List HttpOp) (now : Int) (gid : Str) (mc ma : MintIn) (idt : Out Str) (raw : Option Str) (ur : UserReq) (hr : ur.areq.requestUri = some u)
    (hm : ∀ i, ¬ AnsweredWithUri cfg (hist ++ [.authorize now gid mc ma idt raw ur] ++ mid) u (hist.length + 1 + i))
    (now' : Int) (gid' : Str) (mc' ma' : MintIn) (idt' : Out Str) (raw' : Option Str) (ur' : UserReq) (hr' : ur'.areq.requestUri = some u) :
    let st := provRun cfg (hist ++ [.authorize now gid mc ma idt raw ur] ++ mid)
    (authorizeEndpoint cfg st now' gid' mc' ma' idt' raw' ur') = (st.par, st.cdb, st.sys.store, .raise .valueError) ∧
    provStep cfg st (.authorize now' gid' mc' ma' idt' raw' ur') = st := by
  intro st
  have gone : st.par u = none := by
    change (provRun cfg (hist ++ [.authorize now gid mc ma idt raw ur] ++ mid)).par u = none
    clear st
    induction mid using snocInd with
    | nil => rw [List.append_nil, provRun_snoc]; exact authorize_consumes hpe hu _ _ _ _ _ _ _ _ hr
    | append_singleton l op ih =>
      have hl : ∀ i, ¬ AnsweredWithUri cfg (hist ++ [.authorize now gid mc ma idt raw ur] ++ l) u (hist.length + 1 + i) := by
        rintro i ⟨n, r, req, q, h1, h2⟩
        have hlt : hist.length + 1 + i < (hist ++ [HttpOp.authorize now gid mc ma idt raw ur] ++ l).length := by
          rcases Nat.lt_or_ge (hist.length + 1 + i) (hist ++ [HttpOp.authorize now gid mc ma idt raw ur] ++ l).length with h | h
          · exact h
          · rw [List.getElem?_eq_none h] at h1; cases h1
        refine hm i ⟨n, r, req, q, ?_, ?_⟩
        · rw [← List.append_assoc, List.getElem?_append_left hlt]; exact h1
        · rw [← List.append_assoc, List.take_append_of_le_length (by omega)]; exact h2
      have ih := ih hl
      rw [← List.append_assoc, provRun_snoc]
      cases hx : (provStep cfg (provRun cfg (hist ++ [.authorize now gid mc ma idt raw ur] ++ l)) op).par u with
      | none => rfl
      | some p =>
        exfalso
        obtain ⟨n, r, req, q, e, hv⟩ := par_new (by rw [hx]; rfl) ih
        refine hm l.length ⟨n, r, req, q, ?_, ?_⟩
        · rw [← List.append_assoc, List.getElem?_append_right (by simp; omega)]
          have hz : hist.length + 1 + l.length - (hist ++ [HttpOp.authorize now gid mc ma idt raw ur] ++ l).length = 0 := by simp; omega
          rw [hz, e]; rfl
        · rw [← List.append_assoc, List.take_append_of_le_length (by simp; omega), List.take_of_length_le (by simp; omega)]
          exact hv
  have hp := authzParse_absent hpe hu st.cdb st.par ur'.areq hr' gone
  have he : authorizeEndpoint cfg st now' gid' mc' ma' idt' raw' ur' = (st.par, st.cdb, st.sys.store, .raise .valueError) := by
    unfold authorizeEndpoint; rw [hp]
  refine ⟨he, ?_⟩
  simp only [provStep, he]

/-! ### The premises are met -/

def keepFetch : Str → Str → AuthReq → Except Exn AuthReq := fun _ _ r => .ok r

/-- A browser's request with the URN. -/
def onceUse (g : Str) : HttpOp := .authorize 1000 g (mintIn c!"n1") (mintIn c!"n2") (.val c!"idt") webCookie
  { areq := { demoReq [c!"code"] with requestUri := some urn1 } }

/-- `c1` pushes a request; browsers come with the URN twice; the second is refused. -/
def pushedOnceOps : List HttpOp := parOps (demoReq [c!"code"]) ++ [onceUse c!"g1", onceUse c!"g2"]

set_option maxRecDepth 32000 in
/-- The premises of C165 are met, and both counts are one: the push is answered, the first use is served. -/
example : (parCfg keepFetch).sys.env.parEnabled = true ∧ c!"urn:uuid:".isPrefixOf urn1 = true ∧
    AnsweredWithUri (parCfg keepFetch) pushedOnceOps urn1 2 ∧ ServedForUri (parCfg keepFetch) pushedOnceOps urn1 3 ∧
    ¬ ServedForUri (parCfg keepFetch) pushedOnceOps urn1 4 ∧ ∀ i, ¬ AnsweredWithUri (parCfg keepFetch) pushedOnceOps urn1 (4 + i) := by
  refine ⟨rfl, by decide, ?_, ?_, ?_, ?_⟩
  · have h : (outVal (pushEndpoint (parCfg keepFetch) (provRun (parCfg keepFetch) (pushedOnceOps.take 2)) 1000 webSecret (demoReq [c!"code"]) urn1).2.2).isSome = true := by
      decide
    cases hz : (pushEndpoint (parCfg keepFetch) (provRun (parCfg keepFetch) (pushedOnceOps.take 2)) 1000 webSecret (demoReq [c!"code"]) urn1).2.2 with
    | val q => exact ⟨_, _, _, q, rfl, hz⟩
    | errMsg e => rw [hz] at h; cases h
    | raise e => rw [hz] at h; cases h
  · have h : (parsedClient (parCfg keepFetch) (provRun (parCfg keepFetch) (pushedOnceOps.take 3)) { demoReq [c!"code"] with requestUri := some urn1 }) =
        some (c!"c1", some c!"https://rp/cb") := by decide
    obtain ⟨q, hq, _⟩ := parsedClient_some h
    exact ⟨_, _, _, _, _, _, _, q, rfl, rfl, hq⟩
  · rintro ⟨now, gid, mc, ma, idt, raw, ur, q, h1, h2, h3⟩
    cases h1
    have h : (parsedClient (parCfg keepFetch) (provRun (parCfg keepFetch) (pushedOnceOps.take 4)) { demoReq [c!"code"] with requestUri := some urn1 }) = none := by
      decide
    unfold parsedClient at h
    unfold Parsed at h3
    rw [h3] at h
    cases h
  · rintro i ⟨now, r, req, q, h1, h2⟩
    match i with
    | 0 => cases h1
    | i + 1 =>
      rw [List.getElem?_eq_none (by change 5 ≤ _; omega)] at h1
      cases h1

end Verif
