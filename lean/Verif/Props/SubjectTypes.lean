import Verif.Props.AuthzSession
/-! C146: the subject identifiers of sessions made through the session API. -/
namespace Verif
open Spec

/-- **C146**: a session made for subject type "public" has the subject identifier `hash(uid ++ salt)`, one for "pairwise"
`hash(uid ++ sector ++ salt)` with the sector of the request, one for "ephemeral" a fresh random one, and each type is one's own function
where the application gives one; the session can be read back and is the one of that user, client and grant. -/
theorem C146_subject_of_type (hash : Str → Str) (salt eph : Str) (conf : SubFuncs) (s : Store) (ht : Tree s) (now : Int)
    (gid u c : Str) (hg : GoodId gid) (hu : GoodId u) (hc : GoodId c) (a : SessArgs)
    (hty : a.subType ∈ [c!"public", c!"pairwise", c!"ephemeral"] ∨ (conf a.subType).isSome = true) :
    ∃ s' gr, createSession (configuredSubFuncs hash salt eph conf) s now gid u c a = (s', .ok (sessionKey [u, c, gid])) ∧
      getGrant s' (sessionKey [u, c, gid]) = .ok gr ∧
      (conf a.subType = none → a.subType = c!"public" → gr.sub = hash (u ++ salt)) ∧
      (conf a.subType = none → a.subType = c!"pairwise" → ∀ x, a.authReq.sectorIdentifierUri = some x → gr.sub = hash (u ++ x ++ salt)) ∧
      (conf a.subType = none → a.subType = c!"ephemeral" → gr.sub = eph) ∧
      (∀ f, conf a.subType = some f → gr.sub = f u a.authReq.sectorIdentifierUri) := by
  have hf : ∃ f, configuredSubFuncs hash salt eph conf a.subType = some f := by
    unfold configuredSubFuncs
    cases hcf : conf a.subType with
    | some f => exact ⟨f, rfl⟩
    | none =>
      rcases hty with h | h
      · simp only [List.mem_cons, List.not_mem_nil, or_false] at h
        rcases h with h | h | h <;> rw [h] <;> exact ⟨_, rfl⟩
      · rw [hcf] at h; cases h
  obtain ⟨f, hf⟩ := hf
  obtain ⟨s', gr, h1, h2, h3, h4, _, h6, _⟩ := C15_created_session_usable_partial (configuredSubFuncs hash salt eph conf) s ht now gid u c a hg hu c
    (by simp [hc.1]) hc f hf
  refine ⟨s', gr, h1, h2, fun hcf hp => ?_, fun hcf hp x hx => ?_, fun hcf hp => ?_, fun f' hf' => ?_⟩
  · unfold configuredSubFuncs at hf
    rw [hp] at hcf hf
    simp only [hcf] at hf
    cases hf
    exact h6
  · unfold configuredSubFuncs at hf
    rw [hp] at hcf hf
    simp only [hcf] at hf
    cases hf
    rw [h6, hx]
    rfl
  · unfold configuredSubFuncs at hf
    rw [hp] at hcf hf
    simp only [hcf] at hf
    cases hf
    exact h6
  · unfold configuredSubFuncs at hf
    simp only [hf'] at hf
    cases hf
    exact h6

/-- **C146**: for any other type the session is not made: KeyError, and no grant is added. -/
theorem C146_unknown_type (hash : Str → Str) (salt eph : Str) (conf : SubFuncs) (s : Store) (ht : Tree s) (now : Int)
    (gid u c : Str) (hu : GoodId u) (hc : GoodId c) (a : SessArgs)
    (hty : a.subType ∉ [c!"public", c!"pairwise", c!"ephemeral"]) (hcf : conf a.subType = none) :
    (createSession (configuredSubFuncs hash salt eph conf) s now gid u c a).2 = .error .keyError ∧
    ∀ u' c' g', GoodId u' → GoodId c' → GoodId g' →
      (createSession (configuredSubFuncs hash salt eph conf) s now gid u c a).1.at [u', c', g'] = s.at [u', c', g'] := by
  have hf : configuredSubFuncs hash salt eph conf a.subType = none := by
    simp only [List.mem_cons, List.not_mem_nil, or_false, not_or] at hty
    unfold configuredSubFuncs defaultSubFuncs
    simp only [hcf, hty.1, hty.2.1, hty.2.2, if_false]
  obtain ⟨s1, e1, t1, a1⟩ := createSession_user ht hu
  obtain ⟨s2, e2, a2⟩ := dbSet2 s1 (.info (SessInfo.client c)) hu hc (t1.typed.user' hu)
  have e : createSession (configuredSubFuncs hash salt eph conf) s now gid u c a = (s2, .error .keyError) := by
    unfold createSession
    rw [e1]
    simp only [hc.1, if_false, e2]
    unfold createGrant newGrant
    simp only [hf]
  rw [e]
  refine ⟨rfl, fun u' c' g' hu' hc' hg' => ?_⟩
  have q := goodPath_three hu' hc' hg'
  dsimp only
  rw [a2 _ q, a1 _ q]
  simp

/-- Three sessions of one user with the three types, and an unknown type. -/
example :
    let sf := configuredSubFuncs (fun x => x) c!"/salt" c!"random" (fun _ => none)
    let ar : AuthReq := { demoReq [c!"code"] with sectorIdentifierUri := some c!"@sector" }
    let sub := fun ty => match createSession sf Store.empty 1 c!"g1" c!"diana" c!"c1" { authReq := ar, subType := ty } with
      | (s', .ok sid) => (getGrant s' sid).toOption.map fun (g : Grant) => g.sub
      | _ => none
    [c!"public", c!"pairwise", c!"ephemeral", c!"other"].map sub =
      [some c!"diana/salt", some c!"diana@sector/salt", some c!"random", none] := by decide

end Verif
