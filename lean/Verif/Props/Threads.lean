import Verif.Model.Threads
import Verif.Props.TokenHistory
set_option linter.unusedSimpArgs false
set_option linter.unusedVariables false
/-! Threads inside the token endpoint (C56). -/
namespace Verif
open Spec

/-- One more step of a thread. -/
def more (m : Mode) (env : Env) (i : TokIn) (req : TokReq) (x : Store × ThPc) : Store × ThPc := thStep m env i req x.1 x.2

/-- Four steps of one thread without interruption. -/
def fourSteps (m : Mode) (env : Env) (i : TokIn) (req : TokReq) (s : Store) : Store × ThPc :=
  more m env i req (more m env i req (more m env i req (more m env i req (s, .start))))

theorem more_done (m : Mode) (env : Env) (i : TokIn) (req : TokReq) (s : Store) (o : Out TokResp) :
    more m env i req (s, .done o) = (s, .done o) := rfl

theorem seen_own (m : Mode) {s : Store} {sid : Str} {g g0 : Grant} (h : s sid = some (.grant g)) (h0 : m = .byValue → g0 = g) :
    seen m s sid g0 = g := by
  cases m with
  | byValue => exact h0 rfl
  | aliased => simp [seen, h]

/-- The pieces, run without interruption, are `process_request` (for a code that is found in its grant). -/
theorem C56_pieces_are_process_request (m : Mode) (env : Env) (i : TokIn) (req : TokReq) (s : Store) (hn : NoEmpty s)
    (hfound : ∀ c sid g, req.code = some c → sessionByToken env.th env.cr s i.now (plusForBlank c) = .ok (sid, .grant g) →
      ∃ t, g.getToken (plusForBlank c) = some t) :
    fourSteps m env i req s = ((codeProcess env s i req).1, .done (codeProcess env s i req).2) := by
  have fin : ∀ s' o, more m env i req (s, .start) = (s', .done o) → codeProcess env s i req = (s', o) →
      fourSteps m env i req s = ((codeProcess env s i req).1, .done (codeProcess env s i req).2) := by
    intro s' o h1 h2
    unfold fourSteps
    rw [h1, h2, more_done, more_done, more_done]
  by_cases hgt : req.grantType ≠ some c!"authorization_code"
  · apply fin s (.errMsg c!"invalid_request")
    · simp only [more, thStep]; rw [if_pos hgt]
    · unfold codeProcess; rw [if_pos hgt]
  · cases hc : req.code with
    | none =>
      apply fin s (.errMsg c!"invalid_request")
      · simp only [more, thStep]; rw [if_neg hgt]; simp only [hc]
      · unfold codeProcess; rw [if_neg hgt]; simp only [hc]
    | some c0 =>
      cases hs : sessionByToken env.th env.cr s i.now (plusForBlank c0) with
      | error e =>
        apply fin s (.raise e)
        · simp only [more, thStep]; rw [if_neg hgt]; simp only [hc, hs]
        · unfold codeProcess; rw [if_neg hgt]; simp only [hc, hs]
      | ok x =>
        obtain ⟨sid, o⟩ := x
        cases o with
        | info _ =>
          apply fin s (.raise .attributeError)
          · simp only [more, thStep]; rw [if_neg hgt]; simp only [hc, hs]
          · unfold codeProcess; rw [if_neg hgt]; simp only [hc, hs]
        | grant g =>
          cases har : g.authReq with
          | none =>
            apply fin s (.raise .typeError)
            · simp only [more, thStep]; rw [if_neg hgt]; simp only [hc, hs, har]
            · unfold codeProcess; rw [if_neg hgt]; simp only [hc, hs, har]
          | some ar =>
            cases hrc : redirectCheck ar req with
            | raise e =>
              apply fin s (.raise e)
              · simp only [more, thStep]; rw [if_neg hgt]; simp only [hc, hs, har, hrc]
              · unfold codeProcess; rw [if_neg hgt]; simp only [hc, hs, har, hrc]
            | errMsg e =>
              apply fin s (.errMsg e)
              · simp only [more, thStep]; rw [if_neg hgt]; simp only [hc, hs, har, hrc]
              · unfold codeProcess; rw [if_neg hgt]; simp only [hc, hs, har, hrc]
            | val _ =>
              obtain ⟨t, ht⟩ := hfound c0 sid g hc hs
              obtain ⟨k1, k2, k3⟩ := sessionByToken_key hn hs
              have s1 : more m env i req (s, .start) =
                  (s, .looked sid g (plusForBlank c0) ar (decide (c!"offline_access" ∈ g.scope))) := by
                simp only [more, thStep]; rw [if_neg hgt]; simp only [hc, hs, har, hrc]
              have c1 : codeProcess env s i req = exchangeCode env s i sid g (some t) ar := by
                unfold codeProcess; rw [if_neg hgt]; simp only [hc, hs, har, hrc, ht]
              rw [c1]
              unfold fourSteps
              rw [s1]
              have e1 : seen m s sid g = g := seen_own m k2 (fun _ => rfl)
              unfold exchangeCode
              simp only
              cases hm : (mintAndStore env env.th.accessToken s i.now i.ma sid tAccessToken g (some t)).2.2 with
              | error e =>
                have s2 : more m env i req (s, .looked sid g (plusForBlank c0) ar (decide (c!"offline_access" ∈ g.scope))) =
                    ((mintAndStore env env.th.accessToken s i.now i.ma sid tAccessToken g (some t)).1, .done (.raise e)) := by
                  simp only [more, thStep, e1, ht, hm]
                rw [s2, more_done, more_done]
              | ok tok =>
                have s2 : more m env i req (s, .looked sid g (plusForBlank c0) ar (decide (c!"offline_access" ∈ g.scope))) =
                    ((mintAndStore env env.th.accessToken s i.now i.ma sid tAccessToken g (some t)).1,
                      .mintedA sid (mintAndStore env env.th.accessToken s i.now i.ma sid tAccessToken g (some t)).2.1
                        (plusForBlank c0) ar (decide (c!"offline_access" ∈ g.scope)) tok) := by
                  simp only [more, thStep, e1, ht, hm]
                rw [s2]
                obtain ⟨_, _, _, a4, _, _, _, _, _, _, _, _, a13⟩ := mintAndStore_ok hm
                generalize mintAndStore env env.th.accessToken s i.now i.ma sid tAccessToken g (some t) = M at *
                have hM : M.1 sid = some (.grant M.2.1) := by rw [a13]; exact mgrSet_own _ _ k3 _
                have e2 : seen m M.1 sid M.2.1 = M.2.1 := seen_own m hM (fun _ => rfl)
                have t2 : M.2.1.getToken (plusForBlank c0) = some t := by
                  unfold Grant.getToken; rw [a4]; exact findValue_append_left ht
                generalize decide (c!"offline_access" ∈ g.scope) = want at *
                simp only
                cases hr : (refreshPart env M.1 i sid M.2.1 (some t) want).2.2 with
                | error e =>
                  have s3 : more m env i req (M.1, .mintedA sid M.2.1 (plusForBlank c0) ar want tok) =
                      ((refreshPart env M.1 i sid M.2.1 (some t) want).1, .done (.raise e)) := by
                    simp only [more, thStep, e2, t2, hr]
                  rw [s3, more_done]
                | ok rt =>
                  have s3 : more m env i req (M.1, .mintedA sid M.2.1 (plusForBlank c0) ar want tok) =
                      ((refreshPart env M.1 i sid M.2.1 (some t) want).1,
                        .mintedR sid (refreshPart env M.1 i sid M.2.1 (some t) want).2.1 (plusForBlank c0) ar tok rt) := by
                    simp only [more, thStep, e2, t2, hr]
                  rw [s3]
                  have hR : (refreshPart env M.1 i sid M.2.1 (some t) want).1 sid =
                      some (.grant (refreshPart env M.1 i sid M.2.1 (some t) want).2.1) := by
                    unfold refreshPart at hr ⊢
                    cases want with
                    | true =>
                      simp only [if_true] at hr ⊢
                      cases hm2 : (mintAndStore env env.th.accessToken M.1 i.now i.mr sid tRefreshToken M.2.1 (some t)).2.2 with
                      | error e => simp [hm2, Except.map] at hr
                      | ok t2 =>
                        obtain ⟨_, _, _, _, _, _, _, _, _, _, _, _, a13⟩ := mintAndStore_ok hm2
                        rw [a13]
                        exact mgrSet_own _ _ k3 _
                    | false => exact hM
                  obtain ⟨b1, _⟩ := refreshPart_ok hr
                  generalize refreshPart env M.1 i sid M.2.1 (some t) want = R at *
                  have e3 : seen m R.1 sid R.2.1 = R.2.1 := seen_own m hR (fun _ => rfl)
                  have t3 : R.2.1.getToken (plusForBlank c0) = some t := by
                    unfold Grant.getToken; rw [b1]; exact findValue_append_left t2
                  simp only [more, thStep, e3, t3]

/-- The state in which two requests for the demo code are parsed and not yet processed. -/
def racedStore : Store := (sysRun (demoCfg .byValue) (demoOps.take 1)).store

/-- The access token a finished thread got. -/
def ThPc.token : ThPc → Option Str
  | .done (.val r) => some r.accessToken
  | _ => none

set_option maxRecDepth 4000 in
/-- C56 is false of the code, whatever the back end: under the schedule in which both threads look up the grant and mint
before either registers the use of the code, both get a token response (with different tokens). -/
theorem C56_two_threads_redeem_one_code (m : Mode) :
    tokParse demoEnv demoHelpers racedStore 2 demoTokReq = .val demoTokReq ∧
    ∃ sched t1 t2, (twoRun m demoEnv (tokIn 2 c!"n3" c!"n4") (tokIn 2 c!"n5" c!"n6") demoTokReq racedStore sched).a.token = some t1 ∧
      (twoRun m demoEnv (tokIn 2 c!"n3" c!"n4") (tokIn 2 c!"n5" c!"n6") demoTokReq racedStore sched).b.token = some t2 ∧ t1 ≠ t2 := by
  refine ⟨by decide, [true, false, true, false, true, false, true, false], demoRt 2 c!"n3", demoRt 2 c!"n5", ?_, ?_, by decide⟩ <;>
    cases m <;> decide

set_option maxRecDepth 4000 in
/-- Without interruption the second request fails, also in pieces. -/
example : (fun t : Two => (t.a.token.isSome, t.b.token.isSome))
    (twoRun .aliased demoEnv (tokIn 2 c!"n3" c!"n4") (tokIn 2 c!"n5" c!"n6") demoTokReq racedStore
      [true, true, true, true, false, false, false, false]) = (true, false) := by decide

end Verif
