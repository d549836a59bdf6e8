import Verif.Model.System
import Verif.Lemmas.CrashMoves
set_option linter.unusedSimpArgs false
set_option linter.unusedVariables false
/-! The last crash point of an operation is the storage that the operation leaves. -/
namespace Verif

theorem lastOf_nil (s : Store) : lastOf s [] = s := rfl

theorem lastOf_snoc (s x : Store) (l : List Store) : lastOf s (l ++ [x]) = x := by simp [lastOf]

theorem lastOf_append (s : Store) (l r : List Store) : lastOf s (l ++ r) = lastOf (lastOf s l) r := by
  unfold lastOf
  rw [List.getLast?_append]
  cases r.getLast? <;> simp

theorem setTrace_last (s : Store) (path : List Str) (v : Obj) : lastOf s (setTrace s path v) = (dbSet s path v).1 := by
  unfold setTrace dbSet
  cases evalPath path with
  | error e => rfl
  | ok t =>
    obtain ⟨u, c, g⟩ := t
    simp only
    generalize (if truthy c then dbSetClient (if truthy g then s.put (sessionKey [u, c.getD [], g.getD []]) v else s) u (c.getD []) g v
          else ((if truthy g then s.put (sessionKey [u, c.getD [], g.getD []]) v else s), .ok ())) = r
    cases hr : r.2 with
    | error e => rfl
    | ok _ => rfl

theorem mgrSetTrace_last (s : Store) (sid : Str) (v : Obj) : lastOf s (mgrSetTrace s sid v) = (mgrSet s sid v).1 :=
  setTrace_last s _ v

theorem delGrantsTrace_last (s : Store) (u c : Str) (gs : List Str) :
    lastOf s (delGrantsTrace s u c gs) = (dbDelGrants s u c gs).1 := by
  induction gs generalizing s with
  | nil => rfl
  | cons g gs ih =>
    unfold delGrantsTrace dbDelGrants
    cases hk : s (sessionKey [u, c, g]) with
    | none => rfl
    | some _ =>
      simp only
      rw [← List.singleton_append, lastOf_append]
      exact ih _

theorem deleteTrace_last (s : Store) (path : List Str) : lastOf s (deleteTrace s path) = (dbDelete .byValue s path).1 := by
  unfold deleteTrace dbDelete
  cases evalPath path with
  | error e => rfl
  | ok t =>
    obtain ⟨u, c, g⟩ := t
    simp only
    cases s u with
    | none => rfl
    | some ui =>
      simp only
      by_cases hc : truthy c = false
      · simp only [hc, if_true]; rfl
      · rw [Bool.not_eq_false] at hc
        simp only [hc, Bool.true_eq_false, if_false]
        cases ui.subordinate with
        | error e => rfl
        | ok usub =>
          simp only
          by_cases hm : c.getD [] ∈ usub
          · simp only [hm, not_true_eq_false, if_false]
            cases s (sessionKey [u, c.getD []]) with
            | none => rfl
            | some ci =>
              simp only
              cases ci.subordinate with
              | error e => rfl
              | ok csub =>
                simp only [reduceCtorEq, if_false]
                have hl := delGrantsTrace_last s u (c.getD []) csub
                by_cases hg : truthy g = true
                · simp only [hg, if_true]
                  by_cases hgm : g.getD [] ∈ csub
                  · simp only [hgm, if_true]
                    split <;> rfl
                  · simp only [hgm, if_false]
                    split <;> rfl
                · simp only [hg, Bool.false_eq_true, if_false]
                  cases hd : (dbDelGrants s u (c.getD []) csub).2 with
                  | error e => exact hl
                  | ok _ =>
                    simp only [if_true, hl, lastOf_append]; rfl
          · simp only [hm, not_false_eq_true, if_true]; rfl

theorem createGrantTrace_last (sf : SubFuncs) (s : Store) (now : Int) (gid u c : Str) (a : SessArgs) :
    lastOf s (createGrantTrace sf s now gid u c a) = (createGrant sf s now gid u c a).1 := by
  unfold createGrantTrace createGrant
  cases newGrant sf now gid u a with
  | error e => rfl
  | ok g =>
    simp only
    rw [setTrace_last]
    cases (dbSet s [u, c, gid] (.grant g)).2 <;> rfl

theorem ensureUserTrace_last (s : Store) (u : Str) : lastOf s (ensureUserTrace s u) = (ensureUser s u).1 := by
  unfold ensureUserTrace ensureUser
  cases dbGet s [u] with
  | ok _ => rfl
  | error e =>
    simp only
    split
    · exact setTrace_last _ _ _
    · rfl

theorem createSessionTrace_last (sf : SubFuncs) (s : Store) (now : Int) (gid u c : Str) (a : SessArgs) :
    lastOf s (createSessionTrace sf s now gid u c a) = (createSession sf s now gid u c a).1 := by
  unfold createSessionTrace createSession
  simp only
  rw [lastOf_append, ensureUserTrace_last]
  cases he : (ensureUser s u).2 with
  | error e => rfl
  | ok _ =>
    simp only
    generalize (if c = [] then a.authReq.clientId else c) = c'
    rw [lastOf_append, setTrace_last]
    cases hw : (dbSet (ensureUser s u).1 [u, c'] (.info (SessInfo.client c'))).2 with
    | error e => rfl
    | ok _ => exact createGrantTrace_last _ _ _ _ _ _ _

theorem addGrantTrace_last (s : Store) (now : Int) (gid u c : Str) (a : GrantArgs) :
    lastOf s (addGrantTrace s now gid u c a) = (addGrant s now gid u c a).1 := by
  unfold addGrantTrace addGrant
  simp only
  rw [lastOf_append, setTrace_last]
  cases hw : (dbSet s [u, c, gid] (.grant (Grant.new now gid { a with claims := [] }))).2 with
  | error e => rfl
  | ok _ =>
    simp only
    cases hd : dbGet (dbSet s [u, c, gid] (.grant (Grant.new now gid { a with claims := [] }))).1 [u, c] with
    | error e => rfl
    | ok o =>
      cases o with
      | grant g => rfl
      | info i =>
        simp only
        rw [setTrace_last]
        split <;> rfl

theorem revokeClientTrace_last (s : Store) (sid : Str) :
    lastOf s (revokeClientTrace s sid) = (revokeClientSession s sid).1 := by
  have go : ∀ u c, lastOf s (match dbGet s [u, c] with
      | .error _ => ([] : List Store)
      | .ok (.grant _) => []
      | .ok (.info i) => setTrace s [u, c] (.info i.revoke)) = (match dbGet s [u, c] with
      | .error e => ((s, .error e) : Store × Except Exn Unit)
      | .ok (.grant _) => (s, .error .typeError)
      | .ok (.info i) => dbSet s [u, c] (.info i.revoke)).1 := by
    intro u c
    cases dbGet s [u, c] with
    | error e => rfl
    | ok o =>
      cases o with
      | grant g => rfl
      | info i => exact setTrace_last _ _ _
  unfold revokeClientTrace revokeClientSession
  simp only
  match unpackSessionKey sid with
  | [] => rfl
  | [_] => rfl
  | [u, c] => exact go u c
  | [u, c, _] => exact go u c
  | _ :: _ :: _ :: _ :: _ => rfl

theorem revokeGrantTrace_last (s : Store) (sid : Str) : lastOf s (revokeGrantTrace s sid) = (revokeGrant s sid).1 := by
  unfold revokeGrantTrace revokeGrant
  cases dbGet s (unpackSessionKey sid) with
  | error e => rfl
  | ok o => exact setTrace_last _ _ _

theorem removeTrace_last (s : Store) (sid : Str) : lastOf s (removeTrace s sid) = (removeSession .byValue s sid).1 := by
  unfold removeTrace removeSession
  cases unpack3 sid with
  | error e => rfl
  | ok t => exact deleteTrace_last _ _

theorem mintTrace_last (env : Env) (h : Option Handler) (s : Store) (now : Int) (m : MintIn) (sid tt : Str) (g : Grant)
    (b : Option Token) : lastOf s (mintTrace env h s now m sid tt g b) = (mintAndStore env h s now m sid tt g b).1 := by
  unfold mintTrace
  cases hr : (g.mintToken now m.id tt b (some ((g.usageRules.get? tt).getD {})) [] {} (tokenString env h now m sid)).2 with
  | error e => simp [mintAndStore, hr, lastOf_nil]
  | ok o =>
    cases o with
    | none => simp [mintAndStore, hr, lastOf_nil]
    | some t =>
      simp only
      rw [mgrSetTrace_last]
      unfold mintAndStore
      simp only [hr]
      split <;> simp_all

theorem refreshPartTrace_last (env : Env) (s : Store) (i : TokIn) (sid : Str) (g : Grant) (b : Option Token) (want : Bool) :
    lastOf s (refreshPartTrace env s i sid g b want) = (refreshPart env s i sid g b want).1 := by
  unfold refreshPartTrace refreshPart
  cases want with
  | true => exact mintTrace_last _ _ _ _ _ _ _ _ _
  | false => rfl

theorem finishCodeTrace_last (s : Store) (i : TokIn) (sid : Str) (g : Grant) (b : Option Token) (ar : AuthReq) (tok : Token)
    (rt : Option Token) : lastOf s (finishCodeTrace s sid g b) = (finishCode s i sid g b ar tok rt).1 := by
  unfold finishCodeTrace finishCode
  cases b with
  | none => rfl
  | some b =>
    simp only
    rw [mgrSetTrace_last]
    cases (mgrSet s sid (.grant (g.registerUsage b.value))).2 with
    | error e => rfl
    | ok _ =>
      simp only
      cases idTokenFor (decide (c!"openid" ∈ ar.scope)) i.idt <;> rfl

theorem exchangeCodeTrace_last (env : Env) (s : Store) (i : TokIn) (sid : Str) (g : Grant) (b : Option Token) (ar : AuthReq) :
    lastOf s (exchangeCodeTrace env s i sid g b) = (exchangeCode env s i sid g b ar).1 := by
  unfold exchangeCodeTrace exchangeCode
  simp only
  rw [lastOf_append, mintTrace_last]
  cases (mintAndStore env env.th.accessToken s i.now i.ma sid tAccessToken g b).2.2 with
  | error e => rfl
  | ok tok =>
    simp only
    rw [lastOf_append, refreshPartTrace_last]
    generalize refreshPart env (mintAndStore env env.th.accessToken s i.now i.ma sid tAccessToken g b).1 i sid
      (mintAndStore env env.th.accessToken s i.now i.ma sid tAccessToken g b).2.1 b (decide (c!"offline_access" ∈ g.scope)) = R
    cases R.2.2 with
    | error e => rfl
    | ok rt => exact finishCodeTrace_last _ _ _ _ _ _ _ _

theorem newRefresh_byValue (env : Env) (s : Store) (i : TokIn) (sid : Str) (g : Grant) (b : Token) (want : Bool) :
    (newRefresh .byValue env s i sid g b want).1 = (refreshPart env s i sid g (some b) want).1 := by
  unfold newRefresh touch
  simp only
  split <;> rfl

theorem exchangeRefreshTrace_last (env : Env) (s : Store) (i : TokIn) (sid : Str) (g : Grant) (b : Option Token) :
    lastOf s (exchangeRefreshTrace env s i sid g b) = (exchangeRefresh .byValue env s i sid g b).1 := by
  unfold exchangeRefreshTrace exchangeRefresh
  simp only
  rw [lastOf_append, mintTrace_last]
  cases (mintAndStore env env.th.accessToken s i.now i.ma sid tAccessToken g b).2.2 with
  | error e => rfl
  | ok tok =>
    simp only
    cases b with
    | none => rfl
    | some b =>
      simp only
      cases b.usageRules.supportsMinting with
      | none => rfl
      | some mints =>
        simp only
        rw [refreshPartTrace_last, ← newRefresh_byValue]
        split
        · rfl
        · rw [finishRefresh_store]

theorem tokTrace_last (env : Env) (helpers : Dict Helper) (s : Store) (i : TokIn) (req : TokReq) :
    lastOf s (tokTrace env helpers s i req) = (tokProcess .byValue env helpers s i req).1 := by
  have h : (tokProcess .byValue env helpers s i req).1 = (helperProcess .byValue env helpers s i req).1 := by
    unfold tokProcess
    simp only
    cases (helperProcess .byValue env helpers s i req).2 with
    | raise e => rfl
    | errMsg e => rfl
    | val resp =>
      simp only
      cases sessionByToken env.th env.cr (helperProcess .byValue env helpers s i req).1 i.now resp.accessToken with
      | error e => rfl
      | ok x =>
        obtain ⟨sid, o⟩ := x
        cases o <;> rfl
  rw [h]
  unfold tokTrace helperProcess
  cases req.grantType with
  | none => rfl
  | some gt =>
    simp only
    cases helpers.get? gt with
    | none => rfl
    | some hc =>
      cases hc with
      | bare c => rfl
      | inst c =>
        cases c with
        | accessToken =>
          simp only
          unfold codeTrace codeProcess
          split
          · rfl
          · cases req.code with
            | none => rfl
            | some c0 =>
              simp only
              cases sessionByToken env.th env.cr s i.now (plusForBlank c0) with
              | error e => rfl
              | ok x =>
                obtain ⟨sid, o⟩ := x
                cases o with
                | info _ => rfl
                | grant g =>
                  simp only
                  cases g.authReq with
                  | none => rfl
                  | some ar =>
                    simp only
                    cases redirectCheck ar req with
                    | raise e => rfl
                    | errMsg e => rfl
                    | val _ => exact exchangeCodeTrace_last _ _ _ _ _ _ _
        | refreshToken =>
          simp only
          unfold refreshTrace refreshProcess
          split
          · rfl
          · cases req.refreshToken with
            | none => rfl
            | some v =>
              simp only
              cases sessionByToken env.th env.cr s i.now v with
              | error e => rfl
              | ok x =>
                obtain ⟨sid, o⟩ := x
                cases o with
                | info _ => rfl
                | grant g => exact exchangeRefreshTrace_last _ _ _ _ _ _

theorem startSessionTrace_last (env : Env) (cdb : Cdb) (s : Store) (now : Int) (gid : Str) (req : AuthReq) (a : AuthnIn)
    (uid : Str) : lastOf s (startSessionTrace env cdb s now gid req a uid) = (startSession env cdb s now gid req a uid).1 := by
  unfold startSessionTrace startSession
  simp only
  rw [createSessionTrace_last]
  generalize createSession env.sf s now gid uid req.clientId _ = R
  cases R.2 <;> rfl

theorem setupTrace_last (env : Env) (cdb : Cdb) (s : Store) (now : Int) (gid : Str) (req : AuthReq) (a : AuthnIn) :
    lastOf s (setupTrace env cdb s now gid req a) = (setupAuth env cdb s now gid req a).1 := by
  unfold setupTrace setupAuth
  cases a.ident with
  | nobody => rfl
  | plain uid =>
    simp only
    split
    · rfl
    · split
      · rfl
      · exact startSessionTrace_last _ _ _ _ _ _ _ _
  | decoded uid sid0 =>
    simp only
    cases sid0 with
    | none => rfl
    | some sid0 =>
      simp only
      cases mgrGet s sid0 with
      | error e => rfl
      | ok o =>
        cases o with
        | info i => rfl
        | grant g0 =>
          simp only
          split
          · rfl
          · split
            · rfl
            · cases uid with
              | none => rfl
              | some uid =>
                simp only
                split
                · rfl
                · cases unpack3 sid0 with
                  | error e => rfl
                  | ok t =>
                    obtain ⟨u1, c1, g1⟩ := t
                    simp only
                    split
                    · rfl
                    · generalize hR : (if g0.authReq = some req then (s, Out.val sid0) else _ : Store × Out Str) = R
                      have hl : lastOf s (if g0.authReq = some req then []
                          else match eventValid now g0.authnEvent with
                            | .ok true => createGrantTrace env.sf s now gid uid req.clientId
                                { authnEvent := g0.authnEvent, authReq := req }
                            | _ => []) = R.1 := by
                        rw [← hR]
                        split
                        · rfl
                        · cases eventValid now g0.authnEvent with
                          | error e => rfl
                          | ok b =>
                            cases b with
                            | false => rfl
                            | true =>
                              simp only
                              rw [createGrantTrace_last]
                              split <;> rfl
                      refine Eq.trans hl ?_
                      cases R.2 with
                      | raise e => rfl
                      | errMsg e => rfl
                      | val sid' =>
                        simp only
                        cases getAuthnEvent R.1 sid' with
                        | error e => rfl
                        | ok ev =>
                          simp only
                          cases eventValid now ev with
                          | error e => rfl
                          | ok b => cases b <;> rfl

theorem authzTrace_last (env : Env) (cdb : Cdb) (s : Store) (now : Int) (gid : Str) (mc ma : MintIn) (idt : Out Str)
    (a : AuthnIn) (req : AuthReq) :
    lastOf s (authzTrace env cdb s now gid mc ma idt a req) = (authzProcess env cdb s now gid mc ma idt a req).2.1 := by
  have hcode : ∀ s sid g, lastOf s (codePartTrace env s now mc sid g req) = (codePart env s now mc sid g req).1 := by
    intro s sid g
    unfold codePartTrace codePart
    split
    · exact mintTrace_last _ _ _ _ _ _ _ _ _
    · rfl
  have htok : ∀ s sid g code, lastOf s (tokenPartTrace env s now ma sid g code req) = (tokenPart env s now ma sid g code req).1 := by
    intro s sid g code
    unfold tokenPartTrace tokenPart
    split
    · exact mintTrace_last _ _ _ _ _ _ _ _ _
    · rfl
  have hid : ∀ s sid, lastOf s (idTokenPartTrace s idt sid req) = (idTokenPart s idt sid req).1 := by
    intro s sid
    unfold idTokenPartTrace idTokenPart
    split
    · cases idt with
      | raise e => rfl
      | errMsg e => rfl
      | val i =>
        simp only
        cases unpack3 sid with
        | error e => rfl
        | ok t =>
          obtain ⟨u, c, gi⟩ := t
          simp only
          cases dbGet s [u, c] with
          | error e => rfl
          | ok o =>
            simp only
            rw [setTrace_last]
            split <;> rfl
    · rfl
  have hresp : ∀ s sid, lastOf s (responseTrace env s now mc ma idt req sid) = (createAuthnResponse env s now mc ma idt req sid).1 := by
    intro s sid
    unfold responseTrace createAuthnResponse
    split
    · rfl
    · cases getGrant s sid with
      | error e => rfl
      | ok g =>
        simp only
        rw [lastOf_append, hcode]
        cases (codePart env s now mc sid g req).2.2 with
        | error e => rfl
        | ok code =>
          simp only
          rw [lastOf_append, htok]
          cases (tokenPart env (codePart env s now mc sid g req).1 now ma sid (codePart env s now mc sid g req).2.1 code req).2.2 with
          | error e => rfl
          | ok tok =>
            simp only
            rw [hid]
            split <;> try rfl
            split <;> rfl
  have hpart : ∀ s sid, lastOf s (part2Trace env cdb s now mc ma idt req sid) = (authzPart2 env cdb s now mc ma idt req sid).2.1 := by
    intro s sid
    unfold part2Trace authzPart2
    cases getGrant s sid with
    | error e => rfl
    | ok g =>
      simp only
      cases unpack3 sid with
      | error e => rfl
      | ok t =>
        obtain ⟨u, c, gi⟩ := t
        simp only
        cases (authzCall env.gc env.ccfg cdb now c g req).2 with
        | error e => rfl
        | ok g' =>
          simp only
          rw [lastOf_append, setTrace_last]
          cases (dbSet s [u, c, gi] (.grant g')).2 with
          | error e => rfl
          | ok _ =>
            simp only
            rw [hresp]
            cases (createAuthnResponse env (dbSet s [u, c, gi] (.grant g')).1 now mc ma idt req sid).2 with
            | error e => rfl
            | ok cf =>
              obtain ⟨content, frag⟩ := cf
              simp only
              split <;> try rfl
              split <;> rfl
  unfold authzTrace authzProcess
  cases cdb req.clientId with
  | none => rfl
  | some c =>
    simp only
    split
    · rfl
    · rw [lastOf_append, setupTrace_last]
      cases (setupAuth env cdb s now gid req a).2 with
      | raise e => rfl
      | errMsg e => rfl
      | val x =>
        cases x with
        | login => rfl
        | loginRequired => rfl
        | session sid u => exact hpart _ _

/-- **The crash points of an operation lead to its effect**: with a storage of copies, after the last of the listed writes
the storage is the one the operation leaves. -/
theorem stepTrace_last (cfg : SysCfg) (hm : cfg.mode = .byValue) (st : Sys) (op : SysOp) :
    lastOf st.store (stepTrace cfg st op) = (sysStep cfg st op).store := by
  cases op with
  | authorize cdb now gid mc ma idt a req => exact authzTrace_last _ _ _ _ _ _ _ _ _ _
  | tokParse now req =>
    simp only [stepTrace, sysStep]
    cases tokParse cfg.env cfg.helpers st.store now req <;> rfl
  | tokProcess i req =>
    simp only [stepTrace, sysStep, hm]
    split
    · exact tokTrace_last _ _ _ _ _
    · rfl
  | createSession now gid u c a => exact createSessionTrace_last _ _ _ _ _ _ _
  | createGrant now gid u c a => exact createGrantTrace_last _ _ _ _ _ _ _
  | addGrant now gid u c a => exact addGrantTrace_last _ _ _ _ _ _
  | revokeToken limit sid v r =>
    simp only [stepTrace, sysStep, hm, revokeToken, lastOf_nil]
    split <;> try rfl
    
  | revokeGrant sid => exact revokeGrantTrace_last _ _
  | revokeClientSession sid => exact revokeClientTrace_last _ _
  | removeSession sid => simp only [stepTrace, sysStep, hm]; exact removeTrace_last _ _
  | delete path => simp only [stepTrace, sysStep, hm]; exact deleteTrace_last _ _
  | crash op n => simp only [stepTrace, sysStep, hm]

end Verif
