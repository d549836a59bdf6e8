import Verif.Model.Pieces
set_option linter.unusedSimpArgs false
set_option linter.unusedVariables false
/-! The programs of `Model/Pieces.lean`, run without interruption, are the functions of the model. -/
namespace Verif

theorem run_ret {α : Type} (a : α) (s : Store) : (Prog.ret a).run s = (s, a) := rfl
theorem run_read {α : Type} (k : Str) (f : Option Obj → Prog α) (s : Store) : (Prog.read k f).run s = (f (s k)).run s := rfl
theorem run_write_some {α : Type} (k : Str) (v : Obj) (p : Prog α) (s : Store) : (Prog.write k (some v) p).run s = p.run (s.put k v) := rfl
theorem run_write_none {α : Type} (k : Str) (p : Prog α) (s : Store) : (Prog.write k none p).run s = p.run (s.del k) := rfl
theorem run_bind {α β : Type} (p : Prog α) (f : α → Prog β) (s : Store) : (p.bind f).run s = (f (p.run s).2).run (p.run s).1 := by
  induction p generalizing s with
  | ret a => rfl
  | read k h ih => exact ih _ _
  | write k v p ih => exact ih _

theorem getP_run (path : List Str) (s : Store) : (getP path).run s = (s, dbGet s path) := by
  unfold getP dbGet
  cases evalPath path with
  | error e => rfl
  | ok x =>
    obtain ⟨u, c, g⟩ := x
    simp only [run_read]
    cases s u with
    | none => rfl
    | some ui =>
      cases c with
      | none => rfl
      | some c =>
        simp only
        cases ui.subordinate with
        | error e => rfl
        | ok usub =>
          simp only
          split
          · rfl
          · simp only [run_read]
            cases s (sessionKey [u, c]) with
            | none => rfl
            | some ci =>
              cases g with
              | none => rfl
              | some g =>
                simp only
                cases ci.subordinate with
                | error e => rfl
                | ok csub =>
                  simp only
                  split
                  · rfl
                  · simp only [run_read]
                    cases s (sessionKey [u, c, g]) <;> rfl

theorem setClientP_run (u c : Str) (g : Option Str) (v : Obj) (s : Store) : (setClientP u c g v).run s = dbSetClient s u c g v := by
  unfold setClientP dbSetClient
  simp only [run_read]
  match g with
  | none => rfl
  | some [] => rfl
  | some (g0 :: gs) =>
    simp only
    cases s (sessionKey [u, c]) with
    | none => rfl
    | some o => cases o with
      | grant _ => rfl
      | info i => simp only; split <;> rfl

theorem setUserP_run (u : Str) (c : Option Str) (v : Obj) (s : Store) : (setUserP u c v).run s = dbSetUser s u c v := by
  unfold setUserP dbSetUser
  simp only [run_read]
  match c with
  | none => rfl
  | some [] => rfl
  | some (c0 :: cs) =>
    simp only
    cases s u with
    | none => rfl
    | some o => cases o with
      | grant _ => rfl
      | info i => simp only; split <;> rfl

theorem setRestP_run (u : Str) (c g : Option Str) (v : Obj) (s : Store) : (setRestP u c g v).run s =
    (let r := if truthy c then dbSetClient s u (c.getD []) g v else (s, .ok ())
     match r.2 with
     | .error e => (r.1, .error e)
     | .ok () => dbSetUser r.1 u c v) := by
  unfold setRestP
  rw [run_bind]
  cases truthy c with
  | true =>
    simp only [if_true, setClientP_run]
    generalize dbSetClient s u (c.getD []) g v = w
    obtain ⟨w1, w2⟩ := w
    cases w2 with
    | error e => rfl
    | ok x => exact setUserP_run ..
  | false => simp only [Bool.false_eq_true, if_false, run_ret]; exact setUserP_run ..

theorem setP_run (path : List Str) (v : Obj) (s : Store) : (setP path v).run s = dbSet s path v := by
  unfold setP dbSet
  cases evalPath path with
  | error e => rfl
  | ok x =>
    obtain ⟨u, c, g⟩ := x
    simp only
    cases truthy g with
    | true => simp only [if_true, run_write_some]; exact setRestP_run ..
    | false => simp only [Bool.false_eq_true, if_false]; exact setRestP_run ..

theorem createGrantP_run (sf : SubFuncs) (now : Int) (gid u c : Str) (a : SessArgs) (s : Store) :
    (createGrantP sf now gid u c a).run s = createGrant sf s now gid u c a := by
  unfold createGrantP createGrant
  cases newGrant sf now gid u a with
  | error e => rfl
  | ok g =>
    simp only [run_bind, setP_run]
    generalize dbSet s [u, c, gid] (.grant g) = w
    obtain ⟨w1, w2⟩ := w
    cases w2 <;> rfl

theorem ensureUserP_run (u : Str) (s : Store) : (ensureUserP u).run s = ensureUser s u := by
  unfold ensureUserP ensureUser
  rw [run_bind, getP_run]
  simp only
  cases dbGet s [u] with
  | ok o => rfl
  | error e => simp only; split
               · exact setP_run ..
               · rfl

theorem createSessionP_run (sf : SubFuncs) (now : Int) (gid u c : Str) (a : SessArgs) (s : Store) :
    (createSessionP sf now gid u c a).run s = createSession sf s now gid u c a := by
  unfold createSessionP createSession
  rw [run_bind, ensureUserP_run]
  generalize ensureUser s u = w
  obtain ⟨w1, w2⟩ := w
  cases w2 with
  | error e => rfl
  | ok x =>
    simp only [run_bind, setP_run]
    generalize dbSet w1 _ _ = w
    obtain ⟨w1, w2⟩ := w
    cases w2 with
    | error e => rfl
    | ok x => exact createGrantP_run ..

theorem mgrGetP_run (sid : Str) (s : Store) : (mgrGetP sid).run s = (s, mgrGet s sid) := getP_run _ _
theorem mgrSetP_run (sid : Str) (v : Obj) (s : Store) : (mgrSetP sid v).run s = mgrSet s sid v := setP_run _ _ _

theorem getGrantP_run (sid : Str) (s : Store) : (getGrantP sid).run s = (s, getGrant s sid) := by
  unfold getGrantP getGrant
  cases unpack3 sid with
  | error e => rfl
  | ok x =>
    obtain ⟨u, c, g⟩ := x
    simp only [run_bind, getP_run]
    cases dbGet s [u, c, g] with
    | error e => rfl
    | ok o => cases o <;> rfl

theorem byTokenP_run (th : TokenHandler) (cr : TokenCrypto) (now : Int) (v : Str) (s : Store) :
    (byTokenP th cr now v).run s = (s, sessionByToken th cr s now v) := by
  unfold byTokenP sessionByToken
  cases th.sid cr now v with
  | error e => rfl
  | ok sid =>
    simp only
    cases unpack3 sid with
    | error e => rfl
    | ok x =>
      obtain ⟨u, c, g⟩ := x
      simp only [run_bind, getP_run]
      cases dbGet s [u, c, g] <;> rfl

theorem revokeClientAtP_run (u c : Str) (s : Store) : (revokeClientAtP u c).run s =
    (match dbGet s [u, c] with
     | .error e => (s, .error e)
     | .ok (.grant _) => (s, .error .typeError)
     | .ok (.info i) => dbSet s [u, c] (.info i.revoke)) := by
  unfold revokeClientAtP
  rw [run_bind, getP_run]
  simp only
  cases dbGet s [u, c] with
  | error e => rfl
  | ok o => cases o with
    | grant _ => rfl
    | info i => exact setP_run ..

theorem revokeClientP_run (sid : Str) (s : Store) : (revokeClientP sid).run s = revokeClientSession s sid := by
  unfold revokeClientP revokeClientSession
  match unpackSessionKey sid with
  | [] => rfl
  | [_] => rfl
  | [u, c] => exact revokeClientAtP_run ..
  | [u, c, _] => exact revokeClientAtP_run ..
  | _ :: _ :: _ :: _ :: _ => rfl

theorem revokeGrantP_run (sid : Str) (s : Store) : (revokeGrantP sid).run s = revokeGrant s sid := by
  unfold revokeGrantP revokeGrant
  rw [run_bind, getP_run]
  simp only
  cases dbGet s (unpackSessionKey sid) with
  | error e => rfl
  | ok o => exact setP_run ..

theorem addGrantP_run (now : Int) (gid u c : Str) (a : GrantArgs) (s : Store) : (addGrantP now gid u c a).run s = addGrant s now gid u c a := by
  unfold addGrantP addGrant
  simp only [run_bind, setP_run]
  generalize dbSet s [u, c, gid] _ = w
  obtain ⟨w1, w2⟩ := w
  cases w2 with
  | error e => rfl
  | ok x =>
    simp only [run_bind, getP_run]
    cases dbGet w1 [u, c] with
    | error e => rfl
    | ok o => cases o with
      | grant _ => rfl
      | info i =>
        simp only [run_bind, setP_run]
        generalize dbSet w1 [u, c] _ = w
        obtain ⟨w1, w2⟩ := w
        cases w2 <;> rfl

theorem revokeTokenP_run (m : Mode) (limit : Nat) (sid value : Str) (r : Bool) (s : Store) :
    (revokeTokenP m limit sid value r).run s = revokeToken m s limit sid value r := by
  unfold revokeTokenP revokeToken findToken
  cases unpack3 sid with
  | error e => rfl
  | ok x =>
    obtain ⟨u, c, g⟩ := x
    simp only [run_bind, getP_run]
    cases dbGet s [u, c, g] with
    | error e => rfl
    | ok o => cases o with
      | info _ => rfl
      | grant gr =>
        simp only
        cases gr.getToken value with
        | none => rfl
        | some t => simp only; cases m <;> rfl

theorem delGrantsP_run (u c : Str) (l : List Str) (s : Store) : (delGrantsP u c l).run s = dbDelGrants s u c l := by
  induction l generalizing s with
  | nil => rfl
  | cons g gs ih =>
    unfold delGrantsP dbDelGrants
    simp only [run_read]
    cases s (sessionKey [u, c, g]) with
    | none => rfl
    | some o => simp only [run_write_none]; exact ih _

theorem delUserPartP_run (u : Str) (ui : Obj) (l : List Str) (s : Store) : (delUserPartP u ui l).run s = (dbDelUserPart s u ui l, .ok ()) := by
  unfold delUserPartP dbDelUserPart
  split <;> rfl

theorem deleteP_run (m : Mode) (path : List Str) (s : Store) : (deleteP m path).run s = dbDelete m s path := by
  unfold deleteP dbDelete
  cases evalPath path with
  | error e => rfl
  | ok x =>
    obtain ⟨u, c, g⟩ := x
    simp only [run_read]
    cases s u with
    | none => rfl
    | some ui =>
      simp only
      split
      · rfl
      · cases ui.subordinate with
        | error e => rfl
        | ok usub =>
          simp only
          split
          · rfl
          · simp only [run_read]
            cases s (sessionKey [u, c.getD []]) with
            | none => exact delUserPartP_run ..
            | some ci =>
              simp only
              cases ci.subordinate with
              | error e => rfl
              | ok csub =>
                simp only
                have after : ∀ s' l, (afterGrantP u (c.getD []) ui ci usub l).run s' =
                    if l = [] then (dbDelUserPart (s'.del (sessionKey [u, c.getD []])) u ui (usub.erase (c.getD [])), .ok ())
                    else (dbDelUserPart (s'.put (c.getD []) (ci.setSubordinate l)) u ui usub, .ok ()) := by
                  intro s' l
                  unfold afterGrantP
                  split
                  · rw [run_write_none, delUserPartP_run]
                  · rw [run_write_some, delUserPartP_run]
                cases truthy g with
                | true =>
                  simp only [if_true]
                  unfold removeGrantP
                  split
                  · rw [run_write_none]
                    cases m with
                    | aliased => simp only [if_true, run_write_some]; rw [after]
                    | byValue => simp only [reduceCtorEq, if_false]; rw [after]
                  · rw [after]
                | false =>
                  simp only [Bool.false_eq_true, if_false]
                  unfold delClientP
                  rw [run_bind, delGrantsP_run]
                  generalize dbDelGrants s u (c.getD []) csub = w
                  obtain ⟨w1, w2⟩ := w
                  cases w2 with
                  | error e => rfl
                  | ok x => simp only [run_write_none, delUserPartP_run, if_true]

theorem removeSessionP_run (m : Mode) (sid : Str) (s : Store) : (removeSessionP m sid).run s = removeSession m s sid := by
  unfold removeSessionP removeSession
  cases unpack3 sid with
  | error e => rfl
  | ok x => obtain ⟨u, c, g⟩ := x; exact deleteP_run ..

theorem mintP_run (env : Env) (h : Option Handler) (now : Int) (m : MintIn) (sid tt : Str) (g : Grant) (b : Option Token) (s : Store) :
    (mintP env h now m sid tt g b).run s = mintAndStore env h s now m sid tt g b := by
  unfold mintP mintAndStore
  simp only
  generalize g.mintToken now m.id tt b _ _ _ _ = r
  obtain ⟨r1, r2⟩ := r
  cases r2 with
  | error e => rfl
  | ok o => cases o with
    | none => rfl
    | some t =>
      simp only [run_bind, mgrSetP_run]
      generalize mgrSet s sid _ = w
      obtain ⟨w1, w2⟩ := w
      cases w2 <;> rfl

theorem mintIfP_run (want : Bool) (env : Env) (h : Option Handler) (now : Int) (m : MintIn) (sid tt : Str) (g : Grant) (b : Option Token) (s : Store) :
    (mintIfP want env h now m sid tt g b).run s =
      if want then ((mintAndStore env h s now m sid tt g b).1, (mintAndStore env h s now m sid tt g b).2.1,
        (mintAndStore env h s now m sid tt g b).2.2.map some) else (s, g, .ok none) := by
  unfold mintIfP
  cases want with
  | true => simp only [if_true, run_bind, mintP_run, run_ret]
  | false => rfl

theorem finishCodeP_run (i : TokIn) (sid : Str) (g : Grant) (b : Option Token) (ar : AuthReq) (tok : Token) (rt : Option Token) (s : Store) :
    (finishCodeP i sid g b ar tok rt).run s = finishCode s i sid g b ar tok rt := by
  unfold finishCodeP finishCode
  cases b with
  | none => rfl
  | some b =>
    simp only [run_bind, mgrSetP_run]
    generalize mgrSet s sid _ = w
    obtain ⟨w1, w2⟩ := w
    cases w2 with
    | error e => rfl
    | ok x => simp only; cases idTokenFor _ i.idt <;> rfl

theorem exchangeCodeP_run (env : Env) (i : TokIn) (sid : Str) (g : Grant) (b : Option Token) (ar : AuthReq) (s : Store) :
    (exchangeCodeP env i sid g b ar).run s = exchangeCode env s i sid g b ar := by
  unfold exchangeCodeP exchangeCode
  simp only [run_bind, mintP_run]
  generalize mintAndStore env env.th.accessToken s i.now i.ma sid tAccessToken g b = w
  obtain ⟨w1, w2, w3⟩ := w
  cases w3 with
  | error e => rfl
  | ok tok =>
    simp only [run_bind, mintIfP_run]
    unfold refreshPart
    generalize (if decide (c!"offline_access" ∈ g.scope) = true then _ else _ : Store × Grant × Except Exn (Option Token)) = w
    obtain ⟨w1, w2, w3⟩ := w
    cases w3 with
    | error e => rfl
    | ok rt => exact finishCodeP_run ..

theorem codeProcessP_run (env : Env) (i : TokIn) (req : TokReq) (s : Store) : (codeProcessP env i req).run s = codeProcess env s i req := by
  unfold codeProcessP codeProcess
  split
  · rfl
  · cases req.code with
    | none => rfl
    | some c0 =>
      simp only [run_bind, byTokenP_run]
      cases sessionByToken env.th env.cr s i.now (plusForBlank c0) with
      | error e => rfl
      | ok x =>
        obtain ⟨sid, o⟩ := x
        cases o with
        | info _ => rfl
        | grant g =>
          simp only
          cases g.authReq with
          | none => rfl
          | some ar =>
            simp only
            cases redirectCheck ar req with
            | val _ => exact exchangeCodeP_run ..
            | _ => rfl

theorem newRefreshP_run (m : Mode) (env : Env) (i : TokIn) (sid : Str) (g : Grant) (b : Token) (want : Bool) (s : Store) :
    (newRefreshP m env i sid g b want).run s = newRefresh m env s i sid g b want := by
  unfold newRefreshP newRefresh refreshPart
  simp only [run_bind, mintIfP_run]
  generalize (if want = true then _ else _ : Store × Grant × Except Exn (Option Token)) = w
  obtain ⟨w1, w2, w3⟩ := w
  cases w3 with
  | error e => rfl
  | ok o => cases o with
    | none => rfl
    | some t => cases m <;> rfl

theorem exchangeRefreshP_run (m : Mode) (env : Env) (i : TokIn) (sid : Str) (g : Grant) (b : Option Token) (s : Store) :
    (exchangeRefreshP m env i sid g b).run s = exchangeRefresh m env s i sid g b := by
  unfold exchangeRefreshP exchangeRefresh
  simp only [run_bind, mintP_run]
  generalize mintAndStore env env.th.accessToken s i.now i.ma sid tAccessToken g b = w
  obtain ⟨w1, w2, w3⟩ := w
  cases w3 with
  | error e => rfl
  | ok tok =>
    cases b with
    | none => rfl
    | some b =>
      simp only
      cases b.usageRules.supportsMinting with
      | none => rfl
      | some mints =>
        simp only [run_bind, newRefreshP_run]
        generalize newRefresh m env w1 i sid w2 b _ = w
        obtain ⟨w1, w2⟩ := w
        cases w2 with
        | error e => rfl
        | ok rt =>
          simp only [finishRefreshP, finishRefresh]
          cases idTokenFor _ i.idt <;> rfl

theorem refreshProcessP_run (m : Mode) (env : Env) (i : TokIn) (req : TokReq) (s : Store) :
    (refreshProcessP m env i req).run s = refreshProcess m env s i req := by
  unfold refreshProcessP refreshProcess
  split
  · rfl
  · cases req.refreshToken with
    | none => rfl
    | some v =>
      simp only [run_bind, byTokenP_run]
      cases sessionByToken env.th env.cr s i.now v with
      | error e => rfl
      | ok x =>
        obtain ⟨sid, o⟩ := x
        cases o with
        | info _ => rfl
        | grant g => exact exchangeRefreshP_run ..

theorem helperProcessP_run (m : Mode) (env : Env) (hs : Dict Helper) (i : TokIn) (req : TokReq) (s : Store) :
    (helperProcessP m env hs i req).run s = helperProcess m env hs s i req := by
  unfold helperProcessP helperProcess
  cases req.grantType with
  | none => rfl
  | some gt =>
    simp only
    cases hs.get? gt with
    | none => rfl
    | some h => match h with
      | .bare _ => rfl
      | .inst .accessToken => exact codeProcessP_run ..
      | .inst .refreshToken => exact refreshProcessP_run ..

theorem tokProcessP_run (m : Mode) (env : Env) (hs : Dict Helper) (i : TokIn) (req : TokReq) (s : Store) :
    (tokProcessP m env hs i req).run s = tokProcess m env hs s i req := by
  unfold tokProcessP tokProcess
  simp only [run_bind, helperProcessP_run]
  generalize helperProcess m env hs s i req = w
  obtain ⟨w1, w2⟩ := w
  cases w2 with
  | raise e => rfl
  | errMsg e => rfl
  | val resp =>
    simp only [run_bind, byTokenP_run]
    cases sessionByToken env.th env.cr w1 i.now resp.accessToken with
    | error e => rfl
    | ok x =>
      obtain ⟨sid, o⟩ := x
      cases o <;> rfl

theorem codeParseP_run (env : Env) (now : Int) (req : TokReq) (s : Store) : (codeParseP env now req).run s = (s, codeParse env s now req) := by
  unfold codeParseP codeParse
  cases req.code with
  | none => rfl
  | some c0 =>
    simp only [run_bind, byTokenP_run]
    cases sessionByToken env.th env.cr s now c0 with
    | error e => rfl
    | ok x =>
      obtain ⟨sid, o⟩ := x
      cases o with
      | info _ => rfl
      | grant g =>
        simp only
        cases g.getToken c0 with
        | none => rfl
        | some t =>
          simp only
          split
          · rfl
          · split
            · rfl
            · cases req.clientId with
              | some _ => rfl
              | none => simp only; cases g.authReq <;> rfl

theorem refreshParseP_run (env : Env) (now : Int) (req : TokReq) (s : Store) : (refreshParseP env now req).run s = (s, refreshParse env s now req) := by
  unfold refreshParseP refreshParse
  cases req.refreshToken with
  | none => rfl
  | some c0 =>
    simp only [run_bind, byTokenP_run]
    cases sessionByToken env.th env.cr s now c0 with
    | error e => rfl
    | ok x =>
      obtain ⟨sid, o⟩ := x
      cases o with
      | info _ => rfl
      | grant g =>
        simp only
        cases g.getToken c0 with
        | none => rfl
        | some t =>
          simp only
          split
          · rfl
          · split <;> rfl

theorem helperParseP_run (env : Env) (hs : Dict Helper) (now : Int) (req : TokReq) (s : Store) :
    (helperParseP env hs now req).run s = (s, helperParse env hs s now req) := by
  unfold helperParseP helperParse
  cases req.grantType with
  | none => rfl
  | some gt =>
    simp only
    cases hs.get? gt with
    | none => rfl
    | some h => match h with
      | .bare _ => rfl
      | .inst .accessToken => exact codeParseP_run ..
      | .inst .refreshToken => exact refreshParseP_run ..

theorem pkceTokenParseP_run (p : Pkce) (env : Env) (now : Int) (req : TokReq) (s : Store) :
    (pkceTokenParseP p env now req).run s = (s, pkceTokenParse p env s now req) := by
  unfold pkceTokenParseP pkceTokenParse
  cases req.code with
  | none => rfl
  | some c0 =>
    simp only [run_bind, byTokenP_run]
    cases sessionByToken env.th env.cr s now c0 with
    | error e => rfl
    | ok x =>
      obtain ⟨sid, o⟩ := x
      cases o with
      | info _ => rfl
      | grant g =>
        simp only
        cases g.authReq with
        | none => rfl
        | some ar =>
          simp only
          cases ar.codeChallenge with
          | none => rfl
          | some ch =>
            simp only
            cases req.codeVerifier with
            | none => rfl
            | some v =>
              simp only
              cases ar.codeChallengeMethod with
              | none => rfl
              | some m =>
                simp only
                cases verifyChallenge p.methods v ch m with
                | error e => rfl
                | ok b => cases b <;> rfl

theorem tokParseP_run (env : Env) (hs : Dict Helper) (now : Int) (req : TokReq) (s : Store) :
    (tokParseP env hs now req).run s = (s, tokParse env hs s now req) := by
  unfold tokParseP tokParse
  simp only [run_bind, helperParseP_run]
  cases helperParse env hs s now req with
  | raise e => rfl
  | errMsg e => rfl
  | val r =>
    simp only
    cases env.pkce with
    | none => rfl
    | some p => exact pkceTokenParseP_run ..

theorem tokenEndpointP_run (m : Mode) (env : Env) (hs : Dict Helper) (i : TokIn) (req : TokReq) (s : Store) :
    (tokenEndpointP m env hs i req).run s = tokenEndpoint m env hs s i req := by
  unfold tokenEndpointP tokenEndpoint
  simp only [run_bind, tokParseP_run]
  cases tokParse env hs s i.now req with
  | raise e => rfl
  | errMsg e => rfl
  | val r => exact tokProcessP_run ..

theorem userinfoP_run (env : Env) (db : Str → Dict Val) (now : Int) (v : Str) (s : Store) :
    (userinfoP env db now v).run s = (s, userinfoProcess env db s now v) := by
  unfold userinfoP userinfoProcess
  simp only [run_bind, byTokenP_run]
  cases sessionByToken env.th env.cr s now v with
  | error e => rfl
  | ok x =>
    obtain ⟨sid, o⟩ := x
    cases o with
    | info _ => rfl
    | grant g =>
      simp only
      cases g.getToken v with
      | none => rfl
      | some t =>
        simp only
        split
        · rfl
        · split
          · rfl
          · cases authnLive now g.authnEvent with
            | error e => rfl
            | ok b => cases b with
              | false => rfl
              | true =>
                simp only
                cases unpack3 sid with
                | error e => rfl
                | ok y =>
                  obtain ⟨u, c, gi⟩ := y
                  simp only
                  cases getUserClaims db u _ <;> rfl

theorem introspectP_run (env : Env) (iss : Str) (rel : Bool) (db : Str → Dict Val) (now : Int) (v : Str) (s : Store) :
    (introspectP env iss rel db now v).run s = (s, introspectProcess env iss rel db s now v) := by
  unfold introspectP introspectProcess
  simp only [run_bind, byTokenP_run]
  cases sessionByToken env.th env.cr s now v with
  | error e => rfl
  | ok x =>
    obtain ⟨sid, o⟩ := x
    cases o with
    | info _ => rfl
    | grant g =>
      simp only
      cases unpack3 sid with
      | error e => rfl
      | ok y =>
        obtain ⟨u, c, gi⟩ := y
        simp only
        cases g.getToken v with
        | none => rfl
        | some t =>
          simp only
          cases introspectInfo iss now t c g with
          | none => rfl
          | some info =>
            simp only
            cases (g.claims.get? c!"introspection").getD [] with
            | nil => rfl
            | cons x xs => simp only; cases getUserClaims db u (x :: xs) <;> rfl

theorem startSessionP_run (env : Env) (cdb : Cdb) (now : Int) (gid : Str) (req : AuthReq) (a : AuthnIn) (uid : Str) (s : Store) :
    (startSessionP env cdb now gid req a uid).run s = startSession env cdb s now gid req a uid := by
  unfold startSessionP startSession
  simp only [run_bind, createSessionP_run]
  generalize createSession env.sf s now gid uid req.clientId _ = w
  obtain ⟨w1, w2⟩ := w
  cases w2 <;> rfl

theorem authnEventP_run (sid : Str) (s : Store) : (authnEventP sid).run s = (s, getAuthnEvent s sid) := by
  unfold authnEventP getAuthnEvent
  cases unpack3 sid with
  | error e => rfl
  | ok x =>
    obtain ⟨u, c, g⟩ := x
    simp only [run_bind, getP_run]
    cases dbGet s [u, c, g] with
    | error e => rfl
    | ok o => cases o <;> rfl

theorem reuseP_run (env : Env) (now : Int) (gid : Str) (req : AuthReq) (uid sid : Str) (g0 : Grant) (s : Store) :
    (reuseP env now gid req uid sid g0).run s =
      if g0.authReq = some req then (s, .val sid)
      else match eventValid now g0.authnEvent with
        | .error e => (s, .raise e)
        | .ok false => (s, .errMsg [])
        | .ok true =>
          let r := createGrant env.sf s now gid uid req.clientId { authnEvent := g0.authnEvent, authReq := req }
          match r.2 with
          | .error e => (r.1, .raise e)
          | .ok sid' => (r.1, .val sid') := by
  unfold reuseP
  split
  · rfl
  · cases eventValid now g0.authnEvent with
    | error e => rfl
    | ok b => cases b with
      | false => rfl
      | true =>
        simp only [run_bind, createGrantP_run]
        generalize createGrant env.sf s now gid uid req.clientId _ = w
        obtain ⟨w1, w2⟩ := w
        cases w2 <;> rfl

theorem setupAuthP_run (env : Env) (cdb : Cdb) (now : Int) (gid : Str) (req : AuthReq) (a : AuthnIn) (s : Store) :
    (setupAuthP env cdb now gid req a).run s = setupAuth env cdb s now gid req a := by
  unfold setupAuthP setupAuth
  cases a.ident with
  | nobody => rfl
  | plain uid =>
    simp only
    split
    · rfl
    · split
      · rfl
      · exact startSessionP_run ..
  | decoded uid sid =>
    cases sid with
    | none => rfl
    | some sid =>
      simp only [run_bind, mgrGetP_run]
      cases mgrGet s sid with
      | error e => rfl
      | ok o => cases o with
        | info _ => rfl
        | grant g0 =>
          simp only
          split
          · rfl
          · split
            · rfl
            · cases uid with
              | none => rfl
              | some uid =>
                simp only
                split
                · rfl
                · cases unpack3 sid with
                  | error e => rfl
                  | ok x =>
                    obtain ⟨_, c, _⟩ := x
                    simp only
                    split
                    · rfl
                    · simp only [run_bind, reuseP_run]
                      generalize (if g0.authReq = some req then (s, Out.val sid) else _ : Store × Out Str) = w
                      obtain ⟨w1, w2⟩ := w
                      cases w2 with
                      | raise e => rfl
                      | errMsg e => rfl
                      | val sid' =>
                        simp only [run_bind, authnEventP_run]
                        cases getAuthnEvent w1 sid' with
                        | error e => rfl
                        | ok ev =>
                          simp only
                          cases eventValid now ev with
                          | error e => rfl
                          | ok b => cases b <;> rfl

theorem idTokenPartP_run (idt : Out Str) (sid : Str) (req : AuthReq) (s : Store) : (idTokenPartP idt sid req).run s = idTokenPart s idt sid req := by
  unfold idTokenPartP idTokenPart
  split
  · cases idt with
    | raise e => rfl
    | errMsg e => rfl
    | val i =>
      simp only
      cases unpack3 sid with
      | error e => rfl
      | ok x =>
        obtain ⟨u, c, _⟩ := x
        simp only [run_bind, getP_run]
        cases dbGet s [u, c] with
        | error e => rfl
        | ok o =>
          simp only [run_bind, setP_run]
          generalize dbSet s [u, c] o = w
          obtain ⟨w1, w2⟩ := w
          cases w2 <;> rfl
  · rfl

theorem responseP_run (env : Env) (now : Int) (mc ma : MintIn) (idt : Out Str) (req : AuthReq) (sid : Str) (s : Store) :
    (responseP env now mc ma idt req sid).run s = createAuthnResponse env s now mc ma idt req sid := by
  unfold responseP createAuthnResponse
  split
  · rfl
  · simp only [run_bind, getGrantP_run]
    cases getGrant s sid with
    | error e => rfl
    | ok g =>
      simp only [run_bind, mintIfP_run]
      unfold codePart
      simp only [decide_eq_true_eq]
      generalize (if c!"code" ∈ req.responseType then _ else _ : Store × Grant × Except Exn (Option Token)) = w
      obtain ⟨w1, w2, w3⟩ := w
      cases w3 with
      | error e => rfl
      | ok code =>
        simp only [run_bind, mintIfP_run]
        unfold tokenPart
        simp only [decide_eq_true_eq]
        generalize (if c!"token" ∈ req.responseType then _ else _ : Store × Grant × Except Exn (Option Token)) = w
        obtain ⟨w1, w2, w3⟩ := w
        cases w3 with
        | error e => rfl
        | ok tok =>
          simp only [run_bind, idTokenPartP_run]
          generalize idTokenPart w1 idt sid req = w
          obtain ⟨w1, w2⟩ := w
          cases w2 with
          | raise e => rfl
          | errMsg e => rfl
          | val i => simp only; split <;> rfl

theorem part2P_run (env : Env) (cdb : Cdb) (now : Int) (mc ma : MintIn) (idt : Out Str) (req : AuthReq) (sid : Str) (s : Store) :
    (part2P env cdb now mc ma idt req sid).run s =
      ((authzPart2 env cdb s now mc ma idt req sid).2.1, (authzPart2 env cdb s now mc ma idt req sid).1, (authzPart2 env cdb s now mc ma idt req sid).2.2) := by
  unfold part2P authzPart2
  simp only [run_bind, getGrantP_run]
  cases getGrant s sid with
  | error e => rfl
  | ok g =>
    simp only
    cases unpack3 sid with
    | error e => rfl
    | ok x =>
      obtain ⟨u, c, gi⟩ := x
      simp only
      generalize authzCall env.gc env.ccfg cdb now c g req = a
      obtain ⟨a1, a2⟩ := a
      cases a2 with
      | error e => rfl
      | ok g' =>
        simp only [run_bind, setP_run]
        generalize dbSet s [u, c, gi] _ = w
        obtain ⟨w1, w2⟩ := w
        cases w2 with
        | error e => rfl
        | ok y =>
          simp only [run_bind, responseP_run]
          generalize createAuthnResponse env w1 now mc ma idt req sid = w
          obtain ⟨w1, w2⟩ := w
          cases w2 with
          | error e => rfl
          | ok z =>
            obtain ⟨content, frag⟩ := z
            simp only
            cases getUri env.lib a1 .redirect req.clientId req.redirectUri with
            | error e => rfl
            | ok uri =>
              simp only
              cases responseMode req.responseMode frag <;> rfl

theorem authzProcessP_run (env : Env) (cdb : Cdb) (now : Int) (gid : Str) (mc ma : MintIn) (idt : Out Str) (a : AuthnIn) (req : AuthReq) (s : Store) :
    (authzProcessP env cdb now gid mc ma idt a req).run s =
      ((authzProcess env cdb s now gid mc ma idt a req).2.1, (authzProcess env cdb s now gid mc ma idt a req).1,
        (authzProcess env cdb s now gid mc ma idt a req).2.2) := by
  unfold authzProcessP authzProcess
  cases cdb req.clientId with
  | none => rfl
  | some c =>
    simp only
    split
    · rfl
    · simp only [run_bind, setupAuthP_run]
      generalize setupAuth env cdb s now gid req a = w
      obtain ⟨w1, w2⟩ := w
      match w2 with
      | .raise e => rfl
      | .errMsg e => rfl
      | .val .login => rfl
      | .val .loginRequired => rfl
      | .val (.session sid _) => simp only [run_bind, part2P_run, run_ret]

end Verif
