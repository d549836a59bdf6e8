import Verif.Lemmas.Open
import Verif.Props.AuthzSession
set_option linter.unusedSimpArgs false
set_option linter.unusedVariables false
/-! C109, C110: token requests and crashes. -/
namespace Verif
open Spec

/-- The state after the whole history is the one after all its steps. -/
theorem sysRun_all_inv (cfg : SysCfg) (ops : List SysOp) (hf : FreshRun ops) (hb : BlankFree cfg.env) :
    SysInv cfg (ops.flatMap newGid) (sysRun cfg ops) := by
  have := sysRun_inv cfg ops hf hb ops.length
  rwa [List.take_length] at this

theorem crash_store {cfg : SysCfg} (hm : cfg.mode = .byValue) (st : Sys) (op : SysOp) (n : Nat) :
    (sysStep cfg st (.crash op n)).store = lastOf st.store ((stepTrace cfg st op).take n) := by
  simp only [sysStep, hm]

/-! ### C110 -/

theorem codeParse_put {env : Env} {s : Store} (hn : NoEmpty s) {now : Int} {c sid : Str} {g g' : Grant} {t : Token}
    (h : sessionByToken env.th env.cr s now c = .ok (sid, .grant g)) (ht : g.getToken c = some t) (hmore : MoreTokens g g')
    (now' : Int) (req : TokReq) (hc : req.code = some c) :
    codeParse env (s.put sid (.grant g')) now' req = codeParse env s now' req := by
  unfold codeParse
  simp only [hc]
  rcases sessionByToken_put hn (now' := now') (g' := g') h with ⟨e, h1, h2⟩ | ⟨h1, h2⟩
  · rw [h1, h2]
  · rw [h1, h2]
    simp only [ht, hmore.getToken ht, hmore.2.1]

theorem pkceParse_put {env : Env} {s : Store} (hn : NoEmpty s) {now : Int} {c sid : Str} {g g' : Grant} (p : Pkce)
    (h : sessionByToken env.th env.cr s now c = .ok (sid, .grant g)) (hmore : MoreTokens g g')
    (now' : Int) (req : TokReq) (hc : req.code = some c) :
    pkceTokenParse p env (s.put sid (.grant g')) now' req = pkceTokenParse p env s now' req := by
  unfold pkceTokenParse
  simp only [hc]
  rcases sessionByToken_put hn (now' := now') (g' := g') h with ⟨e, h1, h2⟩ | ⟨h1, h2⟩
  · rw [h1, h2]
  · rw [h1, h2]
    simp only [hmore.2.1]

theorem codeParse_code {env : Env} {s : Store} {now : Int} {req r : TokReq} (h : codeParse env s now req = .val r) :
    r.code = req.code := by
  unfold codeParse at h
  cases hc : req.code with
  | none => simp [hc] at h
  | some c =>
    simp only [hc] at h
    split at h
    · split at h <;> cases h
    · cases h
    · split at h
      · cases h
      · split at h
        · cases h
        · split at h
          · cases h
          · split at h
            · cases h; exact hc
            · split at h
              · cases h
              · cases h; rfl

/-- **C110**, codes: a history of any kind, then a code exchange that is killed at any point.  Either the exchange was
already complete (all that it stores is stored), or the code can still be presented: every request for it is judged
exactly as before the exchange, at every time. -/
theorem C110_killed_code_exchange (cfg : SysCfg) (hm : cfg.mode = .byValue) (hb : BlankFree cfg.env) (ops : List SysOp)
    (hf : FreshRun ops) (i : TokIn) (req : TokReq) (hp : req ∈ (sysRun cfg ops).pending)
    (hgt : req.grantType = some c!"authorization_code") (n : Nat) :
    let st := sysRun cfg ops
    let killed := sysRun cfg (ops ++ [.crash (.tokProcess i req) n])
    killed.store = (sysRun cfg (ops ++ [.tokProcess i req])).store ∨
    ∀ now req', req'.grantType = req.grantType → req'.code = req.code →
      tokParse cfg.env cfg.helpers killed.store now req' = tokParse cfg.env cfg.helpers st.store now req' := by
  intro st killed
  have hi := sysRun_all_inv cfg ops hf hb
  have hkill : killed.store = lastOf st.store ((tokTrace cfg.env cfg.helpers st.store i req).take n) := by
    show (sysRun cfg (ops ++ [.crash (.tokProcess i req) n])).store = _
    rw [sysRun_snoc, crash_store hm]
    have hp' : req ∈ st.pending := hp
    simp only [stepTrace]
    rw [if_pos hp]
  rcases lastOf_cases st.store ((tokTrace cfg.env cfg.helpers st.store i req).take n) with e | e
  · right
    intro now req' _ _
    rw [hkill, e]
  · have hmem := List.mem_of_mem_take e
    rw [← hkill] at hmem
    unfold tokTrace at hmem
    rw [hgt] at hmem
    simp only at hmem
    cases hx : cfg.helpers.get? c!"authorization_code" with
    | none => simp [hx] at hmem
    | some hc =>
      cases hc with
      | bare c => simp [hx] at hmem
      | inst hcl =>
        cases hcl with
        | refreshToken =>
          simp only [hx, refreshTrace, hgt] at hmem
          simp at hmem
        | accessToken =>
          simp only [hx, codeTrace, hgt, ne_eq, not_true_eq_false, if_false] at hmem
          obtain ⟨c, hc1, hc2, hc3⟩ := (hi.pending req hp _ hgt).1 hx
          simp only [hc1, hc2] at hmem
          cases hs : sessionByToken cfg.env.th cfg.env.cr st.store i.now c with
          | error e => simp [hs] at hmem
          | ok p =>
            obtain ⟨sid, o⟩ := p
            cases o with
            | info _ => simp [hs] at hmem
            | grant g =>
              simp only [hs] at hmem
              cases har : g.authReq with
              | none => simp [har] at hmem
              | some ar =>
                simp only [har] at hmem
                cases hrd : redirectCheck ar req with
                | raise e => simp [hrd] at hmem
                | errMsg e => simp [hrd] at hmem
                | val _ =>
                  simp only [hrd] at hmem
                  obtain ⟨k1, k2, k3⟩ := sessionByToken_key hi.noEmpty hs
                  have ho := openAt_of_getGrant hi.noEmpty (sessionByToken_getGrant hs)
                  obtain ⟨t, ht, _⟩ := (hc3 _ _ k1).2 g k2
                  obtain ⟨g', hg', hcase⟩ := exchangeCode_points ar ho k2 hmem
                  rcases hcase with hmore | hfin
                  · right
                    intro now req' hgt' hcode'
                    rw [hc1] at hcode'
                    rw [hgt] at hgt'
                    rw [hg']
                    have h1 := codeParse_put (env := cfg.env) hi.noEmpty hs ht hmore now req' hcode'
                    unfold tokParse helperParse
                    simp only [hgt', hx, h1]
                    cases hpr : codeParse cfg.env st.store now req' with
                    | raise e => rfl
                    | errMsg e => rfl
                    | val r =>
                      simp only
                      cases hpk : cfg.env.pkce with
                      | none => rfl
                      | some p =>
                        simp only
                        refine pkceParse_put hi.noEmpty p hs hmore now r ?_
                        rw [codeParse_code hpr]
                        exact hcode'
                  · left
                    rw [hfin, sysRun_snoc]
                    simp only [sysStep]
                    rw [if_pos hp]
                    simp only
                    unfold tokProcess helperProcess
                    simp only [hgt, hx]
                    unfold codeProcess
                    have hs' := hs
                    simp only [st] at hs'
                    simp only [hgt, ne_eq, not_true_eq_false, if_false, hc1, hc2, hs', har, hrd]
                    split
                    · rfl
                    · rfl
                    · split <;> rfl

/-- **C110**, refresh tokens: a refresh that is killed at any point leaves the refresh token as it was: every request for it
is judged exactly as before, at every time. -/
theorem C110_killed_refresh (cfg : SysCfg) (hm : cfg.mode = .byValue) (hb : BlankFree cfg.env) (ops : List SysOp)
    (hf : FreshRun ops) (i : TokIn) (req : TokReq) (hp : req ∈ (sysRun cfg ops).pending)
    (hgt : req.grantType = some c!"refresh_token") (n : Nat) (now : Int) (req' : TokReq) (hgt' : req'.grantType = req.grantType)
    (hv' : req'.refreshToken = req.refreshToken) (hcode : req'.code = none) :
    tokParse cfg.env cfg.helpers (sysRun cfg (ops ++ [.crash (.tokProcess i req) n])).store now req' =
      tokParse cfg.env cfg.helpers (sysRun cfg ops).store now req' := by
  have hi := sysRun_all_inv cfg ops hf hb
  generalize hst : sysRun cfg ops = st at hi hp
  have hkill : (sysRun cfg (ops ++ [.crash (.tokProcess i req) n])).store =
      lastOf st.store ((tokTrace cfg.env cfg.helpers st.store i req).take n) := by
    rw [sysRun_snoc, crash_store hm, hst]
    simp only [stepTrace]
    rw [if_pos hp]
  rcases lastOf_cases st.store ((tokTrace cfg.env cfg.helpers st.store i req).take n) with e | e
  · rw [hkill, e]
  · have hmem := List.mem_of_mem_take e
    rw [← hkill] at hmem
    unfold tokTrace at hmem
    rw [hgt] at hmem
    simp only at hmem
    rw [hgt] at hgt'
    cases hx : cfg.helpers.get? c!"refresh_token" with
    | none => simp [hx] at hmem
    | some hc =>
      cases hc with
      | bare c => simp [hx] at hmem
      | inst hcl =>
        cases hcl with
        | accessToken => simp [hx, codeTrace, hgt] at hmem
        | refreshToken =>
          simp only [hx, refreshTrace, hgt, ne_eq, not_true_eq_false, if_false] at hmem
          obtain ⟨v, hv1, hv3⟩ := (hi.pending req hp _ hgt).2 hx
          simp only [hv1] at hmem
          cases hs : sessionByToken cfg.env.th cfg.env.cr st.store i.now v with
          | error e => simp [hs] at hmem
          | ok p =>
            obtain ⟨sid, o⟩ := p
            cases o with
            | info _ => simp [hs] at hmem
            | grant g =>
              simp only [hs] at hmem
              obtain ⟨k1, k2, k3⟩ := sessionByToken_key hi.noEmpty hs
              have ho := openAt_of_getGrant hi.noEmpty (sessionByToken_getGrant hs)
              obtain ⟨t, ht, _⟩ := (hv3 _ _ k1).2 g k2
              obtain ⟨g', hg', hmore⟩ := exchangeRefresh_points ho hmem
              rw [hg']
              have h1 : refreshParse cfg.env (st.store.put sid (.grant g')) now req' = refreshParse cfg.env st.store now req' := by
                unfold refreshParse
                rw [hv1] at hv'
                simp only [hv']
                rcases sessionByToken_put hi.noEmpty (now' := now) (g' := g') hs with ⟨e, h1, h2⟩ | ⟨h1, h2⟩
                · rw [h1, h2]
                · rw [h1, h2]
                  simp only [ht, hmore.getToken ht]
              unfold tokParse helperParse
              simp only [hgt', hx, h1]
              cases hpr : refreshParse cfg.env st.store now req' with
              | raise e => rfl
              | errMsg e => rfl
              | val r =>
                simp only
                cases hpk : cfg.env.pkce with
                | none => rfl
                | some p =>
                  have hr : r = req' := by
                    unfold refreshParse at hpr
                    split at hpr
                    · cases hpr
                    · split at hpr
                      · split at hpr <;> cases hpr
                      · cases hpr
                      · split at hpr
                        · cases hpr
                        · split at hpr
                          · cases hpr
                          · split at hpr
                            · cases hpr
                            · cases hpr; rfl
                  subst hr
                  simp only [pkceTokenParse, hcode]

/-- Diana logs in and the client's token request for the code is parsed. -/
def killTokOps : List SysOp := demoOps.take 2

theorem killTokOps_fresh : FreshRun killTokOps := by
  refine ⟨by decide, by decide, ?_⟩
  intro op hop
  simp only [killTokOps, demoOps, List.take_succ_cons, List.take_zero, List.mem_cons, List.not_mem_nil, or_false] at hop
  rcases hop with rfl | rfl <;> trivial

set_option maxRecDepth 8000 in
/-- Both alternatives of C110 occur: killed after the access token was stored, the code is still good; killed after the last
write, the code is used up although no response was sent.  So an exchange is answered at most once (C27), but a crash can
make it zero times. -/
theorem C110_crash_can_burn_code :
    let parse (n : Nat) := tokParse demoEnv demoHelpers
      (sysRun (demoCfg .byValue) (killTokOps ++ [.crash (.tokProcess (tokIn 2 c!"n3" c!"n4") demoTokReq) n])).store 3 demoTokReq
    demoTokReq ∈ (sysRun (demoCfg .byValue) killTokOps).pending ∧
    parse 0 = .val demoTokReq ∧ parse 1 = .val demoTokReq ∧ parse 6 = .val demoTokReq ∧
    parse 7 = .errMsg c!"invalid_request" ∧
    (∀ i, responseAt (demoCfg .byValue) (killTokOps ++ [.crash (.tokProcess (tokIn 2 c!"n3" c!"n4") demoTokReq) 7]) i = none) := by
  refine ⟨by decide, by decide, by decide, by decide, by decide, ?_⟩
  intro i
  match i with
  | 0 => rfl
  | 1 => rfl
  | 2 => rfl
  | n + 3 => rfl

set_option maxRecDepth 8000 in
/-- A killed refresh. -/
example : let ops := demoOps.take 6
    demoRefReq ∈ (sysRun (demoCfg .byValue) ops).pending ∧ demoRefReq.code = none ∧
    (stepTrace (demoCfg .byValue) (sysRun (demoCfg .byValue) ops) (.tokProcess (tokIn 3 c!"n7" c!"n8") demoRefReq)).length = 6 ∧
    tokParse demoEnv demoHelpers
      (sysRun (demoCfg .byValue) (ops ++ [.crash (.tokProcess (tokIn 3 c!"n7" c!"n8") demoRefReq) 3])).store 4 demoRefReq = .val demoRefReq := by
  decide

/-! ### C109 -/

/-- The tokens of the response are among the tokens of the grant. -/
def Carries (g : Grant) (resp : TokResp) : Prop :=
  (∃ t ∈ g.issuedToken, t.value = resp.accessToken ∧ t.kind = .accessToken) ∧
  ∀ v, resp.refreshToken = some v → ∃ t ∈ g.issuedToken, t.value = v ∧ t.kind = .refreshToken

theorem mem_updateFirst_use {v : Str} {t : Token} {l : List Token} (h : t ∈ l) :
    ∃ t' ∈ updateFirst v Token.registerUsage l, t'.value = t.value ∧ t'.kind = t.kind := by
  induction l with
  | nil => cases h
  | cons a l ih =>
    unfold updateFirst
    by_cases ha : a.value = v
    · simp only [ha, if_true]
      rcases List.mem_cons.1 h with rfl | h
      · exact ⟨_, List.mem_cons_self, rfl, rfl⟩
      · exact ⟨t, List.mem_cons_of_mem _ h, rfl, rfl⟩
    · simp only [ha, if_false]
      rcases List.mem_cons.1 h with rfl | h
      · exact ⟨_, List.mem_cons_self, rfl, rfl⟩
      · obtain ⟨t', h1, h2⟩ := ih h
        exact ⟨t', List.mem_cons_of_mem _ h1, h2⟩

theorem Carries.evo {env : Env} {k : Str} {g g' : Grant} {resp : TokResp} (h : Carries g resp) (he : Evo env k g g') :
    Carries g' resp := by
  have key : ∀ t ∈ g.issuedToken, ∃ t' ∈ g'.issuedToken, t'.value = t.value ∧ t'.kind = t.kind := by
    intro t ht
    obtain ⟨i, hi⟩ := List.getElem?_of_mem ht
    obtain ⟨t', h1, h2⟩ := he.pres i t hi
    exact ⟨t', List.mem_of_getElem? h1, h2.value, h2.kind⟩
  obtain ⟨⟨t, h1, h2, h3⟩, h4⟩ := h
  constructor
  · obtain ⟨t', e1, e2, e3⟩ := key t h1
    exact ⟨t', e1, e2.trans h2, e3.trans h3⟩
  · intro v hv
    obtain ⟨t, h1, h2, h3⟩ := h4 v hv
    obtain ⟨t', e1, e2, e3⟩ := key t h1
    exact ⟨t', e1, e2.trans h2, e3.trans h3⟩

/-- Reading a grant back from a storage in which the session is open. -/
theorem openAt_getGrant {s : Store} {sid : Str} {g : Grant} (ho : OpenAt s sid) (h : s sid = some (.grant g)) :
    getGrant s sid = .ok g := by
  have := ho.getGrant g
  have e : s.put sid (.grant g) = s := by
    funext k
    unfold Store.put
    split
    · rename_i e; rw [e, h]
    · rfl
  rwa [e] at this

/-- After a successful response the session it is about is open. -/
theorem response_open {cfg : SysCfg} (hm : cfg.mode = .byValue) {st : Sys} (hn : NoEmpty st.store) {inp : TokIn} {req : TokReq}
    (hp : req ∈ st.pending) {sid : Str} (hop : OpenAt st.store sid)
    (hpts : ∀ s' ∈ tokTrace cfg.env cfg.helpers st.store inp req, ∃ g', s' = st.store.put sid (.grant g')) :
    OpenAt (sysStep cfg st (.tokProcess inp req)).store sid := by
  rw [← stepTrace_last cfg hm]
  simp only [stepTrace]
  rw [if_pos hp]
  rcases lastOf_cases st.store (tokTrace cfg.env cfg.helpers st.store inp req) with e | e
  · rw [e]; exact hop
  · obtain ⟨g', hg'⟩ := hpts _ e
    rw [hg']
    exact hop.put _

/-- **C109**: a token response is only given when its tokens are in the storage: the session can be read and has them, also
after a crash and a restart right then, and at every later moment of every history, with whatever crashes, a session
that is still stored has them. -/
theorem C109_response_is_stored (cfg : SysCfg) (hm : cfg.mode = .byValue) (hb : BlankFree cfg.env) (ops : List SysOp)
    (hf : FreshRun ops) (i : Nat) (req : TokReq) (resp : TokResp) (h : responseAt cfg ops i = some (req, resp)) :
    ∃ sid g, getGrant (sysRun cfg (ops.take (i + 1))).store sid = .ok g ∧ Carries g resp ∧
      (∀ op, getGrant (sysRun cfg (ops.take (i + 1) ++ [.crash op 0])).store sid = .ok g) ∧
      ∀ j g', i < j → getGrant (sysRun cfg (ops.take j)).store sid = .ok g' → Carries g' resp := by
  have hi := sysRun_inv cfg ops hf hb i
  obtain ⟨inp0, ho0, hp, hv⟩ := responseAt_some h
  have hstep : sysRun cfg (ops.take (i + 1)) = sysStep cfg (sysRun cfg (ops.take i)) (.tokProcess inp0 req) := by
    rw [(freshAt hf ho0).2.2.2, sysRun_snoc]
  have main : ∃ sid g', (sysRun cfg (ops.take (i + 1))).store sid = some (.grant g') ∧ Carries g' resp ∧
      OpenAt (sysRun cfg (ops.take (i + 1))).store sid := by
    rcases response_grantType h with hgt | hgt
    · obtain ⟨inp, c, sid, g, t, ar, g', b0, b1, b2, b3, b4, b5, b6, b7, b8, b9, b10, b11, b12, b13, b14, tok, rt, c1, c2, c3, c4,
        c5, c6, c7⟩ := code_response hb hf h hgt
      rw [ho0] at b0
      cases b0
      refine ⟨sid, g', b13, ?_, ?_⟩
      · constructor
        · obtain ⟨t', e1, e2, e3⟩ := mem_updateFirst_use (v := t.value) (t := tok) (l := g.issuedToken ++ tok :: rt.toList) (by simp)
          exact ⟨t', by rw [c1]; exact e1, e2.trans c4.symm, e3.trans c3⟩
        · intro v hv
          rw [c6] at hv
          cases rt with
          | none => simp at hv
          | some r =>
            simp at hv
            obtain ⟨t', e1, e2, e3⟩ := mem_updateFirst_use (v := t.value) (t := r) (l := g.issuedToken ++ tok :: [r]) (by simp)
            exact ⟨t', by rw [c1]; exact e1, e2.trans hv, e3.trans (c5 r rfl).2⟩
      · rw [hstep]
        have hop := openAt_of_getGrant hi.noEmpty (sessionByToken_getGrant b2)
        refine response_open hm hi.noEmpty hp hop ?_
        intro s' hs'
        unfold tokTrace at hs'
        rw [hgt] at hs'
        simp only at hs'
        obtain ⟨hx, _⟩ := tokProcess_code hi.noEmpty hgt hv
        obtain ⟨c', e1, e2, _⟩ := (hi.pending req hp _ hgt).1 hx
        rw [b1] at e1
        cases e1
        simp only [hx, codeTrace, hgt, ne_eq, not_true_eq_false, if_false, b1, e2, b2, b10, b11] at hs'
        obtain ⟨g2, hg2, _⟩ := exchangeCode_points ar hop b3 hs'
        exact ⟨g2, hg2⟩
    · obtain ⟨inp, v, sid, g, t, g', b0, b1, b2, b3, b4, b6, b7, b8, b9, b10, b11, b12, tok, r', c1, c2, c3, c4, c5, c6⟩ :=
        refresh_response hb hf h hgt
      rw [ho0] at b0
      cases b0
      refine ⟨sid, g', b12, ?_, ?_⟩
      · constructor
        · exact ⟨tok, by rw [c1]; simp, c4.symm, c3⟩
        · intro w hw
          rw [hw] at c5
          have : w ∈ r'.map Token.value := by rw [c5]; simp
          obtain ⟨r, hr, hrv⟩ := List.mem_map.1 this
          exact ⟨r, by rw [c1]; simp [hr], hrv, (c6 r hr).2⟩
      · rw [hstep]
        have hop := openAt_of_getGrant hi.noEmpty (sessionByToken_getGrant b2)
        refine response_open hm hi.noEmpty hp hop ?_
        intro s' hs'
        unfold tokTrace at hs'
        rw [hgt] at hs'
        simp only at hs'
        obtain ⟨hx, _⟩ := tokProcess_refresh hi.noEmpty hgt hv
        simp only [hx, refreshTrace, hgt, ne_eq, not_true_eq_false, if_false, b1, b2] at hs'
        obtain ⟨g2, hg2, _⟩ := exchangeRefresh_points hop hs'
        exact ⟨g2, hg2⟩
  obtain ⟨sid, g', m1, m2, m3⟩ := main
  refine ⟨sid, g', openAt_getGrant m3 m1, m2, ?_, ?_⟩
  · intro op
    rw [sysRun_snoc, crash_store hm]
    simp only [List.take_zero]
    exact openAt_getGrant m3 m1
  · intro j g2 hj hg2
    have hij := sysRun_inv cfg ops hf hb j
    obtain ⟨hk, _⟩ := getGrant_key hij.noEmpty hg2
    exact m2.evo (evo_later hf hb (by omega : i + 1 ≤ j) m1 hk)

set_option maxRecDepth 8000 in
/-- Both responses of the demo history, on a storage of copies. -/
example : (responseAt (demoCfg .byValue) demoOps 3).isSome = true ∧ (responseAt (demoCfg .byValue) demoOps 6).isSome = true := by decide

/-! ### C111 -/

/-- C111 for sessions: whatever happens to the provider, crashes and restarts included, a session that can be read before
and after has the same subject identifier and belongs to the same authorization request. -/
theorem C111_session_keeps_subject_partial (cfg : SysCfg) (hb : BlankFree cfg.env) (ops : List SysOp) (hf : FreshRun ops)
    (i j : Nat) (hij : i ≤ j) (sid : Str) (g g' : Grant) (h1 : getGrant (sysRun cfg (ops.take i)).store sid = .ok g)
    (h2 : getGrant (sysRun cfg (ops.take j)).store sid = .ok g') : g'.sub = g.sub ∧ g'.authReq = g.authReq := by
  obtain ⟨k1, _⟩ := getGrant_key (sysRun_inv cfg ops hf hb i).noEmpty h1
  obtain ⟨k2, _⟩ := getGrant_key (sysRun_inv cfg ops hf hb j).noEmpty h2
  have he := evo_later hf hb hij k1 k2
  exact ⟨he.sub, he.authReq⟩

/-- A history in which the provider is killed and started again between two reads of the same session. -/
def restartOps : List SysOp := demoOps.take 1 ++ [.crash (.tokParse 2 demoTokReq) 0]

set_option maxRecDepth 8000 in
example : (∃ g, getGrant (sysRun (demoCfg .byValue) (restartOps.take 1)).store c!"diana;;c1;;g1" = .ok g) ∧
    (∃ g, getGrant (sysRun (demoCfg .byValue) (restartOps.take 2)).store c!"diana;;c1;;g1" = .ok g) := by
  refine ⟨⟨_, rfl⟩, ⟨_, rfl⟩⟩

/-- C111 is false for users: the salt is a new random string each time the provider starts (session/manager.py:43), so with
a collision-free hash the same user who logs in at the same client before and after a restart is a different subject,
always. -/
theorem C111_subject_changes_at_restart (env : Env) (hash : Str → Str) (hinj : ∀ x y, hash x = hash y → x = y)
    (salt salt' eph eph' : Str) (hne : salt ≠ salt')
    (cdb : Cdb) (s s' : Store) (ht : Tree s) (ht' : Tree s') (now now' : Int) (gid gid' : Str) (hg : GoodId gid) (hg' : GoodId gid')
    (req : AuthReq) (hc : GoodId req.clientId) (a : AuthnIn) (uid : Str) (hu : GoodId uid) :
    ∃ s1 s2 sid sid' g g',
      startSession { env with sf := defaultSubFuncs hash salt eph } cdb s now gid req a uid = (s1, .val (.session sid uid)) ∧
      getGrant s1 sid = .ok g ∧
      startSession { env with sf := defaultSubFuncs hash salt' eph' } cdb s' now' gid' req a uid = (s2, .val (.session sid' uid)) ∧
      getGrant s2 sid' = .ok g' ∧ g.sub ≠ g'.sub := by
  obtain ⟨s1, d1, g1, a1, a2, a3⟩ := C50_subject_is_stable { env with sf := defaultSubFuncs hash salt eph } hash salt eph rfl cdb s ht now
    gid hg req hc a uid hu
  obtain ⟨s2, d2, g2, b1, b2, b3⟩ := C50_subject_is_stable { env with sf := defaultSubFuncs hash salt' eph' } hash salt' eph' rfl cdb s' ht'
    now' gid' hg' req hc a uid hu
  refine ⟨s1, s2, d1, d2, g1, g2, a1, a2, b1, b2, ?_⟩
  rw [a3, b3]
  intro e
  exact hne (List.append_cancel_left (hinj _ _ e))

example : (∀ x y : Str, id x = id y → x = y) ∧ c!"S1" ≠ c!"S2" ∧ Tree Store.empty := ⟨fun _ _ h => h, by decide, tree_empty⟩

end Verif
