import Verif.Spec.RefusedWeb
import Verif.Props.WebTree
import Verif.Lemmas.WebFrame
import Verif.Props.AuthzSession
import Verif.Props.GivenDemo
import Verif.Lemmas.ProviderInv
/-! C164: a request that is refused leaves the sessions as they are. -/
set_option linter.unusedSimpArgs false
namespace Verif
open Spec

/-- Whoever is sent to log in leaves no trace. -/
theorem setupAuth_same {env : Env} {cdb : Cdb} {s : Store} (ht : Tree s) {now : Int} {gid : Str} (hgid : GoodId gid) {req : AuthReq}
    (hc : GoodId req.clientId) {a : AuthnIn} (hu : ∀ u sid, a.ident = .decoded (some u) sid → GoodId u)
    (h : (setupAuth env cdb s now gid req a).2 = .val .login ∨ (setupAuth env cdb s now gid req a).2 = .val .loginRequired ∨
      ∃ e, (setupAuth env cdb s now gid req a).2 = .errMsg e) : (setupAuth env cdb s now gid req a).1 = s := by
  unfold setupAuth at h ⊢
  cases hi : a.ident with
  | nobody => rfl
  | plain uid =>
    simp only [hi] at h ⊢
    split
    · rfl
    · rename_i hr
      simp only [hr, if_false, Bool.false_eq_true] at h
      split
      · rfl
      · rename_i hq
        rw [if_neg hq] at h
        exfalso
        unfold startSession at h
        revert h
        dsimp only
        generalize createSession env.sf s now gid uid req.clientId _ = w
        obtain ⟨w1, w2⟩ := w
        cases w2 <;> simp
  | decoded uid sid =>
    simp only [hi] at h ⊢
    cases sid with
    | none => rfl
    | some sid =>
      simp only at h ⊢
      cases hm : mgrGet s sid with
      | error e => rfl
      | ok o => cases o with
        | info i => rfl
        | grant g0 =>
          simp only [hm] at h ⊢
          by_cases ha : g0.isActive now = false
          · rw [if_pos ha]
          · rw [if_neg ha] at h ⊢
            cases hr : a.reAuth with
            | true => simp
            | false =>
              simp only [hr, Bool.false_eq_true, if_false] at h ⊢
              cases uid with
              | none => rfl
              | some u =>
                simp only at h ⊢
                have gu := hu u _ hi
                by_cases hq : a.reqUser.isSome = true ∧ a.reqUser ≠ some u
                · rw [if_pos hq]
                · rw [if_neg hq] at h ⊢
                  cases hp : unpack3 sid with
                  | error e => rfl
                  | ok t =>
                    obtain ⟨x, y, z⟩ := t
                    simp only [hp] at h ⊢
                    by_cases hcl : req.clientId ≠ y
                    · rw [if_pos hcl]
                    · rw [if_neg hcl] at h ⊢
                      by_cases he : g0.authReq = some req
                      · simp only [he, if_true] at h ⊢
                        cases hev : getAuthnEvent s sid with
                        | error e => rfl
                        | ok ev =>
                          simp only
                          cases hv : eventValid now ev with
                          | error e => rfl
                          | ok b => cases b <;> rfl
                      · simp only [he, if_false] at h ⊢
                        cases hev : eventValid now g0.authnEvent with
                        | error e => rfl
                        | ok b => cases b with
                          | false => rfl
                          | true =>
                            exfalso
                            simp only [hev] at h
                            cases hng : newGrant env.sf now gid u { authnEvent := g0.authnEvent, authReq := req } with
                            | error e => simp [createGrant, hng] at h
                            | ok gr =>
                              obtain ⟨s1, hset, hget⟩ := C13_read_own_write s ht.typed [u, req.clientId, gid]
                                (goodPath_three gu hc hgid) (by simp) (.grant gr)
                              have hcg : createGrant env.sf s now gid u req.clientId { authnEvent := g0.authnEvent, authReq := req } =
                                  (s1, .ok (sessionKey [u, req.clientId, gid])) := by
                                simp [createGrant, hng, hset]
                              have hge : getAuthnEvent s1 (sessionKey [u, req.clientId, gid]) = .ok gr.authnEvent := by
                                simp only [getAuthnEvent, unpack3_good gu hc hgid, hget]
                              have hre : gr.authnEvent = g0.authnEvent := by
                                unfold newGrant at hng
                                split at hng
                                · cases hng
                                · cases hng; rfl
                              simp [hcg, hge, hre, hev] at h

theorem authzBrowser_kept {cfg : ProvCfg} {cdb : Cdb} {s : Store} (ht : Tree s) {now : Int} {gid : Str} (hgid : GoodId gid)
    {mc ma : MintIn} {idt : Out Str} {raw : Option Str} {r : UserReq} (hc : (cdb r.areq.clientId).isSome = true → GoodId r.areq.clientId)
    (hu : ∀ u s, ShowsSession cfg raw u s → GoodId u)
    (h : (authzBrowser cfg.sys.env cfg.acfg cdb s now gid mc ma idt raw r).2.2 = .login ∨
      ∃ e, (authzBrowser cfg.sys.env cfg.acfg cdb s now gid mc ma idt raw r).2.2 = .error e) :
    (authzBrowser cfg.sys.env cfg.acfg cdb s now gid mc ma idt raw r).2.1 = s := by
  unfold authzBrowser at h ⊢
  cases hcl : cdb r.areq.clientId with
  | none => rfl
  | some cl =>
    simp only [hcl] at h ⊢
    by_cases hs : checkScopes cfg.sys.env cl r.areq = false
    · rw [if_pos hs]
    · rw [if_neg hs] at h ⊢
      cases ha : authnIn cfg.sys.env cfg.acfg now raw r with
      | error e => rfl
      | ok a =>
        simp only [ha] at h ⊢
        unfold authzProcess at h ⊢
        simp only [hcl] at h ⊢
        rw [if_neg hs] at h ⊢
        obtain ⟨-, -, -, hsh⟩ := authnIn_shows ha
        have key := setupAuth_same (env := cfg.sys.env) (cdb := cdb) ht (now := now) hgid (req := r.areq) (hc (by rw [hcl]; rfl)) (a := a)
          (fun u sid e => hu u sid (hsh u sid e))
        generalize setupAuth cfg.sys.env cdb s now gid r.areq a = w at h key ⊢
        obtain ⟨w1, w2⟩ := w
        cases w2 with
        | raise e => simp at h
        | errMsg e => exact key (Or.inr (Or.inr ⟨e, rfl⟩))
        | val x => cases x with
          | login => exact key (Or.inl rfl)
          | loginRequired => exact key (Or.inr (Or.inl rfl))
          | session sid u => simp at h

/-- The token endpoint gives an error when processing only before it has changed anything, or because of the ID token. -/
theorem tokProcess_same {m : Mode} {env : Env} {hs : Dict Helper} {s : Store} {i : TokIn} {req : TokReq} {e : Str}
    (h : (tokProcess m env hs s i req).2 = .errMsg e) (hi : ∀ e, i.idt ≠ .errMsg e) : (tokProcess m env hs s i req).1 = s := by
  have hidt : ∀ w e, idTokenFor w i.idt ≠ .errMsg e := by
    intro w e' h'
    unfold idTokenFor at h'
    cases w with
    | false => cases h'
    | true =>
      simp only [if_true] at h'
      cases hx : i.idt with
      | errMsg e0 => exact hi e0 hx
      | raise e0 => rw [hx] at h'; cases h'
      | val e0 => rw [hx] at h'; cases h'
  have fin1 : ∀ s' sid g base ar tok rt e, (finishCode s' i sid g base ar tok rt).2 ≠ .errMsg e := by
    intro s' sid g base ar tok rt e' h'
    unfold finishCode at h'
    cases base with
    | none => cases h'
    | some b =>
      simp only at h'
      cases hw : (mgrSet s' sid (.grant (g.registerUsage b.value))).2 with
      | error x => simp [hw] at h'
      | ok x =>
        simp only [hw] at h'
        cases hz : idTokenFor (decide (c!"openid" ∈ ar.scope)) i.idt with
        | errMsg z => exact hidt _ _ hz
        | raise z => simp [hz] at h'
        | val z => simp [hz] at h'
  have fin2 : ∀ s' g mints tok rt e, (finishRefresh s' i g mints tok rt).2 ≠ .errMsg e := by
    intro s' g mints tok rt e' h'
    unfold finishRefresh at h'
    cases hz : idTokenFor (decide (c!"id_token" ∈ mints)) i.idt with
    | errMsg z => exact hidt _ _ hz
    | raise z => simp [hz] at h'
    | val z => simp [hz] at h'
  have ex1 : ∀ s' sid g base ar e, (exchangeCode env s' i sid g base ar).2 ≠ .errMsg e := by
    intro s' sid g base ar e' h'
    unfold exchangeCode at h'
    dsimp only at h'
    split at h'
    · cases h'
    · split at h'
      · cases h'
      · exact fin1 _ _ _ _ _ _ _ _ h'
  have ex2 : ∀ s' sid g base e, (exchangeRefresh m env s' i sid g base).2 ≠ .errMsg e := by
    intro s' sid g base e' h'
    unfold exchangeRefresh at h'
    dsimp only at h'
    split at h'
    · cases h'
    · split at h'
      · cases h'
      · split at h'
        · cases h'
        · split at h'
          · cases h'
          · exact fin2 _ _ _ _ _ _ h'
  have hp : ∀ e, (helperProcess m env hs s i req).2 = .errMsg e → (helperProcess m env hs s i req).1 = s := by
    intro e h
    unfold helperProcess at h ⊢
    split
    · rfl
    · rename_i gt hgt
      simp only [hgt] at h
      split
      · rfl
      · rfl
      · rename_i hh
        simp only [hh] at h
        unfold codeProcess at h ⊢
        split
        · rfl
        · rename_i hx
          rw [if_neg hx] at h
          split
          · rfl
          · rename_i c0 hc0
            simp only [hc0] at h
            split
            · rfl
            · rfl
            · rename_i sid g hg
              simp only [hg] at h
              split
              · rfl
              · rename_i ar har
                simp only [har] at h
                split
                · rfl
                · rfl
                · rename_i hr
                  simp only [hr] at h
                  exact absurd h (ex1 _ _ _ _ _ _)
      · rename_i hh
        simp only [hh] at h
        unfold refreshProcess at h ⊢
        split
        · rfl
        · rename_i hx
          rw [if_neg hx] at h
          split
          · rfl
          · rename_i c0 hc0
            simp only [hc0] at h
            split
            · rfl
            · rfl
            · rename_i sid g hg
              simp only [hg] at h
              exact absurd h (ex2 _ _ _ _ _)
  unfold tokProcess at h ⊢
  dsimp only at h ⊢
  generalize helperProcess m env hs s i req = w at h hp ⊢
  obtain ⟨w1, w2⟩ := w
  cases w2 with
  | raise x => cases h
  | errMsg x => exact hp x rfl
  | val x =>
    exfalso
    simp only at h
    split at h <;> cases h

/-- **C164** (part) In every history: a request that is refused leaves sessions and pending token requests exactly as they were,
unless it is refused because an ID token could not be made. -/
theorem C164_refused_changes_nothing_partial (cfg : ProvCfg) (ops : List HttpOp) (hn : GoodNames cfg ops) (i : Nat) (op : HttpOp)
    (hop : ops[i]? = some op) (hr : RefusedIn cfg (provRun cfg (ops.take i)) op) (hid : ¬ IdTokenFails op) :
    (provRun cfg (ops.take (i + 1))).sys = (provRun cfg (ops.take i)).sys := by
  have hpre : GoodNames cfg (ops.take i ++ ops.drop i) := by rw [List.take_append_drop]; exact hn
  have hn' := hpre.prefix
  rw [take_snoc hop, provRun_snoc]
  have hsound := provRun_sound hn'
  have hcl : ∀ c, ((provRun cfg (ops.take i)).cdb c).isSome = true → GoodId c := fun c hc => hn'.clients c (provRun_named cfg _ c hc)
  generalize provRun cfg (ops.take i) = st at hr hsound hcl
  cases op with
  | register => rfl
  | push => rfl
  | userinfo => rfl
  | introspect => rfl
  | logout => exact hr.elim
  | restart => exact hr.elim
  | tokenParse now r req =>
    simp only [provStep]
    split
    · rename_i q hq
      exact absurd hq (hr q)
    · rfl
  | tokenProcess inp req =>
    simp only [provStep, sysStep]
    split
    · obtain ⟨e, he⟩ := hr
      rw [tokProcess_same he (fun e' h => hid ⟨e', h⟩)]
    · rfl
  | authorize now gid mc ma idt raw req =>
    have hmem := List.mem_of_getElem? hop
    simp only [provStep]
    have key : (authorizeEndpoint cfg st now gid mc ma idt raw req).2.2.1 = st.sys.store := by
      simp only [RefusedIn, authorizeEndpoint] at hr
      unfold authorizeEndpoint
      cases hp : authzParse cfg.sys.env st.cdb st.par req.areq with
      | mk par o =>
        cases o with
        | errMsg e => rfl
        | raise e => rfl
        | val q =>
          simp only [hp] at hr
          exact authzBrowser_kept hsound.tree (hn.gids gid (List.mem_flatMap.2 ⟨_, hmem, by simp [httpGid]⟩)) (hcl _)
            (fun u s hs => hn.users _ _ _ _ _ _ _ hmem u (Or.inr ⟨s, hs⟩)) hr
    rw [key]

/-- C164 is false: whenever a token request would be answered with an ID token, and the ID token cannot be made, the client gets
an error, and everything is stored as if it had got the tokens. -/
theorem C164_failed_id_token_is_not_undone (m : Mode) (env : Env) (hs : Dict Helper) (s : Store) (i : TokIn) (req : TokReq) (resp : TokResp)
    (h : (tokProcess m env hs s i req).2 = .val resp) (hid : resp.idToken.isSome = true) (e : Str) :
    tokProcess m env hs s { i with idt := .errMsg e } req = ((tokProcess m env hs s i req).1, .errMsg c!"invalid_request") := by
  have hidt : ∀ w x, idTokenFor w i.idt = .val (some x) → idTokenFor w (.errMsg e) = .errMsg c!"invalid_request" := by
    intro w x h'
    cases w with
    | false => cases h'
    | true => rfl
  have fin1 : ∀ s' sid g base ar tok rt r, (finishCode s' i sid g base ar tok rt).2 = .val r → r.idToken.isSome = true →
      finishCode s' { i with idt := .errMsg e } sid g base ar tok rt = ((finishCode s' i sid g base ar tok rt).1, .errMsg c!"invalid_request") := by
    intro s' sid g base ar tok rt r h hid
    unfold finishCode at h ⊢
    cases base with
    | none => cases h
    | some b =>
      simp only at h ⊢
      generalize mgrSet s' sid (.grant (g.registerUsage b.value)) = w at h ⊢
      obtain ⟨w1, w2⟩ := w
      cases w2 with
      | error x => cases h
      | ok x =>
        simp only at h ⊢
        cases hz : idTokenFor (decide (c!"openid" ∈ ar.scope)) i.idt with
        | raise z => simp [hz] at h
        | errMsg z => simp [hz] at h
        | val z =>
          simp only [hz, Out.val.injEq] at h
          subst h
          cases z with
          | none => cases hid
          | some z => rw [hidt _ _ hz]
  have fin2 : ∀ s' g mints tok rt r, (finishRefresh s' i g mints tok rt).2 = .val r → r.idToken.isSome = true →
      finishRefresh s' { i with idt := .errMsg e } g mints tok rt = ((finishRefresh s' i g mints tok rt).1, .errMsg c!"invalid_request") := by
    intro s' g mints tok rt r h hid
    unfold finishRefresh at h ⊢
    cases hz : idTokenFor (decide (c!"id_token" ∈ mints)) i.idt with
    | raise z => simp [hz] at h
    | errMsg z => simp [hz] at h
    | val z =>
      simp only [hz, Out.val.injEq] at h
      subst h
      cases z with
      | none => cases hid
      | some z => simp only; rw [hidt _ _ hz]
  have ex1 : ∀ s' sid g base ar r, (exchangeCode env s' i sid g base ar).2 = .val r → r.idToken.isSome = true →
      exchangeCode env s' { i with idt := .errMsg e } sid g base ar = ((exchangeCode env s' i sid g base ar).1, .errMsg c!"invalid_request") := by
    intro s' sid g base ar r h hid
    have er : ∀ s' g' b w, refreshPart env s' { i with idt := .errMsg e } sid g' b w = refreshPart env s' i sid g' b w := by intros; rfl
    unfold exchangeCode at h ⊢
    dsimp only at h ⊢
    simp only [er]
    generalize mintAndStore env env.th.accessToken s' i.now i.ma sid tAccessToken g base = w at h ⊢
    obtain ⟨w1, w2, w3⟩ := w
    cases w3 with
    | error x => cases h
    | ok tok =>
      simp only at h ⊢
      generalize refreshPart env w1 i sid w2 base (decide (c!"offline_access" ∈ g.scope)) = v at h ⊢
      obtain ⟨v1, v2, v3⟩ := v
      cases v3 with
      | error x => cases h
      | ok rt => exact fin1 _ _ _ _ _ _ _ _ h hid
  have ex2 : ∀ s' sid g base r, (exchangeRefresh m env s' i sid g base).2 = .val r → r.idToken.isSome = true →
      exchangeRefresh m env s' { i with idt := .errMsg e } sid g base = ((exchangeRefresh m env s' i sid g base).1, .errMsg c!"invalid_request") := by
    intro s' sid g base r h hid
    have er : ∀ s' g' b w, newRefresh m env s' { i with idt := .errMsg e } sid g' b w = newRefresh m env s' i sid g' b w := by intros; rfl
    unfold exchangeRefresh at h ⊢
    dsimp only at h ⊢
    simp only [er]
    generalize mintAndStore env env.th.accessToken s' i.now i.ma sid tAccessToken g base = w at h ⊢
    obtain ⟨w1, w2, w3⟩ := w
    cases w3 with
    | error x => cases h
    | ok tok =>
      simp only at h ⊢
      cases base with
      | none => cases h
      | some b =>
        simp only at h ⊢
        cases hmm : b.usageRules.supportsMinting with
        | none => simp [hmm] at h
        | some mints =>
          simp only [hmm] at h ⊢
          generalize newRefresh m env w1 i sid w2 b (decide (tRefreshToken ∈ mints)) = v at h ⊢
          obtain ⟨v1, v2⟩ := v
          cases v2 with
          | error x => cases h
          | ok rt => exact fin2 _ _ _ _ _ _ h hid
  have key : ∀ r, (helperProcess m env hs s i req).2 = .val r → r.idToken.isSome = true →
      helperProcess m env hs s { i with idt := .errMsg e } req = ((helperProcess m env hs s i req).1, .errMsg c!"invalid_request") := by
    intro r h hid
    unfold helperProcess at h ⊢
    cases hgt : req.grantType with
    | none => simp [hgt] at h
    | some gt =>
      simp only [hgt] at h ⊢
      cases hh : hs.get? gt with
      | none => simp [hh] at h
      | some x => cases x with
        | bare c => simp [hh] at h
        | inst c => cases c with
          | accessToken =>
            simp only [hh] at h ⊢
            unfold codeProcess at h ⊢
            by_cases hx : req.grantType ≠ some c!"authorization_code"
            · rw [if_pos hx] at h; cases h
            · rw [if_neg hx] at h ⊢
              rw [if_neg hx]
              cases hc0 : req.code with
              | none => simp [hc0] at h
              | some c0 =>
                simp only [hc0] at h ⊢
                cases hg : sessionByToken env.th env.cr s i.now (plusForBlank c0) with
                | error x => simp [hg] at h
                | ok y =>
                  obtain ⟨sid, o⟩ := y
                  cases o with
                  | info x => simp [hg] at h
                  | grant g =>
                    simp only [hg] at h ⊢
                    cases har : g.authReq with
                    | none => simp [har] at h
                    | some ar =>
                      simp only [har] at h ⊢
                      cases hrd : redirectCheck ar req with
                      | raise x => simp [hrd] at h
                      | errMsg x => simp [hrd] at h
                      | val x =>
                        simp only [hrd] at h ⊢
                        exact ex1 _ _ _ _ _ _ h hid
          | refreshToken =>
            simp only [hh] at h ⊢
            unfold refreshProcess at h ⊢
            by_cases hx : req.grantType ≠ some c!"refresh_token"
            · rw [if_pos hx] at h; cases h
            · rw [if_neg hx] at h ⊢
              rw [if_neg hx]
              cases hc0 : req.refreshToken with
              | none => simp [hc0] at h
              | some c0 =>
                simp only [hc0] at h ⊢
                cases hg : sessionByToken env.th env.cr s i.now c0 with
                | error x => simp [hg] at h
                | ok y =>
                  obtain ⟨sid, o⟩ := y
                  cases o with
                  | info x => simp [hg] at h
                  | grant g =>
                    simp only [hg] at h ⊢
                    exact ex2 _ _ _ _ _ h hid
  unfold tokProcess at h ⊢
  dsimp only at h ⊢
  cases hw : (helperProcess m env hs s i req).2 with
  | raise x => simp [hw] at h
  | errMsg x => simp [hw] at h
  | val r =>
    simp only [hw] at h ⊢
    have hr : r = resp ∧ ∃ sid g, sessionByToken env.th env.cr (helperProcess m env hs s i req).1 i.now r.accessToken = .ok (sid, .grant g) := by
      split at h
      · cases h
      · cases h
      · rename_i sid g hs'
        exact ⟨Out.val.inj h, sid, g, hs'⟩
    obtain ⟨rfl, sid, g, hs'⟩ := hr
    rw [key r hw hid]
    simp only [hs']

theorem provStep_failed_id_token {cfg : ProvCfg} {st : Prov} {inp : TokIn} {req : TokReq} {resp : TokResp}
    (h : sysResponse cfg.sys st.sys (.tokProcess inp req) = some (req, resp)) (hid : resp.idToken.isSome = true) (e : Str) :
    provStep cfg st (.tokenProcess { inp with idt := .errMsg e } req) = provStep cfg st (.tokenProcess inp req) ∧
      sysResponse cfg.sys st.sys (.tokProcess { inp with idt := .errMsg e } req) = none := by
  unfold sysResponse at h ⊢
  by_cases hp : req ∈ st.sys.pending
  · simp only [hp, if_true] at h ⊢
    cases hx : (tokProcess cfg.sys.mode cfg.sys.env cfg.sys.helpers st.sys.store inp req).2 with
    | raise x => simp [hx] at h
    | errMsg x => simp [hx] at h
    | val r =>
      simp only [hx, Option.some.injEq, Prod.mk.injEq, true_and] at h
      subst h
      have := C164_failed_id_token_is_not_undone _ _ _ _ _ _ _ hx hid e
      refine ⟨?_, by rw [this]⟩
      simp only [provStep, sysStep, hp, if_true, this]
  · simp [hp] at h

/-- C164 is false, on the web: if the ID token cannot be made when a code is redeemed, the code is lost: the client got an error,
and no later request with this code is answered with tokens, whoever sends it. -/
theorem C164_code_is_lost (cfg : ProvCfg) (ops : List HttpOp) (hw : WebRun cfg ops) (i : Nat) (inp : TokIn) (req : TokReq) (resp : TokResp)
    (hop : ops[i]? = some (.tokenProcess inp req)) (h : tokensAt cfg ops i = some (req, resp))
    (hgt : req.grantType = some c!"authorization_code") (hid : resp.idToken.isSome = true) (e : Str) :
    let failed := ops.set i (.tokenProcess { inp with idt := .errMsg e } req)
    tokensAt cfg failed i = none ∧ ∀ j r2 resp2, tokensAt cfg failed j = some (r2, resp2) →
      r2.grantType = some c!"authorization_code" → r2.code ≠ req.code := by
  intro failed
  have hlt : i < ops.length := (List.getElem?_eq_some_iff.1 hop).1
  have hs : sysResponse cfg.sys (provRun cfg (ops.take i)).sys (.tokProcess inp req) = some (req, resp) := by
    unfold tokensAt at h
    rw [hop] at h
    exact h
  obtain ⟨q1, q2⟩ := provStep_failed_id_token hs hid e
  have hti : failed.take i = ops.take i := by
    show (ops.set i _).take i = _
    rw [List.take_set, List.set_eq_of_length_le (by rw [List.length_take]; omega)]
  have hfi : failed[i]? = some (.tokenProcess { inp with idt := .errMsg e } req) := by
    show (ops.set i _)[i]? = _
    rw [List.getElem?_set_self hlt]
  have hrun : ∀ k, provRun cfg (failed.take k) = provRun cfg (ops.take k) := by
    intro k
    induction k with
    | zero => rfl
    | succ k ih =>
      by_cases hk : k = i
      · subst hk
        rw [take_snoc hfi, take_snoc hop, provRun_snoc, provRun_snoc, hti, q1]
      · have hne : failed[k]? = ops[k]? := by
          show (ops.set i _)[k]? = _
          rw [List.getElem?_set_ne (Ne.symm hk)]
        cases ho : ops[k]? with
        | none =>
          have l1 : ops.length ≤ k := List.getElem?_eq_none_iff.1 ho
          have l2 : failed.length ≤ k := by show (ops.set i _).length ≤ k; rw [List.length_set]; exact l1
          rw [List.take_of_length_le l1, List.take_of_length_le l2] at ih
          rw [List.take_of_length_le (by omega : ops.length ≤ k + 1), List.take_of_length_le (by omega : failed.length ≤ k + 1), ih]
        | some op =>
          rw [take_snoc (hne.trans ho), take_snoc ho, provRun_snoc, provRun_snoc, ih]
  have hnone : tokensAt cfg failed i = none := by
    unfold tokensAt
    rw [hfi]
    simp only [hrun]
    exact q2
  refine ⟨hnone, ?_⟩
  intro j r2 resp2 hj hg2 hc
  by_cases hji : j = i
  · subst hji
    rw [hnone] at hj
    cases hj
  · have hne : failed[j]? = ops[j]? := by
      show (ops.set i _)[j]? = _
      rw [List.getElem?_set_ne (Ne.symm hji)]
    have hj' : tokensAt cfg ops j = some (r2, resp2) := by
      unfold tokensAt at hj ⊢
      rw [hne, hrun] at hj
      exact hj
    obtain ⟨c, _, _, _, _, _, _, _, _, _, _, _, _, hcc, _⟩ := C137_code_terms_on_the_web cfg ops hw i req resp h hgt
    exact hji (C137_code_redeemed_once_on_the_web cfg ops hw j i r2 req resp2 resp c hj' h hg2 hgt (hc.trans hcc) hcc)

set_option maxRecDepth 16000 in
/-- The demo history: there is an ID token in the response, so had it failed, the code would have been lost. -/
example : (tokensAt webCfg webOps 3).map (fun x => x.2.idToken.isSome) = some true := by decide

set_option maxRecDepth 16000 in
/-- A token request with a wrong redirect URI is refused when it is processed, and changes nothing. -/
example : RefusedIn webCfg (provRun webCfg ((webOps.take 2) ++ [.tokenParse 1001 webSecret { webTok with redirectUri := some c!"https://evil/" }]))
    (.tokenProcess (tokIn 1001 c!"n3" c!"n4") { webTokParsed with redirectUri := some c!"https://evil/" }) ∧
    ¬ IdTokenFails (.tokenProcess (tokIn 1001 c!"n3" c!"n4") { webTokParsed with redirectUri := some c!"https://evil/" }) :=
  ⟨⟨c!"invalid_request", by decide⟩, by rintro ⟨e, he⟩; cases he⟩

set_option maxRecDepth 16000 in
/-- A browser without cookie is sent to log in. -/
example : RefusedIn webCfg (provRun webCfg (webOps.take 1)) (.authorize 1000 c!"g1" (mintIn c!"n1") (mintIn c!"n2") (.val c!"IDT") none webAreq) :=
  Or.inl (by decide)

end Verif
