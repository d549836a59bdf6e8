import Verif.Lemmas.CrashMoves
import Verif.Spec.System
set_option linter.unusedSimpArgs false
set_option linter.unusedVariables false
/-! An invariant of all histories of the provider. -/
namespace Verif
open Spec

theorem key_suffix (u c gid : Str) (h : ';' ∉ gid) :
    ((sessionKey [u, c, gid]).reverse.takeWhile (· ≠ ';')).reverse = gid := by
  have e : sessionKey [u, c, gid] = (u ++ [';', ';'] ++ c ++ [';']) ++ ';' :: gid := by
    simp [sessionKey, pyJoin, divider]
  rw [e, List.reverse_append, List.reverse_cons, List.append_assoc, List.takeWhile_append_of_pos]
  · simp
  · intro x hx
    rw [List.mem_reverse] at hx
    simp only [decide_eq_true_eq]
    rintro rfl
    exact h hx

theorem key_gid {u c gid u' c' gid' : Str} (h : ';' ∉ gid) (h' : ';' ∉ gid')
    (e : sessionKey [u, c, gid] = sessionKey [u', c', gid']) : gid = gid' := by
  rw [← key_suffix u c gid h, ← key_suffix u' c' gid' h', e]

/-- The grants a step may create. -/
def Created (env : Env) (s0 : Store) (op : SysOp) (k : Str) (g : Grant) : Prop :=
  (∃ u c gid, k = sessionKey [u, c, gid] ∧ LogsIn env s0 op u c gid g.authnEvent g.sub) ∧
  (∃ u c gid, gid ∈ newGid op ∧ k = sessionKey [u, c, gid]) ∧ g.issuedToken = [] ∧ g.tokenMap = defaultTokenMap ∧
    (∀ ar, g.authReq = some ar → ar ∈ newReqs op) ∧ (NoScopeGiven op → g.scope = [] ∧ g.claims = []) ∧
    (NoLimitGiven op → g.maxUsage = none)

theorem fromLogin_logsIn {env : Env} {s0 : Store} {now : Int} {a : AuthnIn} {gid : Str} {req : AuthReq} {k : Str} {g : Grant}
    (h : FromLogin env s0 now a gid req k g) {cdb : Cdb} {mc ma : MintIn} {idt : Out Str} :
    ∃ u c gid', k = sessionKey [u, c, gid'] ∧
      LogsIn env s0 (.authorize cdb now gid mc ma idt a req) u c gid' g.authnEvent g.sub := by
  obtain ⟨_, u, f, hk, hf, hs, h⟩ := h
  refine ⟨u, req.clientId, gid, hk, ?_⟩
  rw [hs]
  rcases h with ⟨h1, h2⟩ | ⟨sid, g0, h1, h2, h3⟩
  · rw [h2]; exact .login h1 hf
  · rw [h3]; exact .returning h1 h2 hf

/-- What holds after every history, `used` being the grant ids used so far. -/
structure SysInv (cfg : SysCfg) (used : List Str) (st : Sys) : Prop where
  noEmpty : NoEmpty st.store
  grants : ∀ k g, st.store k = some (.grant g) → UsedKey used k ∧ GInv cfg.env k g
  pending : ∀ req ∈ st.pending, PendOk cfg.env cfg.helpers used st.store req

theorem info_det {cr : TokenCrypto} {v : Str} {n1 n2 : Int} {l : List Handler} {a b : TokenInfo}
    (h1 : infoLoop cr n1 v l = .ok a) (h2 : infoLoop cr n2 v l = .ok b) : a = b := by
  induction l with
  | nil => simp [infoLoop] at h1
  | cons h l ih =>
    unfold infoLoop at h1 h2
    -- the outcome of one handler at the two times
    have key : handlerInfo cr h n1 v = handlerInfo cr h n2 v ∨ handlerInfo cr h n1 v = .error .tooOld ∨
        handlerInfo cr h n2 v = .error .tooOld := by
      unfold handlerInfo
      cases h.cls with
      | default => exact Or.inl rfl
      | jwt =>
        simp only
        cases cr.jwtUnpack h.key v with
        | none => exact Or.inl rfl
        | some x =>
          obtain ⟨sid, t, e⟩ := x
          simp only
          cases e1 : isExpired e n1 <;> cases e2 : isExpired e n2 <;> simp
    rcases key with hk | hk | hk
    · rw [hk] at h1
      cases hh : handlerInfo cr h n2 v with
      | ok r => simp only [hh] at h1 h2; cases h1; cases h2; rfl
      | error e =>
        simp only [hh] at h1 h2
        cases hc : handlerCaught e with
        | true => simp only [hc, if_true] at h1 h2; exact ih h1 h2
        | false => simp [hc] at h1
    · simp only [hk] at h1; simp [handlerCaught, Exn.isKeyError] at h1
    · simp only [hk] at h2; simp [handlerCaught, Exn.isKeyError] at h2

/-- A token string names one session, whenever it is looked at. -/
theorem sid_det {th : TokenHandler} {cr : TokenCrypto} {v a b : Str} {n1 n2 : Int} (h1 : th.sid cr n1 v = .ok a)
    (h2 : th.sid cr n2 v = .ok b) : a = b := by
  unfold TokenHandler.sid TokenHandler.info at h1 h2
  cases e1 : infoLoop cr n1 v th.order with
  | error e => simp [e1] at h1
  | ok x =>
    cases e2 : infoLoop cr n2 v th.order with
    | error e => simp [e2] at h2
    | ok y =>
      have := info_det e1 e2
      subst this
      simp only [e1] at h1
      simp only [e2] at h2
      cases hs : x.sid with
      | none => simp [hs] at h1
      | some s => simp only [hs] at h1 h2; cases h1; cases h2; rfl

/-- A statement about one token of a session: if its grant is stored, the token is found there and satisfies `P`. -/
def Holds (used : List Str) (s : Store) (sid v : Str) (P : Token → Prop) : Prop :=
  UsedKey used sid ∧ ∀ g, s sid = some (.grant g) → ∃ t, g.getToken v = some t ∧ P t

/-- Such statements survive a step if `P` survives changes of the token. -/
theorem Holds.step {env : Env} {used : List Str} {s s' : Store} {op : SysOp} {sid v : Str} {P : Token → Prop}
    (h : Holds used s sid v P) (hP : ∀ t t', Pres t t' → P t → P t') (hm : Moves env (Created env s op) s s')
    (hgood : ∀ gid ∈ used ++ newGid op, ';' ∉ gid) (hnew : ∀ gid ∈ newGid op, gid ∉ used) :
    Holds (used ++ newGid op) s' sid v P := by
  obtain ⟨⟨u, c, gid, hg, hk⟩, h2⟩ := h
  refine ⟨⟨u, c, gid, by simp [hg], hk⟩, ?_⟩
  intro g' hg'
  obtain ⟨g, hgs, hev⟩ := hm _ _ hg'
  rcases hgs with hgs | ⟨_, ⟨u', c', gid', hg1, hk1⟩, _⟩
  · obtain ⟨t, ht, hPt⟩ := h2 g hgs
    obtain ⟨t', ht', hp⟩ := hev.getToken ht
    exact ⟨t', ht', hP t t' hp hPt⟩
  · exfalso
    rw [hk] at hk1
    have := key_gid (hgood gid (by simp [hg])) (hgood gid' (by simp [hg1])) hk1
    subst this
    exact hnew gid hg1 hg

theorem PendOk.step {env : Env} {helpers : Dict Helper} {used : List Str} {s s' : Store} {op : SysOp} {req : TokReq}
    (h : PendOk env helpers used s req) (hm : Moves env (Created env s op) s s')
    (hgood : ∀ gid ∈ used ++ newGid op, ';' ∉ gid) (hnew : ∀ gid ∈ newGid op, gid ∉ used) :
    PendOk env helpers (used ++ newGid op) s' req := by
  intro gt hgt
  refine ⟨?_, ?_⟩
  · intro hh
    obtain ⟨c, hc, hpl, hr⟩ := (h gt hgt).1 hh
    refine ⟨c, hc, hpl, fun now sid hs => ?_⟩
    exact Holds.step (hr now sid hs) (fun t t' hp ht => hp.kind.trans ht) hm hgood hnew
  · intro hh
    obtain ⟨v, hv, hr⟩ := (h gt hgt).2 hh
    refine ⟨v, hv, fun now sid hs => ?_⟩
    exact Holds.step (hr now sid hs) (fun t t' hp ht => hp.kind.trans ht) hm hgood hnew

theorem plusForBlank_id {v : Str} (h : ' ' ∉ v) : plusForBlank v = v := by
  have : v.map (fun c => if c = ' ' then '+' else c) = v.map id := by
    apply List.map_congr_left
    intro c hc
    have : c ≠ ' ' := by rintro rfl; exact h hc
    simp [this]
  unfold plusForBlank
  rw [this, List.map_id]

theorem getToken_value {g : Grant} {v : Str} {t : Token} (h : g.getToken v = some t) : t.value = v ∧ t ∈ g.issuedToken := by
  obtain ⟨i, h1, h2, _⟩ := findValue_pos h
  exact ⟨h2, List.mem_of_getElem? h1⟩

theorem FromHandler.blankFree {env : Env} (hb : BlankFree env) {k tt v : Str} (h : FromHandler env k tt v) : ' ' ∉ v := by
  obtain ⟨hd, h1, now, rnd, nonce, ttype, h2⟩ := h
  rw [h2]
  apply hb
  split at h1
  · exact Or.inl h1
  · exact Or.inr h1

theorem pkceTokenParse_val {p : Pkce} {env : Env} {s : Store} {now : Int} {req r : TokReq}
    (h : pkceTokenParse p env s now req = .val r) : r = req := by
  unfold pkceTokenParse at h
  cases hc : req.code with
  | none => simp [hc] at h
  | some c =>
    simp only [hc] at h
    cases hs : sessionByToken env.th env.cr s now c with
    | error e => simp only [hs] at h; split at h <;> cases h
    | ok x =>
      obtain ⟨sid, o⟩ := x
      cases o with
      | info _ => simp [hs] at h
      | grant g =>
        simp only [hs] at h
        cases ha : g.authReq with
        | none => simp [ha] at h
        | some ar =>
          simp only [ha] at h
          cases hch : ar.codeChallenge with
          | none => simp only [hch] at h; exact (Out.val.inj h).symm
          | some ch =>
            simp only [hch] at h
            cases hv : req.codeVerifier with
            | none => simp [hv] at h
            | some v =>
              simp only [hv] at h
              cases hm : ar.codeChallengeMethod with
              | none => simp [hm] at h
              | some m =>
                simp only [hm] at h
                cases hx : verifyChallenge p.methods v ch m with
                | error e => simp [hx] at h
                | ok b =>
                  cases b with
                  | false => simp [hx] at h
                  | true => simp only [hx] at h; exact (Out.val.inj h).symm

/-- Everything a successful `AccessTokenHelper.post_parse_request` has checked. -/
theorem codeParse_val {env : Env} {s : Store} {now : Int} {req r : TokReq} (h : codeParse env s now req = .val r) :
    ∃ c sid g t, req.code = some c ∧ r.code = some c ∧ r.grantType = req.grantType ∧ r.redirectUri = req.redirectUri ∧
      r.codeVerifier = req.codeVerifier ∧ sessionByToken env.th env.cr s now c = .ok (sid, .grant g) ∧
      g.getToken c = some t ∧ t.kind = .authorizationCode ∧ t.isActive now = true := by
  unfold codeParse at h
  cases hc : req.code with
  | none => simp [hc] at h
  | some c =>
    simp only [hc] at h
    cases hs : sessionByToken env.th env.cr s now c with
    | error e => simp only [hs] at h; split at h <;> cases h
    | ok x =>
      obtain ⟨sid, o⟩ := x
      cases o with
      | info _ => simp [hs] at h
      | grant g =>
        simp only [hs] at h
        cases ht : g.getToken c with
        | none => simp [ht] at h
        | some t =>
          simp only [ht] at h
          by_cases hk : t.kind = .authorizationCode
          · by_cases ha : t.isActive now = false
            · simp [hk, ha] at h
            · rw [Bool.not_eq_false] at ha
              simp only [hk, ne_eq, not_true_eq_false, if_false, ha, Bool.true_eq_false] at h
              cases hci : req.clientId with
              | some ci =>
                simp only [hci] at h
                cases h
                exact ⟨c, sid, g, t, rfl, hc, rfl, rfl, rfl, hs, ht, hk, ha⟩
              | none =>
                simp only [hci] at h
                cases har : g.authReq with
                | none => simp [har] at h
                | some ar =>
                  simp only [har] at h
                  cases h
                  exact ⟨c, sid, g, t, rfl, rfl, rfl, rfl, rfl, hs, ht, hk, ha⟩
          · simp [hk] at h

/-- Everything a successful `RefreshTokenHelper.post_parse_request` has checked. -/
theorem refreshParse_val {env : Env} {s : Store} {now : Int} {req r : TokReq} (h : refreshParse env s now req = .val r) :
    r = req ∧ ∃ v sid g t, req.refreshToken = some v ∧ sessionByToken env.th env.cr s now v = .ok (sid, .grant g) ∧
      g.getToken v = some t ∧ t.kind = .refreshToken ∧ t.isActive now = true := by
  unfold refreshParse at h
  cases hc : req.refreshToken with
  | none => simp [hc] at h
  | some c =>
    simp only [hc] at h
    cases hs : sessionByToken env.th env.cr s now c with
    | error e => simp only [hs] at h; split at h <;> cases h
    | ok x =>
      obtain ⟨sid, o⟩ := x
      cases o with
      | info _ => simp [hs] at h
      | grant g =>
        simp only [hs] at h
        cases ht : g.getToken c with
        | none => simp [ht] at h
        | some t =>
          simp only [ht] at h
          by_cases hk : t.kind = .refreshToken
          · by_cases ha : t.isActive now = false
            · simp [hk, ha] at h
            · rw [Bool.not_eq_false] at ha
              simp only [hk, ne_eq, not_true_eq_false, if_false, ha, Bool.true_eq_false] at h
              cases h
              exact ⟨rfl, c, sid, g, t, rfl, hs, ht, hk, ha⟩
          · simp [hk] at h

/-- A parsed token request satisfies `PendOk`. -/
theorem tokParse_pend {cfg : SysCfg} {used : List Str} {st : Sys} (hi : SysInv cfg used st) (hb : BlankFree cfg.env)
    {now : Int} {req r : TokReq} (h : tokParse cfg.env cfg.helpers st.store now req = .val r) :
    PendOk cfg.env cfg.helpers used st.store r := by
  unfold tokParse at h
  cases hh : helperParse cfg.env cfg.helpers st.store now req with
  | errMsg e => simp [hh] at h
  | raise e => simp [hh] at h
  | val r0 =>
    have hr : r = r0 := by
      simp only [hh] at h
      cases hp : cfg.env.pkce with
      | none => simp only [hp] at h; exact (Out.val.inj h).symm
      | some p => simp only [hp] at h; exact pkceTokenParse_val h
    subst hr
    unfold helperParse at hh
    cases hgt : req.grantType with
    | none => simp [hgt] at hh
    | some gt =>
      simp only [hgt] at hh
      cases hx : cfg.helpers.get? gt with
      | none => simp [hx] at hh
      | some hc =>
        cases hc with
        | bare c => simp [hx] at hh
        | inst c =>
          cases c with
          | accessToken =>
            simp only [hx] at hh
            obtain ⟨c, sid, g, t, h1, h2, h3, _, _, h4, h5, h6, _⟩ := codeParse_val hh
            obtain ⟨k1, k2, k3⟩ := sessionByToken_key hi.noEmpty h4
            obtain ⟨hu, hgi⟩ := hi.grants _ _ k2
            intro gt' hgt'
            rw [h3, hgt] at hgt'
            cases hgt'
            refine ⟨fun _ => ⟨c, h2, ?_, ?_⟩, fun hx' => by rw [hx] at hx'; cases hx'⟩
            · obtain ⟨e1, e2⟩ := getToken_value h5
              rw [← e1]
              exact plusForBlank_id ((hgi.tokens t e2).2.1.blankFree hb)
            · intro now' sid' hs'
              have := sid_det k1 hs'
              subst this
              refine ⟨hu, ?_⟩
              intro g' hg'
              rw [k2] at hg'
              cases hg'
              exact ⟨t, h5, h6⟩
          | refreshToken =>
            simp only [hx] at hh
            obtain ⟨rfl, v, sid, g, t, h2, h4, h5, h6, _⟩ := refreshParse_val hh
            obtain ⟨k1, k2, k3⟩ := sessionByToken_key hi.noEmpty h4
            obtain ⟨hu, hgi⟩ := hi.grants _ _ k2
            intro gt' hgt'
            rw [hgt] at hgt'
            cases hgt'
            refine ⟨fun hx' => (by rw [hx] at hx'; cases hx'), fun _ => ⟨v, h2, ?_⟩⟩
            intro now' sid' hs'
            have := sid_det k1 hs'
            subst this
            refine ⟨hu, ?_⟩
            intro g' hg'
            rw [k2] at hg'
            cases hg'
            exact ⟨t, h5, h6⟩

/-- Every crash point of a step, seen from the stored grants. -/
theorem stepTrace_st {cfg : SysCfg} {used : List Str} {st : Sys} {op : SysOp} (hi : SysInv cfg used st)
    (hgood : ∀ gid ∈ used ++ newGid op, gid ≠ [] ∧ ';' ∉ gid) (hnew : ∀ gid ∈ newGid op, gid ∉ used) (hpl : PlainGrants op) :
    Tr cfg.env (Created cfg.env st.store op) st.store (stepTrace cfg st op) := by
  have hst : ∀ C, St cfg.env C st.store st.store := fun C => St.start hi.noEmpty
  induction op with
  | authorize cdb now gid mc ma idt a req =>
    simp only [stepTrace]
    refine Tr.mono ?_ (authz_tr (req := req) hi.noEmpty (hgood gid (by simp [newGid])).1 ?_ cdb now mc ma idt a)
    · rintro k g ⟨ho, ⟨u, c, hk⟩, h1, h2, h3, h4⟩
      exact ⟨fromLogin_logsIn ho, ⟨u, c, gid, by simp [newGid], hk⟩, h1, h2, fun ar har => by rw [h3] at har; cases har; simp [newReqs], fun _ => h4, fun _ => ho.1⟩
    · intro u c g hg
      obtain ⟨⟨u', c', gid', h1, h2⟩, _⟩ := hi.grants _ _ hg
      have := key_gid (hgood gid (by simp [newGid])).2 (hgood gid' (by simp [h1])).2 h2
      subst this
      exact hnew gid (by simp [newGid]) h1
  | tokParse now req => exact Tr.nil
  | tokProcess i req =>
    simp only [stepTrace]
    by_cases hm : req ∈ st.pending
    · simp only [hm, if_true]
      exact tok_tr hi.noEmpty (fun k g h => (hi.grants k g h).2) i req (hi.pending req hm)
    · simp only [hm, if_false]; exact Tr.nil
  | createSession now gid u c a =>
    apply createSession_tr (hst _) now gid u c a (hgood gid (by simp [newGid])).1
    intro c' g hc hn h1 h2 h3 h4
    obtain ⟨f, f1, f2, f3, f4⟩ := newGrant_ok hn
    exact ⟨⟨u, c', gid, rfl, by rw [f2, f3, hc]; exact .session f1⟩, ⟨u, c', gid, by simp [newGid], rfl⟩, h1, h2, fun ar har => by rw [h3] at har; cases har; simp [newReqs], fun h => ⟨h4.1.trans h, h4.2⟩, fun h => f4.trans h⟩
  | createGrant now gid u c a =>
    apply createGrant_tr (hst _) now gid u c a (hgood gid (by simp [newGid])).1
    intro g hn h1 h2 h3 h4
    obtain ⟨f, f1, f2, f3, f4⟩ := newGrant_ok hn
    exact ⟨⟨u, c, gid, rfl, by rw [f2, f3]; exact .grant f1⟩, ⟨u, c, gid, by simp [newGid], rfl⟩, h1, h2, fun ar har => by rw [h3] at har; cases har; simp [newReqs], fun h => ⟨h4.1.trans h, h4.2⟩, fun h => f4.trans h⟩
  | addGrant now gid u c a =>
    apply addGrant_tr (hst _) now gid u c a (hgood gid (by simp [newGid])).1
    refine ⟨⟨u, c, gid, rfl, .add⟩, ⟨u, c, gid, by simp [newGid], rfl⟩, hpl.1, by simp [Grant.new, hpl.2], ?_, fun h => ⟨h, rfl⟩, fun h => h⟩
    intro ar har
    simp only [newReqs, Option.mem_toList]
    exact har
  | revokeToken limit sid v r => exact Tr.nil
  | revokeGrant sid => exact revokeGrant_tr (hst _) sid
  | revokeClientSession sid => exact revokeClient_tr (hst _) sid
  | removeSession sid => exact (hst _).removeTr sid
  | delete path => exact (hst _).deleteTr path
  | crash op n ih =>
    intro s' hs'
    refine (ih hgood hnew hpl s' (List.mem_of_mem_take hs')).mono ?_
    rintro k g ⟨⟨u, c, gid, h1, h2⟩, h3⟩
    exact ⟨⟨u, c, gid, h1, .killed h2⟩, h3⟩

/-- One step, seen from the stored grants. -/
theorem sysStep_st {cfg : SysCfg} {used : List Str} {st : Sys} {op : SysOp} (hi : SysInv cfg used st)
    (hgood : ∀ gid ∈ used ++ newGid op, gid ≠ [] ∧ ';' ∉ gid) (hnew : ∀ gid ∈ newGid op, gid ∉ used) (hpl : PlainGrants op) :
    St cfg.env (Created cfg.env st.store op) st.store (sysStep cfg st op).store := by
  have hst : St cfg.env (Created cfg.env st.store op) st.store st.store := St.start hi.noEmpty
  have hgood1 : ∀ gid ∈ newGid op, gid ≠ [] := fun gid h => (hgood gid (by simp [h])).1
  cases op with
  | authorize cdb now gid mc ma idt a req =>
    simp only [sysStep]
    refine St.mono ?_ (authzProcess_st (req := req) hi.noEmpty (hgood1 gid (by simp [newGid])) ?_ cdb now mc ma idt a)
    · rintro k g ⟨ho, ⟨u, c, hk⟩, h1, h2, h3, h4⟩
      exact ⟨fromLogin_logsIn ho, ⟨u, c, gid, by simp [newGid], hk⟩, h1, h2, fun ar har => by rw [h3] at har; cases har; simp [newReqs], fun _ => h4, fun _ => ho.1⟩
    · intro u c g hg
      obtain ⟨⟨u', c', gid', h1, h2⟩, _⟩ := hi.grants _ _ hg
      have := key_gid (hgood gid (by simp [newGid])).2 (hgood gid' (by simp [h1])).2 h2
      subst this
      exact hnew gid (by simp [newGid]) h1
  | tokParse now req =>
    simp only [sysStep]
    cases tokParse cfg.env cfg.helpers st.store now req <;> exact hst
  | tokProcess i req =>
    simp only [sysStep]
    by_cases hm : req ∈ st.pending
    · simp only [hm, if_true]
      exact tokProcess_st cfg.mode hi.noEmpty (fun k g h => (hi.grants k g h).2) i req (hi.pending req hm)
    · simp only [hm, if_false]; exact hst
  | createSession now gid u c a =>
    simp only [sysStep]
    apply createSession_st hst now gid u c a (hgood1 gid (by simp [newGid]))
    intro c' g hc hn h1 h2 h3 h4
    obtain ⟨f, f1, f2, f3, f4⟩ := newGrant_ok hn
    exact ⟨⟨u, c', gid, rfl, by rw [f2, f3, hc]; exact .session f1⟩, ⟨u, c', gid, by simp [newGid], rfl⟩, h1, h2, fun ar har => by rw [h3] at har; cases har; simp [newReqs], fun h => ⟨h4.1.trans h, h4.2⟩, fun h => f4.trans h⟩
  | createGrant now gid u c a =>
    simp only [sysStep]
    apply createGrant_st hst now gid u c a (hgood1 gid (by simp [newGid]))
    intro g hn h1 h2 h3 h4
    obtain ⟨f, f1, f2, f3, f4⟩ := newGrant_ok hn
    exact ⟨⟨u, c, gid, rfl, by rw [f2, f3]; exact .grant f1⟩, ⟨u, c, gid, by simp [newGid], rfl⟩, h1, h2, fun ar har => by rw [h3] at har; cases har; simp [newReqs], fun h => ⟨h4.1.trans h, h4.2⟩, fun h => f4.trans h⟩
  | addGrant now gid u c a =>
    simp only [sysStep]
    apply addGrant_st hst now gid u c a (hgood1 gid (by simp [newGid]))
    refine ⟨⟨u, c, gid, rfl, .add⟩, ⟨u, c, gid, by simp [newGid], rfl⟩, hpl.1, by simp [Grant.new, hpl.2], ?_, fun h => ⟨h, rfl⟩, fun h => h⟩
    intro ar har
    simp only [newReqs, Option.mem_toList]
    exact har
  | revokeToken limit sid v r => exact revokeToken_st cfg.mode hst limit sid v r
  | revokeGrant sid => exact revokeGrant_st hst sid
  | revokeClientSession sid => exact revokeClientSession_st hst sid
  | removeSession sid =>
    simp only [sysStep, Verif.removeSession]
    cases unpack3 sid with
    | error e => exact hst
    | ok t => exact delete_st cfg.mode hst _
  | delete path => exact delete_st cfg.mode hst path
  | crash op n =>
    simp only [sysStep]
    cases cfg.mode with
    | aliased =>
      refine ⟨?_, ?_⟩
      · intro k g h; simp [Sys.init, Store.empty] at h
      · intro k i h; simp [Sys.init, Store.empty] at h
    | byValue =>
      simp only
      rcases lastOf_cases st.store ((stepTrace cfg st op).take n) with h | h
      · rw [h]; exact hst
      · exact stepTrace_st (op := .crash op n) hi hgood hnew hpl _ h

theorem SysInv.step {cfg : SysCfg} {used : List Str} {st : Sys} {op : SysOp} (hi : SysInv cfg used st) (hb : BlankFree cfg.env)
    (hgood : ∀ gid ∈ used ++ newGid op, gid ≠ [] ∧ ';' ∉ gid) (hnew : ∀ gid ∈ newGid op, gid ∉ used) (hpl : PlainGrants op) :
    SysInv cfg (used ++ newGid op) (sysStep cfg st op) := by
  have hst := sysStep_st hi hgood hnew hpl
  refine ⟨hst.noEmpty, ?_, ?_⟩
  · intro k g hk
    obtain ⟨g0, h1, h2⟩ := hst.moves k g hk
    rcases h1 with h1 | ⟨_, ⟨u, c, gid, h3, h4⟩, h5, h6, _⟩
    · obtain ⟨⟨u, c, gid, h3, h4⟩, h5⟩ := hi.grants _ _ h1
      exact ⟨⟨u, c, gid, by simp [h3], h4⟩, h5.evo h2⟩
    · exact ⟨⟨u, c, gid, by simp [h3], h4⟩, (GInv.new h5 h6).evo h2⟩
  · intro req hreq
    have hold : req ∈ st.pending → PendOk cfg.env cfg.helpers (used ++ newGid op) (sysStep cfg st op).store req := fun h =>
      (hi.pending req h).step hst.moves (fun gid hg => (hgood gid hg).2) hnew
    cases op with
    | tokParse now req0 =>
      simp only [sysStep] at hreq hold ⊢
      cases hp : tokParse cfg.env cfg.helpers st.store now req0 with
      | val r =>
        simp only [hp] at hreq hold ⊢
        rcases List.mem_cons.1 hreq with rfl | h
        · have := tokParse_pend hi hb hp
          simpa [newGid] using this
        · exact hold h
      | errMsg e => simp only [hp] at hreq hold ⊢; exact hold hreq
      | raise e => simp only [hp] at hreq hold ⊢; exact hold hreq
    | tokProcess i req0 =>
      simp only [sysStep] at hreq hold ⊢
      by_cases hm : req0 ∈ st.pending
      · simp only [hm, if_true] at hreq hold ⊢; exact hold hreq
      · simp only [hm, if_false] at hreq hold ⊢; exact hold hreq
    | crash op n =>
      exfalso
      simp only [sysStep] at hreq
      cases hm : cfg.mode <;> simp [hm, Sys.init] at hreq
    | _ => exact hold hreq

theorem SysInv.init (cfg : SysCfg) : SysInv cfg [] Sys.init :=
  ⟨by intro k i h; simp [Sys.init, Store.empty] at h, by intro k g h; simp [Sys.init, Store.empty] at h, by simp [Sys.init]⟩

theorem sysRun_snoc (cfg : SysCfg) (ops : List SysOp) (op : SysOp) :
    sysRun cfg (ops ++ [op]) = sysStep cfg (sysRun cfg ops) op := by
  simp [sysRun, List.foldl_append]

/-- Facts about one position of a history. -/
theorem freshAt {ops : List SysOp} (h : FreshRun ops) {i : Nat} {op : SysOp} (hi : ops[i]? = some op) :
    (∀ gid ∈ (ops.take i).flatMap newGid ++ newGid op, gid ≠ [] ∧ ';' ∉ gid) ∧
    (∀ gid ∈ newGid op, gid ∉ (ops.take i).flatMap newGid) ∧ PlainGrants op ∧
    ops.take (i + 1) = ops.take i ++ [op] := by
  have htake : ops.take (i + 1) = ops.take i ++ [op] := by
    rw [List.take_add_one, hi]; rfl
  have hsub : ∀ gid ∈ (ops.take i).flatMap newGid ++ newGid op, gid ∈ ops.flatMap newGid := by
    intro gid hg
    have : gid ∈ (ops.take (i + 1)).flatMap newGid := by
      rw [htake]; simpa using hg
    rw [List.mem_flatMap] at this ⊢
    obtain ⟨o, ho, hgo⟩ := this
    exact ⟨o, List.mem_of_mem_take ho, hgo⟩
  refine ⟨fun gid hg => h.good gid (hsub gid hg), ?_, h.plain op (List.mem_of_getElem? hi), htake⟩
  intro gid hg hg2
  have hn := h.nodup
  rw [← List.take_append_drop (i + 1) ops, List.flatMap_append, htake, List.flatMap_append, List.nodup_append,
    List.nodup_append] at hn
  exact hn.1.2.2 gid hg2 gid (by simpa using hg) rfl

/-- The invariant holds after every prefix of a history. -/
theorem sysRun_inv (cfg : SysCfg) (ops : List SysOp) (hf : FreshRun ops) (hb : BlankFree cfg.env) (i : Nat) :
    SysInv cfg ((ops.take i).flatMap newGid) (sysRun cfg (ops.take i)) := by
  induction i with
  | zero => exact SysInv.init cfg
  | succ i ih =>
    cases hi : ops[i]? with
    | none =>
      rw [List.take_add_one, hi]
      simpa using ih
    | some op =>
      obtain ⟨h1, h2, h3, h4⟩ := freshAt hf hi
      rw [h4, sysRun_snoc, List.flatMap_append]
      simpa using ih.step hb h1 h2 h3

/-- A statement about one token, once true, stays true (as long as the grant is stored). -/
theorem holds_later {cfg : SysCfg} {ops : List SysOp} (hf : FreshRun ops) (hb : BlankFree cfg.env) {i : Nat} {sid v : Str}
    {P : Token → Prop} (hP : ∀ t t', Pres t t' → P t → P t')
    (h : Holds ((ops.take i).flatMap newGid) (sysRun cfg (ops.take i)).store sid v P) (j : Nat) (hij : i ≤ j) :
    Holds ((ops.take j).flatMap newGid) (sysRun cfg (ops.take j)).store sid v P := by
  induction j with
  | zero =>
    have : i = 0 := by omega
    subst this
    exact h
  | succ j ih =>
    by_cases e : i = j + 1
    · subst e; exact h
    · have ih := ih (by omega)
      cases hj : ops[j]? with
      | none =>
        rw [List.take_add_one, hj]
        simpa using ih
      | some op =>
        obtain ⟨h1, h2, h3, h4⟩ := freshAt hf hj
        have hst := sysStep_st (sysRun_inv cfg ops hf hb j) h1 h2 h3
        rw [h4, sysRun_snoc, List.flatMap_append]
        simpa using ih.step hP hst.moves (fun gid hg => (h1 gid hg).2) h2

/-- Where stored grants come from: each was created by an earlier step and changed only as `Evo` says. -/
theorem grant_origin {cfg : SysCfg} {ops : List SysOp} (hf : FreshRun ops) (hb : BlankFree cfg.env) (i : Nat) {k : Str}
    {g : Grant} (hg : (sysRun cfg (ops.take i)).store k = some (.grant g)) :
    ∃ (j : Nat) (op : SysOp) (g0 : Grant), j < i ∧ ops[j]? = some op ∧ Created cfg.env (sysRun cfg (ops.take j)).store op k g0 ∧ Evo cfg.env k g0 g := by
  induction i generalizing g with
  | zero => simp [sysRun, Sys.init, Store.empty] at hg
  | succ i ih =>
    cases hi : ops[i]? with
    | none =>
      rw [List.take_add_one, hi] at hg
      simp only [Option.toList_none, List.append_nil] at hg
      obtain ⟨j, op, g0, h1, h2, h3, h4⟩ := ih hg
      exact ⟨j, op, g0, by omega, h2, h3, h4⟩
    | some op =>
      obtain ⟨h1, h2, h3, h4⟩ := freshAt hf hi
      have hst := sysStep_st (sysRun_inv cfg ops hf hb i) h1 h2 h3
      rw [h4, sysRun_snoc] at hg
      obtain ⟨g0, hg0, hev⟩ := hst.moves k g hg
      rcases hg0 with hg0 | hg0
      · obtain ⟨j, op', g1, e1, e2, e3, e4⟩ := ih hg0
        exact ⟨j, op', g1, by omega, e2, e3, e4.trans hev⟩
      · exact ⟨i, op, g0, by omega, hi, hg0, hev⟩

/-- A grant stored under the same key later is the same grant, changed only as `Evo` says. -/
theorem evo_later {cfg : SysCfg} {ops : List SysOp} (hf : FreshRun ops) (hb : BlankFree cfg.env) {i j : Nat} (hij : i ≤ j)
    {k : Str} {g g' : Grant} (hg : (sysRun cfg (ops.take i)).store k = some (.grant g))
    (hg' : (sysRun cfg (ops.take j)).store k = some (.grant g')) : Evo cfg.env k g g' := by
  induction j generalizing g' with
  | zero =>
    have : i = 0 := by omega
    subst this
    rw [hg] at hg'
    cases hg'
    exact Evo.refl g
  | succ j ih =>
    by_cases e : i = j + 1
    · subst e
      rw [hg] at hg'
      cases hg'
      exact Evo.refl g
    · cases hj : ops[j]? with
      | none =>
        rw [List.take_add_one, hj] at hg'
        simp only [Option.toList_none, List.append_nil] at hg'
        exact ih (by omega) hg'
      | some op =>
        obtain ⟨h1, h2, h3, h4⟩ := freshAt hf hj
        have hst := sysStep_st (sysRun_inv cfg ops hf hb j) h1 h2 h3
        rw [h4, sysRun_snoc] at hg'
        obtain ⟨g0, hg0, hev⟩ := hst.moves k g' hg'
        rcases hg0 with hg0 | ⟨_, ⟨u, c, gid, e1, e2⟩, _⟩
        · exact (ih (by omega) hg0).trans hev
        · exfalso
          obtain ⟨⟨u', c', gid', e3, e4⟩, _⟩ := (sysRun_inv cfg ops hf hb i).grants _ _ hg
          have hmem : gid' ∈ (ops.take j).flatMap newGid := by
            rw [List.mem_flatMap] at e3 ⊢
            obtain ⟨o, ho, hgo⟩ := e3
            exact ⟨o, (List.take_subset_take_left ops (by omega : i ≤ j)) ho, hgo⟩
          rw [e2] at e4
          have := key_gid (h1 gid (by simp [e1])).2 (h1 gid' (by simp only [List.mem_append]; exact Or.inl hmem)).2 e4
          subst this
          exact h2 gid e1 hmem

/-- A pending request was returned by an earlier parsing step. -/
theorem pending_parsed {cfg : SysCfg} {ops : List SysOp} (i : Nat) {req : TokReq}
    (h : req ∈ (sysRun cfg (ops.take i)).pending) :
    ∃ (k : Nat) (now : Int) (req0 : TokReq), k < i ∧ ops[k]? = some (.tokParse now req0) ∧
      tokParse cfg.env cfg.helpers (sysRun cfg (ops.take k)).store now req0 = .val req := by
  induction i with
  | zero => simp [sysRun, Sys.init] at h
  | succ i ih =>
    cases hi : ops[i]? with
    | none =>
      rw [List.take_add_one, hi] at h
      simp only [Option.toList_none, List.append_nil] at h
      obtain ⟨k, now, r0, h1, h2⟩ := ih h
      exact ⟨k, now, r0, by omega, h2⟩
    | some op =>
      have h4 : ops.take (i + 1) = ops.take i ++ [op] := by rw [List.take_add_one, hi]; rfl
      rw [h4, sysRun_snoc] at h
      have hold : req ∈ (sysRun cfg (ops.take i)).pending → ∃ (k : Nat) (now : Int) (req0 : TokReq), k < i + 1 ∧
          ops[k]? = some (.tokParse now req0) ∧
          tokParse cfg.env cfg.helpers (sysRun cfg (ops.take k)).store now req0 = .val req := by
        intro hh
        obtain ⟨k, now, r0, h1, h2⟩ := ih hh
        exact ⟨k, now, r0, by omega, h2⟩
      cases op with
      | tokParse now req0 =>
        simp only [sysStep] at h
        cases hp : tokParse cfg.env cfg.helpers (sysRun cfg (ops.take i)).store now req0 with
        | val r =>
          simp only [hp] at h
          rcases List.mem_cons.1 h with rfl | h
          · exact ⟨i, now, req0, by omega, hi, hp⟩
          · exact hold h
        | errMsg e => simp only [hp] at h; exact hold h
        | raise e => simp only [hp] at h; exact hold h
      | tokProcess inp req0 =>
        simp only [sysStep] at h
        by_cases hm : req0 ∈ (sysRun cfg (ops.take i)).pending
        · simp only [hm, if_true] at h; exact hold h
        · simp only [hm, if_false] at h; exact hold h
      | crash op n =>
        exfalso
        simp only [sysStep] at h
        cases hm : cfg.mode <;> simp [hm, Sys.init] at h
      | _ => exact hold h

end Verif
