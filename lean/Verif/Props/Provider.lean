import Verif.Lemmas.ProviderInv
import Verif.Props.ClientAuthn
import Verif.Lemmas.LocalToken
set_option linter.unusedSimpArgs false
set_option linter.unusedVariables false
/-! The provider as a whole, at the level of HTTP requests: C119-C123. -/
namespace Verif
open Spec

/-! ### Sessions -/

/-- C119: whatever requests are made, every session that is stored goes back to a request at the authorization endpoint in
which the browser showed who its user is, for a client known then; and to an authentication of that user. -/
theorem C119_sessions_only_from_logins (cfg : ProvCfg) (ops : List HttpOp) (hw : WebRun cfg ops) (i : Nat) (sid : Str) (g : Grant)
    (h : (provRun cfg (ops.take i)).sys.store sid = some (.grant g)) :
    ∃ u c gid, unpackSessionKey sid = [u, c, gid] ∧ WebLogin cfg ops i sid u c g.sub g.authnEvent ∧ NamedIn cfg (ops.take i) c := by
  obtain ⟨hf, hn, hc⟩ := expand_ok (hw.take i)
  rw [provRun_sys] at h
  obtain ⟨u, c, gid, h1, h2⟩ := session_from_login hf (hw.take i).blank hn hc (expand cfg (ops.take i)).length (by rw [List.take_length]; exact h)
  have hl := (webLogin_of h2).of_take
  refine ⟨u, c, gid, h1, hl, ?_⟩
  obtain ⟨k, now, gid, mc, ma, idt, raw, req, q, f, k1, k2, k3, k4, k5, _⟩ := hl.login
  rcases provRun_named cfg _ c k5 with h | ⟨i', n, ss, v, req', h, h'⟩
  · exact Or.inl h
  · refine Or.inr ⟨i', n, ss, v, req', ?_, h'⟩
    have : ops.take k = (ops.take i).take k := by rw [List.take_take]; congr 1; omega
    rw [this] at h
    exact List.mem_of_mem_take h

/-- C119: no other endpoint makes a session: after any other request there are at most the sessions there were before. -/
theorem C119_only_authorize_creates (cfg : ProvCfg) (ops : List HttpOp) (hw : WebRun cfg ops) (i : Nat) (op : HttpOp)
    (hi : ops[i]? = some op) (ho : ∀ now gid mc ma idt raw req, op ≠ .authorize now gid mc ma idt raw req) (sid : Str) (g : Grant)
    (h : (provRun cfg (ops.take (i + 1))).sys.store sid = some (.grant g)) :
    ∃ g0, (provRun cfg (ops.take i)).sys.store sid = some (.grant g0) := by
  obtain ⟨hf, hn, hc⟩ := expand_ok (hw.take (i + 1))
  rw [provRun_sys] at h ⊢
  rw [take_snoc hi, expand_snoc] at h hf
  generalize hE : expand cfg (ops.take i) = E at h hf ⊢
  have hb := hw.blank
  have hno : ∀ sop ∈ sysOps cfg (provRun cfg (ops.take i)) op, ∀ env s u c gid ev sub, ¬ LogsIn env s sop u c gid ev sub := by
    intro sop hs
    rcases sysOps_authorize hs with ⟨now, gid, mc, ma, idt, raw, req, q, a, rfl, _⟩ | hx
    · exact absurd rfl (ho now gid mc ma idt raw req)
    · exact hx.1.2.2.2.2
  generalize sysOps cfg (provRun cfg (ops.take i)) op = L at h hf hno
  have key : ∀ n g, n ≤ L.length → (sysRun cfg.sys ((E ++ L).take (E.length + n))).store sid = some (.grant g) →
      ∃ g0, (sysRun cfg.sys E).store sid = some (.grant g0) := by
    intro n
    induction n with
    | zero => intro g _ h; rw [Nat.add_zero, List.take_left] at h; exact ⟨g, h⟩
    | succ n ih =>
      intro g hn h
      have hlt : n < L.length := hn
      have hat : (E ++ L)[E.length + n]? = some L[n] := by
        rw [List.getElem?_append_right (by omega)]
        simp [hlt]
      obtain ⟨f1, f2, f3, f4⟩ := freshAt hf hat
      have hst := sysStep_st (sysRun_inv cfg.sys _ hf hb (E.length + n)) f1 f2 f3
      rw [← sysRun_snoc, ← f4] at hst
      obtain ⟨g0, k1, _⟩ := hst.moves _ _ h
      rcases k1 with k1 | k1
      · exact ih g0 (by omega) k1
      · obtain ⟨u, c, gid, _, k2⟩ := k1.1
        exact absurd k2 (hno _ (List.getElem_mem hlt) _ _ _ _ _ _ _)
  exact key L.length g (Nat.le_refl _) (by rw [← List.length_append, List.take_length]; exact h)

/-! ### Userinfo -/

theorem tryMethods_token {lib : AuthnLib} {cdb : Cdb} {targets jtis j : List Str} {r : AuthnReq} {i : AuthInfo} {t : Str}
    {ms : List (Option AuthnMethod)} (h : tryMethods lib cdb targets r jtis ms = (j, some i)) (ht : i.token = some t) : Bears ms r t := by
  induction ms generalizing jtis with
  | nil => simp [tryMethods] at h
  | cons m ms ih =>
    have up : Bears ms r t → Bears (m :: ms) r t := by
      rintro (⟨a, b⟩ | ⟨a, b⟩)
      · exact Or.inl ⟨List.mem_cons_of_mem _ a, b⟩
      · exact Or.inr ⟨List.mem_cons_of_mem _ a, b⟩
    cases m with
    | none => exact up (ih (by simpa [tryMethods] using h))
    | some m =>
      unfold tryMethods at h
      by_cases hu : m.usable r = true
      · simp only [hu, if_true] at h
        cases hv : m.verify lib cdb targets jtis r with
        | mk j' o =>
          rw [hv] at h
          cases o with
          | error e => exact up (ih h)
          | ok i' =>
            simp only [Prod.mk.injEq, Option.some.injEq] at h
            obtain ⟨rfl, rfl⟩ := h
            cases m with
            | bearerHeader =>
              simp only [AuthnMethod.verify, Prod.mk.injEq, Except.ok.injEq] at hv
              obtain ⟨-, rfl⟩ := hv
              simp only [Option.some.injEq] at ht
              simp only [AuthnMethod.usable] at hu
              cases ha : r.authorization with
              | none => rw [ha] at hu; simp at hu
              | some x =>
                rw [ha] at hu ht
                simp only [List.isPrefixOf_iff_prefix] at hu
                obtain ⟨y, hy⟩ := hu
                refine Or.inl ⟨by simp, ?_⟩
                rw [ha, ← ht, ← hy]
                rfl
            | bearerBody =>
              simp only [AuthnMethod.verify] at hv
              cases ha : r.accessToken with
              | none => rw [ha] at hv; simp at hv
              | some x =>
                rw [ha] at hv
                simp only [Prod.mk.injEq, Except.ok.injEq] at hv
                obtain ⟨-, rfl⟩ := hv
                simp only [Option.some.injEq] at ht
                subst ht
                exact Or.inr ⟨by simp, ha⟩
            | clientSecretBasic =>
              simp only [AuthnMethod.verify] at hv
              split at hv
              · cases hv
              · split at hv
                · cases hv
                · cases hv; cases ht
            | clientSecretPost =>
              simp only [AuthnMethod.verify] at hv
              split at hv
              · split at hv
                · cases hv
                · cases hv; cases ht
              · cases hv
            | clientSecretJwt =>
              simp only [AuthnMethod.verify] at hv
              split at hv
              · cases hv
              · cases hv; cases ht
            | privateKeyJwt =>
              simp only [AuthnMethod.verify] at hv
              split at hv
              · cases hv
              · cases hv; cases ht
            | requestParam =>
              simp only [AuthnMethod.verify] at hv
              split at hv
              · cases hv
              · split at hv
                · cases hv
                · cases hv; cases ht
      · simp only [hu, Bool.false_eq_true, if_false] at h
        exact up (ih h)

theorem finishClient_token {cdb : Cdb} {now : Int} {ft : Str → Except Exn Str} {i i' : AuthInfo} (h : finishClient cdb now ft i = .ok i') :
    i'.token = i.token := by
  unfold finishClient at h
  split at h
  · split at h
    · cases h
    · split at h
      · cases h; rfl
      · cases h
  · split at h
    · cases h
    · cases h
    · split at h
      · cases h; rfl
      · split at h <;> cases h

theorem clientAuthentication_token {lib : AuthnLib} {cdb : Cdb} {now : Int} {ms : List (Option AuthnMethod)} {targets jtis j : List Str}
    {ft : Str → Except Exn Str} {r : AuthnReq} {i : AuthInfo} {t : Str}
    (h : clientAuthentication lib cdb now ms targets ft jtis r = (j, .ok (some i))) (ht : i.token = some t) : Bears ms r t := by
  unfold clientAuthentication at h
  cases hv : verifyClient lib cdb now ms targets ft jtis r with
  | mk j' o =>
    rw [hv] at h
    cases o with
    | error e => cases h
    | ok o =>
      cases o with
      | none => dsimp only at h; split at h <;> cases h
      | some i' =>
        cases h
        unfold verifyClient at hv
        cases hm : tryMethods lib cdb targets r jtis ms with
        | mk j'' o =>
          rw [hm] at hv
          cases o with
          | some i0 =>
            simp only [Prod.mk.injEq] at hv
            obtain ⟨i1, h1, h2⟩ := except_map_ok hv.2
            cases h2
            rw [finishClient_token h1] at ht
            exact tryMethods_token hm ht
          | none =>
            dsimp only at hv
            split at hv
            · simp only [Prod.mk.injEq] at hv
              obtain ⟨i1, h1, h2⟩ := except_map_ok hv.2
              cases h2
              rw [finishClient_token h1] at ht
              cases ht
            · cases hv

/-- C120: the userinfo endpoint tells something about a user only to a request that shows an access token; the user logged in
at the authorization endpoint before, at the client that the answer is for; the authentication is still valid; and what is
told is the subject identifier of that login and claims of that user. -/
theorem C120_userinfo_on_the_web (cfg : ProvCfg) (ops : List HttpOp) (hw : WebRun cfg ops) (i : Nat) (now : Int) (r : AuthnReq)
    (j : List Str) (info : Dict Val) (client : Str)
    (h : userinfoEndpoint cfg (provRun cfg (ops.take i)) now r = (j, .val (info, client))) :
    ∃ t sid u sub ev, Bears cfg.userinfoMethods r t ∧ cfg.sys.env.th.sid cfg.sys.env.cr now t = .ok sid ∧
      WebLogin cfg ops i sid u client sub (some ev) ∧ info.get? c!"sub" = some (.str sub) ∧ now < ev.validUntil ∧
      ∃ restr ui, getUserClaims cfg.userDb u restr = .ok ui ∧ ∀ k, k ≠ c!"sub" → info.get? k = ui.get? k := by
  unfold userinfoEndpoint at h
  cases hp : userinfoParse cfg (provRun cfg (ops.take i)) now r with
  | mk j' o =>
    rw [hp] at h
    cases o with
    | errMsg e => cases h
    | raise e => cases h
    | val t =>
      simp only [Prod.mk.injEq] at h
      obtain ⟨rfl, h⟩ := h
      have hbear : Bears cfg.userinfoMethods r t := by
        unfold userinfoParse at hp
        split at hp
        · simp only [Prod.mk.injEq] at hp
          have := hp.2
          split at this <;> cases this
        · cases hp
        · rename_i j2 i2 hca
          cases ht : i2.token with
          | none => rw [ht] at hp; cases hp
          | some t' =>
            rw [ht] at hp
            cases hp
            exact clientAuthentication_token hca ht
      obtain ⟨hf, hn, hc⟩ := expand_ok (hw.take i)
      rw [provRun_sys] at h
      have h' : userinfoProcess cfg.sys.env cfg.userDb
          (sysRun cfg.sys ((expand cfg (ops.take i)).take (expand cfg (ops.take i)).length)).store now t = .val (info, client) := by
        rw [List.take_length]; exact h
      obtain ⟨sid, u, sub, ev, h1, h2, h3, h4, h5⟩ := C115_userinfo_needs_login cfg.sys hw.blank _ hf hn hc _ _ _ _ _ _ h'
      exact ⟨t, sid, u, sub, ev, hbear, h1, (webLogin_of h2).of_take, h3, h4, h5⟩

/-- C120: requests that show no token are told nothing, whatever else is in them. -/
theorem C120_no_token_no_claims (cfg : ProvCfg) (st : Prov) (now : Int) (r : AuthnReq) (hb : ∀ t, ¬ Bears cfg.userinfoMethods r t)
    (j : List Str) (x : Dict Val × Str) : userinfoEndpoint cfg st now r ≠ (j, .val x) := by
  intro h
  unfold userinfoEndpoint at h
  cases hp : userinfoParse cfg st now r with
  | mk j' o =>
    rw [hp] at h
    cases o with
    | errMsg e => cases h
    | raise e => cases h
    | val t =>
      unfold userinfoParse at hp
      split at hp
      · simp only [Prod.mk.injEq] at hp
        have := hp.2
        split at this <;> cases this
      · cases hp
      · rename_i j2 i2 hca
        cases ht : i2.token with
        | none => rw [ht] at hp; cases hp
        | some t' => exact hb t' (clientAuthentication_token hca ht)

/-! ### The token endpoint -/

/-- The token response of a request is one of the session steps. -/
theorem tokensAt_response {cfg : ProvCfg} {ops : List HttpOp} {i : Nat} {req : TokReq} {resp : TokResp}
    (h : tokensAt cfg ops i = some (req, resp)) :
    ∃ inp, ops[i]? = some (.tokenProcess inp req) ∧
      expand cfg (ops.take (i + 1)) = expand cfg (ops.take i) ++ [.tokProcess inp req] ∧
      responseAt cfg.sys (expand cfg (ops.take (i + 1))) (expand cfg (ops.take i)).length = some (req, resp) := by
  unfold tokensAt at h
  cases ho : ops[i]? with
  | none => rw [ho] at h; cases h
  | some op =>
    rw [ho] at h
    cases op with
    | tokenProcess inp req' =>
      dsimp only at h
      have hr : req' = req := by
        unfold sysResponse at h
        dsimp only at h
        split at h
        · split at h
          · cases h; rfl
          · cases h
        · cases h
      subst hr
      have e : expand cfg (ops.take (i + 1)) = expand cfg (ops.take i) ++ [.tokProcess inp req'] := by
        rw [take_snoc ho, expand_snoc]; rfl
      refine ⟨inp, rfl, e, ?_⟩
      unfold responseAt
      rw [e, List.getElem?_append_right (Nat.le_refl _), List.take_left, ← provRun_sys]
      simpa using h
    | _ => cases h

/-- Token requests that are processed were accepted by the endpoint's parsing in an earlier request. -/
theorem pending_from_request {cfg : ProvCfg} {ops : List HttpOp} {req : TokReq} (h : req ∈ (provRun cfg ops).sys.pending) :
    ∃ k now r req0 j o, ops[k]? = some (.tokenParse now r req0) ∧
      clientAuthentication cfg.lib (provRun cfg (ops.take k)).cdb now cfg.tokenMethods cfg.tokenTargets plainFromToken
        (provRun cfg (ops.take k)).jtis r = (j, .ok o) ∧
      tokParse cfg.sys.env cfg.sys.helpers (provRun cfg (ops.take k)).sys.store now { req0 with clientId := requestClient r o } = .val req := by
  rw [provRun_sys] at h
  obtain ⟨m, now, rq, h1, h2, h3⟩ := pending_parsed (expand cfg ops).length (by rw [List.take_length]; exact h)
  obtain ⟨k, op, pre, post, k1, k2, k3⟩ := expand_at h2
  have hm : SysOp.tokParse now rq ∈ sysOps cfg (provRun cfg (ops.take k)) op := by rw [k2]; simp
  cases op with
  | tokenParse now' r req0 =>
    simp only [sysOps] at k2
    cases hc : clientAuthentication cfg.lib (provRun cfg (ops.take k)).cdb now' cfg.tokenMethods cfg.tokenTargets plainFromToken
        (provRun cfg (ops.take k)).jtis r with
    | mk j e =>
      rw [hc] at k2
      cases e with
      | error e => simp at k2
      | ok o =>
        simp only at k2
        cases pre with
        | nil =>
          simp only [List.nil_append, List.cons.injEq, SysOp.tokParse.injEq] at k2
          obtain ⟨⟨rfl, rfl⟩, _⟩ := k2
          rw [k3, List.append_nil, ← provRun_sys] at h3
          exact ⟨k, now', r, req0, j, o, k1, hc, h3⟩
        | cons x pre => simp at k2
  | register => cases hm
  | push => cases hm
  | userinfo => cases hm
  | introspect => cases hm
  | tokenProcess => simp [sysOps] at hm
  | restart => simp [sysOps] at hm
  | logout => obtain ⟨x, hx⟩ := logoutOps_mem hm; cases hx
  | authorize now' gid mc ma idt raw rq' =>
    rcases sysOps_authorize hm with ⟨_, _, _, _, _, _, _, _, _, _, _, _, _, e, _⟩ | hx
    · cases e
    · simp only [sysOps] at hm
      split at hm
      · split at hm <;> simp at hm
      · simp at hm

/-- C121: at a provider whose token endpoint wants client secrets, tokens are handed out only to a request in which a client,
known to the provider, showed its secret, with a code or refresh token of a session that goes back to a login on the web; and
the new tokens belong to that session. -/
theorem C121_tokens_on_the_web (cfg : ProvCfg) (L : TokenCryptoLaws cfg.sys.env.cr) (hs : SecretOnly cfg.tokenMethods)
    (hne : cfg.tokenMethods ≠ []) (ops : List HttpOp) (hw : WebRun cfg ops) (i : Nat) (req : TokReq) (resp : TokResp)
    (h : tokensAt cfg ops i = some (req, resp)) :
    (∃ k now r req0 c, k < i ∧ ops[k]? = some (.tokenParse now r req0) ∧ ShowsSecret cfg (provRun cfg (ops.take k)) now r c ∧
      req0.code = req.code ∧ req0.refreshToken = req.refreshToken) ∧
    ∃ inp v sid u c sub ev g t, ops[i]? = some (.tokenProcess inp req) ∧ (req.code = some v ∨ req.refreshToken = some v) ∧
      StoredToken cfg.sys.env (provRun cfg (ops.take i)).sys.store inp.now v sid g t ∧ WebLogin cfg ops i sid u c sub ev ∧
      ∀ w, (w = resp.accessToken ∨ resp.refreshToken = some w) →
        ∀ later x, cfg.sys.env.th.sid cfg.sys.env.cr later w = .ok x → x = sid := by
  obtain ⟨inp, ho, e, hr⟩ := tokensAt_response h
  constructor
  · obtain ⟨inp', ho', hp, _⟩ := responseAt_some hr
    rw [e, List.take_left, ← provRun_sys] at hp
    obtain ⟨k, now, r, req0, j, o, k1, k2, k3⟩ := pending_from_request hp
    have hk : k < i ∧ k < ops.length := by
      have := (List.getElem?_eq_some_iff.1 k1).1
      simp at this; omega
    have ht : (ops.take i).take k = ops.take k := by rw [List.take_take]; congr 1; omega
    rw [ht] at k2 k3
    rw [List.getElem?_take_of_lt hk.1] at k1
    obtain ⟨c, cl, s, q1, q2, q3, q4, q5⟩ := C40_request_client _ _ _ _ _ _ _ _ _ _ hs hne k2
    obtain ⟨t1, t2⟩ := tokParse_tokens k3
    exact ⟨k, now, r, req0, c, hk.1, k1, ⟨cl, s, q2, q3, q4, q5⟩, t1.symm, t2.symm⟩
  · obtain ⟨hf, hn, hc⟩ := expand_ok (hw.take (i + 1))
    obtain ⟨inp', v, sid, u, c, sub, ev, g, t, h1, h2, h3, h4, h5⟩ := C116_tokens_need_login cfg.sys L hw.blank _ hf hn hc _ _ _ hr
    have hi : inp' = inp := by
      rw [e, List.getElem?_append_right (Nat.le_refl _)] at h1
      simp at h1
      exact h1.symm
    subst hi
    rw [e, List.take_left, ← provRun_sys] at h3
    refine ⟨inp', v, sid, u, c, sub, ev, g, t, ho, h2, h3, ?_, h5⟩
    have hl := (webLogin_of h4).of_take
    obtain ⟨k, now, gid, mc, ma, idt, raw, rq, q, f, l1, l2, l3⟩ := hl.login
    obtain ⟨k', now', gid'', mc', ma', idt', raw', rq', p1, p2, p3⟩ := hl.authn
    have lt : ∀ k, k < i + 1 → (∃ now gid mc ma idt raw req, ops[k]? = some (.authorize now gid mc ma idt raw req)) → k < i := by
      rintro k hk ⟨now, gid, mc, ma, idt, raw, rq, hx⟩
      by_cases hki : k = i
      · subst hki; rw [ho] at hx; cases hx
      · omega
    exact ⟨⟨k, now, gid, mc, ma, idt, raw, rq, q, f, lt k l1 ⟨_, _, _, _, _, _, _, l2⟩, l2, l3⟩,
      ⟨k', now', gid'', mc', ma', idt', raw', rq', lt k' p1 ⟨_, _, _, _, _, _, _, p2⟩, p2, p3⟩⟩

/-! ### Introspection -/

/-- C122: at a provider whose introspection endpoint wants client secrets, a token is called active only to a client, known to
the provider, that shows its secret; the token belongs to a session that goes back to a login on the web, and the answer
names the client, subject and (if configured) user of that login, unless the grant releases claims of these names. -/
theorem C122_introspection_on_the_web (cfg : ProvCfg) (hs : SecretOnly cfg.introspectMethods) (hne : cfg.introspectMethods ≠ [])
    (ops : List HttpOp) (hw : WebRun cfg ops) (i : Nat) (now : Int) (r : AuthnReq) (token : Option Str) (j : List Str) (d : Dict Val)
    (h : introspectEndpoint cfg (provRun cfg (ops.take i)) now r token = (j, .val d)) :
    (∃ c, ShowsSecret cfg (provRun cfg (ops.take i)) now r c) ∧
    (d.get? c!"active" = some (.bool true) →
      ∃ v sid u client sub ev g t, token = some v ∧ StoredToken cfg.sys.env (provRun cfg (ops.take i)).sys.store now v sid g t ∧
        WebLogin cfg ops i sid u client sub ev ∧
        ((∀ k ∈ reserved, k ∉ ((g.claims.get? c!"introspection").getD []).map Prod.fst) →
          d.get? c!"client_id" = some (.str client) ∧ d.get? c!"sub" = some (.str sub) ∧
          d.get? c!"username" = (if cfg.release then some (.str u) else none))) := by
  unfold introspectEndpoint at h
  cases hca : clientAuthentication cfg.lib (provRun cfg (ops.take i)).cdb now cfg.introspectMethods cfg.introspectTargets plainFromToken
      (provRun cfg (ops.take i)).jtis r with
  | mk j' o =>
    rw [hca] at h
    cases o with
    | error e => cases h
    | ok o =>
      obtain ⟨c, cl, s, q1, q2, q3, q4, q5⟩ := C40_request_client _ _ _ _ _ _ _ _ _ _ hs hne hca
      refine ⟨⟨c, cl, s, q2, q3, q4, q5⟩, fun ha => ?_⟩
      cases token with
      | none => cases h
      | some v =>
        simp only [Prod.mk.injEq] at h
        obtain ⟨_, h⟩ := h
        obtain ⟨hf, hn, hc⟩ := expand_ok (hw.take i)
        rw [provRun_sys] at h ⊢
        have h' : introspectProcess cfg.sys.env cfg.issuer cfg.release cfg.userDb
            (sysRun cfg.sys ((expand cfg (ops.take i)).take (expand cfg (ops.take i)).length)).store now v = .val d := by
          rw [List.take_length]; exact h
        obtain ⟨sid, u, client, sub, ev, g, t, h1, h2, h3⟩ := C117_active_needs_login cfg.sys hw.blank _ hf hn hc _ _ _ _ _ _ _ h' ha
        rw [List.take_length] at h1
        exact ⟨v, sid, u, client, sub, ev, g, t, rfl, h1, (webLogin_of h2).of_take, h3⟩

end Verif
