import Verif.Props.Resource
import Verif.Props.Isolation
import Verif.Props.Storage
import Verif.Lemmas.Open
import Verif.Spec.Provenance
set_option linter.unusedSimpArgs false
set_option linter.unusedVariables false
/-! Everything handed out goes back to a login: C115, C116, C117. -/
namespace Verif
open Spec

theorem unpack_names {u c gid : Str} (hu : UserName u) (hc : UserName c) (hg : ';' ∉ gid) :
    unpackSessionKey (sessionKey [u, c, gid]) = [u, c, gid] := by
  have e : sessionKey [u, c, gid] = u ++ ';' :: ';' :: (c ++ ';' :: ';' :: gid) := by simp [sessionKey, pyJoin, divider]
  have hd : ¬ [';', ';'] <:+: gid := by
    rintro ⟨a, b, h⟩
    exact hg (by rw [← h]; simp)
  unfold unpackSessionKey
  rw [e]
  show pySplit [';', ';'] _ = _
  rw [split_dd_append ';' _ _ hu.1 hu.2, split_dd_append ';' _ _ hc.1 hc.2, split_dd_one ';' _ hd]

theorem logsIn_names {env : Env} {s : Store} {op : SysOp} {u c gid sub : Str} {ev : Option AuthnEvent}
    (h : LogsIn env s op u c gid ev sub) (hn : LoginNames op) : UserName u ∧ UserName c ∧ gid ∈ newGid op := by
  induction h with
  | login h1 _ => exact ⟨hn.1 _ (Or.inl h1), hn.2, by simp [newGid]⟩
  | returning h1 _ _ => exact ⟨hn.1 _ (Or.inr ⟨_, h1⟩), hn.2, by simp [newGid]⟩
  | session _ => exact ⟨hn.1, hn.2, by simp [newGid]⟩
  | grant _ => exact ⟨hn.1, hn.2, by simp [newGid]⟩
  | add => exact ⟨hn.1, hn.2, by simp [newGid]⟩
  | killed _ ih => exact ih hn

/-- A login is an authentication, or relies on the session named in the cookie. -/
theorem logsIn_cases {env : Env} {s : Store} {op : SysOp} {u c gid sub : Str} {ev : Option AuthnEvent}
    (h : LogsIn env s op u c gid ev sub) (hc : HonestCookie op) :
    Authenticates op u ev ∨ ∃ sid g0, getGrant s sid = .ok g0 ∧ ownerOf sid = u ∧ ev = g0.authnEvent := by
  induction h with
  | login h1 _ => exact Or.inl (.login h1)
  | returning h1 h2 _ => exact Or.inr ⟨_, _, h2, hc _ _ h1, rfl⟩
  | session _ => exact Or.inl .session
  | grant _ => exact Or.inl .grant
  | add => exact Or.inl .add
  | killed _ ih =>
    rcases ih hc with h | h
    · exact Or.inl (.killed h)
    · exact Or.inr h

/-- Every stored session goes back to a login of its user at its client. -/
theorem session_from_login {cfg : SysCfg} {ops : List SysOp} (hf : FreshRun ops) (hb : BlankFree cfg.env)
    (hn : ∀ op ∈ ops, LoginNames op) (hc : ∀ op ∈ ops, HonestCookie op) (i : Nat) {sid : Str} {g : Grant}
    (hg : (sysRun cfg (ops.take i)).store sid = some (.grant g)) :
    ∃ u c gid, unpackSessionKey sid = [u, c, gid] ∧ LoggedIn cfg ops i sid u c g.sub g.authnEvent := by
  induction i using Nat.strongRecOn generalizing sid g with
  | ind i ih =>
    obtain ⟨j, op, g0, h1, h2, h3, h4⟩ := grant_origin hf hb i hg
    obtain ⟨⟨u, c, gid, e1, e2⟩, _⟩ := h3
    have hm : op ∈ ops := List.mem_of_getElem? h2
    obtain ⟨n1, n2, n3⟩ := logsIn_names e2 (hn op hm)
    have hgid : ';' ∉ gid := (hf.good gid (List.mem_flatMap.2 ⟨op, hm, n3⟩)).2
    have hun := unpack_names n1 n2 hgid
    rw [← h4.sub, ← h4.authnEvent] at e2
    refine ⟨u, c, gid, by rw [e1]; exact hun, ⟨j, op, gid, h1, h2, e1, e2⟩, ?_⟩
    rcases logsIn_cases e2 (hc op hm) with h | ⟨sid', g', k1, k2, k3⟩
    · exact ⟨j, op, h1, h2, h⟩
    · obtain ⟨q1, _⟩ := getGrant_key (sysRun_inv cfg ops hf hb j).noEmpty k1
      obtain ⟨u', c', gid', r1, r2⟩ := ih j h1 q1
      have : u' = u := by
        rw [← k2, ownerOf, r1]; rfl
      subst this
      obtain ⟨r, opr, r3, r4, r5⟩ := r2.authn
      exact ⟨r, opr, by omega, r4, by rw [k3]; exact r5⟩

/-- A token kept in a session resolves to that session or not at all. -/
theorem stored_token_sid {cfg : SysCfg} (L : TokenCryptoLaws cfg.env.cr) {ops : List SysOp} (hf : FreshRun ops) (hb : BlankFree cfg.env)
    (i : Nat) {sid : Str} {g : Grant} (hg : (sysRun cfg (ops.take i)).store sid = some (.grant g)) {t : Token}
    (ht : t ∈ g.issuedToken) (now : Int) (x : Str) (hx : cfg.env.th.sid cfg.env.cr now t.value = .ok x) : x = sid := by
  obtain ⟨_, hgi⟩ := (sysRun_inv cfg ops hf hb i).grants _ _ hg
  obtain ⟨_, ⟨h, _, n, rnd, nonce, tt, hv⟩, _⟩ := hgi.tokens t ht
  rw [hv] at hx
  exact minted_sid L _ hx

theorem unpack3_list {sid u c g : Str} (h : unpack3 sid = .ok (u, c, g)) : unpackSessionKey sid = [u, c, g] := by
  unfold unpack3 at h
  split at h
  · cases h; assumption
  · cases h

/-- C115: a userinfo response given to a client about a user implies that this user logged in at this client before, and was
authenticated before; that the subject identifier is the one computed at that login; and that the authentication is still
valid now. -/
theorem C115_userinfo_needs_login (cfg : SysCfg) (hb : BlankFree cfg.env) (ops : List SysOp) (hf : FreshRun ops)
    (hn : ∀ op ∈ ops, LoginNames op) (hc : ∀ op ∈ ops, HonestCookie op) (i : Nat) (db : Str → Dict Val) (now : Int)
    (v client : Str) (info : Dict Val)
    (h : userinfoProcess cfg.env db (sysRun cfg (ops.take i)).store now v = .val (info, client)) :
    ∃ sid u sub ev, cfg.env.th.sid cfg.env.cr now v = .ok sid ∧ LoggedIn cfg ops i sid u client sub (some ev) ∧
      info.get? c!"sub" = some (.str sub) ∧ now < ev.validUntil ∧
      ∃ restr ui, getUserClaims db u restr = .ok ui ∧ ∀ k, k ≠ c!"sub" → info.get? k = ui.get? k := by
  obtain ⟨sid, user, gid, g, t, e, ui, h1, h2, h3, h4, h5, h6, h7, h8, h9⟩ := userinfoProcess_val h
  obtain ⟨q1, _⟩ := getGrant_key (sysRun_inv cfg ops hf hb i).noEmpty (sessionByToken_getGrant h1)
  obtain ⟨u, c, gid', r1, r2⟩ := session_from_login hf hb hn hc i q1
  rw [unpack3_list h2] at r1
  cases r1
  rw [h6] at r2
  refine ⟨sid, user, g.sub, e, byToken_sid h1, r2, ?_, h7, _, ui, h8, ?_⟩
  · rw [h9, Dict.get?_set]; simp
  · intro k hk
    rw [h9, Dict.get?_set, if_neg hk]

theorem updateFirst_values (v : Str) (f : Token → Token) (hf : ∀ t, (f t).value = t.value) (l : List Token) :
    (updateFirst v f l).map Token.value = l.map Token.value := by
  induction l with
  | nil => rfl
  | cons t l ih =>
    unfold updateFirst
    split
    · simp [hf]
    · simp [ih]

theorem mem_updateFirst_value {v : Str} {f : Token → Token} (hf : ∀ t, (f t).value = t.value) {l : List Token} {q : Token}
    (hq : q ∈ l) : ∃ t' ∈ updateFirst v f l, t'.value = q.value := by
  have : q.value ∈ (updateFirst v f l).map Token.value := by rw [updateFirst_values v f hf]; exact List.mem_map_of_mem hq
  exact List.mem_map.1 this

/-- C116: a token response implies that the code or refresh token in the request was issued in a session that goes back to a
login; and the tokens it hands out belong to that same session. -/
theorem C116_tokens_need_login (cfg : SysCfg) (L : TokenCryptoLaws cfg.env.cr) (hb : BlankFree cfg.env) (ops : List SysOp)
    (hf : FreshRun ops) (hn : ∀ op ∈ ops, LoginNames op) (hc : ∀ op ∈ ops, HonestCookie op) (i : Nat) (req : TokReq)
    (resp : TokResp) (h : responseAt cfg ops i = some (req, resp)) :
    ∃ inp v sid u c sub ev g t, ops[i]? = some (.tokProcess inp req) ∧ (req.code = some v ∨ req.refreshToken = some v) ∧
      StoredToken cfg.env (sysRun cfg (ops.take i)).store inp.now v sid g t ∧ LoggedIn cfg ops i sid u c sub ev ∧
      ∀ w, (w = resp.accessToken ∨ resp.refreshToken = some w) →
        ∀ later x, cfg.env.th.sid cfg.env.cr later w = .ok x → x = sid := by
  rcases response_grantType h with hgt | hgt
  · obtain ⟨inp, v, sid, g, t, ar, g', b0, b1, b2, b3, b4, b5, b6, b7, b8, b9, b10, b11, b12, b13, b14, tok, rt, c1, c2, c3, c4, c5,
      c6, c7⟩ := code_response hb hf h hgt
    obtain ⟨u, c, gid', r1, r2⟩ := session_from_login hf hb hn hc i b3
    refine ⟨inp, v, sid, u, c, g.sub, g.authnEvent, g, t, b0, Or.inl b1, storedToken_of b2 b6, r2, ?_⟩
    intro w hw later x hx
    have hm : ∃ t' ∈ g'.issuedToken, t'.value = w := by
      have key : ∀ q ∈ tok :: rt.toList, ∃ t' ∈ g'.issuedToken, t'.value = q.value := by
        intro q hq
        rw [c1]
        exact mem_updateFirst_value (f := Token.registerUsage) (fun _ => rfl) (List.mem_append_right _ hq)
      rcases hw with rfl | hw
      · rw [c4]; exact key tok (by simp)
      · cases hrt : rt with
        | none => rw [c6, hrt] at hw; cases hw
        | some r =>
          rw [c6, hrt] at hw
          cases hw
          exact key r (by simp [hrt])
    obtain ⟨t', ht', rfl⟩ := hm
    exact stored_token_sid L hf hb (i + 1) b13 ht' later x hx
  · obtain ⟨inp, v, sid, g, t, g', b0, b1, b2, b3, b4, b5, b6, b7, b8, b9, b10, b11, tok, r', c1, c2, c3, c4, c5, c6⟩ :=
      refresh_response hb hf h hgt
    obtain ⟨u, c, gid', r1, r2⟩ := session_from_login hf hb hn hc i b3
    refine ⟨inp, v, sid, u, c, g.sub, g.authnEvent, g, t, b0, Or.inr b1, storedToken_of b2 b5, r2, ?_⟩
    intro w hw later x hx
    have hm : ∃ t' ∈ g'.issuedToken, t'.value = w := by
      rw [c1]
      rcases hw with rfl | hw
      · exact ⟨tok, by simp, c4.symm⟩
      · rw [hw] at c5
        have : w ∈ r'.map Token.value := by rw [c5]; simp
        obtain ⟨t', h1, h2⟩ := List.mem_map.1 this
        exact ⟨t', by simp [h1], h2⟩
    obtain ⟨t', ht', rfl⟩ := hm
    exact stored_token_sid L hf hb (i + 1) b11 ht' later x hx

/-- C117: the introspection endpoint calls a token active only if it belongs to a session that goes back to a login, and the
answer names the client and the subject of that login (and the user, if configured), unless the grant releases claims of
these names. -/
theorem C117_active_needs_login (cfg : SysCfg) (hb : BlankFree cfg.env) (ops : List SysOp) (hf : FreshRun ops)
    (hn : ∀ op ∈ ops, LoginNames op) (hc : ∀ op ∈ ops, HonestCookie op) (i : Nat) (issuer : Str) (release : Bool)
    (db : Str → Dict Val) (now : Int) (v : Str) (d : Dict Val)
    (h : introspectProcess cfg.env issuer release db (sysRun cfg (ops.take i)).store now v = .val d)
    (ha : d.get? c!"active" = some (.bool true)) :
    ∃ sid u client sub ev g t, StoredToken cfg.env (sysRun cfg (ops.take i)).store now v sid g t ∧
      LoggedIn cfg ops i sid u client sub ev ∧
      ((∀ k ∈ reserved, k ∉ ((g.claims.get? c!"introspection").getD []).map Prod.fst) →
        d.get? c!"client_id" = some (.str client) ∧ d.get? c!"sub" = some (.str sub) ∧
        d.get? c!"username" = (if release then some (.str u) else none)) := by
  obtain ⟨sid, user, client, gid, g, t, h1, h2, h3⟩ := C35_active_answer_partial cfg.env issuer release db _ now v d h ha
  obtain ⟨q1, _⟩ := getGrant_key (sysRun_inv cfg ops hf hb i).noEmpty h1.2.1
  obtain ⟨u, c, gid', r1, r2⟩ := session_from_login hf hb hn hc i q1
  rw [h2] at r1
  cases r1
  refine ⟨sid, user, client, g.sub, g.authnEvent, g, t, h1, r2, fun hr => ?_⟩
  obtain ⟨_, k1, _, _, _, k2, _, k3⟩ := h3 hr
  exact ⟨k1, k2, k3⟩

/-! ### Authorization responses -/

theorem createSession_key {sf : SubFuncs} {s : Store} {now : Int} {gid u c : Str} {a : SessArgs} {sid : Str}
    (h : (createSession sf s now gid u c a).2 = .ok sid) :
    sid = sessionKey [u, if c = [] then a.authReq.clientId else c, gid] := by
  unfold createSession at h
  dsimp only at h
  split at h
  · cases h
  · split at h
    · cases h
    · exact createGrant_sid _ _ _ _ _ _ _ h

/-- The session the authorization endpoint goes on with: a new one for the user and client, or the cookie's. -/
theorem setupAuth_sid {env : Env} {cdb : Cdb} {s s' : Store} {now : Int} {gid : Str} {req : AuthReq} {a : AuthnIn}
    {sid user : Str} (h : setupAuth env cdb s now gid req a = (s', .val (.session sid user))) :
    (sid = sessionKey [user, req.clientId, gid] ∧ (a.ident = .plain user ∨ ∃ x, a.ident = .decoded (some user) (some x))) ∨
    (a.ident = .decoded (some user) (some sid) ∧ ∃ u g, unpack3 sid = .ok (u, req.clientId, g)) := by
  unfold setupAuth at h
  cases hi : a.ident with
  | nobody => rw [hi] at h; simp only [Prod.mk.injEq, Out.val.injEq] at h; exact absurd h.2 (needLogin_ne req sid user)
  | plain uid =>
    rw [hi] at h; simp only at h
    by_cases h1 : a.reAuth = true
    · simp [h1] at h
    · simp only [h1, Bool.false_eq_true, if_false] at h
      by_cases h2 : a.reqUser.isSome ∧ a.reqUser ≠ some uid
      · rw [if_pos h2] at h; simp only [Prod.mk.injEq, Out.val.injEq] at h; exact absurd h.2 (needLogin_ne req sid user)
      · simp only [if_neg h2] at h
        unfold startSession at h
        dsimp only at h
        generalize hA : ({ authnEvent := _, authReq := req, usageRules := usageRulesOf env.gc cdb req.clientId } : SessArgs) = A at h
        have hcl : A.authReq = req := by rw [← hA]
        cases hq : (createSession env.sf s now gid uid req.clientId A).2 with
        | error e => rw [hq] at h; simp at h
        | ok sid' =>
          rw [hq] at h
          simp only [Prod.mk.injEq, Out.val.injEq, Setup.session.injEq] at h
          obtain ⟨_, rfl, rfl⟩ := h
          have := createSession_key hq
          rw [hcl] at this
          simp only [ite_self] at this
          rw [this]
          refine Or.inl ⟨?_, Or.inl rfl⟩
          by_cases hce : req.clientId = [] <;> simp [hce]
  | decoded uid sid0 =>
    rw [hi] at h; simp only at h
    cases sid0 with
    | none => simp at h
    | some sid0 =>
      simp only at h
      cases hm : mgrGet s sid0 with
      | error e => simp [hm] at h
      | ok o => cases o with
        | info i => simp [hm] at h
        | grant g0 =>
          simp only [hm] at h
          by_cases h0 : g0.isActive now = false
          · rw [if_pos h0] at h; simp only [Prod.mk.injEq, Out.val.injEq] at h; exact absurd h.2 (needLogin_ne req sid user)
          · simp only [if_neg h0] at h
            by_cases h1 : a.reAuth = true
            · simp [h1] at h
            · simp only [h1, Bool.false_eq_true, if_false] at h
              cases uid with
              | none => simp at h
              | some uid =>
                simp only at h
                by_cases h2 : a.reqUser.isSome ∧ a.reqUser ≠ some uid
                · rw [if_pos h2] at h; simp only [Bool.false_eq_true, if_false, Prod.mk.injEq, Out.val.injEq] at h
                  exact absurd h.2 (needLogin_ne req sid user)
                · simp only [if_neg h2] at h
                  cases hun : unpack3 sid0 with
                  | error e => simp [hun] at h
                  | ok t =>
                    obtain ⟨x, cc, y⟩ := t
                    simp only [hun] at h
                    by_cases hcid : req.clientId ≠ cc
                    · simp [hcid] at h
                    · simp only [if_neg hcid] at h
                      rw [ne_eq, Classical.not_not] at hcid
                      generalize hq : (if g0.authReq = some req then (s, Out.val sid0) else _) = q at h
                      have hsid : ∀ z, q.2 = .val z → z = sid0 ∨ z = sessionKey [uid, req.clientId, gid] := by
                        intro z hz
                        rw [← hq] at hz
                        split at hz
                        · cases hz; exact Or.inl rfl
                        · split at hz
                          · cases hz
                          · cases hz
                          · split at hz
                            · cases hz
                            · rename_i sid' hs'
                              cases hz
                              exact Or.inr (createGrant_sid _ _ _ _ _ _ _ hs')
                      obtain ⟨q1, q2⟩ := q
                      cases q2 with
                      | raise e => simp at h
                      | errMsg e => simp at h
                      | val sid1 =>
                        simp only at h
                        cases he : getAuthnEvent q1 sid1 with
                        | error e => simp [he] at h
                        | ok ev =>
                          simp only [he] at h
                          cases hv : eventValid now ev with
                          | error e => simp [hv] at h
                          | ok b => cases b with
                            | false => simp [hv] at h
                            | true =>
                              simp only [hv, Bool.false_eq_true, if_false, Prod.mk.injEq, Out.val.injEq, Setup.session.injEq] at h
                              obtain ⟨_, rfl, rfl⟩ := h
                              rcases hsid _ rfl with h | h
                              · subst h
                                exact Or.inr ⟨rfl, x, y, by rw [hcid]; exact hun⟩
                              · exact Or.inl ⟨h, Or.inr ⟨_, rfl⟩⟩

/-- Writing back what was read changes nothing. -/
theorem dbSet_same {s : Store} {u c : Str} {o : Obj} (h : dbGet s [u, c] = .ok o) : (dbSet s [u, c] o).1 = s := by
  obtain ⟨ui, h1, h2, h3⟩ := (dbGet2 _ _ _ _).1 h
  rw [Store.at, key_one] at h1
  have h3' : s (sessionKey [u, c]) = some o := h3
  have hput : s.put (sessionKey [u, c]) o = s := by
    funext k
    unfold Store.put
    split
    · rename_i e; rw [e, h3']
    · rfl
  have htn : truthy (none : Option Str) = false := rfl
  unfold dbSet
  simp only [evalPath, htn, Bool.false_eq_true, if_false, Option.getD_some]
  have husr : (dbSetUser s u (some c) o).1 = s := by
    unfold dbSetUser
    cases c with
    | nil => rfl
    | cons c0 cs => simp only [h1, h2, if_true]
  have hcl : (if truthy (some c) = true then dbSetClient s u c none o else (s, .ok ())) = (s, .ok ()) := by
    split
    · show (s.put (sessionKey [u, c]) o, Except.ok ()) = _
      rw [hput]
    · rfl
  rw [hcl]
  exact husr

/-- Minting with success stores the token in the session. -/
theorem mintAndStore_stored {env : Env} {h : Option Handler} {s : Store} {now : Int} {m : MintIn} {sid tt : Str} {g : Grant}
    {b : Option Token} {t : Token} (hs : OpenAt s sid) (ht : (mintAndStore env h s now m sid tt g b).2.2 = .ok t) :
    let r := mintAndStore env h s now m sid tt g b
    r.1 = s.put sid (.grant r.2.1) ∧ r.2.1.issuedToken = g.issuedToken ++ [t] := by
  rcases mintAndStore_spec env h s now m sid tt g b with ⟨_, _, e, h3⟩ | ⟨v, t', hrest⟩
  · rw [h3] at ht; cases ht
  · obtain ⟨_, _, _, a4, _, _, _, _, _, _, _, _, _, a14, a15, _⟩ := hrest
    rcases a15 with ⟨e, a15⟩ | ⟨a15, _⟩
    · rw [a15] at ht; cases ht
    · rw [a15] at ht
      cases ht
      exact ⟨by rw [a14, (hs.mgrSet _).1], a4⟩

/-- Making the ID token leaves the storage as it is. -/
theorem idTokenPart_store (s : Store) (idt : Out Str) (sid : Str) (req : AuthReq) : (idTokenPart s idt sid req).1 = s := by
  unfold idTokenPart
  split
  · cases idt with
    | raise e => rfl
    | errMsg e => rfl
    | val i =>
      simp only
      cases hu : unpack3 sid with
      | error e => rfl
      | ok t =>
        obtain ⟨u, c, gi⟩ := t
        simp only
        cases hd : dbGet s [u, c] with
        | error e => rfl
        | ok o =>
          simp only
          have hset := dbSet_same hd
          cases hw : (dbSet s [u, c] o).2 with
          | error e => exact hset
          | ok _ => exact hset
  · rfl

theorem put_same {s : Store} {k : Str} {o : Obj} (h : s k = some o) : s.put k o = s := by
  funext x
  unfold Store.put
  split
  · rename_i e; rw [e, h]
  · rfl

/-- The code and the access token of an authorization response are stored in the session. -/
theorem createAuthnResponse_stored {env : Env} {s : Store} {now : Int} {mc ma : MintIn} {idt : Out Str} {req : AuthReq}
    {sid : Str} {a : RespArgs} {frag : Bool} (hs : OpenAt s sid) {g0 : Grant} (hg0 : s sid = some (.grant g0)) (hn : NoEmpty s)
    (h : (createAuthnResponse env s now mc ma idt req sid).2 = .ok (.val a, frag)) :
    ∃ g', (createAuthnResponse env s now mc ma idt req sid).1 = s.put sid (.grant g') ∧
      ∀ w, (a.code = some w ∨ a.accessToken = some w) → ∃ t ∈ g'.issuedToken, t.value = w := by
  unfold createAuthnResponse at h ⊢
  by_cases hnone : req.responseType = [c!"none"]
  · simp only [hnone, if_true] at h ⊢
    simp only [Except.ok.injEq, Prod.mk.injEq, Out.val.injEq] at h
    obtain ⟨rfl, _⟩ := h
    exact ⟨g0, (put_same hg0).symm, by simp⟩
  · simp only [hnone, if_false] at h ⊢
    cases hg : getGrant s sid with
    | error e => simp [hg] at h
    | ok g =>
      obtain ⟨hk, _, _⟩ := getGrant_key hn hg
      rw [hg0] at hk
      cases hk
      simp only [hg] at h ⊢
      have c1 : ∀ code, (codePart env s now mc sid g0 req).2.2 = .ok code →
          (codePart env s now mc sid g0 req).1 = s.put sid (.grant (codePart env s now mc sid g0 req).2.1) ∧
          ∀ t, code = some t → t ∈ (codePart env s now mc sid g0 req).2.1.issuedToken := by
        intro code hcode
        unfold codePart at hcode ⊢
        by_cases hc : c!"code" ∈ req.responseType
        · simp only [hc, if_true] at hcode ⊢
          cases hm : (mintAndStore env env.th.code s now mc sid tAuthorizationCode g0 none).2.2 with
          | error e => rw [hm] at hcode; simp [Except.map] at hcode
          | ok t =>
            rw [hm] at hcode
            simp only [Except.map, Except.ok.injEq] at hcode
            obtain ⟨k1, k2⟩ := mintAndStore_stored hs hm
            refine ⟨k1, fun t' ht' => ?_⟩
            rw [← hcode] at ht'
            cases ht'
            rw [k2]
            simp
        · simp only [hc, if_false] at hcode ⊢
          simp only [Except.ok.injEq] at hcode
          subst hcode
          exact ⟨(put_same hg0).symm, by simp⟩
      cases h1 : (codePart env s now mc sid g0 req).2.2 with
      | error e => simp [h1] at h
      | ok code =>
        obtain ⟨d1, d2⟩ := c1 code h1
        simp only [h1] at h ⊢
        generalize codePart env s now mc sid g0 req = r1 at h d1 d2 ⊢
        have c2 : ∀ tok, (tokenPart env r1.1 now ma sid r1.2.1 code req).2.2 = .ok tok →
            ∃ g', (tokenPart env r1.1 now ma sid r1.2.1 code req).1 = s.put sid (.grant g') ∧
              (∀ t, tok = some t → t ∈ g'.issuedToken) ∧ ∀ t, code = some t → t ∈ g'.issuedToken := by
          intro tok htok
          unfold tokenPart at htok ⊢
          by_cases hc : c!"token" ∈ req.responseType
          · simp only [hc, if_true] at htok ⊢
            cases hm : (mintAndStore env env.th.accessToken r1.1 now ma sid tAccessToken r1.2.1 code).2.2 with
            | error e => rw [hm] at htok; simp [Except.map] at htok
            | ok t =>
              rw [hm] at htok
              simp only [Except.map, Except.ok.injEq] at htok
              obtain ⟨k1, k2⟩ := mintAndStore_stored (by rw [d1]; exact hs.put _) hm
              generalize mintAndStore env env.th.accessToken r1.1 now ma sid tAccessToken r1.2.1 code = M at k1 k2 ⊢
              refine ⟨M.2.1, by rw [k1, d1, put_put], fun t' ht' => ?_, fun t' ht' => ?_⟩
              · rw [← htok] at ht'
                cases ht'
                rw [k2]
                simp
              · rw [k2]
                simp [d2 t' ht']
          · simp only [hc, if_false] at htok ⊢
            simp only [Except.ok.injEq] at htok
            subst htok
            exact ⟨_, d1, by simp, d2⟩
        cases h2 : (tokenPart env r1.1 now ma sid r1.2.1 code req).2.2 with
        | error e => simp [h2] at h
        | ok tok =>
          obtain ⟨g', e1, e2, e3⟩ := c2 tok h2
          simp only [h2] at h ⊢
          generalize (tokenPart env r1.1 now ma sid r1.2.1 code req).1 = s2 at h e1 ⊢
          have e4 := idTokenPart_store s2 idt sid req
          cases h3 : (idTokenPart s2 idt sid req).2 with
          | raise e => simp [h3] at h
          | errMsg e => simp [h3] at h
          | val i =>
            simp only [h3] at h ⊢
            by_cases hall : req.responseType.all (fun t => [c!"code", c!"token", c!"id_token"].contains t) = true
            · rw [if_pos hall] at h
              rw [if_pos hall]
              simp only [Except.ok.injEq, Prod.mk.injEq, Out.val.injEq] at h
              obtain ⟨rfl, rfl⟩ := h
              refine ⟨g', by rw [e4]; exact e1, ?_⟩
              intro w hw
              simp only [Option.map_eq_some_iff] at hw
              rcases hw with ⟨t, h1, h2⟩ | ⟨t, h1, h2⟩
              · exact ⟨t, e3 t h1, h2⟩
              · exact ⟨t, e2 t h1, h2⟩
            · rw [if_neg hall] at h
              simp at h

theorem authzPart2_stored {env : Env} {cdb : Cdb} {s : Store} {now : Int} {mc ma : MintIn} {idt : Out Str} {req : AuthReq}
    {sid : Str} {a : RespArgs} (hn : NoEmpty s) (h : (authzPart2 env cdb s now mc ma idt req sid).2.2.content = .val a) :
    ∃ g', (authzPart2 env cdb s now mc ma idt req sid).2.1 = s.put sid (.grant g') ∧ OpenAt s sid ∧
      ∀ w, (a.code = some w ∨ a.accessToken = some w) → ∃ t ∈ g'.issuedToken, t.value = w := by
  unfold authzPart2 at h ⊢
  cases hg : getGrant s sid with
  | error e => simp [hg, errReply] at h
  | ok g =>
    obtain ⟨hk, hs, _⟩ := getGrant_key hn hg
    simp only [hg] at h ⊢
    cases hu : unpack3 sid with
    | error e => simp [hu, errReply] at h
    | ok ucg =>
      obtain ⟨u, c, gi⟩ := ucg
      obtain ⟨hu1, hu2⟩ := unpack3_key hu
      have hgi : gi ≠ [] := by
        obtain ⟨u', c', gi', e1, e2⟩ := hs
        rw [hu1] at e1
        cases e1
        exact e2
      simp only [hu] at h ⊢
      cases ha : (authzCall env.gc env.ccfg cdb now c g req).2 with
      | error e => simp [ha, errReply] at h
      | ok g' =>
        simp only [ha] at h ⊢
        have hopen := openAt_of_getGrant hn hg
        have hset : dbSet s [u, c, gi] (.grant g') = (s.put sid (.grant g'), .ok ()) := by
          have := (hopen.mgrSet (.grant g')).1
          unfold mgrSet at this
          rw [hu1] at this
          exact this
        have hown : (s.put sid (.grant g')) sid = some (.grant g') := put_self _ _ _
        have hne : NoEmpty (s.put sid (.grant g')) := by
          have := (St.set (env := env) (C := fun _ _ => True) (St.start hn) [u, c, gi] (.grant g')
            (by rintro _ _ _ _ ⟨⟩; exact hgi) (by simp)
            (fun g2 _ => ⟨g2, Or.inr trivial, .refl _⟩)).noEmpty
          rw [hset] at this
          exact this
        rw [hset] at h ⊢
        simp only at h ⊢
        cases hr : (createAuthnResponse env (s.put sid (.grant g')) now mc ma idt req sid).2 with
        | error e => simp [hr, errReply] at h
        | ok cf =>
          obtain ⟨content, frag⟩ := cf
          simp only [hr] at h ⊢
          cases hx : getUri env.lib (authzCall env.gc env.ccfg cdb now c g req).1 .redirect req.clientId req.redirectUri with
          | error e => simp only [hx] at h; split at h <;> simp [errReply] at h
          | ok uri =>
            simp only [hx] at h ⊢
            cases hm : responseMode req.responseMode frag with
            | error e => simp [hm] at h
            | ok pl =>
              simp only [hm] at h ⊢
              subst h
              obtain ⟨g2, k1, k2⟩ := createAuthnResponse_stored (hopen.put _) hown hne hr
              exact ⟨g2, by rw [k1, put_put], hopen, k2⟩

theorem authzProcess_reply {env : Env} {cdb : Cdb} {s : Store} {now : Int} {gid : Str} {mc ma : MintIn} {idt : Out Str}
    {a : AuthnIn} {req : AuthReq} {r : AuthzReply} (h : (authzProcess env cdb s now gid mc ma idt a req).2.2 = .reply r) :
    ∃ s' sid u, setupAuth env cdb s now gid req a = (s', .val (.session sid u)) ∧
      r = (authzPart2 env cdb s' now mc ma idt req sid).2.2 ∧
      (authzProcess env cdb s now gid mc ma idt a req).2.1 = (authzPart2 env cdb s' now mc ma idt req sid).2.1 := by
  unfold authzProcess at h ⊢
  cases hc : cdb req.clientId with
  | none => simp [hc] at h
  | some c =>
    simp only [hc] at h ⊢
    by_cases hs : checkScopes env c req = false
    · simp [hs] at h
    · rw [if_neg hs] at h
      rw [if_neg hs]
      cases hx : setupAuth env cdb s now gid req a with
      | mk s' o =>
        rw [hx] at h
        cases o with
        | raise e => simp at h
        | errMsg e => simp at h
        | val x =>
          cases x with
          | login => simp at h
          | loginRequired => simp at h
          | session sid u =>
            simp only [AuthzAnswer.reply.injEq] at h
            exact ⟨s', sid, u, rfl, h.symm, rfl⟩

/-- C118: an authorization response is about the user authenticated in that request (or named in the cookie), at the client
that asked; the code and the access token in it are stored in a session that goes back to a login of this user at this
client, and will never resolve to another session. -/
theorem C118_response_for_the_user (cfg : SysCfg) (L : TokenCryptoLaws cfg.env.cr) (hb : BlankFree cfg.env) (ops : List SysOp)
    (hf : FreshRun ops) (hn : ∀ op ∈ ops, LoginNames op) (hc : ∀ op ∈ ops, HonestCookie op) (i : Nat) (cdb : Cdb) (now : Int)
    (gid : Str) (mc ma : MintIn) (idt : Out Str) (a : AuthnIn) (req : AuthReq)
    (ho : ops[i]? = some (.authorize cdb now gid mc ma idt a req)) (r : AuthzReply) (ra : RespArgs)
    (h : (authzProcess cfg.env cdb (sysRun cfg (ops.take i)).store now gid mc ma idt a req).2.2 = .reply r)
    (hr : r.content = .val ra) :
    ∃ u sid sub ev g, (a.ident = .plain u ∨ ∃ x, a.ident = .decoded (some u) (some x)) ∧
      LoggedIn cfg ops (i + 1) sid u req.clientId sub ev ∧
      getGrant (sysRun cfg (ops.take (i + 1))).store sid = .ok g ∧
      ∀ w, (ra.code = some w ∨ ra.accessToken = some w) → (∃ t ∈ g.issuedToken, t.value = w) ∧
        ∀ later x, cfg.env.th.sid cfg.env.cr later w = .ok x → x = sid := by
  obtain ⟨s', sid, u, h1, h2, h3⟩ := authzProcess_reply h
  have hi := sysRun_inv cfg ops hf hb i
  obtain ⟨f1, f2, f3, f4⟩ := freshAt hf ho
  have hgid : gid ≠ [] := (f1 gid (by simp [newGid])).1
  have hne : NoEmpty s' := by
    have := (setupAuth_st (env := cfg.env) (req := req) hi.noEmpty hgid cdb now a).1.noEmpty
    rw [h1] at this
    exact this
  have hcon : (authzPart2 cfg.env cdb s' now mc ma idt req sid).2.2.content = .val ra := by rw [← h2]; exact hr
  obtain ⟨g, k1, k2, k3⟩ := authzPart2_stored hne hcon
  have hst : (sysRun cfg (ops.take (i + 1))).store = s'.put sid (.grant g) := by
    rw [f4, sysRun_snoc]
    simp only [sysStep]
    rw [h3, k1]
  have hsid : (sysRun cfg (ops.take (i + 1))).store sid = some (.grant g) := by rw [hst]; exact put_self _ _ _
  obtain ⟨u', c', gid', r1, r2⟩ := session_from_login hf hb hn hc (i + 1) hsid
  have hm := List.mem_of_getElem? ho
  have hnm := hn _ hm
  have hwho : u' = u ∧ c' = req.clientId := by
    rcases setupAuth_sid h1 with ⟨e1, e2⟩ | ⟨e1, u2, g2, e2⟩
    · have hu : UserName u := by
        rcases e2 with e2 | ⟨x, e2⟩
        · exact hnm.1 _ (Or.inl e2)
        · exact hnm.1 _ (Or.inr ⟨_, e2⟩)
      rw [e1, unpack_names hu hnm.2 (f1 gid (by simp [newGid])).2] at r1
      cases r1
      exact ⟨rfl, rfl⟩
    · have h5 := hc _ hm u sid e1
      rw [ownerOf, r1] at h5
      rw [unpack3_list e2] at r1
      cases r1
      exact ⟨h5, rfl⟩
  obtain ⟨rfl, rfl⟩ := hwho
  refine ⟨u', sid, g.sub, g.authnEvent, g, ?_, r2, by rw [hst]; exact k2.getGrant g, ?_⟩
  · rcases setupAuth_sid h1 with ⟨_, e2⟩ | ⟨e1, _⟩
    · exact e2
    · exact Or.inr ⟨_, e1⟩
  · intro w hw
    obtain ⟨t, ht, rfl⟩ := k3 w hw
    exact ⟨⟨t, ht, rfl⟩, fun later x hx => stored_token_sid L hf hb (i + 1) hsid ht later x hx⟩

/-! ### The hypotheses are met -/

theorem loginOps_names (l : List SysOp) (hl : ∀ op ∈ l, LoginNames op ∧ HonestCookie op) :
    ∀ op ∈ loginOps ++ l, LoginNames op ∧ HonestCookie op := by
  have hd : UserName c!"diana" := goodId_name (by simp [GoodId, SemicolonFree])
  have hc1 : UserName c!"c1" := goodId_name (by simp [GoodId, SemicolonFree])
  intro op hop
  rcases List.mem_append.1 hop with h | h
  · simp only [loginOps, List.mem_cons, List.not_mem_nil, or_false] at h
    rcases h with rfl | rfl | rfl
    · refine ⟨⟨?_, hc1⟩, ?_⟩
      · rintro u (h | ⟨x, h⟩)
        · cases h; exact hd
        · cases h
      · intro u x h; cases h
    · exact ⟨trivial, trivial⟩
    · exact ⟨trivial, trivial⟩
  · exact hl op h

set_option maxRecDepth 8000 in
/-- Userinfo, introspection, a token response and an authorization response after the demo login. -/
example : FreshRun loginOps ∧ (∀ op ∈ loginOps, LoginNames op ∧ HonestCookie op) ∧
    isVal (userinfoProcess demoEnv demoUsers (sysRun (demoCfg .aliased) (loginOps.take 3)).store 3 demoAt) = true ∧
    strAt (introspectProcess demoEnv c!"op" true demoUsers (sysRun (demoCfg .aliased) (loginOps.take 3)).store 3 demoAt) c!"username" =
      some c!"diana" ∧
    (responseAt (demoCfg .aliased) loginOps 2).isSome = true ∧
    (∃ r ra, (authzProcess demoEnv demoDb Store.empty 1 c!"g1" (mintIn c!"n1") (mintIn c!"n2") (.val c!"IDT")
      { ident := .plain c!"diana" } (demoReq [c!"code"])).2.2 = .reply r ∧ r.content = .val ra ∧ ra.code = some demoCode) :=
  ⟨by have := loginOps_fresh [] (by simp); simpa using this, by have := loginOps_names [] (by simp); simpa using this,
    by decide, by decide, by decide, ⟨_, _, rfl, rfl, by decide⟩⟩

/-- Without the premise on cookies the user of a session need not have logged in: a cookie that names `eve` and the session
of `diana` gives `eve` a session on the strength of `diana`'s login (compare C79). -/
def mixedCookie : SysOp :=
  .authorize demoDb 2 c!"g2" (mintIn c!"m1") (mintIn c!"m2") (.val c!"IDT")
    { ident := .decoded (some c!"eve") (some c!"diana;;c1;;g1") } { demoReq [c!"code"] with state := some c!"other" }

set_option maxRecDepth 8000 in
theorem C115_honest_cookie_needed :
    (getGrant (sysRun (demoCfg .aliased) (loginOps ++ [mixedCookie])).store c!"eve;;c1;;g2").isOk = true ∧
    ∀ op ∈ loginOps ++ [mixedCookie], ∀ ev, ¬ Authenticates op c!"eve" ev := by
  refine ⟨by decide, ?_⟩
  intro op hop ev h
  rcases List.mem_append.1 hop with hm | hm
  · simp only [loginOps, List.mem_cons, List.not_mem_nil, or_false] at hm
    rcases hm with rfl | rfl | rfl
    · cases h with
      | login h => cases h
    · cases h
    · cases h
  · simp only [List.mem_singleton] at hm
    subst hm
    cases h with
    | login h => cases h

end Verif
