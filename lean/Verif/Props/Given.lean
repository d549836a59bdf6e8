import Verif.Spec.Given
import Verif.Lemmas.OnlyTokens
import Verif.Lemmas.ProviderInv
import Verif.Props.ProviderUri
import Verif.Props.TokenEndpoint
set_option linter.unusedSimpArgs false
set_option linter.unusedVariables false
/-! Where the tokens come from that the provider knows: C136. -/
namespace Verif
open Spec

/-- Kinds and types of stored tokens. -/
theorem webStored_kind {cfg : ProvCfg} {ops : List HttpOp} (hw : WebRun cfg ops) {n : Nat} {sid : Str} {g : Grant} {t : Token}
    (h : (provRun cfg (ops.take n)).sys.store sid = some (.grant g)) (ht : t ∈ g.issuedToken) :
    defaultTokenMap.get? t.typ = some t.kind := by
  obtain ⟨hf, _, _⟩ := expand_ok (hw.take n)
  have hi := sysRun_inv cfg.sys (expand cfg (ops.take n)) hf hw.blank (expand cfg (ops.take n)).length
  rw [List.take_length, ← provRun_sys] at hi
  exact ((hi.grants _ _ h).2.tokens t ht).2.2

theorem webNoEmpty {cfg : ProvCfg} {ops : List HttpOp} (hw : WebRun cfg ops) (n : Nat) : NoEmpty (provRun cfg (ops.take n)).sys.store := by
  obtain ⟨hf, _, _⟩ := expand_ok (hw.take n)
  have hi := sysRun_inv cfg.sys (expand cfg (ops.take n)) hf hw.blank (expand cfg (ops.take n)).length
  rw [List.take_length, ← provRun_sys] at hi
  exact hi.noEmpty

theorem only_revokeClientSession {P : Str → Str → Str → Prop} {s : Store} (h : Only P s) (sid : Str) :
    Only P (revokeClientSession s sid).1 := by
  have go : ∀ u c, Only P (match dbGet s [u, c] with
      | .error e => ((s, .error e) : Store × Except Exn Unit)
      | .ok (.grant _) => (s, .error .typeError)
      | .ok (.info i) => dbSet s [u, c] (.info i.revoke)).1 := by
    intro u c
    cases hd : dbGet s [u, c] with
    | error e => exact h
    | ok o =>
      cases o with
      | grant g => exact h
      | info i =>
        simp only
        obtain ⟨hk, hp⟩ := dbGet_key h.noEmpty hd
        apply h.set _ _ hp
        · rintro i' ⟨⟩; exact h.noEmpty _ i hk
        · rintro g ⟨⟩
  unfold Verif.revokeClientSession
  simp only
  split
  · exact go _ _
  · exact go _ _
  · exact h

theorem only_logoutOps {P : Str → Str → Str → Prop} (cfg : SysCfg) (l : List SysOp) (hl : ∀ op ∈ l, ∃ sid, op = .revokeClientSession sid)
    (st : Sys) (h : Only P st.store) : Only P (l.foldl (sysStep cfg) st).store := by
  induction l generalizing st with
  | nil => exact h
  | cons op l ih =>
    obtain ⟨sid, rfl⟩ := hl op (by simp)
    rw [List.foldl_cons]
    exact ih (fun o ho => hl o (by simp [ho])) _ (only_revokeClientSession h sid)

/-- One request: what it adds to the storage is in its answer, if that is a success. -/
theorem step_made {cfg : ProvCfg} {ops : List HttpOp} (hw : WebRun cfg ops) {k : Nat} {sid : Str} {kd : TokenKind} {v : Str}
    (h0 : ¬ StoredAfter cfg ops k sid kd v) (h1 : StoredAfter cfg ops (k + 1) sid kd v) : MadeAt cfg ops k sid kd v := by
  obtain ⟨g, t, hs, ht, hkd, hval⟩ := h1
  have hkind := webStored_kind hw hs ht
  cases ho : ops[k]? with
  | none =>
    exfalso
    apply h0
    rw [List.take_add_one, ho] at hs
    simp only [Option.toList_none, List.append_nil] at hs
    exact ⟨g, t, hs, ht, hkd, hval⟩
  | some op =>
    have hs0 := hs
    rw [take_snoc ho, provRun_snoc, provStep_sys] at hs
    generalize hst : provRun cfg (ops.take k) = st at hs
    have hne : NoEmpty st.sys.store := by rw [← hst]; exact webNoEmpty hw k
    -- the tokens that were there
    have hold : ¬ ∃ g0 t0, st.sys.store sid = some (.grant g0) ∧ t0 ∈ g0.issuedToken ∧ t0.typ = t.typ ∧ t0.value = t.value := by
      rintro ⟨g0, t0, e1, e2, e3, e4⟩
      apply h0
      refine ⟨g0, t0, by rw [hst]; exact e1, e2, ?_, by rw [e4, hval]⟩
      have := webStored_kind hw (by rw [hst]; exact e1) e2
      rw [e3, hkind] at this
      rw [← Option.some.inj this]
      exact hkd
    have hbase : ∀ V : Str → Str → Str → Prop, Only (fun k tt v => (∃ g0 t0, st.sys.store k = some (.grant g0) ∧ t0 ∈ g0.issuedToken ∧
        t0.typ = tt ∧ t0.value = v) ∨ V k tt v) st.sys.store :=
      fun V => ⟨hne, fun k g hg t ht => Or.inl ⟨g, t, hg, ht, rfl, rfl⟩⟩
    have hafter : StoredAfter cfg ops (k + 1) sid kd v := ⟨g, t, hs0, ht, hkd, hval⟩
    -- requests that make nothing
    have hnone : Only (fun k tt v => (∃ g0 t0, st.sys.store k = some (.grant g0) ∧ t0 ∈ g0.issuedToken ∧
        t0.typ = tt ∧ t0.value = v) ∨ False) ((sysOps cfg st op).foldl (sysStep cfg.sys) st.sys).store → False := by
      intro hO
      rcases hO.toks _ _ hs t ht with h | h
      · exact hold h
      · exact h
    cases op with
    | register => exact absurd (hnone (hbase _)) id
    | push => exact absurd (hnone (hbase _)) id
    | userinfo => exact absurd (hnone (hbase _)) id
    | introspect => exact absurd (hnone (hbase _)) id
    | tokenParse now r req =>
      exfalso
      apply hnone
      simp only [sysOps]
      split
      · simp only [List.foldl_cons, List.foldl_nil, sysStep]
        split <;> exact hbase _
      · exact hbase _
    | logout post sid' alla =>
      exfalso
      apply hnone
      exact only_logoutOps cfg.sys _ (fun _ h => logoutOps_mem h) _ (hbase _)
    | restart =>
      exfalso
      apply hnone
      simp only [sysOps, List.foldl_cons, List.foldl_nil, sysStep]
      cases cfg.sys.mode with
      | aliased => exact ⟨fun k i h => by simp [Sys.init, Store.empty] at h, fun k g h => by simp [Sys.init, Store.empty] at h⟩
      | byValue => simp only [List.take_zero]; exact hbase _
    | tokenProcess inp req =>
      simp only [sysOps, List.foldl_cons, List.foldl_nil, sysStep] at hs
      by_cases hp : req ∈ st.sys.pending
      · simp only [hp, if_true] at hs
        have hO := only_tokProcess (env := cfg.sys.env) cfg.sys.mode (hbase (fun _ tt v =>
          TokGives (tokProcess cfg.sys.mode cfg.sys.env cfg.sys.helpers st.sys.store inp req).2 tt v)) cfg.sys.helpers inp req
          (fun k tt v h => Or.inr h)
        rcases hO.toks _ _ hs t ht with h | h
        · exact absurd h hold
        have hcode : kd ≠ .authorizationCode := by
          rintro rfl
          rw [hkd] at hkind
          rcases h.1 with e | e <;>
            (rw [e] at hkind; simp [defaultTokenMap, Dict.get?, tRefreshToken, tAuthorizationCode, tAccessToken] at hkind)
        refine ⟨h0, hafter, Or.inr ⟨inp, req, ho, hcode⟩, ?_⟩
        intro l hl
        unfold givenOut at hl
        rw [ho] at hl
        simp only [tokensAt, ho, hst, sysResponse, hp, if_true] at hl
        cases hr : (tokProcess cfg.sys.mode cfg.sys.env cfg.sys.helpers st.sys.store inp req).2 with
        | raise e => rw [hr] at hl; cases hl
        | errMsg e => rw [hr] at hl; cases hl
        | val resp =>
          rw [hr] at hl
          simp only [Option.map_some, Option.some.injEq] at hl
          subst hl
          rcases h.2 resp hr with ⟨e1, e2⟩ | ⟨e1, e2⟩
          · rw [e1] at hkind
            simp [defaultTokenMap, Dict.get?, tRefreshToken, tAuthorizationCode, tAccessToken] at hkind
            rw [← hkd, ← hkind]
            simp [e2, hval]
          · rw [e1] at hkind
            simp [defaultTokenMap, Dict.get?, tRefreshToken, tAuthorizationCode, tAccessToken] at hkind
            rw [← hkd, ← hkind]
            simp [e2, hval]
      · simp only [hp, if_false] at hs
        exact absurd ⟨g, t, hs, ht, rfl, rfl⟩ hold
    | authorize now gid mc ma idt raw req =>
      have hgid : gid ≠ [] := by
        refine (hw.good gid ?_).1
        exact List.mem_flatMap.2 ⟨_, List.mem_of_getElem? ho, by simp [httpGid]⟩
      refine ⟨h0, hafter, Or.inl ⟨now, gid, mc, ma, idt, raw, req, ho⟩, ?_⟩
      intro l hl
      unfold givenOut at hl
      rw [ho] at hl
      simp only [hst] at hl
      split at hl
      · rename_i r hr
        obtain ⟨q, a, hpq, ha, hops, hproc⟩ := authorizeEndpoint_reply hr
        split at hl
        · rename_i ra hra
          rw [hops] at hs
          simp only [List.foldl_cons, List.foldl_nil, sysStep] at hs
          have hO := only_authzProcess (env := cfg.sys.env) (hbase (fun _ tt v =>
            (tt = tAuthorizationCode ∧ ra.code = some v) ∨ (tt = tAccessToken ∧ ra.accessToken = some v))) st.cdb now gid mc ma idt a q hgid
            (fun sid u k tt v h1 h2 => Or.inr (authzProcess_gives h1 h2 hproc hra))
          simp only [Option.some.injEq] at hl
          subst hl
          rcases hO.toks _ _ hs t ht with h | h | h
          · exact absurd h hold
          · rw [h.1] at hkind
            simp [defaultTokenMap, Dict.get?, tRefreshToken, tAuthorizationCode, tAccessToken] at hkind
            rw [← hkd, ← hkind]
            simp [h.2, hval]
          · rw [h.1] at hkind
            simp [defaultTokenMap, Dict.get?, tRefreshToken, tAuthorizationCode, tAccessToken] at hkind
            rw [← hkd, ← hkind]
            simp [h.2, hval]
        · cases hl
      · cases hl

/-- C136: every token in the session storage was made by an earlier request at the authorization or the token endpoint; and if
that request was answered with a success, the answer told the token. -/
theorem C136_tokens_are_given_out (cfg : ProvCfg) (ops : List HttpOp) (hw : WebRun cfg ops) (i : Nat) (sid : Str) (kd : TokenKind)
    (v : Str) (h : StoredAfter cfg ops i sid kd v) : ∃ k, k < i ∧ MadeAt cfg ops k sid kd v := by
  induction i with
  | zero =>
    obtain ⟨g, t, hs, _⟩ := h
    simp [provRun, Prov.init, Sys.init, Store.empty] at hs
  | succ i ih =>
    by_cases h0 : StoredAfter cfg ops i sid kd v
    · obtain ⟨k, hk, hm⟩ := ih h0
      exact ⟨k, by omega, hm⟩
    · exact ⟨i, by omega, step_made hw h0 h⟩


/-! ### Codes -/

/-- The request that made a code is an authorization request; the code's session is that of its user at its client, and has the
(parsed) request on record. -/
theorem code_made_for {cfg : ProvCfg} {ops : List HttpOp} (hw : WebRun cfg ops) {k : Nat} {sid v : Str}
    (h : MadeAt cfg ops k sid .authorizationCode v) {g : Grant}
    (hg : (provRun cfg (ops.take (k + 1))).sys.store sid = some (.grant g)) :
    ∃ now gid mc ma idt raw req q u gid', ops[k]? = some (.authorize now gid mc ma idt raw req) ∧
      Parsed cfg (provRun cfg (ops.take k)) req.areq q ∧ g.authReq = some q ∧ sid = sessionKey [u, q.clientId, gid'] ∧
      (ShowsLogin cfg raw u ∨ ShowsSession cfg raw u (some sid) ∨ ∃ s, ShowsSession cfg raw u (some s) ∧ gid' = gid) := by
  rcases h.endpoint with ⟨now, gid, mc, ma, idt, raw, req, ho⟩ | ⟨_, _, _, hne⟩
  · obtain ⟨hf, _, _⟩ := expand_ok (hw.take (k + 1))
    obtain ⟨g', t, hs, ht, hkd, hval⟩ := h.after
    rw [hg] at hs
    cases hs
    have hs := hg
    rw [take_snoc ho, provRun_snoc, provStep_sys] at hs
    cases hops : sysOps cfg (provRun cfg (ops.take k)) (.authorize now gid mc ma idt raw req) with
    | nil =>
      rw [hops] at hs
      exact absurd ⟨g, t, hs, ht, hkd, hval⟩ h.before
    | cons sop rest =>
      rcases sysOps_authorize (show sop ∈ sysOps cfg (provRun cfg (ops.take k)) (.authorize now gid mc ma idt raw req) by
        rw [hops]; simp) with ⟨now', gid', mc', ma', idt', raw', req', q, a, hop, hp, hc, ha, hsop, hone⟩ | ⟨⟨hng, _, _, _, _⟩, _⟩
      · cases hop
        rw [hone] at hs
        rw [hsop] at hs hone
        simp only [List.foldl_cons, List.foldl_nil, sysStep] at hs
        -- the freshness of the grant id
        have hgid : gid ≠ [] ∧ ';' ∉ gid := by
          apply hw.good gid
          exact List.mem_flatMap.2 ⟨_, List.mem_of_getElem? ho, by simp [httpGid]⟩
        have e : expand cfg (ops.take (k + 1)) = expand cfg (ops.take k) ++
            [.authorize (provRun cfg (ops.take k)).cdb now gid mc ma idt a q] := by
          rw [take_snoc ho, expand_snoc, hone]
        have hat : (expand cfg (ops.take (k + 1)))[(expand cfg (ops.take k)).length]? =
            some (.authorize (provRun cfg (ops.take k)).cdb now gid mc ma idt a q) := by
          rw [e, List.getElem?_append_right (Nat.le_refl _)]; simp
        have hi := sysRun_inv cfg.sys _ hf hw.blank (expand cfg (ops.take k)).length
        obtain ⟨f1, f2, _, _⟩ := freshAt hf hat
        rw [e, List.take_left, ← provRun_sys] at hi
        rw [e, List.take_left] at f1 f2
        generalize hst : provRun cfg (ops.take k) = st at *
        have hfresh : ∀ u c g, st.sys.store (sessionKey [u, c, gid]) ≠ some (.grant g) := by
          intro u c g hg
          obtain ⟨⟨u', c', gid', h1, h2⟩, _⟩ := hi.grants _ _ hg
          have := key_gid hgid.2 (f1 gid' (by simp [h1])).2 h2
          subst this
          exact f2 gid (by simp [newGid]) h1
        -- the session of the request
        have hO := only_authzProcess (env := cfg.sys.env) (P := fun k tt v => (∃ g0 t0, st.sys.store k = some (.grant g0) ∧
            t0 ∈ g0.issuedToken ∧ t0.typ = tt ∧ t0.value = v) ∨ ∃ u, (setupAuth cfg.sys.env st.cdb st.sys.store now gid q a).2 = .val (.session k u))
          ⟨hi.noEmpty, fun k g hg t ht => Or.inl ⟨g, t, hg, ht, rfl, rfl⟩⟩ st.cdb now gid mc ma idt a q hgid.1
          (fun sid u k tt v h1 h2 => Or.inr ⟨u, by rw [h2.1]; exact h1⟩)
        rcases hO.toks _ _ hs t ht with ⟨g0, t0, z1, z2, z3, z4⟩ | ⟨u, hset⟩
        · exfalso
          apply h.before
          refine ⟨g0, t0, by rw [hst]; exact z1, z2, ?_, by rw [z4, hval]⟩
          have y1 := webStored_kind hw (by rw [hst]; exact z1) z2
          have y2 := webStored_kind hw hg ht
          rw [z3, y2] at y1
          rw [← Option.some.inj y1]
          exact hkd
        · have hreq : g.authReq = some q := by
            have hm := (authzProcess_st (env := cfg.sys.env) (req := q) hi.noEmpty hgid.1 hfresh st.cdb now mc ma idt a).moves _ _ hs
            obtain ⟨g0, h5, h6⟩ := hm
            rw [h6.authReq]
            rcases h5 with h5 | h5
            · rcases (setupAuth_st (env := cfg.sys.env) (req := q) hi.noEmpty hgid.1 st.cdb now a).2 sid u hset with
                ⟨u', c', hk⟩ | ⟨g1, h2, h3, _⟩
              · rw [hk] at h5
                exact absurd h5 (hfresh _ _ _)
              · have h7 := (dbGet_key hi.noEmpty h2).1
                have h8 : Sid3 sid := by
                  obtain ⟨⟨u', c', gid', h1, h2⟩, _⟩ := hi.grants _ _ h5
                  rcases setupAuth_sid (show setupAuth cfg.sys.env st.cdb st.sys.store now gid q a =
                    ((setupAuth cfg.sys.env st.cdb st.sys.store now gid q a).1, .val (.session sid u)) from by rw [← hset]) with
                    ⟨z1, _⟩ | ⟨_, u2, g2, z2⟩
                  · rw [z1] at h5
                    exact absurd h5 (hfresh _ _ _)
                  · refine ⟨u2, q.clientId, g2, (unpack3_key z2).1, ?_⟩
                    intro e0
                    have := (f1 gid' (by simp [h1])).1
                    subst e0
                    have z3 := (unpack3_key z2).2
                    rw [h2] at z3
                    have := key_gid (by simp) (f1 gid' (by simp [h1])).2 z3
                    simp_all
                obtain ⟨u1, c1, gi, h9, _⟩ := h8
                have h10 := session_key_unpack sid
                rw [h9] at h7 h10
                have h11 : st.sys.store (sessionKey [u1, c1, gi]) = some (.grant g1) := h7
                rw [h10, h5] at h11
                cases h11
                exact h3
            · exact h5.2.2.2.2.1
          obtain ⟨-, -, hl, hss⟩ := authnIn_shows ha
          rcases setupAuth_sid (show setupAuth cfg.sys.env st.cdb st.sys.store now gid q a =
              ((setupAuth cfg.sys.env st.cdb st.sys.store now gid q a).1, .val (.session sid u)) from by rw [← hset]) with
              ⟨z1, z2⟩ | ⟨z1, u2, g2, z2⟩
          · refine ⟨now, gid, mc, ma, idt, raw, req, q, u, gid, ho, hp, hreq, z1, ?_⟩
            rcases z2 with z2 | ⟨x, z2⟩
            · exact Or.inl (hl u z2)
            · exact Or.inr (Or.inr ⟨x, hss u _ z2, rfl⟩)
          · have hshow := hss u _ z1
            have hown := hw.cookies _ _ _ _ _ _ _ (List.mem_of_getElem? ho) u sid hshow
            have hu : u2 = u := by
              rw [← hown]
              unfold ownerOf
              rw [(unpack3_key z2).1]
              rfl
            subst hu
            exact ⟨now, gid, mc, ma, idt, raw, req, q, u2, g2, ho, hp, hreq, (unpack3_key z2).2.symm, Or.inr (Or.inl hshow)⟩
      · exfalso
        have : ∃ now' gid' mc' ma' idt' a' q', sop = .authorize (provRun cfg (ops.take k)).cdb now' gid' mc' ma' idt' a' q' := by
          simp only [sysOps] at hops
          split at hops
          · split at hops
            · cases hops; exact ⟨_, _, _, _, _, _, _, rfl⟩
            · cases hops
          · cases hops
        obtain ⟨_, _, _, _, _, _, _, rfl⟩ := this
        simp [newGid] at hng
  · exact absurd rfl hne

/-! ### What the endpoints accept -/

theorem storedAfter_of {cfg : ProvCfg} {ops : List HttpOp} (hw : WebRun cfg ops) {i : Nat} {now : Int} {v sid : Str} {g : Grant} {t : Token}
    (h : StoredToken cfg.sys.env (provRun cfg (ops.take i)).sys.store now v sid g t) : StoredAfter cfg ops i sid t.kind v := by
  obtain ⟨_, h2, h3, h4⟩ := h
  exact ⟨g, t, (getGrant_key (webNoEmpty hw i) h2).1, h3, rfl, h4⟩

/-- C136: claims about a user are given only to who shows an access token that the provider made in an earlier request, and told
in the answer, if there was a successful answer. -/
theorem C136_userinfo_only_for_given_tokens (cfg : ProvCfg) (ops : List HttpOp) (hw : WebRun cfg ops) (i : Nat) (now : Int) (r : AuthnReq)
    (j : List Str) (x : Dict Val × Str) (h : userinfoEndpoint cfg (provRun cfg (ops.take i)) now r = (j, .val x)) :
    ∃ t sid k, Bears cfg.userinfoMethods r t ∧ cfg.sys.env.th.sid cfg.sys.env.cr now t = .ok sid ∧ k < i ∧
      MadeAt cfg ops k sid .accessToken t := by
  unfold userinfoEndpoint at h
  cases hp : userinfoParse cfg (provRun cfg (ops.take i)) now r with
  | mk j' o =>
    rw [hp] at h
    cases o with
    | errMsg e => cases h
    | raise e => cases h
    | val t =>
      simp only [Prod.mk.injEq] at h
      obtain ⟨rfl, h⟩ := h
      have hbear : Bears cfg.userinfoMethods r t := by
        unfold userinfoParse at hp
        split at hp
        · simp only [Prod.mk.injEq] at hp
          have := hp.2
          split at this <;> cases this
        · cases hp
        · rename_i j2 i2 hca
          cases ht : i2.token with
          | none => rw [ht] at hp; cases hp
          | some t' =>
            rw [ht] at hp
            cases hp
            exact clientAuthentication_token hca ht
      obtain ⟨info, client⟩ := x
      obtain ⟨sid, user, gid, g, tk, e, h1, _, h3, _⟩ := C34_userinfo_released_only_if _ _ _ _ _ _ _ h
      have hs := storedAfter_of hw h1
      rw [h3] at hs
      obtain ⟨k, hk, hm⟩ := C136_tokens_are_given_out cfg ops hw i sid _ t hs
      exact ⟨t, sid, k, hbear, h1.1, hk, hm⟩

/-- C136: a token is called active only if the provider made it in an earlier request, and told it in the answer, if there was a
successful answer. -/
theorem C136_active_only_if_given (cfg : ProvCfg) (ops : List HttpOp) (hw : WebRun cfg ops) (i : Nat) (now : Int) (r : AuthnReq)
    (token : Option Str) (j : List Str) (d : Dict Val)
    (h : introspectEndpoint cfg (provRun cfg (ops.take i)) now r token = (j, .val d)) (ha : d.get? c!"active" = some (.bool true)) :
    ∃ v sid kd k, token = some v ∧ cfg.sys.env.th.sid cfg.sys.env.cr now v = .ok sid ∧ k < i ∧ MadeAt cfg ops k sid kd v := by
  unfold introspectEndpoint at h
  split at h
  · cases h
  · cases token with
    | none => cases h
    | some v =>
      simp only [Prod.mk.injEq] at h
      obtain ⟨_, h⟩ := h
      obtain ⟨hf, hn, hc⟩ := expand_ok (hw.take i)
      have h' : introspectProcess cfg.sys.env cfg.issuer cfg.release cfg.userDb
          (sysRun cfg.sys ((expand cfg (ops.take i)).take (expand cfg (ops.take i)).length)).store now v = .val d := by
        rw [List.take_length, ← provRun_sys]; exact h
      obtain ⟨sid, u, client, sub, ev, g, t, h1, h2, h3⟩ := C117_active_needs_login cfg.sys hw.blank _ hf hn hc _ _ _ _ _ _ _ h' ha
      rw [List.take_length, ← provRun_sys] at h1
      obtain ⟨k, hk, hm⟩ := C136_tokens_are_given_out cfg ops hw i sid _ v (storedAfter_of hw h1)
      exact ⟨v, sid, t.kind, k, rfl, h1.1, hk, hm⟩

theorem expand_take (cfg : ProvCfg) (ops : List HttpOp) (n : Nat) : ∃ rest, expand cfg ops = expand cfg (ops.take n) ++ rest := by
  refine ⟨expandFrom cfg ((ops.take n).foldl (provStep cfg) (Prov.init cfg)) (ops.drop n), ?_⟩
  unfold expand
  rw [← expandFrom_append, List.take_append_drop]

/-- The token response to a request is the response to its session step in the whole history. -/
theorem tokensAt_whole {cfg : ProvCfg} {ops : List HttpOp} {i : Nat} {req : TokReq} {resp : TokResp}
    (h : tokensAt cfg ops i = some (req, resp)) :
    responseAt cfg.sys (expand cfg ops) (expand cfg (ops.take i)).length = some (req, resp) ∧
    (expand cfg ops).take (expand cfg (ops.take i)).length = expand cfg (ops.take i) ∧
    (expand cfg ops).take ((expand cfg (ops.take i)).length + 1) = expand cfg (ops.take (i + 1)) := by
  obtain ⟨inp, h1, h2, h3⟩ := tokensAt_response h
  obtain ⟨rest, hr⟩ := expand_take cfg ops (i + 1)
  have e1 : (expand cfg ops).take (expand cfg (ops.take i)).length = expand cfg (ops.take i) := by
    rw [hr, h2, List.append_assoc, List.take_left]
  have e2 : (expand cfg ops).take ((expand cfg (ops.take i)).length + 1) = expand cfg (ops.take (i + 1)) := by
    have : (expand cfg (ops.take i)).length + 1 = (expand cfg (ops.take (i + 1))).length := by rw [h2]; simp
    rw [this, hr, List.take_left]
  refine ⟨?_, e1, e2⟩
  unfold responseAt at h3 ⊢
  have e3 : (expand cfg ops)[(expand cfg (ops.take i)).length]? = (expand cfg (ops.take (i + 1)))[(expand cfg (ops.take i)).length]? := by
    rw [hr, List.getElem?_append_left]
    rw [h2]; simp
  have e4 : (expand cfg (ops.take (i + 1))).take (expand cfg (ops.take i)).length = expand cfg (ops.take i) := by
    rw [h2, List.take_left]
  rw [e3, e1]
  rw [e4] at h3
  exact h3

/-- C137: no code is redeemed twice, whoever sends the token requests. -/
theorem C137_code_redeemed_once_on_the_web (cfg : ProvCfg) (ops : List HttpOp) (hw : WebRun cfg ops) (i j : Nat) (r1 r2 : TokReq)
    (resp1 resp2 : TokResp) (c : Str) (h1 : tokensAt cfg ops i = some (r1, resp1)) (h2 : tokensAt cfg ops j = some (r2, resp2))
    (g1 : r1.grantType = some c!"authorization_code") (g2 : r2.grantType = some c!"authorization_code")
    (c1 : r1.code = some c) (c2 : r2.code = some c) : i = j := by
  obtain ⟨hf, _, _⟩ := expand_ok hw
  obtain ⟨a1, a2, a3⟩ := tokensAt_whole h1
  obtain ⟨b1, b2, b3⟩ := tokensAt_whole h2
  have he := C27_code_redeemed_once cfg.sys hw.blank _ hf _ _ r1 r2 resp1 resp2 c a1 b1 g1 g2 c1 c2
  obtain ⟨inp1, o1, e1, _⟩ := tokensAt_response h1
  obtain ⟨inp2, o2, e2, _⟩ := tokensAt_response h2
  have mono : ∀ m n, m < n → (expand cfg (ops.take (m + 1))).length ≤ (expand cfg (ops.take n)).length := by
    intro m n hmn
    obtain ⟨rest, hr⟩ := expand_take cfg (ops.take n) (m + 1)
    rw [List.take_take, Nat.min_eq_left (by omega)] at hr
    rw [hr]
    simp
  rcases Nat.lt_trichotomy i j with hlt | heq | hlt
  · have := mono i j hlt
    rw [e1] at this
    simp at this
    omega
  · exact heq
  · have := mono j i hlt
    rw [e2] at this
    simp at this
    omega

theorem redirectCheck_val {ar : AuthReq} {req : TokReq} (h : redirectCheck ar req = .val ()) :
    ar.redirectUri = none ∨ req.redirectUri = ar.redirectUri := by
  unfold redirectCheck at h
  cases hr : ar.redirectUri with
  | none => exact Or.inl rfl
  | some u =>
    right
    simp only [hr] at h
    cases hq : req.redirectUri with
    | none => simp [hq] at h
    | some r =>
      simp only [hq] at h
      by_cases he : r = u
      · rw [he]
      · simp [he] at h

/-- C137: a code is redeemed under the terms of the authorization request it was made for: that request was the client's, in the
browser of the user whose session it is; if its answer was a response, the code was in it; the token request repeats its
redirect URI, its verifier fits its PKCE challenge, and the scope granted is the one it asked for. -/
theorem C137_code_terms_on_the_web (cfg : ProvCfg) (ops : List HttpOp) (hw : WebRun cfg ops) (i : Nat) (req : TokReq) (resp : TokResp)
    (h : tokensAt cfg ops i = some (req, resp)) (hgt : req.grantType = some c!"authorization_code") :
    ∃ c k now gid mc ma idt raw areq q sid u gid', req.code = some c ∧ k < i ∧
      ops[k]? = some (.authorize now gid mc ma idt raw areq) ∧ Parsed cfg (provRun cfg (ops.take k)) areq.areq q ∧
      MadeAt cfg ops k sid .authorizationCode c ∧ sid = sessionKey [u, q.clientId, gid'] ∧
      (ShowsLogin cfg raw u ∨ ∃ s, ShowsSession cfg raw u (some s)) ∧
      (q.redirectUri = none ∨ req.redirectUri = q.redirectUri) ∧
      (cfg.sys.env.gc.implicit = false → resp.scope = q.scope) ∧
      ∀ p ch, cfg.sys.env.pkce = some p → q.codeChallenge = some ch →
        ∃ v m f, req.codeVerifier = some v ∧ q.codeChallengeMethod = some m ∧ p.methods.get? m = some f ∧ f v = .ok ch := by
  obtain ⟨hf, _, _⟩ := expand_ok hw
  obtain ⟨a1, a2, a3⟩ := tokensAt_whole h
  obtain ⟨inp, c, sid, g, t, ar, g', hop, b1, b2, b3, b4, b5, b6, b7, b8, b9, b10, b11, b12, _⟩ := code_response hw.blank hf a1 hgt
  obtain ⟨v1, v2⟩ := getToken_value b6
  have hn := webNoEmpty hw i
  rw [a2, ← provRun_sys] at b2 b3
  have hst : (provRun cfg (ops.take i)).sys.store sid = some (.grant g) := b3
  have hstored : StoredAfter cfg ops i sid .authorizationCode c := ⟨g, t, hst, v2, b7, v1⟩
  obtain ⟨k, hk, hm⟩ := C136_tokens_are_given_out cfg ops hw i sid _ c hstored
  obtain ⟨gk, tk, hgk, _⟩ := hm.after
  obtain ⟨now, gid, mc, ma, idt, raw, areq, q, u, gid', ho, hp, hq, hsid, hshow⟩ := code_made_for hw hm hgk
  -- the request on record is still the same
  have hevo : Evo cfg.sys.env sid gk g := by
    rw [provRun_sys] at hgk hst
    obtain ⟨rest, hr⟩ := expand_take cfg (ops.take i) (k + 1)
    rw [List.take_take, Nat.min_eq_left (by omega)] at hr
    obtain ⟨hfi, _, _⟩ := expand_ok (hw.take i)
    refine evo_later hfi hw.blank (i := (expand cfg (ops.take (k + 1))).length) (j := (expand cfg (ops.take i)).length) ?_ ?_ ?_
    · rw [hr]; simp
    · rw [hr, List.take_left]; exact hgk
    · rw [List.take_length]; exact hst
  have har : ar = q := by
    have := hevo.authReq
    rw [hq, b10] at this
    exact Option.some.inj this
  subst har
  refine ⟨c, k, now, gid, mc, ma, idt, raw, areq, ar, sid, u, gid', b1, hk, ho, hp, hm, hsid, ?_, redirectCheck_val b11, ?_, ?_⟩
  · rcases hshow with h | h | ⟨s, h, _⟩
    · exact Or.inl h
    · exact Or.inr ⟨sid, h⟩
    · exact Or.inr ⟨s, h⟩
  · intro himp
    obtain ⟨ar2, d1, d2⟩ := b4.scope (getToken_nonempty b6)
    rw [b10] at d1
    cases d1
    rw [b12]
    exact (d2 himp).1
  · intro p ch hpk hch
    obtain ⟨inp3, c3, sid3, g3, ar3, d1, d2, d3, d4, d5, d6⟩ := C30_code_needs_verifier cfg.sys hw.blank _ hf p hpk _ req resp a1 hgt
    rw [hop] at d1
    cases d1
    rw [b1] at d2
    cases d2
    rw [(sessionByToken_key hn b2).1] at d3
    cases d3
    rw [a2, ← provRun_sys] at d4
    rw [(getGrant_key hn d4).1] at hst
    cases hst
    rw [b10] at d5
    cases d5
    exact d6 ch hch

end Verif
