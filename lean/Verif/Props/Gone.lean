import Verif.Lemmas.Gone
import Verif.Spec.Gone
import Verif.Props.Lasting
import Verif.Props.ProviderUri
set_option linter.unusedSimpArgs false
set_option linter.unusedVariables false
/-! C157: a new login at a client ends the earlier sessions there, for good. -/
namespace Verif
open Spec

/-- One request. -/
theorem gone_step {cfg : ProvCfg} {l : List HttpOp} {op : HttpOp} (hn : GoodNames cfg (l ++ [op])) {u c d : Str} (hu : GoodId u) (hc : GoodId c)
    (hd : d ∉ httpGid op) (h : ¬ Lists (provRun cfg l).sys.store u c d) : ¬ Lists (provRun cfg (l ++ [op])).sys.store u c d := by
  have hS := provRun_sound hn.snoc_left
  have hcl : ∀ c, ((provRun cfg l).cdb c).isSome = true → GoodId c :=
    fun c hc => hn.snoc_left.clients c (provRun_named cfg l c hc)
  rw [provRun_snoc]
  cases op with
  | register => exact h
  | push => exact h
  | userinfo => exact h
  | introspect => exact h
  | tokenParse now r req => simp only [provStep]; split <;> exact h
  | tokenProcess i req =>
    simp only [provStep, sysStep]
    split
    · exact fun x => h (nb_tokProcess hu hc hS h _ _ _ _ _ x)
    · exact h
  | logout post sid alla => exact fun x => h (nb_logout hu hc hS _ _ _ _ _ x)
  | restart =>
    simp only [provStep]
    split
    · rintro ⟨ci, e, _⟩; cases e
    · exact h
  | authorize now gid mc ma idt raw req =>
    have hgu := hn.users now gid mc ma idt raw req (by simp)
    have hg : GoodId gid := hn.gids gid (by simp [httpGid])
    simp only [provStep]
    unfold authorizeEndpoint
    generalize authzParse cfg.sys.env (provRun cfg l).cdb (provRun cfg l).par req.areq = r
    obtain ⟨par, o⟩ := r
    cases o with
    | errMsg e => exact h
    | raise e => exact h
    | val q =>
      simp only
      unfold authzBrowser
      split
      · exact h
      · split
        · exact h
        · split
          · exact h
          · rename_i a ha
            obtain ⟨-, -, h1, h2⟩ := authnIn_shows ha
            refine nb_authzProcess hu hc hS h _ _ _ _ _ _ _ _ hg (hcl _) ?_ (fun e => hd (by simp [httpGid, e]))
            cases hid : a.ident with
            | nobody => trivial
            | plain u => exact hgu u (Or.inl (h1 u hid))
            | decoded u sid =>
              rintro x rfl
              exact hgu x (Or.inr ⟨sid, h2 x sid hid⟩)

theorem gone_stays {cfg : ProvCfg} (l mid : List HttpOp) (hn : GoodNames cfg (l ++ mid)) {u c d : Str} (hu : GoodId u) (hc : GoodId c)
    (hd : d ∉ mid.flatMap httpGid) (h : ¬ Lists (provRun cfg l).sys.store u c d) : ¬ Lists (provRun cfg (l ++ mid)).sys.store u c d := by
  induction mid using snocInd with
  | nil => rw [List.append_nil]; exact h
  | append_singleton m op ih =>
    rw [← List.append_assoc] at hn ⊢
    simp only [List.flatMap_append, List.mem_append, not_or, List.flatMap_cons, List.flatMap_nil, List.append_nil] at hd
    exact gone_step hn hu hc hd.2 (ih hn.snoc_left hd.1)

/-- The login cookie tells who the user is. -/
theorem login_ident {cfg : ProvCfg} {now : Int} {raw : Option Str} {r : UserReq} {a : AuthnIn}
    (h : authnIn cfg.sys.env cfg.acfg now raw r = .ok a) {u : Str} (hu : ShowsLogin cfg raw u) : a.ident = .plain u ∨ a.ident = .nobody := by
  have one : ∀ v, CookieSays cfg raw v → v = u := by
    rintro v ⟨r1, t1, y1, e1, e2⟩
    obtain ⟨⟨r2, t2, y2, e3, e4⟩, -⟩ := hu
    rw [e1] at e3
    cases e3
    rw [e2] at e4
    simp only [Except.ok.injEq, Option.some.injEq, Prod.mk.injEq] at e4
    exact e4.1
  cases hi : a.ident with
  | nobody => exact Or.inr rfl
  | plain x =>
    have := (authnIn_shows h).2.2.1 x hi
    rw [one x this.1]; exact Or.inl rfl
  | decoded x sid =>
    obtain ⟨v, b, e1, e2, -⟩ := authnIn_decoded h hi
    rw [one v e1, hu.2] at e2
    cases e2

/-- After an answered authorization request from the browser of a user who is logged in, the only session of the user with that
client is the new one. -/
theorem gone_after_login {cfg : ProvCfg} {hist : List HttpOp} {now : Int} {gid : Str} {mc ma : MintIn} {idt : Out Str} {raw : Option Str}
    {req : UserReq} (hn : GoodNames cfg (hist ++ [.authorize now gid mc ma idt raw req])) {u d : Str} {q : AuthReq} {r : AuthzReply}
    (hl : ShowsLogin cfg raw u) (hp : Parsed cfg (provRun cfg hist) req.areq q)
    (hr : (authorizeEndpoint cfg (provRun cfg hist) now gid mc ma idt raw req).2.2.2 = .reply r) (hne : d ≠ gid) :
    GoodId u ∧ GoodId q.clientId ∧
      ¬ Lists (provRun cfg (hist ++ [.authorize now gid mc ma idt raw req])).sys.store u q.clientId d := by
  have hu : GoodId u := hn.users now gid mc ma idt raw req (by simp) u (Or.inl hl)
  have hg : GoodId gid := hn.gids gid (by simp [httpGid])
  have hS := provRun_sound hn.snoc_left
  have hgu := hn.users now gid mc ma idt raw req (by simp)
  obtain ⟨q', a, p1, p2, p3, p4⟩ := authorizeEndpoint_reply hr
  have : q' = q := by
    unfold Parsed at hp p1
    rw [hp] at p1
    exact (Out.val.inj p1).symm
  subst this
  have hcl : GoodId q'.clientId := by
    refine hn.snoc_left.clients _ (provRun_named cfg hist _ ?_)
    unfold authzProcess at p4
    cases hc : (provRun cfg hist).cdb q'.clientId with
    | none => simp [hc] at p4
    | some x => rfl
  refine ⟨hu, hcl, ?_⟩
  have hi : GoodIdent a.ident := by
    rcases login_ident p2 hl with e | e
    · rw [e]; exact hu
    · rw [e]; trivial
  have hstore : (provRun cfg (hist ++ [.authorize now gid mc ma idt raw req])).sys.store =
      (authzProcess cfg.sys.env (provRun cfg hist).cdb (provRun cfg hist).sys.store now gid mc ma idt a q').2.1 := by
    have h1 := provStep_sys cfg (provRun cfg hist) (.authorize now gid mc ma idt raw req)
    rw [p3] at h1
    rw [provRun_snoc, h1]
    rfl
  rw [hstore]
  obtain ⟨s', sid, u', e1, -, e3⟩ := authzProcess_reply p4
  rw [e3]
  have hnot : ¬ Lists s' u q'.clientId d := by
    rcases login_ident p2 hl with e | e
    · unfold setupAuth at e1
      rw [e] at e1
      simp only at e1
      split at e1
      · cases e1
      · split at e1
        · simp only [Prod.mk.injEq, Out.val.injEq] at e1
          exact absurd e1.2 (needLogin_ne _ _ _)
        · unfold startSession at e1
          simp only at e1
          generalize hA : ({ authnEvent := _, authReq := q', usageRules := usageRulesOf cfg.sys.env.gc (provRun cfg hist).cdb q'.clientId } : SessArgs) = A at e1
          have := gone_createSession (sf := cfg.sys.env.sf) (d := d) hu hcl hS now A hg (fun e => hne e.symm)
          generalize createSession cfg.sys.env.sf (provRun cfg hist).sys.store now gid u q'.clientId A = R at this e1
          obtain ⟨R1, R2⟩ := R
          cases R2 with
          | error e => cases e1
          | ok x =>
            simp only [Prod.mk.injEq] at e1
            rw [← e1.1]; exact this
    · unfold setupAuth at e1
      rw [e] at e1
      simp only [Prod.mk.injEq, Out.val.injEq] at e1
      exact absurd e1.2 (needLogin_ne _ _ _)
  have hS' : Sound s' := by
    have := sound_setupAuth hS cfg.sys.env (provRun cfg hist).cdb now q' a hg hcl hi
    rw [e1] at this
    exact this
  exact fun x => hnot (nb_authzPart2 hu hcl hS' _ _ _ _ _ _ _ _ (fun g hgr => otherSid_of_read hS' hnot hgr) x)

/-- Where a token was made for a session that is gone, it is of no use. -/
theorem gone_no_use {cfg : ProvCfg} (L : TokenCryptoLaws cfg.sys.env.cr) {ops : List HttpOp} (hw : WebRun cfg ops) (hn : GoodNames cfg ops)
    {u c d v tt : Str} (hu : GoodId u) (hc : GoodId c) (hd : GoodId d) (hno : ¬ Lists (provRun cfg ops).sys.store u c d)
    (hv : FromHandler cfg.sys.env (sessionKey [u, c, d]) tt v) (later : Int) : OfNoUse cfg ops later v := by
  have hS := provRun_sound hn
  have key : ∀ {sid : Str} {g : Grant}, sessionByToken cfg.sys.env.th cfg.sys.env.cr (provRun cfg ops).sys.store later v = .ok (sid, .grant g) → False := by
    intro sid g h
    have h1 := (sessionByToken_key hS.noEmpty h).1
    obtain ⟨hd', -, n, r, no, ty, e⟩ := hv
    have hs : sid = sessionKey [u, c, d] := by
      rw [e] at h1
      exact minted_sid L _ h1
    subst hs
    obtain ⟨u', c', d', -, -, -, q, hx⟩ := otherSid_of_read hS hno (sessionByToken_getGrant h)
    have q' := congrArg unpackSessionKey q
    obtain ⟨u2, c2, d2, q1, q2, q3, q4⟩ := hS.sid (getGrant_key hS.noEmpty (sessionByToken_getGrant h)).1
    rw [q] at q4
    obtain ⟨u3, c3, d3, a1, a2, a3, a4, a5⟩ := otherSid_of_read hS hno (sessionByToken_getGrant h)
    rw [a4] at q
    have e2 := (key_inj (goodPath_three a1 a2 a3) (goodPath_three hu hc hd)).1 a4.symm
    simp only [List.cons.injEq, and_true] at e2
    exact a5 e2
  have hfin : ∀ inp req resp, inp.now = later → tokensAt cfg (ops ++ [.tokenProcess inp req]) ops.length = some (req, resp) →
      req ∈ (provRun cfg ops).sys.pending ∧
      (tokProcess cfg.sys.mode cfg.sys.env cfg.sys.helpers (provRun cfg ops).sys.store inp req).2 = .val resp := by
    intro inp req resp hnow h
    unfold tokensAt at h
    rw [List.getElem?_append_right (Nat.le_refl _), List.take_left] at h
    simp only [Nat.sub_self, List.getElem?_cons_zero] at h
    unfold sysResponse at h
    simp only at h
    split at h
    · rename_i hp
      split at h
      · rename_i r hr
        simp only [Option.some.injEq, Prod.mk.injEq, true_and] at h
        subst h
        exact ⟨hp, hr⟩
      · cases h
    · cases h
  obtain ⟨hf, -, -⟩ := expand_ok hw
  have hi := sysRun_inv cfg.sys (expand cfg ops) hf hw.blank (expand cfg ops).length
  rw [List.take_length, ← provRun_sys] at hi
  constructor
  · intro r hb j x hx
    obtain ⟨t, b1, b2⟩ := userinfoEndpoint_val hx
    rw [hb t b1] at b2
    obtain ⟨sid, user, gid', g', t', e', ui, h1, -⟩ := userinfoProcess_val b2
    exact key h1
  · intro r j dd hx ha
    unfold introspectEndpoint at hx
    split at hx
    · cases hx
    · simp only [Prod.mk.injEq] at hx
      rcases introspectProcess_val hx.2 with ⟨rfl, -⟩ | ⟨sid, user, client, gid', g', t', info', ui', q1, -⟩
      · simp [inactive, Dict.get?] at ha
      · exact key q1
  · intro inp req resp hnow hgt hcode h
    obtain ⟨hp, hv'⟩ := hfin inp req resp hnow h
    obtain ⟨hx, c', sid, g, ar, h1, h2, -⟩ := tokProcess_code hi.noEmpty hgt hv'
    obtain ⟨c'', q1, q2, q3⟩ := (hi.pending req hp _ hgt).1 hx
    rw [h1] at q1
    cases q1
    rw [hcode] at h1
    cases h1
    rw [q2, hnow] at h2
    exact key h2
  · intro inp req resp hnow hgt hrt h
    obtain ⟨hp, hv'⟩ := hfin inp req resp hnow h
    obtain ⟨hx, v', sid, g, h1, h2, -⟩ := tokProcess_refresh hi.noEmpty hgt hv'
    rw [hrt] at h1
    cases h1
    rw [hnow] at h2
    exact key h2

theorem key_parts {u c d u' c' d' : Str} (hu : GoodId u) (hc : GoodId c) (hu' : GoodId u') (hc' : GoodId c') (hd' : GoodId d')
    (e : sessionKey [u, c, d] = sessionKey [u', c', d']) : u = u' ∧ c = c' ∧ d = d' := by
  have hf : ∀ {x : Str}, GoodId x → ¬ [';', ';'] <:+: x ∧ ¬ [';'] <:+ x := by
    intro x hx
    have : ';' ∉ x := hx.2
    exact ⟨fun ⟨a, b, h⟩ => this (by rw [← h]; simp), fun ⟨a, h⟩ => this (by rw [← h]; simp)⟩
  have e1 : unpackSessionKey (sessionKey [u, c, d]) = u :: c :: pySplit [';', ';'] d := by
    have : sessionKey [u, c, d] = u ++ ';' :: ';' :: (c ++ ';' :: ';' :: d) := by simp [sessionKey, pyJoin, divider]
    unfold unpackSessionKey divider
    rw [this, show (c!";;" : Str) = [';', ';'] from rfl, split_dd_append _ _ _ (hf hu).1 (hf hu).2, split_dd_append _ _ _ (hf hc).1 (hf hc).2]
  rw [e, unpack_good (goodPath_three hu' hc' hd')] at e1
  simp only [List.cons.injEq] at e1
  obtain ⟨rfl, rfl, e2⟩ := e1
  refine ⟨rfl, rfl, ?_⟩
  have := (split_dd_spec ';' d).1
  rw [← e2] at this
  simpa [pyJoin] using this.symm

/-- What is known of a string that was made for a session. -/
theorem made_for {cfg : ProvCfg} {ops : List HttpOp} (hw : WebRun cfg ops) (hn : GoodNames cfg ops) {k : Nat} {u c d v : Str} {kd : TokenKind}
    (h : MadeAt cfg ops k (sessionKey [u, c, d]) kd v) (hu : GoodId u) (hc : GoodId c) :
    GoodId d ∧ d ∈ ops.flatMap httpGid ∧ ∃ tt, FromHandler cfg.sys.env (sessionKey [u, c, d]) tt v := by
  obtain ⟨g, t, hs, ht, hk, hv⟩ := h.after
  obtain ⟨hf, hl, hh⟩ := expand_ok (hw.take (k + 1))
  have hi := sysRun_inv cfg.sys (expand cfg (ops.take (k + 1))) hf hw.blank (expand cfg (ops.take (k + 1))).length
  have hs' := hs
  rw [provRun_sys, ← List.take_length (l := expand cfg (ops.take (k + 1)))] at hs'
  have hg := (hi.grants _ _ hs').2.tokens t ht
  have hn' : GoodNames cfg (ops.take (k + 1)) := by
    have := hn
    rw [← List.take_append_drop (k + 1) ops] at this
    exact this.prefix
  obtain ⟨u', c', d', q1, q2, q3, q4⟩ := (provRun_sound hn').sid hs
  obtain ⟨rfl, rfl, rfl⟩ := key_parts hu hc q1 q2 q3 q4
  obtain ⟨u2, c2, d2, e1, e2⟩ := session_from_login hf hw.blank hl hh _ hs'
  rw [unpack_good (goodPath_three q1 q2 q3)] at e1
  simp only [List.cons.injEq, and_true] at e1
  obtain ⟨rfl, rfl, rfl⟩ := e1
  obtain ⟨j, now, gid, mc, ma, idt, raw, req, q, f, -, w2, -, -, -, w6, -⟩ := (webLogin_of e2).login
  have hm := List.mem_of_mem_take (List.mem_of_getElem? w2)
  have hgid : gid ∈ ops.flatMap httpGid := List.mem_flatMap.2 ⟨_, hm, by simp [httpGid]⟩
  obtain ⟨-, -, rfl⟩ := key_parts hu hc q1 q2 (hn.gids gid hgid) w6
  refine ⟨q3, hgid, t.typ, ?_⟩
  rw [← hv]; exact hg.2.1

/-- **C157** A new login at a client ends the user's earlier sessions there.  Say the browser of a user who is logged in makes an
authorization request of client `c`, and gets an answer that is sent back to the client.  Then every code and every token that
any earlier request made for this user at this client is of no use from then on, for ever, whatever requests follow. -/
theorem C157_new_login_ends_earlier_sessions (cfg : ProvCfg) (L : TokenCryptoLaws cfg.sys.env.cr) (hist mid : List HttpOp)
    (now : Int) (gid : Str) (mc ma : MintIn) (idt : Out Str) (raw : Option Str) (req : UserReq)
    (hw : WebRun cfg (hist ++ [.authorize now gid mc ma idt raw req] ++ mid))
    (hn : GoodNames cfg (hist ++ [.authorize now gid mc ma idt raw req] ++ mid))
    (u : Str) (q : AuthReq) (r : AuthzReply) (hl : ShowsLogin cfg raw u) (hp : Parsed cfg (provRun cfg hist) req.areq q)
    (hr : (authorizeEndpoint cfg (provRun cfg hist) now gid mc ma idt raw req).2.2.2 = .reply r)
    (k : Nat) (d : Str) (kd : TokenKind) (v : Str) (hk : MadeAt cfg hist k (sessionKey [u, q.clientId, d]) kd v) (later : Int) :
    OfNoUse cfg (hist ++ [.authorize now gid mc ma idt raw req] ++ mid) later v := by
  have hn1 := hn.prefix
  have hwh : WebRun cfg hist := by
    have := hw.take hist.length
    rwa [List.append_assoc, List.take_left] at this
  have hu : GoodId u := hn1.users now gid mc ma idt raw req (by simp) u (Or.inl hl)
  have hc : GoodId q.clientId := (gone_after_login (d := c!"x" ++ gid) hn1 hl hp hr (by
    intro e; have := congrArg List.length e; simp at this)).2.1
  obtain ⟨hd, hm, tt, hv⟩ := made_for hwh hn1.snoc_left hk hu hc
  have hnd := hw.nodup
  simp only [List.flatMap_append, List.flatMap_cons, List.flatMap_nil, List.append_nil, httpGid] at hnd
  rw [List.nodup_append] at hnd
  obtain ⟨hnd1, -, hnd3⟩ := hnd
  rw [List.nodup_append] at hnd1
  have hne : d ≠ gid := hnd1.2.2 d hm gid (by simp)
  have hno := (gone_after_login hn1 hl hp hr hne).2.2
  exact gone_no_use L hw hn hu hc hd (gone_stays _ _ hn hu hc (fun x => hnd3 d (by simp [hm]) d x rfl) hno) hv later

/-- When a provider that keeps its sessions in memory is restarted, every code and token made before is of no use, for ever. -/
theorem C157_restart_ends_all_sessions (cfg : ProvCfg) (L : TokenCryptoLaws cfg.sys.env.cr) (hm : cfg.sys.mode = .aliased) (hist mid : List HttpOp)
    (hw : WebRun cfg (hist ++ [.restart] ++ mid)) (hn : GoodNames cfg (hist ++ [.restart] ++ mid))
    (k : Nat) (sid : Str) (kd : TokenKind) (v : Str) (hk : MadeAt cfg hist k sid kd v) (later : Int) :
    OfNoUse cfg (hist ++ [.restart] ++ mid) later v := by
  have hn1 := hn.prefix
  have hwh : WebRun cfg hist := by
    have := hw.take hist.length
    rwa [List.append_assoc, List.take_left] at this
  obtain ⟨u, c, d, hu, hc, hd, rfl⟩ : GoodSid sid := by
    obtain ⟨g, t, hs, -⟩ := hk.after
    have hn' : GoodNames cfg (hist.take (k + 1)) := by
      have := hn1.snoc_left
      rw [← List.take_append_drop (k + 1) hist] at this
      exact this.prefix
    exact (provRun_sound hn').sid hs
  obtain ⟨-, hmem, tt, hv⟩ := made_for hwh hn1.snoc_left hk hu hc
  have hnd := hw.nodup
  simp only [List.flatMap_append, List.flatMap_cons, List.flatMap_nil, List.append_nil, httpGid] at hnd
  rw [List.nodup_append] at hnd
  obtain ⟨-, -, hnd3⟩ := hnd
  have hno : ¬ Lists (provRun cfg (hist ++ [.restart])).sys.store u c d := by
    rw [provRun_snoc]
    simp only [provStep, hm]
    rintro ⟨ci, e, _⟩; cases e
  exact gone_no_use L hw hn hu hc hd (gone_stays _ _ hn hu hc (fun x => hnd3 d (by simpa using hmem) d x rfl) hno) hv later

end Verif
