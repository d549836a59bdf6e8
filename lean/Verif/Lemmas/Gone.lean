import Verif.Lemmas.ClientFrame
import Verif.Lemmas.ProviderInv
set_option linter.unusedSimpArgs false
set_option linter.unusedVariables false
/-! A session that is not in the storage any more does not come back. -/
namespace Verif
open Spec

/-- The record of user `u` at client `c` lists the grant `d`. -/
def Lists (s : Store) (u c d : Str) : Prop := ∃ ci, s.at [u, c] = some (.info ci) ∧ d ∈ ci.subordinate

/-- The grant was not added to those of `u` at `c`. -/
def NotBack (u c d : Str) (s s' : Store) : Prop := Lists s' u c d → Lists s u c d

theorem NotBack.refl (u c d : Str) (s : Store) : NotBack u c d s s := id

theorem NotBack.trans {u c d : Str} {s s' s'' : Store} (h : NotBack u c d s s') (k : NotBack u c d s' s'') : NotBack u c d s s'' :=
  fun x => h (k x)

theorem NotBack.same {u c d : Str} {s s' : Store} (h : s'.at [u, c] = s.at [u, c]) : NotBack u c d s s' := by
  unfold NotBack Lists; rw [h]; exact id

/-- A session id other than that of the grant `d` of `u` at `c`. -/
def OtherSid (u c d sid : Str) : Prop := ∃ u' c' g', GoodId u' ∧ GoodId c' ∧ GoodId g' ∧ sid = sessionKey [u', c', g'] ∧ ¬ (u' = u ∧ c' = c ∧ g' = d)

theorem OtherSid.good {u c d sid : Str} (h : OtherSid u c d sid) : GoodSid sid := by
  obtain ⟨u', c', g', h1, h2, h3, h4, _⟩ := h
  exact ⟨u', c', g', h1, h2, h3, h4⟩

section
variable {u c d : Str} (hu : GoodId u) (hc : GoodId c)
include hu hc

theorem nb_set3 {s : Store} (h : Sound s) {u' c' g' : Str} (h1 : GoodId u') (h2 : GoodId c') (h3 : GoodId g') (hne : ¬ (u' = u ∧ c' = c ∧ g' = d))
    (gr : Grant) : NotBack u c d s (dbSet s [u', c', g'] (.grant gr)).1 := by
  obtain ⟨s', e, hat⟩ := dbSet3 s (.grant gr) h1 h2 h3 (h.tree.typed.user' h1) (h.tree.typed.client' h1 h2)
  rw [e]
  have := hat [u, c] (goodPath_two hu hc)
  simp only [List.cons.injEq, and_true, List.ne_cons_self, reduceCtorEq, and_false, if_false] at this
  by_cases hx : u = u' ∧ c = c'
  · obtain ⟨rfl, rfl⟩ := hx
    simp only [and_self, if_true] at this
    rintro ⟨ci, e1, e2⟩
    rw [this] at e1
    cases e1
    rw [addSub_mem] at e2
    rcases e2 with e2 | e2
    · unfold clientOr at e2
      split at e2
      · rename_i i hi; exact ⟨i, hi, e2⟩
      · simp [SessInfo.client] at e2
    · exact absurd ⟨rfl, rfl, e2.symm⟩ hne
  · rw [if_neg hx] at this
    exact .same this

theorem nb_set2 {s : Store} (h : Sound s) {u' c' : Str} (h1 : GoodId u') (h2 : GoodId c') (o : Obj)
    (ho : u' = u → c' = c → ∀ i, o = .info i → d ∈ i.subordinate → Lists s u c d) :
    NotBack u c d s (dbSet s [u', c'] o).1 := by
  obtain ⟨s', e, hat⟩ := dbSet2 s o h1 h2 (h.tree.typed.user' h1)
  rw [e]
  have := hat [u, c] (goodPath_two hu hc)
  simp only [List.cons.injEq, and_true, List.ne_cons_self, reduceCtorEq, and_false, if_false] at this
  by_cases hx : u = u' ∧ c = c'
  · obtain ⟨rfl, rfl⟩ := hx
    simp only [and_self, if_true] at this
    rintro ⟨ci, e1, e2⟩
    rw [this] at e1
    exact ho rfl rfl ci (Option.some.inj e1) e2
  · rw [if_neg hx] at this
    exact .same this

/-- Writing back a client record that was read. -/
theorem nb_back {s : Store} (h : Sound s) {u' c' : Str} (h1 : GoodId u') (h2 : GoodId c') {o : Obj} (hg : dbGet s [u', c'] = .ok o) :
    NotBack u c d s (dbSet s [u', c'] o).1 := by
  refine nb_set2 hu hc h h1 h2 o ?_
  rintro rfl rfl i rfl hd
  obtain ⟨_, e⟩ := (dbGet2' _ _ _ _).1 hg
  exact ⟨i, e, hd⟩

theorem nb_mgrSet {s : Store} (h : Sound s) {sid : Str} (hs : OtherSid u c d sid) (gr : Grant) : NotBack u c d s (mgrSet s sid (.grant gr)).1 := by
  obtain ⟨u', c', g', h1, h2, h3, rfl, hne⟩ := hs
  unfold Verif.mgrSet
  rw [unpack_good (goodPath_three h1 h2 h3)]
  exact nb_set3 hu hc h h1 h2 h3 hne gr

theorem nb_put {s : Store} {sid : Str} (hs : OtherSid u c d sid) (o : Obj) : NotBack u c d s (s.put sid o) := by
  obtain ⟨u', c', g', h1, h2, h3, rfl, hne⟩ := hs
  refine .same ?_
  rw [put_at _ _ (goodPath_three h1 h2 h3) (goodPath_two hu hc), if_neg (by simp)]

theorem nb_createGrant {sf : SubFuncs} {s : Store} (h : Sound s) (now : Int) {gid u' c' : Str} (a : SessArgs)
    (h3 : GoodId gid) (h1 : GoodId u') (h2 : GoodId c') (hne : gid ≠ d) : NotBack u c d s (createGrant sf s now gid u' c' a).1 := by
  unfold createGrant
  cases newGrant sf now gid u' a with
  | error e => exact .refl _ _ _ _
  | ok g =>
    simp only
    have := nb_set3 (d := d) hu hc h h1 h2 h3 (fun e => hne e.2.2) g
    generalize dbSet s [u', c', gid] (.grant g) = r at this ⊢
    obtain ⟨r1, r2⟩ := r
    cases r2 <;> exact this

/-- A new session with the same client replaces the record: no other grant is listed then. -/
theorem gone_createSession {sf : SubFuncs} {s : Store} (h : Sound s) (now : Int) {gid : Str} (a : SessArgs)
    (h3 : GoodId gid) (hne : gid ≠ d) : ¬ Lists (createSession sf s now gid u c a).1 u c d := by
  obtain ⟨s1, e1, t1, hat⟩ := createSession_user h.tree hu
  unfold createSession
  simp only [e1, if_neg hc.1]
  obtain ⟨s2, e2, hat2⟩ := dbSet2 s1 (.info (SessInfo.client c)) hu hc (t1.typed.user' hu)
  obtain ⟨s2', e2', t2⟩ := tree_set2 t1 hu hc (SessInfo.client c) (by simp [SessInfo.client])
  rw [e2] at e2'
  cases e2'
  simp only [e2]
  have hn : ¬ Lists s2 u c d := by
    rintro ⟨ci, q1, q2⟩
    rw [hat2 _ (goodPath_two hu hc)] at q1
    simp only [if_true, Option.some.injEq, Obj.info.injEq] at q1
    subst q1
    simp [SessInfo.client] at q2
  unfold createGrant
  cases newGrant sf now gid u a with
  | error e => exact hn
  | ok g =>
    simp only
    obtain ⟨s3, e3, hat3⟩ := dbSet3 s2 (.grant g) hu hc h3 (t2.typed.user' hu) (t2.typed.client' hu hc)
    rw [e3]
    rintro ⟨ci, q1, q2⟩
    dsimp only at q1
    rw [hat3 _ (goodPath_two hu hc)] at q1
    simp only [List.cons.injEq, List.ne_cons_self, reduceCtorEq, and_false, if_false, if_true, Option.some.injEq, Obj.info.injEq] at q1
    subst q1
    rw [addSub_mem] at q2
    rcases q2 with q2 | q2
    · unfold clientOr at q2
      split at q2
      · rename_i i hi; exact hn ⟨i, hi, q2⟩
      · simp [SessInfo.client] at q2
    · exact hne q2.symm

theorem nb_createSession {sf : SubFuncs} {s : Store} (h : Sound s) (now : Int) {gid u' c' : Str} (a : SessArgs)
    (h3 : GoodId gid) (h1 : GoodId u') (h2 : GoodId c') (hne : gid ≠ d) : NotBack u c d s (createSession sf s now gid u' c' a).1 := by
  by_cases hx : u' = u ∧ c' = c
  · obtain ⟨rfl, rfl⟩ := hx
    exact fun e => absurd e (gone_createSession hu hc h now a h3 hne)
  · refine .same ?_
    exact (kept_createSession hu h now a h3 h1 h2 hx).same [u, c] (goodPath_two hu hc) (List.prefix_refl _)

theorem nb_mint {s : Store} (h : Sound s) {sid : Str} (hs : OtherSid u c d sid) (env : Env) (hd : Option Handler) (now : Int) (m : MintIn)
    (tt : Str) (g : Grant) (b : Option Token) : NotBack u c d s (mintAndStore env hd s now m sid tt g b).1 := by
  rcases mintAndStore_spec env hd s now m sid tt g b with ⟨h1, _⟩ | ⟨v, t, hrest⟩
  · rw [h1]; exact .refl _ _ _ _
  · obtain ⟨_, _, _, _, _, _, _, _, _, _, _, _, _, h1, _⟩ := hrest
    rw [h1]; exact nb_mgrSet hu hc h hs _

theorem nb_codePart {s : Store} (h : Sound s) {sid : Str} (hs : OtherSid u c d sid) (env : Env) (now : Int) (m : MintIn) (g : Grant) (req : AuthReq) :
    NotBack u c d s (codePart env s now m sid g req).1 := by
  unfold codePart
  split
  · exact nb_mint hu hc h hs _ _ _ _ _ _ _
  · exact .refl _ _ _ _

theorem nb_tokenPart {s : Store} (h : Sound s) {sid : Str} (hs : OtherSid u c d sid) (env : Env) (now : Int) (m : MintIn) (g : Grant)
    (code : Option Token) (req : AuthReq) : NotBack u c d s (tokenPart env s now m sid g code req).1 := by
  unfold tokenPart
  split
  · exact nb_mint hu hc h hs _ _ _ _ _ _ _
  · exact .refl _ _ _ _

theorem nb_idTokenPart {s : Store} (h : Sound s) {sid : Str} (hs : OtherSid u c d sid) (idt : Out Str) (req : AuthReq) :
    NotBack u c d s (idTokenPart s idt sid req).1 := by
  obtain ⟨u', c', g', h1, h2, h3, rfl, hne⟩ := hs
  unfold idTokenPart
  split
  · cases idt with
    | raise e => exact .refl _ _ _ _
    | errMsg e => exact .refl _ _ _ _
    | val i =>
      simp only [unpack3_good h1 h2 h3]
      cases hd : dbGet s [u', c'] with
      | error e => exact .refl _ _ _ _
      | ok o =>
        simp only
        have := nb_back (d := d) hu hc h h1 h2 hd
        generalize dbSet s [u', c'] o = r at this ⊢
        obtain ⟨r1, r2⟩ := r
        cases r2 <;> exact this
  · exact .refl _ _ _ _

theorem nb_authnResponse {s : Store} (h : Sound s) {sid : Str} (hs : OtherSid u c d sid) (env : Env) (now : Int) (mc ma : MintIn) (idt : Out Str)
    (req : AuthReq) : NotBack u c d s (createAuthnResponse env s now mc ma idt req sid).1 := by
  have hs' := hs.good
  unfold createAuthnResponse
  split
  · exact .refl _ _ _ _
  · cases getGrant s sid with
    | error e => exact .refl _ _ _ _
    | ok g =>
      simp only
      have h1 := sound_codePart h hs' env now mc g req
      have k1 := nb_codePart hu hc h hs env now mc g req
      generalize codePart env s now mc sid g req = r at h1 k1 ⊢
      obtain ⟨s1, g1, o1⟩ := r
      cases o1 with
      | error e => exact k1
      | ok code =>
        simp only at h1 k1 ⊢
        have h2 := sound_tokenPart h1 hs' env now ma g1 code req
        have k2 := k1.trans (nb_tokenPart hu hc h1 hs env now ma g1 code req)
        generalize tokenPart env s1 now ma sid g1 code req = r at h2 k2 ⊢
        obtain ⟨s2, g2, o2⟩ := r
        cases o2 with
        | error e => exact k2
        | ok tok =>
          simp only at h2 k2 ⊢
          have k3 := k2.trans (nb_idTokenPart hu hc h2 hs idt req)
          generalize idTokenPart s2 idt sid req = r at k3 ⊢
          obtain ⟨s3, o3⟩ := r
          cases o3 with
          | raise e => exact k3
          | errMsg e => exact k3
          | val i => simp only; split <;> exact k3

theorem nb_authzPart2 {s : Store} (h : Sound s) (env : Env) (cdb : Cdb) (now : Int) (mc ma : MintIn) (idt : Out Str)
    (req : AuthReq) (sid : Str) (hs : ∀ g, getGrant s sid = .ok g → OtherSid u c d sid) :
    NotBack u c d s (authzPart2 env cdb s now mc ma idt req sid).2.1 := by
  unfold authzPart2
  cases hg : getGrant s sid with
  | error e => exact .refl _ _ _ _
  | ok g =>
    have hs := hs g hg
    obtain ⟨u', c', g', h1, h2, h3, rfl, hne⟩ := id hs
    simp only [unpack3_good h1 h2 h3]
    generalize authzCall env.gc env.ccfg cdb now c' g req = r
    obtain ⟨r1, r2⟩ := r
    cases r2 with
    | error e => exact .refl _ _ _ _
    | ok gg =>
      simp only
      have q1 := h.set3 h1 h2 h3 gg
      have k1 := nb_set3 hu hc h h1 h2 h3 hne gg
      generalize dbSet s [u', c', g'] (.grant gg) = r at q1 k1 ⊢
      obtain ⟨s1, o1⟩ := r
      cases o1 with
      | error e => exact k1
      | ok _ =>
        simp only at q1 k1 ⊢
        have k2 := k1.trans (nb_authnResponse hu hc q1 hs env now mc ma idt req)
        generalize createAuthnResponse env s1 now mc ma idt req (sessionKey [u', c', g']) = r at k2 ⊢
        obtain ⟨s2, o2⟩ := r
        cases o2 with
        | error e => exact k2
        | ok cf =>
          obtain ⟨content, frag⟩ := cf
          simp only
          split
          · exact k2
          · split <;> exact k2


/-- Setting up a session brings no grant back but the one of the request. -/
theorem nb_setupAuth {s : Store} (h : Sound s) (env : Env) (cdb : Cdb) (now : Int) {gid : Str} (req : AuthReq) (a : AuthnIn)
    (hg : GoodId gid) (hq : GoodId req.clientId) (hi : GoodIdent a.ident) (hne : gid ≠ d) :
    NotBack u c d s (setupAuth env cdb s now gid req a).1 := by
  unfold setupAuth
  cases hid : a.ident with
  | nobody => exact .refl _ _ _ _
  | plain uid =>
    rw [hid] at hi
    simp only
    split
    · exact .refl _ _ _ _
    · split
      · exact .refl _ _ _ _
      · unfold startSession
        simp only
        generalize hA : ({ authnEvent := _, authReq := req, usageRules := usageRulesOf env.gc cdb req.clientId } : SessArgs) = A
        have := nb_createSession (sf := env.sf) hu hc h now (c' := req.clientId) A hg hi hq hne
        generalize createSession env.sf s now gid uid req.clientId A = r at this ⊢
        obtain ⟨r1, r2⟩ := r
        cases r2 <;> exact this
  | decoded uid sid0 =>
    rw [hid] at hi
    simp only
    cases sid0 with
    | none => exact .refl _ _ _ _
    | some sid0 =>
      simp only
      cases mgrGet s sid0 with
      | error e => exact .refl _ _ _ _
      | ok o =>
        cases o with
        | info i => exact .refl _ _ _ _
        | grant g0 =>
          simp only
          split
          · exact .refl _ _ _ _
          · split
            · exact .refl _ _ _ _
            · cases uid with
              | none => exact .refl _ _ _ _
              | some uid =>
                simp only
                split
                · exact .refl _ _ _ _
                · cases unpack3 sid0 with
                  | error e => exact .refl _ _ _ _
                  | ok t =>
                    obtain ⟨u1, c1, g1⟩ := t
                    simp only
                    split
                    · exact .refl _ _ _ _
                    · generalize hR : (if g0.authReq = some req then (s, Out.val sid0) else _ : Store × Out Str) = R
                      have hR1 : NotBack u c d s R.1 := by
                        rw [← hR]
                        split
                        · exact .refl _ _ _ _
                        · split
                          · exact .refl _ _ _ _
                          · exact .refl _ _ _ _
                          · have := nb_createGrant (sf := env.sf) hu hc h now (c' := req.clientId) { authnEvent := g0.authnEvent, authReq := req } hg
                              (hi uid rfl) hq hne
                            generalize createGrant env.sf s now gid uid req.clientId { authnEvent := g0.authnEvent, authReq := req } = r at this ⊢
                            obtain ⟨r1, r2⟩ := r
                            cases r2 <;> exact this
                      obtain ⟨R1, R2⟩ := R
                      cases R2 with
                      | raise e => exact hR1
                      | errMsg e => exact hR1
                      | val sid' =>
                        simp only
                        split
                        · exact hR1
                        · split <;> exact hR1

omit hu hc in
/-- A session that can be read is not the one that is gone. -/
theorem otherSid_of_read {s : Store} (h : Sound s) (hno : ¬ Lists s u c d) {sid : Str} {g : Grant} (hg : getGrant s sid = .ok g) :
    OtherSid u c d sid := by
  obtain ⟨u', c', g', q1, q2, q3, rfl⟩ := h.sid (getGrant_key h.noEmpty hg).1
  refine ⟨u', c', g', q1, q2, q3, rfl, ?_⟩
  rintro ⟨rfl, rfl, rfl⟩
  obtain ⟨_, ci, -, -, d3, d4, -⟩ := (dbGet3 _ _ _ _ _).1 ((getGrant_iff q1 q2 q3 g).1 hg)
  exact hno ⟨ci, d3, d4⟩

theorem nb_authzProcess {s : Store} (h : Sound s) (hno : ¬ Lists s u c d) (env : Env) (cdb : Cdb) (now : Int) {gid : Str} (mc ma : MintIn) (idt : Out Str)
    (a : AuthnIn) (req : AuthReq) (hg : GoodId gid) (hq : (cdb req.clientId).isSome = true → GoodId req.clientId) (hi : GoodIdent a.ident)
    (hne : gid ≠ d) : ¬ Lists (authzProcess env cdb s now gid mc ma idt a req).2.1 u c d := by
  unfold authzProcess
  cases hcl : cdb req.clientId with
  | none => exact hno
  | some cl =>
    simp only
    split
    · exact hno
    · have hcg := hq (by rw [hcl]; rfl)
      have h1 := sound_setupAuth h env cdb now req a hg hcg hi
      have k1 := fun x => hno (nb_setupAuth hu hc h env cdb now req a hg hcg hi hne x)
      generalize setupAuth env cdb s now gid req a = r at h1 k1 ⊢
      obtain ⟨s1, o1⟩ := r
      cases o1 with
      | raise e => exact k1
      | errMsg e => exact k1
      | val x =>
        cases x with
        | login => exact k1
        | loginRequired => exact k1
        | session sid v =>
          exact fun x => k1 (nb_authzPart2 hu hc h1 env cdb now mc ma idt req sid (fun g hgr => otherSid_of_read h1 k1 hgr) x)

/-! ### The token endpoint -/

theorem nb_refreshPart {s : Store} (h : Sound s) {sid : Str} (hs : OtherSid u c d sid) (env : Env) (i : TokIn) (g : Grant) (b : Option Token)
    (want : Bool) : NotBack u c d s (refreshPart env s i sid g b want).1 := by
  unfold refreshPart
  split
  · exact nb_mint hu hc h hs _ _ _ _ _ _ _
  · exact .refl _ _ _ _

theorem nb_exchangeCode {s : Store} (h : Sound s) {sid : Str} (hs : OtherSid u c d sid) (env : Env) (i : TokIn) (g : Grant) (b : Option Token)
    (ar : AuthReq) : NotBack u c d s (exchangeCode env s i sid g b ar).1 := by
  have hs' := hs.good
  unfold exchangeCode
  simp only
  have h1 := sound_mint h hs' env env.th.accessToken i.now i.ma tAccessToken g b
  have k1 := nb_mint hu hc h hs env env.th.accessToken i.now i.ma tAccessToken g b
  generalize mintAndStore env env.th.accessToken s i.now i.ma sid tAccessToken g b = r at h1 k1 ⊢
  obtain ⟨s1, g1, o1⟩ := r
  cases o1 with
  | error e => exact k1
  | ok tok =>
    simp only at h1 k1 ⊢
    have h2 := sound_refreshPart h1 hs' env i g1 b (decide (c!"offline_access" ∈ g.scope))
    have k2 := k1.trans (nb_refreshPart hu hc h1 hs env i g1 b (decide (c!"offline_access" ∈ g.scope)))
    generalize refreshPart env s1 i sid g1 b (decide (c!"offline_access" ∈ g.scope)) = r at h2 k2 ⊢
    obtain ⟨s2, g2, o2⟩ := r
    cases o2 with
    | error e => exact k2
    | ok rt =>
      simp only at h2 k2 ⊢
      unfold finishCode
      cases b with
      | none => exact k2
      | some b =>
        simp only
        have k3 := k2.trans (nb_mgrSet hu hc h2 hs (g2.registerUsage b.value))
        generalize mgrSet s2 sid (.grant (g2.registerUsage b.value)) = r at k3 ⊢
        obtain ⟨s3, o3⟩ := r
        cases o3 with
        | error e => exact k3
        | ok _ => simp only; split <;> exact k3

theorem nb_newRefresh {s : Store} (h : Sound s) {sid : Str} (hs : OtherSid u c d sid) (m : Mode) (env : Env) (i : TokIn) (g : Grant) (b : Token)
    (want : Bool) : NotBack u c d s (newRefresh m env s i sid g b want).1 := by
  unfold newRefresh
  simp only
  have k1 := nb_refreshPart hu hc h hs env i g (some b) want
  generalize refreshPart env s i sid g (some b) want = r at k1 ⊢
  obtain ⟨s1, g1, o1⟩ := r
  cases o1 with
  | error e => exact k1
  | ok o =>
    cases o with
    | none => exact k1
    | some t =>
      simp only
      unfold touch
      cases m with
      | byValue => exact k1
      | aliased => exact k1.trans (nb_put hu hc hs _)

theorem nb_exchangeRefresh {s : Store} (h : Sound s) {sid : Str} (hs : OtherSid u c d sid) (m : Mode) (env : Env) (i : TokIn) (g : Grant)
    (b : Option Token) : NotBack u c d s (exchangeRefresh m env s i sid g b).1 := by
  have hs' := hs.good
  unfold exchangeRefresh
  simp only
  have h1 := sound_mint h hs' env env.th.accessToken i.now i.ma tAccessToken g b
  have k1 := nb_mint hu hc h hs env env.th.accessToken i.now i.ma tAccessToken g b
  generalize mintAndStore env env.th.accessToken s i.now i.ma sid tAccessToken g b = r at h1 k1 ⊢
  obtain ⟨s1, g1, o1⟩ := r
  cases o1 with
  | error e => exact k1
  | ok tok =>
    simp only at h1 k1 ⊢
    cases b with
    | none => exact k1
    | some b =>
      simp only
      cases b.usageRules.supportsMinting with
      | none => exact k1
      | some mints =>
        simp only
        have k2 := k1.trans (nb_newRefresh hu hc h1 hs m env i g1 b (decide (tRefreshToken ∈ mints)))
        generalize newRefresh m env s1 i sid g1 b (decide (tRefreshToken ∈ mints)) = r at k2 ⊢
        obtain ⟨s2, o2⟩ := r
        cases o2 with
        | error e => exact k2
        | ok rt => simp only; rw [finishRefresh_store]; exact k2

/-- A token request in processing. -/
theorem nb_tokProcess {s : Store} (h : Sound s) (hno : ¬ Lists s u c d) (m : Mode) (env : Env) (helpers : Dict Helper) (i : TokIn) (req : TokReq) :
    NotBack u c d s (tokProcess m env helpers s i req).1 := by
  have else_of : ∀ {sid v : Str} {g : Grant}, sessionByToken env.th env.cr s i.now v = .ok (sid, .grant g) → OtherSid u c d sid :=
    fun hsb => otherSid_of_read h hno (sessionByToken_getGrant hsb)
  have hcode : NotBack u c d s (codeProcess env s i req).1 := by
    unfold codeProcess
    split
    · exact .refl _ _ _ _
    · split
      · exact .refl _ _ _ _
      · rename_i v hv
        split
        · exact .refl _ _ _ _
        · exact .refl _ _ _ _
        · rename_i sid g hsb
          have hs := else_of hsb
          split
          · exact .refl _ _ _ _
          · split
            · exact .refl _ _ _ _
            · exact .refl _ _ _ _
            · exact nb_exchangeCode hu hc h hs _ _ _ _ _
  have href : NotBack u c d s (refreshProcess m env s i req).1 := by
    unfold refreshProcess
    split
    · exact .refl _ _ _ _
    · split
      · exact .refl _ _ _ _
      · rename_i v hv
        split
        · exact .refl _ _ _ _
        · exact .refl _ _ _ _
        · rename_i sid g hsb
          exact nb_exchangeRefresh hu hc h (else_of hsb) _ _ _ _ _
  have hh : NotBack u c d s (helperProcess m env helpers s i req).1 := by
    unfold helperProcess
    split
    · exact .refl _ _ _ _
    · split
      · exact .refl _ _ _ _
      · exact .refl _ _ _ _
      · exact hcode
      · exact href
  unfold tokProcess
  simp only
  generalize helperProcess m env helpers s i req = r at hh ⊢
  obtain ⟨s1, o1⟩ := r
  cases o1 with
  | raise e => exact hh
  | errMsg e => exact hh
  | val resp => simp only; split <;> exact hh

/-! ### Logout -/

theorem nb_revokeClient {s : Store} (h : Sound s) (sid : Str) : NotBack u c d s (revokeClientSession s sid).1 := by
  have go : ∀ u' c', NotBack u c d s (match dbGet s [u', c'] with
      | .error e => (s, .error e)
      | .ok (.grant _) => (s, .error .typeError)
      | .ok (.info i) => dbSet s [u', c'] (.info i.revoke) : Store × Except Exn Unit).1 := by
    intro u' c'
    cases hd : dbGet s [u', c'] with
    | error e => exact .refl _ _ _ _
    | ok o =>
      cases o with
      | grant g => exact .refl _ _ _ _
      | info i =>
        obtain ⟨h1, h2, h3⟩ := h.get2 hd
        refine nb_set2 hu hc h h1 h2 _ ?_
        rintro rfl rfl i' e hd'
        cases e
        obtain ⟨_, e⟩ := (dbGet2' _ _ _ _).1 hd
        exact ⟨i, e, hd'⟩
  unfold revokeClientSession
  simp only
  split
  · exact go _ _
  · exact go _ _
  · exact .refl _ _ _ _

theorem nb_clean {s : Store} (h : Sound s) (l : List Str) : NotBack u c d s (cleanSessions s l).1 := by
  induction l generalizing s with
  | nil => exact .refl _ _ _ _
  | cons sid l ih =>
    unfold cleanSessions
    have h1 := sound_revokeClient h sid
    have k1 := nb_revokeClient (d := d) hu hc h sid
    generalize revokeClientSession s sid = r at h1 k1 ⊢
    obtain ⟨s1, o1⟩ := r
    cases o1 with
    | error e => exact k1
    | ok _ => exact k1.trans (ih h1)

theorem nb_logout {s : Store} (h : Sound s) (env : LogoutEnv) (cdb : Cdb) (post : Str → Str → Except Exn Unit) (sid : Str) (alla : Bool) :
    NotBack u c d s (doVerifiedLogout env cdb post s sid alla).1 := by
  have hall : NotBack u c d s (logoutAllClients env cdb s sid).1 := by
    unfold logoutAllClients
    split
    · exact .refl _ _ _ _
    · rename_i u' c' g' hun
      split
      · exact .refl _ _ _ _
      · split
        · exact .refl _ _ _ _
        · split
          · exact .refl _ _ _ _
          · split
            · exact .refl _ _ _ _
            · rename_i calls _
              have h1 := nb_clean (d := d) hu hc h (calls.map fun p => sessionKey [u', p.1])
              dsimp only
              generalize cleanSessions s _ = r at h1 ⊢
              obtain ⟨s1, o1⟩ := r
              cases o1 <;> exact h1
  have hone : NotBack u c d s (logoutFromClient env cdb s sid).1 := by
    unfold logoutFromClient
    split
    · exact .refl _ _ _ _
    · split
      · exact .refl _ _ _ _
      · split
        · exact .refl _ _ _ _
        · split
          · exact .refl _ _ _ _
          · simp only
            have h1 := nb_clean (d := d) hu hc h [sid]
            generalize cleanSessions s [sid] = r at h1 ⊢
            obtain ⟨s1, o1⟩ := r
            cases o1 <;> exact h1
  unfold doVerifiedLogout
  have hr : NotBack u c d s (if alla then logoutAllClients env cdb s sid else logoutFromClient env cdb s sid).1 := by
    split
    · exact hall
    · exact hone
  generalize (if alla then logoutAllClients env cdb s sid else logoutFromClient env cdb s sid) = r at hr ⊢
  obtain ⟨s1, o1⟩ := r
  cases o1 with
  | error e => exact hr
  | ok calls => simp only; split <;> exact hr

end

end Verif
