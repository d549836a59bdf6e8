import Verif.Lemmas.CrashTree
import Verif.Lemmas.SysToken
import Verif.Props.Logout
set_option linter.unusedSimpArgs false
set_option linter.unusedVariables false
/-! The session tree under requests of the web: the storage stays a tree of users, clients and grants. -/
namespace Verif
open Spec

/-- The storage is a tree, and has nothing else in it. -/
structure Sound (s : Store) : Prop where
  tree : Tree s
  shape : Shape s

/-- A session id made of three usable identifiers. -/
def GoodSid (sid : Str) : Prop := ∃ u c g, GoodId u ∧ GoodId c ∧ GoodId g ∧ sid = sessionKey [u, c, g]

theorem sound_empty : Sound Store.empty := ⟨tree_empty, shape_empty⟩

theorem Sound.noEmpty {s : Store} (h : Sound s) : NoEmpty s := by
  intro k i hk hm
  rcases h.shape _ _ hk with ⟨u, c, g, gr, _, _, _, _, e⟩ | ⟨u, i', hu, rfl, e⟩ | ⟨u, c, i', hu, hc, rfl, e⟩
  · cases e
  · cases e
    exact (h.tree.usr _ _ hu hk _ hm).1.1 rfl
  · cases e
    exact (h.tree.cli _ _ _ hu hc hk _ hm).1.1 rfl

theorem Sound.sid {s : Store} (h : Sound s) {sid : Str} {g : Grant} (hk : s sid = some (.grant g)) : GoodSid sid := by
  rcases h.shape _ _ hk with ⟨u, c, g, gr, h1, h2, h3, h4, _⟩ | ⟨_, _, _, _, e⟩ | ⟨_, _, _, _, _, _, e⟩
  · exact ⟨u, c, g, h1, h2, h3, h4⟩
  · cases e
  · cases e

theorem Sound.set3 {s : Store} (h : Sound s) {u c g : Str} (hu : GoodId u) (hc : GoodId c) (hg : GoodId g) (gr : Grant) :
    Sound (dbSet s [u, c, g] (.grant gr)).1 := by
  obtain ⟨s', h1, h2⟩ := tree_set3 h.tree hu hc hg gr
  refine ⟨by rw [h1]; exact h2, ?_⟩
  rw [← setTrace_last]
  exact shape_last h.shape (shapeTr_set3 h.shape hu hc hg gr)

theorem Sound.set2 {s : Store} (h : Sound s) {u c : Str} (hu : GoodId u) (hc : GoodId c) (i : SessInfo)
    (hi : ∀ g ∈ i.subordinate, GoodId g ∧ ∃ gr, s.at [u, c, g] = some (.grant gr)) :
    Sound (dbSet s [u, c] (.info i)).1 := by
  obtain ⟨s', h1, h2⟩ := tree_set2 h.tree hu hc i hi
  refine ⟨by rw [h1]; exact h2, ?_⟩
  rw [← setTrace_last]
  exact shape_last h.shape (shapeTr_set2 h.shape hu hc i)

theorem Sound.mgrSet {s : Store} (h : Sound s) {sid : Str} (hs : GoodSid sid) (gr : Grant) : Sound (mgrSet s sid (.grant gr)).1 := by
  obtain ⟨u, c, g, hu, hc, hg, rfl⟩ := hs
  unfold Verif.mgrSet
  rw [unpack_good (goodPath_three hu hc hg)]
  exact h.set3 hu hc hg gr

theorem Sound.putGrant {s : Store} (h : Sound s) {sid : Str} (hs : GoodSid sid) (gr : Grant) : Sound (s.put sid (.grant gr)) := by
  obtain ⟨u, c, g, hu, hc, hg, rfl⟩ := hs
  exact ⟨tree_putGrant h.tree hu hc hg gr, h.shape.put (Or.inl ⟨u, c, g, gr, hu, hc, hg, rfl, rfl⟩)⟩

theorem Sound.get2 {s : Store} (h : Sound s) {u c : Str} {i : SessInfo} (hg : dbGet s [u, c] = .ok (.info i)) :
    GoodId u ∧ GoodId c ∧ s.at [u, c] = some (.info i) := by
  obtain ⟨ui, h1, h2, h3⟩ := (dbGet2 _ _ _ _).1 hg
  have h1' : s u = some (.info ui) := h1
  rcases h.shape _ _ h1' with ⟨_, _, _, _, _, _, _, _, e⟩ | ⟨u', i', hu, rfl, e⟩ | ⟨a, b, i', ha, hb, rfl, e⟩
  · cases e
  · exact ⟨hu, (h.tree.usr _ _ hu h1 _ h2).1, h3⟩
  · exfalso
    cases e
    obtain ⟨hc, gr, hgr⟩ := h.tree.cli _ _ _ ha hb h1' _ h2
    have : s.at [sessionKey [a, b], c] = s.at [a, b, c] := by
      unfold Store.at; congr 1; simp [sessionKey, pyJoin]
    rw [this, hgr] at h3
    cases h3

theorem sound_createGrant {sf : SubFuncs} {s : Store} (h : Sound s) (now : Int) {gid u c : Str} (a : SessArgs)
    (hg : GoodId gid) (hu : GoodId u) (hc : GoodId c) : Sound (createGrant sf s now gid u c a).1 := by
  unfold createGrant
  cases newGrant sf now gid u a with
  | error e => exact h
  | ok g =>
    simp only
    have := h.set3 hu hc hg g
    generalize dbSet s [u, c, gid] (.grant g) = r at this ⊢
    obtain ⟨r1, r2⟩ := r
    cases r2 <;> exact this

theorem sound_createSession {sf : SubFuncs} {s : Store} (h : Sound s) (now : Int) {gid u c : Str} (a : SessArgs)
    (hg : GoodId gid) (hu : GoodId u) (hc : GoodId (if c = [] then a.authReq.clientId else c)) :
    Sound (createSession sf s now gid u c a).1 := by
  refine ⟨tree_createSession h.tree now a hg hu hc, ?_⟩
  rw [← createSessionTrace_last]
  exact shape_last h.shape (shapeTr_mgr h.shape (.createSession now gid u c a) ⟨hg, hu, hc⟩)

theorem sound_mint {s : Store} (h : Sound s) {sid : Str} (hs : GoodSid sid) (env : Env) (hd : Option Handler) (now : Int) (m : MintIn)
    (tt : Str) (g : Grant) (b : Option Token) : Sound (mintAndStore env hd s now m sid tt g b).1 := by
  rcases mintAndStore_spec env hd s now m sid tt g b with ⟨h1, _⟩ | ⟨v, t, hrest⟩
  · rw [h1]; exact h
  · obtain ⟨_, _, _, _, _, _, _, _, _, _, _, _, _, h1, _⟩ := hrest
    rw [h1]; exact h.mgrSet hs _

theorem sound_codePart {s : Store} (h : Sound s) {sid : Str} (hs : GoodSid sid) (env : Env) (now : Int) (m : MintIn) (g : Grant) (req : AuthReq) :
    Sound (codePart env s now m sid g req).1 := by
  unfold codePart
  split
  · exact sound_mint h hs _ _ _ _ _ _ _
  · exact h

theorem sound_tokenPart {s : Store} (h : Sound s) {sid : Str} (hs : GoodSid sid) (env : Env) (now : Int) (m : MintIn) (g : Grant)
    (code : Option Token) (req : AuthReq) : Sound (tokenPart env s now m sid g code req).1 := by
  unfold tokenPart
  split
  · exact sound_mint h hs _ _ _ _ _ _ _
  · exact h

theorem sound_idTokenPart {s : Store} (h : Sound s) {sid : Str} (hs : GoodSid sid) (idt : Out Str) (req : AuthReq) :
    Sound (idTokenPart s idt sid req).1 := by
  obtain ⟨u, c, g, hu, hc, hg, rfl⟩ := hs
  unfold idTokenPart
  split
  · cases idt with
    | raise e => exact h
    | errMsg e => exact h
    | val i =>
      simp only [unpack3_good hu hc hg]
      cases hd : dbGet s [u, c] with
      | error e => exact h
      | ok o =>
        simp only
        obtain ⟨ui, h1, h2, h3⟩ := (dbGet2 _ _ _ _).1 hd
        cases o with
        | grant gr => exact absurd h3 (h.tree.typed.client' hu hc gr)
        | info ci =>
          have := h.set2 hu hc ci (fun g hgm => h.tree.cli u c ci hu hc h3 g hgm)
          generalize dbSet s [u, c] (.info ci) = r at this ⊢
          obtain ⟨r1, r2⟩ := r
          cases r2 <;> exact this
  · exact h

theorem sound_authnResponse {s : Store} (h : Sound s) {sid : Str} (hs : GoodSid sid) (env : Env) (now : Int) (mc ma : MintIn) (idt : Out Str)
    (req : AuthReq) : Sound (createAuthnResponse env s now mc ma idt req sid).1 := by
  unfold createAuthnResponse
  split
  · exact h
  · cases getGrant s sid with
    | error e => exact h
    | ok g =>
      simp only
      have h1 := sound_codePart h hs env now mc g req
      generalize codePart env s now mc sid g req = r at h1 ⊢
      obtain ⟨s1, g1, o1⟩ := r
      cases o1 with
      | error e => exact h1
      | ok code =>
        simp only at h1 ⊢
        have h2 := sound_tokenPart h1 hs env now ma g1 code req
        generalize tokenPart env s1 now ma sid g1 code req = r at h2 ⊢
        obtain ⟨s2, g2, o2⟩ := r
        cases o2 with
        | error e => exact h2
        | ok tok =>
          simp only at h2 ⊢
          have h3 := sound_idTokenPart h2 hs idt req
          generalize idTokenPart s2 idt sid req = r at h3 ⊢
          obtain ⟨s3, o3⟩ := r
          cases o3 with
          | raise e => exact h3
          | errMsg e => exact h3
          | val i => simp only; split <;> exact h3

theorem sound_authzPart2 {s : Store} (h : Sound s) (env : Env) (cdb : Cdb) (now : Int) (mc ma : MintIn) (idt : Out Str)
    (req : AuthReq) (sid : Str) : Sound (authzPart2 env cdb s now mc ma idt req sid).2.1 := by
  unfold authzPart2
  cases hg : getGrant s sid with
  | error e => exact h
  | ok g =>
    have hs := h.sid (getGrant_key h.noEmpty hg).1
    obtain ⟨u, c, gi, hu, hc, hgi, rfl⟩ := id hs
    simp only [unpack3_good hu hc hgi]
    generalize authzCall env.gc env.ccfg cdb now c g req = r
    obtain ⟨r1, r2⟩ := r
    cases r2 with
    | error e => exact h
    | ok g' =>
      simp only
      have h1 := h.set3 hu hc hgi g'
      generalize dbSet s [u, c, gi] (.grant g') = r at h1 ⊢
      obtain ⟨s1, o1⟩ := r
      cases o1 with
      | error e => exact h1
      | ok _ =>
        simp only at h1 ⊢
        have h2 := sound_authnResponse h1 hs env now mc ma idt req
        generalize createAuthnResponse env s1 now mc ma idt req (sessionKey [u, c, gi]) = r at h2 ⊢
        obtain ⟨s2, o2⟩ := r
        cases o2 with
        | error e => exact h2
        | ok cf =>
          obtain ⟨content, frag⟩ := cf
          simp only
          split
          · exact h2
          · split <;> exact h2

/-- Who the browser says its user is has a usable name. -/
def GoodIdent : Ident → Prop
  | .nobody => True
  | .plain u => GoodId u
  | .decoded u _ => ∀ x, u = some x → GoodId x

theorem sound_setupAuth {s : Store} (h : Sound s) (env : Env) (cdb : Cdb) (now : Int) {gid : Str} (req : AuthReq) (a : AuthnIn)
    (hg : GoodId gid) (hc : GoodId req.clientId) (hi : GoodIdent a.ident) : Sound (setupAuth env cdb s now gid req a).1 := by
  unfold setupAuth
  cases hid : a.ident with
  | nobody => exact h
  | plain uid =>
    rw [hid] at hi
    simp only
    split
    · exact h
    · split
      · exact h
      · unfold startSession
        simp only
        generalize hA : ({ authnEvent := _, authReq := req, usageRules := usageRulesOf env.gc cdb req.clientId } : SessArgs) = A
        have := sound_createSession (sf := env.sf) h now (c := req.clientId) A hg hi (by rw [if_neg hc.1]; exact hc)
        generalize createSession env.sf s now gid uid req.clientId A = r at this ⊢
        obtain ⟨r1, r2⟩ := r
        cases r2 <;> exact this
  | decoded uid sid0 =>
    rw [hid] at hi
    simp only
    cases sid0 with
    | none => exact h
    | some sid0 =>
      simp only
      cases mgrGet s sid0 with
      | error e => exact h
      | ok o =>
        cases o with
        | info i => exact h
        | grant g0 =>
          simp only
          split
          · exact h
          · split
            · exact h
            · cases uid with
              | none => exact h
              | some uid =>
                simp only
                split
                · exact h
                · cases unpack3 sid0 with
                  | error e => exact h
                  | ok t =>
                    obtain ⟨u1, c1, g1⟩ := t
                    simp only
                    split
                    · exact h
                    · generalize hR : (if g0.authReq = some req then (s, Out.val sid0) else _ : Store × Out Str) = R
                      have hR1 : Sound R.1 := by
                        rw [← hR]
                        split
                        · exact h
                        · split
                          · exact h
                          · exact h
                          · have := sound_createGrant (sf := env.sf) h now (c := req.clientId) { authnEvent := g0.authnEvent, authReq := req } hg
                              (hi uid rfl) hc
                            generalize createGrant env.sf s now gid uid req.clientId { authnEvent := g0.authnEvent, authReq := req } = r at this ⊢
                            obtain ⟨r1, r2⟩ := r
                            cases r2 <;> exact this
                      obtain ⟨R1, R2⟩ := R
                      cases R2 with
                      | raise e => exact hR1
                      | errMsg e => exact hR1
                      | val sid' =>
                        simp only
                        split
                        · exact hR1
                        · split <;> exact hR1

theorem sound_authzProcess {s : Store} (h : Sound s) (env : Env) (cdb : Cdb) (now : Int) {gid : Str} (mc ma : MintIn) (idt : Out Str)
    (a : AuthnIn) (req : AuthReq) (hg : GoodId gid) (hc : (cdb req.clientId).isSome = true → GoodId req.clientId) (hi : GoodIdent a.ident) :
    Sound (authzProcess env cdb s now gid mc ma idt a req).2.1 := by
  unfold authzProcess
  cases hcl : cdb req.clientId with
  | none => exact h
  | some c =>
    simp only
    split
    · exact h
    · have h1 := sound_setupAuth h env cdb now req a hg (hc (by rw [hcl]; rfl)) hi
      generalize setupAuth env cdb s now gid req a = r at h1 ⊢
      obtain ⟨s1, o1⟩ := r
      cases o1 with
      | raise e => exact h1
      | errMsg e => exact h1
      | val x =>
        cases x with
        | login => exact h1
        | loginRequired => exact h1
        | session sid u => exact sound_authzPart2 h1 env cdb now mc ma idt req sid

/-! ### The token endpoint -/

theorem sound_refreshPart {s : Store} (h : Sound s) {sid : Str} (hs : GoodSid sid) (env : Env) (i : TokIn) (g : Grant) (b : Option Token)
    (want : Bool) : Sound (refreshPart env s i sid g b want).1 := by
  unfold refreshPart
  split
  · exact sound_mint h hs _ _ _ _ _ _ _
  · exact h

theorem sound_exchangeCode {s : Store} (h : Sound s) {sid : Str} (hs : GoodSid sid) (env : Env) (i : TokIn) (g : Grant) (b : Option Token)
    (ar : AuthReq) : Sound (exchangeCode env s i sid g b ar).1 := by
  unfold exchangeCode
  simp only
  have h1 := sound_mint h hs env env.th.accessToken i.now i.ma tAccessToken g b
  generalize mintAndStore env env.th.accessToken s i.now i.ma sid tAccessToken g b = r at h1 ⊢
  obtain ⟨s1, g1, o1⟩ := r
  cases o1 with
  | error e => exact h1
  | ok tok =>
    simp only at h1 ⊢
    have h2 := sound_refreshPart h1 hs env i g1 b (decide (c!"offline_access" ∈ g.scope))
    generalize refreshPart env s1 i sid g1 b (decide (c!"offline_access" ∈ g.scope)) = r at h2 ⊢
    obtain ⟨s2, g2, o2⟩ := r
    cases o2 with
    | error e => exact h2
    | ok rt =>
      simp only at h2 ⊢
      unfold finishCode
      cases b with
      | none => exact h2
      | some b =>
        simp only
        have h3 := h2.mgrSet hs (g2.registerUsage b.value)
        generalize mgrSet s2 sid (.grant (g2.registerUsage b.value)) = r at h3 ⊢
        obtain ⟨s3, o3⟩ := r
        cases o3 with
        | error e => exact h3
        | ok _ => simp only; split <;> exact h3

theorem sound_newRefresh {s : Store} (h : Sound s) {sid : Str} (hs : GoodSid sid) (m : Mode) (env : Env) (i : TokIn) (g : Grant) (b : Token)
    (want : Bool) : Sound (newRefresh m env s i sid g b want).1 := by
  unfold newRefresh
  simp only
  have h1 := sound_refreshPart h hs env i g (some b) want
  generalize refreshPart env s i sid g (some b) want = r at h1 ⊢
  obtain ⟨s1, g1, o1⟩ := r
  cases o1 with
  | error e => exact h1
  | ok o =>
    cases o with
    | none => exact h1
    | some t =>
      simp only
      unfold touch
      cases m with
      | byValue => exact h1
      | aliased => exact h1.putGrant hs _

theorem sound_exchangeRefresh {s : Store} (h : Sound s) {sid : Str} (hs : GoodSid sid) (m : Mode) (env : Env) (i : TokIn) (g : Grant)
    (b : Option Token) : Sound (exchangeRefresh m env s i sid g b).1 := by
  unfold exchangeRefresh
  simp only
  have h1 := sound_mint h hs env env.th.accessToken i.now i.ma tAccessToken g b
  generalize mintAndStore env env.th.accessToken s i.now i.ma sid tAccessToken g b = r at h1 ⊢
  obtain ⟨s1, g1, o1⟩ := r
  cases o1 with
  | error e => exact h1
  | ok tok =>
    simp only at h1 ⊢
    cases b with
    | none => exact h1
    | some b =>
      simp only
      cases b.usageRules.supportsMinting with
      | none => exact h1
      | some mints =>
        simp only
        have h2 := sound_newRefresh h1 hs m env i g1 b (decide (tRefreshToken ∈ mints))
        generalize newRefresh m env s1 i sid g1 b (decide (tRefreshToken ∈ mints)) = r at h2 ⊢
        obtain ⟨s2, o2⟩ := r
        cases o2 with
        | error e => exact h2
        | ok rt => simp only; rw [finishRefresh_store]; exact h2

theorem sound_tokProcess {s : Store} (h : Sound s) (m : Mode) (env : Env) (helpers : Dict Helper) (i : TokIn) (req : TokReq) :
    Sound (tokProcess m env helpers s i req).1 := by
  have hcode : Sound (codeProcess env s i req).1 := by
    unfold codeProcess
    split
    · exact h
    · split
      · exact h
      · split
        · exact h
        · exact h
        · rename_i sid g hsb
          have hs := h.sid (sessionByToken_key h.noEmpty hsb).2.1
          split
          · exact h
          · split
            · exact h
            · exact h
            · exact sound_exchangeCode h hs _ _ _ _ _
  have href : Sound (refreshProcess m env s i req).1 := by
    unfold refreshProcess
    split
    · exact h
    · split
      · exact h
      · split
        · exact h
        · exact h
        · rename_i sid g hsb
          have hs := h.sid (sessionByToken_key h.noEmpty hsb).2.1
          exact sound_exchangeRefresh h hs _ _ _ _ _
  have hh : Sound (helperProcess m env helpers s i req).1 := by
    unfold helperProcess
    split
    · exact h
    · split
      · exact h
      · exact h
      · exact hcode
      · exact href
  unfold tokProcess
  simp only
  generalize helperProcess m env helpers s i req = r at hh ⊢
  obtain ⟨s1, o1⟩ := r
  cases o1 with
  | raise e => exact hh
  | errMsg e => exact hh
  | val resp => simp only; split <;> exact hh

/-! ### Logout -/

theorem sound_revokeClient {s : Store} (h : Sound s) (sid : Str) : Sound (revokeClientSession s sid).1 := by
  have go : ∀ u c, Sound (match dbGet s [u, c] with
      | .error e => (s, .error e)
      | .ok (.grant _) => (s, .error .typeError)
      | .ok (.info i) => dbSet s [u, c] (.info i.revoke) : Store × Except Exn Unit).1 := by
    intro u c
    cases hd : dbGet s [u, c] with
    | error e => exact h
    | ok o =>
      cases o with
      | grant g => exact h
      | info i =>
        obtain ⟨hu, hc, h3⟩ := h.get2 hd
        exact h.set2 hu hc i.revoke (fun g hgm => h.tree.cli u c i hu hc h3 g hgm)
  unfold revokeClientSession
  simp only
  split
  · exact go _ _
  · exact go _ _
  · exact h

theorem sound_clean {s : Store} (h : Sound s) (l : List Str) : Sound (cleanSessions s l).1 := by
  induction l generalizing s with
  | nil => exact h
  | cons sid l ih =>
    unfold cleanSessions
    have h1 := sound_revokeClient h sid
    generalize revokeClientSession s sid = r at h1 ⊢
    obtain ⟨s1, o1⟩ := r
    cases o1 with
    | error e => exact h1
    | ok _ => exact ih h1

theorem sound_logout {s : Store} (h : Sound s) (env : LogoutEnv) (cdb : Cdb) (post : Str → Str → Except Exn Unit) (sid : Str) (alla : Bool) :
    Sound (doVerifiedLogout env cdb post s sid alla).1 := by
  have hall : Sound (logoutAllClients env cdb s sid).1 := by
    unfold logoutAllClients
    split
    · exact h
    · split
      · exact h
      · split
        · exact h
        · split
          · exact h
          · split
            · exact h
            · dsimp only
              generalize (List.map _ _ : List Str) = l
              have h1 := sound_clean h l
              generalize cleanSessions s l = r at h1 ⊢
              obtain ⟨s1, o1⟩ := r
              cases o1 <;> exact h1
  have hone : Sound (logoutFromClient env cdb s sid).1 := by
    unfold logoutFromClient
    split
    · exact h
    · split
      · exact h
      · split
        · exact h
        · split
          · exact h
          · simp only
            have h1 := sound_clean h [sid]
            generalize cleanSessions s [sid] = r at h1 ⊢
            obtain ⟨s1, o1⟩ := r
            cases o1 <;> exact h1
  unfold doVerifiedLogout
  have hr : Sound (if alla then logoutAllClients env cdb s sid else logoutFromClient env cdb s sid).1 := by
    split
    · exact hall
    · exact hone
  generalize (if alla then logoutAllClients env cdb s sid else logoutFromClient env cdb s sid) = r at hr ⊢
  obtain ⟨s1, o1⟩ := r
  cases o1 with
  | error e => exact hr
  | ok calls => simp only; split <;> exact hr

end Verif
