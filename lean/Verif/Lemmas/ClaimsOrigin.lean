import Verif.Props.Provenance
set_option linter.unusedSimpArgs false
set_option linter.unusedVariables false
/-! Where the scope and the claims on a stored grant come from: only the authorization endpoint sets them. -/
namespace Verif
open Spec

/-- The same provider, but with the policy that leaves grants as they are. -/
def Env.lax (env : Env) : Env := { env with gc := { env.gc with implicit := true } }
def SysCfg.lax (cfg : SysCfg) : SysCfg := { cfg with env := cfg.env.lax }

theorem Grant.step_claims (g : Grant) (op : GrantOp) (h : ∀ c, op ≠ .configure c) : (g.step op).claims = g.claims := by
  cases op with
  | mint now id tt b rules scope args value =>
    simp only [Grant.step]
    rcases mintToken_cases g now id tt (b.bind g.tokenAt) rules scope args value with h | h
    · rw [h.1]
    · obtain ⟨v, k, rfl, _, _, _, item, hi, hr⟩ := h; rw [hr]
  | copyRules s d => simp only [Grant.step]; cases g.tokenAt s <;> rfl
  | configure c => exact absurd rfl (h c)
  | _ => rfl

/-- What the endpoints other than the authorization endpoint leave as it is. -/
def SameTerms (g g' : Grant) : Prop := g'.scope = g.scope ∧ g'.claims = g.claims ∧ g'.authReq = g.authReq

theorem Evo.lax_same {env : Env} {k : Str} {g g' : Grant} (h : Evo env.lax k g g') : SameTerms g g' := by
  induction h with
  | refl => exact ⟨rfl, rfl, rfl⟩
  | step op _ ha ih =>
    have hne : ∀ c, op ≠ .configure c := by
      rintro c rfl
      exact absurd ha.1 (by simp [Env.lax])
    exact ⟨(Grant.step_scope _ _ hne).trans ih.1, (Grant.step_claims _ _ hne).trans ih.2.1, (Grant.step_authReq _ _).trans ih.2.2⟩

theorem GInv.lax {env : Env} {k : Str} {g : Grant} (h : GInv env k g) : GInv env.lax k g :=
  ⟨h.tokenMap, fun hne => by
    obtain ⟨ar, h1, _⟩ := h.scope hne
    exact ⟨ar, h1, fun hx => by simp [Env.lax] at hx⟩, h.tokens, h.codes⟩

theorem SysInv.lax {cfg : SysCfg} {used : List Str} {st : Sys} (h : SysInv cfg used st) : SysInv cfg.lax used st :=
  ⟨h.noEmpty, fun k g hg => ⟨(h.grants k g hg).1, (h.grants k g hg).2.lax⟩, h.pending⟩

/-- The session steps that HTTP requests lead to, apart from the authorization endpoint's. -/
inductive Quiet : SysOp → Prop
  | parse (now : Int) (req : TokReq) : Quiet (.tokParse now req)
  | process (i : TokIn) (req : TokReq) : Quiet (.tokProcess i req)
  | logout (sid : Str) : Quiet (.revokeClientSession sid)
  | restart : Quiet (.crash (.revokeToken 0 [] [] false) 0)

theorem quiet_step {cfg : SysCfg} {used : List Str} {st : Sys} {op : SysOp} (hi : SysInv cfg used st) (h : Quiet op)
    (hgood : ∀ gid ∈ used, gid ≠ [] ∧ ';' ∉ gid) {k : Str} {g' : Grant} (hg : (sysStep cfg st op).store k = some (.grant g')) :
    ∃ g, st.store k = some (.grant g) ∧ SameTerms g g' := by
  have hl : sysStep cfg st op = sysStep cfg.lax st op := by cases h <;> rfl
  have hn : newGid op = [] := by cases h <;> rfl
  have hp : PlainGrants op := by cases h <;> trivial
  rw [hl] at hg
  obtain ⟨g0, h1, h2⟩ := (sysStep_st (cfg := cfg.lax) hi.lax (op := op) (by rw [hn]; simpa using hgood) (by simp [hn]) hp).moves k g' hg
  rcases h1 with h1 | h1
  · exact ⟨g0, h1, h2.lax_same⟩
  · obtain ⟨_, ⟨u, c, gid, h3, _⟩, _⟩ := h1
    rw [hn] at h3
    cases h3

/-- The scope and the claims of `g` are those that the authorization policy gave a grant with this request on record, for the
request's client, when the client database was `cdb`. -/
def TermsBy (env : Env) (cdb : Cdb) (q : AuthReq) (g : Grant) : Prop :=
  g.authReq = some q ∧ ∃ now g0 g1, g0.authReq = some q ∧ (authzCall env.gc env.ccfg cdb now q.clientId g0 q).2 = .ok g1 ∧
    g.scope = g1.scope ∧ g.claims = g1.claims

theorem TermsBy.same {env : Env} {cdb : Cdb} {q : AuthReq} {g g' : Grant} (h : TermsBy env cdb q g) (hs : SameTerms g g') :
    TermsBy env cdb q g' := by
  obtain ⟨h0, now, g0, g1, h1, h2, h3, h4⟩ := h
  exact ⟨hs.2.2.trans h0, now, g0, g1, h1, h2, hs.1.trans h3, hs.2.1.trans h4⟩

theorem authzPart2_terms {env : Env} {C : Str → Grant → Prop} {s0 s : Store} (h : St env.lax C s0 s) {sid : Str} (cdb : Cdb) (now : Int)
    (mc ma : MintIn) (idt : Out Str) (req : AuthReq) (hreq : ∀ g, getGrant s sid = .ok g → g.authReq = some req)
    (hcl : ∀ u c gi, unpack3 sid = .ok (u, c, gi) → c = req.clientId) :
    St env.lax (fun k g => C k g ∨ TermsBy env cdb req g) s0 (authzPart2 env cdb s now mc ma idt req sid).2.1 := by
  have h0 : St env.lax (fun k g => C k g ∨ TermsBy env cdb req g) s0 s := h.mono fun _ _ => Or.inl
  unfold authzPart2
  cases hg : getGrant s sid with
  | error e => exact h0
  | ok g =>
    obtain ⟨hk, hs, u, c, gi, hu⟩ := getGrant_key h.noEmpty hg
    obtain ⟨hu1, hu2⟩ := unpack3_key hu
    have hc := hcl u c gi hu
    subst hc
    simp only [hu]
    cases ha : (authzCall env.gc env.ccfg cdb now req.clientId g req).2 with
    | error e => exact h0
    | ok g' =>
      simp only
      have hev := authzCall_evo (env := env) (k := sid) ha (hreq g hg)
      have hterm : TermsBy env cdb req g' := ⟨hev.1.authReq.trans (hreq g hg), now, g, g', hreq g hg, ha, rfl, rfl⟩
      have hgi : gi ≠ [] := by
        obtain ⟨u', c', gi', e1, e2⟩ := hs
        rw [hu1] at e1
        cases e1
        exact e2
      have hset : St env.lax (fun k g => C k g ∨ TermsBy env cdb req g) s0 (dbSet s [u, req.clientId, gi] (.grant g')).1 := by
        apply h0.set
        · rintro _ _ _ _ ⟨⟩; exact hgi
        · simp
        · rintro g2 ⟨⟩
          exact ⟨g', Or.inr (Or.inr hterm), Evo.refl _⟩
      cases hw : (dbSet s [u, req.clientId, gi] (.grant g')).2 with
      | error e => exact hset
      | ok _ =>
        simp only
        have hr := createAuthnResponse_st hset (sid := sid) now mc ma idt req (by
          intro g2 hg2
          have := dbSet3_own s u req.clientId gi (.grant g') hgi
          rw [hu2, hg2] at this
          cases this
          exact ⟨req, hterm.1, fun hx => by simp [Env.lax] at hx⟩)
        have heq : createAuthnResponse env.lax (dbSet s [u, req.clientId, gi] (.grant g')).1 now mc ma idt req sid =
          createAuthnResponse env (dbSet s [u, req.clientId, gi] (.grant g')).1 now mc ma idt req sid := rfl
        rw [heq] at hr
        cases hx : (createAuthnResponse env (dbSet s [u, req.clientId, gi] (.grant g')).1 now mc ma idt req sid).2 with
        | error e => exact hr
        | ok cf =>
          obtain ⟨content, frag⟩ := cf
          simp only
          cases getUri env.lib (authzCall env.gc env.ccfg cdb now req.clientId g req).1 .redirect req.clientId req.redirectUri with
          | error e => exact hr
          | ok uri =>
            simp only
            cases responseMode req.responseMode frag with
            | error e => exact hr
            | ok pl => exact hr

/-- One request at the authorization endpoint. -/
theorem authorize_terms {env : Env} {s0 : Store} {gid : Str} {req : AuthReq} {a : AuthnIn} (hn : NoEmpty s0) (hgid : gid ≠ [])
    (hname : ∀ u, (a.ident = .plain u ∨ ∃ x, a.ident = .decoded (some u) (some x)) → UserName u) (hclient : UserName req.clientId) (hsemi : ';' ∉ gid)
    (hfresh : ∀ u c g, s0 (sessionKey [u, c, gid]) ≠ some (.grant g)) (cdb : Cdb) (now : Int) (mc ma : MintIn) (idt : Out Str)
    {k : Str} {g' : Grant} (hg' : (authzProcess env cdb s0 now gid mc ma idt a req).2.1 k = some (.grant g')) :
    (g'.scope = [] ∧ g'.claims = []) ∨ TermsBy env cdb req g' ∨ ∃ g, s0 k = some (.grant g) ∧ SameTerms g g' := by
  have key : St env.lax (fun k g => NewFor env.lax s0 now a gid req k g ∨ TermsBy env cdb req g) s0
      (authzProcess env cdb s0 now gid mc ma idt a req).2.1 := by
    have hstart : St env.lax (fun k g => NewFor env.lax s0 now a gid req k g ∨ TermsBy env cdb req g) s0 s0 := St.start hn
    unfold authzProcess
    cases hc : cdb req.clientId with
    | none => exact hstart
    | some c =>
      simp only
      split
      · exact hstart
      · have h1 := setupAuth_st (env := env.lax) (req := req) hn hgid cdb now a
        have heq : setupAuth env.lax cdb s0 now gid req a = setupAuth env cdb s0 now gid req a := rfl
        rw [heq] at h1
        have h0 := h1.1.mono (C' := fun k g => NewFor env.lax s0 now a gid req k g ∨ TermsBy env cdb req g) fun _ _ => Or.inl
        cases hs : (setupAuth env cdb s0 now gid req a).2 with
        | raise e => exact h0
        | errMsg e => exact h0
        | val x =>
          cases x with
          | login => exact h0
          | loginRequired => exact h0
          | session sid u =>
            simp only
            apply authzPart2_terms h1.1
            · intro g hgg
              obtain ⟨hg, _, u1, c1, gi, hu1⟩ := getGrant_key h1.1.noEmpty hgg
              rcases h1.2 sid u hs with ⟨u', c', hk⟩ | ⟨g0, h2, h3, h4⟩
              · obtain ⟨g0, h5, h6⟩ := h1.1.moves _ _ hg
                rcases h5 with h5 | h5
                · rw [hk] at h5
                  exact absurd h5 (hfresh _ _ _)
                · rw [h6.authReq]
                  exact h5.2.2.2.2.1
              · rw [h4] at hg
                have h5 := (dbGet_key hn h2).1
                rw [(unpack3_key hu1).1] at h5
                have h6 : s0 (sessionKey [u1, c1, gi]) = some (.grant g0) := h5
                rw [(unpack3_key hu1).2, hg] at h6
                cases h6
                exact h3
            · intro u1 c1 gi hu1
              rcases setupAuth_sid (show setupAuth env cdb s0 now gid req a =
                ((setupAuth env cdb s0 now gid req a).1, .val (.session sid u)) from by rw [← hs]) with ⟨z1, z2⟩ | ⟨z1, u2, g2, z2⟩
              · have hu : UserName u := hname u z2
                rw [z1] at hu1
                have h3 := unpack3_list hu1
                rw [unpack_names hu hclient hsemi] at h3
                simp only [List.cons.injEq] at h3
                exact h3.2.1.symm
              · rw [z2] at hu1
                cases hu1
                rfl
  obtain ⟨g0, h1, h2⟩ := key.moves k g' hg'
  have hs := h2.lax_same
  rcases h1 with h1 | h1 | h1
  · exact Or.inr (Or.inr ⟨g0, h1, hs⟩)
  · left
    obtain ⟨_, _, _, _, _, e1⟩ : NewFor env.lax s0 now a gid req k g0 := h1
    exact ⟨hs.1.trans e1.1, hs.2.1.trans e1.2⟩
  · exact Or.inr (Or.inl (h1.same hs))

/-- Where the scope and the claims on a stored grant come from. -/
theorem terms_origin {cfg : SysCfg} {ops : List SysOp} (hf : FreshRun ops) (hb : BlankFree cfg.env) (hnames : ∀ op ∈ ops, LoginNames op)
    (hq : ∀ op ∈ ops, Quiet op ∨ ∃ cdb now gid mc ma idt a req, op = .authorize cdb now gid mc ma idt a req) (i : Nat) {k : Str}
    {g : Grant} (hg : (sysRun cfg (ops.take i)).store k = some (.grant g)) :
    (g.scope = [] ∧ g.claims = []) ∨
    ∃ (j : Nat) (cdb : Cdb) (now : Int) (gid : Str) (mc ma : MintIn) (idt : Out Str) (a : AuthnIn) (req : AuthReq),
      j < i ∧ ops[j]? = some (.authorize cdb now gid mc ma idt a req) ∧ TermsBy cfg.env cdb req g := by
  induction i generalizing g with
  | zero => simp [sysRun, Sys.init, Store.empty] at hg
  | succ i ih =>
    have old : ∀ g0, (sysRun cfg (ops.take i)).store k = some (.grant g0) → SameTerms g0 g → (g.scope = [] ∧ g.claims = []) ∨
        ∃ (j : Nat) (cdb : Cdb) (now : Int) (gid : Str) (mc ma : MintIn) (idt : Out Str) (a : AuthnIn) (req : AuthReq),
        j < i + 1 ∧ ops[j]? = some (.authorize cdb now gid mc ma idt a req) ∧ TermsBy cfg.env cdb req g := by
      intro g0 h0 hs
      rcases ih h0 with ⟨e1, e2⟩ | ⟨j, cdb, now, gid, mc, ma, idt, a, req, e1, e2, e3⟩
      · exact Or.inl ⟨hs.1.trans e1, hs.2.1.trans e2⟩
      · exact Or.inr ⟨j, cdb, now, gid, mc, ma, idt, a, req, by omega, e2, e3.same hs⟩
    cases hi : ops[i]? with
    | none =>
      rw [List.take_add_one, hi] at hg
      simp only [Option.toList_none, List.append_nil] at hg
      exact old g hg ⟨rfl, rfl, rfl⟩
    | some op =>
      obtain ⟨h1, h2, h3, h4⟩ := freshAt hf hi
      have hinv := sysRun_inv cfg ops hf hb i
      rw [h4, sysRun_snoc] at hg
      have hop := List.mem_of_getElem? hi
      rcases hq op hop with hquiet | ⟨cdb, now, gid, mc, ma, idt, a, req, rfl⟩
      · obtain ⟨g0, e1, e2⟩ := quiet_step hinv hquiet (fun gid hgid => h1 gid (by simp [hgid])) hg
        exact old g0 e1 e2
      · have hn := hnames _ hop
        have hgid := h1 gid (by simp [newGid])
        simp only [sysStep] at hg
        rcases authorize_terms hinv.noEmpty hgid.1 (fun u hu => hn.1 u (hu.imp_right fun ⟨x, hx⟩ => ⟨_, hx⟩)) hn.2 hgid.2 (by
            intro u c g0 hg0
            obtain ⟨⟨u', c', gid', e1, e2⟩, _⟩ := hinv.grants _ _ hg0
            have := key_gid hgid.2 (h1 gid' (by simp [e1])).2 e2
            subst this
            exact h2 gid (by simp [newGid]) e1) cdb now mc ma idt hg with h | h | ⟨g0, e1, e2⟩
        · exact Or.inl h
        · exact Or.inr ⟨i, cdb, now, gid, mc, ma, idt, a, req, by omega, hi, h⟩
        · exact old g0 e1 e2

end Verif
