import Verif.Lemmas.Provider
import Verif.Lemmas.HonestAuthz
import Verif.Spec.Provider
import Verif.Spec.Registration
import Verif.Props.Provenance
import Verif.Props.Registration
set_option linter.unusedSimpArgs false
set_option linter.unusedVariables false
/-! The client database and the logins of the provider under HTTP requests. -/
namespace Verif
open Spec

/-! ### Client records -/

theorem SameButClaims.refl (a : Cdb) : SameButClaims a a := fun _ => rfl

theorem SameButClaims.symm {a b : Cdb} (h : SameButClaims a b) : SameButClaims b a := fun c => (h c).symm

theorem getClaims_same (cfg : ClaimsCfg) (cdb : Cdb) (client : Str) (arc : Option (Dict Claims)) (scopes : List Str) (usage : Str) :
    SameButClaims cdb (getClaims cfg cdb client arc scopes usage).1 := by
  have hst : ∀ (b : Bool) (d : Claims), SameButClaims cdb (if b = true then cdb.setClaims client usage d else cdb) := by
    intro b d
    cases b
    · exact fun _ => rfl
    · exact sameButClaims_set _ _ _ _
  unfold getClaims
  dsimp only
  generalize (match cfg.modules.get? usage with
    | some m => if m.perClient then clientClaims cdb client usage else ([], false)
    | none => ([], false) : Claims × Bool) = cc
  split
  · dsimp only
    generalize (_ : Claims × Bool).2 = b
    exact hst b _
  · dsimp only
    generalize (_ : Claims × Bool).2 = b
    exact hst b _

theorem claimsForAll_same (cfg : ClaimsCfg) (client : Str) (arc : Option (Dict Claims)) (scopes : List Str) :
    ∀ (is : List Str) (cdb : Cdb) (acc : Dict Claims), SameButClaims cdb (claimsForAll cfg client arc scopes is cdb acc).1
  | [], cdb, acc => fun _ => rfl
  | i :: is, cdb, acc => by
    unfold claimsForAll
    have h := getClaims_same cfg cdb client arc scopes i
    generalize getClaims cfg cdb client arc scopes i = r at h ⊢
    obtain ⟨c1, o⟩ := r
    cases o with
    | error e => exact h
    | ok c => exact h.trans (claimsForAll_same cfg client arc scopes is c1 _)

theorem authzCall_same (gc : AuthzConfig) (cfg : ClaimsCfg) (cdb : Cdb) (now : Int) (client : Str) (g : Grant) (req : AuthReq) :
    SameButClaims cdb (authzCall gc cfg cdb now client g req).1 := by
  unfold authzCall
  split
  · exact fun _ => rfl
  · split
    · exact fun _ => rfl
    · split
      · exact fun _ => rfl
      · rename_i ar _
        dsimp only
        have h := claimsForAll_same cfg client ar.claims req.scope interfaces cdb (req.claims.getD g.claims)
        generalize claimsForAll cfg client ar.claims req.scope interfaces cdb (req.claims.getD g.claims) = r at h ⊢
        obtain ⟨c, o⟩ := r
        cases o <;> exact h

theorem authzPart2_same (env : Env) (cdb : Cdb) (s : Store) (now : Int) (mc ma : MintIn) (idt : Out Str) (req : AuthReq) (sid : Str) :
    SameButClaims cdb (authzPart2 env cdb s now mc ma idt req sid).1 := by
  unfold authzPart2
  split
  · exact .refl _
  · split
    · exact .refl _
    · dsimp only
      rename_i g _ _ u c gi _
      have h := authzCall_same env.gc env.ccfg cdb now c g req
      generalize authzCall env.gc env.ccfg cdb now c g req = a at h ⊢
      obtain ⟨a1, a2⟩ := a
      cases a2 with
      | error e => exact h
      | ok g' =>
        dsimp only
        split
        · exact h
        · split
          · exact h
          · split
            · exact h
            · split <;> exact h

theorem authzProcess_same (env : Env) (cdb : Cdb) (s : Store) (now : Int) (gid : Str) (mc ma : MintIn) (idt : Out Str) (a : AuthnIn)
    (req : AuthReq) : SameButClaims cdb (authzProcess env cdb s now gid mc ma idt a req).1 := by
  unfold authzProcess
  split
  · exact .refl _
  · split
    · exact .refl _
    · dsimp only
      split
      · exact .refl _
      · exact .refl _
      · exact .refl _
      · exact .refl _
      · exact authzPart2_same _ _ _ _ _ _ _ _ _

theorem authzBrowser_same (env : Env) (c : AuthnCfg) (cdb : Cdb) (s : Store) (now : Int) (gid : Str) (mc ma : MintIn) (idt : Out Str)
    (raw : Option Str) (r : UserReq) : SameButClaims cdb (authzBrowser env c cdb s now gid mc ma idt raw r).1 := by
  unfold authzBrowser
  split
  · exact .refl _
  · split
    · exact .refl _
    · split
      · exact .refl _
      · exact authzProcess_same _ _ _ _ _ _ _ _ _ _

theorem authorizeEndpoint_same (cfg : ProvCfg) (st : Prov) (now : Int) (gid : Str) (mc ma : MintIn) (idt : Out Str) (raw : Option Str)
    (req : UserReq) : SameButClaims st.cdb (authorizeEndpoint cfg st now gid mc ma idt raw req).2.1 := by
  unfold authorizeEndpoint
  generalize authzParse cfg.sys.env st.cdb st.par req.areq = p
  obtain ⟨par, o⟩ := p
  cases o with
  | errMsg e => exact .refl _
  | raise e => exact .refl _
  | val q => exact authzBrowser_same _ _ _ _ _ _ _ _ _ _ _

/-- The endpoints see the records as registered, but for claims. -/
theorem provRun_cdb (cfg : ProvCfg) (ops : List HttpOp) :
    SameButClaims (RegState.cdbFun (provRun cfg ops).reg) (provRun cfg ops).cdb := by
  induction ops using snocInd with
  | nil => exact fun _ => rfl
  | append_singleton l op ih =>
    rw [provRun_snoc]
    generalize provRun cfg l = st at ih
    cases op with
    | register i n ss v req =>
      intro c
      have := ih c
      simp only [provStep, cdbAfter, RegState.cdbFun] at this ⊢
      split
      · rename_i h; rw [h]; exact this
      · rfl
    | push => exact ih
    | authorize now gid mc ma idt raw req => exact ih.trans (authorizeEndpoint_same cfg st now gid mc ma idt raw req)
    | tokenParse now r req =>
      simp only [provStep]
      split <;> exact ih
    | tokenProcess => exact ih
    | userinfo => exact ih
    | introspect => exact ih
    | logout => exact ih
    | restart => exact ih

theorem chooseId_named {s : RegState} {i : RegIn} {n : Bool} {req req' : RegRec} {cid : Str}
    (h : chooseId s i n (rmBlanks req) = some (.ok (cid, req'))) : cid ∈ i.ids ∨ (c!"client_id", RegVal.str cid) ∈ req := by
  cases n with
  | true => exact Or.inl (chooseId_new h).1
  | false =>
    unfold chooseId at h
    simp only [Bool.false_eq_true, if_false] at h
    split at h
    · rename_i x xs hx
      cases h
      exact Or.inr (List.mem_filter.1 (Dict.get?_mem hx)).1
    · cases h

theorem provStep_reg {cfg : ProvCfg} {st : Prov} {op : HttpOp} (h : ∀ i n ss v req, op ≠ .register i n ss v req) :
    (provStep cfg st op).reg = st.reg := by
  cases op with
  | register i n ss v req => exact absurd rfl (h i n ss v req)
  | tokenParse now r req => simp only [provStep]; split <;> rfl
  | _ => rfl

/-- Every client has its id from the configuration or a registration. -/
theorem provRun_named (cfg : ProvCfg) (ops : List HttpOp) (c : Str) (h : ((provRun cfg ops).cdb c).isSome = true) : NamedIn cfg ops c := by
  have h2 : ((provRun cfg ops).reg.cdb.get? c).isSome = true := by
    have := provRun_cdb cfg ops c
    unfold RegState.cdbFun at this
    cases hr : (provRun cfg ops).reg.cdb.get? c with
    | some r => rfl
    | none =>
      rw [hr] at this
      cases hc : (provRun cfg ops).cdb c with
      | none => rw [hc] at h; cases h
      | some x => rw [hc] at this; cases this
  clear h
  induction ops using snocInd with
  | nil => exact Or.inl h2
  | append_singleton l op ih =>
    rw [provRun_snoc] at h2
    have old : ((provRun cfg l).reg.cdb.get? c).isSome = true → NamedIn cfg (l ++ [op]) c := by
      intro h
      rcases ih h with h | ⟨i, n, ss, v, req, h, h'⟩
      · exact Or.inl h
      · exact Or.inr ⟨i, n, ss, v, req, List.mem_append_left _ h, h'⟩
    by_cases hop : ∃ i n ss v req, op = .register i n ss v req
    · obtain ⟨i, n, ss, v, req, rfl⟩ := hop
      simp only [provStep] at h2
      cases hp : registrationProcess cfg.regLib cfg.regCfg (provRun cfg l).reg i n ss v req with
      | mk s' o =>
        rw [hp] at h2
        rcases registration_writes hp with e | ⟨cid, req', k1, k2, _⟩
        · rw [e] at h2; exact old h2
        · by_cases hc : c = cid
          · subst hc
            exact Or.inr ⟨i, n, ss, v, req, by simp, chooseId_named k1⟩
          · rw [k2 c hc] at h2; exact old h2
    · rw [provStep_reg (fun i n ss v req e => hop ⟨i, n, ss, v, req, e⟩)] at h2
      exact old h2

/-! ### Logins -/

theorem Spec.WebRun.take {cfg : ProvCfg} {ops : List HttpOp} (h : WebRun cfg ops) (i : Nat) : WebRun cfg (ops.take i) := by
  have hs : (ops.take i).flatMap httpGid |>.Sublist (ops.flatMap httpGid) := by
    conv => rhs; rw [← List.take_append_drop i ops, List.flatMap_append]
    exact List.sublist_append_left _ _
  have hm : ∀ {op}, op ∈ ops.take i → op ∈ ops := fun hm => List.mem_of_mem_take hm
  refine ⟨h.nodup.sublist hs, fun g hg => h.good g (hs.subset hg), h.blank, fun now gid mc ma idt raw req ho => h.users _ _ _ _ _ _ _ (hm ho),
    fun now gid mc ma idt raw req ho => h.cookies _ _ _ _ _ _ _ (hm ho), fun c hc => h.clients c ?_⟩
  rcases hc with hc | ⟨i, n, ss, v, req, hc, hc'⟩
  · exact Or.inl hc
  · exact Or.inr ⟨i, n, ss, v, req, hm hc, hc'⟩

theorem cleanOps_mem {s : Store} {l : List Str} {sop : SysOp} (h : sop ∈ cleanOps s l) : ∃ sid, sop = .revokeClientSession sid := by
  induction l generalizing s with
  | nil => cases h
  | cons x l ih =>
    unfold cleanOps at h
    rcases List.mem_cons.1 h with h | h
    · exact ⟨x, h⟩
    · split at h
      · cases h
      · exact ih h

theorem logoutOps_mem {env : LogoutEnv} {cdb : Cdb} {s : Store} {sid : Str} {alla : Bool} {sop : SysOp}
    (h : sop ∈ logoutOps env cdb s sid alla) : ∃ sid, sop = .revokeClientSession sid := by
  unfold logoutOps at h
  split at h
  · cases h
  · split at h
    · split at h
      · cases h
      · split at h
        · cases h
        · split at h
          · cases h
          · split at h
            · cases h
            · exact cleanOps_mem h
    · split at h
      · cases h
      · split at h
        · cases h
        · split at h
          · cases h
          · exact cleanOps_mem h

/-- A session step that creates a session is an authorization request. -/
theorem sysOps_authorize {cfg : ProvCfg} {st : Prov} {op : HttpOp} {sop : SysOp} (h : sop ∈ sysOps cfg st op) :
    (∃ now gid mc ma idt raw req q a, op = .authorize now gid mc ma idt raw req ∧ Parsed cfg st req.areq q ∧
      (st.cdb q.clientId).isSome = true ∧ authnIn cfg.sys.env cfg.acfg now raw { req with areq := q } = .ok a ∧
      sop = .authorize st.cdb now gid mc ma idt a q ∧ sysOps cfg st op = [sop]) ∨
    (newGid sop = [] ∧ LoginNames sop ∧ HonestCookie sop ∧ PlainGrants sop ∧ ∀ env s u c gid ev sub, ¬ LogsIn env s sop u c gid ev sub) ∧
      ∀ u ev, ¬ Authenticates sop u ev := by
  have hrev : ∀ sid, (newGid (.revokeClientSession sid) = [] ∧ LoginNames (.revokeClientSession sid) ∧
      HonestCookie (.revokeClientSession sid) ∧ PlainGrants (.revokeClientSession sid) ∧
      ∀ env s u c gid ev sub, ¬ LogsIn env s (.revokeClientSession sid) u c gid ev sub) ∧
      ∀ u ev, ¬ Authenticates (.revokeClientSession sid) u ev :=
    fun sid => ⟨⟨rfl, trivial, trivial, trivial, fun _ _ _ _ _ _ _ h => nomatch h⟩, fun _ _ h => nomatch h⟩
  cases op with
  | register => cases h
  | push => cases h
  | userinfo => cases h
  | introspect => cases h
  | tokenProcess i req =>
    simp only [sysOps, List.mem_singleton] at h
    subst h
    exact Or.inr ⟨⟨rfl, trivial, trivial, trivial, fun _ _ _ _ _ _ _ h => nomatch h⟩, fun _ _ h => nomatch h⟩
  | tokenParse now r req =>
    simp only [sysOps] at h
    split at h
    · simp only [List.mem_singleton] at h
      subst h
      exact Or.inr ⟨⟨rfl, trivial, trivial, trivial, fun _ _ _ _ _ _ _ h => nomatch h⟩, fun _ _ h => nomatch h⟩
    · cases h
  | logout post sid alla =>
    obtain ⟨x, rfl⟩ := logoutOps_mem h
    exact Or.inr (hrev x)
  | restart =>
    simp only [sysOps, List.mem_singleton] at h
    subst h
    refine Or.inr ⟨⟨rfl, trivial, trivial, trivial, fun _ _ _ _ _ _ _ h => ?_⟩, fun _ _ h => ?_⟩
    · cases h with
      | killed h => cases h
    · cases h with
      | killed h => cases h
  | authorize now gid mc ma idt raw req =>
    refine Or.inl ?_
    simp only [sysOps] at h ⊢
    cases hp : authzParse cfg.sys.env st.cdb st.par req.areq with
    | mk par o =>
      rw [hp] at h
      cases o with
      | errMsg e => simp at h
      | raise e => simp at h
      | val q =>
        dsimp only at h ⊢
        cases hc : st.cdb q.clientId with
        | none => rw [hc] at h; simp at h
        | some cl =>
          rw [hc] at h
          cases ha : authnIn cfg.sys.env cfg.acfg now raw { req with areq := q } with
          | error e => rw [ha] at h; simp at h
          | ok a =>
            rw [ha] at h
            simp only [List.mem_singleton] at h
            refine ⟨now, gid, mc, ma, idt, raw, req, q, a, rfl, by unfold Parsed; rw [hp], by rw [hc]; rfl, ha, h, ?_⟩
            rw [h]

/-- What the browser showed. -/
theorem authnIn_shows {cfg : ProvCfg} {now : Int} {raw : Option Str} {r : UserReq} {a : AuthnIn}
    (h : authnIn cfg.sys.env cfg.acfg now raw r = .ok a) :
    a.acr = cfg.acfg.acr ∧ a.expiresIn = cfg.acfg.expiresIn ∧ (∀ u, a.ident = .plain u → ShowsLogin cfg raw u) ∧
      ∀ u sid, a.ident = .decoded (some u) sid → ShowsSession cfg raw u sid := by
  unfold authnIn at h
  split at h
  · cases h
  · split at h
    · cases h
    · rename_i i hi
      cases h
      refine ⟨rfl, rfl, ?_⟩
      dsimp only
      unfold identity at hi
      have said : ∀ uid ts, authenticatedAs cfg.acfg now raw (demandedAge r) = .ok (some (uid, ts)) → CookieSays cfg raw uid := by
        intro uid ts he
        unfold authenticatedAs at he
        split at he
        · cases he
        · rename_i raw'
          split at he
          · split at he <;> cases he
          · cases he
          · rename_i uid' ts' typ hg
            have hu : uid' = uid := by
              split at he
              · split at he
                · cases he
                · split at he
                  · cases he
                  · cases he; rfl
              · split at he
                · cases he; rfl
                · split at he
                  · cases he
                  · split at he
                    · cases he
                    · cases he; rfl
            subst hu
            exact ⟨_, _, _, rfl, hg⟩
      split at hi
      · split at hi
        · cases hi; exact ⟨by simp, by simp⟩
        · cases hi
      · cases hi; exact ⟨by simp, by simp⟩
      · rename_i uid ts he
        have hs := said uid ts he
        split at hi
        · rename_i hb
          cases hi
          refine ⟨?_, by simp⟩
          rintro u hu
          cases hu
          exact ⟨hs, hb⟩
        · rename_i b hb
          split at hi
          · cases hi
          · rename_i u0 sid0 hj
            cases hi
            refine ⟨by simp, ?_⟩
            rintro u sid hu
            cases hu
            exact ⟨_, _, hs, hb, hj⟩

theorem Spec.WebRun.snoc_left {cfg : ProvCfg} {l : List HttpOp} {op : HttpOp} (h : WebRun cfg (l ++ [op])) : WebRun cfg l := by
  have := h.take l.length
  rwa [List.take_left] at this

/-- The session steps of a history of requests are such as considered. -/
theorem expand_ok {cfg : ProvCfg} {ops : List HttpOp} (h : WebRun cfg ops) :
    FreshRun (expand cfg ops) ∧ (∀ op ∈ expand cfg ops, LoginNames op) ∧ ∀ op ∈ expand cfg ops, HonestCookie op := by
  have hg : ((expand cfg ops).flatMap newGid).Sublist (ops.flatMap httpGid) := by
    clear h
    induction ops using snocInd with
    | nil => exact List.Sublist.refl _
    | append_singleton l op ih =>
      rw [expand_snoc, List.flatMap_append, List.flatMap_append]
      refine ih.append ?_
      by_cases hop : ∃ sop ∈ sysOps cfg (provRun cfg l) op, newGid sop ≠ []
      · obtain ⟨sop, hm, hn⟩ := hop
        rcases sysOps_authorize hm with ⟨now, gid, mc, ma, idt, raw, req, q, a, rfl, _, _, _, e, e'⟩ | h
        · rw [e', e]; exact List.Sublist.refl _
        · exact absurd h.1.1 hn
      · have : (sysOps cfg (provRun cfg l) op).flatMap newGid = [] := by
          rw [List.flatMap_eq_nil_iff]
          intro x hx
          exact Classical.not_not.1 fun hne => hop ⟨x, hx, hne⟩
        rw [this]
        exact List.nil_sublist _
  have key : ∀ op ∈ expand cfg ops, LoginNames op ∧ HonestCookie op ∧ PlainGrants op := by
    clear hg
    induction ops using snocInd with
    | nil => intro op hop; cases hop
    | append_singleton l op ih =>
      intro sop hsop
      rw [expand_snoc] at hsop
      rcases List.mem_append.1 hsop with hm | hm
      · exact ih h.snoc_left sop hm
      · rcases sysOps_authorize hm with ⟨now, gid, mc, ma, idt, raw, req, q, a, rfl, hp, hc, ha, rfl, _⟩ | h
        · obtain ⟨-, -, hl, hs⟩ := authnIn_shows ha
          have hin : HttpOp.authorize now gid mc ma idt raw req ∈ l ++ [.authorize now gid mc ma idt raw req] := by simp
          refine ⟨⟨?_, ?_⟩, ?_, trivial⟩
          · rintro u (hu | ⟨sid, hu⟩)
            · exact h.users _ _ _ _ _ _ _ hin u (Or.inl (hl u hu))
            · exact h.users _ _ _ _ _ _ _ hin u (Or.inr ⟨_, hs u _ hu⟩)
          · exact h.snoc_left.clients _ (provRun_named cfg l _ hc)
          · intro u sid hu
            exact h.cookies _ _ _ _ _ _ _ hin u sid (hs u _ hu)
        · exact ⟨h.1.2.1, h.1.2.2.1, h.1.2.2.2.1⟩
  exact ⟨⟨h.nodup.sublist hg, fun g hgm => h.good g (hg.subset hgm), fun op hop => (key op hop).2.2⟩,
    fun op hop => (key op hop).1, fun op hop => (key op hop).2.1⟩

/-- A login among the session steps is a login on the web. -/
theorem webLogin_of {cfg : ProvCfg} {ops : List HttpOp} {n : Nat} {sid u c sub : Str} {ev : Option AuthnEvent}
    (h : LoggedIn cfg.sys (expand cfg ops) n sid u c sub ev) : WebLogin cfg ops ops.length sid u c sub ev := by
  obtain ⟨⟨j, sop, gid, _, h2, h3, h4⟩, ⟨j', sop', _, h6, h7⟩⟩ := h
  constructor
  · obtain ⟨k, op, pre, post, k1, k2, k3⟩ := expand_at h2
    rcases sysOps_authorize (show sop ∈ sysOps cfg (provRun cfg (ops.take k)) op by rw [k2]; simp) with
      ⟨now, gid', mc, ma, idt, raw, req, q, a, rfl, hp, hc, ha, rfl, _⟩ | hno
    · obtain ⟨-, -, hl, hs⟩ := authnIn_shows ha
      have hk : k < ops.length := (List.getElem?_eq_some_iff.1 k1).1
      cases h4 with
      | login e1 e2 => exact ⟨k, _, _, _, _, _, _, _, q, _, hk, k1, hp, rfl, hc, h3, Or.inl (hl _ e1), e2, rfl⟩
      | returning e1 e2 e3 => exact ⟨k, _, _, _, _, _, _, _, q, _, hk, k1, hp, rfl, hc, h3, Or.inr ⟨_, hs _ _ e1⟩, e3, rfl⟩
    · exact absurd h4 (hno.1.2.2.2.2 _ _ _ _ _ _ _)
  · obtain ⟨k, op, pre, post, k1, k2, k3⟩ := expand_at h6
    rcases sysOps_authorize (show sop' ∈ sysOps cfg (provRun cfg (ops.take k)) op by rw [k2]; simp) with
      ⟨now, gid', mc, ma, idt, raw, req, q, a, rfl, hp, hc, ha, rfl, _⟩ | hno
    · obtain ⟨e1, e2, hl, hs⟩ := authnIn_shows ha
      have hk : k < ops.length := (List.getElem?_eq_some_iff.1 k1).1
      cases h7 with
      | login e3 =>
        refine ⟨k, _, _, _, _, _, _, _, hk, k1, hl _ e3, ?_⟩
        unfold loginEvent
        rw [e1, e2]
    · exact absurd h7 (hno.2 _ _)

theorem Spec.WebLogin.of_take {cfg : ProvCfg} {ops : List HttpOp} {i : Nat} {sid u c sub : Str} {ev : Option AuthnEvent}
    (h : WebLogin cfg (ops.take i) (ops.take i).length sid u c sub ev) : WebLogin cfg ops i sid u c sub ev := by
  obtain ⟨⟨k, now, gid, mc, ma, idt, raw, req, q, f, h1, h2, h3, h4⟩, ⟨k', now', gid', mc', ma', idt', raw', req', h5, h6, h7⟩⟩ := h
  have hk : k < i ∧ k < ops.length := by simp at h1; omega
  have hk' : k' < i ∧ k' < ops.length := by simp at h5; omega
  have ht : (ops.take i).take k = ops.take k := by rw [List.take_take]; congr 1; omega
  rw [ht] at h3 h4
  rw [List.getElem?_take_of_lt hk.1] at h2
  rw [List.getElem?_take_of_lt hk'.1] at h6
  exact ⟨⟨k, now, gid, mc, ma, idt, raw, req, q, f, hk.1, h2, h3, h4⟩, ⟨k', now', gid', mc', ma', idt', raw', req', hk'.1, h6, h7⟩⟩

end Verif
