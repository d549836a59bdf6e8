import Verif.Lemmas.Honest
import Verif.Props.AuthzSession
import Verif.Props.Claims
set_option linter.unusedSimpArgs false
/-! Forward lemmas for the authorization endpoint. -/
namespace Verif
open Spec

/-- Two client databases that differ at most in the claims that the clients are given. -/
def SameButClaims (a b : Cdb) : Prop := ∀ c, (a c).map (fun cl => { cl with claims := [] }) = (b c).map (fun cl => { cl with claims := [] })

theorem SameButClaims.trans {a b c : Cdb} (h1 : SameButClaims a b) (h2 : SameButClaims b c) : SameButClaims a c :=
  fun x => (h1 x).trans (h2 x)

theorem sameButClaims_set (cdb : Cdb) (client usage : Str) (d : Claims) : SameButClaims cdb (cdb.setClaims client usage d) := by
  intro c
  unfold Cdb.setClaims
  by_cases h : c = client
  · simp only [h, if_true]
    cases cdb client <;> rfl
  · simp [h]

/-- What the two databases say about one client. -/
theorem SameButClaims.client {a b : Cdb} (h : SameButClaims a b) (c : Str) :
    (a c = none ∧ b c = none) ∨ ∃ x y, a c = some x ∧ b c = some y ∧ x.allowedScopes = y.allowedScopes ∧
      x.redirectUris = y.redirectUris ∧ x.postLogoutRedirectUris = y.postLogoutRedirectUris := by
  have := h c
  cases ha : a c with
  | none =>
    cases hb : b c with
    | none => exact .inl ⟨rfl, rfl⟩
    | some y => rw [ha, hb] at this; cases this
  | some x =>
    cases hb : b c with
    | none => rw [ha, hb] at this; cases this
    | some y =>
      rw [ha, hb] at this
      simp only [Option.map_some, Option.some.injEq, Client.mk.injEq] at this
      exact .inr ⟨x, y, rfl, rfl, by simp_all, by simp_all, by simp_all⟩

theorem SameButClaims.allowed {a b : Cdb} (h : SameButClaims a b) (cfg : ClaimsCfg) (client : Str) :
    allowedScopes cfg a client = allowedScopes cfg b client := by
  unfold allowedScopes
  rcases h.client client with ⟨h1, h2⟩ | ⟨x, y, h1, h2, h3, _⟩
  · simp [h1, h2]
  · simp [h1, h2, h3]

theorem SameButClaims.getUri {a b : Cdb} (h : SameButClaims a b) (lib : UriLib) (ty : UriType) (client : Str) (uri : Option Str) :
    getUri lib a ty client uri = Verif.getUri lib b ty client uri := by
  have hu : ∀ x y : Client, x.redirectUris = y.redirectUris → x.postLogoutRedirectUris = y.postLogoutRedirectUris →
      x.uris ty = y.uris ty := by
    intro x y e1 e2; cases ty <;> simpa [Client.uris]
  unfold Verif.getUri verifyUri
  rcases h.client client with ⟨h1, h2⟩ | ⟨x, y, h1, h2, _, h4, h5⟩
  · simp [h1, h2]
  · simp [h1, h2, hu x y h4 h5]

theorem getClaims_succeeds {cfg : ClaimsCfg} {cdb : Cdb} {client : Str} {scopes : List Str}
    (h : ∀ s ∈ scopes, s ∈ allowedScopes cfg cdb client → (cfg.scope2claims.get? s).isSome) (arc : Option (Dict Claims)) (usage : Str) :
    ∃ cdb' c, getClaims cfg cdb client arc scopes usage = (cdb', .ok c) ∧ SameButClaims cdb cdb' := by
  have hconv : ∃ res, convertScopes cfg.scope2claims (filterScopes cfg cdb client scopes) [] = .ok res := by
    rw [(convertScopes_spec _ _ _).2]
    intro s hs
    unfold filterScopes at hs
    simp only [List.mem_filter, List.contains_iff_mem] at hs
    exact h s hs.1 hs.2
  obtain ⟨res, hres⟩ := hconv
  have hst : ∀ (b : Bool) (d : Claims), SameButClaims cdb (if b = true then cdb.setClaims client usage d else cdb) := by
    intro b d
    cases b
    · exact fun _ => rfl
    · exact sameButClaims_set _ _ _ _
  unfold getClaims
  simp only
  cases hm : cfg.modules.get? usage with
  | none => exact ⟨_, _, rfl, hst _ _⟩
  | some m =>
    simp only [hres]
    by_cases hb : m.byScope = true ∧ scopes ≠ []
    · rw [if_pos hb]; exact ⟨_, _, rfl, hst _ _⟩
    · rw [if_neg hb]; exact ⟨_, _, rfl, hst _ _⟩

theorem claimsForAll_succeeds {cfg : ClaimsCfg} {client : Str} {scopes : List Str} (arc : Option (Dict Claims)) :
    ∀ (is : List Str) (cdb : Cdb) (acc : Dict Claims),
    (∀ s ∈ scopes, s ∈ allowedScopes cfg cdb client → (cfg.scope2claims.get? s).isSome) →
    ∃ cdb' cl, claimsForAll cfg client arc scopes is cdb acc = (cdb', .ok cl) ∧ SameButClaims cdb cdb'
  | [], cdb, acc, _ => ⟨cdb, acc, rfl, fun _ => rfl⟩
  | i :: is, cdb, acc, h => by
    obtain ⟨cdb1, c, h1, h2⟩ := getClaims_succeeds h arc i
    obtain ⟨cdb2, cl, h3, h4⟩ := claimsForAll_succeeds arc is cdb1 (acc.set i c) (by rw [← h2.allowed]; exact h)
    refine ⟨cdb2, cl, ?_, h2.trans h4⟩
    unfold claimsForAll
    simp only [h1]
    exact h3

/-- The grant that `start_session` stores. -/
theorem startSession_succeeds (env : Env) (f : Str → Option Str → Str) (hsf : env.sf c!"public" = some f) (cdb : Cdb)
    (s : Store) (ht : Tree s) (now : Int) (gid : Str) (hg : GoodId gid) (req : AuthReq) (hc : GoodId req.clientId)
    (a : AuthnIn) (uid : Str) (hu : GoodId uid) :
    ∃ s' ev, startSession env cdb s now gid req a uid =
        (s', .val (.session (sessionKey [uid, req.clientId, gid]) uid)) ∧ Tree s' ∧
      getGrant s' (sessionKey [uid, req.clientId, gid]) = .ok (Grant.new now gid { authReq := some req, authnEvent := some ev, sub := f uid req.sectorIdentifierUri, usageRules := usageRulesOf env.gc cdb req.clientId }) ∧
      ev.uid = uid ∧ ev.authnTime = now ∧
      ev.validUntil = now + (if a.expiresIn = none ∨ a.expiresIn = some 0 then 3600 else a.expiresIn.getD 0) := by
  have hne : req.clientId ≠ [] := hc.1
  refine (fun (key : ∀ ev : AuthnEvent, ∃ s', createSession env.sf s now gid uid req.clientId
      { authnEvent := some ev, authReq := req, usageRules := usageRulesOf env.gc cdb req.clientId } =
        (s', .ok (sessionKey [uid, req.clientId, gid])) ∧ Tree s' ∧
      getGrant s' (sessionKey [uid, req.clientId, gid]) = .ok (Grant.new now gid { authReq := some req, authnEvent := some ev, sub := f uid req.sectorIdentifierUri, usageRules := usageRulesOf env.gc cdb req.clientId })) => ?_) ?_
  · unfold startSession
    simp only
    cases hx : a.expiresIn with
    | none =>
      obtain ⟨s', k1, k2, k3⟩ := key (createAuthnEvent now uid a.acr a.ts)
      simp only [k1]
      exact ⟨s', _, rfl, k2, k3, rfl, rfl, by simp [createAuthnEvent]⟩
    | some e =>
      by_cases he : e = 0
      · obtain ⟨s', k1, k2, k3⟩ := key (createAuthnEvent now uid a.acr a.ts)
        simp only [he, if_true, k1]
        exact ⟨s', _, rfl, k2, k3, rfl, rfl, by simp [createAuthnEvent, he]⟩
      · obtain ⟨s', k1, k2, k3⟩ := key { createAuthnEvent now uid a.acr a.ts with validUntil := now + e }
        simp only [he, if_false, k1]
        exact ⟨s', _, rfl, k2, k3, rfl, rfl, by simp [he]⟩
  · intro ev
    obtain ⟨s1, h1, t1, _⟩ := createSession_user ht hu
    obtain ⟨s2, h2, t2⟩ := tree_set2 t1 hu hc (SessInfo.client req.clientId) (by simp [SessInfo.client])
    generalize hgr : Grant.new now gid { authReq := some req, authnEvent := some ev, sub := f uid req.sectorIdentifierUri, usageRules := usageRulesOf env.gc cdb req.clientId } = gr
    obtain ⟨s3, h3, t3⟩ := tree_set3 t2 hu hc hg gr
    obtain ⟨s3', h3', h4⟩ := C13_read_own_write s2 t2.typed [uid, req.clientId, gid] (goodPath_three hu hc hg) (by simp) (.grant gr)
    rw [h3] at h3'
    cases h3'
    refine ⟨s3, ?_, t3, (getGrant_iff hu hc hg gr).2 h4⟩
    unfold createSession createGrant newGrant
    simp only [h1, hne, if_false, h2, hsf, hgr, h3]

theorem usageRulesOf_none {gc : AuthzConfig} (h : gc.usageRules = none) (cdb : Cdb) (client : Str) :
    usageRulesOf gc cdb client = ((cdb client).bind (·.tokenUsageRules)).getD [] := by
  unfold usageRulesOf
  rw [h]
  cases hc : (cdb client).bind (·.tokenUsageRules) with
  | none => simp
  | some pc => simp

theorem rulesFor_eq (env : Env) (cdb : Cdb) (client tt : Str) :
    ((env.gc.usageRules.getD (usageRulesOf env.gc cdb client)).get? tt).getD {} = rulesFor env cdb client tt := by
  unfold rulesFor
  cases h : env.gc.usageRules with
  | none => rw [usageRulesOf_none h]
  | some r => rfl

/-- The grant after the decision. -/
theorem authzCall_succeeds {env : Env} {cdb : Cdb} {c : Client} {req : AuthReq} {uri : Str} (h : CodeFlowRequest env cdb c req uri)
    (hi : env.gc.implicit = false) (now : Int) (g : Grant) (hg : g.authReq = some req) :
    ∃ cdb' cl, authzCall env.gc env.ccfg cdb now req.clientId g req = (cdb', .ok { g with scope := req.scope, claims := cl, usageRules := env.gc.usageRules.getD g.usageRules, expiresAt := (match env.gc.expiresIn with | some e => now + e | none => g.expiresAt), resources := [req.clientId] }) ∧
      SameButClaims cdb cdb' := by
  have hmap : ∀ s ∈ req.scope, s ∈ allowedScopes env.ccfg cdb req.clientId → (env.ccfg.scope2claims.get? s).isSome := by
    intro s hs ha
    unfold allowedScopes availableScopes at ha
    simp only [h.client] at ha
    by_cases he : c.allowedScopes = []
    · simp only [he, List.isEmpty_nil, if_true] at ha
      rw [Dict.get?_isSome]
      by_cases h2 : env.ccfg.scopesSupported.isEmpty = true
      · simpa [h2] using ha
      · simp only [h2, Bool.false_eq_true, if_false, List.mem_filter] at ha
        exact ha.1
    · have : c.allowedScopes.isEmpty = false := by simpa using he
      rw [this] at ha
      exact h.scopeMapped s hs he (by simpa using ha)
  unfold authzCall
  simp only [hi, Bool.false_eq_true, if_false, h.scopeGiven, hg]
  obtain ⟨cdb', cl, h1, h2⟩ := claimsForAll_succeeds req.claims interfaces cdb (req.claims.getD g.claims) hmap
  simp only [h1]
  exact ⟨cdb', cl, rfl, h2⟩

end Verif
