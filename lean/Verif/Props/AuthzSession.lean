import Verif.Model.SubId
import Verif.Props.Demo
import Verif.Lemmas.Dict
set_option linter.unusedSimpArgs false
/-! C39, C48, C50, C59, C60, C61, C63: sessions made by the authorization endpoint. -/
namespace Verif
open Spec

/-- What a login without a session leads to. -/
theorem startSession_grant (env : Env) (f : Str → Option Str → Str) (hsf : env.sf c!"public" = some f) (cdb : Cdb)
    (s : Store) (ht : Tree s) (now : Int) (gid : Str) (hg : GoodId gid) (req : AuthReq) (hc : GoodId req.clientId)
    (a : AuthnIn) (uid : Str) (hu : GoodId uid) :
    ∃ s' gr, startSession env cdb s now gid req a uid =
        (s', .val (.session (sessionKey [uid, req.clientId, gid]) uid)) ∧
      getGrant s' (sessionKey [uid, req.clientId, gid]) = .ok gr ∧ gr.authReq = some req ∧
      (∃ ev, gr.authnEvent = some ev ∧ ev.uid = uid ∧ ev.authnInfo = a.acr ∧ ev.authnTime = now ∧
        ev.validUntil = now + (if a.expiresIn = none ∨ a.expiresIn = some 0 then 3600 else a.expiresIn.getD 0)) ∧
      gr.sub = f uid req.sectorIdentifierUri ∧ gr.usageRules = usageRulesOf env.gc cdb req.clientId := by
  have hne : req.clientId ≠ [] := hc.1
  generalize hev : (match a.expiresIn with
    | some e => if e = 0 then createAuthnEvent now uid a.acr a.ts else
        { createAuthnEvent now uid a.acr a.ts with validUntil := now + e }
    | none => createAuthnEvent now uid a.acr a.ts) = ev
  obtain ⟨s', gr, h1, h2, h3, h4, _, h6, h7, _⟩ := C15_created_session_usable_partial env.sf s ht now gid uid req.clientId
    { authnEvent := some ev, authReq := req, usageRules := usageRulesOf env.gc cdb req.clientId } hg hu req.clientId
    (by simp [hne]) hc f hsf
  refine ⟨s', gr, ?_, h2, h3, ⟨ev, h4, ?_⟩, h6, h7⟩
  · unfold startSession
    simp only
    have : (match a.expiresIn with
      | some e => if e = 0 then createAuthnEvent now uid a.acr a.ts else
          { createAuthnEvent now uid a.acr a.ts with validUntil := now + e }
      | none => createAuthnEvent now uid a.acr a.ts) = ev := hev
    cases hx : a.expiresIn with
    | none => simp [hx] at this; simp only [this, h1]
    | some e => simp only [hx] at this; simp only [this, h1]
  · subst hev
    cases a.expiresIn with
    | none => simp [createAuthnEvent]
    | some e => by_cases h : e = 0 <;> simp [h, createAuthnEvent]

theorem setupAuth_plain (env : Env) (cdb : Cdb) (s : Store) (now : Int) (gid : Str) (req : AuthReq) (a : AuthnIn)
    (uid : Str) (h1 : a.ident = .plain uid) (h2 : a.reAuth = false) (h3 : a.reqUser = none) :
    setupAuth env cdb s now gid req a = startSession env cdb s now gid req a uid := by
  unfold setupAuth
  rw [h1]
  simp [h2, h3]

/-! ### C39 -/

/-- C39 is false: when a user is recognised by a login cookie (made at the time `a.ts`) and a session is created, the
authentication event says that the user logged in now, whatever `a.ts` is. -/
theorem C39_auth_time_is_request_time (env : Env) (f : Str → Option Str → Str) (hsf : env.sf c!"public" = some f)
    (cdb : Cdb) (s : Store) (ht : Tree s) (now : Int) (gid : Str) (hg : GoodId gid) (req : AuthReq)
    (hc : GoodId req.clientId) (a : AuthnIn) (uid : Str) (hu : GoodId uid) (h1 : a.ident = .plain uid)
    (h2 : a.reAuth = false) (h3 : a.reqUser = none) :
    ∃ s' sid gr ev, setupAuth env cdb s now gid req a = (s', .val (.session sid uid)) ∧ getGrant s' sid = .ok gr ∧
      gr.authnEvent = some ev ∧ ev.authnTime = now := by
  rw [setupAuth_plain env cdb s now gid req a uid h1 h2 h3]
  obtain ⟨s', gr, e1, e2, _, ⟨ev, e4, _, _, e5⟩, _⟩ := startSession_grant env f hsf cdb s ht now gid hg req hc a uid hu
  exact ⟨s', _, gr, ev, e1, e2, e4, e5.1⟩

theorem needLogin_ne (req : AuthReq) (sid user : Str) : needLogin req ≠ .session sid user := by
  unfold needLogin; split <;> simp

/-- C39, the part that holds: if the login is a session of the provider (and not only a user id), then the session of the
new request has the authentication event of that session, so its time is the time of the login.  What is missing:
`C39_auth_time_is_request_time`. -/
theorem C39_session_reuse_keeps_time_partial (env : Env) (cdb : Cdb) (s s' : Store) (ht : Tree s) (now : Int) (gid : Str)
    (hgid : GoodId gid) (req : AuthReq) (a : AuthnIn) (u c g sid' user : Str) (hu : GoodId u) (hc : GoodId c)
    (hg : GoodId g) (hid : a.ident = .decoded (some u) (some (sessionKey [u, c, g]))) (g0 : Grant)
    (h0 : getGrant s (sessionKey [u, c, g]) = .ok g0)
    (h : setupAuth env cdb s now gid req a = (s', .val (.session sid' user))) :
    ∃ gr, getGrant s' sid' = .ok gr ∧ gr.authnEvent = g0.authnEvent := by
  have hd : dbGet s [u, c, g] = .ok (.grant g0) := (getGrant_iff hu hc hg g0).1 h0
  have hm : mgrGet s (sessionKey [u, c, g]) = .ok (.grant g0) := by
    unfold mgrGet; rw [unpack_good (goodPath_three hu hc hg)]; exact hd
  unfold setupAuth at h
  rw [hid] at h
  simp only [hm] at h
  by_cases ha : g0.isActive now = false
  · simp [ha] at h; exact absurd h.2 (needLogin_ne req sid' user)
  · simp only [ha, if_false] at h
    cases hr : a.reAuth with
    | true => simp [hr] at h
    | false =>
      simp only [hr, Bool.false_eq_true, if_false] at h
      by_cases hq : a.reqUser.isSome = true ∧ a.reqUser ≠ some u
      · rw [if_pos hq] at h; simp at h; exact absurd h.2 (needLogin_ne req sid' user)
      · rw [if_neg hq] at h
        simp only [unpack3_good hu hc hg] at h
        by_cases hcl : req.clientId ≠ c
        · simp [hcl] at h
        · have hcl' : req.clientId = c := by simpa using hcl
          simp only [hcl, if_false] at h
          by_cases he : g0.authReq = some req
          · simp only [he, if_true] at h
            cases hev : getAuthnEvent s (sessionKey [u, c, g]) with
            | error e => simp [hev] at h
            | ok ev =>
              simp only [hev] at h
              cases hv : eventValid now ev with
              | error e => simp [hv] at h
              | ok b =>
                cases b with
                | false => simp [hv] at h
                | true =>
                  simp [hv] at h
                  obtain ⟨rfl, rfl, rfl⟩ := h
                  exact ⟨g0, h0, rfl⟩
          · simp only [he, if_false] at h
            cases hev : eventValid now g0.authnEvent with
            | error e => simp [hev] at h
            | ok b =>
              cases b with
              | false => simp [hev] at h
              | true =>
                simp only [hev] at h
                cases hng : newGrant env.sf now gid u { authnEvent := g0.authnEvent, authReq := req } with
                | error e => simp [createGrant, hng] at h
                | ok gr =>
                  obtain ⟨s1, hset, hget⟩ := C13_read_own_write s ht.typed [u, req.clientId, gid]
                    (goodPath_three hu (hcl' ▸ hc) hgid) (by simp) (.grant gr)
                  have hcg : createGrant env.sf s now gid u req.clientId { authnEvent := g0.authnEvent, authReq := req } =
                      (s1, .ok (sessionKey [u, req.clientId, gid])) := by
                    simp [createGrant, hng, hset]
                  simp only [hcg] at h
                  cases hev2 : getAuthnEvent s1 (sessionKey [u, req.clientId, gid]) with
                  | error e => simp [hev2] at h
                  | ok ev2 =>
                    simp only [hev2] at h
                    cases hv : eventValid now ev2 with
                    | error e => simp [hv] at h
                    | ok b =>
                      cases b with
                      | false => simp [hv] at h
                      | true =>
                        simp [hv] at h
                        obtain ⟨rfl, rfl, rfl⟩ := h
                        refine ⟨gr, (getGrant_iff hu (hcl' ▸ hc) hgid gr).2 hget, ?_⟩
                        unfold newGrant at hng
                        split at hng
                        · cases hng
                        · cases hng; rfl

/-! ### C48 -/

/-- A field of the rules in force: the client's own entry if it has one, else the provider's. -/
def inForce {α : Type} (field : UsageRules → Option α) (client provider : Option UsageRules) : Option α :=
  match client.bind field with
  | some x => some x
  | none => provider.bind field

theorem get?_foldl_add (pc : Dict UsageRules) (acc : Dict UsageRules) (tt : Str) :
    (pc.foldl (fun acc kv => if acc.has kv.1 then acc else acc.set kv.1 kv.2) acc).get? tt =
      match acc.get? tt with
      | some r => some r
      | none => pc.get? tt := by
  induction pc generalizing acc with
  | nil => simp [Dict.get?]; cases acc.get? tt <;> rfl
  | cons kv pc ih =>
    obtain ⟨k, v⟩ := kv
    simp only [List.foldl_cons, ih, Dict.get?_cons]
    by_cases hk : acc.has k = true
    · simp only [hk, if_true]
      cases ha : acc.get? tt with
      | some r => rfl
      | none =>
        by_cases e : k = tt
        · subst e; simp [Dict.has, ha] at hk
        · simp [e]
    · have hk' : acc.has k = false := by simpa using hk
      simp only [hk', Bool.false_eq_true, if_false, Dict.get?_set]
      by_cases e : k = tt
      · subst e
        have : acc.get? k = none := by simpa [Dict.has] using hk
        simp [this]
      · simp only [e, if_false, eq_comm (a := tt) (b := k)]

theorem get?_mapMerge (rules pc : Dict UsageRules) (tt : Str) :
    Dict.get? (rules.map (mergeRule pc)) tt = (rules.get? tt).map fun r => match pc.get? tt with
      | some p => r.update p
      | none => r := by
  induction rules with
  | nil => rfl
  | cons kv rules ih =>
    obtain ⟨k, v⟩ := kv
    simp only [List.map_cons]
    by_cases e : k = tt
    · subst e
      cases hp : pc.get? k <;> simp [Dict.get?, mergeRule, hp]
    · cases hp : pc.get? k <;> simp [Dict.get?, mergeRule, hp, e, ih]

/-- C48: the rules in force for a client and token type have, field by field, the client's entry where it has one and the
provider's elsewhere. -/
theorem C48_client_rules_take_precedence (gc : AuthzConfig) (cdb : Cdb) (client : Str) (cl : Client) (pc : Dict UsageRules)
    (hcl : cdb client = some cl) (hpc : cl.tokenUsageRules = some pc) (tt : Str) :
    let r := usageRulesFor gc cdb client tt
    let p := (gc.usageRules.getD []).get? tt
    r.maxUsage = inForce UsageRules.maxUsage (pc.get? tt) p ∧
    r.supportsMinting = inForce UsageRules.supportsMinting (pc.get? tt) p ∧
    r.expiresIn = inForce UsageRules.expiresIn (pc.get? tt) p := by
  have key : (usageRulesOf gc cdb client).get? tt =
      match (gc.usageRules.getD []).get? tt, pc.get? tt with
      | some r, some p => some (r.update p)
      | some r, none => some r
      | none, x => x := by
    unfold usageRulesOf
    simp only [hcl, Option.bind_some, hpc]
    generalize gc.usageRules.getD [] = rules
    cases rules with
    | nil => simp [Dict.get?]
    | cons kv rules =>
      simp only [List.isEmpty_cons, Bool.false_eq_true, if_false]
      rw [get?_foldl_add, get?_mapMerge]
      cases (Dict.get? (kv :: rules) tt) <;> cases pc.get? tt <;> rfl
  simp only [usageRulesFor, key]
  cases (gc.usageRules.getD []).get? tt with
  | none => cases pc.get? tt with
    | none => simp [inForce]
    | some p => cases p with
      | mk a b d => cases a <;> cases b <;> cases d <;> simp [inForce]
  | some r => cases pc.get? tt with
    | none => simp [inForce]
    | some p => cases p with
      | mk a b d => cases a <;> cases b <;> cases d <;> simp [inForce, UsageRules.update]

/-- C48: a client without rules of its own has the provider's. -/
theorem C48_provider_rules_otherwise (gc : AuthzConfig) (cdb : Cdb) (client tt : Str)
    (h : (cdb client).bind (·.tokenUsageRules) = none) :
    usageRulesFor gc cdb client tt = ((gc.usageRules.getD []).get? tt).getD {} := by
  simp [usageRulesFor, usageRulesOf, h]

/-- C48, second half: a session starts with the rules in force for its client. -/
theorem C48_session_starts_with_rules (env : Env) (f : Str → Option Str → Str) (hsf : env.sf c!"public" = some f)
    (cdb : Cdb) (s : Store) (ht : Tree s) (now : Int) (gid : Str) (hg : GoodId gid) (req : AuthReq)
    (hc : GoodId req.clientId) (a : AuthnIn) (uid : Str) (hu : GoodId uid) :
    ∃ s' sid gr, startSession env cdb s now gid req a uid = (s', .val (.session sid uid)) ∧ getGrant s' sid = .ok gr ∧
      ∀ tt, (gr.usageRules.get? tt).getD {} = usageRulesFor env.gc cdb req.clientId tt := by
  obtain ⟨s', gr, e1, e2, _, _, _, e5⟩ := startSession_grant env f hsf cdb s ht now gid hg req hc a uid hu
  exact ⟨s', _, gr, e1, e2, fun tt => by rw [e5]; rfl⟩

/-- C48 is false of the tokens: the authorization decision, made before anything is minted, replaces the grant's rules by
the provider's (if configured), so the client's own rules never apply to its tokens. -/
theorem C48_client_rules_are_discarded (gc : AuthzConfig) (ccfg : ClaimsCfg) (cdb cdb' : Cdb) (now : Int) (client : Str)
    (g g' : Grant) (req : AuthReq) (prov : Dict UsageRules) (hp : gc.usageRules = some prov)
    (h : authzCall gc ccfg cdb now client g req = (cdb', .ok g')) : g'.usageRules = prov := by
  unfold authzCall at h
  by_cases hi : gc.implicit = true
  · simp [hi, implicitCall, hp] at h
  simp only [hi, Bool.false_eq_true, if_false] at h
  split at h
  · cases h
  · split at h
    · cases h
    · simp only [hp] at h
      split at h
      · cases h
      · cases h; simp

/-- Witness: a client whose codes may be used to mint nothing but access tokens and live for one second; after the
authorization decision they follow the provider's rules. -/
example :
    let cl : Client := { demoClient c!"https://rp/cb" with tokenUsageRules := some [(tAuthorizationCode,
      { supportsMinting := some [tAccessToken], expiresIn := some 1 })] }
    let db : Cdb := fun c => if c = c!"c1" then some cl else none
    let p := authzProcess demoEnv db Store.empty 1 c!"g1" (mintIn c!"n1") (mintIn c!"n2") (.val c!"IDT")
      { ident := .plain c!"diana" } (demoReq [c!"code"])
    (usageRulesFor demoEnv.gc db c!"c1" tAuthorizationCode).expiresIn = some 1 ∧
    ∃ g, getGrant p.2.1 (sessionKey [c!"diana", c!"c1", c!"g1"]) = .ok g ∧
      g.issuedToken.map (fun t => (t.expiresAt, t.usageRules.supportsMinting)) =
        [(4, some [tAccessToken, tRefreshToken, c!"id_token"])] := by
  refine ⟨by decide, _, rfl, by decide⟩

/-! ### C50, C63 -/

/-- C50: whatever the client, the request and the time, a session started for a user has the subject identifier
`hash(uid ++ salt)`. -/
theorem C50_subject_is_stable (env : Env) (hash : Str → Str) (salt eph : Str) (hsf : env.sf = defaultSubFuncs hash salt eph)
    (cdb : Cdb) (s : Store) (ht : Tree s) (now : Int) (gid : Str) (hg : GoodId gid) (req : AuthReq)
    (hc : GoodId req.clientId) (a : AuthnIn) (uid : Str) (hu : GoodId uid) :
    ∃ s' sid gr, startSession env cdb s now gid req a uid = (s', .val (.session sid uid)) ∧ getGrant s' sid = .ok gr ∧
      gr.sub = hash (uid ++ salt) := by
  obtain ⟨s', gr, e1, e2, _, _, e4, _⟩ := startSession_grant env (publicId hash salt) (by rw [hsf]; rfl) cdb s ht now gid hg
    req hc a uid hu
  exact ⟨s', _, gr, e1, e2, e4⟩

/-- A provider with the default subject functions (and a transparent hash). -/
def subEnv : Env := { demoEnv with sf := defaultSubFuncs (fun x => x) c!"SALT" c!"e" }

/-- Two clients that registered for pairwise subjects, in different sectors. -/
def pairwiseDb : Cdb := fun c =>
  if c = c!"c1" then some { demoClient c!"https://rp/cb" with subjectType := some c!"pairwise", sectorIdentifierUri := some c!"https://s1" }
  else if c = c!"c2" then some { demoClient c!"https://rp2/cb" with subjectType := some c!"pairwise", sectorIdentifierUri := some c!"https://s2" }
  else none

/-- C50 is false for pairwise subjects: clients of different sectors that registered for pairwise subjects get the same
subject identifier. -/
theorem C50_pairwise_registration_ignored (s : Store) (ht : Tree s) (now : Int) (gid : Str) (hg : GoodId gid)
    (r1 r2 : AuthReq) (h1 : r1.clientId = c!"c1") (h2 : r2.clientId = c!"c2") (a : AuthnIn) (uid : Str) (hu : GoodId uid) :
    ∃ s1 s2 sid1 sid2 g1 g2,
      startSession subEnv pairwiseDb s now gid r1 a uid = (s1, .val (.session sid1 uid)) ∧ getGrant s1 sid1 = .ok g1 ∧
      startSession subEnv pairwiseDb s now gid r2 a uid = (s2, .val (.session sid2 uid)) ∧ getGrant s2 sid2 = .ok g2 ∧
      g1.sub = g2.sub := by
  have k1 : GoodId r1.clientId := by rw [h1]; simp [GoodId, SemicolonFree]
  have k2 : GoodId r2.clientId := by rw [h2]; simp [GoodId, SemicolonFree]
  obtain ⟨s1, d1, g1, a1, a2, a3⟩ := C50_subject_is_stable subEnv _ _ _ rfl pairwiseDb s ht now gid hg r1 k1 a uid hu
  obtain ⟨s2, d2, g2, b1, b2, b3⟩ := C50_subject_is_stable subEnv _ _ _ rfl pairwiseDb s ht now gid hg r2 k2 a uid hu
  exact ⟨s1, s2, d1, d2, g1, g2, a1, a2, b1, b2, by rw [a3, b3]⟩

/-- C63: with a collision-free hash, different users have different public identifiers. -/
theorem C63_public_ids_distinct (hash : Str → Str) (hinj : ∀ x y, hash x = hash y → x = y) (salt u v : Str)
    (s1 s2 : Option Str) (h : publicId hash salt u s1 = publicId hash salt v s2) : u = v :=
  List.append_cancel_right (hinj _ _ h)

/-- C63: and within one sector different pairwise identifiers. -/
theorem C63_pairwise_ids_distinct_in_sector (hash : Str → Str) (hinj : ∀ x y, hash x = hash y → x = y) (salt u v : Str)
    (sector : Option Str) (h : pairwiseId hash salt u sector = pairwiseId hash salt v sector) : u = v := by
  have := hinj _ _ h
  exact List.append_cancel_right (List.append_cancel_right this)

/-- C63: one user has different pairwise identifiers in different sectors (a missing sector counts as the sector "None"). -/
theorem C63_pairwise_ids_of_one_user (hash : Str → Str) (hinj : ∀ x y, hash x = hash y → x = y) (salt u : Str) (s1 s2 : Option Str) :
    pairwiseId hash salt u s1 = pairwiseId hash salt u s2 ↔
      s1 = s2 ∨ (s1 = none ∧ s2 = some c!"None") ∨ (s1 = some c!"None" ∧ s2 = none) := by
  constructor
  · intro h
    have h := List.append_cancel_right (hinj _ _ h)
    have h := List.append_cancel_left h
    cases s1 with
    | none =>
      cases s2 with
      | none => exact Or.inl rfl
      | some b => exact Or.inr (Or.inl ⟨rfl, by rw [show b = c!"None" from h.symm]⟩)
    | some a =>
      cases s2 with
      | none => exact Or.inr (Or.inr ⟨by rw [show a = c!"None" from h], rfl⟩)
      | some b => exact Or.inl (by rw [show a = b from h])
  · rintro (rfl | ⟨rfl, rfl⟩ | ⟨rfl, rfl⟩) <;> rfl

/-- C63 is false across sectors: user and sector are concatenated without separator, so that two users of two sectors
have the same identifier, whatever the hash and salt. -/
theorem C63_pairwise_collision (hash : Str → Str) (salt : Str) :
    pairwiseId hash salt c!"bob" (some c!"1.example.com") = pairwiseId hash salt c!"bob1" (some c!".example.com") ∧
    (c!"bob", c!"1.example.com") ≠ (c!"bob1", c!".example.com") := by
  exact ⟨rfl, by decide⟩

/-! ### C60 -/

/-- C60 is false: a browser that comes back with the session cookie set by a successful authorization gets an exception
(`KeyError: 'uid'`), whatever the request, as long as that session is active and re-authentication is not demanded. -/
theorem C60_returning_browser_raises (env : Env) (cdb : Cdb) (s : Store) (now : Int) (gid : Str) (req : AuthReq)
    (u c g : Str) (hu : GoodId u) (hc : GoodId c) (hg : GoodId g) (state : Option Str) (a : AuthnIn)
    (ha : a.ident = identOf (authzCookie (sessionKey [u, c, g]) state)) (hr : a.reAuth = false) (g0 : Grant)
    (h0 : getGrant s (sessionKey [u, c, g]) = .ok g0) (hact : g0.isActive now = true) :
    setupAuth env cdb s now gid req a = (s, .raise .keyError) := by
  have hd : dbGet s [u, c, g] = .ok (.grant g0) := (getGrant_iff hu hc hg g0).1 h0
  have hm : mgrGet s (sessionKey [u, c, g]) = .ok (.grant g0) := by
    unfold mgrGet; rw [unpack_good (goodPath_three hu hc hg)]; exact hd
  have hi : a.ident = .decoded none (some (sessionKey [u, c, g])) := by
    rw [ha]; cases state <;> rfl
  unfold setupAuth
  simp [hi, hm, hact, hr]

/-- The same for the cookie set by the token endpoint: it has no `sid`, and looking up the session raises. -/
theorem C60_token_cookie_raises (env : Env) (cdb : Cdb) (s : Store) (now : Int) (gid : Str) (req : AuthReq) (sub : Str)
    (a : AuthnIn) (ha : a.ident = identOf (tokenCookie sub)) :
    setupAuth env cdb s now gid req a = (s, .raise .attributeError) := by
  have hi : a.ident = .decoded none none := by rw [ha]; rfl
  unfold setupAuth
  simp [hi]

/-- Witness: after the demo authorization the cookie's session is active. -/
example : ∃ g0, getGrant (demoAuthz [c!"code"] none).2.1 (sessionKey [c!"diana", c!"c1", c!"g1"]) = .ok g0 ∧
    g0.isActive 2 = true := ⟨_, rfl, by decide⟩

/-! ### C61 -/

/-- C61 is false: if a client has registered no request URIs, any URI that it names is fetched (here: the result of the
fetch is what the rest of the parsing works on). -/
theorem C61_unregistered_request_uri_fetched (env : Env) (cdb : Cdb) (cl : Client) (par : ParDb) (req r : AuthReq)
    (hcl : cdb req.clientId = some cl) (hno : cl.requestUris = []) (uri : Str) (hu : req.requestUri = some uri)
    (hne : uri ≠ []) (hnot : c!"urn:uuid:".isPrefixOf uri = false) (hf : env.fetch req.clientId uri req = .ok r) :
    doRequestUri env cdb req.clientId par req = (par, .val r) := by
  unfold doRequestUri
  rw [hu]
  cases uri with
  | nil => exact absurd rfl hne
  | cons x xs => simp [hnot, hcl, hno, hf]

/-- C61, the part that holds: with registered request URIs only those (up to a fragment) are fetched: a request naming
another one raises `ValueError` whatever fetching would give. -/
theorem C61_registered_only_partial (env : Env) (cdb : Cdb) (cl : Client) (par : ParDb) (req : AuthReq)
    (hcl : cdb req.clientId = some cl) (hreg : cl.requestUris ≠ []) (uri : Str) (hu : req.requestUri = some uri)
    (hne : uri ≠ []) (hnot : c!"urn:uuid:".isPrefixOf uri = false)
    (hn : ∀ b ∈ cl.requestUris, (pySplit ['#'] uri).head? ≠ some b) :
    doRequestUri env cdb req.clientId par req = (par, .raise .valueError) := by
  have hno : (pySplit ['#'] uri).head? ∉ cl.requestUris.map some := by
    intro h
    obtain ⟨b, hb, e⟩ := List.mem_map.1 h
    exact hn b hb e.symm
  unfold doRequestUri
  rw [hu]
  cases uri with
  | nil => exact absurd rfl hne
  | cons x xs => simp only [hnot, Bool.false_eq_true, and_false, if_false, hcl, hreg, ne_eq, not_false_eq_true, true_and,
      hno, if_true]

/-! ### C59 -/

/-- No quote character in a string. -/
def NoQuote (s : Str) : Prop := '"' ∉ s

theorem noQuote_cancel {a b x y : Str} (ha : NoQuote a) (hb : NoQuote b) (h : a ++ '"' :: x = b ++ '"' :: y) :
    a = b ∧ x = y := by
  induction a generalizing b with
  | nil =>
    cases b with
    | nil => simp at h; exact ⟨rfl, h⟩
    | cons c b => simp at h; exact absurd (by rw [← h.1]; simp) hb
  | cons c a ih =>
    cases b with
    | nil => simp at h; exact absurd (by rw [h.1]; simp) ha
    | cons d b =>
      simp at h
      have ha' : NoQuote a := fun k => ha (by simp [k])
      have hb' : NoQuote b := fun k => hb (by simp [k])
      obtain ⟨e1, e2⟩ := ih ha' hb' h.2
      exact ⟨by rw [h.1, e1], e2⟩

/-- One field followed by something. -/
theorem field_cancel {n v n' v' x y : Str} (h1 : NoQuote n) (h2 : NoQuote v) (h3 : NoQuote n') (h4 : NoQuote v')
    (h : c!"<input type=\"hidden\" name=\"" ++ n ++ c!"\" value=\"" ++ v ++ c!"\"/>" ++ x =
         c!"<input type=\"hidden\" name=\"" ++ n' ++ c!"\" value=\"" ++ v' ++ c!"\"/>" ++ y) :
    n = n' ∧ v = v' ∧ x = y := by
  simp only [List.append_assoc] at h
  have h := List.append_cancel_left h
  simp only [List.cons_append, List.nil_append] at h
  obtain ⟨e1, h⟩ := noQuote_cancel h1 h3 h
  simp only [List.cons.injEq, true_and] at h
  obtain ⟨e2, h⟩ := noQuote_cancel h2 h4 h
  simp only [List.cons.injEq, true_and] at h
  exact ⟨e1, e2, h⟩

/-- C59, the part that holds: the form determines the parameters as long as no name or value contains a quote.
What is missing: `C59_form_injection`. -/
theorem C59_form_determines_parameters_partial (d e : Dict Str) (hd : ∀ p ∈ d, NoQuote p.1 ∧ NoQuote p.2)
    (he : ∀ p ∈ e, NoQuote p.1 ∧ NoQuote p.2) (h : formInputs d = formInputs e) : d = e := by
  induction d generalizing e with
  | nil =>
    cases e with
    | nil => rfl
    | cons p e => cases e <;> simp [formInputs, pyJoin] at h
  | cons p d ih =>
    obtain ⟨n, v⟩ := p
    cases e with
    | nil => cases d <;> simp [formInputs, pyJoin] at h
    | cons p' e =>
      obtain ⟨n', v'⟩ := p'
      obtain ⟨a1, a2⟩ := hd (n, v) (by simp)
      obtain ⟨b1, b2⟩ := he (n', v') (by simp)
      have shape : ∀ (q : Str × Str) (l : Dict Str), formInputs (q :: l) =
          c!"<input type=\"hidden\" name=\"" ++ q.1 ++ c!"\" value=\"" ++ q.2 ++ c!"\"/>" ++
            (if l = [] then [] else '\n' :: formInputs l) := by
        intro q l
        cases l with
        | nil => simp [formInputs, pyJoin]
        | cons q' l => simp [formInputs, pyJoin]
      rw [shape, shape] at h
      obtain ⟨e1, e2, e3⟩ := field_cancel a1 a2 b1 b2 h
      simp only at e1 e2
      subst e1 e2
      have : d = e := by
        by_cases k1 : d = []
        · by_cases k2 : e = []
          · rw [k1, k2]
          · simp [k1, k2] at e3
        · by_cases k2 : e = []
          · simp [k1, k2] at e3
          · simp [k1, k2] at e3
            exact ih e (fun p hp => hd p (by simp [hp])) (fun p hp => he p (by simp [hp])) e3
      rw [this]

/-- C59 is false: values are not escaped, so a `state` chosen by whoever started the request adds a field of its own to
the form: the two forms are the same text. -/
theorem C59_form_injection :
    formInputs [(c!"state", c!"x\"/>\n<input type=\"hidden\" name=\"code\" value=\"evil")] =
      formInputs [(c!"state", c!"x"), (c!"code", c!"evil")] := by
  decide

end Verif
