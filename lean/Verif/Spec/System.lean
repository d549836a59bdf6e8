import Verif.Model.System
/-! Which histories of the provider are considered. -/
namespace Verif.Spec

/-- The grant id (`uuid1().hex`) that a step uses if it creates a grant. -/
def newGid : SysOp → List Str
  | .authorize _ _ gid _ _ _ _ _ => [gid]
  | .createSession _ gid _ _ _ => [gid]
  | .createGrant _ gid _ _ _ => [gid]
  | .addGrant _ gid _ _ _ => [gid]
  | .crash op _ => newGid op
  | _ => []

/-- The authorization requests that a step may record in a new grant. -/
def newReqs : SysOp → List AuthReq
  | .authorize _ _ _ _ _ _ _ req => [req]
  | .createSession _ _ _ _ a => [a.authReq]
  | .createGrant _ _ _ _ a => [a.authReq]
  | .addGrant _ _ _ _ a => a.authReq.toList
  | .crash op _ => newReqs op
  | _ => []

/-- The authentication event of a user who logs in at `now`: it is valid for as long as the authentication method says, or
an hour. -/
def loginEvent (now : Int) (u : Str) (a : AuthnIn) : AuthnEvent :=
  { uid := u, authnInfo := a.acr, authnTime := now,
    validUntil := now + (match a.expiresIn with
      | some e => if e = 0 then 3600 else e
      | none => 3600) }

/-- The step logs in the user `u` at the client `c` and makes the grant `gid` for that, with authentication event `ev` and
subject identifier `sub`: at the authorization endpoint after authentication, or with the cookie of an earlier session, whose
authentication event is used; or the application calls the session manager. -/
inductive LogsIn (env : Env) (s : Store) : SysOp → (u c gid : Str) → (ev : Option AuthnEvent) → (sub : Str) → Prop
  | login : a.ident = .plain u → env.sf c!"public" = some f →
      LogsIn env s (.authorize cdb now gid mc ma idt a req) u req.clientId gid (some (loginEvent now u a)) (f u req.sectorIdentifierUri)
  | returning : a.ident = .decoded (some u) (some sid) → getGrant s sid = .ok g0 → env.sf c!"public" = some f →
      LogsIn env s (.authorize cdb now gid mc ma idt a req) u req.clientId gid g0.authnEvent (f u req.sectorIdentifierUri)
  | session : env.sf a.subType = some f → LogsIn env s (.createSession now gid u c a) u (if c = [] then a.authReq.clientId else c) gid
      a.authnEvent (f u a.authReq.sectorIdentifierUri)
  | grant : env.sf a.subType = some f →
      LogsIn env s (.createGrant now gid u c a) u c gid a.authnEvent (f u a.authReq.sectorIdentifierUri)
  | add : LogsIn env s (.addGrant now gid u c a) u c gid a.authnEvent a.sub
  | killed : LogsIn env s op u c gid ev sub → LogsIn env s (.crash op n) u c gid ev sub

/-- Callers of the session manager do not give the new grant a scope of their own (the endpoints never do). -/
def NoScopeGiven : SysOp → Prop
  | .createSession _ _ _ _ a => a.scopes = []
  | .createGrant _ _ _ _ a => a.scopes = []
  | .addGrant _ _ _ _ a => a.scope = []
  | .crash op _ => NoScopeGiven op
  | _ => True

/-- Callers of the session manager set no limit on the number of uses of a session. -/
def NoLimitGiven : SysOp → Prop
  | .createSession _ _ _ _ a => a.maxUsage = none
  | .createGrant _ _ _ _ a => a.maxUsage = none
  | .addGrant _ _ _ _ a => a.maxUsage = none
  | .crash op _ => NoLimitGiven op
  | _ => True

/-- Grants that callers hand to the session manager are new: without tokens, with the standard token types. -/
def PlainGrants : SysOp → Prop
  | .addGrant _ _ _ _ a => a.issuedToken = [] ∧ a.tokenMap = none
  | .crash op _ => PlainGrants op
  | _ => True

/-- Grant ids are unique, not empty and contain no semicolon (they are hexadecimal UUIDs).  Everything else in a history is
arbitrary: user ids, client ids, tokens presented, clocks, failures. -/
structure FreshRun (ops : List SysOp) : Prop where
  nodup : (ops.flatMap newGid).Nodup
  good : ∀ gid ∈ ops.flatMap newGid, gid ≠ [] ∧ ';' ∉ gid
  plain : ∀ op ∈ ops, PlainGrants op

/-- The token strings the configured handlers make contain no blanks (they are base64 text or JWTs). -/
def BlankFree (env : Env) : Prop :=
  ∀ h, (env.th.code = some h ∨ env.th.accessToken = some h) →
    ∀ now rnd nonce sid ttype, ' ' ∉ handlerCall env.cr h now rnd nonce sid ttype

/-- The token response produced by the `i`-th step of a history, with the request it answers. -/
def responseAt (cfg : SysCfg) (ops : List SysOp) (i : Nat) : Option (TokReq × TokResp) :=
  match ops[i]? with
  | none => none
  | some op => sysResponse cfg (sysRun cfg (ops.take i)) op

end Verif.Spec
