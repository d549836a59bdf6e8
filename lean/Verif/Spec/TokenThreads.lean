import Verif.Model.TokenThreads
/-! What "nothing is lost and nothing is taken back" means for grants and tokens. -/
namespace Verif.Spec

/-- `t'` is the token `t` at a later time. -/
structure LaterToken (t t' : Token) : Prop where
  value : t'.value = t.value
  kind : t'.kind = t.kind
  basedOn : t'.basedOn = t.basedOn
  staysRevoked : t.revoked = true → t'.revoked = true
  usesCount : t.used ≤ t'.used

/-- `g'` is the grant `g` at a later time: once revoked it is revoked, and its tokens are there, in their places; a code (if codes are what
the default says) has the usage rules it had. -/
structure LaterGrant (g g' : Grant) : Prop where
  staysRevoked : g.revoked = true → g'.revoked = true
  scope : g'.scope = g.scope
  tokenMap : g'.tokenMap = g.tokenMap
  tokens : ∀ (n : Nat) (t : Token), g.issuedToken[n]? = some t → ∃ t', g'.issuedToken[n]? = some t' ∧ LaterToken t t' ∧
    (g.tokenMap = defaultTokenMap → t.kind = .authorizationCode → t'.usageRules = t.usageRules)

/-- All grants stored in `s` are in `s'`, at a later time. -/
def LaterStore (s s' : Store) : Prop :=
  ∀ sid g, s sid = some (.grant g) → ∃ g', s' sid = some (.grant g') ∧ LaterGrant g g'

/-- A token with this value is stored. -/
def TokenStored (s : Store) (v : Str) : Prop :=
  ∃ sid g t, s sid = some (.grant g) ∧ t ∈ g.issuedToken ∧ t.value = v

/-- The token with this value in this session is revoked, or the whole grant is. -/
def RevokedIn (s : Store) (sid v : Str) : Prop :=
  ∃ g, s sid = some (.grant g) ∧ (g.revoked = true ∨ ∃ t, g.getToken v = some t ∧ t.revoked = true)

/-- The code with this value in this session, which can be used once, has been used. -/
def SpentIn (s : Store) (sid v : Str) : Prop :=
  ∃ g t, s sid = some (.grant g) ∧ g.tokenMap = defaultTokenMap ∧ g.getToken v = some t ∧ t.kind = .authorizationCode ∧
    t.usageRules.maxUsage = some 1 ∧ 1 ≤ t.used

/-- The tokens in the answer of a thread, if it has one. -/
def answerTokens : JobPc → List Str
  | .code (.done (.val r)) => r.accessToken :: r.refreshToken.toList
  | .refresh (.done (.val r)) => r.accessToken :: r.refreshToken.toList
  | _ => []

/-- Revocations of grants name grants: session ids with three parts.  And a login has names for the user and the client, and a grant id,
that no grant in the storage is stored under: user ids, client ids and session ids are different things, and the grant id is new. -/
def EventOk (s : Store) : JobEv → Prop
  | .revokeGrant sid => ∃ u c g, unpackSessionKey sid = [u, c, g] ∧ g ≠ []
  | .login _ _ gid u c _ => c ≠ [] ∧ gid ≠ [] ∧
    ∀ g, s (sessionKey [u]) ≠ some (.grant g) ∧ s (sessionKey [u, c]) ≠ some (.grant g) ∧ s (sessionKey [u, c, gid]) ≠ some (.grant g)
  | _ => True

/-- All events of a schedule are so, when they happen. -/
def Orderly (m : Mode) (env : Env) (i : Nat → TokIn) (req : Nat → TokReq) : Jobs → List JobEv → Prop
  | _, [] => True
  | x, ev :: evs => EventOk x.store ev ∧ Orderly m env i req (jobStep m env i req x ev) evs

end Verif.Spec
