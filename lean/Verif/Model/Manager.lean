import Verif.Model.Database
import Verif.Model.TokenString
/-! `session/manager.py`: the session manager. -/
namespace Verif

/-- The subject identifier functions by type, with the manager's salt already applied (session/manager.py:26-35, 46-61). -/
abbrev SubFuncs := Str → Option (Str → Option Str → Str)

/-- Unpacking a session key into three variables; `ValueError` if there are not three. -/
def unpack3 (sid : Str) : Except Exn (Str × Str × Str) :=
  match unpackSessionKey sid with
  | [u, c, g] => .ok (u, c, g)
  | _ => .error .valueError

/-- What a caller of `create_grant`/`create_session` supplies (session/manager.py:85-93, 123-131). `usageRules`/`maxUsage`
together are `token_usage_rules`. -/
structure SessArgs where
  authnEvent : Option AuthnEvent := none
  authReq : AuthReq
  subType : Str := c!"public"
  usageRules : Dict UsageRules := []
  maxUsage : Option Int := none
  scopes : List Str := []

/-- The grant built by `create_grant` (session/manager.py:105-117); `gid` is the grant's `uuid1().hex`.
`KeyError` for an unknown subject type. -/
def newGrant (sf : SubFuncs) (now : Int) (gid u : Str) (a : SessArgs) : Except Exn Grant :=
  match sf a.subType with
  | none => .error .keyError
  | some f => .ok (Grant.new now gid
      { authReq := some a.authReq, authnEvent := a.authnEvent, sub := f u a.authReq.sectorIdentifierUri,
        usageRules := a.usageRules, maxUsage := a.maxUsage, scope := a.scopes })

/-- `SessionManager.create_grant` (session/manager.py:85-121). -/
def createGrant (sf : SubFuncs) (s : Store) (now : Int) (gid u c : Str) (a : SessArgs) : Store × Except Exn Str :=
  match newGrant sf now gid u a with
  | .error e => (s, .error e)
  | .ok g =>
    let r := dbSet s [u, c, gid] (.grant g)
    match r.2 with
    | .error e => (r.1, .error e)
    | .ok () => (r.1, .ok (sessionKey [u, c, gid]))

/-- First part of `create_session` (session/manager.py:149-153): the user record is created if it is missing. -/
def ensureUser (s : Store) (u : Str) : Store × Except Exn Unit :=
  match dbGet s [u] with
  | .ok _ => (s, .ok ())
  | .error e => if e.isKeyError then dbSet s [u] (.info (SessInfo.user u)) else (s, .error e)

/-- `SessionManager.create_session` (session/manager.py:123-171). -/
def createSession (sf : SubFuncs) (s : Store) (now : Int) (gid u c : Str) (a : SessArgs) : Store × Except Exn Str :=
  let s1 := ensureUser s u
  match s1.2 with
  | .error e => (s1.1, .error e)
  | .ok () =>
    let c := if c = [] then a.authReq.clientId else c
    let s2 := dbSet s1.1 [u, c] (.info (SessInfo.client c))
    match s2.2 with
    | .error e => (s2.1, .error e)
    | .ok () => createGrant sf s2.1 now gid u c a

/-- `manager[session_id]` (session/manager.py:173-174). -/
def mgrGet (s : Store) (sid : Str) : Except Exn Obj := dbGet s (unpackSessionKey sid)

/-- `manager[session_id] = value` (session/manager.py:176-177). -/
def mgrSet (s : Store) (sid : Str) (v : Obj) : Store × Except Exn Unit := dbSet s (unpackSessionKey sid) v

/-- `SessionManager.get_grant` (session/manager.py:207-219). -/
def getGrant (s : Store) (sid : Str) : Except Exn Grant :=
  match unpack3 sid with
  | .error e => .error e
  | .ok (u, c, g) => match dbGet s [u, c, g] with
    | .error e => .error e
    | .ok (.grant g) => .ok g
    | .ok (.info _) => .error .valueError

/-- `SessionManager.get_client_session_info` (session/manager.py:179-191). -/
def getClientSessionInfo (s : Store) (sid : Str) : Except Exn SessInfo :=
  match unpack3 sid with
  | .error e => .error e
  | .ok (u, c, _) => match dbGet s [u, c] with
    | .error e => .error e
    | .ok (.info i) => if i.kind = .client then .ok i else .error .valueError
    | .ok (.grant _) => .error .valueError

/-- `SessionManager.find_token` (session/manager.py:70-83): the grant and the token found.  An object that is not a
grant has no `issued_token` (`AttributeError`). -/
def findToken (s : Store) (sid value : Str) : Except Exn (Grant × Option Token) :=
  match unpack3 sid with
  | .error e => .error e
  | .ok (u, c, g) => match dbGet s [u, c, g] with
    | .error e => .error e
    | .ok (.grant gr) => .ok (gr, gr.getToken value)
    | .ok (.info _) => .error .attributeError

/-- `SessionManager.revoke_token` (session/manager.py:227-243).  Nothing is written back: with a back end that hands out
copies the change is lost.  `limit` is the interpreter's recursion limit. -/
def revokeToken (m : Mode) (s : Store) (limit : Nat) (sid value : Str) (recursive : Bool) : Store × Except Exn Unit :=
  match findToken s sid value with
  | .error e => (s, .error e)
  | .ok (_, none) => (s, .error .unknownToken)
  | .ok (g, some _) =>
    let l1 := updateFirst value Token.revoke g.issuedToken
    let r := if recursive then revokeDependentL limit value l1 else (l1, true)
    let s' := match m with
      | .aliased => s.put sid (.grant { g with issuedToken := r.1 })
      | .byValue => s
    (s', if r.2 then .ok () else .error .recursionError)

/-- `SessionManager.revoke_client_session` (session/manager.py:274-289).  A grant's `revoke` returns `None`; storing it is
left out (`TypeError` here), as no client key ever holds a grant. -/
def revokeClientSession (s : Store) (sid : Str) : Store × Except Exn Unit :=
  let go (u c : Str) : Store × Except Exn Unit :=
    match dbGet s [u, c] with
    | .error e => (s, .error e)
    | .ok (.grant _) => (s, .error .typeError)
    | .ok (.info i) => dbSet s [u, c] (.info i.revoke)
  match unpackSessionKey sid with
  | [u, c] => go u c
  | [u, c, _] => go u c
  | _ => (s, .error .valueError)

/-- `obj.revoke()` in place. -/
def Obj.revoke : Obj → Obj
  | .info i => .info i.revoke
  | .grant g => .grant g.revoke

/-- `SessionManager.revoke_grant` (session/manager.py:291-300). -/
def revokeGrant (s : Store) (sid : Str) : Store × Except Exn Unit :=
  match dbGet s (unpackSessionKey sid) with
  | .error e => (s, .error e)
  | .ok o => dbSet s (unpackSessionKey sid) o.revoke

/-- Reading a list of grants, in order; the first failing read raises. -/
def readAll (s : Store) (u c : Str) : List Str → Except Exn (List Obj)
  | [] => .ok []
  | g :: gs => match dbGet s [u, c, g] with
    | .error e => .error e
    | .ok o => match readAll s u c gs with
      | .error e => .error e
      | .ok os => .ok (o :: os)

/-- `SessionManager.grants` (session/manager.py:302-320) for a user and client (both non-empty). -/
def grants (s : Store) (u c : Str) : Except Exn (List Obj) :=
  if u = [] ∨ c = [] then .error .attributeError
  else match dbGet s [u, c] with
  | .error e => .error e
  | .ok ci => match ci.subordinate with
    | .error e => .error e
    | .ok l => readAll s u c l

/-- `SessionManager.add_grant` (session/manager.py:394-409).  `claims` is not among `Grant.attributes` (which says `claim`),
so it is dropped. -/
def addGrant (s : Store) (now : Int) (gid u c : Str) (a : GrantArgs) : Store × Except Exn Grant :=
  let g := Grant.new now gid { a with claims := [] }
  let r := dbSet s [u, c, gid] (.grant g)
  match r.2 with
  | .error e => (r.1, .error e)
  | .ok () => match dbGet r.1 [u, c] with
    | .error e => (r.1, .error e)
    | .ok (.grant _) => (r.1, .error .typeError)
    | .ok (.info i) =>
      let r2 := dbSet r.1 [u, c] (.info { i with subordinate := i.subordinate ++ [gid] })
      match r2.2 with
      | .error e => (r2.1, .error e)
      | .ok () => (r2.1, .ok g)

/-- `SessionManager.remove_session` (session/manager.py:430-432). -/
def removeSession (m : Mode) (s : Store) (sid : Str) : Store × Except Exn Unit :=
  match unpack3 sid with
  | .error e => (s, .error e)
  | .ok (u, c, g) => dbDelete m s [u, c, g]

/-- `get_session_info_by_token(value, grant=True)` (session/manager.py:374-388, 322-372): the session id and the object
stored as the grant. -/
def sessionByToken (th : TokenHandler) (cr : TokenCrypto) (s : Store) (now : Int) (value : Str) :
    Except Exn (Str × Obj) :=
  match th.sid cr now value with
  | .error e => .error e
  | .ok sid => match unpack3 sid with
    | .error e => .error e
    | .ok (u, c, g) => match dbGet s [u, c, g] with
      | .error e => .error e
      | .ok o => .ok (sid, o)

end Verif
