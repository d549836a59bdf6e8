import Verif.Model.ManagerOps
/-! `session/manager.py`: looking up sessions. -/
namespace Verif

/-- `SessionManager.get_user_session_info` (session/manager.py:193-205). -/
def getUserSessionInfo (s : Store) (sid : Str) : Except Exn SessInfo :=
  match unpack3 sid with
  | .error e => .error e
  | .ok (u, _, _) => match dbGet s [u] with
    | .error e => .error e
    | .ok (.info i) => if i.kind = .user then .ok i else .error .valueError
    | .ok (.grant _) => .error .valueError

/-- What `get_session_info` is asked for (session/manager.py:322-328). -/
structure InfoWants where
  userInfo : Bool := false
  clientInfo : Bool := false
  grant : Bool := false
  authnEvent : Bool := false
  authReq : Bool := false

/-- The dictionary `get_session_info` returns; an entry that is `none` is missing. -/
structure SessionAnswer where
  sid : Str
  userId : Str
  clientId : Str
  grantId : Str
  userInfo : Option Obj := none
  clientInfo : Option Obj := none
  grant : Option Obj := none
  authnEvent : Option (Option AuthnEvent) := none
  authReq : Option (Option AuthReq) := none
deriving DecidableEq

/-- A read made only if it is asked for. -/
def readIf (want : Bool) (r : Except Exn Obj) : Except Exn (Option Obj) :=
  if want then match r with
    | .error e => .error e
    | .ok o => .ok (some o)
  else .ok none

/-- `_grant.authentication_event` (session/manager.py:361); session info has no such attribute. -/
def Obj.authnEvent : Obj → Except Exn (Option AuthnEvent)
  | .grant g => .ok g.authnEvent
  | .info _ => .error .attributeError

/-- `_grant.authorization_request` (session/manager.py:364-370). -/
def Obj.authReq : Obj → Except Exn (Option AuthReq)
  | .grant g => .ok g.authReq
  | .info _ => .error .attributeError

/-- `res["grant"]["authentication_event"]` (session/manager.py:358): a grant is not subscriptable (`TypeError`), session info
has no such entry (`KeyError`). -/
def Obj.eventItem : Obj → Except Exn (Option AuthnEvent)
  | .grant _ => .error .typeError
  | .info _ => .error .keyError

/-- The `authentication_event` part (session/manager.py:356-361). -/
def eventPart (w : InfoWants) (r : Except Exn Obj) : Except Exn (Option (Option AuthnEvent)) :=
  if w.authnEvent then match r with
    | .error e => .error e
    | .ok o => match (if w.grant then o.eventItem else o.authnEvent) with
      | .error e => .error e
      | .ok v => .ok (some v)
  else .ok none

/-- The `authorization_request` part (session/manager.py:363-370); the three branches read the same object. -/
def requestPart (w : InfoWants) (r : Except Exn Obj) : Except Exn (Option (Option AuthReq)) :=
  if w.authReq then match r with
    | .error e => .error e
    | .ok o => match o.authReq with
      | .error e => .error e
      | .ok v => .ok (some v)
  else .ok none

/-- `SessionManager.get_session_info` (session/manager.py:322-372). -/
def getSessionInfo (s : Store) (sid : Str) (w : InfoWants) : Except Exn SessionAnswer :=
  match unpack3 sid with
  | .error e => .error e
  | .ok (u, c, g) => match readIf w.userInfo (dbGet s [u]) with
    | .error e => .error e
    | .ok ui => match readIf w.clientInfo (dbGet s [u, c]) with
      | .error e => .error e
      | .ok ci => match readIf w.grant (dbGet s [u, c, g]) with
        | .error e => .error e
        | .ok gr => match eventPart w (dbGet s [u, c, g]) with
          | .error e => .error e
          | .ok ev => match requestPart w (dbGet s [u, c, g]) with
            | .error e => .error e
            | .ok rq => .ok { sid := sid, userId := u, clientId := c, grantId := g, userInfo := ui, clientInfo := ci, grant := gr,
                              authnEvent := ev, authReq := rq }

/-- `get_session_info_by_token` (session/manager.py:374-388). -/
def getSessionInfoByToken (th : TokenHandler) (cr : TokenCrypto) (s : Store) (now : Int) (value : Str) (w : InfoWants) :
    Except Exn SessionAnswer :=
  match th.sid cr now value with
  | .error e => .error e
  | .ok sid => getSessionInfo s sid w

/-- `get_authentication_event` (session/manager.py:270-272). -/
def getAuthenticationEvent (s : Store) (sid : Str) : Except Exn (Option AuthnEvent) :=
  match getSessionInfo s sid { authnEvent := true } with
  | .error e => .error e
  | .ok a => match a.authnEvent with
    | none => .error .keyError
    | some v => .ok v

/-- `get_authorization_request` (session/manager.py:266-268). -/
def getAuthorizationRequest (s : Store) (sid : Str) : Except Exn (Option AuthReq) :=
  match getSessionInfo s sid { authReq := true } with
  | .error e => .error e
  | .ok a => match a.authReq with
    | none => .error .keyError
    | some v => .ok v

/-- How `grants` and `get_authentication_events` find out whom they are asked about (session/manager.py:255-260, 312-317). -/
def whoAsked (sid u c : Str) : Except Exn (Str × Str) :=
  if sid ≠ [] then match unpack3 sid with
    | .error e => .error e
    | .ok (u, c, _) => .ok (u, c)
  else if u ≠ [] ∧ c ≠ [] then .ok (u, c)
  else .error .attributeError

/-- The objects named by a client record (session/manager.py:262-264, 319-320). -/
def subordinates (s : Store) (u c : Str) : Except Exn (List Obj) :=
  match dbGet s [u, c] with
  | .error e => .error e
  | .ok ci => match ci.subordinate with
    | .error e => .error e
    | .ok l => readAll s u c l

/-- `SessionManager.grants` with all its arguments (session/manager.py:302-320). -/
def grantsOf (s : Store) (sid u c : Str) : Except Exn (List Obj) :=
  match whoAsked sid u c with
  | .error e => .error e
  | .ok (u, c) => subordinates s u c

/-- The attribute of each grant (session/manager.py:264). -/
def eventsIn : List Obj → Except Exn (List (Option AuthnEvent))
  | [] => .ok []
  | o :: os => match o.authnEvent with
    | .error e => .error e
    | .ok v => match eventsIn os with
      | .error e => .error e
      | .ok vs => .ok (v :: vs)

/-- `get_authentication_events` (session/manager.py:245-264). -/
def getAuthenticationEvents (s : Store) (sid u c : Str) : Except Exn (List (Option AuthnEvent)) :=
  match whoAsked sid u c with
  | .error e => .error e
  | .ok (u, c) => match subordinates s u c with
    | .error e => .error e
    | .ok os => eventsIn os

end Verif
