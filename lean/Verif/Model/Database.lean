import Verif.Model.Grant
import Verif.Model.Keys
/-! `session/info.py` and `session/database.py`: the flat session storage. -/
namespace Verif

/-- Which class a session record has (session/info.py:47-67). -/
inductive InfoKind where
  | user
  | client
deriving DecidableEq, Repr

/-- `SessionInfo` (session/info.py:15-46): `ident` is `user_id` or `client_id`. -/
structure SessInfo where
  kind : InfoKind
  ident : Str
  subordinate : List Str
  revoked : Bool
deriving DecidableEq, Repr

/-- `UserSessionInfo(user_id=..)`, `ClientSessionInfo(client_id=..)`; without arguments the id is missing (here `[]`). -/
def SessInfo.user (id : Str := []) : SessInfo := ⟨.user, id, [], false⟩
def SessInfo.client (id : Str := []) : SessInfo := ⟨.client, id, [], false⟩

/-- `add_subordinate` (session/info.py:29-32). -/
def SessInfo.addSubordinate (i : SessInfo) (v : Str) : SessInfo :=
  if v ∈ i.subordinate then i else { i with subordinate := i.subordinate ++ [v] }

/-- `SessionInfo.revoke` (session/info.py:38-40). -/
def SessInfo.revoke (i : SessInfo) : SessInfo := { i with revoked := true }

/-- What the storage holds. -/
inductive Obj where
  | info (i : SessInfo)
  | grant (g : Grant)
deriving DecidableEq, Repr

/-- The storage: `Database._db` (session/database.py:22-27), a mapping that raises `KeyError` for missing keys.
Simplification: the wrappers `in_memory_db.InMemoryDataBase` and `shelve_db.ShelveDataBase` return `None` instead. -/
abbrev Store := Str → Option Obj

def Store.empty : Store := fun _ => none

/-- `_db[k] = v`. -/
def Store.put (s : Store) (k : Str) (v : Obj) : Store := fun k' => if k' = k then some v else s k'

/-- `_db.__delitem__(k)` for a key that is present. -/
def Store.del (s : Store) (k : Str) : Store := fun k' => if k' = k then none else s k'

/-- How the back end hands out objects: a `dict` returns the stored object itself, so that changing it changes the
storage (`aliased`); a persistent one returns a copy (`byValue`). -/
inductive Mode where
  | aliased
  | byValue
deriving DecidableEq, Repr

/-- `obj['subordinate']` (`TypeError` if the object is a grant). -/
def Obj.subordinate : Obj → Except Exn (List Str)
  | .info i => .ok i.subordinate
  | .grant _ => .error .typeError

/-- `Database._eval_path` (session/database.py:29-39); `IndexError` for the empty path. -/
def evalPath : List Str → Except Exn (Str × Option Str × Option Str)
  | [] => .error .indexError
  | [u] => .ok (u, none, none)
  | [u, c] => .ok (u, some c, none)
  | u :: c :: g :: _ => .ok (u, some c, some g)

/-- Is this optional string truthy (`if x:`)? -/
def truthy : Option Str → Bool
  | some (_ :: _) => true
  | _ => false

/-- Second block of `Database.set` (session/database.py:54-61), for a truthy client id. -/
def dbSetClient (s : Store) (u c : Str) (g : Option Str) (v : Obj) : Store × Except Exn Unit :=
  let key := sessionKey [u, c]
  match g with
  | some (g0 :: gs) =>
    let g := g0 :: gs
    match s key with
    | none => (s.put key (.info (SessInfo.client.addSubordinate g)), .ok ())
    | some (.grant _) => (s, .error .typeError)
    | some (.info i) => if g ∈ i.subordinate then (s, .ok ()) else (s.put key (.info (i.addSubordinate g)), .ok ())
  | _ => (s.put key v, .ok ())

/-- Last block of `Database.set` (session/database.py:63-68). -/
def dbSetUser (s : Store) (u : Str) (c : Option Str) (v : Obj) : Store × Except Exn Unit :=
  match c with
  | none => (s.put u v, .ok ())
  | some [] => (s, .ok ())
  | some (c0 :: cs) =>
    let c := c0 :: cs
    match s u with
    | none => (s.put u (.info (SessInfo.user.addSubordinate c)), .ok ())
    | some (.grant _) => (s, .error .typeError)
    | some (.info i) => if c ∈ i.subordinate then (s, .ok ()) else (s.put u (.info (i.addSubordinate c)), .ok ())

/-- `Database.set` (session/database.py:41-68). -/
def dbSet (s : Store) (path : List Str) (v : Obj) : Store × Except Exn Unit :=
  match evalPath path with
  | .error e => (s, .error e)
  | .ok (u, c, g) =>
    let s1 := if truthy g then s.put (sessionKey [u, c.getD [], g.getD []]) v else s
    let r := if truthy c then dbSetClient s1 u (c.getD []) g v else (s1, .ok ())
    match r.2 with
    | .error e => (r.1, .error e)
    | .ok () => dbSetUser r.1 u c v

/-- `Database.get` (session/database.py:70-100). -/
def dbGet (s : Store) (path : List Str) : Except Exn Obj :=
  match evalPath path with
  | .error e => .error e
  | .ok (u, c, g) =>
    match s u with
    | none => .error .keyError
    | some ui =>
      match c with
      | none => .ok ui
      | some c =>
        match ui.subordinate with
        | .error e => .error e
        | .ok usub =>
          if c ∉ usub then .error .valueError
          else match s (sessionKey [u, c]) with
          | none => .error .noSuchClientSession
          | some ci =>
            match g with
            | none => .ok ci
            | some g =>
              match ci.subordinate with
              | .error e => .error e
              | .ok csub =>
                if g ∉ csub then .error .valueError
                else match s (sessionKey [u, c, g]) with
                | none => .error .noSuchGrant
                | some o => .ok o

/-- The loop over the grants of a client session in `Database.delete` (session/database.py:121-124); stops with
`KeyError` at a grant that is not in the storage. -/
def dbDelGrants (s : Store) (u c : Str) : List Str → Store × Except Exn Unit
  | [] => (s, .ok ())
  | g :: gs =>
    match s (sessionKey [u, c, g]) with
    | none => (s, .error .keyError)
    | some _ => dbDelGrants (s.del (sessionKey [u, c, g])) u c gs

/-- `obj['subordinate'] = l`. -/
def Obj.setSubordinate (l : List Str) : Obj → Obj
  | .info i => .info { i with subordinate := l }
  | .grant g => .grant g

/-- The end of `Database.delete` (session/database.py:132-135): the user record with the remaining clients. -/
def dbDelUserPart (s : Store) (u : Str) (ui : Obj) (usub : List Str) : Store :=
  if usub = [] then s.del u else s.put u (ui.setSubordinate usub)

/-- `Database.delete` (session/database.py:102-141).  `list.remove` removes the first occurrence. -/
def dbDelete (m : Mode) (s : Store) (path : List Str) : Store × Except Exn Unit :=
  match evalPath path with
  | .error e => (s, .error e)
  | .ok (u, c, g) =>
    match s u with
    | none => (s, .ok ())
    | some ui =>
      if truthy c = false then (s.del u, .ok ())
      else
        let c := c.getD []
        match ui.subordinate with
        | .error e => (s, .error e)
        | .ok usub =>
          if c ∉ usub then (s, .ok ())
          else match s (sessionKey [u, c]) with
          | none => (dbDelUserPart s u ui usub, .ok ())
          | some ci =>
            match ci.subordinate with
            | .error e => (s, .error e)
            | .ok csub =>
              -- lines 112-124
              let r : Store × List Str × Except Exn Unit :=
                if truthy g then
                  let g := g.getD []
                  if g ∈ csub then
                    let s1 := s.del (sessionKey [u, c, g])
                    let csub1 := csub.erase g
                    (if m = .aliased then s1.put (sessionKey [u, c]) (ci.setSubordinate csub1) else s1, csub1, .ok ())
                  else (s, csub, .ok ())
                else
                  let d := dbDelGrants s u c csub
                  (d.1, [], d.2)
              match r.2.2 with
              | .error e => (r.1, .error e)
              | .ok () =>
                -- lines 126-130
                if r.2.1 = [] then
                  (dbDelUserPart (r.1.del (sessionKey [u, c])) u ui (usub.erase c), .ok ())
                else
                  (dbDelUserPart (r.1.put c (ci.setSubordinate r.2.1)) u ui usub, .ok ())

end Verif
