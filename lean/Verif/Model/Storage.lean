import Verif.Model.Database
/-! The storages that can be given to `session/database.py`'s `Database`: a `dict`, `in_memory_db.InMemoryDataBase`,
`shelve_db.ShelveDataBase`; and the methods of `Database` over any of them. -/
namespace Verif

/-- A storage: `_db[k]` (which may return `None`), `_db.__delitem__(k)`, and whether objects are handed out by reference.
`_db[k] = v` and `_db.get(k, default)` are the same for all of them. -/
structure Backend where
  mode : Mode
  getItem : Store → Str → Except Exn (Option Obj)
  delItem : Store → Str → Store × Except Exn Unit

/-- Deleting a key of a `dict`. -/
def dictDel (s : Store) (k : Str) : Store × Except Exn Unit :=
  match s k with
  | none => (s, .error .keyError)
  | some _ => (s.del k, .ok ())

/-- A `dict`, the default (session/database.py:23-27). -/
def dictBackend (m : Mode) : Backend where
  mode := m
  getItem s k := match s k with
    | none => .error .keyError
    | some o => .ok (some o)
  delItem := dictDel

/-- `InMemoryDataBase` (in_memory_db.py:6-40): a missing key reads as `None`; deleting one raises. -/
def inMemoryBackend : Backend where
  mode := .aliased
  getItem s k := .ok (s k)
  delItem := dictDel

/-- `ShelveDataBase` without write-back (shelve_db.py:4-50): a missing key reads as `None`, deleting one does nothing, and
objects are copies. -/
def shelveBackend : Backend where
  mode := .byValue
  getItem s k := .ok (s k)
  delItem s k := (s.del k, .ok ())

/-- `x['subordinate']`, where `x` may be `None`. -/
def subOf : Option Obj → Except Exn (List Str)
  | none => .error .typeError
  | some o => o.subordinate

/-- `Database.get` (session/database.py:70-100) over a storage; `none` is Python's `None`. -/
def getOn (b : Backend) (s : Store) (path : List Str) : Except Exn (Option Obj) :=
  match evalPath path with
  | .error e => .error e
  | .ok (u, c, g) =>
    match b.getItem s u with
    | .error _ => .error .keyError
    | .ok none => .error .keyError
    | .ok (some ui) =>
      match c with
      | none => .ok (some ui)
      | some c =>
        match ui.subordinate with
        | .error e => .error e
        | .ok usub =>
          if c ∉ usub then .error .valueError
          else match b.getItem s (sessionKey [u, c]) with
          | .error _ => .error .noSuchClientSession
          | .ok ci =>
            match g with
            | none => .ok ci
            | some g =>
              match subOf ci with
              | .error e => .error e
              | .ok csub =>
                if g ∉ csub then .error .valueError
                else match b.getItem s (sessionKey [u, c, g]) with
                | .error _ => .error .noSuchGrant
                | .ok o => .ok o

/-- The loop over the grants in `Database.delete` (session/database.py:123-125) over a storage. -/
def delGrantsOn (b : Backend) (s : Store) (u c : Str) : List Str → Store × Except Exn Unit
  | [] => (s, .ok ())
  | g :: gs =>
    let r := b.delItem s (sessionKey [u, c, g])
    match r.2 with
    | .error e => (r.1, .error e)
    | .ok () => delGrantsOn b r.1 u c gs

/-- The end of `Database.delete` (session/database.py:134-137) over a storage. -/
def delUserOn (b : Backend) (s : Store) (u : Str) (ui : Obj) (usub : List Str) : Store × Except Exn Unit :=
  if usub = [] then b.delItem s u else (s.put u (ui.setSubordinate usub), .ok ())

/-- `Database.delete` (session/database.py:102-141) over a storage.  The first `__delitem__` ignores `KeyError`. -/
def deleteOn (b : Backend) (s : Store) (path : List Str) : Store × Except Exn Unit :=
  match evalPath path with
  | .error e => (s, .error e)
  | .ok (u, c, g) =>
    match b.getItem s u with
    | .error _ => (s, .ok ())
    | .ok ui =>
      if truthy c = false then b.delItem s u
      else
        let c := c.getD []
        match subOf ui with
        | .error e => (s, .error e)
        | .ok usub =>
          if c ∉ usub then (s, .ok ())
          else match b.getItem s (sessionKey [u, c]) with
          | .error _ => delUserOn b s u (ui.getD (.info SessInfo.user)) usub
          | .ok ci =>
            match subOf ci with
            | .error e => (s, .error e)
            | .ok csub =>
              let o := ci.getD (.info SessInfo.client)
              let r : Store × List Str × Except Exn Unit :=
                if truthy g then
                  let g := g.getD []
                  if g ∈ csub then
                    let s1 := (b.delItem s (sessionKey [u, c, g])).1
                    let csub1 := csub.erase g
                    (if b.mode = .aliased then s1.put (sessionKey [u, c]) (o.setSubordinate csub1) else s1, csub1, .ok ())
                  else (s, csub, .ok ())
                else
                  let d := delGrantsOn b s u c csub
                  (d.1, [], d.2)
              match r.2.2 with
              | .error e => (r.1, .error e)
              | .ok () =>
                if r.2.1 = [] then
                  let d := b.delItem r.1 (sessionKey [u, c])
                  match d.2 with
                  | .error e => (d.1, .error e)
                  | .ok () => delUserOn b d.1 u (ui.getD (.info SessInfo.user)) (usub.erase c)
                else delUserOn b (r.1.put c (o.setSubordinate r.2.1)) u (ui.getD (.info SessInfo.user)) usub

end Verif
