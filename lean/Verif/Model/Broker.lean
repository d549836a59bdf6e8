import Verif.Model.Types
/-! `user_authn/authn_context.py`: the registry of authentication methods. -/
namespace Verif

/-- An entry of the broker: the class reference and the method (other configuration is left out). -/
structure AuthnEntry where
  acr : Str
  method : Str
deriving DecidableEq, Repr

/-- `AuthnBroker` (user_authn/authn_context.py:23-26). -/
structure Broker where
  db : Dict AuthnEntry
  acr2id : Dict (List Str)
deriving DecidableEq, Repr

def Broker.empty : Broker := ⟨[], []⟩

/-- `AuthnBroker.__setitem__` (user_authn/authn_context.py:28-43); an entry without "acr" or "method" is a `ValueError`. -/
def Broker.setItem (b : Broker) (key : Str) (acr method : Option Str) : Broker × Except Exn Unit :=
  match acr, method with
  | some a, some m =>
    (⟨b.db.set key ⟨a, m⟩, b.acr2id.set a ((b.acr2id.get? a).getD [] ++ [key])⟩, .ok ())
  | _, _ => (b, .error .valueError)

/-- `AuthnBroker.__delitem__` (user_authn/authn_context.py:45-50).  `list.remove` of a missing element is a `ValueError`,
raised after the entry is gone. -/
def Broker.delItem (b : Broker) (key : Str) : Broker × Except Exn Unit :=
  match b.db.get? key with
  | none => (b, .error .keyError)
  | some e =>
    let db := b.db.erase key
    match b.acr2id.get? e.acr with
    | none => (⟨db, b.acr2id⟩, .error .keyError)
    | some ids =>
      if key ∉ ids then (⟨db, b.acr2id⟩, .error .valueError)
      else
        let ids' := ids.erase key
        if ids' = [] then (⟨db, b.acr2id.erase e.acr⟩, .ok ())
        else (⟨db, b.acr2id.set e.acr ids'⟩, .ok ())

/-- `[self.db[_i] for _i in _ids]`. -/
def Broker.entries (b : Broker) : List Str → Except Exn (List AuthnEntry)
  | [] => .ok []
  | i :: is => match b.db.get? i with
    | none => .error .keyError
    | some e => match b.entries is with
      | .error x => .error x
      | .ok l => .ok (e :: l)

/-- `AuthnBroker.pick` with a class reference (user_authn/authn_context.py:55-62, 80-93). -/
def Broker.pick (b : Broker) (acr : Str) : Except Exn (List AuthnEntry) :=
  match b.acr2id.get? acr with
  | none => .ok []
  | some ids => b.entries ids

/-- `AuthnBroker.default` (user_authn/authn_context.py:106-110). -/
def Broker.default (b : Broker) : Option AuthnEntry := (b.db.head?).map (·.2)

/-- `AuthnBroker.get_acr_values` (user_authn/authn_context.py:95-97). -/
def Broker.acrValues (b : Broker) : List Str := b.db.map (·.2.acr)

/-- Iterating over a JSON value (`for acr in acrs`): the elements of a list, the keys of a dictionary, the characters of a
string. -/
def Val.iter : Val → Except Exn (List Val)
  | .lnil => .ok []
  | .lcons h t => match t.iter with
    | .ok l => .ok (h :: l)
    | .error e => .error e
  | .dnil => .ok []
  | .dcons k _ r => match r.iter with
    | .ok l => .ok (.str k :: l)
    | .error e => .error e
  | .str s => .ok (s.map fun c => .str [c])
  | _ => .error .typeError

/-- `authn_broker.pick(acr)` for a JSON value: lists and dictionaries cannot be keys (`TypeError`); numbers and booleans are
no keys; with `None` all entries are returned as a dictionary view, and taking its first element is a `TypeError` if there
is one (user_authn/authn_context.py:89-93, 151-159). -/
def Broker.pickVal (b : Broker) : Val → Except Exn (List AuthnEntry)
  | .str s => b.pick s
  | .bool _ => .ok []
  | .int _ => .ok []
  | .null => if b.db = [] then .ok [] else .error .typeError
  | _ => .error .typeError

/-- `areq["claims"]["id_token"]["acr"]["values"]` (user_authn/authn_context.py:129). -/
def claimsAcr (c : Option (Dict Claims)) : Except Exn Val :=
  match c with
  | none => .error .keyError
  | some d => match d.get? c!"id_token" with
    | none => .error .keyError
    | some cl => match Dict.get? cl c!"acr" with
      | none => .error .keyError
      | some none => .error .typeError
      | some (some spec) => match Dict.get? spec c!"values" with
        | none => .error .keyError
        | some v => .ok v

/-- What `pick_auth` reads: `acr_values` (`[]` if absent), `claims`, the "acr" of a verified `id_token_hint`, and the class
references that `login_hint2acrs` gives for the login hint (`none` if there is no such function or no hint). -/
structure PickReq where
  acrValues : List Str := []
  claims : Option (Dict Claims) := none
  hint : Option (Option Str) := none
  loginHintAcrs : Option (List Str) := none

/-- The loop at the end of `pick_auth` (user_authn/authn_context.py:150-159), with `all=False`. -/
def Broker.firstMatch (b : Broker) : List Val → Except Exn (Option AuthnEntry)
  | [] => .ok none
  | a :: as => match b.pickVal a with
    | .error e => .error e
    | .ok [] => b.firstMatch as
    | .ok (e :: _) => .ok (some e)

/-- A caught `KeyError` (user_authn/authn_context.py:161-164). -/
def catchKey (r : Except Exn (Option AuthnEntry)) : Except Exn (Option AuthnEntry) :=
  match r with
  | .error e => if e.isKeyError then .ok none else .error e
  | .ok x => .ok x

/-- `pick_auth` (user_authn/authn_context.py:111-166). -/
def pickAuth (b : Broker) (r : PickReq) : Except Exn (Option AuthnEntry) :=
  if b.db.length = 1 then .ok b.default
  else if r.acrValues ≠ [] then catchKey (b.firstMatch (r.acrValues.map .str))
  else match claimsAcr r.claims with
    | .ok v => match v.iter with
      | .error e => .error e
      | .ok l => catchKey (b.firstMatch l)
    | .error e =>
      if e.isKeyError then
        let acrs : List Str := match r.hint with
          | some a => a.toList
          | none => r.loginHintAcrs.getD []
        if acrs = [] then .ok b.default else catchKey (b.firstMatch (acrs.map .str))
      else .error e

/-- `pick_authn_method` followed by the first lines of `setup_auth` (oauth2/authorization.py:444-462, 476-479): the method
and class reference used.  A list of entries has no item "method" (`TypeError`), and the error dictionary has none either
(`KeyError`).  `authId` and `acr` are keyword arguments that an application may pass on. -/
def setupMethod (b : Broker) (authId acr : Option Str) (r : PickReq) : Except Exn AuthnEntry :=
  match authId with
  | some (i0 :: i) => match b.db.get? (i0 :: i) with
    | none => .error .keyError
    | some e => .ok e
  | _ => match acr with
    | some (a0 :: a) => match b.pick (a0 :: a) with
      | .error e => .error e
      | .ok [] => .error .keyError
      | .ok (_ :: _) => .error .typeError
    | _ => match pickAuth b r with
      | .error e => .error e
      | .ok none => .error .keyError
      | .ok (some e) => .ok e

/-- A change of the broker. -/
inductive BrokerOp where
  | set (key : Str) (acr method : Option Str)
  | del (key : Str)

/-- The broker after a change, whether or not it raised (user_authn/authn_context.py:28-50). -/
def Broker.step (b : Broker) : BrokerOp → Broker
  | .set k a m => (b.setItem k a m).1
  | .del k => (b.delItem k).1

/-- A history (user_authn/authn_context.py:186-203 and later changes). -/
def Broker.run (b : Broker) (ops : List BrokerOp) : Broker := ops.foldl Broker.step b

end Verif
