import Verif.Model.Types
/-! `user_info/__init__.py` and `login_hint.py`. -/
namespace Verif

/-- The elements of a JSON list; `none` for anything else. -/
def Val.list? : Val → Option (List Val)
  | .lnil => some []
  | .lcons h t => match t.list? with
    | some l => some (h :: l)
    | none => none
  | _ => none

/-- Whether Python can put the value into a `set`. -/
def Val.hashable : Val → Bool
  | .lnil | .lcons _ _ | .dnil | .dcons _ _ _ => false
  | _ => true

/-- One round of the loop of `dict_subset` (user_info/__init__.py:8-24): does the stored value `v` satisfy the wanted value
`w`.  Simplification: `True == 1` is not modelled. -/
def valueSubset (w v : Val) : Except Exn Bool :=
  match v.list? with
  | some vs => match w.list? with
    | some ws => if ws.all Val.hashable && vs.all Val.hashable then .ok (ws.all fun x => vs.contains x) else .error .typeError
    | none => .ok (vs.contains w)
  | none => match w.list? with
    | some _ => .ok false
    | none => .ok (w == v)

/-- `dict_subset` (user_info/__init__.py:7-25). -/
def dictSubset : Dict Val → Dict Val → Except Exn Bool
  | [], _ => .ok true
  | (k, w) :: a, b => match Dict.get? b k with
    | none => .ok false
    | some v => match valueSubset w v with
      | .error e => .error e
      | .ok false => .ok false
      | .ok true => dictSubset a b

/-- `UserInfo.search` (user_info/__init__.py:75-80): the first user whose record fits. -/
def userSearch (wanted : Dict Val) : Dict (Dict Val) → Except Exn Str
  | [] => .error .keyError
  | (uid, rec) :: db => match dictSubset wanted rec with
    | .error e => .error e
    | .ok true => .ok uid
    | .ok false => userSearch wanted db

/-- One round of the loop of `UserInfo.filter` (user_info/__init__.py:59-67). -/
def filterStep (info : Dict Val) (acc : Dict Val) (kv : Str × ClaimSpec) : Dict Val :=
  match Dict.get? info kv.1 with
  | some v => acc.set kv.1 v
  | none => acc

/-- `UserInfo.filter` (user_info/__init__.py:42-67). -/
def userFilter (info : Dict Val) (claims : Option Claims) : Dict Val :=
  match claims with
  | none => info
  | some cs => cs.foldl (filterStep info) []

/-- `UserInfo.__call__` (user_info/__init__.py:69-73). -/
def userInfoCall (db : Dict (Dict Val)) (user : Str) (claims : Option Claims) : Dict Val :=
  match Dict.get? db user with
  | some info => userFilter info claims
  | none => []

/-- `LoginHintLookup.__call__` (login_hint.py:4-16) of an object whose `userinfo` is `db` (`none`: it was not given to the
constructor, and reading `.search` of `None` is an `AttributeError`).  `none` is returned for any other kind of hint.  An empty
number is an `IndexError`. -/
def loginHintLookup (db : Option (Dict (Dict Val))) (country hint : Str) : Except Exn (Option Str) :=
  if c!"tel:".isPrefixOf hint then
    let pnr := hint.drop 4
    match pnr with
    | [] => .error .indexError
    | d :: ds =>
      let nr := if d = '+' then pnr else c!"+" ++ country ++ ds
      match db with
      | none => .error .attributeError
      | some db => match userSearch [(c!"phone_number", .str nr)] db with
        | .error e => .error e
        | .ok uid => .ok (some uid)
  else .ok none

/-- The lookup object as `do_login_hint_lookup` sets it up (endpoint_context.py:297-302): built from the configured arguments
(here: none), with the provider's user data put into an attribute `user_info` that it never reads. -/
def configuredLookup (_providerUsers : Dict (Dict Val)) (hint : Str) : Except Exn (Option Str) :=
  loginHintLookup none c!"46" hint

/-- `LoginHint2Acrs.__call__` (login_hint.py:19-28); `scheme` is the scheme of the hint taken as a URL. -/
def loginHint2acrs (schemeMap : Dict (List Str)) (scheme : Str) : List Str := (schemeMap.get? scheme).getD []

end Verif
