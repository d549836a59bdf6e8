import Verif.Model.Client
/-! Redirect URIs: `verify_uri`, `join_query`, `get_uri` of oauth2/authorization.py. -/
namespace Verif

/-- What the code uses of `urllib.parse` and `util.split_uri` (util.py:161-173), as parameters: percent-decoding, the
fragment, base and query of a URI, and query encoding.  `split_uri` returns `""` for a missing query; both that and `{}`
are the empty query here.  Simplification: the library functions do not raise. -/
structure UriLib where
  unquote : Str → Str
  fragment : Str → Str
  splitUri : Str → Str × Query
  urlencode : Query → Str

/-- The two loops comparing a query with a registered query (oauth2/authorization.py:130-159); every failure is a
`ValueError`. -/
def queryMatches (q r : Query) : Bool :=
  (r.isEmpty || (!q.isEmpty && r.all fun kv => match q.get? kv.1 with
    | none => false
    | some vs => kv.2.all fun v => vs.contains v)) &&
  (q.isEmpty || (!r.isEmpty && q.all fun kv => match r.get? kv.1 with
    | none => false
    | some vs => kv.2.all fun v => vs.contains v))

/-- The loop over the registered URIs (oauth2/authorization.py:126-163): the first one with the same base decides. -/
def matchRegistered (base : Str) (q : Query) : List RegUri → Except Exn Unit
  | [] => .error .redirectURIError
  | (rb, rq) :: rest =>
    if base = rb then (if queryMatches q rq then .ok () else .error .valueError)
    else matchRegistered base q rest

/-- Which list of registered URIs `uri_type` selects. -/
inductive UriType where
  | redirect
  | postLogout
deriving DecidableEq, Repr

def Client.uris (c : Client) : UriType → List RegUri
  | .redirect => c.redirectUris
  | .postLogout => c.postLogoutRedirectUris

/-- `verify_uri` (oauth2/authorization.py:88-163).  `reqClient` is `request["client_id"]` if present, `dflt` the
`client_id` argument; `uri` is `request[uri_type]`. -/
def verifyUri (lib : UriLib) (cdb : Cdb) (ty : UriType) (reqClient dflt uri : Option Str) : Except Exn Unit :=
  match (reqClient <|> dflt) with
  | none => .error .unknownClient
  | some cid =>
    if cid = [] then .error .unknownClient
    else match uri with
    | none => .error .keyError
    | some raw =>
      let u := lib.unquote raw
      if lib.fragment u ≠ [] then .error .uriError
      else
        let bq := lib.splitUri u
        match cdb cid with
        | none => .error .keyError
        | some c =>
          if c.uris ty = [] then .error .valueError
          else matchRegistered bq.1 bq.2 (c.uris ty)

/-- `join_query` (oauth2/authorization.py:166-176). -/
def joinQuery (lib : UriLib) (base : Str) (q : Query) : Str :=
  if q.isEmpty then base else base ++ '?' :: lib.urlencode q

/-- `get_uri` (oauth2/authorization.py:179-210) for a request with a client id. -/
def getUri (lib : UriLib) (cdb : Cdb) (ty : UriType) (client : Str) (uri : Option Str) : Except Exn Str :=
  match uri with
  | some raw => match verifyUri lib cdb ty (some client) none (some raw) with
    | .error e => .error e
    | .ok () => .ok raw
  | none => match cdb client with
    | none => .ok []
    | some c => match c.uris ty with
      | [] => .error .parameterError
      | [(b, q)] => .ok (joinQuery lib b q)
      | _ :: _ :: _ => .error .parameterError

end Verif
