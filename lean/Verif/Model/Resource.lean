import Verif.Model.Authorization
/-! `oidc/userinfo.py` and `oauth2/introspection.py`: what is told about a token. -/
namespace Verif

/-- `authentication_event["valid_until"] > utc_time_sans_frac()` (oidc/userinfo.py:127); no event is a `TypeError`. -/
def authnLive (now : Int) : Option AuthnEvent → Except Exn Bool
  | none => .error .typeError
  | some e => .ok (decide (e.validUntil > now))

/-- `UserInfo.process_request` (oidc/userinfo.py:105-151) for the request's `access_token`: the claims and the client id.
`userDb` is `endpoint_context.userinfo`.  The dictionary with `error: invalid_request` that is returned if the
authentication has expired is an error message here. -/
def userinfoProcess (env : Env) (userDb : Str → Dict Val) (s : Store) (now : Int) (value : Str) : Out (Dict Val × Str) :=
  match sessionByToken env.th env.cr s now value with
  | .error e => .raise e
  | .ok (_, .info _) => .raise .attributeError
  | .ok (sid, .grant g) =>
    match g.getToken value with
    | none => .errMsg c!"invalid_token"
    | some t =>
      if t.kind ≠ .accessToken then .errMsg c!"invalid_token"
      else if t.isActive now = false then .errMsg c!"invalid_token"
      else match authnLive now g.authnEvent with
      | .error e => .raise e
      | .ok false => .errMsg c!"invalid_request"
      | .ok true =>
        match unpack3 sid with
        | .error e => .raise e
        | .ok (user, client, _) =>
          match getUserClaims userDb user ((g.claims.get? c!"userinfo").getD []) with
          | .error e => .raise e
          | .ok info => .val (Dict.set info c!"sub" (.str g.sub), client)

/-- `" ".join(scope)` -/
def joinBlank (l : List Str) : Str := pyJoin c!" " l

/-- A list of strings as a JSON value. -/
def Val.ofStrs : List Str → Val
  | [] => .lnil
  | a :: l => .lcons (.str a) (Val.ofStrs l)

/-- The answer about a token that is not active: `response_cls(active=False)` (oauth2/introspection.py:67). -/
def inactive : Dict Val := [(c!"active", .bool false)]

/-- `_introspect` (oauth2/introspection.py:28-56); `none` is Python's `None`. -/
def introspectInfo (issuer : Str) (now : Int) (t : Token) (client : Str) (g : Grant) : Option (Dict Val) :=
  if t.typ ≠ tAccessToken ∧ t.typ ≠ tRefreshToken then none
  else if t.isActive now = false then none
  else
    let scope := if t.scope = [] then g.scope else t.scope
    let aud := if t.resources = [] then g.resources else t.resources
    let ret : Dict Val := [(c!"active", .bool true), (c!"scope", .str (joinBlank scope)), (c!"client_id", .str client),
      (c!"token_type", .str t.typ), (c!"exp", .int t.expiresAt), (c!"iat", .int t.issuedAt), (c!"sub", .str g.sub),
      (c!"iss", .str issuer)]
    some (if aud = [] then ret else ret ++ [(c!"aud", Val.ofStrs aud)])

/-- `Introspection.process_request` (oauth2/introspection.py:58-103) for a request with a `token` and no `error`.
`release` says whether "username" is in `kwargs["release"]`.  `weed()` removes nothing, since all names are standard
parameters of the response class. -/
def introspectProcess (env : Env) (issuer : Str) (release : Bool) (userDb : Str → Dict Val) (s : Store) (now : Int)
    (value : Str) : Out (Dict Val) :=
  match sessionByToken env.th env.cr s now value with
  | .error e => if e = .unknownToken then .val inactive else .raise e
  | .ok (_, .info _) => .raise .attributeError
  | .ok (sid, .grant g) =>
    match unpack3 sid with
    | .error e => .raise e
    | .ok (user, client, _) =>
      match g.getToken value with
      | none => .raise .attributeError
      | some t => match introspectInfo issuer now t client g with
        | none => .val inactive
        | some info =>
          let info := if release then Dict.set info c!"username" (.str user) else info
          let resp := Dict.update inactive info
          match (g.claims.get? c!"introspection").getD [] with
          | [] => .val (Dict.set resp c!"active" (.bool true))
          | restr => match getUserClaims userDb user restr with
            | .error e => .raise e
            | .ok ui => .val (Dict.set (Dict.update resp ui) c!"active" (.bool true))

end Verif
