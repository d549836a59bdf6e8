import Verif.Model.Resource
/-! What a JWT access token contains: `Grant.payload_arguments` and `JWTToken.__call__`. -/
namespace Verif

/-- Python's truth value of a JSON value. -/
def Val.truthy : Val → Bool
  | .null => false
  | .bool b => b
  | .int i => decide (i ≠ 0)
  | .str s => decide (s ≠ [])
  | .lnil => false
  | .lcons _ _ => true
  | .dnil => false
  | .dcons _ _ _ => true

/-- `Grant.payload_arguments` (session/grant.py:157-179): `scope` is the argument, the grant's own scope if empty. The
client database may change, as in `getClaims`. -/
def payloadArguments (cfg : ClaimsCfg) (cdb : Cdb) (userDb : Str → Dict Val) (g : Grant) (sid tokenType : Str)
    (scope : List Str) : Cdb × Except Exn (Dict Val) :=
  let scope := if scope = [] then g.scope else scope
  let payload : Dict Val := [(c!"scope", Val.ofStrs scope), (c!"aud", Val.ofStrs g.resources)]
  match unpack3 sid with
  | .error e => (cdb, .error e)
  | .ok (user, client, _) =>
    let r := getClaims cfg cdb client (g.authReq.bind AuthReq.claims) scope tokenType
    match r.2 with
    | .error e => (r.1, .error e)
    | .ok restr => match getUserClaims userDb user restr with
      | .error e => (r.1, .error e)
      | .ok ui => (r.1, .ok (Dict.update payload ui))

/-- `token_handler(session_id=session_id, **payload)` (session/grant.py:223-231) binds a payload entry called "ttype" to
the parameter of that name; entries called "session_id" or "self" are a `TypeError`.  The result is whether the `ttype`
argument is truthy and the rest of the payload. -/
def bindArgs (payload : Dict Val) : Except Exn (Bool × Dict Val) :=
  if payload.has c!"session_id" ∨ payload.has c!"self" then .error .typeError
  else .ok (((payload.get? c!"ttype").map Val.truthy).getD false, payload.erase c!"ttype")

/-- The payload that `JWTToken.__call__` (token/jwt_token.py:45-73) gives to the JWT library. -/
def jwtTokenPayload (h : Handler) (sid : Str) (ttypeArg : Bool) (payload : Dict Val) : Dict Val :=
  let ttype := if !ttypeArg ∧ h.typ ≠ [] then h.typ else c!"A"
  Dict.update payload [(c!"sid", .str sid), (c!"ttype", .str ttype)]

/-- What a JWT token minted for the session `sid` contains: `Grant.mint_token` calling the handler
(session/grant.py:223-231). -/
def jwtTokenContents (cfg : ClaimsCfg) (cdb : Cdb) (userDb : Str → Dict Val) (g : Grant) (h : Handler) (sid tokenType : Str)
    (scope : List Str) : Except Exn (Dict Val) :=
  match (payloadArguments cfg cdb userDb g sid tokenType scope).2 with
  | .error e => .error e
  | .ok p => match bindArgs p with
    | .error e => .error e
    | .ok (t, rest) => .ok (jwtTokenPayload h sid t rest)

end Verif
