import Verif.Model.Authorization
/-! Request objects fetched from a `request_uri`: the second half of `_do_request_uri` and `AllowedAlgorithms`
(oauth2/authorization.py). -/
namespace Verif

/-- What `from_jwt` returns for a request object (oauth2/authorization.py:366): the headers of the signature and of the
encryption, if any, and the parameters. -/
structure ReqJwt where
  jws : Option (Dict Str)
  jwe : Option (Dict Str)
  args : Dict Val
deriving DecidableEq, Repr

/-- What is used from outside: fetching a URL (status and text; may raise), decrypting and verifying a JWT with the keys of
a client (library), a client's registration entries, and the provider metadata. -/
structure ReqObjEnv where
  get : Str → Except Exn (Int × Str)
  fromJwt : (client text : Str) → Except Exn ReqJwt
  registered : (client : Str) → Option (Dict Val)
  provInfo : Dict Val

/-- `ALG_PARAMS` (oauth2/authorization.py:44-58): registration entry and metadata entry per kind of algorithm. -/
def algParams : Dict (Str × Str) :=
  [(c!"sign", (c!"request_object_signing_alg", c!"request_object_signing_alg_values_supported")),
   (c!"enc_alg", (c!"request_object_encryption_alg", c!"request_object_encryption_alg_values_supported")),
   (c!"enc_enc", (c!"request_object_encryption_enc", c!"request_object_encryption_enc_values_supported"))]

/-- Python's `None` or a string as a value. -/
def optStr : Option Str → Val
  | none => .null
  | some s => .str s

/-- `AllowedAlgorithms.__call__` (oauth2/authorization.py:961-975). An entry that is `None` counts as missing. -/
def allowedAlg (env : ReqObjEnv) (client : Str) (alg : Option Str) (kind : Str) : Except Exn Unit :=
  match env.registered client with
  | none => .error .keyError
  | some cinfo => match algParams.get? kind with
    | none => .error .keyError
    | some (reg, sup) =>
      let allowed : Val := match cinfo.get? reg with
        | some .null => (env.provInfo.get? sup).getD .null
        | some v => v
        | none => (env.provInfo.get? sup).getD .null
      match allowed.contains (optStr alg) with
      | none => .error .typeError
      | some true => .ok ()
      | some false => .error .valueError

/-- The second half of `_do_request_uri` (oauth2/authorization.py:360-393), on a request as a dictionary; the entry for the
verified request is left out.  If the status is not 200, building the exception fails: a response has no attribute `status`.
For an encrypted object both names are looked up in the *signature's* header. -/
def fetchObject (env : ReqObjEnv) (client uri : Str) (req : Dict Val) : Except Exn (Dict Val) :=
  match env.get uri with
  | .error e => .error e
  | .ok (status, text) =>
    if status ≠ 200 then .error .attributeError
    else match env.fromJwt client text with
    | .error e => .error e
    | .ok jwt => match jwt.jws with
      | none => .error .attributeError
      | some h => match allowedAlg env client (some ((h.get? c!"alg").getD c!"RS256")) c!"sign" with
        | .error e => .error e
        | .ok () =>
          let enc : Except Exn Unit := match jwt.jwe with
            | none => .ok ()
            | some _ => match allowedAlg env client (h.get? c!"alg") c!"enc_alg" with
              | .error e => .error e
              | .ok () => allowedAlg env client (h.get? c!"enc") c!"enc_enc"
          match enc with
          | .error e => .error e
          | .ok () => .ok (Dict.update req jwt.args)

/-- `fetchObject` as the `fetch` of `Env`, for requests read from and written as dictionaries. -/
def fetchAs (env : ReqObjEnv) (write : AuthReq → Dict Val) (read : Dict Val → AuthReq) :
    Str → Str → AuthReq → Except Exn AuthReq :=
  fun client uri req => (fetchObject env client uri (write req)).map read

end Verif
