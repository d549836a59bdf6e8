import Verif.Model.Registration
import Verif.Model.Claims
/-! What the provider publishes about itself: `endpoint.py` (capabilities), `util.py` (`build_endpoints`) and
`endpoint_context.py` (`do_endpoints`, `create_providerinfo`). -/
namespace Verif

/-- The algorithms of the crypto library: the keys of `SIGNER_ALGS`, and `jwe.SUPPORTED`. -/
structure AlgLib where
  signing : List Str
  encAlg : List Str
  encEnc : List Str

/-- `ALG_SORT_ORDER[alg[0:2]]` (endpoint.py:80, 84); `none` is a `KeyError`. -/
def algRank (a : Str) : Option Nat :=
  Dict.get? [(c!"RS", 0), (c!"ES", 1), (c!"HS", 2), (c!"PS", 3), (c!"no", 4)] (a.take 2)

/-- Python's comparison of strings. -/
def strLe : Str → Str → Bool
  | [], _ => true
  | _ :: _, [] => false
  | a :: as, b :: bs => decide (a.toNat < b.toNat) || (decide (a = b) && strLe as bs)

/-- `sort_sign_alg(a, b) <= 0` (endpoint.py:83-96), for known families. -/
def signLe (a b : Str) : Bool :=
  decide ((algRank a).getD 0 < (algRank b).getD 0) || (decide ((algRank a).getD 0 = (algRank b).getD 0) && strLe a b)

/-- Insertion into a sorted list. -/
def insertAlg (a : Str) : List Str → List Str
  | [] => [a]
  | b :: r => if signLe a b then a :: b :: r else b :: insertAlg a r

/-- Python's `sorted` with `sort_sign_alg` (endpoint.py:99-104), here by insertion: the result of sorting is unique. -/
def sortAlgs (l : List Str) : List Str := l.foldr insertAlg []

/-- `sorted(sign_algs, key=cmp_to_key(sort_sign_alg))` (endpoint.py:99-104): a list of two or more is compared, and an unknown
family is then a `KeyError`. -/
def sortedAlgs (l : List Str) : Except Exn (List Str) :=
  if 2 ≤ l.length ∧ (l.any fun a => (algRank a).isNone) = true then .error .keyError else .ok (sortAlgs l)

/-- Which list of algorithms a capability stands for (endpoint.py:99-109, 120-136, 141-146); `none`: it is no list of algorithms.
The tests are for a substring. -/
def algsOf (al : AlgLib) (attr : Str) : Option (Except Exn (List Str)) :=
  if isInfix c!"signing_alg_values_supported" attr then some (sortedAlgs al.signing)
  else if isInfix c!"encryption_alg_values_supported" attr then some (.ok al.encAlg)
  else if isInfix c!"encryption_enc_values_supported" attr then some (.ok al.encEnc)
  else none

/-- The value of a capability that is not configured and has no default (endpoint.py:120-136). -/
def libraryDefault (al : AlgLib) (attr : Str) : Except Exn (Option RegVal) :=
  match algsOf al attr with
  | none => .ok none
  | some (.error e) => .error e
  | some (.ok l) => .ok (some (.strs (if attr = c!"token_endpoint_auth_signing_alg_values_supported" then l.erase c!"none" else l)))

/-- The test of a configured capability (endpoint.py:138-154).  The set of a string is the set of its characters; other things
than strings and lists are taken not to be iterable. -/
def checkProposal (al : AlgLib) (attr : Str) (p : RegVal) : Except Exn Unit :=
  match algsOf al attr with
  | none => .ok ()
  | some (.error e) => .error e
  | some (.ok []) => .ok ()
  | some (.ok l) => match p with
    | .strs ps => if ps.all fun x => l.contains x then .ok () else .error .valueError
    | .str s => if s.all fun ch => l.contains [ch] then .ok () else .error .valueError
    | _ => .error .typeError

/-- Default capabilities: `none` is Python's `None`. -/
abbrev Defaults := List (Str × Option RegVal)

/-- One round of the loop of `construct_endpoint_info` (endpoint.py:115-156). -/
def capOne (al : AlgLib) (kw : RegRec) (attr : Str) (dflt : Option RegVal) : Except Exn (Option RegVal) :=
  match kw.get? attr with
  | some p => match checkProposal al attr p with
    | .error e => .error e
    | .ok () => .ok (some p)
  | none => match dflt with
    | some v => .ok (some v)
    | none => libraryDefault al attr

/-- `construct_endpoint_info` (endpoint.py:112-160) for default capabilities that are not `None`. -/
def constructInfo (al : AlgLib) (kw : RegRec) : Defaults → Except Exn RegRec
  | [] => .ok []
  | (attr, dflt) :: rest => match capOne al kw attr dflt with
    | .error e => .error e
    | .ok o => match constructInfo al kw rest with
      | .error e => .error e
      | .ok r => match o with
        | some v => .ok ((attr, v) :: r)
        | none => .ok r

/-- The endpoint classes. -/
inductive EpKind where
  | authorization | oauth2Authorization | pushedAuthorization | token | userinfo | session | registration | registrationRead
  | introspection | providerConfig | discovery
deriving DecidableEq, Repr

/-- The class attribute `name` (oidc/authorization.py:78, oauth2/authorization.py:274, oauth2/pushed_authorization.py:16,
oidc/token.py:323, oidc/userinfo.py:29, oidc/session.py:79, oidc/registration.py:130, oidc/read_registration.py:16,
oauth2/introspection.py:20, oidc/provider_config.py:15, oidc/discovery.py:15). -/
def EpKind.name : EpKind → Str
  | .authorization | .oauth2Authorization => c!"authorization"
  | .pushedAuthorization => c!"pushed_authorization"
  | .token => c!"token"
  | .userinfo => c!"userinfo"
  | .session => c!"session"
  | .registration => c!"registration"
  | .registrationRead => c!"registration_read"
  | .introspection => c!"introspection"
  | .providerConfig => c!"provider_config"
  | .discovery => c!"discovery"

/-- The class attribute `endpoint_name`, empty by default (endpoint.py:166; the lines before those of `name`). -/
def EpKind.endpointName : EpKind → Str
  | .authorization | .oauth2Authorization => c!"authorization_endpoint"
  | .pushedAuthorization => c!"pushed_authorization_request_endpoint"
  | .token => c!"token_endpoint"
  | .userinfo => c!"userinfo_endpoint"
  | .session => c!"end_session_endpoint"
  | .registration => c!"registration_endpoint"
  | .introspection => c!"introspection_endpoint"
  | .registrationRead | .providerConfig | .discovery => []

def boolVal (b : Bool) : RegVal := .json (.bool b)

/-- The part the two authorization endpoints have in common. -/
def authzDefaults (responseTypes : List Str) : Defaults :=
  [(c!"claims_parameter_supported", some (boolVal true)), (c!"request_parameter_supported", some (boolVal true)),
   (c!"request_uri_parameter_supported", some (boolVal true)), (c!"response_types_supported", some (.strs responseTypes)),
   (c!"response_modes_supported", some (.strs [c!"query", c!"fragment", c!"form_post"])),
   (c!"request_object_signing_alg_values_supported", none), (c!"request_object_encryption_alg_values_supported", none),
   (c!"request_object_encryption_enc_values_supported", none),
   (c!"grant_types_supported", some (.strs [c!"authorization_code", c!"implicit"]))]

def claimTypesDefault : Str × Option RegVal := (c!"claim_types_supported", some (.strs [c!"normal", c!"aggregated", c!"distributed"]))

/-- The class attribute `default_capabilities` (oidc/authorization.py:79-98, oauth2/authorization.py:275-286, inherited by
oauth2/pushed_authorization.py:8; oidc/token.py:324, oidc/userinfo.py:30-36, oidc/session.py:80-86, oidc/provider_config.py:16);
`none` is `None`. -/
def EpKind.defaults : EpKind → Option Defaults
  | .authorization => some (authzDefaults [c!"code", c!"token", c!"id_token", c!"code token", c!"code id_token", c!"id_token token",
      c!"code id_token token"] ++ [claimTypesDefault])
  | .oauth2Authorization | .pushedAuthorization =>
    some (authzDefaults [c!"code", c!"token", c!"code token"] ++ [(c!"scopes_supported", some (.strs []))])
  | .token => some [(c!"token_endpoint_auth_signing_alg_values_supported", none)]
  | .userinfo => some [claimTypesDefault, (c!"userinfo_signing_alg_values_supported", none),
      (c!"userinfo_encryption_alg_values_supported", none), (c!"userinfo_encryption_enc_values_supported", none),
      (c!"client_authn_method", some (.strs [c!"bearer_header"]))]
  | .session => some [(c!"frontchannel_logout_supported", some (boolVal true)),
      (c!"frontchannel_logout_session_supported", some (boolVal true)), (c!"backchannel_logout_supported", some (boolVal true)),
      (c!"backchannel_logout_session_supported", some (boolVal true)), (c!"check_session_iframe", none)]
  | .providerConfig => some [(c!"require_request_uri_registration", none)]
  | .registration | .registrationRead | .introspection | .discovery => none

/-- The capabilities of ID tokens (id_token.py:108-112). -/
def idTokenDefaults : Defaults :=
  [(c!"id_token_signing_alg_values_supported", none), (c!"id_token_encryption_alg_values_supported", none),
   (c!"id_token_encryption_enc_values_supported", none)]

/-- The path without a first slash (endpoint_context.py:31-32, 35-36). -/
def stripSlash : Str → Str
  | '/' :: rest => rest
  | path => path

/-- `add_path` (endpoint_context.py:29-39). -/
def addPath (url path : Str) : Str :=
  if url.getLast? = some '/' then url ++ stripSlash path else url ++ '/' :: stripSlash path

/-- The rewriting of `check_session_iframe` (oidc/session.py:88-91); a value that is not a string has no `startswith`. -/
def sessionKwargs (issuer : Str) (kw : RegRec) : Except Exn RegRec :=
  match kw.get? c!"check_session_iframe" with
  | some (.str (x :: xs)) =>
    if c!"http".isPrefixOf (x :: xs) then .ok kw else .ok (kw.set c!"check_session_iframe" (.str (addPath issuer (x :: xs))))
  | none | some (.str []) => .ok kw
  | some _ => .error .attributeError

/-- What the constructor of an endpoint makes of its arguments: `endpoint_info` (endpoint.py:200-203; oidc/token.py:329-332;
oidc/session.py:88-92). -/
def endpointInfo (al : AlgLib) (issuer : Str) (k : EpKind) (kw : RegRec) : Except Exn (Option RegRec) :=
  match (if k = .session then sessionKwargs issuer kw else .ok kw) with
  | .error e => .error e
  | .ok kw => match k.defaults with
    | none => .ok none
    | some d => match constructInfo al kw d with
      | .error e => .error e
      | .ok info => match (if k = .token then kw.get? c!"client_authn_method" else none) with
        | some m => .ok (some (info.set c!"token_endpoint_auth_methods_supported" m))
        | none => .ok (some info)

/-- An endpoint in the configuration. -/
structure EpSpec where
  kind : EpKind
  path : Option Str
  kwargs : RegRec := []

/-- An endpoint. -/
structure Ep where
  kind : EpKind
  fullPath : Str
  info : Option RegRec

/-- The address of the provider without the last slash (util.py:50-53). -/
def baseUrl (issuer : Str) : Str := if issuer.getLast? = some '/' then issuer.dropLast else issuer

/-- One round of `build_endpoints` (util.py:56-87). -/
def buildEndpoint (al : AlgLib) (issuer : Str) (sp : EpSpec) : Except Exn Ep :=
  match endpointInfo al issuer sp.kind sp.kwargs with
  | .error e => .error e
  | .ok info => match sp.path with
    | none => .error .keyError
    | some p =>
      let full := baseUrl issuer ++ '/' :: p
      .ok { kind := sp.kind, fullPath := full,
            info := if sp.kind.endpointName = [] then info else some (Dict.set (info.getD []) sp.kind.endpointName (.str full)) }

/-- `build_endpoints` (util.py:36-89); the endpoints by `name`. -/
def buildEndpoints (al : AlgLib) (issuer : Str) : List EpSpec → Dict Ep → Except Exn (Dict Ep)
  | [], acc => .ok acc
  | sp :: rest, acc => match buildEndpoint al issuer sp with
    | .error e => .error e
    | .ok ep => buildEndpoints al issuer rest (acc.set sp.kind.name ep)

/-- Adding entries that are not there yet (endpoint_context.py:367-370). -/
def addMissing (cap info : RegRec) : RegRec := info.foldl (fun c kv => if c.has kv.1 then c else c.set kv.1 kv.2) cap

/-- The loop of `do_endpoints` (endpoint_context.py:362-372). -/
def collectCaps (cap : RegRec) (eps : Dict Ep) : RegRec :=
  eps.foldl (fun c ne => if ne.1 = c!"webfinger" ∨ ne.1 = c!"provider_config" then c else addMissing c (ne.2.info.getD [])) cap

/-- The configuration, as far as it matters here; `acr` are the broker's values (`none`: the broker is empty, or its values are
`None`), `keys` whether there is a key jar with keys, `refresh` whether there is a refresh token handler. -/
structure ProvConf where
  issuer : Str
  endpoints : List EpSpec
  capabilities : Option RegRec := none
  jwksPath : Str
  keys : Bool := true
  acr : Option (List Str) := none
  idToken : RegRec := []
  refresh : Bool := true

/-- `STANDARD_CLAIMS` (session/claims.py) and `SCOPE2CLAIMS` (scopes.py:3-25) as parameters. -/
structure ScopeLib where
  scopes : List Str
  claims : List Str

/-- `self.jwks_uri` (endpoint_context.py:186-192). -/
def jwksUri (cf : ProvConf) : Str :=
  if cf.issuer.getLast? = some '/' then cf.issuer ++ cf.jwksPath else cf.issuer ++ '/' :: cf.jwksPath

/-- `create_providerinfo` (endpoint_context.py:382-410). -/
def createProviderInfo (sl : ScopeLib) (cf : ProvConf) (idt cap : RegRec) : RegRec :=
  let i := (cap.set c!"issuer" (.str cf.issuer)).set c!"version" (.str c!"3.0")
  let i := match cf.acr with
    | some l => i.set c!"acr_values_supported" (.strs l)
    | none => i
  let i := if cf.keys then i.set c!"jwks_uri" (.str (jwksUri cf)) else i
  let i := i.update idt
  let i := if i.has c!"scopes_supported" then i else i.set c!"scopes_supported" (.strs sl.scopes)
  if i.has c!"claims_supported" then i else i.set c!"claims_supported" (.strs sl.claims)

/-- `allow_refresh_token` (util.py:176-201), called if there is a token endpoint (endpoint_context.py:209-211): a missing handler
is a `KeyError`, and so are configured capabilities (as extended meanwhile) without grant types.  `in` looks
for a part of a string, a key of a dictionary, and is a `TypeError` for a number, a Boolean or `None`. -/
def allowRefresh (cf : ProvConf) (info : RegRec) : Except Exn Bool :=
  if cf.refresh = false then .error .keyError
  else match cf.capabilities with
    | none => .ok false
    | some _ => match info.get? c!"grant_types_supported" with
      | none => .error .keyError
      | some (.strs l) => .ok (l.contains c!"refresh_token")
      | some (.str s) => .ok (isInfix c!"refresh_token" s)
      | some (.int _) => .error .typeError
      | some (.json v) => match v.contains (.str c!"refresh_token") with
        | some b => .ok b
        | none => .error .typeError
      | some (.uris _) | some (.parts _) => .ok false

/-- A provider that has started: its endpoints and what it publishes. -/
structure Provider where
  endpoints : Dict Ep
  info : RegRec

/-- The part of `EndpointContext.__init__` that makes endpoints and provider info (endpoint_context.py:194-211).  The dictionary
of configured capabilities *is* `provider_info` afterwards: see `startTwo` for what follows from that. -/
def startProvider (al : AlgLib) (sl : ScopeLib) (cf : ProvConf) : Except Exn Provider :=
  match constructInfo al cf.idToken idTokenDefaults with
  | .error e => .error e
  | .ok idt => match buildEndpoints al cf.issuer cf.endpoints [] with
    | .error e => .error e
    | .ok eps =>
      let info := createProviderInfo sl cf idt (collectCaps (cf.capabilities.getD []) eps)
      match (if eps.has c!"token" then (allowRefresh cf info).map (fun _ => ()) else .ok ()) with
      | .error e => .error e
      | .ok () => .ok ⟨eps, info⟩

/-- Two providers started one after the other in one process from configurations that share the dictionary of capabilities:
the second starts with the dictionary as the first left it, and afterwards both have the same `provider_info`. -/
def startTwo (al : AlgLib) (sl : ScopeLib) (cap : RegRec) (cf1 cf2 : ProvConf) : Except Exn (Provider × Provider) :=
  match startProvider al sl { cf1 with capabilities := some cap } with
  | .error e => .error e
  | .ok p1 => match startProvider al sl { cf2 with capabilities := some p1.info } with
    | .error e => .error e
    | .ok p2 => .ok (⟨p1.endpoints, p2.info⟩, p2)

/-- The union of two sets; the code turns it into a list in some order (oidc/add_on/custom_scopes.py:20-22), here the order of
first occurrence. -/
def unionList (a b : List Str) : List Str := (a ++ b).foldl (fun acc x => if acc.contains x then acc else acc ++ [x]) []

/-- A list in the provider info; absent is empty.  Values that are not lists are not modelled. -/
def infoList (info : RegRec) (k : Str) : List Str := match info.get? k with
  | some (.strs l) => l
  | _ => []

/-- `add_custom_scopes` (oidc/add_on/custom_scopes.py:8-27): the new `scope2claims` and provider info; `base` is `SCOPE2CLAIMS`. -/
def addCustomScopes (base kw : Dict (List Str)) (info : RegRec) : Dict (List Str) × RegRec :=
  (Dict.update base kw,
   Dict.set (info.set c!"scopes_supported" (.strs (unionList (infoList info c!"scopes_supported") kw.keys))) c!"claims_supported"
     (.strs (unionList (infoList info c!"claims_supported") (kw.map (·.2)).flatten)))

end Verif
