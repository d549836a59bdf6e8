import Verif.Model.Uri
import Verif.Model.Authorization
/-! Client registration: `oidc/registration.py`. -/
namespace Verif

/-- A value in a registration request or a client record: a string, an integer, a list of strings, the stored form of redirect
URIs, the stored form of request URIs (`[base, fragment]`), anything else. -/
inductive RegVal where
  | str (s : Str)
  | int (i : Int)
  | strs (l : List Str)
  | uris (l : List RegUri)
  | parts (l : List (List Str))
  | json (v : Val)
deriving DecidableEq, Repr

/-- A registration request, a client record, or the provider's capabilities. -/
abbrev RegRec := Dict RegVal

instance : DecidableEq RegRec := inferInstanceAs (DecidableEq (List (Str × RegVal)))

/-- Outside functions: `urlparse`; fetching a sector identifier document (`none` is a failure); whether there are keys for a
signature algorithm, or it needs none (`alg2keytype` and the key jar); whether loading the client's keys succeeds; which entries are part of
a registration response (`RegistrationResponse.c_param`). -/
structure RegLib where
  uri : UriLib
  scheme : Str → Str
  hostname : Str → Str
  netloc : Str → Str
  query : Str → Str
  sector : Str → Option (List Str)
  haveKey : Str → Bool
  loadKeys : Option RegVal → Option RegVal → Bool
  responseParam : Str → Bool

/-- The provider: its capabilities (`provider_info`), whether there is a registration read endpoint (and its address), and for
how long secrets are valid (`client_secret_expires`, `client_secret_expires_in`). -/
structure RegCfg where
  prov : RegRec
  readPath : Option Str := none
  secretExpires : Bool := true
  secretExpiresIn : Int := 2592000

/-- `client_secret_expiration_time` (oidc/registration.py:358-367); 0 is for ever. -/
def RegCfg.secretEnd (cfg : RegCfg) (now : Int) : Int := if cfg.secretExpires then now + cfg.secretExpiresIn else 0

theorem RegCfg.secretEnd_ok {cfg : RegCfg} {at' now : Int} (h : cfg.secretExpires = false ∨ now ≤ at' + cfg.secretExpiresIn) :
    cfg.secretEnd at' = 0 ∨ now ≤ cfg.secretEnd at' := by
  unfold RegCfg.secretEnd
  cases hx : cfg.secretExpires with
  | false => exact .inl rfl
  | true => rw [hx] at h; exact .inr (by simpa using h)

/-- `PREFERENCE2PROVIDER` (oidc/registration.py:28-45). -/
def preference2provider : List (Str × Str) :=
  [(c!"request_object_signing_alg", c!"request_object_signing_alg_values_supported"),
   (c!"request_object_encryption_alg", c!"request_object_encryption_alg_values_supported"),
   (c!"request_object_encryption_enc", c!"request_object_encryption_enc_values_supported"),
   (c!"userinfo_signed_response_alg", c!"userinfo_signing_alg_values_supported"),
   (c!"userinfo_encrypted_response_alg", c!"userinfo_encryption_alg_values_supported"),
   (c!"userinfo_encrypted_response_enc", c!"userinfo_encryption_enc_values_supported"),
   (c!"id_token_signed_response_alg", c!"id_token_signing_alg_values_supported"),
   (c!"id_token_encrypted_response_alg", c!"id_token_encryption_alg_values_supported"),
   (c!"id_token_encrypted_response_enc", c!"id_token_encryption_enc_values_supported"),
   (c!"default_acr_values", c!"acr_values_supported"),
   (c!"subject_type", c!"subject_types_supported"),
   (c!"token_endpoint_auth_method", c!"token_endpoint_auth_methods_supported"),
   (c!"token_endpoint_auth_signing_alg", c!"token_endpoint_auth_signing_alg_values_supported"),
   (c!"response_types", c!"response_types_supported"),
   (c!"grant_types", c!"grant_types_supported")]

/-- The list of word sets of `match_sp_sep` (oidc/registration.py:60-68): a list gives the words of each element, a string one
singleton per word. -/
def spSets : RegVal → Option (List (List Str))
  | .strs l => some (l.map (pySplit c!" "))
  | .str s => some ((pySplit c!" " s).map fun w => [w])
  | _ => none

/-- `match_sp_sep` (oidc/registration.py:50-73); other types raise. -/
def matchSpSep (first second : RegVal) : Except Exn Bool :=
  match spSets first, spSets second with
  | some one, some other => .ok (one.all fun x => other.any fun y => sameSet x y)
  | _, _ => .error .attributeError

/-- The test of the other preferences (oidc/registration.py:143-151).  For a provider value that is a string, `in` is the
substring test, and the set of a string is the set of its characters. -/
def matchPref (v p : RegVal) : Except Exn Bool :=
  match v, p with
  | .str s, .strs l => .ok (l.contains s)
  | .str s, .str t => .ok (isInfix s t)
  | .strs l, .strs ps => .ok (l.all fun x => ps.contains x)
  | .strs l, .str t => .ok (l.all fun x => t.any fun ch => decide (x = [ch]))
  | _, _ => .error .typeError

/-- `match_client_request` (oidc/registration.py:135-151); `some p` is `CapabilitiesMisMatch(p)`. -/
def matchClientRequest (prov req : RegRec) : List (Str × Str) → Except Exn (Option Str)
  | [] => .ok none
  | (pref, pv) :: rest =>
    match req.get? pref with
    | none => matchClientRequest prov req rest
    | some v => match prov.get? pv with
      | none => .error .keyError
      | some p =>
        match (if pref = c!"response_types" ∨ pref = c!"default_acr_values" then matchSpSep v p else matchPref v p) with
        | .error e => .error e
        | .ok false => .ok (some pref)
        | .ok true => matchClientRequest prov req rest

/-- Python's sequencing of a step that may return an error message or raise. -/
def Out.andThen {α β : Type} (o : Out α) (f : α → Out β) : Out β :=
  match o with
  | .val a => f a
  | .errMsg e => .errMsg e
  | .raise e => .raise e

/-- One redirect URI (oidc/registration.py:269-306).  `native` is `client_type == "native"`. -/
def verifyRedirectUri (lib : RegLib) (native mustHttps : Bool) (uri : Str) : Except Exn RegUri :=
  let s := lib.scheme uri
  if native then
    if s ≠ c!"http" ∧ s ≠ c!"https" then .ok (uri, [])
    else if s = c!"http" ∧ (lib.hostname uri = c!"localhost" ∨ lib.hostname uri = c!"127.0.0.1") then .ok (lib.uri.splitUri uri)
    else .error .invalidRedirectURI
  else if mustHttps ∧ s ≠ c!"https" then .error .invalidRedirectURI
  else if s ≠ c!"http" ∧ s ≠ c!"https" then .error .invalidRedirectURI
  else if lib.uri.fragment uri ≠ [] then .error .invalidRedirectURI
  else .ok (lib.uri.splitUri uri)

/-- `verify_redirect_uris` (oidc/registration.py:257-308). -/
def verifyRedirectUris (lib : RegLib) (req : RegRec) (uris : List Str) : Except Exn (List RegUri) :=
  let ctype := (req.get? c!"application_type").getD (.str c!"web")
  let mustHttps := decide (ctype = .str c!"web") && !(decide (req.get? c!"response_types" = some (.strs [c!"code"])))
  go (decide (ctype = .str c!"native")) mustHttps uris
where
  go (native mustHttps : Bool) : List Str → Except Exn (List RegUri)
    | [] => .ok []
    | u :: us => match verifyRedirectUri lib native mustHttps u with
      | .error e => .error e
      | .ok r => match go native mustHttps us with
        | .error e => .error e
        | .ok rs => .ok (r :: rs)

/-- Copying the request's entries into the record (oidc/registration.py:158-162). -/
def copyEntries (ignore : List Str) (cinfo : RegRec) (req : RegRec) : RegRec :=
  cinfo.update (req.filter fun kv => !ignore.contains kv.1)

/-- The post-logout redirect URIs (oidc/registration.py:164-174). -/
def regPostLogout (lib : RegLib) (req cinfo : RegRec) : Out RegRec :=
  match req.get? c!"post_logout_redirect_uris" with
  | none => .val cinfo
  | some (.strs l) =>
    if l.any fun u => decide (lib.uri.fragment u ≠ []) then .errMsg c!"invalid_configuration_parameter"
    else .val (cinfo.set c!"post_logout_redirect_uris" (.uris (l.map lib.uri.splitUri)))
  | some _ => .raise .typeError

/-- The redirect URIs (oidc/registration.py:176-183). -/
def regRedirect (lib : RegLib) (req cinfo : RegRec) : Out RegRec :=
  match req.get? c!"redirect_uris" with
  | none => .val cinfo
  | some (.strs l) => match verifyRedirectUris lib req l with
    | .error _ => .errMsg c!"invalid_redirect_uri"
    | .ok us => .val (cinfo.set c!"redirect_uris" (.uris us))
  | some _ => .raise .typeError

/-- The request URIs (oidc/registration.py:185-201). -/
def regRequestUris (lib : RegLib) (req cinfo : RegRec) : Out RegRec :=
  match req.get? c!"request_uris" with
  | none => .val cinfo
  | some (.strs l) =>
    if l.any fun u => decide (lib.query u ≠ []) then .errMsg c!"invalid_configuration_parameter"
    else .val (cinfo.set c!"request_uris"
      (.parts (l.map fun u => if lib.uri.fragment u ≠ [] then pySplit c!"#" u else [u, []])))
  | some _ => .raise .typeError

/-- The sector identifier (oidc/registration.py:203-212, 310-347). -/
def regSector (lib : RegLib) (req cinfo : RegRec) : Out RegRec :=
  match req.get? c!"sector_identifier_uri" with
  | none => .val cinfo
  | some (.str si) => match lib.sector si with
    | none => .errMsg c!"invalid_configuration_parameter"
    | some rs =>
      match req.get? c!"redirect_uris" with
      | some (.strs l) =>
        if l.all fun u => rs.contains u then
          .val ((cinfo.set c!"si_redirects" (.strs rs)).set c!"sector_id" (.str si))
        else .errMsg c!"invalid_configuration_parameter"
      | _ => .val ((cinfo.set c!"si_redirects" (.strs rs)).set c!"sector_id" (.str si))
  | some _ => .raise .typeError

/-- `verify_url` (oidc/registration.py:76-84). -/
def verifyUrl (lib : RegLib) (url : Str) (urls : List RegUri) : Bool :=
  urls.any fun r => decide (lib.scheme url = lib.scheme r.1) && decide (lib.netloc url = lib.netloc r.1)

/-- The informational URIs (oidc/registration.py:214-222). -/
def regInfoUris (lib : RegLib) (req : RegRec) : List Str → RegRec → Out RegRec
  | [], cinfo => .val cinfo
  | item :: rest, cinfo =>
    match req.get? item with
    | none => regInfoUris lib req rest cinfo
    | some (.str u) => match cinfo.get? c!"redirect_uris" with
      | some (.uris us) =>
        if verifyUrl lib u us then regInfoUris lib req rest (cinfo.set item (.str u))
        else .errMsg c!"invalid_configuration_parameter"
      | _ => .raise .keyError
    | some _ => .raise .typeError

/-- Algorithms for which the provider has no key are dropped (oidc/registration.py:224-243). -/
def regAlgs (lib : RegLib) (prov req : RegRec) : List (Str × Str) → RegRec → Out RegRec
  | [], cinfo => .val cinfo
  | (item, pv) :: rest, cinfo =>
    match req.get? item with
    | none => regAlgs lib prov req rest cinfo
    | some (.str a) => match prov.get? pv with
      | none => .raise .keyError
      | some p => match matchPref (.str a) p with
        | .error e => .raise e
        | .ok false => regAlgs lib prov req rest cinfo
        | .ok true =>
          if lib.haveKey a then regAlgs lib prov req rest cinfo
          else regAlgs lib prov req rest (cinfo.filter fun kv => decide (kv.1 ≠ item))
    | some _ => .raise .typeError

/-- `do_client_registration` (oidc/registration.py:153-255).  Not modelled: the keys loaded into the key jar. -/
def doClientRegistration (lib : RegLib) (prov : RegRec) (req cinfo : RegRec) (ignore : List Str) : Out RegRec :=
  (regPostLogout lib req (copyEntries ignore cinfo req)).andThen fun c =>
  (regRedirect lib req c).andThen fun c =>
  (regRequestUris lib req c).andThen fun c =>
  (regSector lib req c).andThen fun c =>
  (regInfoUris lib req [c!"policy_uri", c!"logo_uri", c!"tos_uri"] c).andThen fun c =>
  (regAlgs lib prov req
    [(c!"id_token_signed_response_alg", c!"id_token_signing_alg_values_supported"),
     (c!"userinfo_signed_response_alg", c!"userinfo_signing_alg_values_supported")] c).andThen fun c =>
  if lib.loadKeys (req.get? c!"jwks_uri") (req.get? c!"jwks") then .val c else .raise .valueError

/-- One parameter of `comb_uri` (oidc/registration.py:94-108). -/
def combOne (lib : RegLib) (args : RegRec) (k : Str) : RegRec := match args.get? k with
  | some (.uris l) => args.set k (.strs (l.map fun r => joinQuery lib.uri r.1 r.2))
  | _ => args

/-- `comb_uri` (oidc/registration.py:93-119) on the redirect URIs and request URIs of a response; request URIs that do not
have exactly two parts raise. -/
def combUri (lib : RegLib) (args : RegRec) : Option RegRec :=
  let args := combOne lib (combOne lib args c!"redirect_uris") c!"post_logout_redirect_uris"
  match args.get? c!"request_uris" with
  | some (.parts l) =>
    if l.all fun p => decide (p.length = 2) then
      some (args.set c!"request_uris" (.strs (l.map fun p => match p with
        | [b, f] => if f ≠ [] then b ++ '#' :: f else b
        | _ => [])))
    else none
  | _ => some args

/-- `Message.rm_blanks` (oidcmsg): entries that are empty strings or lists of one empty string are removed. -/
def rmBlanks (req : RegRec) : RegRec :=
  req.filter fun kv => !(decide (kv.2 = .str []) || decide (kv.2 = .strs [[]]))

/-- What registration changes: the client database, the registration access tokens, the symmetric keys added to the key jar
(newest last). -/
structure RegState where
  cdb : Dict RegRec := []
  rat : Dict Str := []
  keys : List (Str × Str) := []
deriving DecidableEq

/-- The inputs of one registration: the time, and the random strings: candidate client ids, salt, registration access token,
secret. -/
structure RegIn where
  now : Int
  ids : List Str
  salt : Str
  rat : Str
  secret : Str

/-- The record stored before the request is looked at (oidc/registration.py:403-419, 349-357, 369-378). -/
def initialRecord (cfg : RegCfg) (i : RegIn) (newId setSecret : Bool) (cid : Str) : RegRec :=
  let c : RegRec := [(c!"client_id", .str cid), (c!"client_salt", .str i.salt)]
  let c := match cfg.readPath with
    | none => c
    | some p => (c.set c!"registration_access_token" (.str i.rat)).set c!"registration_client_uri"
        (.str (p ++ c!"?client_id=" ++ cid))
  let c := if newId then c.set c!"client_id_issued_at" (.int i.now) else c
  if setSecret then
    let c := c.set c!"client_secret" (.str i.secret)
    if cfg.secretEnd i.now ≠ 0 then c.set c!"client_secret_expires_at" (.int (cfg.secretEnd i.now)) else c
  else c

/-- The entries a request may not set by itself (oidc/registration.py:427). -/
def ignoredEntries : List Str := [c!"redirect_uris", c!"policy_uri", c!"logo_uri", c!"tos_uri"]

/-- The client id for the request and the request as it goes on (oidc/registration.py:390-402).  With a new id the first
candidate not in use is taken (`none`: the loop goes on); otherwise a missing client id is a `ValueError`. -/
def chooseId (s : RegState) (i : RegIn) (newId : Bool) (req : RegRec) : Option (Except Exn (Str × RegRec)) :=
  if newId then
    (i.ids.find? fun c => !(s.cdb.get? c).isSome).map fun c => .ok (c, req.filter fun kv => decide (kv.1 ≠ c!"client_id"))
  else match req.get? c!"client_id" with
    | some (.str (x :: xs)) => some (.ok (x :: xs, req))
    | _ => some (.error .valueError)

/-- `client_registration_setup` (oidc/registration.py:380-455) after `request.verify()` has succeeded: the new state and the
response.  The two writes to the client database are as in the code. -/
def registrationSetup (lib : RegLib) (cfg : RegCfg) (s : RegState) (i : RegIn) (newId setSecret : Bool) (req : RegRec) :
    RegState × Out RegRec :=
  let req := rmBlanks req
  match matchClientRequest cfg.prov req preference2provider with
  | .error e => (s, .raise e)
  | .ok (some _) => (s, .errMsg c!"invalid_request")
  | .ok none => match chooseId s i newId req with
    | none => (s, .raise .recursionError)
    | some (.error e) => (s, .raise e)
    | some (.ok (cid, req)) =>
      let c0 := initialRecord cfg i newId setSecret cid
      let s1 := { s with cdb := s.cdb.set cid c0, rat := if cfg.readPath.isSome then s.rat.set i.rat cid else s.rat }
      match doClientRegistration lib cfg.prov req c0 ignoredEntries with
      | .errMsg e => (s1, .errMsg e)
      | .raise e => (s1, .raise e)
      | .val cinfo => match combUri lib (cinfo.filter fun kv => lib.responseParam kv.1) with
        | none => (s1, .raise .valueError)
        | some resp =>
          ({ s1 with cdb := s1.cdb.set cid cinfo
                     keys := if setSecret ∧ i.secret ≠ [] then s1.keys ++ [(cid, i.secret)] else s1.keys }, .val resp)

/-- `Registration.process_request` (oidc/registration.py:457-476): exceptions become an error response.  `verified` says
whether `request.verify()` succeeds. -/
def registrationProcess (lib : RegLib) (cfg : RegCfg) (s : RegState) (i : RegIn) (newId setSecret verified : Bool) (req : RegRec) :
    RegState × Except Str RegRec :=
  if verified = false then (s, .error c!"invalid_configuration_request")
  else match registrationSetup lib cfg s i newId setSecret req with
  | (s', .val r) => (s', .ok r)
  | (s', .errMsg e) => (s', .error e)
  | (s', .raise _) => (s', .error c!"invalid_configuration_request")

/-- A stored record as the other endpoints read it (the entries that `Client` has). -/
def RegRec.client (r : RegRec) : Client :=
  let str (k : Str) : Option Str := match r.get? k with
    | some (.str s) => some s
    | _ => none
  let strs (k : Str) : List Str := match r.get? k with
    | some (.strs l) => l
    | _ => []
  let uris (k : Str) : List RegUri := match r.get? k with
    | some (.uris l) => l
    | _ => []
  { redirectUris := uris c!"redirect_uris"
    postLogoutRedirectUris := uris c!"post_logout_redirect_uris"
    responseTypes := strs c!"response_types"
    allowedScopes := strs c!"allowed_scopes"
    requestUris := match r.get? c!"request_uris" with
      | some (.parts l) => l.filterMap List.head?
      | _ => []
    clientSecret := str c!"client_secret"
    clientSecretExpiresAt := match r.get? c!"client_secret_expires_at" with
      | some (.int n) => n
      | _ => 0
    subjectType := str c!"subject_type"
    sectorIdentifierUri := str c!"sector_identifier_uri"
    backchannelLogoutUri := str c!"backchannel_logout_uri"
    frontchannelLogoutUri := str c!"frontchannel_logout_uri" }

end Verif
