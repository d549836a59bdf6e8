import Verif.Spec.Registration
/-! What is wrong with a registration request, in the words of OpenID Connect Dynamic Client Registration 1.0. -/
namespace Verif.Spec

/-- The parameters of the request have the types the specification gives them, none is there twice and none is empty; the provider has a
list for every preference stated; a request URI has at most one `#`. -/
structure WellFormedReg (prov : RegRec) (lib : RegLib) (req : RegRec) : Prop where
  once : (req.map (·.1)).Nodup
  full : ∀ k v, req.get? k = some v → ¬ Blank v
  redirects : ∃ l, req.get? c!"redirect_uris" = some (.strs l)
  lists : ∀ k ∈ [c!"post_logout_redirect_uris", c!"request_uris"], ∀ v, req.get? k = some v → ∃ l, v = .strs l
  strings : ∀ k ∈ [c!"sector_identifier_uri", c!"policy_uri", c!"logo_uri", c!"tos_uri", c!"id_token_signed_response_alg",
    c!"userinfo_signed_response_alg"], ∀ v, req.get? k = some v → ∃ s, v = .str s
  prefs : ∀ pref pv v, (pref, pv) ∈ registrationPreferences → req.get? pref = some v →
    ((∃ s, v = .str s) ∨ ∃ l, v = .strs l) ∧ ∃ ps, prov.get? pv = some (.strs ps)
  hashes : ∀ l u, req.get? c!"request_uris" = some (.strs l) → u ∈ l → lib.uri.fragment u ≠ [] → (pySplit c!"#" u).length = 2

/-- The client asks for something the provider does not support. -/
def AsksUnsupported (prov req : RegRec) : Prop :=
  ∃ pref pv v ps, (pref, pv) ∈ registrationPreferences ∧ req.get? pref = some v ∧ prov.get? pv = some (.strs ps) ∧
    ((wordwise pref ∧ ¬ SupportedWords v ps) ∨ (¬ wordwise pref ∧ ¬ Supported v ps))

/-- A post-logout redirect URI with a fragment. -/
def LogoutFragment (lib : RegLib) (req : RegRec) : Prop :=
  ∃ l, req.get? c!"post_logout_redirect_uris" = some (.strs l) ∧ ∃ u ∈ l, lib.uri.fragment u ≠ []

/-- A redirect URI that is not allowed for the type of application. -/
def ForbiddenRedirect (lib : RegLib) (req : RegRec) : Prop :=
  ∃ l, req.get? c!"redirect_uris" = some (.strs l) ∧ ∃ u ∈ l, ¬ RedirectAllowed lib req u

/-- A request URI with a query. -/
def RequestUriQuery (lib : RegLib) (req : RegRec) : Prop :=
  ∃ l, req.get? c!"request_uris" = some (.strs l) ∧ ∃ u ∈ l, lib.query u ≠ []

/-- The sector identifier document cannot be read, or does not list one of the redirect URIs. -/
def WrongSector (lib : RegLib) (req : RegRec) : Prop :=
  ∃ si, req.get? c!"sector_identifier_uri" = some (.str si) ∧
    (lib.sector si = none ∨
     ∃ rs l, lib.sector si = some rs ∧ req.get? c!"redirect_uris" = some (.strs l) ∧ ∃ u ∈ l, u ∉ rs)

/-- The part of a redirect URI before its query; the redirect URIs of native applications with a scheme of their own are left as they
are. -/
def redirectBase (lib : RegLib) (req : RegRec) (u : Str) : Str :=
  if appType req = .str c!"native" ∧ lib.scheme u ≠ c!"http" ∧ lib.scheme u ≠ c!"https" then u else (lib.uri.splitUri u).1

/-- An informational URI that is not on the site of one of the redirect URIs. -/
def ForeignInfoUri (lib : RegLib) (req : RegRec) : Prop :=
  ∃ it u l, it ∈ [c!"policy_uri", c!"logo_uri", c!"tos_uri"] ∧ req.get? it = some (.str u) ∧
    req.get? c!"redirect_uris" = some (.strs l) ∧
    ∀ r ∈ l, ¬ (lib.scheme u = lib.scheme (redirectBase lib req r) ∧ lib.netloc u = lib.netloc (redirectBase lib req r))

/-- A request URI without its fragment. -/
def beforeFragment (lib : RegLib) (u : Str) : Str := if lib.uri.fragment u = [] then u else u.takeWhile (· ≠ '#')

/-- There is an id for the client: a new one that is free, or the one in the request. -/
def HasId (s : RegState) (i : RegIn) (newId : Bool) (req : RegRec) : Prop :=
  (newId = true ∧ ∃ c ∈ i.ids, s.cdb.get? c = none) ∨
  (newId = false ∧ ∃ c, c ≠ [] ∧ req.get? c!"client_id" = some (.str c))

end Verif.Spec
