import Verif.Model.Provider
import Verif.Spec.Provenance
import Verif.Spec.ClientAuthn
import Verif.Spec.Registration
import Verif.Spec.Uri
import Verif.Spec.Store
/-! What the users of the provider see: cookies shown, logins on the web, registered clients. -/
namespace Verif.Spec

/-- The browser's cookie is one that opens under the provider's cookie keys, and has this value. -/
def CookieSays (cfg : ProvCfg) (raw : Option Str) (value : Str) : Prop :=
  ∃ r ts typ, raw = some r ∧ getCookieValue cfg.acfg.cr cfg.acfg.dealer r = .ok (some (value, ts, typ))

/-- The browser shows the cookie of a user who has been authenticated. -/
def ShowsLogin (cfg : ProvCfg) (raw : Option Str) (u : Str) : Prop :=
  CookieSays cfg raw u ∧ cfg.acfg.lib.b64d u = none

/-- The browser shows the cookie of a user with a session: a JSON object with "uid" and "sid", in base64. -/
def ShowsSession (cfg : ProvCfg) (raw : Option Str) (u : Str) (sid : Option Str) : Prop :=
  ∃ v b, CookieSays cfg raw v ∧ cfg.acfg.lib.b64d v = some b ∧ cfg.acfg.lib.json b = .ok (some u, sid)

/-- The request at the authorization endpoint, parsed (request objects and pushed requests fetched, PKCE and redirect URI
checked). -/
def Parsed (cfg : ProvCfg) (st : Prov) (req q : AuthReq) : Prop :=
  (authzParse cfg.sys.env st.cdb st.par req).2 = .val q

/-- The provider's clients have their ids from the configuration, or from a registration. -/
def NamedIn (cfg : ProvCfg) (ops : List HttpOp) (c : Str) : Prop :=
  (cfg.clients.get? c).isSome = true ∨
  ∃ i n ss v req, HttpOp.register i n ss v req ∈ ops ∧ (c ∈ i.ids ∨ (c!"client_id", RegVal.str c) ∈ req)

/-- The grant id a request brings. -/
def httpGid : HttpOp → List Str
  | .authorize _ gid _ _ _ _ _ => [gid]
  | _ => []

/-- Which histories of requests are considered: grant ids are unique, not empty and without semicolon (hexadecimal UUIDs);
token strings have no blanks; the names of users and clients contain no `;;` and do not end in `;`; and the user and the
session that a cookie names belong together. -/
structure WebRun (cfg : ProvCfg) (ops : List HttpOp) : Prop where
  nodup : (ops.flatMap httpGid).Nodup
  good : ∀ gid ∈ ops.flatMap httpGid, gid ≠ [] ∧ ';' ∉ gid
  blank : BlankFree cfg.sys.env
  users : ∀ now gid mc ma idt raw req, HttpOp.authorize now gid mc ma idt raw req ∈ ops →
    ∀ u, (ShowsLogin cfg raw u ∨ ∃ s, ShowsSession cfg raw u s) → UserName u
  cookies : ∀ now gid mc ma idt raw req, HttpOp.authorize now gid mc ma idt raw req ∈ ops →
    ∀ u s, ShowsSession cfg raw u (some s) → ownerOf s = u
  clients : ∀ c, NamedIn cfg ops c → UserName c

/-- Before request `i`: at the authorization endpoint the client `c`, known then, asked for a login, and the browser showed
who its user is: `u`; that made the session `sid` with subject identifier `sub`.  In that request or an earlier one `u`'s
browser showed the cookie of an authentication, which `ev` records. -/
structure WebLogin (cfg : ProvCfg) (ops : List HttpOp) (i : Nat) (sid u c sub : Str) (ev : Option AuthnEvent) : Prop where
  login : ∃ k now gid mc ma idt raw req q f, k < i ∧ ops[k]? = some (.authorize now gid mc ma idt raw req) ∧
    Parsed cfg (provRun cfg (ops.take k)) req.areq q ∧ q.clientId = c ∧ ((provRun cfg (ops.take k)).cdb c).isSome = true ∧
    sid = sessionKey [u, c, gid] ∧ (ShowsLogin cfg raw u ∨ ∃ s, ShowsSession cfg raw u (some s)) ∧
    cfg.sys.env.sf c!"public" = some f ∧ sub = f u q.sectorIdentifierUri
  authn : ∃ k now gid mc ma idt raw req, k < i ∧ ops[k]? = some (.authorize now gid mc ma idt raw req) ∧
    ShowsLogin cfg raw u ∧ ev = some (loginEvent now u { ident := .plain u, acr := cfg.acfg.acr, expiresIn := cfg.acfg.expiresIn })

/-- The request shows this access token: after "Bearer " in the Authorization header, or as the parameter `access_token`, where
the endpoint allows that. -/
def Bears (methods : List (Option AuthnMethod)) (r : AuthnReq) (t : Str) : Prop :=
  (some .bearerHeader ∈ methods ∧ r.authorization = some (c!"Bearer " ++ t)) ∨
  (some .bearerBody ∈ methods ∧ r.accessToken = some t)

/-- The token response given by the `i`-th request of a history, with the (parsed) token request it answers. -/
def tokensAt (cfg : ProvCfg) (ops : List HttpOp) (i : Nat) : Option (TokReq × TokResp) :=
  match ops[i]? with
  | some (.tokenProcess inp req) => sysResponse cfg.sys (provRun cfg (ops.take i)).sys (.tokProcess inp req)
  | _ => none

/-- Before request `i` the client was registered with this redirect URI: the registration succeeded and told the client its
id. -/
def RegisteredWith (cfg : ProvCfg) (ops : List HttpOp) (i : Nat) (c : Str) (rq : RegRec) (uri : Str) : Prop :=
  ∃ j inp n ss v resp l, j < i ∧ ops[j]? = some (.register inp n ss v rq) ∧
    (registrationProcess cfg.regLib cfg.regCfg (provRun cfg (ops.take j)).reg inp n ss v rq).2 = .ok resp ∧
    resp.get? c!"client_id" = some (.str c) ∧ rq.get? c!"redirect_uris" = some (.strs l) ∧ uri ∈ l

/-- The URI `uri` (decoded) is the registered one: same address, same query, no fragment.  The URIs of native applications
with a scheme of their own are kept whole. -/
def IsRegistered (lib : RegLib) (rq : RegRec) (registered uri : Str) : Prop :=
  lib.uri.fragment (lib.uri.unquote uri) = [] ∧
  if appType rq = .str c!"native" ∧ lib.scheme registered ≠ c!"http" ∧ lib.scheme registered ≠ c!"https" then
    (lib.uri.splitUri (lib.uri.unquote uri)).1 = registered ∧ SameQuery (lib.uri.splitUri (lib.uri.unquote uri)).2 []
  else
    (lib.uri.splitUri (lib.uri.unquote uri)).1 = (lib.uri.splitUri registered).1 ∧
    SameQuery (lib.uri.splitUri (lib.uri.unquote uri)).2 (lib.uri.splitUri registered).2

/-- A client known to the provider shows its secret, which has not expired. -/
def ShowsSecret (cfg : ProvCfg) (st : Prov) (now : Int) (r : AuthnReq) (c : Str) : Prop :=
  ∃ cl s, st.cdb c = some cl ∧ cl.clientSecret = some s ∧ Presents cfg.lib r c s ∧ NotExpired cl now

/-- Names are usable: not empty and without semicolon.  That is said of the grant ids (hexadecimal UUIDs), of the users that cookies
name, and of the clients. -/
structure GoodNames (cfg : ProvCfg) (ops : List HttpOp) : Prop where
  gids : ∀ gid ∈ ops.flatMap httpGid, GoodId gid
  users : ∀ now gid mc ma idt raw req, HttpOp.authorize now gid mc ma idt raw req ∈ ops →
    ∀ u, (ShowsLogin cfg raw u ∨ ∃ s, ShowsSession cfg raw u s) → GoodId u
  clients : ∀ c, NamedIn cfg ops c → GoodId c

end Verif.Spec
