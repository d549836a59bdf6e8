import Verif.Model.Cookie
/-! The attributes of cookies (`cookie.py`). -/
namespace Verif

/-- A cookie as it is sent: a `Morsel` of `http.cookies`.  `expires` is the point in time the attribute names. -/
structure Morsel where
  value : Str
  expires : Option Int := none
  path : Option Str := none
  domain : Option Str := none
  sameSite : Option Str := none
  secure : Bool := true
  httpOnly : Bool := true
deriving DecidableEq, Repr

/-- A `SimpleCookie`: cookies by name. -/
abbrev Jar := Dict Morsel

/-- `CookieDealer.default_value` (cookie.py:380-384). -/
structure CookieDefaults where
  path : Str := []
  domain : Str := []
  maxAge : Int := 0
deriving DecidableEq, Repr

/-- `make_cookie_content` (cookie.py:160-239) for a given value: `max_age` is in seconds, and `0` means no expiry.
`expire` is never given by the callers and left out.  Simplification: the text format of the date is not modelled. -/
def makeCookieContent (now : Int) (value : Str) (domain path : Option Str) (maxAge : Int) (sameSite : Str) (httpOnly : Bool) :
    Morsel :=
  { value := value,
    expires := if maxAge ≠ 0 then some (now + maxAge) else none,
    path := path, domain := domain,
    sameSite := if sameSite ≠ [] then some sameSite else none,
    secure := true, httpOnly := httpOnly }

/-- The time to live that `create_cookie` uses (cookie.py:418-421). -/
def cookieTtl (df : CookieDefaults) (ttl : Int) (kill : Bool) : Int :=
  if kill then -1 else if ttl < 0 then df.maxAge else ttl

/-- `c_args["domain"]` (cookie.py:428-430). -/
def cookieDomain (df : CookieDefaults) : Option Str :=
  if df.domain ≠ [] ∧ df.domain ∉ [c!"localhost", c!"127.0.0.1", c!"0.0.0.0"] then some df.domain else none

/-- `CookieDealer.create_cookie` (cookie.py:399-460) with a cookie name. -/
def createCookie (cr : CookieCrypto) (d : CookieDealer) (df : CookieDefaults) (now : Int) (iv value typ name : Str) (ttl : Int)
    (kill : Bool) (sameSite : Str) (httpOnly : Bool) : Except Exn Jar :=
  match createCookieValue cr d now iv value typ with
  | .error e => .error e
  | .ok v => .ok [(name, makeCookieContent now v (cookieDomain df) (if df.path ≠ [] then some df.path else none)
      (cookieTtl df ttl kill) sameSite httpOnly)]

/-- `CookieDealer.delete_cookie` (cookie.py:386-397). -/
def deleteCookie (cr : CookieCrypto) (d : CookieDealer) (df : CookieDefaults) (now : Int) (iv name : Str) : Except Exn Jar :=
  createCookie cr d df now iv [] [] name (-1) true [] true

/-- One round of `append_cookie`: `kaka1[name] = name`, then every attribute is copied (cookie.py:573-578).  All attributes
of the new cookie are copied, empty ones included, so that nothing of a cookie with this name is left. -/
def appendOne (jar : Jar) (name : Str) (m : Morsel) : Jar := Dict.set jar name { m with value := name }

/-- `append_cookie` (cookie.py:573-580). -/
def appendCookie (jar1 jar2 : Jar) : Jar := jar2.foldl (fun j p => appendOne j p.1 p.2) jar1

/-- `Session.kill_cookies` (oidc/session.py:393-409). -/
def killCookies (cr : CookieCrypto) (d : CookieDealer) (df : CookieDefaults) (now : Int) (iv1 iv2 mgmt session : Str) :
    Except Exn Jar :=
  match createCookie cr d df now iv1 c!"none" c!"session" mgmt 0 false [] true with
  | .error e => .error e
  | .ok j1 => match createCookie cr d df now iv2 c!"none" c!"session" session 0 false [] true with
    | .error e => .error e
    | .ok j2 => .ok (appendCookie j1 j2)

end Verif
