import Verif.Model.NoAuthn
import Verif.Spec.Grant
import Verif.Spec.UserAuthn
/-! Words for C161: a provider whose authentication method takes everybody for one configured user. -/
namespace Verif.Spec
open Verif

/-- The browser gets an authorization response (of whatever content). -/
def Answered (a : NoAuthnAnswer) : Prop := ∃ r, a = .answer (.reply r)

/-- `raw` is a session cookie that the provider set at time `t0`. -/
def SetCookie (c : NoAuthnCfg) (t0 : Int) (value typ raw : Str) : Prop :=
  ∃ iv, createCookieValue c.cr c.dealer t0 iv value typ = .ok raw

/-- The cookie's value is the encoding of an object that names the session `sid` and no user: what the authorization
endpoint sets. -/
def NamesOnlySession (lib : IdentLib) (value sid : Str) : Prop :=
  ∃ bytes, lib.b64d value = some bytes ∧ lib.json bytes = .ok (none, some sid)

/-- The cookie's value is something else than an object that names a user or a session: what the token endpoint sets, or
a bare user name. -/
def NamesNothing (lib : IdentLib) (value : Str) : Prop :=
  ∀ bytes o, lib.b64d value = some bytes → lib.json bytes = .ok o → o = (none, none)

end Verif.Spec
