import Verif.Model.IdToken
/-! The ID token as the endpoints get it. -/
namespace Verif

/-- The outcome of `idtoken.make` (id_token.py:239-277) for an endpoint (oidc/token.py:153-164, 248-259; oauth2/authorization.py:
705-727): `sign` is the JWT library, which gives a string, a signing failure that is caught (an error message), or another
exception. -/
def idTokenSigned (icfg : IdTokenCfg) (sign : ToSign → Out Str) (cdb : Cdb) (s : Store) (sid : Str) (code tok : Option Str) : Out Str :=
  match idTokenMake icfg cdb s sid code tok with
  | .error e => .raise e
  | .ok t => sign t

end Verif
