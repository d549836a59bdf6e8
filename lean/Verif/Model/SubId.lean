import Verif.Model.Authorization
/-! Subject identifiers (session/manager.py:26-61), the contents of the session cookie, and the form of `form_post`. -/
namespace Verif

/-- `"%s" % x` for an optional string. -/
def pyFmt : Option Str → Str
  | none => c!"None"
  | some s => s

/-- `public_id` (session/manager.py:30-31); `hash` is the hexadecimal SHA-256 of a string. -/
def publicId (hash : Str → Str) (salt : Str) (uid : Str) (_sector : Option Str) : Str := hash (uid ++ salt)

/-- `pairwise_id` (session/manager.py:26-27). -/
def pairwiseId (hash : Str → Str) (salt : Str) (uid : Str) (sector : Option Str) : Str :=
  hash (uid ++ pyFmt sector ++ salt)

/-- The default subject functions (session/manager.py:48-53).  `eph` is the fresh `uuid4().hex` of `ephemeral_id`; `salt`
is drawn anew whenever a session manager is created (line 43). -/
def defaultSubFuncs (hash : Str → Str) (salt eph : Str) : SubFuncs := fun t =>
  if t = c!"public" then some (publicId hash salt)
  else if t = c!"pairwise" then some (pairwiseId hash salt)
  else if t = c!"ephemeral" then some fun _ _ => eph
  else none

/-- The subject functions of a session manager (session/manager.py:46-61): those the application gives, and the default ones for the
three types it does not define. -/
def configuredSubFuncs (hash : Str → Str) (salt eph : Str) (conf : SubFuncs) : SubFuncs := fun t => match conf t with
  | some f => some f
  | none => defaultSubFuncs hash salt eph t

/-- What `setup_auth` makes of the JSON object in the session cookie (oauth2/authorization.py:502-514). -/
def identOf (cookie : Dict Str) : Ident := .decoded (cookie.get? c!"uid") (cookie.get? c!"sid")

/-- The object `post_authentication` puts into the session cookie (oauth2/authorization.py:794-799). -/
def authzCookie (sid : Str) (state : Option Str) : Dict Str :=
  (c!"sid", sid) :: (match state with
    | some s => [(c!"state", s)]
    | none => [])

/-- The object the token endpoint puts into the session cookie (oidc/token.py:419-423). -/
def tokenCookie (sub : Str) : Dict Str := [(c!"sub", sub)]

/-- `inputs` (oauth2/authorization.py:71-80): the hidden fields of the form, one per parameter, values as they are. -/
def formInputs (args : Dict Str) : Str :=
  pyJoin c!"\n" (args.map fun kv =>
    c!"<input type=\"hidden\" name=\"" ++ kv.1 ++ c!"\" value=\"" ++ kv.2 ++ c!"\"/>")

end Verif
