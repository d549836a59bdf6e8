import Verif.Model.Provider
/-! Words for C164: requests that are refused. -/
namespace Verif.Spec
open Verif

/-- In this state the request does not get what it asks for, and is told so: the authorization endpoint shows a login page or gives
an error, the token endpoint gives an error (or raises) when it reads the request or gives an error when it processes it.  The
other endpoints (registration, pushing, userinfo, introspection) count as refusing whatever they answer: they are not meant to
change sessions.  A logout and a restart are never refused. -/
def RefusedIn (cfg : ProvCfg) (st : Prov) : HttpOp → Prop
  | .authorize now gid mc ma idt raw req =>
    (authorizeEndpoint cfg st now gid mc ma idt raw req).2.2.2 = .login ∨
      ∃ e, (authorizeEndpoint cfg st now gid mc ma idt raw req).2.2.2 = .error e
  | .tokenParse now r req => ∀ q, (tokenParseEndpoint cfg st now r req).2 ≠ .val q
  | .tokenProcess i req => ∃ e, (tokProcess cfg.sys.mode cfg.sys.env cfg.sys.helpers st.sys.store i req).2 = .errMsg e
  | .logout .. => False
  | .restart => False
  | .register .. => True
  | .push .. => True
  | .userinfo .. => True
  | .introspect .. => True

/-- Making the ID token that goes with the tokens fails in the way that is reported to the client (no key to sign or encrypt with). -/
def IdTokenFails : HttpOp → Prop
  | .tokenProcess i _ => ∃ e, i.idt = .errMsg e
  | _ => False

end Verif.Spec
