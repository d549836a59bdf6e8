import Verif.Model.Client
import Verif.Model.Uri
import Verif.Spec.Uri
/-! Notions used in the statements about logout. -/
namespace Verif.Spec

/-- The client has registered a back- or front-channel logout URI. -/
def HasLogoutUri (cl : Client) : Prop := cl.backchannelLogoutUri ≠ none ∨ cl.frontchannelLogoutUri ≠ none

/-- The decoded URI has no fragment and is (base and query) one of the client's post-logout redirect URIs. -/
def PostLogoutRegistered (lib : UriLib) (cl : Client) (uri : Str) : Prop :=
  lib.fragment (lib.unquote uri) = [] ∧
    ∃ rq, ((lib.splitUri (lib.unquote uri)).1, rq) ∈ cl.postLogoutRedirectUris ∧ SameQuery (lib.splitUri (lib.unquote uri)).2 rq

end Verif.Spec
