import Verif.Model.ClientAuthn
/-! What a request presents, and histories of client authentications. -/
namespace Verif.Spec

/-- The request presents the client id `c` with the secret `s`: in an HTTP Basic header (RFC 6749 section 2.3.1, form-encoded
and separated by a colon) or in its parameters. -/
def Presents (lib : AuthnLib) (r : AuthnReq) (c s : Str) : Prop :=
  (∃ b x y, r.authorization = some (c!"Basic " ++ b) ∧ lib.b64decode b = some (x ++ c!":" ++ y) ∧ ':' ∉ x ∧ ':' ∉ y ∧
    lib.unquotePlus x = c ∧ lib.unquotePlus y = s) ∨
  (r.clientId = some c ∧ r.clientSecret = some s)

/-- The client's secret has not expired. -/
def NotExpired (cl : Client) (now : Int) : Prop := cl.clientSecretExpiresAt = 0 ∨ now ≤ cl.clientSecretExpiresAt

/-- Only methods based on the client secret itself. -/
def SecretOnly (ms : List (Option AuthnMethod)) : Prop :=
  ∀ m ∈ ms, m = some .clientSecretBasic ∨ m = some .clientSecretPost

/-- One client authentication with everything it depends on. -/
structure AuthnStep where
  cdb : Cdb
  now : Int
  methods : List (Option AuthnMethod)
  targets : List Str
  fromToken : Str → Except Exn Str
  req : AuthnReq

/-- The seen `jti` keys after a history. -/
def jtisAfter (lib : AuthnLib) (l : List AuthnStep) : List Str :=
  l.foldl (fun j st => (verifyClient lib st.cdb st.now st.methods st.targets st.fromToken j st.req).1) []

/-- The assertion accepted by step `k` of a history, with the method. -/
def acceptedAt (lib : AuthnLib) (l : List AuthnStep) (k : Nat) : Option (Str × Assertion) :=
  match l[k]? with
  | none => none
  | some st =>
    match (verifyClient lib st.cdb st.now st.methods st.targets st.fromToken (jtisAfter lib (l.take k)) st.req).2 with
    | .ok (some i) => i.assertion.map fun a => (i.method, a)
    | _ => none

end Verif.Spec
