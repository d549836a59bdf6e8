import Verif.Model.UserAuthn
import Verif.Model.UserInfo
/-! What "logged in", "too old" and "the user's data" mean. -/
namespace Verif.Spec

/-- The request (or, if there is one, its signed request object) says `max_age=m`; a request object that says 0 says nothing. -/
def DemandsAge (r : UserReq) (m : Int) : Prop :=
  r.objMaxAge = some m ∨ ((r.objMaxAge = none ∨ r.objMaxAge = some 0) ∧ r.areq.maxAge = m)

/-- `raw` is a session cookie that the provider set at time `t0` for the value `value`, of type `typ`. -/
def LoginCookie (c : AuthnCfg) (t0 : Int) (value typ raw : Str) : Prop :=
  ∃ iv, createCookieValue c.cr c.dealer t0 iv value typ = .ok raw

/-- The user is sent to the login page, or told that a login is needed if no page may be shown. -/
def AsksForLogin (r : UserReq) (a : AuthzAnswer) : Prop :=
  a = if c!"none" ∈ r.areq.prompt then .error c!"login_required" else .login

/-- The user was taken to be logged in: the answer goes to the client. -/
def TakenAsLoggedIn (a : AuthzAnswer) : Prop := ∃ rep, a = .reply rep

/-- The value `v` of a user's record is what is wanted: equal, or an element of the list, or a list containing all of them. -/
inductive Fits : Val → Val → Prop where
  | same (v : Val) : v.list? = none → Fits v v
  | member (w v : Val) (vs : List Val) : v.list? = some vs → w.list? = none → w ∈ vs → Fits w v
  | sublist (w v : Val) (ws vs : List Val) : v.list? = some vs → w.list? = some ws → (∀ x ∈ ws, x ∈ vs) → Fits w v

/-- A JSON list or object. -/
inductive Container : Val → Prop where
  | emptyList : Container .lnil
  | list (h t : Val) : Container (.lcons h t)
  | emptyObject : Container .dnil
  | object (k : Str) (v t : Val) : Container (.dcons k v t)

/-- The two values can be compared: not both are lists, or neither list has lists or objects in it. -/
def Comparable (w v : Val) : Prop :=
  ∀ ws vs, w.list? = some ws → v.list? = some vs → ∀ x, x ∈ ws ∨ x ∈ vs → ¬ Container x

/-- A user's record has all wanted values. -/
def RecordFits (wanted rec : Dict Val) : Prop := ∀ k w, (k, w) ∈ wanted → ∃ v, Dict.get? rec k = some v ∧ Fits w v

end Verif.Spec
