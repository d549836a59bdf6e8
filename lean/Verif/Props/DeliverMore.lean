import Verif.Props.DeliverClaims
/-! The parameters of a successful authorization response (C96), the caller's header list (C93). -/
namespace Verif
open Spec
set_option linter.unusedSimpArgs false

/-- C93: the list of headers a caller passes in is extended in place exactly when the answer's headers are that list with
the no-cache headers behind it; otherwise (a content type was added or replaced) it is left alone. -/
theorem C93_callers_list_exact (lib : MsgLib) (st : EpStyle) (construct : Message → Except Exn Message) (kw : RespKw)
    (r : Delivered) (h : doResponse lib st construct kw = .ok r) :
    (kw.httpHeaders = none → r.callers = none) ∧
    ∀ l, kw.httpHeaders = some l →
      (r.headers = l ++ noCacheHeaders → r.callers = some (l ++ noCacheHeaders)) ∧
      (r.headers ≠ l ++ noCacheHeaders → r.callers = some l) := by
  obtain ⟨ct, h1, h2, _, _⟩ := doResponse_ok h
  constructor
  · intro hn
    rw [h2, hn]
    rfl
  · intro l hl
    rw [h1, h2, hl]
    by_cases hct : ct = []
    · simp [respHeaders, hct]
    · simp only [respHeaders, hct, if_false, setContentType]
      by_cases hm : (hContentType, ct) ∈ l
      · simp [hm]
      · simp only [hm, if_false, Bool.false_eq_true]
        refine ⟨fun e => ?_, fun _ => trivial⟩
        have e' := List.append_cancel_right e
        exact absurd (by rw [← e']; simp) hm

/-- A caller's list with the right content type grows; one with another content type does not. -/
example (lib : MsgLib) :
    (∃ r, doResponse lib ⟨c!"body", c!"json", c!"json"⟩ .ok
        { args := [], httpHeaders := some [(hContentType, c!"application/json; charset=utf-8")] } = .ok r ∧
      (r.callers.map List.length) = some 3) ∧
    (∃ r, doResponse lib ⟨c!"body", c!"json", c!"json"⟩ .ok
        { args := [], httpHeaders := some [(hContentType, c!"text/html")] } = .ok r ∧
      (r.callers.map List.length) = some 1) := ⟨⟨_, rfl, rfl⟩, ⟨_, rfl, rfl⟩⟩

/-- C93: the answer of WebFinger discovery is announced as JSON. -/
theorem C93_discovery_content_type : contentTypes discoveryHeaders = [c!"application/json"] := by decide

/-- C96: what a successful response carries, exactly: the state, the scopes separated by blanks (if any), the code, the
access token with its type and lifetime, the ID token; each of them only if there is one. -/
theorem C96_response_parameters (a : RespArgs) :
    valueOf (argsMessage a) c!"state" = a.state ∧
    valueOf (argsMessage a) c!"code" = a.code ∧
    valueOf (argsMessage a) c!"access_token" = a.accessToken ∧
    valueOf (argsMessage a) c!"token_type" = (if a.accessToken = none then none else some c!"Bearer") ∧
    valueOf (argsMessage a) c!"expires_in" = a.expiresIn.map intStr ∧
    valueOf (argsMessage a) c!"id_token" = a.idToken ∧
    (a.scope = [] → valueOf (argsMessage a) c!"scope" = none) ∧
    ∀ s ss, a.scope = s :: ss →
      valueOf (argsMessage a) c!"scope" = some (s ++ ss.flatMap fun x => ' ' :: x) := by
  obtain ⟨st, sc, co, at', it, ex⟩ := a
  refine ⟨argsMessage_state _, ?_, ?_, ?_, ?_, ?_, ?_, ?_⟩
  · cases st <;> cases sc <;> cases co <;> cases at' <;> cases ex <;> cases it <;> simp [argsMessage, optParam, valueOf]
  · cases st <;> cases sc <;> cases co <;> cases at' <;> cases ex <;> cases it <;> simp [argsMessage, optParam, valueOf]
  · cases st <;> cases sc <;> cases co <;> cases at' <;> cases ex <;> cases it <;> simp [argsMessage, optParam, valueOf]
  · cases st <;> cases sc <;> cases co <;> cases at' <;> cases ex <;> cases it <;> simp [argsMessage, optParam, valueOf]
  · cases st <;> cases sc <;> cases co <;> cases at' <;> cases ex <;> cases it <;> simp [argsMessage, optParam, valueOf]
  · cases st <;> cases co <;> cases at' <;> cases ex <;> cases it <;> simp [argsMessage, optParam, valueOf] <;>
      intro h <;> simp [h]
  · intro s ss e
    have e : sc = s :: ss := e
    subst e
    have hj : ∀ (ss : List Str) (s : Str), pyJoin c!" " (s :: ss) = s ++ ss.flatMap (fun x => ' ' :: x) := by
      intro ss
      induction ss with
      | nil => intro s; simp [pyJoin]
      | cons y r ih => intro s; rw [pyJoin, ih y]; simp
    rw [← hj]
    cases st <;> simp [argsMessage, optParam, valueOf]

end Verif
