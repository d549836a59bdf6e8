import Verif.Props.Broker
import Verif.Model.UserInfo
set_option linter.unusedSimpArgs false
/-! The authentication method for a login hint (C73). -/
namespace Verif
open Spec

/-- A request that says nothing about class references but has a login hint with the scheme `scheme`, with several methods to choose from:
if the configured table has no entry (or an empty one) for the scheme, the first method is used; otherwise the method of the first of the
scheme's class references that has one, and if none has one the request raises. -/
theorem C73_login_hint (ops : List BrokerOp) (hd : DistinctIds [] ops) (table : Dict (List Str)) (scheme : Str) (r : PickReq)
    (ha : r.acrValues = []) (hc : r.claims = none) (hh : r.hint = none) (hl : r.loginHintAcrs = some (loginHint2acrs table scheme))
    (p q : Str × AuthnEntry) (rest : List (Str × AuthnEntry)) (hreg : registrations ops = p :: q :: rest) :
    setupMethod (Broker.empty.run ops) none none r = match table.get? scheme with
      | none | some [] => .ok p.2
      | some acrs => match Spec.firstFor (registrations ops) acrs with
        | some e => .ok e
        | none => .error .keyError := by
  have hr := repr_run repr_empty ops hd
  have hdb : (Broker.empty.run ops).db = p :: q :: rest := by rw [hr.db]; exact hreg
  have hlen : (Broker.empty.run ops).db.length ≠ 1 := by rw [hdb]; simp
  have base : ∀ acrs : List Str, loginHint2acrs table scheme = acrs → pickAuth (Broker.empty.run ops) r =
      if acrs = [] then .ok (Broker.empty.run ops).default else catchKey ((Broker.empty.run ops).firstMatch (acrs.map .str)) := by
    intro acrs h
    unfold pickAuth
    rw [if_neg hlen, if_neg (by simp [ha])]
    simp only [claimsAcr, hc, hh, hl, Exn.isKeyError, if_true, Option.getD_some, h]
  have dflt : (Broker.empty.run ops).default = some p.2 := by simp [Broker.default, hdb]
  cases ht : table.get? scheme with
  | none =>
    have := base [] (by simp [loginHint2acrs, ht])
    rw [if_pos rfl, dflt] at this
    simp only [setupMethod, this]
  | some acrs =>
    have := base acrs (by simp [loginHint2acrs, ht])
    cases acrs with
    | nil =>
      rw [if_pos rfl, dflt] at this
      simp only [setupMethod, this]
    | cons a l =>
      rw [if_neg (by simp), firstMatch_strs hr] at this
      simp only [setupMethod, this, catchKey]
      show (match (Except.ok (Spec.firstFor (registrations ops) (a :: l)) : Except Exn (Option AuthnEntry)) with
        | .error e => .error e | .ok none => .error .keyError | .ok (some e) => .ok e : Except Exn AuthnEntry) = _
      cases Spec.firstFor (registrations ops) (a :: l) <;> rfl

/-- Two methods. -/
def hintOps : List BrokerOp := [.set c!"i" (some c!"weak") (some c!"pw"), .set c!"j" (some c!"strong") (some c!"otp")]

/-- Telephone numbers ask for the strong method; accounts for one that does not exist. -/
def hintTable : Dict (List Str) := [(c!"tel", [c!"none", c!"strong"]), (c!"acct", [c!"other"])]

example : DistinctIds [] hintOps ∧ registrations hintOps = [(c!"i", ⟨c!"weak", c!"pw"⟩), (c!"j", ⟨c!"strong", c!"otp"⟩)] ∧
    setupMethod (Broker.empty.run hintOps) none none { loginHintAcrs := some (loginHint2acrs hintTable c!"tel") } = .ok ⟨c!"strong", c!"otp"⟩ ∧
    setupMethod (Broker.empty.run hintOps) none none { loginHintAcrs := some (loginHint2acrs hintTable c!"acct") } = .error .keyError ∧
    setupMethod (Broker.empty.run hintOps) none none { loginHintAcrs := some (loginHint2acrs hintTable c!"mailto") } = .ok ⟨c!"weak", c!"pw"⟩ := by
  refine ⟨⟨by simp, ⟨fun k a m h => by cases h; decide, trivial⟩⟩, by decide, by decide, by decide, by decide⟩

end Verif
