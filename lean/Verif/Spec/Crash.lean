import Verif.Spec.Store
import Verif.Model.CrashMgr
/-! What the crash claims talk about. -/
namespace Verif.Spec
open Verif

/-- The call only uses usable identifiers. -/
def DbOpGood : DbOp → Prop
  | .mgr op => OpGood op
  | .delete path => GoodPath path

/-- The history has no deletion. -/
def NoDelete (ops : List MaybeKilled) : Prop := ∀ x ∈ ops, ∃ op, x.1 = .mgr op

/-- Every call of the history only uses usable identifiers. -/
def KillsGood (ops : List MaybeKilled) : Prop := ∀ x ∈ ops, DbOpGood x.1

/-- A client session that is complete: client record listed and readable, no grant listed twice, every listed grant
readable. -/
def WholeClient (s : Store) (u c : Str) (gs : List Str) : Prop :=
  (∃ ci, dbGet s [u, c] = .ok (.info ci) ∧ ci.subordinate = gs) ∧ gs.Nodup ∧
    ∀ g ∈ gs, GoodId g ∧ ∃ gr, dbGet s [u, c, g] = .ok (.grant gr)

end Verif.Spec
