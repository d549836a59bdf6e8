import Verif.Props.Store
/-! What a write creates above itself (C13). -/
namespace Verif
open Spec

/-- C13: storing a grant for a user and client nobody has seen makes a user record that lists exactly that client and a
client record that lists exactly that grant; neither of them is revoked. -/
theorem C13_write_makes_parents (s : Store) (ht : Typed s) (u c g : Str) (hu : GoodId u) (hc : GoodId c) (hg : GoodId g)
    (v : Obj) (hnu : s.at [u] = none) (hnc : s.at [u, c] = none) :
    ∃ s' ui ci, dbSet s [u, c, g] v = (s', .ok ()) ∧
      dbGet s' [u] = .ok (.info ui) ∧ ui.kind = .user ∧ ui.subordinate = [c] ∧ ui.revoked = false ∧
      dbGet s' [u, c] = .ok (.info ci) ∧ ci.kind = .client ∧ ci.subordinate = [g] ∧ ci.revoked = false := by
  obtain ⟨s', h1, hat⟩ := dbSet3 s v hu hc hg (ht.user' hu) (ht.client' hu hc)
  have eu : userOr s u = SessInfo.user := by simp [userOr, hnu]
  have ec : clientOr s u c = SessInfo.client := by simp [clientOr, hnc]
  have au : s'.at [u] = some (.info (SessInfo.user.addSubordinate c)) := by
    rw [hat _ (goodPath_one hu), eu]; simp
  have ac : s'.at [u, c] = some (.info (SessInfo.client.addSubordinate g)) := by
    rw [hat _ (goodPath_two hu hc), ec]; simp
  refine ⟨s', SessInfo.user.addSubordinate c, SessInfo.client.addSubordinate g, h1, (dbGet1 _ _ _).2 au, ?_, ?_, ?_,
    (dbGet2 _ _ _ _).2 ⟨_, au, ?_, ac⟩, ?_, ?_, ?_⟩ <;> simp [SessInfo.addSubordinate, SessInfo.user, SessInfo.client]

example : Typed Store.empty ∧ Store.empty.at [c!"diana"] = none ∧ Store.empty.at [c!"diana", c!"client_1"] = none :=
  ⟨⟨by simp [Store.empty], by simp [Store.empty], by simp [Store.empty]⟩, rfl, rfl⟩

end Verif
