import Verif.Lemmas.GrantList
import Verif.Props.StoreDelete
set_option linter.unusedSimpArgs false
/-! C18: listing the grants of a session. -/
namespace Verif
open Spec

/-- C18 for histories without `add_grant`, both kinds of back end: `grants()` returns, in order of creation and each once,
exactly the grants created for that pair since its session was last created.
Missing: grants of earlier sessions of the same pair (`C18_second_session_hides_first`) and `add_grant`
(`C18_add_grant_listed_twice`). -/
theorem C18_listing_exact_partial (m : Mode) (sf : SubFuncs) (ops : List MgrOp)
    (hops : ∀ op ∈ ops, OpGood op ∧ NotAddGrant op ∧ KnownSubject sf op) (u c : Str) (hu : GoodId u) (hc : GoodId c)
    (hne : grantIds u c ops ≠ []) :
    let s := mgrRun m sf Store.empty ops
    (grantIds u c ops).Nodup ∧
    ∃ gs : List Grant, grants s u c = .ok (gs.map .grant) ∧ gs.length = (grantIds u c ops).length ∧
      ∀ (i : Nat) g, (grantIds u c ops)[i]? = some g → ∃ gr, gs[i]? = some gr ∧ dbGet s [u, c, g] = .ok (.grant gr) := by
  intro s
  have ht : Tree s := tree_run tree_empty ops fun op ho => (hops op ho).1
  have hn : Nd s := nd_run tree_empty nd_empty ops fun op ho => ⟨(hops op ho).1, (hops op ho).2.1⟩
  have ho : Own s u c (grantIds u c ops) := own_run hu hc ops hops
  have hL := ho.listed hne
  obtain ⟨ui, hui, hcm⟩ := hL
  obtain ⟨ci, hci, hgs⟩ := tree_noDangling ht u ui hu ((dbGet1 _ _ _).2 hui) c hcm
  have hat := ((dbGet2' _ _ _ _).1 hci).2
  have he : ci.subordinate = grantIds u c ops := by
    have := ho.ids
    unfold clientOr at this
    rw [hat] at this
    exact this
  refine ⟨he ▸ hn.cli u c ci hu hc hat, ?_⟩
  obtain ⟨gs, h1, h2, h3⟩ := readAll_ok ci.subordinate hgs
  refine ⟨gs, ?_, he ▸ h2, he ▸ h3⟩
  unfold grants
  have e1 : ¬ (u = [] ∨ c = []) := fun e => e.elim hu.1 hc.1
  simp only [e1, if_false, hci, Obj.subordinate, h1]

example : (∀ op ∈ ops2, OpGood op ∧ NotAddGrant op ∧ KnownSubject sfSample op) ∧
    grantIds c!"diana" c!"c1" ops2 = [c!"g1", c!"g2"] := by
  refine ⟨?_, by decide⟩
  simp [ops2, OpGood, GoodId, SemicolonFree, NotAddGrant, KnownSubject, sfSample]

/-- C18 is false: a grant made with `add_grant` is returned twice. -/
theorem C18_add_grant_listed_twice :
    let s := (addGrant (mgrRun .aliased sfSample Store.empty ops2) 110 c!"g9" c!"diana" c!"c1" {}).1
    ∃ g1 g2 g, g.id = c!"g9" ∧ grants s c!"diana" c!"c1" = .ok [.grant g1, .grant g2, .grant g, .grant g] := by
  exact ⟨_, _, _, rfl, rfl⟩

/-- C18 is false: after a second `create_session` for the same pair the earlier grants are no longer returned. -/
theorem C18_second_session_hides_first (m : Mode) :
    let s := mgrRun m sfSample Store.empty
      (ops2 ++ [.createSession 120 c!"g5" c!"diana" c!"c1" { authReq := reqSample c!"c1" }])
    ∃ g, g.id = c!"g5" ∧ grants s c!"diana" c!"c1" = .ok [.grant g] := by
  cases m
  · exact ⟨_, rfl, rfl⟩
  · exact ⟨_, rfl, rfl⟩

end Verif
