import Verif.Spec.Isolation
import Verif.Spec.Store
import Verif.Lemmas.Str
import Verif.Lemmas.TokenString
import Verif.Props.TokenString
set_option linter.unusedSimpArgs false
set_option linter.unusedVariables false
/-! Which keys the functions that work on the storage read and write. -/
namespace Verif
open Spec

/-- All keys a path touches belong to its user. -/
def PathOk (path : List Str) : Prop :=
  ∀ u, path.head? = some u → ownerOf u = u ∧ ∀ c r, path.tail = c :: r →
    ownerOf (sessionKey [u, c]) = u ∧ ∀ g r', r = g :: r' → ownerOf (sessionKey [u, c, g]) = u

theorem ownerOf_name {u : Str} (h : UserName u) : ownerOf u = u := by
  unfold ownerOf unpackSessionKey divider
  rw [split_dd_one _ _ h.1]
  rfl

theorem ownerOf_cons {u x : Str} (h : UserName u) : ownerOf (u ++ divider ++ x) = u := by
  unfold ownerOf unpackSessionKey divider
  have := split_dd_append ';' u x h.1 h.2
  simp only [List.append_assoc, List.cons_append, List.nil_append] at this ⊢
  rw [this]
  rfl

theorem pathOk_name {u : Str} (h : UserName u) (r : List Str) : PathOk (u :: r) := by
  intro v hv
  simp only [List.head?_cons, Option.some.injEq] at hv
  subst hv
  exact ⟨ownerOf_name h, fun c r _ => ⟨by simpa [sessionKey, pyJoin] using ownerOf_cons (x := c) h,
    fun g r' _ => by
      have := ownerOf_cons (x := c ++ divider ++ g) h
      simpa [sessionKey, pyJoin] using this⟩⟩

theorem goodId_name {u : Str} (h : GoodId u) : UserName u := by
  have h2 : ';' ∉ u := h.2
  refine ⟨fun hi => h2 (hi.subset (by simp [divider])), fun hs => h2 (hs.subset (by simp))⟩

/-- The path of a session id belongs to its owner. -/
theorem unpack_owner (sid : Str) : ∃ r, unpackSessionKey sid = ownerOf sid :: r ∧ PathOk (ownerOf sid :: r) := by
  have hs := split_dd_spec ';' sid
  unfold ownerOf
  have hne := pySplit_ne_nil divider sid
  change pyJoin [';', ';'] (unpackSessionKey sid) = sid ∧ GoodPieces ';' (unpackSessionKey sid) at hs
  cases hu : unpackSessionKey sid with
  | nil => exact absurd hu hne
  | cons u r =>
    refine ⟨r, rfl, ?_⟩
    rw [hu] at hs
    have hg := hs.2
    intro v hv
    simp only [List.headD_cons, List.head?_cons, Option.some.injEq] at hv
    subst hv
    have h1 : ¬ divider <:+: u := hg.1 u (by simp)
    refine ⟨?_, ?_⟩
    · unfold ownerOf unpackSessionKey divider
      rw [split_dd_one _ _ h1]
      rfl
    · intro c r2 hr
      simp only [List.headD_cons, List.tail_cons] at hr
      have hn : UserName u := ⟨h1, hg.2 u (by rw [hr]; simp [List.dropLast])⟩
      exact (pathOk_name hn r u (by simp)).2 c r2 (by simpa using hr)

theorem unpack3_owner {sid u c g : Str} (h : unpack3 sid = .ok (u, c, g)) : u = ownerOf sid ∧ PathOk [u, c, g] ∧ PathOk [u, c] := by
  obtain ⟨r, h1, h2⟩ := unpack_owner sid
  unfold unpack3 at h
  rw [h1] at h
  split at h
  · rename_i u' c' g' he
    simp only [Except.ok.injEq, Prod.mk.injEq] at h
    obtain ⟨rfl, rfl, rfl⟩ := h
    simp only [List.cons.injEq] at he
    obtain ⟨e1, e2⟩ := he
    subst e2
    rw [e1] at h2
    refine ⟨e1.symm, h2, ?_⟩
    intro v hv
    obtain ⟨a, b⟩ := h2 v (by simpa using hv)
    refine ⟨a, fun c r hr => ?_⟩
    simp only [List.tail_cons, List.cons.injEq] at hr
    obtain ⟨e, rfl⟩ := hr
    have := b c [g'] (by simp [e])
    exact ⟨this.1, fun g r' hr => by cases hr⟩
  · cases h

/-- Two stores that hold the same for the users of `P`. -/
def Agree (P : Str → Prop) (s s' : Store) : Prop := ∀ k, P (ownerOf k) → s k = s' k

/-- Two runs of the same function: same outcome, what was equal is equal, and only keys of users in `W` are written. -/
structure Sim {α : Type} (W : Str → Prop) (s s' : Store) (r r' : Store × α) : Prop where
  out : r.2 = r'.2
  keep : ∀ k, s k = s' k → r.1 k = r'.1 k
  frame : ∀ k, ¬ W (ownerOf k) → r.1 k = s k

theorem Sim.pure {α : Type} {W : Str → Prop} {s s' : Store} (a : α) : Sim W s s' (s, a) (s', a) :=
  ⟨rfl, fun _ h => h, fun _ _ => rfl⟩

theorem Sim.agree {α : Type} {W P : Str → Prop} {s s' : Store} {r r' : Store × α} (h : Sim W s s' r r') (ha : Agree P s s') :
    Agree P r.1 r'.1 := fun k hk => h.keep k (ha k hk)

theorem Sim.trans {α β : Type} {W : Str → Prop} {s s' : Store} {r r' : Store × α} {q q' : Store × β} (h : Sim W s s' r r')
    (h2 : Sim W r.1 r'.1 q q') : Sim W s s' q q' :=
  ⟨h2.out, fun k hk => h2.keep k (h.keep k hk), fun k hk => (h2.frame k hk).trans (h.frame k hk)⟩

/-- Same stores, other outcomes. -/
theorem Sim.map {α β : Type} {W : Str → Prop} {s s' : Store} {r r' : Store × α} (h : Sim W s s' r r') (b : β) :
    Sim W s s' (r.1, b) (r'.1, b) := ⟨rfl, h.keep, h.frame⟩

theorem Sim.put {α : Type} {W : Str → Prop} {s s' : Store} {k : Str} (hk : W (ownerOf k)) (v : Obj) (a : α) :
    Sim W s s' (s.put k v, a) (s'.put k v, a) := by
  refine ⟨rfl, fun k' h => ?_, fun k' h => ?_⟩
  · simp only [Store.put]; split <;> simp_all
  · simp only [Store.put]; split
    · rename_i e; subst e; exact absurd hk h
    · rfl

theorem Sim.del {α : Type} {W : Str → Prop} {s s' : Store} {k : Str} (hk : W (ownerOf k)) (a : α) :
    Sim W s s' (s.del k, a) (s'.del k, a) := by
  refine ⟨rfl, fun k' h => ?_, fun k' h => ?_⟩
  · simp only [Store.del]; split <;> simp_all
  · simp only [Store.del]; split
    · rename_i e; subst e; exact absurd hk h
    · rfl

theorem Agree.get {P : Str → Prop} {s s' : Store} (ha : Agree P s s') {path : List Str} (hp : PathOk path)
    (hu : ∀ u, path.head? = some u → P u) : dbGet s path = dbGet s' path := by
  unfold dbGet
  match path, hp, hu with
  | [], _, _ => rfl
  | [u], hp, hu =>
    have h1 : s u = s' u := ha u (by rw [(hp u rfl).1]; exact hu u rfl)
    simp only [evalPath, h1]
  | [u, c], hp, hu =>
    have hq := hp u rfl
    have h1 : s u = s' u := ha u (by rw [hq.1]; exact hu u rfl)
    have h2 : s (sessionKey [u, c]) = s' (sessionKey [u, c]) := ha _ (by rw [(hq.2 c [] rfl).1]; exact hu u rfl)
    simp only [evalPath, h1, h2]
  | u :: c :: g :: r, hp, hu =>
    have hq := hp u rfl
    have h1 : s u = s' u := ha u (by rw [hq.1]; exact hu u rfl)
    have h2 : s (sessionKey [u, c]) = s' (sessionKey [u, c]) := ha _ (by rw [(hq.2 c _ rfl).1]; exact hu u rfl)
    have h3 : s (sessionKey [u, c, g]) = s' (sessionKey [u, c, g]) :=
      ha _ (by rw [(hq.2 c _ rfl).2 g r rfl]; exact hu u rfl)
    simp only [evalPath, h1, h2, h3]

theorem simSetClient {P W : Str → Prop} {s s' : Store} {u c : Str} (ha : Agree P s s') (hk : ownerOf (sessionKey [u, c]) = u)
    (hu : P u) (hw : W u) (g : Option Str) (v : Obj) : Sim W s s' (dbSetClient s u c g v) (dbSetClient s' u c g v) := by
  have h1 : s (sessionKey [u, c]) = s' (sessionKey [u, c]) := ha _ (by rw [hk]; exact hu)
  have hw' : W (ownerOf (sessionKey [u, c])) := by rw [hk]; exact hw
  unfold dbSetClient
  dsimp only
  split
  · rw [← h1]
    split
    · exact Sim.put hw' _ _
    · exact Sim.pure _
    · split
      · exact Sim.pure _
      · exact Sim.put hw' _ _
  · exact Sim.put hw' _ _

theorem simSetUser {P W : Str → Prop} {s s' : Store} {u : Str} (ha : Agree P s s') (hk : ownerOf u = u)
    (hu : P u) (hw : W u) (c : Option Str) (v : Obj) : Sim W s s' (dbSetUser s u c v) (dbSetUser s' u c v) := by
  have h1 : s u = s' u := ha _ (by rw [hk]; exact hu)
  have hw' : W (ownerOf u) := by rw [hk]; exact hw
  unfold dbSetUser
  dsimp only
  split
  · exact Sim.put hw' _ _
  · exact Sim.pure _
  · rw [← h1]
    split
    · exact Sim.put hw' _ _
    · exact Sim.pure _
    · split
      · exact Sim.pure _
      · exact Sim.put hw' _ _

theorem simSet {P W : Str → Prop} {s s' : Store} {path : List Str} (ha : Agree P s s') (hp : PathOk path)
    (hu : ∀ u, path.head? = some u → P u ∧ W u) (v : Obj) : Sim W s s' (dbSet s path v) (dbSet s' path v) := by
  unfold dbSet
  have key : ∀ (u : Str) (c g : Option Str), P u → W u → ownerOf u = u →
      (∀ c', c = some c' → ownerOf (sessionKey [u, c']) = u) →
      (truthy g = true → ownerOf (sessionKey [u, c.getD [], g.getD []]) = u) →
      let s1 := if truthy g then s.put (sessionKey [u, c.getD [], g.getD []]) v else s
      let s1' := if truthy g then s'.put (sessionKey [u, c.getD [], g.getD []]) v else s'
      let r := if truthy c then dbSetClient s1 u (c.getD []) g v else (s1, .ok ())
      let r' := if truthy c then dbSetClient s1' u (c.getD []) g v else (s1', .ok ())
      Sim W s s'
        (match r.2 with | .error e => (r.1, .error e) | .ok () => dbSetUser r.1 u c v)
        (match r'.2 with | .error e => (r'.1, .error e) | .ok () => dbSetUser r'.1 u c v) := by
    intro u c g hP hW h1 h2 h3
    dsimp only
    have a1 : Sim W s s' ((if truthy g then s.put (sessionKey [u, c.getD [], g.getD []]) v else s), ())
        ((if truthy g then s'.put (sessionKey [u, c.getD [], g.getD []]) v else s'), ()) := by
      by_cases hg : truthy g = true
      · simp only [hg, if_true]; exact Sim.put (by rw [h3 hg]; exact hW) _ _
      · simp only [hg, if_false, Bool.false_eq_true]; exact Sim.pure _
    generalize (if truthy g then s.put (sessionKey [u, c.getD [], g.getD []]) v else s) = t at a1 ⊢
    generalize (if truthy g then s'.put (sessionKey [u, c.getD [], g.getD []]) v else s') = t' at a1 ⊢
    have b1 : Sim W t t' (if truthy c then dbSetClient t u (c.getD []) g v else (t, .ok ()))
        (if truthy c then dbSetClient t' u (c.getD []) g v else (t', .ok ())) := by
      by_cases hc : truthy c = true
      · simp only [hc, if_true]
        cases c with
        | none => simp [truthy] at hc
        | some c' => exact simSetClient (a1.agree ha) (h2 c' rfl) hP hW g v
      · simp only [hc, if_false, Bool.false_eq_true]; exact Sim.pure _
    generalize (if truthy c then dbSetClient t u (c.getD []) g v else (t, Except.ok ())) = q at b1 ⊢
    generalize (if truthy c then dbSetClient t' u (c.getD []) g v else (t', Except.ok ())) = q' at b1 ⊢
    rw [← b1.out]
    cases q.2 with
    | error e => exact a1.trans (b1.map _)
    | ok x => exact a1.trans (b1.trans (simSetUser (b1.agree (a1.agree ha)) h1 hP hW c v))
  match path, hp, hu with
  | [], _, _ => exact Sim.pure _
  | [u], hp, hu =>
    exact key u none none (hu u rfl).1 (hu u rfl).2 (hp u rfl).1 (by simp) (by simp [truthy])
  | [u, c], hp, hu =>
    exact key u (some c) none (hu u rfl).1 (hu u rfl).2 (hp u rfl).1
      (fun c' h => by cases h; exact ((hp u rfl).2 c [] rfl).1) (by simp [truthy])
  | u :: c :: g :: r, hp, hu =>
    exact key u (some c) (some g) (hu u rfl).1 (hu u rfl).2 (hp u rfl).1
      (fun c' h => by cases h; exact ((hp u rfl).2 c _ rfl).1) (fun _ => ((hp u rfl).2 c _ rfl).2 g r rfl)


theorem simDelGrants {P W : Str → Prop} (u c : Str) (hk : ∀ g, ownerOf (sessionKey [u, c, g]) = u) (hu : P u) (hw : W u)
    (l : List Str) : ∀ {s s' : Store}, Agree P s s' → Sim W s s' (dbDelGrants s u c l) (dbDelGrants s' u c l) := by
  induction l with
  | nil => intro s s' ha; exact Sim.pure _
  | cons g gs ih =>
    intro s s' ha
    have h1 : s (sessionKey [u, c, g]) = s' (sessionKey [u, c, g]) := ha _ (by rw [hk]; exact hu)
    unfold dbDelGrants
    rw [← h1]
    cases s (sessionKey [u, c, g]) with
    | none => exact Sim.pure _
    | some o =>
      have d : Sim W s s' (s.del (sessionKey [u, c, g]), ()) (s'.del (sessionKey [u, c, g]), ()) :=
        Sim.del (by rw [hk]; exact hw) ()
      exact d.trans (ih (d.agree ha))

theorem simDelUserPart {W : Str → Prop} {s s' : Store} {u : Str} (hw : W (ownerOf u)) (ui : Obj) (l : List Str)
    {α : Type} (a : α) : Sim W s s' (dbDelUserPart s u ui l, a) (dbDelUserPart s' u ui l, a) := by
  unfold dbDelUserPart
  split
  · exact Sim.del hw a
  · exact Sim.put hw _ a

/-- The head of a path can be put in front of `;;` if there is something after it. -/
def HeadOk (path : List Str) : Prop :=
  ∀ u, path.head? = some u → ownerOf u = u ∧ (path.tail ≠ [] → UserName u)

theorem headOk_name {u : Str} (h : UserName u) (r : List Str) : HeadOk (u :: r) := by
  intro v hv
  simp only [List.head?_cons, Option.some.injEq] at hv
  subst hv
  exact ⟨ownerOf_name h, fun _ => h⟩

theorem HeadOk.path {path : List Str} (h : HeadOk path) : PathOk path := by
  match path, h with
  | [], _ => intro u hu; simp at hu
  | [u], h =>
    intro v hv
    exact ⟨(h v hv).1, fun c r hr => by simp at hr⟩
  | u :: c :: r, h => exact pathOk_name ((h u rfl).2 (by simp)) _

theorem headOk_unpack (sid : Str) : HeadOk (unpackSessionKey sid) := by
  have hs := split_dd_spec ';' sid
  change pyJoin [';', ';'] (unpackSessionKey sid) = sid ∧ GoodPieces ';' (unpackSessionKey sid) at hs
  cases hu : unpackSessionKey sid with
  | nil => intro u hu; simp at hu
  | cons u r =>
    rw [hu] at hs
    have h1 : ¬ divider <:+: u := hs.2.1 u (by simp)
    intro v hv
    simp only [List.head?_cons, Option.some.injEq] at hv
    subst hv
    refine ⟨?_, fun hr => ⟨h1, hs.2.2 u ?_⟩⟩
    · unfold ownerOf unpackSessionKey divider
      rw [split_dd_one _ _ h1]
      rfl
    · cases r with
      | nil => simp at hr
      | cons c r => simp [List.dropLast]

theorem simDelete {P W : Str → Prop} (m : Mode) {s s' : Store} {path : List Str} (ha : Agree P s s') (hp : HeadOk path)
    (hu : ∀ u, path.head? = some u → P u ∧ W u) (hc : ∀ c g r, path.tail = c :: g :: r → W (ownerOf c)) :
    Sim W s s' (dbDelete m s path) (dbDelete m s' path) := by
  unfold dbDelete
  match path, hp, hu, hc with
  | [], _, _, _ => exact Sim.pure _
  | [u], hp, hu, hc =>
    have h1 : s u = s' u := ha u (by rw [(hp u rfl).1]; exact (hu u rfl).1)
    simp only [evalPath, ← h1]
    cases s u with
    | none => exact Sim.pure _
    | some ui => simp only [truthy, if_true]; exact Sim.del (by rw [(hp u rfl).1]; exact (hu u rfl).2) _
  | u :: c :: r, hp, hu, hc =>
    have hn : UserName u := (hp u rfl).2 (by simp)
    obtain ⟨hP, hW⟩ := hu u rfl
    have o1 : ownerOf u = u := ownerOf_name hn
    have o2 : ownerOf (sessionKey [u, c]) = u := ((pathOk_name hn [c]) u rfl).2 c [] rfl |>.1
    have o3 : ∀ g, ownerOf (sessionKey [u, c, g]) = u := fun g =>
      ((pathOk_name hn [c, g]) u rfl).2 c [g] rfl |>.2 g [] rfl
    have h1 : s u = s' u := ha u (by rw [o1]; exact hP)
    have h2 : s (sessionKey [u, c]) = s' (sessionKey [u, c]) := ha _ (by rw [o2]; exact hP)
    have w1 : W (ownerOf u) := by rw [o1]; exact hW
    have w2 : W (ownerOf (sessionKey [u, c])) := by rw [o2]; exact hW
    have w3 : ∀ g, W (ownerOf (sessionKey [u, c, g])) := fun g => by rw [o3]; exact hW
    obtain ⟨g?, he, hg⟩ : ∃ g? : Option Str, evalPath (u :: c :: r) = .ok (u, some c, g?) ∧ (g? ≠ none → W (ownerOf c)) := by
      cases r with
      | nil => exact ⟨none, rfl, by simp⟩
      | cons g r => exact ⟨some g, rfl, fun _ => hc c g r rfl⟩
    rw [he]
    simp only [← h1, Option.getD_some]
    cases s u with
    | none => exact Sim.pure _
    | some ui =>
      dsimp only
      by_cases ht : truthy (some c) = false
      · simp only [ht, if_true]; exact Sim.del w1 _
      · rw [if_neg ht, if_neg ht]
        cases ui.subordinate with
        | error e => exact Sim.pure _
        | ok usub =>
          dsimp only
          by_cases hm : c ∉ usub
          · rw [if_pos hm, if_pos hm]; exact Sim.pure _
          · rw [if_neg hm, if_neg hm, ← h2]
            cases s (sessionKey [u, c]) with
            | none => exact simDelUserPart w1 _ _ _
            | some ci =>
              dsimp only
              cases ci.subordinate with
              | error e => exact Sim.pure _
              | ok csub =>
                dsimp only
                by_cases hgt : truthy g? = true
                · simp only [hgt, if_true]
                  have wc : W (ownerOf c) := hg (by intro e; subst e; simp [truthy] at hgt)
                  by_cases hmem : g?.getD [] ∈ csub
                  · simp only [if_pos hmem]
                    have d : Sim W s s' (s.del (sessionKey [u, c, g?.getD []]), ()) (s'.del (sessionKey [u, c, g?.getD []]), ()) :=
                      Sim.del (w3 _) ()
                    have d2 : Sim W s s'
                        ((if m = .aliased then (s.del (sessionKey [u, c, g?.getD []])).put (sessionKey [u, c]) (ci.setSubordinate (csub.erase (g?.getD []))) else s.del (sessionKey [u, c, g?.getD []])), ())
                        ((if m = .aliased then (s'.del (sessionKey [u, c, g?.getD []])).put (sessionKey [u, c]) (ci.setSubordinate (csub.erase (g?.getD []))) else s'.del (sessionKey [u, c, g?.getD []])), ()) := by
                      by_cases hmo : m = .aliased
                      · simp only [if_pos hmo]; exact d.trans (Sim.put w2 _ _)
                      · simp only [if_neg hmo]; exact d
                    generalize (if m = .aliased then (s.del (sessionKey [u, c, g?.getD []])).put (sessionKey [u, c]) (ci.setSubordinate (csub.erase (g?.getD []))) else s.del (sessionKey [u, c, g?.getD []])) = t at d2 ⊢
                    generalize (if m = .aliased then (s'.del (sessionKey [u, c, g?.getD []])).put (sessionKey [u, c]) (ci.setSubordinate (csub.erase (g?.getD []))) else s'.del (sessionKey [u, c, g?.getD []])) = t' at d2 ⊢
                    by_cases hemp : csub.erase (g?.getD []) = []
                    all_goals simp only [hemp, if_true, if_false]
                    · exact d2.trans ((Sim.del (a := ()) w2).trans (simDelUserPart w1 _ _ _))
                    · exact d2.trans ((Sim.put (a := ()) wc _).trans (simDelUserPart w1 _ _ _))
                  · simp only [if_neg hmem]
                    by_cases hemp : csub = []
                    all_goals simp only [hemp, if_true, if_false]
                    · exact (Sim.del (a := ()) w2).trans (simDelUserPart w1 _ _ _)
                    · exact (Sim.put (a := ()) wc _).trans (simDelUserPart w1 _ _ _)
                · simp only [hgt, if_false, Bool.false_eq_true]
                  have d := simDelGrants (P := P) (W := W) u c o3 hP hW csub ha
                  generalize dbDelGrants s u c csub = q at d ⊢
                  generalize dbDelGrants s' u c csub = q' at d ⊢
                  rw [← d.out]
                  cases q.2 with
                  | error e => exact d.map _
                  | ok x => exact d.trans ((Sim.del (a := ()) w2).trans (simDelUserPart w1 _ _ _))

end Verif
