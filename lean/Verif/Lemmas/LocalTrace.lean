import Verif.Lemmas.LocalToken
import Verif.Model.Crash
set_option linter.unusedSimpArgs false
set_option linter.unusedVariables false
/-! The same for every crash point. -/
namespace Verif
open Spec

variable {P W : Str → Prop} {s s' : Store}

/-- Two traces of the same function. -/
inductive SimL (W : Str → Prop) (s s' : Store) : List Store → List Store → Prop
  | nil : SimL W s s' [] []
  | cons : Sim W s s' (x, ()) (x', ()) → SimL W s s' l l' → SimL W s s' (x :: l) (x' :: l')

theorem Sim.drop {α : Type} {r r' : Store × α} (h : Sim W s s' r r') : Sim W s s' (r.1, ()) (r'.1, ()) := h.map ()

theorem SimL.append {a a' b b' : List Store} (h : SimL W s s' a a') (h2 : SimL W s s' b b') : SimL W s s' (a ++ b) (a' ++ b') := by
  induction h with
  | nil => exact h2
  | cons x _ ih => exact .cons x ih

theorem Sim.list {α : Type} {r r' : Store × α} {l l' : List Store} (h : Sim W s s' r r') (h2 : SimL W r.1 r'.1 l l') :
    SimL W s s' l l' := by
  induction h2 with
  | nil => exact .nil
  | cons x _ ih => exact .cons (h.trans x) ih

theorem SimL.then {α : Type} {r r' : Store × α} {a a' b b' : List Store} (h : SimL W s s' a a') (d : Sim W s s' r r')
    (h2 : SimL W r.1 r'.1 b b') : SimL W s s' (a ++ b) (a' ++ b') := h.append (d.list h2)

theorem SimL.last {l l' : List Store} (h : SimL W s s' l l') : Sim W s s' (lastOf s l, ()) (lastOf s' l', ()) := by
  have key : ∀ {t t' : Store}, Sim W s s' (t, ()) (t', ()) → Sim W s s' (lastOf t l, ()) (lastOf t' l', ()) := by
    induction h with
    | nil => intro t t' h; simpa [lastOf] using h
    | @cons x x' l l' hx hl ih =>
      intro t t' ht
      have := ih hx
      simp only [lastOf] at this ⊢
      rw [List.getLast?_cons, List.getLast?_cons]
      exact this
  exact key (Sim.pure ())

theorem SimL.take {l l' : List Store} (h : SimL W s s' l l') (n : Nat) : SimL W s s' (l.take n) (l'.take n) := by
  induction h generalizing n with
  | nil => simpa using SimL.nil
  | cons x _ ih =>
    cases n with
    | zero => exact .nil
    | succ n => exact .cons x (ih n)

theorem trSet {path : List Str} (ha : Agree P s s') (hp : PathOk path)
    (hu : ∀ u, path.head? = some u → P u ∧ W u) (v : Obj) : SimL W s s' (setTrace s path v) (setTrace s' path v) := by
  unfold setTrace
  have key : ∀ (u : Str) (c g : Option Str), P u → W u → ownerOf u = u →
      (∀ c', c = some c' → ownerOf (sessionKey [u, c']) = u) →
      (truthy g = true → ownerOf (sessionKey [u, c.getD [], g.getD []]) = u) →
      let s1 := if truthy g then s.put (sessionKey [u, c.getD [], g.getD []]) v else s
      let s1' := if truthy g then s'.put (sessionKey [u, c.getD [], g.getD []]) v else s'
      let r := if truthy c then dbSetClient s1 u (c.getD []) g v else (s1, .ok ())
      let r' := if truthy c then dbSetClient s1' u (c.getD []) g v else (s1', .ok ())
      SimL W s s'
        (match r.2 with | .error _ => [s1, r.1] | .ok () => [s1, r.1, (dbSetUser r.1 u c v).1])
        (match r'.2 with | .error _ => [s1', r'.1] | .ok () => [s1', r'.1, (dbSetUser r'.1 u c v).1]) := by
    intro u c g hP hW h1 h2 h3
    dsimp only
    have a1 : Sim W s s' ((if truthy g then s.put (sessionKey [u, c.getD [], g.getD []]) v else s), ())
        ((if truthy g then s'.put (sessionKey [u, c.getD [], g.getD []]) v else s'), ()) := by
      by_cases hg : truthy g = true
      · simp only [hg, if_true]; exact Sim.put (by rw [h3 hg]; exact hW) _ _
      · simp only [hg, if_false, Bool.false_eq_true]; exact Sim.pure _
    generalize (if truthy g then s.put (sessionKey [u, c.getD [], g.getD []]) v else s) = t at a1 ⊢
    generalize (if truthy g then s'.put (sessionKey [u, c.getD [], g.getD []]) v else s') = t' at a1 ⊢
    have b1 : Sim W t t' (if truthy c then dbSetClient t u (c.getD []) g v else (t, .ok ()))
        (if truthy c then dbSetClient t' u (c.getD []) g v else (t', .ok ())) := by
      by_cases hc : truthy c = true
      · simp only [hc, if_true]
        cases c with
        | none => simp [truthy] at hc
        | some c' => exact simSetClient (a1.agree ha) (h2 c' rfl) hP hW g v
      · simp only [hc, if_false, Bool.false_eq_true]; exact Sim.pure _
    generalize (if truthy c then dbSetClient t u (c.getD []) g v else (t, Except.ok ())) = q at b1 ⊢
    generalize (if truthy c then dbSetClient t' u (c.getD []) g v else (t', Except.ok ())) = q' at b1 ⊢
    rw [← b1.out]
    cases q.2 with
    | error e => exact .cons a1 (.cons (a1.trans b1.drop) .nil)
    | ok x =>
      exact .cons a1 (.cons (a1.trans b1.drop)
        (.cons (a1.trans (b1.trans (simSetUser (b1.agree (a1.agree ha)) h1 hP hW c v).drop)) .nil))
  match path, hp, hu with
  | [], _, _ => exact .nil
  | [u], hp, hu =>
    exact key u none none (hu u rfl).1 (hu u rfl).2 (hp u rfl).1 (by simp) (by simp [truthy])
  | [u, c], hp, hu =>
    exact key u (some c) none (hu u rfl).1 (hu u rfl).2 (hp u rfl).1
      (fun c' h => by cases h; exact ((hp u rfl).2 c [] rfl).1) (by simp [truthy])
  | u :: c :: g :: r, hp, hu =>
    exact key u (some c) (some g) (hu u rfl).1 (hu u rfl).2 (hp u rfl).1
      (fun c' h => by cases h; exact ((hp u rfl).2 c _ rfl).1) (fun _ => ((hp u rfl).2 c _ rfl).2 g r rfl)

theorem trMgrSet (ha : Agree P s s') (sid : Str) (v : Obj) (hu : P (ownerOf sid)) (hw : W (ownerOf sid)) :
    SimL W s s' (mgrSetTrace s sid v) (mgrSetTrace s' sid v) := by
  unfold mgrSetTrace
  exact trSet ha (headOk_unpack sid).path (unpackIn (Q := fun v => P v ∧ W v) ⟨hu, hw⟩) v

theorem trDelGrants (u c : Str) (hk : ∀ g, ownerOf (sessionKey [u, c, g]) = u) (hu : P u) (hw : W u)
    (l : List Str) : ∀ {s s' : Store}, Agree P s s' → SimL W s s' (delGrantsTrace s u c l) (delGrantsTrace s' u c l) := by
  induction l with
  | nil => intro s s' ha; exact .nil
  | cons g gs ih =>
    intro s s' ha
    have h1 : s (sessionKey [u, c, g]) = s' (sessionKey [u, c, g]) := ha _ (by rw [hk]; exact hu)
    unfold delGrantsTrace
    rw [← h1]
    cases s (sessionKey [u, c, g]) with
    | none => exact .nil
    | some o =>
      have d : Sim W s s' (s.del (sessionKey [u, c, g]), ()) (s'.del (sessionKey [u, c, g]), ()) :=
        Sim.del (by rw [hk]; exact hw) ()
      exact .cons d (d.list (ih (d.agree ha)))

theorem trDelete {path : List Str} (ha : Agree P s s') (hp : HeadOk path)
    (hu : ∀ u, path.head? = some u → P u ∧ W u) (hc : ∀ c g r, path.tail = c :: g :: r → W (ownerOf c)) :
    SimL W s s' (deleteTrace s path) (deleteTrace s' path) := by
  unfold deleteTrace
  match path, hp, hu, hc with
  | [], _, _, _ => exact .nil
  | [u], hp, hu, hc =>
    have h1 : s u = s' u := ha u (by rw [(hp u rfl).1]; exact (hu u rfl).1)
    simp only [evalPath, ← h1]
    cases s u with
    | none => exact .nil
    | some ui =>
      simp only [truthy, if_true]
      exact .cons (Sim.del (by rw [(hp u rfl).1]; exact (hu u rfl).2) _) .nil
  | u :: c :: r, hp, hu, hc =>
    have hn : UserName u := (hp u rfl).2 (by simp)
    obtain ⟨hP, hW⟩ := hu u rfl
    have o1 : ownerOf u = u := ownerOf_name hn
    have o2 : ownerOf (sessionKey [u, c]) = u := ((pathOk_name hn [c]) u rfl).2 c [] rfl |>.1
    have o3 : ∀ g, ownerOf (sessionKey [u, c, g]) = u := fun g =>
      ((pathOk_name hn [c, g]) u rfl).2 c [g] rfl |>.2 g [] rfl
    have h1 : s u = s' u := ha u (by rw [o1]; exact hP)
    have h2 : s (sessionKey [u, c]) = s' (sessionKey [u, c]) := ha _ (by rw [o2]; exact hP)
    have w1 : W (ownerOf u) := by rw [o1]; exact hW
    have w2 : W (ownerOf (sessionKey [u, c])) := by rw [o2]; exact hW
    have w3 : ∀ g, W (ownerOf (sessionKey [u, c, g])) := fun g => by rw [o3]; exact hW
    obtain ⟨g?, he, hg⟩ : ∃ g? : Option Str, evalPath (u :: c :: r) = .ok (u, some c, g?) ∧ (g? ≠ none → W (ownerOf c)) := by
      cases r with
      | nil => exact ⟨none, rfl, by simp⟩
      | cons g r => exact ⟨some g, rfl, fun _ => hc c g r rfl⟩
    rw [he]
    simp only [← h1, Option.getD_some]
    cases s u with
    | none => exact .nil
    | some ui =>
      dsimp only
      by_cases ht : truthy (some c) = false
      · simp only [ht, if_true]; exact .cons (Sim.del w1 _) .nil
      · rw [if_neg ht, if_neg ht]
        cases ui.subordinate with
        | error e => exact .nil
        | ok usub =>
          dsimp only
          by_cases hm : c ∉ usub
          · rw [if_pos hm, if_pos hm]; exact .nil
          · rw [if_neg hm, if_neg hm, ← h2]
            cases s (sessionKey [u, c]) with
            | none => exact .cons (simDelUserPart w1 _ _ _) .nil
            | some ci =>
              dsimp only
              cases ci.subordinate with
              | error e => exact .nil
              | ok csub =>
                dsimp only
                by_cases hgt : truthy g? = true
                · simp only [hgt, if_true]
                  have wc : W (ownerOf c) := hg (by intro e; subst e; simp [truthy] at hgt)
                  by_cases hmem : g?.getD [] ∈ csub
                  · simp only [if_pos hmem]
                    have d : Sim W s s' (s.del (sessionKey [u, c, g?.getD []]), ()) (s'.del (sessionKey [u, c, g?.getD []]), ()) :=
                      Sim.del (w3 _) ()
                    by_cases hemp : csub.erase (g?.getD []) = []
                    all_goals simp only [hemp, if_true, if_false]
                    · exact .cons d (.cons (d.trans (Sim.del w2 ())) (.cons (d.trans ((Sim.del (a := ()) w2).trans (simDelUserPart w1 _ _ _))) .nil))
                    · exact .cons d (.cons (d.trans (Sim.put wc _ ())) (.cons (d.trans ((Sim.put (a := ()) wc _).trans (simDelUserPart w1 _ _ _))) .nil))
                  · simp only [if_neg hmem]
                    by_cases hemp : csub = []
                    all_goals simp only [hemp, if_true, if_false]
                    · exact .cons (Sim.del w2 ()) (.cons ((Sim.del (a := ()) w2).trans (simDelUserPart w1 _ _ _)) .nil)
                    · exact .cons (Sim.put wc _ ()) (.cons ((Sim.put (a := ()) wc _).trans (simDelUserPart w1 _ _ _)) .nil)
                · simp only [hgt, if_false, Bool.false_eq_true]
                  have d := simDelGrants (P := P) (W := W) u c o3 hP hW csub ha
                  have e := trDelGrants (P := P) (W := W) u c o3 hP hW csub ha
                  rw [← d.out]
                  cases (dbDelGrants s u c csub).2 with
                  | error e2 => exact e
                  | ok x =>
                    dsimp only
                    simp only [if_true]
                    have d := e.last
                    exact e.append (.cons (d.trans (Sim.del w2 ())) (.cons (d.trans ((Sim.del (a := ()) w2).trans (simDelUserPart w1 _ _ _))) .nil))

theorem trCreateGrant (ha : Agree P s s') (sf : SubFuncs) (now : Int) (gid : Str) {u : Str} (c : Str) (a : SessArgs)
    (hn : UserName u) (hu : P u) (hw : W u) :
    SimL W s s' (createGrantTrace sf s now gid u c a) (createGrantTrace sf s' now gid u c a) := by
  unfold createGrantTrace
  cases newGrant sf now gid u a with
  | error e => exact .nil
  | ok g => exact trSet ha (pathOk_name hn [c, gid]) (headIn (Q := fun v => P v ∧ W v) ⟨hu, hw⟩) _

theorem trEnsureUser (ha : Agree P s s') {u : Str} (hn : UserName u) (hu : P u) (hw : W u) :
    SimL W s s' (ensureUserTrace s u) (ensureUserTrace s' u) := by
  unfold ensureUserTrace
  rw [ha.get (pathOk_name hn []) (headIn hu)]
  cases dbGet s' [u] with
  | ok o => exact .nil
  | error e =>
    dsimp only
    split
    · exact trSet ha (pathOk_name hn []) (headIn (Q := fun v => P v ∧ W v) ⟨hu, hw⟩) _
    · exact .nil

theorem trCreateSession (ha : Agree P s s') (sf : SubFuncs) (now : Int) (gid : Str) {u : Str} (c : Str) (a : SessArgs)
    (hn : UserName u) (hu : P u) (hw : W u) :
    SimL W s s' (createSessionTrace sf s now gid u c a) (createSessionTrace sf s' now gid u c a) := by
  unfold createSessionTrace
  dsimp only
  have d := simEnsureUser (W := W) ha hn hu hw
  refine (trEnsureUser ha hn hu hw).then d ?_
  generalize ensureUser s u = q at d ⊢
  generalize ensureUser s' u = q' at d ⊢
  rw [← d.out]
  cases q.2 with
  | error e => exact .nil
  | ok x =>
    dsimp only
    generalize (if c = [] then a.authReq.clientId else c) = cc
    have d2 := simSet (W := W) (d.agree ha) (pathOk_name hn [cc]) (headIn (Q := fun v => P v ∧ W v) ⟨hu, hw⟩)
      (.info (SessInfo.client cc))
    refine (trSet (d.agree ha) (pathOk_name hn [cc]) (headIn (Q := fun v => P v ∧ W v) ⟨hu, hw⟩) _).then d2 ?_
    generalize dbSet q.1 [u, cc] (.info (SessInfo.client cc)) = p at d2 ⊢
    generalize dbSet q'.1 [u, cc] (.info (SessInfo.client cc)) = p' at d2 ⊢
    rw [← d2.out]
    cases p.2 with
    | error e => exact .nil
    | ok x => exact trCreateGrant (d2.agree (d.agree ha)) sf now gid cc a hn hu hw

theorem trAddGrant (ha : Agree P s s') (now : Int) (gid : Str) {u : Str} (c : Str) (a : GrantArgs)
    (hn : UserName u) (hu : P u) (hw : W u) : SimL W s s' (addGrantTrace s now gid u c a) (addGrantTrace s' now gid u c a) := by
  unfold addGrantTrace
  dsimp only
  generalize Grant.new now gid { a with claims := [] } = g
  have d := simSet (W := W) ha (pathOk_name hn [c, gid]) (headIn (Q := fun v => P v ∧ W v) ⟨hu, hw⟩) (.grant g)
  refine (trSet ha (pathOk_name hn [c, gid]) (headIn (Q := fun v => P v ∧ W v) ⟨hu, hw⟩) _).then d ?_
  generalize dbSet s [u, c, gid] (.grant g) = q at d ⊢
  generalize dbSet s' [u, c, gid] (.grant g) = q' at d ⊢
  rw [← d.out]
  cases q.2 with
  | error e => exact .nil
  | ok x =>
    dsimp only
    rw [(d.agree ha).get (pathOk_name hn [c]) (headIn hu)]
    cases dbGet q'.1 [u, c] with
    | error e => exact .nil
    | ok o =>
      cases o with
      | grant gg => exact .nil
      | info i => exact trSet (d.agree ha) (pathOk_name hn [c]) (headIn (Q := fun v => P v ∧ W v) ⟨hu, hw⟩) _

theorem trRevokeGrant (ha : Agree P s s') (sid : Str) (hu : P (ownerOf sid)) (hw : W (ownerOf sid)) :
    SimL W s s' (revokeGrantTrace s sid) (revokeGrantTrace s' sid) := by
  unfold revokeGrantTrace
  rw [ha.get (headOk_unpack sid).path (unpackIn hu)]
  cases dbGet s' (unpackSessionKey sid) with
  | error e => exact .nil
  | ok o => exact trSet ha (headOk_unpack sid).path (unpackIn (Q := fun v => P v ∧ W v) ⟨hu, hw⟩) _

theorem trRevokeClient (ha : Agree P s s') (sid : Str) (hu : P (ownerOf sid)) (hw : W (ownerOf sid)) :
    SimL W s s' (revokeClientTrace s sid) (revokeClientTrace s' sid) := by
  unfold revokeClientTrace
  have key : ∀ u c, PathOk [u, c] → P u → W u →
      SimL W s s' (match dbGet s [u, c] with
        | .error _ => []
        | .ok (.grant _) => []
        | .ok (.info i) => setTrace s [u, c] (.info i.revoke))
       (match dbGet s' [u, c] with
        | .error _ => []
        | .ok (.grant _) => []
        | .ok (.info i) => setTrace s' [u, c] (.info i.revoke)) := by
    intro u c hp h1 h2
    rw [ha.get hp (headIn h1)]
    cases dbGet s' [u, c] with
    | error e => exact .nil
    | ok o =>
      cases o with
      | grant g => exact .nil
      | info i => exact trSet ha hp (headIn (Q := fun v => P v ∧ W v) ⟨h1, h2⟩) _
  obtain ⟨r, h1, h2⟩ := unpack_owner sid
  have hh := headOk_unpack sid
  rw [h1] at hh ⊢
  dsimp only
  have hn : r ≠ [] → UserName (ownerOf sid) := fun hr => (hh _ rfl).2 hr
  match r, hn with
  | [], _ => exact .nil
  | [c], hn => exact key _ c (pathOk_name (hn (by simp)) _) hu hw
  | [c, g], hn => exact key _ c (pathOk_name (hn (by simp)) _) hu hw
  | c :: g :: x :: r, _ => exact .nil

theorem trRemove (ha : Agree P s s') (sid : Str) (hu : P (ownerOf sid)) (hw : W (ownerOf sid))
    (hc : ∀ c g, (unpackSessionKey sid).tail = [c, g] → W (ownerOf c)) :
    SimL W s s' (removeTrace s sid) (removeTrace s' sid) := by
  unfold removeTrace
  cases h : unpack3 sid with
  | error e => exact .nil
  | ok p =>
    obtain ⟨u, c, g⟩ := p
    dsimp only
    have hk : unpackSessionKey sid = [u, c, g] := by
      unfold unpack3 at h
      split at h
      · rename_i a b d hq
        simp only [Except.ok.injEq, Prod.mk.injEq] at h
        obtain ⟨rfl, rfl, rfl⟩ := h
        exact hq
      · cases h
    have hh := headOk_unpack sid
    rw [hk] at hh hc
    obtain ⟨e, _⟩ := unpack3_owner h
    refine trDelete ha hh (headIn (Q := fun v => P v ∧ W v) ⟨e ▸ hu, e ▸ hw⟩) ?_
    intro c' g' r hr
    simp only [List.tail_cons, List.cons.injEq] at hr
    exact hc c' g' (by simp [hr.1, hr.2.1])

theorem trMint (ha : Agree P s s') (env : Env) (h : Option Handler) (now : Int) (m : MintIn) (sid tt : Str) (g : Grant)
    (b : Option Token) (hu : P (ownerOf sid)) (hw : W (ownerOf sid)) :
    SimL W s s' (mintTrace env h s now m sid tt g b) (mintTrace env h s' now m sid tt g b) := by
  unfold mintTrace
  rw [(simMint (W := W) ha env h now m sid tt g b hu hw).out]
  split
  · exact .nil
  · exact .nil
  · exact trMgrSet ha sid _ hu hw

theorem trRefreshPart (ha : Agree P s s') (env : Env) (i : TokIn) (sid : Str) (g : Grant) (b : Option Token) (want : Bool)
    (hu : P (ownerOf sid)) (hw : W (ownerOf sid)) :
    SimL W s s' (refreshPartTrace env s i sid g b want) (refreshPartTrace env s' i sid g b want) := by
  unfold refreshPartTrace
  split
  · exact trMint ha env _ _ _ sid _ g b hu hw
  · exact .nil

theorem trExchangeCode (ha : Agree P s s') (env : Env) (i : TokIn) (sid : Str) (g : Grant) (b : Option Token)
    (hu : P (ownerOf sid)) (hw : W (ownerOf sid)) :
    SimL W s s' (exchangeCodeTrace env s i sid g b) (exchangeCodeTrace env s' i sid g b) := by
  unfold exchangeCodeTrace
  dsimp only
  have d := simMint (W := W) ha env env.th.accessToken i.now i.ma sid tAccessToken g b hu hw
  refine (trMint ha env _ _ _ sid _ g b hu hw).then d ?_
  generalize mintAndStore env env.th.accessToken s i.now i.ma sid tAccessToken g b = q at d ⊢
  generalize mintAndStore env env.th.accessToken s' i.now i.ma sid tAccessToken g b = q' at d ⊢
  rw [← d.out]
  cases q.2.2 with
  | error e => exact .nil
  | ok tok =>
    dsimp only
    have d2 := simRefreshPart (W := W) (d.agree ha) env i sid q.2.1 b (decide (c!"offline_access" ∈ g.scope)) hu hw
    refine (trRefreshPart (d.agree ha) env i sid _ b _ hu hw).then d2 ?_
    generalize refreshPart env q.1 i sid q.2.1 b (decide (c!"offline_access" ∈ g.scope)) = p at d2 ⊢
    generalize refreshPart env q'.1 i sid q.2.1 b (decide (c!"offline_access" ∈ g.scope)) = p' at d2 ⊢
    rw [← d2.out]
    cases p.2.2 with
    | error e => exact .nil
    | ok rt =>
      dsimp only
      unfold finishCodeTrace
      cases b with
      | none => exact .nil
      | some b => exact trMgrSet (d2.agree (d.agree ha)) sid _ hu hw

theorem trExchangeRefresh (ha : Agree P s s') (env : Env) (i : TokIn) (sid : Str) (g : Grant) (b : Option Token)
    (hu : P (ownerOf sid)) (hw : W (ownerOf sid)) :
    SimL W s s' (exchangeRefreshTrace env s i sid g b) (exchangeRefreshTrace env s' i sid g b) := by
  unfold exchangeRefreshTrace
  dsimp only
  have d := simMint (W := W) ha env env.th.accessToken i.now i.ma sid tAccessToken g b hu hw
  refine (trMint ha env _ _ _ sid _ g b hu hw).then d ?_
  generalize mintAndStore env env.th.accessToken s i.now i.ma sid tAccessToken g b = q at d ⊢
  generalize mintAndStore env env.th.accessToken s' i.now i.ma sid tAccessToken g b = q' at d ⊢
  rw [← d.out]
  cases q.2.2 with
  | error e => exact .nil
  | ok tok =>
    dsimp only
    cases b with
    | none => exact .nil
    | some b =>
      dsimp only
      cases b.usageRules.supportsMinting with
      | none => exact .nil
      | some mints => exact trRefreshPart (d.agree ha) env i sid _ _ _ hu hw

theorem trTok (ha : Agree P s s') (env : Env) (hs : Dict Helper) (i : TokIn) (req : TokReq)
    (hc : ∀ v, req.code = some v → In env (fun u => P u ∧ W u) i.now (plusForBlank v))
    (hr : ∀ v, req.refreshToken = some v → In env (fun u => P u ∧ W u) i.now v) :
    SimL W s s' (tokTrace env hs s i req) (tokTrace env hs s' i req) := by
  unfold tokTrace
  split
  · exact .nil
  · split
    · exact .nil
    · exact .nil
    · unfold codeTrace
      by_cases hg : req.grantType ≠ some c!"authorization_code"
      · rw [if_pos hg, if_pos hg]; exact .nil
      · rw [if_neg hg, if_neg hg]
        cases h : req.code with
        | none => exact .nil
        | some v =>
          dsimp only
          rw [agree_byToken ha env i.now _ (fun sid hs => (hc v h sid hs).1)]
          cases hb : sessionByToken env.th env.cr s' i.now (plusForBlank v) with
          | error e => exact .nil
          | ok p =>
            obtain ⟨sid, o⟩ := p
            cases o with
            | info x => exact .nil
            | grant g =>
              obtain ⟨x1, x2⟩ := hc v h sid (byToken_sid hb)
              dsimp only
              cases g.authReq with
              | none => exact .nil
              | some ar =>
                dsimp only
                cases redirectCheck ar req with
                | raise e => exact .nil
                | errMsg e => exact .nil
                | val x => exact trExchangeCode ha env i sid g _ x1 x2
    · unfold refreshTrace
      by_cases hg : req.grantType ≠ some c!"refresh_token"
      · rw [if_pos hg, if_pos hg]; exact .nil
      · rw [if_neg hg, if_neg hg]
        cases h : req.refreshToken with
        | none => exact .nil
        | some v =>
          dsimp only
          rw [agree_byToken ha env i.now _ (fun sid hs => (hr v h sid hs).1)]
          cases hb : sessionByToken env.th env.cr s' i.now v with
          | error e => exact .nil
          | ok p =>
            obtain ⟨sid, o⟩ := p
            cases o with
            | info x => exact .nil
            | grant g =>
              obtain ⟨x1, x2⟩ := hr v h sid (byToken_sid hb)
              exact trExchangeRefresh ha env i sid g _ x1 x2

theorem trSetup (ha : Agree P s s') (env : Env) (cdb : Cdb) (now : Int) (gid : Str) (req : AuthReq) (a : AuthnIn)
    (hn : ∀ uid, (a.ident = .plain uid ∨ ∃ sid, a.ident = .decoded (some uid) sid) → UserName uid)
    (hu : ∀ u, IdentOf a.ident u → P u ∧ W u) :
    SimL W s s' (setupTrace env cdb s now gid req a) (setupTrace env cdb s' now gid req a) := by
  unfold setupTrace
  cases hi : a.ident with
  | nobody => exact .nil
  | plain uid =>
    have hname := hn uid (Or.inl hi)
    obtain ⟨h1, h2⟩ := hu uid (by rw [hi]; rfl)
    dsimp only
    split
    · exact .nil
    · split
      · exact .nil
      · unfold startSessionTrace
        exact trCreateSession ha env.sf now gid req.clientId _ hname h1 h2
  | decoded uid sid =>
    dsimp only
    cases sid with
    | none => exact .nil
    | some sid =>
      obtain ⟨p1, p2⟩ := hu (ownerOf sid) (by rw [hi]; exact Or.inr ⟨sid, rfl, rfl⟩)
      dsimp only
      rw [agree_mgrGet ha sid p1]
      split
      · exact .nil
      · exact .nil
      · split
        · exact .nil
        · split
          · exact .nil
          · cases uid with
            | none => exact .nil
            | some uid =>
              have hname := hn uid (Or.inr ⟨some sid, hi⟩)
              obtain ⟨q1, q2⟩ := hu uid (by rw [hi]; exact Or.inl rfl)
              dsimp only
              split
              · exact .nil
              · split
                · exact .nil
                · split
                  · exact .nil
                  · split
                    · exact .nil
                    · split
                      · exact trCreateGrant ha env.sf now gid req.clientId _ hname q1 q2
                      · exact .nil

theorem trIdTokenPart (ha : Agree P s s') (idt : Out Str) (sid : Str) (req : AuthReq) (hu : P (ownerOf sid))
    (hw : W (ownerOf sid)) : SimL W s s' (idTokenPartTrace s idt sid req) (idTokenPartTrace s' idt sid req) := by
  unfold idTokenPartTrace
  split
  · cases idt with
    | raise e => exact .nil
    | errMsg e => exact .nil
    | val i =>
      dsimp only
      cases h : unpack3 sid with
      | error e => exact .nil
      | ok p =>
        obtain ⟨u, c, g⟩ := p
        obtain ⟨e, _, hp⟩ := unpack3_owner h
        dsimp only
        rw [ha.get hp (headIn (e ▸ hu))]
        cases dbGet s' [u, c] with
        | error e => exact .nil
        | ok o => exact trSet ha hp (headIn (Q := fun v => P v ∧ W v) ⟨e ▸ hu, e ▸ hw⟩) o
  · exact .nil

theorem trResponse (ha : Agree P s s') (env : Env) (now : Int) (mc ma : MintIn) (idt : Out Str) (req : AuthReq) (sid : Str)
    (hu : P (ownerOf sid)) (hw : W (ownerOf sid)) :
    SimL W s s' (responseTrace env s now mc ma idt req sid) (responseTrace env s' now mc ma idt req sid) := by
  unfold responseTrace
  split
  · exact .nil
  · rw [agree_getGrant ha sid hu]
    cases getGrant s' sid with
    | error e => exact .nil
    | ok g =>
      dsimp only
      have d := simCodePart (W := W) ha env now mc sid g req hu hw
      have t1 : SimL W s s' (codePartTrace env s now mc sid g req) (codePartTrace env s' now mc sid g req) := by
        unfold codePartTrace
        split
        · exact trMint ha env _ _ _ sid _ g _ hu hw
        · exact .nil
      refine t1.then d ?_
      generalize codePart env s now mc sid g req = q at d ⊢
      generalize codePart env s' now mc sid g req = q' at d ⊢
      rw [← d.out]
      cases q.2.2 with
      | error e => exact .nil
      | ok code =>
        dsimp only
        have d2 := simTokenPart (W := W) (d.agree ha) env now ma sid q.2.1 code req hu hw
        have t2 : SimL W q.1 q'.1 (tokenPartTrace env q.1 now ma sid q.2.1 code req)
            (tokenPartTrace env q'.1 now ma sid q.2.1 code req) := by
          unfold tokenPartTrace
          split
          · exact trMint (d.agree ha) env _ _ _ sid _ _ _ hu hw
          · exact .nil
        refine t2.then d2 ?_
        generalize tokenPart env q.1 now ma sid q.2.1 code req = p at d2 ⊢
        generalize tokenPart env q'.1 now ma sid q.2.1 code req = p' at d2 ⊢
        rw [← d2.out]
        cases p.2.2 with
        | error e => exact .nil
        | ok tok => exact trIdTokenPart (d2.agree (d.agree ha)) idt sid req hu hw

theorem trPart2 (ha : Agree P s s') (env : Env) (cdb : Cdb) (now : Int) (mc ma : MintIn) (idt : Out Str) (req : AuthReq)
    (sid : Str) (hu : P (ownerOf sid)) (hw : W (ownerOf sid)) :
    SimL W s s' (part2Trace env cdb s now mc ma idt req sid) (part2Trace env cdb s' now mc ma idt req sid) := by
  unfold part2Trace
  rw [agree_getGrant ha sid hu]
  cases getGrant s' sid with
  | error e => exact .nil
  | ok g =>
    dsimp only
    cases h : unpack3 sid with
    | error e => exact .nil
    | ok p =>
      obtain ⟨u, c, gi⟩ := p
      obtain ⟨e, hp, _⟩ := unpack3_owner h
      dsimp only
      generalize (authzCall env.gc env.ccfg cdb now c g req).2 = a
      cases a with
      | error e => exact .nil
      | ok g' =>
        dsimp only
        have d := simSet (W := W) ha hp (headIn (Q := fun v => P v ∧ W v) ⟨e ▸ hu, e ▸ hw⟩) (.grant g')
        refine (trSet ha hp (headIn (Q := fun v => P v ∧ W v) ⟨e ▸ hu, e ▸ hw⟩) _).then d ?_
        generalize dbSet s [u, c, gi] (.grant g') = q at d ⊢
        generalize dbSet s' [u, c, gi] (.grant g') = q' at d ⊢
        rw [← d.out]
        cases q.2 with
        | error e => exact .nil
        | ok x => exact trResponse (d.agree ha) env now mc ma idt req sid hu hw

theorem trAuthz (ha : Agree P s s') (env : Env) (cdb : Cdb) (now : Int) (gid : Str) (mc ma : MintIn) (idt : Out Str)
    (a : AuthnIn) (req : AuthReq)
    (hn : ∀ uid, (a.ident = .plain uid ∨ ∃ sid, a.ident = .decoded (some uid) sid) → UserName uid)
    (hu : ∀ u, IdentOf a.ident u → P u ∧ W u) :
    SimL W s s' (authzTrace env cdb s now gid mc ma idt a req) (authzTrace env cdb s' now gid mc ma idt a req) := by
  unfold authzTrace
  cases cdb req.clientId with
  | none => exact .nil
  | some c =>
    dsimp only
    by_cases hs : checkScopes env c req = false
    · rw [if_pos hs, if_pos hs]; exact .nil
    · rw [if_neg hs, if_neg hs]
      obtain ⟨d, ho⟩ := simSetupAuth (W := W) ha env cdb now gid req a hn hu
      refine (trSetup ha env cdb now gid req a hn hu).then d ?_
      generalize setupAuth env cdb s now gid req a = q at d ho ⊢
      generalize setupAuth env cdb s' now gid req a = q' at d ⊢
      rw [← d.out]
      cases hq : q.2 with
      | raise e => exact .nil
      | errMsg e => exact .nil
      | val x =>
        cases x with
        | login => exact .nil
        | loginRequired => exact .nil
        | session sid u =>
          obtain ⟨x1, x2⟩ := ho sid u hq
          exact trPart2 (d.agree ha) env cdb now mc ma idt req sid x1 x2

end Verif
