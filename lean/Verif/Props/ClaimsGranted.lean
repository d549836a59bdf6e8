import Verif.Spec.ClaimsGranted
import Verif.Model.AuthzHandling
import Verif.Props.Demo
set_option linter.unusedSimpArgs false
/-! C139: the claims a session may release, computed when the user authorizes. -/
namespace Verif
open Spec

theorem nameClaims_get (l : List Str) (n : Str) : Dict.get? (nameClaims l) n = if n ∈ l then some none else none := by
  unfold nameClaims
  induction l with
  | nil => rfl
  | cons x l ih =>
    simp only [List.map_cons, Dict.get?_cons, ih, List.mem_cons]
    by_cases h : n = x
    · subst h; simp
    · by_cases h2 : n ∈ l
      · have : ¬ x = n := fun e => h e.symm
        simp [h, h2, this]
      · have : ¬ x = n := fun e => h e.symm
        simp [h, h2, this]

/-- Every claim has no restriction. -/
def AllFree (c : Claims) : Prop := ∀ p ∈ c, p.2 = none

theorem allFree_set {c : Claims} (h : AllFree c) (k : Str) : AllFree (Dict.set c k none) := by
  intro p hp
  induction c with
  | nil => simp [Dict.set] at hp; rw [hp]
  | cons q c ih =>
    obtain ⟨a, b⟩ := q
    unfold Dict.set at hp
    split at hp
    · rcases List.mem_cons.1 hp with rfl | hp
      · rfl
      · exact h p (by simp [hp])
    · rcases List.mem_cons.1 hp with rfl | hp
      · exact h _ (by simp)
      · exact ih (fun p hp => h p (by simp [hp])) hp

theorem allFree_names {c : Claims} (h : AllFree c) (l : List Str) : AllFree (c.update (nameClaims l)) := by
  unfold Dict.update nameClaims
  induction l generalizing c with
  | nil => exact h
  | cons n l ih => exact ih (allFree_set h n)

theorem convertScopes_free {map : Dict (List Str)} {l : List Str} {acc res : Claims} (ha : AllFree acc) (hn : acc.keys.Nodup)
    (h : convertScopes map l acc = .ok res) : AllFree res ∧ res.keys.Nodup := by
  induction l generalizing acc with
  | nil => cases h; exact ⟨ha, hn⟩
  | cons s l ih =>
    unfold convertScopes at h
    split at h
    · cases h
    · exact ih (allFree_names ha _) (Dict.keys_update_nodup hn _) h

theorem clientClaims_get (cdb : Cdb) (client usage n : Str) :
    Dict.get? (clientClaims cdb client usage).1 n = clientAs cdb client usage n := by
  unfold clientClaims clientAs
  cases cdb client with
  | none => rfl
  | some c =>
    dsimp only
    cases c.claims.get? usage with
    | none => rfl
    | some e => cases e with
      | names l => exact nameClaims_get l n
      | dict d => rfl

theorem requestClaims_get (arc : Option (Dict Claims)) (usage n : Str) :
    Dict.get? (requestClaims arc usage) n = askedAs arc usage n := by
  unfold requestClaims askedAs
  split
  · cases arc with
    | none => rfl
    | some d =>
      simp only [Option.getD_some, Option.bind_some]
      cases d.get? usage <;> rfl
  · rfl

/-- C139: the claims for one use, with their restrictions, are exactly what request, scopes, configuration and client's record say,
in this order. -/
theorem C139_claims_of_a_use (cfg : ClaimsCfg) (cdb cdb' : Cdb) (client : Str) (arc : Option (Dict Claims)) (scopes : List Str)
    (usage : Str) (res : Claims) (h : getClaims cfg cdb client arc scopes usage = (cdb', .ok res))
    (hd : DistinctNames arc ((cfg.modules.get? usage).getD {})) (n : Str) :
    GrantedAs cfg ((cfg.modules.get? usage).getD {}) cdb client arc scopes usage n (Dict.get? res n) := by
  have hreq : (requestClaims arc usage).keys.Nodup := by
    unfold requestClaims
    split
    · cases arc with
      | none => simp [Dict.get?, Dict.keys]
      | some d =>
        simp only [Option.getD_some]
        cases hg : d.get? usage with
        | none => simp [Dict.keys]
        | some cs => exact hd.2 d rfl usage cs hg
    · simp [Dict.keys]
  unfold GrantedAs
  rw [← requestClaims_get]
  unfold getClaims at h
  cases hm : cfg.modules.get? usage with
  | none =>
    simp only [hm, Prod.mk.injEq, Except.ok.injEq] at h
    rw [← h.2, Dict.get?_update _ _ _ hreq]
    cases Dict.get? (requestClaims arc usage) n with
    | some s => rfl
    | none => simp [Dict.update, Dict.get?]
  | some m =>
    rw [hm] at hd
    have hbase : (m.baseClaims.map (·.1)).Nodup := hd.1
    have hcc : Dict.get? (if m.perClient = true then clientClaims cdb client usage else ([], false)).1 n =
        if m.perClient = true then clientAs cdb client usage n else none := by
      split
      · exact clientClaims_get _ _ _ _
      · rfl
    have hc1 : Dict.get? ((if m.perClient = true then clientClaims cdb client usage else ([], false)).1.update m.baseClaims) n =
        match Dict.get? m.baseClaims n with
        | some s => some s
        | none => if m.perClient = true then clientAs cdb client usage n else none := by
      rw [Dict.get?_update _ _ _ hbase, hcc]
      cases Dict.get? m.baseClaims n <;> rfl
    simp only [hm] at h
    generalize (if m.perClient = true then clientClaims cdb client usage else ([], false)) = cc at h hc1
    simp only [Option.getD_some]
    by_cases hb : m.byScope = true ∧ scopes ≠ []
    · simp only [if_pos hb] at h
      cases hcv : convertScopes cfg.scope2claims (filterScopes cfg cdb client scopes) [] with
      | error e => rw [hcv] at h; simp at h
      | ok sc =>
        simp only [hcv, Prod.mk.injEq, Except.ok.injEq] at h
        obtain ⟨hfree, hnd⟩ := convertScopes_free (acc := []) (fun _ hp => nomatch hp) (by simp [Dict.keys]) hcv
        have hex := C49_scope_claims_exact cfg cdb client scopes sc hcv n
        rw [← h.2, Dict.get?_update _ _ _ hreq]
        cases Dict.get? (requestClaims arc usage) n with
        | some s => rfl
        | none =>
          simp only
          rw [Dict.get?_update _ _ _ hnd]
          by_cases hg : n ∈ sc.keys
          · have h1 : Dict.get? sc n = some none := by
              have := Dict.get?_isSome.2 hg
              obtain ⟨v, hv⟩ := Option.isSome_iff_exists.1 this
              rw [hv, show v = none from hfree _ (Dict.get?_mem hv)]
            rw [h1]
            exact ⟨fun _ => rfl, fun hn => absurd ⟨hb.1, hex.1 hg⟩ hn⟩
          · have h1 : Dict.get? sc n = none := by
              cases hx : Dict.get? sc n with
              | none => rfl
              | some v => exact absurd (Dict.get?_isSome.1 (by rw [hx]; rfl)) hg
            rw [h1]
            exact ⟨fun hy => absurd (hex.2 hy.2) hg, fun _ => hc1⟩
    · simp only [if_neg hb, Prod.mk.injEq, Except.ok.injEq] at h
      rw [← h.2, Dict.get?_update _ _ _ hreq]
      have hno : ¬ (m.byScope = true ∧ ScopeGives cfg cdb client scopes n) := by
        rintro ⟨h1, s, hs, _⟩
        exact hb ⟨h1, fun e => by rw [e] at hs; exact nomatch hs⟩
      cases Dict.get? (requestClaims arc usage) n with
      | some s => rfl
      | none => exact ⟨fun hy => absurd hy hno, fun _ => hc1⟩

/-! ### All four uses -/

/-- For claims of one use, the two client databases say the same of the client. -/
def LikeFor (client usage : Str) (a b : Cdb) : Prop :=
  (a client).map (fun c => (c.allowedScopes, c.claims.get? usage)) = (b client).map fun c => (c.allowedScopes, c.claims.get? usage)

theorem likeFor_cases {client usage : Str} {a b : Cdb} (h : LikeFor client usage a b) :
    (a client = none ∧ b client = none) ∨
    ∃ c d, a client = some c ∧ b client = some d ∧ c.allowedScopes = d.allowedScopes ∧ c.claims.get? usage = d.claims.get? usage := by
  unfold LikeFor at h
  cases ha : a client with
  | none => cases hb : b client with
    | none => exact .inl ⟨rfl, rfl⟩
    | some d => rw [ha, hb] at h; cases h
  | some c => cases hb : b client with
    | none => rw [ha, hb] at h; cases h
    | some d =>
      rw [ha, hb] at h
      simp only [Option.map_some, Option.some.injEq, Prod.mk.injEq] at h
      exact .inr ⟨c, d, rfl, rfl, h.1, h.2⟩

theorem getClaims_like {cfg : ClaimsCfg} {client usage : Str} {a b : Cdb} (h : LikeFor client usage a b) (arc : Option (Dict Claims))
    (scopes : List Str) : (getClaims cfg a client arc scopes usage).2 = (getClaims cfg b client arc scopes usage).2 := by
  have h1 : clientClaims a client usage = clientClaims b client usage := by
    unfold clientClaims
    rcases likeFor_cases h with ⟨e1, e2⟩ | ⟨c, d, e1, e2, _, e4⟩
    · rw [e1, e2]
    · rw [e1, e2]; simp only [e4]
  have h2 : filterScopes cfg a client scopes = filterScopes cfg b client scopes := by
    unfold filterScopes allowedScopes
    rcases likeFor_cases h with ⟨e1, e2⟩ | ⟨c, d, e1, e2, e3, _⟩
    · rw [e1, e2]
    · rw [e1, e2]; simp only [e3]
  unfold getClaims
  rw [h1, h2]
  dsimp only
  split <;> rfl

theorem getClaims_likeFor {cfg : ClaimsCfg} {cdb : Cdb} {client usage other : Str} (hne : other ≠ usage) (arc : Option (Dict Claims))
    (scopes : List Str) : LikeFor client usage cdb (getClaims cfg cdb client arc scopes other).1 := by
  have key : ∀ (b : Bool) (d : Claims), LikeFor client usage cdb (if b = true then cdb.setClaims client other d else cdb) := by
    intro b d
    cases b with
    | false => exact rfl
    | true =>
      unfold LikeFor Cdb.setClaims
      simp only [if_true]
      cases cdb client with
      | none => rfl
      | some c => simp [Dict.get?_set, hne.symm]
  unfold getClaims
  dsimp only
  split <;> exact key _ _

theorem claimsForAll_get {cfg : ClaimsCfg} {client : Str} {arc : Option (Dict Claims)} {scopes : List Str} :
    ∀ (is : List Str), is.Nodup → ∀ (cdb cdb' : Cdb) (acc res : Dict Claims),
      claimsForAll cfg client arc scopes is cdb acc = (cdb', .ok res) →
      (∀ u ∈ is, ∃ c, (getClaims cfg cdb client arc scopes u).2 = .ok c ∧ res.get? u = some c) ∧
      ∀ u, u ∉ is → res.get? u = acc.get? u
  | [], _, cdb, cdb', acc, res, h => by
    cases h
    exact ⟨(fun u hu => nomatch hu), fun _ _ => rfl⟩
  | i :: is, hnd, cdb, cdb', acc, res, h => by
    obtain ⟨hi, hnd⟩ := List.nodup_cons.1 hnd
    unfold claimsForAll at h
    dsimp only at h
    cases hc : (getClaims cfg cdb client arc scopes i).2 with
    | error e => rw [hc] at h; simp at h
    | ok c =>
      rw [hc] at h
      obtain ⟨h1, h2⟩ := claimsForAll_get is hnd _ _ _ _ h
      refine ⟨?_, ?_⟩
      · intro u hu
        rcases List.mem_cons.1 hu with rfl | hu
        · exact ⟨c, hc, by rw [h2 _ hi, Dict.get?_set]; simp⟩
        · obtain ⟨c', e1, e2⟩ := h1 u hu
          have hne : i ≠ u := fun e => hi (e ▸ hu)
          rw [← getClaims_like (getClaims_likeFor hne arc scopes)] at e1
          exact ⟨c', e1, e2⟩
      · intro u hu
        simp only [List.mem_cons, not_or] at hu
        rw [h2 u hu.2, Dict.get?_set]
        simp [hu.1]

/-- C139: when the user has authorized, the session holds the claims for the four uses (userinfo, introspection, ID token and access
token), each computed from what request, scopes, configuration and client's record say of that use. -/
theorem C139_granted_claims (gc : AuthzConfig) (himp : gc.implicit = false) (ccfg : ClaimsCfg) (cdb cdb' : Cdb) (now : Int) (client : Str)
    (g g' : Grant) (req ar : AuthReq) (har : g.authReq = some ar)
    (h : authzCall gc ccfg cdb now client g req = (cdb', .ok g')) (u : Str)
    (hu : u ∈ [c!"userinfo", c!"introspection", c!"id_token", c!"access_token"])
    (hd : DistinctNames ar.claims ((ccfg.modules.get? u).getD {})) :
    ∃ c, g'.claims.get? u = some c ∧
      ∀ n, GrantedAs ccfg ((ccfg.modules.get? u).getD {}) cdb client ar.claims req.scope u n (Dict.get? c n) := by
  unfold authzCall at h
  rw [if_neg (by simp [himp])] at h
  split at h
  · cases h
  · rw [har] at h
    dsimp only at h
    cases hr : claimsForAll ccfg client ar.claims req.scope interfaces cdb (req.claims.getD g.claims) with
    | mk cdb1 o =>
      rw [hr] at h
      cases o with
      | error e => cases h
      | ok cl =>
        simp only [Prod.mk.injEq, Except.ok.injEq] at h
        obtain ⟨h1, _⟩ := claimsForAll_get interfaces (by decide) _ _ _ _ hr
        obtain ⟨c, e1, e2⟩ := h1 u hu
        refine ⟨c, by rw [← h.2]; exact e2, fun n => ?_⟩
        exact C139_claims_of_a_use ccfg cdb _ client ar.claims req.scope u c (Prod.ext rfl e1) hd n

/-! A case in which all four sources occur. -/

def grantCcfg : ClaimsCfg :=
  { modules := [(c!"userinfo", { byScope := true, perClient := true, baseClaims := [(c!"b", none), (c!"nick", some [(c!"essential", .bool true)])] }),
                (c!"access_token", { byScope := true })],
    scope2claims := [(c!"openid", [c!"sub"]), (c!"email", [c!"email"]), (c!"phone", [c!"phone"])],
    scopesSupported := [] }

def grantCcdb : Cdb := fun _ => some { allowedScopes := [c!"openid", c!"email"], claims := [(c!"userinfo", .names [c!"own", c!"nick"])] }

def grantAreq : AuthReq :=
  { demoReq [c!"code"] with scope := [c!"openid", c!"email", c!"phone"], claims := some [(c!"userinfo", [(c!"email", some [(c!"essential", .bool true)])])] }

example : ((authzCall {} grantCcfg grantCcdb 5 c!"c" { Grant.new 1 c!"g1" {} with authReq := some grantAreq } grantAreq).2.map fun g =>
      (g.claims.get? c!"userinfo", g.claims.get? c!"access_token", g.claims.get? c!"id_token", g.claims.get? c!"introspection")) =
    .ok (some [(c!"own", none), (c!"nick", some [(c!"essential", .bool true)]), (c!"b", none), (c!"sub", none),
        (c!"email", some [(c!"essential", .bool true)])], some [(c!"sub", none), (c!"email", none)], some [], some []) ∧
    DistinctNames grantAreq.claims ((grantCcfg.modules.get? c!"userinfo").getD {}) := by
  refine ⟨by decide, by decide, ?_⟩
  intro d hd u cs hc
  have hd : _ = d := Option.some.inj hd
  subst hd
  have := Dict.get?_mem hc
  simp only [List.mem_singleton, Prod.mk.injEq] at this
  rw [this.2]
  decide

end Verif
