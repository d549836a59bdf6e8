import Verif.Spec.SharedRules
import Verif.Props.AuthzSession
import Verif.Props.Demo
/-! C171: tokens behave as if each had its own rules, although the dictionaries are shared and changed in place. -/
namespace Verif
open Spec

theorem setDefaults_idem (k : TokenKind) (r : UsageRules) : setDefaults k (setDefaults k r) = setDefaults k r := by
  cases k <;> cases r with | mk a b c => cases b <;> rfl

theorem defaultsFor_idem (t : Str) (r : UsageRules) : defaultsFor t (defaultsFor t r) = defaultsFor t r := by
  unfold defaultsFor
  cases defaultTokenMap.get? t with
  | none => rfl
  | some k => exact setDefaults_idem k r

/-- The same rules but for defaults that have been filled in. -/
def Near (t : Str) (x y : UsageRules) : Prop := defaultsFor t x = defaultsFor t y ∧ (x = {} ↔ y = {})

theorem Near.refl (t : Str) (x : UsageRules) : Near t x x := ⟨rfl, Iff.rfl⟩

theorem setDefaults_ne {k : TokenKind} {x : UsageRules} (h : x ≠ {}) : setDefaults k x ≠ {} := by
  cases k with
  | authorizationCode => intro e; have := congrArg UsageRules.maxUsage e; simp [setDefaults] at this
  | refreshToken => intro e; have := congrArg UsageRules.supportsMinting e; cases x with | mk a b c => cases b <;> simp [setDefaults] at this
  | accessToken => exact h

theorem Near.filled {t : Str} {x y : UsageRules} (h : Near t x y) (hy : x ≠ {}) : Near t (defaultsFor t x) y := by
  refine ⟨by rw [defaultsFor_idem]; exact h.1, fun e => ?_, fun e => absurd (h.2.2 e) hy⟩
  exfalso
  unfold defaultsFor at e
  cases hk : defaultTokenMap.get? t with
  | none => rw [hk] at e; exact hy e
  | some k => rw [hk] at e; exact setDefaults_ne hy e

theorem setDefaults_update {k : TokenKind} {x y : UsageRules} (h : setDefaults k x = setDefaults k y) (p : UsageRules) :
    setDefaults k (x.update p) = setDefaults k (y.update p) := by
  cases x with | mk x1 x2 x3 =>
  cases y with | mk y1 y2 y3 =>
  cases p with | mk p1 p2 p3 =>
  cases k with
  | accessToken => simp only [setDefaults] at h ⊢; rw [h]
  | authorizationCode =>
    cases p2 <;> cases x2 <;> cases y2 <;> simp_all [setDefaults, UsageRules.update]
  | refreshToken =>
    cases p2 <;> cases x2 <;> cases y2 <;> simp_all [setDefaults, UsageRules.update]

theorem update_empty_iff (x p : UsageRules) : x.update p = {} ↔ x = {} ∧ p = {} := by
  cases x with | mk x1 x2 x3 =>
  cases p with | mk p1 p2 p3 =>
  cases p1 <;> cases p2 <;> cases p3 <;> simp [UsageRules.update]

theorem Near.update {t : Str} {x y : UsageRules} (h : Near t x y) (p : UsageRules) : Near t (x.update p) (y.update p) := by
  refine ⟨?_, by rw [update_empty_iff, update_empty_iff, h.2]⟩
  have h1 := h.1
  unfold defaultsFor at h1 ⊢
  cases hk : defaultTokenMap.get? t with
  | none => rw [hk] at h1; simp only at h1 ⊢; rw [h1]
  | some k => rw [hk] at h1; exact setDefaults_update h1 p

/-- The type of the dictionary at an address. -/
def typeAt (typeOf : Nat → Str) : RuleAddr → Option Str
  | .cfg a => some (typeOf a)
  | .copy _ t => some t
  | .own _ => none

/-- The address was made before step `n`. -/
def Older (n : Nat) : RuleAddr → Prop
  | .cfg _ => True
  | .copy m _ => m < n
  | .own m => m < n

/-- The rules of a type in a grant: a reference as it may occur, and what it says. -/
structure RefOk (cfg : RulesCfg) (h : RulesHeap) (t : Str) (r : Option RuleAddr) (d : UsageRules) : Prop where
  near : Near t (match r with | some a => h.heap a | none => {}) d
  kind : ∀ a, r = some a → (∃ n, a = .copy n t ∧ n < h.n) ∨
    (∃ n, a = .cfg n ∧ ((cfg.prov.getD []).get? t = some n ∨
      ((cfg.prov.getD []).get? t = none ∧ ∃ c p, cfg.client c = some p ∧ p.get? t = some n)))

/-- The heap and the copies say the same. -/
structure RulesAgree (cfg : RulesCfg) (typeOf : Nat → Str) (h : RulesHeap) (c : RulesCopies) : Prop where
  prov : ∀ t a, (cfg.prov.getD []).get? t = some a → Near t (h.heap (.cfg a)) (cfg.cells a)
  client : ∀ c p t a, cfg.client c = some p → p.get? t = some a → Near t (h.heap (.cfg a)) (cfg.cells a)
  clientKept : ∀ c p t a, cfg.client c = some p → p.get? t = some a → (cfg.prov.getD []).get? t ≠ none → h.heap (.cfg a) = cfg.cells a
  len : h.grants.length = c.grants.length
  grants : ∀ (i : Nat) (g : Str → Option RuleAddr) (d : Dict UsageRules), h.grants[i]? = some g → c.grants[i]? = some d → ∀ t, RefOk cfg h t (g t) ((d.get? t).getD {})
  seen : h.seen = c.toks
  fixed : ∀ x ∈ h.toks, Older h.n x.2 ∧ ∀ t, typeAt typeOf x.2 = some t → defaultsFor t (h.heap x.2) = h.heap x.2

theorem get?_mapVals {α β : Type} (f : α → β) (d : Dict α) (k : Str) :
    Dict.get? (d.map fun kv => (kv.1, f kv.2)) k = (d.get? k).map f := by
  induction d with
  | nil => rfl
  | cons p r ih =>
    obtain ⟨k', v⟩ := p
    simp only [List.map_cons, Dict.get?_cons, ih]
    by_cases e : k' = k <;> simp [e]

theorem usageRulesOf_get (gc : AuthzConfig) (cdb : Cdb) (client tt : Str) :
    (usageRulesOf gc cdb client).get? tt =
      match (gc.usageRules.getD []).get? tt, ((cdb client).bind (·.tokenUsageRules)).bind (·.get? tt) with
      | some r, some p => some (r.update p)
      | some r, none => some r
      | none, x => x := by
  unfold usageRulesOf
  generalize gc.usageRules.getD [] = rules
  cases (cdb client).bind (·.tokenUsageRules) with
  | none => cases rules.get? tt <;> rfl
  | some pc =>
    cases rules with
    | nil => simp [Dict.get?]
    | cons kv rules =>
      simp only [List.isEmpty_cons, Bool.false_eq_true, if_false]
      rw [get?_foldl_add, get?_mapMerge]
      simp only [Option.bind_some]
      cases (Dict.get? (kv :: rules) tt) <;> cases pc.get? tt <;> rfl

theorem prov_some {cfg : RulesCfg} {t : Str} {a : Nat} (h : (cfg.prov.getD []).get? t = some a) :
    ∃ p, cfg.prov = some p ∧ p.get? t = some a := by
  cases hp : cfg.prov with
  | none => rw [hp] at h; cases h
  | some p => rw [hp] at h; exact ⟨p, rfl, h⟩

theorem rulesAgree_start (cfg : RulesCfg) (typeOf : Nat → Str) : RulesAgree cfg typeOf (RulesHeap.start cfg) {} :=
  ⟨fun _ _ _ => Near.refl _ _, fun _ _ _ _ _ _ => Near.refl _ _, fun _ _ _ _ _ _ _ => rfl, rfl, fun i g d hg _ => by simp [RulesHeap.start] at hg,
    rfl, fun x hx => by simp [RulesHeap.start] at hx⟩

theorem older_mono {n m : Nat} (h : n ≤ m) {a : RuleAddr} (ho : Older n a) : Older m a := by
  cases a with
  | cfg _ => trivial
  | copy _ _ => exact Nat.lt_of_lt_of_le ho h
  | own _ => exact Nat.lt_of_lt_of_le ho h

/-- Only the clock, the new cells (at addresses not in use) and the grants change. -/
theorem RefOk.frame {cfg : RulesCfg} {h h' : RulesHeap} {t : Str} {r : Option RuleAddr} {d : UsageRules} (hr : RefOk cfg h t r d)
    (hn : h.n ≤ h'.n) (hh : ∀ a, Older h.n a → h'.heap a = h.heap a) : RefOk cfg h' t r d := by
  refine ⟨?_, fun a e => ?_⟩
  · cases r with
    | none => exact hr.near
    | some a =>
      have : h'.heap a = h.heap a := hh a (by
        rcases hr.kind a rfl with ⟨n, rfl, hl⟩ | ⟨n, rfl, _⟩
        · exact hl
        · trivial)
      show Near t (h'.heap a) d
      rw [this]
      exact hr.near
  · rcases hr.kind a e with ⟨n, e1, hl⟩ | h2
    · exact Or.inl ⟨n, e1, Nat.lt_of_lt_of_le hl hn⟩
    · exact Or.inr h2

theorem seen_frame {h h' : RulesHeap} (ht : h'.toks = h.toks) (ho : ∀ x ∈ h.toks, Older h.n x.2)
    (hh : ∀ a, Older h.n a → h'.heap a = h.heap a) : h'.seen = h.seen := by
  unfold RulesHeap.seen
  rw [ht]
  exact List.map_congr_left fun x hx => by rw [hh _ (ho x hx)]

/-- Steps that leave the grants and everything older alone. -/
theorem RulesAgree.frame {cfg : RulesCfg} {typeOf : Nat → Str} {h h' : RulesHeap} {c c' : RulesCopies} (ha : RulesAgree cfg typeOf h c)
    (hn : h'.n = h.n + 1) (hh : ∀ a, Older h.n a → h'.heap a = h.heap a) (hg : h'.grants = h.grants) (hc : c'.grants = c.grants)
    (hs : h'.seen = c'.toks) (hf : ∀ x ∈ h'.toks, x ∈ h.toks ∨ x.2 = .own h.n) : RulesAgree cfg typeOf h' c' := by
  have hn' : h.n ≤ h'.n := by omega
  refine ⟨fun t a e => by rw [hh (.cfg _) trivial]; exact ha.prov t a e, fun c' p t a e1 e2 => by rw [hh (.cfg _) trivial]; exact ha.client c' p t a e1 e2,
    fun c' p t a e1 e2 e3 => by rw [hh (.cfg _) trivial]; exact ha.clientKept c' p t a e1 e2 e3, by rw [hg, hc]; exact ha.len, ?_, hs, ?_⟩
  · intro i g d h1 h2 t
    rw [hg] at h1
    rw [hc] at h2
    exact (ha.grants i g d h1 h2 t).frame hn' hh
  · intro x hx
    rcases hf x hx with hx | hx
    · obtain ⟨h1, h2⟩ := ha.fixed x hx
      exact ⟨older_mono hn' h1, fun t e => by rw [hh _ h1]; exact h2 t e⟩
    · rw [hx]
      exact ⟨by show h.n < h'.n; omega, fun t e => by cases e⟩

theorem rulesAgree_step {cfg : RulesCfg} {typeOf : Nat → Str} {gc : AuthzConfig} {cdb : Cdb} (hw : WrittenAs cfg gc cdb)
    (ho : OneTypeEach cfg typeOf) {h : RulesHeap} {c : RulesCopies} (ha : RulesAgree cfg typeOf h c) (op : RulesOp) :
    RulesAgree cfg typeOf (h.step cfg op) (c.step gc cdb op) := by
  have hgc : ∀ t, (gc.usageRules.getD []).get? t = ((cfg.prov.getD []).get? t).map cfg.cells := by
    intro t
    rw [hw.provider]
    cases cfg.prov with
    | none => rfl
    | some p => exact get?_mapVals cfg.cells p t
  have hcl : ∀ cl t, ((cdb cl).bind (·.tokenUsageRules)).bind (·.get? t) = ((cfg.client cl).bind (·.get? t)).map cfg.cells := by
    intro cl t
    rw [hw.clients]
    cases cfg.client cl with
    | none => rfl
    | some p => exact get?_mapVals cfg.cells p t
  cases op with
  | session cl =>
    have hh : ∀ a, Older h.n a → (h.step cfg (.session cl)).heap a = h.heap a := by
      intro a hol
      cases a with
      | cfg _ => rfl
      | own _ => rfl
      | copy m t => exact if_neg (Nat.ne_of_lt hol)
    have hn : h.n ≤ (h.step cfg (.session cl)).n := Nat.le_succ _
    refine ⟨fun t a e => by rw [hh (.cfg _) trivial]; exact ha.prov t a e, fun c' p t a e1 e2 => by rw [hh (.cfg _) trivial]; exact ha.client c' p t a e1 e2,
      fun c' p t a e1 e2 e3 => by rw [hh (.cfg _) trivial]; exact ha.clientKept c' p t a e1 e2 e3, ?_, ?_, ?_, ?_⟩
    · show (h.grants ++ [_]).length = (c.grants ++ [_]).length
      simp [ha.len]
    · intro i g d hg hd t
      have hg' : (h.grants ++ [rulesRef cfg cl h.n])[i]? = some g := hg
      have hd' : (c.grants ++ [usageRulesOf gc cdb cl])[i]? = some d := hd
      by_cases hi : i < h.grants.length
      · rw [List.getElem?_append_left hi] at hg'
        rw [List.getElem?_append_left (ha.len ▸ hi)] at hd'
        exact (ha.grants i g d hg' hd' t).frame hn hh
      · rw [List.getElem?_append_right (by omega)] at hg'
        rw [List.getElem?_append_right (by have := ha.len; omega)] at hd'
        rw [ha.len] at hg'
        obtain ⟨hz, eg⟩ : i - c.grants.length = 0 ∧ g = rulesRef cfg cl h.n := by
          cases hz : i - c.grants.length with
          | zero => rw [hz] at hg'; exact ⟨rfl, (Option.some.inj hg').symm⟩
          | succ m => rw [hz] at hg'; simp at hg'
        rw [hz] at hd'
        have ed : d = usageRulesOf gc cdb cl := (Option.some.inj hd').symm
        subst eg ed
        rw [usageRulesOf_get, hgc, hcl]
        have hcref : ∀ (t : Str), (cfg.prov.getD []).get? t = none →
            RefOk cfg (h.step cfg (.session cl)) t (((cfg.client cl).bind (·.get? t)).map .cfg)
              ((((cfg.client cl).bind (·.get? t)).map cfg.cells).getD {}) := by
          intro t hnone
          cases hb : (cfg.client cl).bind (·.get? t) with
          | none => exact ⟨Near.refl _ _, fun a e => by cases e⟩
          | some b =>
            obtain ⟨p, e1, e2⟩ := Option.bind_eq_some_iff.1 hb
            refine ⟨?_, fun a e => Or.inr ⟨b, (Option.some.inj e).symm, Or.inr ⟨hnone, cl, p, e1, e2⟩⟩⟩
            show Near t ((h.step cfg (.session cl)).heap (.cfg b)) (cfg.cells b)
            rw [hh (.cfg _) trivial]
            exact ha.client cl p t b e1 e2
        cases hp : (cfg.prov.getD []).get? t with
        | none =>
          have e : rulesRef cfg cl h.n t = ((cfg.client cl).bind (·.get? t)).map .cfg := by
            unfold rulesRef
            by_cases hem : (cfg.prov.getD []).isEmpty <;> simp [hem, hp]
          rw [e]
          simpa using hcref t hp
        | some a =>
          have e : rulesRef cfg cl h.n t = some (.copy h.n t) := by
            unfold rulesRef
            have : (cfg.prov.getD []).isEmpty = false := by
              cases hq : cfg.prov.getD [] with
              | nil => rw [hq] at hp; cases hp
              | cons _ _ => rfl
            simp [this, hp]
          rw [e]
          refine ⟨?_, fun a' e' => Or.inl ⟨h.n, (Option.some.inj e').symm, Nat.lt_succ_self _⟩⟩
          have hv : (h.step cfg (.session cl)).heap (.copy h.n t) = copiedRules cfg h.heap cl t := if_pos rfl
          show Near t ((h.step cfg (.session cl)).heap (.copy h.n t)) _
          rw [hv]
          unfold copiedRules
          rw [hp]
          have hnear := ha.prov t a hp
          cases hb : (cfg.client cl).bind (·.get? t) with
          | none => exact hnear
          | some b =>
            obtain ⟨p, e1, e2⟩ := Option.bind_eq_some_iff.1 hb
            have hk := ha.clientKept cl p t b e1 e2 (by rw [hp]; simp)
            show Near t ((h.heap (.cfg a)).update (h.heap (.cfg b))) ((cfg.cells a).update (cfg.cells b))
            rw [hk]
            exact hnear.update _
    · rw [seen_frame (h := h) (h' := h.step cfg (.session cl)) rfl (fun x hx => (ha.fixed x hx).1) hh]
      exact ha.seen
    · intro x hx
      obtain ⟨h1, h2⟩ := ha.fixed x hx
      exact ⟨older_mono hn h1, fun t e => by rw [hh _ h1]; exact h2 t e⟩
  | authz i =>
    have hh : ∀ a, Older h.n a → (h.step cfg (.authz i)).heap a = h.heap a := by
      intro a _
      cases hp : cfg.prov <;> simp only [RulesHeap.step, hp]
    have hn : (h.step cfg (.authz i)).n = h.n + 1 := by cases hp : cfg.prov <;> simp only [RulesHeap.step, hp]
    have ht : (h.step cfg (.authz i)).toks = h.toks := by cases hp : cfg.prov <;> simp only [RulesHeap.step, hp]
    have hn' : h.n ≤ (h.step cfg (.authz i)).n := by omega
    refine ⟨fun t a e => by rw [hh (.cfg _) trivial]; exact ha.prov t a e, fun c' p t a e1 e2 => by rw [hh (.cfg _) trivial]; exact ha.client c' p t a e1 e2,
      fun c' p t a e1 e2 e3 => by rw [hh (.cfg _) trivial]; exact ha.clientKept c' p t a e1 e2 e3, ?_, ?_, ?_, ?_⟩
    · cases hp : cfg.prov <;> simp [RulesHeap.step, RulesCopies.step, hp, ha.len]
    · intro j g d hg hd t
      simp only [RulesCopies.step, List.getElem?_modify] at hd
      cases hcj : c.grants[j]? with
      | none => rw [hcj] at hd; cases hd
      | some d0 =>
        rw [hcj] at hd
        have hd' : (if i = j then gc.usageRules.getD d0 else d0) = d := Option.some.inj hd
        cases hp : cfg.prov with
        | none =>
          have hgn : gc.usageRules = none := by rw [hw.provider, hp]; rfl
          rw [hgn] at hd'
          have hdd : d0 = d := by by_cases e : i = j <;> simpa [e] using hd'
          subst hdd
          have hg' : h.grants[j]? = some g := by simpa [RulesHeap.step, hp] using hg
          exact (ha.grants j g d0 hg' hcj t).frame hn' hh
        | some p =>
          simp only [RulesHeap.step, hp, List.getElem?_modify] at hg
          cases hhj : h.grants[j]? with
          | none => rw [hhj] at hg; cases hg
          | some g0 =>
            rw [hhj] at hg
            have hg' : (if i = j then (fun t => (p.get? t).map RuleAddr.cfg) else g0) = g := Option.some.inj hg
            by_cases e : i = j
            · simp only [e, if_true] at hd' hg'
              subst hd' hg'
              have hgs : gc.usageRules.getD d0 = gc.usageRules.getD [] := by rw [hw.provider, hp]; rfl
              rw [hgs, hgc, hp]
              simp only [Option.getD_some]
              cases hpt : p.get? t with
              | none => exact ⟨Near.refl _ _, fun a e => by cases e⟩
              | some a =>
                refine ⟨?_, fun a' e' => Or.inr ⟨a, (Option.some.inj e').symm, Or.inl (by rw [hp]; exact hpt)⟩⟩
                show Near t ((h.step cfg (.authz i)).heap (.cfg a)) (cfg.cells a)
                rw [hh (.cfg _) trivial]
                exact ha.prov t a (by rw [hp]; exact hpt)
            · simp only [e, if_false] at hd' hg'
              subst hd' hg'
              exact (ha.grants j g0 d0 hhj hcj t).frame hn' hh
    · rw [seen_frame (h := h) ht (fun x hx => (ha.fixed x hx).1) hh]
      exact ha.seen
    · intro x hx
      rw [ht] at hx
      obtain ⟨h1, h2⟩ := ha.fixed x hx
      exact ⟨older_mono hn' h1, fun t e => by rw [hh _ h1]; exact h2 t e⟩
  | mint i t =>
    have hold : ∀ x ∈ h.toks, Older h.n x.2 := fun x hx => (ha.fixed x hx).1
    have hidle : ∀ h' : RulesHeap, h' = { h with n := h.n + 1 } → RulesAgree cfg typeOf h' c := fun h' e => by
      subst e
      exact ha.frame rfl (fun _ _ => rfl) rfl rfl ha.seen (fun x hx => Or.inl hx)
    cases hg : h.grants[i]? with
    | none =>
      have hcn : c.grants[i]? = none := by
        rw [List.getElem?_eq_none_iff] at hg ⊢
        rw [← ha.len]
        exact hg
      have : c.step gc cdb (.mint i t) = c := by simp only [RulesCopies.step, hcn]
      rw [this]
      exact hidle _ (by simp only [RulesHeap.step, hg])
    | some g =>
      obtain ⟨d, hd⟩ : ∃ d, c.grants[i]? = some d := by
        have : i < c.grants.length := ha.len ▸ (List.getElem?_eq_some_iff.1 hg).1
        exact ⟨_, List.getElem?_eq_getElem this⟩
      cases hk : defaultTokenMap.get? t with
      | none =>
        have : c.step gc cdb (.mint i t) = c := by simp only [RulesCopies.step, hd, hk]
        rw [this]
        exact hidle _ (by simp only [RulesHeap.step, hg, hk])
      | some k =>
        have hr := ha.grants i g d hg hd t
        have hck : c.step gc cdb (.mint i t) = { c with toks := c.toks ++ [(t, defaultsFor t ((d.get? t).getD {}))] } := by
          simp only [RulesCopies.step, hd, hk, defaultsFor]
        rw [hck]
        cases hgt : (g t).filter (fun a => !(h.heap a).isEmpty) with
        | none =>
          have hst : h.step cfg (.mint i t) = { h with heap := fun b => if b = .own h.n then defaultsFor t {} else h.heap b, toks := h.toks ++ [(t, .own h.n)], n := h.n + 1 } := by
            simp only [RulesHeap.step, hg, hk, hgt]
          rw [hst]
          have hh : ∀ a, Older h.n a → (if a = .own h.n then defaultsFor t {} else h.heap a) = h.heap a := by
            intro a hol
            refine if_neg fun e => ?_
            subst e
            exact Nat.lt_irrefl _ hol
          have hemp : (d.get? t).getD {} = {} := by
            refine hr.near.2.1 ?_
            cases hx : g t with
            | none => rfl
            | some a =>
              rw [hx] at hgt
              simpa [UsageRules.isEmpty] using hgt
          refine ha.frame rfl hh rfl rfl ?_ ?_
          · show ((h.toks ++ [(t, RuleAddr.own h.n)]).map _) = _
            rw [List.map_append]
            congr 1
            · rw [← ha.seen]
              exact List.map_congr_left fun x hx => by dsimp only; rw [hh _ (hold x hx)]
            · simp [hemp]
          · intro x hx
            rcases List.mem_append.1 hx with hx | hx
            · exact Or.inl hx
            · exact Or.inr (by rw [List.mem_singleton.1 hx])
        | some a =>
          obtain ⟨hga, hne⟩ : g t = some a ∧ h.heap a ≠ {} := by
            have := Option.filter_eq_some_iff.1 hgt
            exact ⟨this.1, by simpa [UsageRules.isEmpty] using this.2⟩
          have hst : h.step cfg (.mint i t) = { h with heap := fun b => if b = a then defaultsFor t (h.heap a) else h.heap b, toks := h.toks ++ [(t, a)], n := h.n + 1 } := by
            simp only [RulesHeap.step, hg, hk, hgt]
          rw [hst]
          have hkind := hr.kind a hga
          have hta : typeAt typeOf a = some t := by
            rcases hkind with ⟨n, rfl, _⟩ | ⟨n, rfl, h1 | ⟨_, c', p, h1, h2⟩⟩
            · rfl
            · obtain ⟨p, e1, e2⟩ := prov_some h1
              exact congrArg some (ho.provider p t n e1 e2)
            · exact congrArg some (ho.clients c' p t n h1 h2)
          have hola : Older h.n a := by
            rcases hkind with ⟨n, rfl, hl⟩ | ⟨n, rfl, _⟩
            · exact hl
            · trivial
          have hnr : Near t (h.heap a) ((d.get? t).getD {}) := by simpa only [hga] using hr.near
          -- what is near to the old contents is near to the new
          have hnew : ∀ t' b y, typeAt typeOf b = some t' → Near t' (h.heap b) y →
              Near t' (if b = a then defaultsFor t (h.heap a) else h.heap b) y := by
            intro t' b y hb hy
            by_cases e : b = a
            · subst e
              rw [hta] at hb
              cases hb
              rw [if_pos rfl]
              exact hy.filled hne
            · rw [if_neg e]; exact hy
          refine ⟨fun t' a' e => hnew t' _ _ ?_ (ha.prov t' a' e), fun c' p t' a' e1 e2 => hnew t' _ _ ?_ (ha.client c' p t' a' e1 e2),
            fun c' p t' b e1 e2 e3 => ?_, ha.len, ?_, ?_, ?_⟩
          · obtain ⟨p, e1, e2⟩ := prov_some e
            exact congrArg some (ho.provider p t' a' e1 e2)
          · exact congrArg some (ho.clients c' p t' a' e1 e2)
          · have hab : RuleAddr.cfg b ≠ a := by
              rintro rfl
              rcases hkind with ⟨n, e, _⟩ | ⟨n, e, h1 | ⟨h0, _⟩⟩
              · cases e
              · cases e
                obtain ⟨q, f1, f2⟩ := prov_some h1
                exact ho.apart q c' p t t' b b f1 e1 f2 e2 rfl
              · have := ho.clients c' p t' b e1 e2
                have h2 : typeOf b = t := Option.some.inj hta
                rw [← this, h2] at e3
                exact e3 h0
            show (if RuleAddr.cfg b = a then _ else _) = _
            rw [if_neg hab]
            exact ha.clientKept c' p t' b e1 e2 e3
          · intro i' g' d' hg' hd' t'
            have hr' := ha.grants i' g' d' hg' hd' t'
            refine ⟨?_, fun b e => ?_⟩
            · cases hx : g' t' with
              | none => have := hr'.near; rw [hx] at this; exact this
              | some b =>
                have h1 := hr'.near
                rw [hx] at h1
                refine hnew t' b _ ?_ h1
                rcases hr'.kind b hx with ⟨n, rfl, _⟩ | ⟨n, rfl, h1 | ⟨_, c', p, h1, h2⟩⟩
                · rfl
                · obtain ⟨p, e1, e2⟩ := prov_some h1
                  exact congrArg some (ho.provider p t' n e1 e2)
                · exact congrArg some (ho.clients c' p t' n h1 h2)
            · rcases hr'.kind b e with ⟨n, e1, hl⟩ | h2
              · exact Or.inl ⟨n, e1, Nat.lt_succ_of_lt hl⟩
              · exact Or.inr h2
          · show ((h.toks ++ [(t, a)]).map _) = _
            rw [List.map_append]
            congr 1
            · rw [← ha.seen]
              refine List.map_congr_left fun x hx => ?_
              dsimp only
              by_cases e : x.2 = a
              · have := (ha.fixed x hx).2 t (by rw [e]; exact hta)
                rw [e] at this
                rw [if_pos e, e, this]
              · rw [if_neg e]
            · simp [hnr.1]
          · intro x hx
            rcases List.mem_append.1 hx with hx | hx
            · obtain ⟨h1, h2⟩ := ha.fixed x hx
              refine ⟨older_mono (Nat.le_succ _) h1, fun t' e' => ?_⟩
              show defaultsFor t' (if x.2 = a then _ else _) = (if x.2 = a then _ else _)
              by_cases e : x.2 = a
              · rw [if_pos e]
                rw [e, hta] at e'
                cases e'
                exact defaultsFor_idem _ _
              · rw [if_neg e]; exact h2 t' e'
            · rw [List.mem_singleton.1 hx]
              refine ⟨older_mono (Nat.le_succ _) hola, fun t' e' => ?_⟩
              rw [hta] at e'
              cases e'
              show defaultsFor t (if a = a then _ else _) = (if a = a then _ else _)
              rw [if_pos rfl]
              exact defaultsFor_idem _ _
  | rotate j j' =>
    have hold : ∀ x ∈ h.toks, Older h.n x.2 := fun x hx => (ha.fixed x hx).1
    have hget : ∀ m : Nat, c.toks[m]? = (h.toks[m]?).map (fun x : Str × RuleAddr => (x.1, h.heap x.2)) := by
      intro m
      rw [← ha.seen]
      simp [RulesHeap.seen]
    have hidle : ∀ h' : RulesHeap, h' = { h with n := h.n + 1 } → RulesAgree cfg typeOf h' c := fun h' e => by
      subst e
      exact ha.frame rfl (fun _ _ => rfl) rfl rfl ha.seen (fun x hx => Or.inl hx)
    cases h1 : h.toks[j]? with
    | none =>
      have : c.step gc cdb (.rotate j j') = c := by simp only [RulesCopies.step, hget, h1, Option.map_none]
      rw [this]
      exact hidle _ (by simp only [RulesHeap.step, h1])
    | some x =>
      cases h2 : h.toks[j']? with
      | none =>
        have : c.step gc cdb (.rotate j j') = c := by simp only [RulesCopies.step, hget, h1, h2, Option.map_none, Option.map_some]
        rw [this]
        exact hidle _ (by simp only [RulesHeap.step, h1, h2])
      | some y =>
        have hck : c.step gc cdb (.rotate j j') = { c with toks := c.toks.set j (x.1, h.heap y.2) } := by
          simp only [RulesCopies.step, hget, h1, h2, Option.map_some]
        have hst : h.step cfg (.rotate j j') = { h with heap := fun b => if b = .own h.n then h.heap y.2 else h.heap b, toks := h.toks.set j (x.1, .own h.n), n := h.n + 1 } := by
          simp only [RulesHeap.step, h1, h2]
        rw [hck, hst]
        have hh : ∀ a, Older h.n a → (if a = .own h.n then h.heap y.2 else h.heap a) = h.heap a := by
          intro a hol
          refine if_neg fun e => ?_
          subst e
          exact Nat.lt_irrefl _ hol
        refine ha.frame rfl hh rfl rfl ?_ ?_
        · show ((h.toks.set j (x.1, RuleAddr.own h.n)).map _) = _
          rw [List.map_set]
          congr 1
          · rw [← ha.seen]
            exact List.map_congr_left fun x hx => by dsimp only; rw [hh _ (hold x hx)]
          · simp
        · intro z hz
          rcases List.mem_or_eq_of_mem_set hz with hz | hz
          · exact Or.inl hz
          · exact Or.inr (by rw [hz])

/-- **C171** Where every rules dictionary is written down for one token type, the tokens have after every history — any number of
sessions of any clients, decisions, mintings and rotations in any order — exactly the rules that they have in the model in which
every token has its own copy.  So the sharing, and the changes in place, cannot be observed. -/
theorem C171_rules_as_if_copied (cfg : RulesCfg) (gc : AuthzConfig) (cdb : Cdb) (hw : WrittenAs cfg gc cdb) (typeOf : Nat → Str)
    (ho : OneTypeEach cfg typeOf) (ops : List RulesOp) : (RulesHeap.run cfg ops).seen = (RulesCopies.run gc cdb ops).toks := by
  have : ∀ (ops : List RulesOp) (h : RulesHeap) (c : RulesCopies), RulesAgree cfg typeOf h c →
      RulesAgree cfg typeOf (ops.foldl (RulesHeap.step cfg) h) (ops.foldl (RulesCopies.step gc cdb) c) := by
    intro ops
    induction ops with
    | nil => exact fun _ _ h => h
    | cons o ops ih => exact fun h c ha => ih _ _ (rulesAgree_step hw ho ha o)
  exact (this ops _ _ (rulesAgree_start cfg typeOf)).seen

/-- **C171** The rules of a token never change, whatever is begun, decided and minted later in any session; only taking over
another token's rules at a rotation replaces them. -/
theorem C171_rules_never_change (cfg : RulesCfg) (gc : AuthzConfig) (cdb : Cdb) (hw : WrittenAs cfg gc cdb) (typeOf : Nat → Str)
    (ho : OneTypeEach cfg typeOf) (ops more : List RulesOp) (j : Nat) (x : Str × UsageRules) (hx : (RulesHeap.run cfg ops).seen[j]? = some x)
    (hr : ∀ j', RulesOp.rotate j j' ∉ more) : (RulesHeap.run cfg (ops ++ more)).seen[j]? = some x := by
  rw [C171_rules_as_if_copied cfg gc cdb hw typeOf ho] at hx ⊢
  unfold RulesCopies.run at hx ⊢
  rw [List.foldl_append]
  generalize ops.foldl (RulesCopies.step gc cdb) {} = c at hx ⊢
  induction more generalizing c with
  | nil => exact hx
  | cons o more ih =>
    refine ih (fun j' hm => hr j' (List.mem_cons_of_mem _ hm)) _ ?_
    cases o with
    | session cl => exact hx
    | authz i => exact hx
    | mint i t =>
      simp only [RulesCopies.step]
      split
      · rw [List.getElem?_append_left (List.getElem?_eq_some_iff.1 hx).1]
        exact hx
      · exact hx
    | rotate j1 j2 =>
      have hne : j1 ≠ j := fun e => hr j2 (by rw [e]; exact List.mem_cons_self)
      simp only [RulesCopies.step]
      split
      · rw [List.getElem?_set_ne hne]
        exact hx
      · exact hx

/-- **C171** is false if a dictionary is written down for two token types (a YAML anchor, one Python object): for every such
configuration, every client and every rules, minting a code sets `max_usage` to 1 for the access tokens handed out before. -/
theorem C171_shared_between_types_changes (cfg : RulesCfg) (p : Dict Nat) (a : Nat) (hp : cfg.prov = some p)
    (h1 : p.get? tAuthorizationCode = some a) (h2 : p.get? tAccessToken = some a) (hne : cfg.cells a ≠ {}) (client : Str) :
    (RulesHeap.run cfg [.session client, .authz 0, .mint 0 tAccessToken]).seen = [(tAccessToken, cfg.cells a)] ∧
    ∃ r, (RulesHeap.run cfg [.session client, .authz 0, .mint 0 tAccessToken, .mint 0 tAuthorizationCode]).seen[0]? = some (tAccessToken, r) ∧
      r.maxUsage = some 1 := by
  have he : (cfg.cells a).isEmpty = false := by simpa [UsageRules.isEmpty] using hne
  have k1 : defaultTokenMap.get? tAccessToken = some .accessToken := by decide
  have k2 : defaultTokenMap.get? tAuthorizationCode = some .authorizationCode := by decide
  refine ⟨?_, setDefaults .authorizationCode (cfg.cells a), ?_, rfl⟩
  · simp [RulesHeap.run, RulesHeap.step, RulesHeap.start, RulesHeap.seen, hp, h2, he, k1, Option.filter, defaultsFor, setDefaults, List.modify]
  · simp [RulesHeap.run, RulesHeap.step, RulesHeap.start, RulesHeap.seen, hp, h1, h2, he, k1, k2, Option.filter, defaultsFor, setDefaults, List.modify]

/-! The hypotheses are met by the documentation's rules, with a client that has rules of its own; and codes do get their defaults. -/

def rulesDemo : RulesCfg where
  cells n := if n = 0 then { expiresIn := some 3 } else if n = 1 then { expiresIn := some 4 } else { expiresIn := some 9, maxUsage := some 7 }
  prov := some [(tAuthorizationCode, 0), (tAccessToken, 1)]
  client c := if c = c!"c1" then some [(tAccessToken, 2), (tRefreshToken, 3)] else none

def rulesDemoOps : List RulesOp :=
  [.session c!"c1", .mint 0 tAccessToken, .mint 0 tRefreshToken, .authz 0, .mint 0 tAuthorizationCode, .mint 0 tAccessToken, .session c!"c2", .mint 1 tAuthorizationCode]

def rulesDemoClient : Dict UsageRules :=
  [(tAccessToken, { expiresIn := some 9, maxUsage := some 7 }), (tRefreshToken, { expiresIn := some 9, maxUsage := some 7 })]

def rulesDemoDb : Cdb := fun c => if c = c!"c1" then some { tokenUsageRules := some rulesDemoClient } else none

example : OneTypeEach rulesDemo (fun n => if n = 0 then tAuthorizationCode else if n = 3 then tRefreshToken else tAccessToken) ∧
    WrittenAs rulesDemo { usageRules := some [(tAuthorizationCode, { expiresIn := some 3 }), (tAccessToken, { expiresIn := some 4 })] }
      rulesDemoDb := by
  refine ⟨⟨fun p t a hp h => ?_, fun c p t a hp h => ?_, fun p c d t t' a b hp hd h1 h2 => ?_⟩, rfl, fun c => ?_⟩
  · cases hp
    simp only [Dict.get?] at h
    split at h
    · cases h; rename_i e; simpa using e
    · split at h
      · cases h; rename_i e; simpa using e
      · cases h
  · simp only [rulesDemo] at hp
    split at hp
    · cases hp
      simp only [Dict.get?] at h
      split at h
      · cases h; rename_i e; simpa using e
      · split at h
        · cases h; rename_i e; simpa using e
        · cases h
    · cases hp
  · have hb : b = 2 ∨ b = 3 := by
      simp only [rulesDemo] at hd
      split at hd
      · cases hd
        simp only [Dict.get?] at h2
        split at h2
        · cases h2; exact Or.inl rfl
        · split at h2
          · cases h2; exact Or.inr rfl
          · cases h2
      · cases hd
    have ha : a = 0 ∨ a = 1 := by
      cases hp
      simp only [Dict.get?] at h1
      split at h1
      · cases h1; exact Or.inl rfl
      · split at h1
        · cases h1; exact Or.inr rfl
        · cases h1
    omega
  · by_cases e : c = c!"c1"
    · simp [rulesDemo, rulesDemoDb, rulesDemoClient, e]
    · simp [rulesDemo, rulesDemoDb, rulesDemoClient, e]

example : (RulesHeap.run rulesDemo rulesDemoOps).seen.map (fun x => (x.2.maxUsage, x.2.expiresIn)) =
    [(some 7, some 9), (some 7, some 9), (some 1, some 3), (none, some 4), (some 1, some 3)] := by decide

end Verif
