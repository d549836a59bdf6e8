import Verif.Spec.Broker
import Verif.Lemmas.Dict
set_option linter.unusedSimpArgs false
set_option linter.unusedVariables false
/-! The registry of authentication methods: C51, C73. -/
namespace Verif
open Spec

theorem dict_set_new {α : Type} (d : Dict α) (k : Str) (v : α) (h : k ∉ d.map Prod.fst) : Dict.set d k v = d ++ [(k, v)] := by
  induction d with
  | nil => rfl
  | cons p r ih =>
    obtain ⟨a, b⟩ := p
    simp only [List.map_cons, List.mem_cons, not_or] at h
    simp only [Dict.set, if_neg (fun e : a = k => h.1 e.symm), ih h.2, List.cons_append]

theorem dict_erase_filter {α : Type} (d : Dict α) (k : Str) (h : (d.map Prod.fst).Nodup) :
    Dict.erase d k = d.filter fun p => decide (p.1 ≠ k) := by
  induction d with
  | nil => rfl
  | cons p r ih =>
    obtain ⟨a, b⟩ := p
    rw [List.map_cons, List.nodup_cons] at h
    by_cases e : a = k
    · subst e
      simp only [Dict.erase, if_true, ne_eq, not_true_eq_false, decide_false, Bool.false_eq_true, not_false_eq_true,
        List.filter_cons_of_neg]
      rw [List.filter_eq_self.2]
      intro q hq
      have : q.1 ≠ a := by
        intro e
        exact h.1 (List.mem_map.2 ⟨q, hq, e⟩)
      simp [this]
    · simp only [Dict.erase, e, if_false, ih h.2]
      simp [e]

theorem dict_get?_erase {α : Type} (d : Dict α) (k k' : Str) (h : (d.map Prod.fst).Nodup) :
    Dict.get? (Dict.erase d k) k' = if k' = k then none else Dict.get? d k' := by
  induction d with
  | nil => simp [Dict.erase, Dict.get?]
  | cons p r ih =>
    obtain ⟨a, b⟩ := p
    rw [List.map_cons, List.nodup_cons] at h
    by_cases e : a = k
    · subst e
      simp only [Dict.erase, if_true]
      by_cases e2 : k' = a
      · subst e2
        simp only [if_true]
        cases hg : Dict.get? r k' with
        | none => rfl
        | some v => exact absurd (List.mem_map_of_mem (f := Prod.fst) (Dict.get?_mem hg)) h.1
      · simp only [e2, if_false, Dict.get?, if_neg (fun e : a = k' => e2 e.symm)]
    · simp only [Dict.erase, e, if_false, Dict.get?]
      rw [ih h.2]
      by_cases e2 : a = k'
      · subst e2; simp [e]
      · simp [e2]

/-- The ids registered with a class reference. -/
def idsFor (acr : Str) (l : List (Str × AuthnEntry)) : List Str := (l.filter fun p => decide (p.2.acr = acr)).map Prod.fst

/-- The broker represents a list of registrations. -/
structure Repr (b : Broker) (l : List (Str × AuthnEntry)) : Prop where
  db : b.db = l
  nodup : (l.map Prod.fst).Nodup
  acrKeys : (b.acr2id.map Prod.fst).Nodup
  acr : ∀ a, b.acr2id.get? a = if idsFor a l = [] then none else some (idsFor a l)

theorem idsFor_nodup {a : Str} {l : List (Str × AuthnEntry)} (h : (l.map Prod.fst).Nodup) : (idsFor a l).Nodup := by
  unfold idsFor
  exact (List.Sublist.map _ List.filter_sublist).nodup h

theorem idsFor_del (a k : Str) (l : List (Str × AuthnEntry)) :
    idsFor a (l.filter fun p => decide (p.1 ≠ k)) = (idsFor a l).filter fun i => decide (i ≠ k) := by
  unfold idsFor
  rw [List.filter_map, List.filter_filter, List.filter_filter]
  congr 1
  apply List.filter_congr
  intro p _
  simp only [Function.comp, Bool.and_comm]

theorem repr_empty : Repr Broker.empty [] := ⟨rfl, by simp, by simp [Broker.empty], fun a => by simp [Broker.empty, Dict.get?, idsFor]⟩

theorem keys_set_nodup' {α : Type} {d : Dict α} (h : (d.map Prod.fst).Nodup) (k : Str) (v : α) : ((Dict.set d k v).map Prod.fst).Nodup :=
  Dict.keys_set_nodup (d := d) h k v

theorem keys_erase_nodup {α : Type} {d : Dict α} (h : (d.map Prod.fst).Nodup) (k : Str) : ((Dict.erase d k).map Prod.fst).Nodup := by
  rw [dict_erase_filter d k h]
  exact (List.Sublist.map _ List.filter_sublist).nodup h

theorem repr_step {b : Broker} {l : List (Str × AuthnEntry)} (h : Repr b l) (op : BrokerOp)
    (hop : ∀ k a m, op = .set k a m → k ∉ l.map Prod.fst) : Repr (b.step op) (regStep l op) := by
  cases op with
  | set k a m =>
    have hk := hop k a m rfl
    match a, m with
    | none, _ => exact h
    | some a, none => exact h
    | some a, some m =>
      simp only [Broker.step, Broker.setItem, regStep]
      refine ⟨?_, ?_, keys_set_nodup' h.acrKeys _ _, ?_⟩
      · show Dict.set b.db k ⟨a, m⟩ = _
        rw [h.db, dict_set_new _ _ _ hk]
      · rw [List.map_append, List.nodup_append]
        refine ⟨h.nodup, by simp, ?_⟩
        intro x hx y hy e
        simp at hy; subst hy; subst e
        exact hk hx
      · intro x
        show Dict.get? (Dict.set b.acr2id a _) x = _
        rw [Dict.get?_set]
        by_cases e : x = a
        · subst e
          have : idsFor x (l ++ [(k, ⟨x, m⟩)]) = idsFor x l ++ [k] := by simp [idsFor]
          rw [this, h.acr x]
          simp only [if_true]
          split <;> simp_all
        · have : idsFor x (l ++ [(k, ⟨a, m⟩)]) = idsFor x l := by
            have e' : ¬ a = x := fun h => e h.symm
            simp [idsFor, e']
          rw [this, if_neg e, h.acr x]
  | del k =>
    simp only [Broker.step, regStep]
    unfold Broker.delItem
    cases hg : b.db.get? k with
    | none =>
      have hnk : k ∉ l.map Prod.fst := by
        rw [← h.db]
        intro hin
        have := Dict.get?_isSome (d := b.db) (k := k)
        rw [hg] at this
        exact absurd (this.2 hin) (by simp)
      have : (l.filter fun p => decide (p.1 ≠ k)) = l := by
        rw [List.filter_eq_self]
        intro q hq
        have : q.1 ≠ k := by
          intro e
          exact hnk (by rw [← e]; exact List.mem_map_of_mem (f := Prod.fst) hq)
        simp [this]
      rw [this]
      exact h
    | some e =>
      have hmem : (k, e) ∈ l := h.db ▸ Dict.get?_mem hg
      have hin : k ∈ idsFor e.acr l := by
        unfold idsFor
        exact List.mem_map.2 ⟨(k, e), List.mem_filter.2 ⟨hmem, by simp⟩, rfl⟩
      have hne : idsFor e.acr l ≠ [] := fun e' => by rw [e'] at hin; cases hin
      have hacr : b.acr2id.get? e.acr = some (idsFor e.acr l) := by rw [h.acr, if_neg hne]
      have hdb : Dict.erase b.db k = l.filter fun p => decide (p.1 ≠ k) := by
        rw [h.db]; exact dict_erase_filter l k h.nodup
      have hnd : ((l.filter fun p => decide (p.1 ≠ k)).map Prod.fst).Nodup :=
        (List.Sublist.map _ List.filter_sublist).nodup h.nodup
      have hers : (idsFor e.acr l).erase k = idsFor e.acr (l.filter fun p => decide (p.1 ≠ k)) := by
        rw [idsFor_del, List.Nodup.erase_eq_filter (idsFor_nodup h.nodup)]
        apply List.filter_congr
        intro x _
        by_cases hxk : x = k <;> simp [hxk, bne]
      have hother : ∀ x, x ≠ e.acr → idsFor x (l.filter fun p => decide (p.1 ≠ k)) = idsFor x l := by
        intro x hx
        rw [idsFor_del, List.filter_eq_self]
        intro i hi
        have : i ≠ k := by
          rintro rfl
          obtain ⟨p, hp, hp1⟩ := List.mem_map.1 hi
          obtain ⟨hp2, hp3⟩ := List.mem_filter.1 hp
          have e1 : Dict.get? l p.1 = some p.2 := Dict.mem_get? h.nodup hp2
          have e2 : Dict.get? l i = some e := Dict.mem_get? h.nodup hmem
          rw [hp1, e2] at e1
          simp only [Option.some.injEq] at e1
          rw [← e1] at hp3
          exact hx ((by simpa using hp3 : e.acr = x).symm)
        simp [this]
      simp only [hacr]
      rw [if_neg (fun hc => hc hin), hers]
      by_cases hz : idsFor e.acr (l.filter fun p => decide (p.1 ≠ k)) = []
      · simp only [hz, if_true]
        refine ⟨hdb, hnd, keys_erase_nodup h.acrKeys _, ?_⟩
        intro x
        show Dict.get? (Dict.erase b.acr2id e.acr) x = _
        rw [dict_get?_erase _ _ _ h.acrKeys]
        by_cases ex : x = e.acr
        · rw [if_pos ex, ex, if_pos hz]
        · rw [if_neg ex, h.acr, hother x ex]
      · simp only [hz, if_false]
        refine ⟨hdb, hnd, keys_set_nodup' h.acrKeys _ _, ?_⟩
        intro x
        show Dict.get? (Dict.set b.acr2id e.acr _) x = _
        rw [Dict.get?_set]
        by_cases ex : x = e.acr
        · rw [if_pos ex, ex, if_neg hz]
        · rw [if_neg ex, h.acr, hother x ex]

theorem repr_run {b : Broker} {l : List (Str × AuthnEntry)} (h : Repr b l) (ops : List BrokerOp) (hd : DistinctIds l ops) :
    Repr (b.run ops) (ops.foldl regStep l) := by
  induction ops generalizing b l with
  | nil => exact h
  | cons op ops ih => exact ih (repr_step h op hd.1) hd.2

theorem entries_ok {b : Broker} {l : List (Str × AuthnEntry)} (h : Repr b l) (q : List (Str × AuthnEntry)) (hq : ∀ p ∈ q, p ∈ l) :
    b.entries (q.map Prod.fst) = .ok (q.map Prod.snd) := by
  induction q with
  | nil => rfl
  | cons p q ih =>
    have e : b.db.get? p.1 = some p.2 := by
      rw [h.db]; exact Dict.mem_get? h.nodup (hq p (by simp))
    simp only [List.map_cons, Broker.entries, e, ih fun p' hp' => hq p' (by simp [hp'])]

theorem repr_pick {b : Broker} {l : List (Str × AuthnEntry)} (h : Repr b l) (acr : Str) : b.pick acr = .ok (registeredFor acr l) := by
  unfold Broker.pick
  rw [h.acr]
  by_cases e : idsFor acr l = []
  · simp only [e, if_true]
    have : (l.filter fun p => decide (p.2.acr = acr)) = [] := by simpa [idsFor] using e
    simp [registeredFor, this]
  · simp only [e, if_false]
    exact entries_ok h _ fun p hp => (List.mem_filter.1 hp).1

/-- **C51** After every history of registrations and removals in which no id is registered again while in use, `pick(acr)`
returns exactly the methods registered with that class reference, in order of registration. -/
theorem C51_pick_exact (ops : List BrokerOp) (hd : DistinctIds [] ops) (acr : Str) :
    (Broker.empty.run ops).pick acr = .ok (registeredFor acr (registrations ops)) :=
  repr_pick (repr_run repr_empty ops hd) acr

/-- **C51**, the rest of the interface: the default is the oldest registration still there; the values listed are those of
the registrations. -/
theorem C51_default_and_values (ops : List BrokerOp) (hd : DistinctIds [] ops) :
    (Broker.empty.run ops).default = ((registrations ops).head?).map Prod.snd ∧
    (Broker.empty.run ops).acrValues = (registrations ops).map (·.2.acr) := by
  have h := repr_run repr_empty ops hd
  exact ⟨by simp [Broker.default, h.db]; rfl, by simp [Broker.acrValues, h.db]; rfl⟩

/-- Without the restriction on ids it is false: an id registered again under another class reference is still found under
the old one, with a method that is not registered for it; and after its removal `pick` raises. -/
theorem C51_reused_id_is_stale :
    let b := Broker.empty.run [.set c!"i" (some c!"strong") (some c!"otp"), .set c!"i" (some c!"weak") (some c!"pw")]
    b.pick c!"strong" = .ok [⟨c!"weak", c!"pw"⟩] ∧
    (b.step (.del c!"i")).pick c!"strong" = .error .keyError := by
  decide

/-- A history that meets the hypothesis. -/
def brokerOps : List BrokerOp :=
  [.set c!"i" (some c!"strong") (some c!"otp"), .set c!"j" (some c!"weak") (some c!"pw"), .del c!"i",
   .set c!"i" (some c!"weak") (some c!"pin")]

example : DistinctIds [] brokerOps ∧ registeredFor c!"weak" (registrations brokerOps) = [⟨c!"weak", c!"pw"⟩, ⟨c!"weak", c!"pin"⟩] := by
  refine ⟨⟨?_, ⟨?_, ⟨?_, ⟨?_, trivial⟩⟩⟩⟩, by decide⟩
  · simp
  · intro k a m h; cases h; decide
  · intro k a m h; cases h
  · intro k a m h; cases h; decide

/-! ### C73: which method is used -/

/-- The first method registered for the first class reference that has one. -/
def Spec.firstFor (l : List (Str × AuthnEntry)) : List Str → Option AuthnEntry
  | [] => none
  | a :: as => match registeredFor a l with
    | e :: _ => some e
    | [] => Spec.firstFor l as

theorem firstMatch_strs {b : Broker} {l : List (Str × AuthnEntry)} (h : Repr b l) (as : List Str) :
    b.firstMatch (as.map .str) = .ok (Spec.firstFor l as) := by
  induction as with
  | nil => rfl
  | cons a as ih =>
    simp only [List.map_cons, Broker.firstMatch, Broker.pickVal, repr_pick h, Spec.firstFor]
    cases hr : registeredFor a l with
    | nil => exact ih
    | cons e r => rfl

/-- **C73**, where there is more than one method and a method for one of the requested class references: the user is
authenticated with the first method registered for the first such class reference. -/
theorem C73_requested_acr_used_partial (ops : List BrokerOp) (hd : DistinctIds [] ops) (r : PickReq)
    (hn : (registrations ops).length ≠ 1) (ha : r.acrValues ≠ []) (e : AuthnEntry)
    (h : Spec.firstFor (registrations ops) r.acrValues = some e) :
    setupMethod (Broker.empty.run ops) none none r = .ok e ∧ e.acr ∈ r.acrValues := by
  have hr := repr_run repr_empty ops hd
  have hlen : (Broker.empty.run ops).db.length ≠ 1 := by rw [hr.db]; exact hn
  constructor
  · simp only [setupMethod, pickAuth, hlen, if_false, ha, ne_eq, not_false_eq_true, if_true]
    rw [firstMatch_strs hr]
    show (match catchKey (.ok (Spec.firstFor (registrations ops) r.acrValues)) with
      | .error e => .error e | .ok none => .error .keyError | .ok (some e) => .ok e : Except Exn AuthnEntry) = .ok e
    rw [h]; rfl
  · clear ha
    generalize r.acrValues = as at h
    induction as with
    | nil => cases h
    | cons a as ih =>
      simp only [Spec.firstFor] at h
      cases hreg : registeredFor a (registrations ops) with
      | nil => simp only [hreg] at h; simp [ih h]
      | cons e' rest =>
        simp only [hreg, Option.some.injEq] at h
        subst h
        have : e' ∈ registeredFor a (registrations ops) := by rw [hreg]; simp
        unfold registeredFor at this
        obtain ⟨p, hp, rfl⟩ := List.mem_map.1 this
        have := (List.mem_filter.1 hp).2
        simp only [decide_eq_true_eq] at this
        simp [this]

/-- **C73** is false of the code where there is no such method: instead of an answer with the error `access_denied` every
such request raises a `KeyError`. -/
theorem C73_unsupported_acr_raises (ops : List BrokerOp) (hd : DistinctIds [] ops) (r : PickReq)
    (hn : (registrations ops).length ≠ 1) (ha : r.acrValues ≠ [])
    (h : Spec.firstFor (registrations ops) r.acrValues = none) :
    setupMethod (Broker.empty.run ops) none none r = .error .keyError := by
  have hr := repr_run repr_empty ops hd
  have hlen : (Broker.empty.run ops).db.length ≠ 1 := by rw [hr.db]; exact hn
  simp only [setupMethod, pickAuth, hlen, if_false, ha, ne_eq, not_false_eq_true, if_true]
  rw [firstMatch_strs hr]
  show (match catchKey (.ok (Spec.firstFor (registrations ops) r.acrValues)) with
    | .error e => .error e | .ok none => .error .keyError | .ok (some e) => .ok e : Except Exn AuthnEntry) = _
  rw [h]; rfl

/-- **C73** is false of the code where there is only one method: it is used whatever is requested. -/
theorem C73_single_method_always_used (ops : List BrokerOp) (hd : DistinctIds [] ops) (r : PickReq) (k : Str) (e : AuthnEntry)
    (h : registrations ops = [(k, e)]) : setupMethod (Broker.empty.run ops) none none r = .ok e := by
  have hr := repr_run repr_empty ops hd
  have hdb : (Broker.empty.run ops).db = [(k, e)] := by rw [hr.db]; exact h
  simp [setupMethod, pickAuth, hdb, Broker.default]

/-- **C73** is false of the code for the `acr` claim of the `claims` parameter requested without values: with two or more
methods (or none), every such request raises a `TypeError`. -/
theorem C73_acr_claim_without_values_raises (ops : List BrokerOp) (hd : DistinctIds [] ops) (r : PickReq)
    (hn : (registrations ops).length ≠ 1) (ha : r.acrValues = []) (d : Dict Claims) (cl : Claims) (hc : r.claims = some d)
    (h1 : d.get? c!"id_token" = some cl) (h2 : Dict.get? cl c!"acr" = some none) :
    setupMethod (Broker.empty.run ops) none none r = .error .typeError := by
  have hr := repr_run repr_empty ops hd
  have hlen : (Broker.empty.run ops).db.length ≠ 1 := by rw [hr.db]; exact hn
  simp [setupMethod, pickAuth, hlen, ha, claimsAcr, hc, h1, h2, Exn.isKeyError]

/-- A single requested value (`{"acr": {"value": ...}}`), even an essential one, is ignored: the default method is used. -/
theorem C73_single_acr_value_ignored (ops : List BrokerOp) (hd : DistinctIds [] ops) (r : PickReq)
    (ha : r.acrValues = []) (d : Dict Claims) (cl : Claims) (spec : Dict Val) (hc : r.claims = some d)
    (h1 : d.get? c!"id_token" = some cl) (h2 : Dict.get? cl c!"acr" = some (some spec)) (h3 : Dict.get? spec c!"values" = none)
    (hh : r.hint = none) (hl : r.loginHintAcrs = none) (p : Str × AuthnEntry) (rest : List (Str × AuthnEntry))
    (hreg : registrations ops = p :: rest) :
    setupMethod (Broker.empty.run ops) none none r = .ok p.2 := by
  have hr := repr_run repr_empty ops hd
  have hdb : (Broker.empty.run ops).db = p :: rest := by rw [hr.db]; exact hreg
  simp only [setupMethod, pickAuth, ha, claimsAcr, hc, h1, h2, h3]
  simp [hdb, Broker.default, Exn.isKeyError, hh, hl]

/-- A default class reference passed by the application makes the endpoint raise, whether or not there is a method for it. -/
theorem C73_default_acr_raises (ops : List BrokerOp) (hd : DistinctIds [] ops) (a0 : Char) (a : Str) (r : PickReq) :
    setupMethod (Broker.empty.run ops) none (some (a0 :: a)) r =
      .error (if registeredFor (a0 :: a) (registrations ops) = [] then .keyError else .typeError) := by
  have hr := repr_run repr_empty ops hd
  simp only [setupMethod, repr_pick hr]
  show (match (Except.ok (registeredFor (a0 :: a) (registrations ops)) : Except Exn (List AuthnEntry)) with
      | .error e => .error e | .ok [] => .error .keyError | .ok (_ :: _) => .error .typeError : Except Exn AuthnEntry) = _
  cases registeredFor (a0 :: a) (registrations ops) <;> rfl

/-- A `null` among the values asked for with the `acr` claim (before a value that has a method) makes the request raise a
`TypeError` if there are methods to choose from. -/
theorem C73_null_acr_raises (ops : List BrokerOp) (hd : DistinctIds [] ops) (r : PickReq)
    (hn : 2 ≤ (registrations ops).length) (ha : r.acrValues = []) (pre : List Str) (post : List Val)
    (hpre : Spec.firstFor (registrations ops) pre = none) (v : Val)
    (hc : claimsAcr r.claims = .ok v) (hv : v.iter = .ok (pre.map .str ++ .null :: post)) :
    setupMethod (Broker.empty.run ops) none none r = .error .typeError := by
  have hr := repr_run repr_empty ops hd
  have hlen : (Broker.empty.run ops).db.length ≠ 1 := by rw [hr.db]; show (registrations ops).length ≠ 1; omega
  have hne : (Broker.empty.run ops).db ≠ [] := by
    have hdb : (Broker.empty.run ops).db = registrations ops := hr.db
    rw [hdb]
    intro h
    rw [h] at hn
    simp at hn
  have hf : ∀ pre : List Str, Spec.firstFor (registrations ops) pre = none →
      (Broker.empty.run ops).firstMatch (pre.map .str ++ .null :: post) = .error .typeError := by
    intro pre
    induction pre with
    | nil => intro _; simp [Broker.firstMatch, Broker.pickVal, hne]
    | cons a pre ih =>
      intro h
      simp only [Spec.firstFor] at h
      simp only [List.map_cons, List.cons_append, Broker.firstMatch, Broker.pickVal, repr_pick hr]
      cases hreg : registeredFor a (registrations ops) with
      | nil =>
        rw [hreg] at h
        have h2 : registeredFor a (ops.foldl regStep []) = [] := hreg
        simp only [h2]
        exact ih h
      | cons e' rest => rw [hreg] at h; cases h
  simp only [setupMethod, pickAuth, hlen, if_false, ha, ne_eq, not_true_eq_false, hc, hv, hf pre hpre]
  rfl

/-- **C51**, **C73**: whatever the history of registrations (even with reused names, after which the index is stale), choosing a
method never raises a `KeyError`: there is a method, or there is none, or the request is no proper one. -/
theorem C73_choosing_never_key_error (ops : List BrokerOp) (r : PickReq) (e : Exn)
    (h : pickAuth (Broker.empty.run ops) r = .error e) : e.isKeyError = false := by
  have key : ∀ x, catchKey x = .error e → e.isKeyError = false := by
    intro x hx
    unfold catchKey at hx
    cases x with
    | ok y => cases hx
    | error e' =>
      simp only at hx
      split at hx
      · cases hx
      · rename_i hk
        cases hx
        simpa using hk
  have hit : ∀ (v : Val) (e : Exn), v.iter = .error e → e = .typeError := by
    intro v
    induction v with
    | lcons h t _ ih => intro e he; simp only [Val.iter] at he; split at he <;> cases he; exact ih _ (by assumption)
    | dcons k v r _ ih => intro e he; simp only [Val.iter] at he; split at he <;> cases he; exact ih _ (by assumption)
    | _ => intro e he; simp only [Val.iter] at he; cases he <;> rfl
  unfold pickAuth at h
  split at h
  · cases h
  · split at h
    · exact key _ h
    · split at h
      · split at h
        · cases h
          rename_i hi
          rw [hit _ _ hi]
          rfl
        · exact key _ h
      · split at h
        · dsimp only at h
          split at h <;> split at h
          · cases h
          · exact key _ h
          · cases h
          · exact key _ h
        · rename_i hk
          cases h
          simpa using hk

/-- Requests against a provider with two methods. -/
example :
    setupMethod (Broker.empty.run brokerOps) none none { acrValues := [c!"none", c!"weak"] } = .ok ⟨c!"weak", c!"pw"⟩ ∧
    setupMethod (Broker.empty.run brokerOps) none none { acrValues := [c!"strong"] } = .error .keyError ∧
    setupMethod (Broker.empty.run brokerOps) none none { claims := some [(c!"id_token", [(c!"acr", none)])] } = .error .typeError ∧
    setupMethod (Broker.empty.run brokerOps) none none
      { claims := some [(c!"id_token", [(c!"acr", some [(c!"value", .str c!"strong"), (c!"essential", .bool true)])])] } =
      .ok ⟨c!"weak", c!"pw"⟩ ∧
    setupMethod (Broker.empty.run brokerOps) none none
      { claims := some [(c!"id_token", [(c!"acr", some [(c!"values", .lcons (.str c!"x") (.lcons .null (.lcons (.str c!"weak") .lnil)))])])] } =
      .error .typeError := by decide

/-- A stale index: the `KeyError` of the lookup is caught, and no method is found. -/
example : pickAuth (Broker.empty.run [.set c!"i" (some c!"strong") (some c!"otp"), .set c!"i" (some c!"weak") (some c!"pw"), .del c!"i"])
    { acrValues := [c!"strong"] } = .ok none := by decide

end Verif
