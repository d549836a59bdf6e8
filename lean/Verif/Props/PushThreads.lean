import Verif.Model.PushThreads
import Verif.Props.Demo
set_option linter.unusedSimpArgs false
set_option linter.unusedVariables false
/-! One-time use and threads (C166, C169). -/
namespace Verif
open Spec

/-- Thread `t` was given a pushed request. -/
def Spec.GivenRequest (x : Pushes) (t : Nat) : Prop := ∃ r, x.pc t = .done (.val r)

/-- How often a request was pushed under `uri`. -/
def Spec.pushesOf (uri : Str) (evs : List PushEv) : Nat := evs.countP fun
  | .push u _ => decide (u = uri)
  | .step _ => false

/-- The two pieces, without interruption, are `_do_request_uri` as modelled in `doRequestUri`, with either storage. -/
theorem C166_pieces_are_do_request_uri (silent : Bool) (env : Env) (cdb : Cdb) (client : Str) (par : ParDb) (req : AuthReq) (uri : Str)
    (hu : req.requestUri = some uri) (he : env.parEnabled = true) (hp : c!"urn:uuid:".isPrefixOf uri = true) :
    let a := uriStep silent uri par .start
    let b := uriStep silent uri a.1 a.2
    b = ((doRequestUri env cdb client par req).1, .done (doRequestUri env cdb client par req).2) := by
  have hne : ∃ x l, uri = x :: l := by
    cases uri with
    | nil => exact absurd hp (by decide)
    | cons x l => exact ⟨x, l, rfl⟩
  obtain ⟨x, l, rfl⟩ := hne
  unfold doRequestUri
  simp only [hu, he, hp, and_self, if_true, uriStep]
  cases h : par (x :: l) with
  | none => simp [uriStep]
  | some r => simp [uriStep, h]

/-- The threads that were given a request under `uri`, and the pushed request that is still there, are no more than were pushed. -/
theorem pushes_count (uris : Nat → Str) (uri : Str) (evs : List PushEv) (ts : List Nat) (hn : ts.Nodup)
    (h : ∀ t ∈ ts, uris t = uri ∧ GivenRequest (pushRun false uris evs) t) :
    ts.length + (if ((pushRun false uris evs).par uri).isSome then 1 else 0) ≤ pushesOf uri evs := by
  have key : ∀ (l : List PushEv), (∀ ts : List Nat, ts.Nodup → (∀ t ∈ ts, uris t = uri ∧ GivenRequest (pushRun false uris l.reverse) t) →
      ts.length + (if ((pushRun false uris l.reverse).par uri).isSome then 1 else 0) ≤ pushesOf uri l.reverse) := by
    intro l
    induction l with
    | nil =>
      intro ts _ h
      match ts with
      | [] => simp [pushRun, pushesOf]
      | t :: _ => obtain ⟨_, r, hr⟩ := h t List.mem_cons_self; cases hr
    | cons ev l ih =>
      intro ts hn h
      have e : pushRun false uris (ev :: l).reverse = pushEvStep false uris (pushRun false uris l.reverse) ev := by
        unfold pushRun; rw [List.reverse_cons, List.foldl_append]; rfl
      have ec : pushesOf uri (ev :: l).reverse = pushesOf uri l.reverse + pushesOf uri [ev] := by
        unfold pushesOf; rw [List.reverse_cons, List.countP_append]
      rw [e] at h ⊢
      rw [ec]
      generalize pushRun false uris l.reverse = x at *
      cases ev with
      | push u r =>
        have hi := ih ts hn h
        simp only [pushEvStep, pushStore]
        by_cases hu : u = uri
        · subst hu
          have e1 : pushesOf u [.push u r] = 1 := by simp [pushesOf, List.countP_cons]
          simp only [if_true, Option.isSome_some, e1]
          split at hi <;> omega
        · simp only [if_neg (show ¬ uri = u from fun e => hu e.symm)]
          omega
      | step t0 =>
        have e0 : pushesOf uri [.step t0] = 0 := by simp [pushesOf, List.countP_cons]
        rw [e0, Nat.add_zero]
        -- threads other than `t0` are as before
        have other : ∀ t, t ≠ t0 → GivenRequest (pushEvStep false uris x (.step t0)) t → GivenRequest x t := by
          rintro t ht ⟨r, hr⟩
          exact ⟨r, by simpa [pushEvStep, ht] using hr⟩
        have keep : (GivenRequest (pushEvStep false uris x (.step t0)) t0 → GivenRequest x t0) →
            (pushEvStep false uris x (.step t0)).par = x.par →
            ts.length + (if ((pushEvStep false uris x (.step t0)).par uri).isSome then 1 else 0) ≤ pushesOf uri l.reverse := by
          intro h1 h2
          rw [h2]
          refine ih ts hn fun t ht => ⟨(h t ht).1, ?_⟩
          by_cases hc : t = t0
          · subst hc; exact h1 (h t ht).2
          · exact other t hc (h t ht).2
        cases hpc : x.pc t0 with
        | start =>
          cases hp : x.par (uris t0) with
          | none =>
            refine keep ?_ (by simp [pushEvStep, hpc, uriStep, hp])
            rintro ⟨r, hr⟩
            simp [pushEvStep, hpc, uriStep, hp] at hr
          | some q =>
            refine keep ?_ (by simp [pushEvStep, hpc, uriStep, hp])
            rintro ⟨r, hr⟩
            simp [pushEvStep, hpc, uriStep, hp] at hr
        | done o =>
          refine keep ?_ (by simp [pushEvStep, hpc, uriStep])
          rintro ⟨r, hr⟩
          refine ⟨r, ?_⟩
          simp [pushEvStep, hpc, uriStep] at hr
          rw [hpc, hr]
        | found q =>
          cases hp : x.par (uris t0) with
          | none =>
            refine keep ?_ (by simp [pushEvStep, hpc, uriStep, hp])
            rintro ⟨r, hr⟩
            simp [pushEvStep, hpc, uriStep, hp] at hr
          | some q' =>
            have epar : (pushEvStep false uris x (.step t0)).par = fun k => if k = uris t0 then none else x.par k := by
              simp [pushEvStep, hpc, uriStep, hp]
            rw [epar]
            by_cases hu : uris t0 = uri
            · -- the request is gone now, and `t0` has it
              have hi := ih (ts.erase t0) (hn.erase t0) (fun t ht => by
                have hm := (List.Nodup.mem_erase_iff hn).1 ht
                exact ⟨(h t hm.2).1, other t hm.1 (h t hm.2).2⟩)
              rw [hu] at hp
              simp only [hp, Option.isSome_some, if_true, hu] at hi ⊢
              have := List.length_erase (a := t0) (l := ts)
              split at this <;> simp_all <;> omega
            · have hni : t0 ∉ ts := fun hc => hu (h t0 hc).1
              simp only [if_neg (show ¬ uri = uris t0 from fun e => hu e.symm)]
              exact ih ts hn fun t ht => ⟨(h t ht).1, other t (fun e => hni (e ▸ ht)) (h t ht).2⟩
  have := key evs.reverse ts hn
  simp only [List.reverse_reverse] at this
  exact this h

/-- With a storage that raises when asked to delete what is not there: however the threads are interrupted, no more of them are given
a request under a request URI than requests were pushed under it. -/
theorem C166_given_at_most_once_per_push_partial (uris : Nat → Str) (uri : Str) (evs : List PushEv) (ts : List Nat) (hn : ts.Nodup)
    (h : ∀ t ∈ ts, uris t = uri ∧ GivenRequest (pushRun false uris evs) t) : ts.length ≤ pushesOf uri evs :=
  Nat.le_trans (Nat.le_add_right _ _) (pushes_count uris uri evs ts hn h)

/-- And what a thread is given was pushed under its request URI. -/
theorem C166_given_what_was_pushed (silent : Bool) (uris : Nat → Str) (evs : List PushEv) (t : Nat) (r : AuthReq)
    (h : (pushRun silent uris evs).pc t = .done (.val r)) : PushEv.push (uris t) r ∈ evs := by
  have key : ∀ l : List PushEv, (∀ u q, (pushRun silent uris l.reverse).par u = some q → PushEv.push u q ∈ l.reverse) ∧
      ∀ t r, ((pushRun silent uris l.reverse).pc t = .found r ∨ (pushRun silent uris l.reverse).pc t = .done (.val r)) →
        PushEv.push (uris t) r ∈ l.reverse := by
    intro l
    induction l with
    | nil =>
      refine ⟨fun u q h => (by cases h), fun t r h => ?_⟩
      rcases h with h | h <;> cases h
    | cons ev l ih =>
      have e : pushRun silent uris (ev :: l).reverse = pushEvStep silent uris (pushRun silent uris l.reverse) ev := by
        unfold pushRun; rw [List.reverse_cons, List.foldl_append]; rfl
      rw [e, List.reverse_cons]
      generalize pushRun silent uris l.reverse = x at *
      cases ev with
      | push u0 r0 =>
        refine ⟨fun u q h => ?_, fun t r h => List.mem_append_left _ (ih.2 t r h)⟩
        simp only [pushEvStep, pushStore] at h
        split at h
        · rename_i hu; subst hu; cases h; simp
        · exact List.mem_append_left _ (ih.1 u q h)
      | step t0 =>
        simp only [List.mem_append, List.mem_singleton, reduceCtorEq, or_false]
        have hpar : ∀ u q, (pushEvStep silent uris x (.step t0)).par u = some q → x.par u = some q := by
          intro u q h
          simp only [pushEvStep] at h
          unfold uriStep at h
          split at h
          · split at h <;> exact h
          · split at h
            · dsimp only at h
              split at h
              · cases h
              · exact h
            · split at h <;> exact h
          · exact h
        refine ⟨fun u q h => ih.1 u q (hpar u q h), fun t r h => ?_⟩
        by_cases ht : t = t0
        · subst ht
          simp only [pushEvStep, if_true] at h
          cases hpc : x.pc t with
          | start =>
            rw [hpc] at h
            cases hp : x.par (uris t) with
            | none => simp [uriStep, hp] at h
            | some q =>
              simp [uriStep, hp] at h
              subst h
              exact ih.1 _ _ hp
          | found q =>
            rw [hpc] at h
            have hq := ih.2 t q (Or.inl hpc)
            cases hp : x.par (uris t) with
            | none =>
              cases silent <;> simp [uriStep, hp] at h
              subst h
              exact hq
            | some q' =>
              simp [uriStep, hp] at h
              subst h
              exact hq
          | done o =>
            rw [hpc] at h
            simp [uriStep] at h
            exact ih.2 t r (Or.inr (by rw [hpc, h]))
        · simp only [pushEvStep, if_neg ht] at h
          exact ih.2 t r h
  have := (key evs.reverse).2 t r
  simp only [List.reverse_reverse] at this
  exact this (Or.inr h)

/-- With `ShelveDataBase`, deleting what is not there does nothing: two threads are given the one pushed request. -/
theorem C166_two_threads_one_push (uri : Str) (r : AuthReq) :
    ∃ evs, pushesOf uri evs = 1 ∧ ∀ t, t < 2 → (pushRun true (fun _ => uri) evs).pc t = .done (.val r) := by
  refine ⟨[.push uri r, .step 0, .step 1, .step 0, .step 1], by simp [pushesOf, List.countP_cons], ?_⟩
  intro t ht
  match t with
  | 0 => simp [pushRun, pushEvStep, uriStep, pushStore]
  | 1 => simp [pushRun, pushEvStep, uriStep, pushStore]

/-- The same schedule with the other storage: the first is given the request, the second raises. -/
example (uri : Str) (r : AuthReq) : let x := pushRun false (fun _ => uri) [.push uri r, .step 0, .step 1, .step 0, .step 1]
    GivenRequest x 0 ∧ x.pc 1 = .done (.raise .keyError) :=
  ⟨⟨r, by simp [pushRun, pushEvStep, uriStep, pushStore]⟩, by simp [pushRun, pushEvStep, uriStep, pushStore]⟩

/-! ### Assertions -/

/-- The pieces, without interruption, are the use of a `jti` as modelled in `jtiUse`. -/
theorem C169_pieces_are_jti_use (jtis : List Str) (a : Assertion) (j : Str) (hj : a.jti = some j) (hne : j ≠ []) :
    let key := a.iss ++ c!":" ++ j
    let p := jtiStep key jtis .start
    let q := jtiStep key p.1 p.2
    (match jtiUse jtis a with
     | .ok l => q = (l, .done (.ok ()))
     | .error e => q = (jtis, .done (.error e))) := by
  unfold jtiUse
  simp only [hj, if_neg hne, jtiStep]
  by_cases h : a.iss ++ c!":" ++ j ∈ jtis
  · simp only [if_pos h, jtiStep]
  · simp only [if_neg h, jtiStep]

/-- One after the other, one at most is accepted, whatever was seen before. -/
theorem C169_in_turn_once_partial (key : Str) (jtis : List Str) :
    (usesRun key jtis [0, 0, 1, 1]).pc 1 = .done (.error .multipleUsage) := by
  by_cases h : key ∈ jtis <;> simp [usesRun, usesStep, jtiStep, h]

/-- The property is false of the code: however many threads there are, if each looks the key up before any has noted it, all are
accepted with the same assertion. -/
theorem C169_any_number_of_threads_accepted (key : Str) (jtis : List Str) (hk : key ∉ jtis) (n : Nat) :
    ∃ sched, ∀ t, t < n → (usesRun key jtis sched).pc t = .done (.ok ()) := by
  have first : ∀ n, ((List.range n).foldl (usesStep key) { jtis := jtis, pc := fun _ => .start }) =
      { jtis := jtis, pc := fun t => if t < n then .passed else .start } := by
    intro n
    induction n with
    | zero => simp
    | succ n ih =>
      rw [List.range_succ, List.foldl_append, ih]
      simp only [List.foldl_cons, List.foldl_nil, usesStep, Nat.lt_irrefl, if_false, jtiStep, if_neg hk]
      congr 1
      funext i
      by_cases h1 : i = n
      · subst h1; simp
      · simp only [if_neg h1]
        by_cases h2 : i < n
        · rw [if_pos h2, if_pos (by omega)]
        · rw [if_neg h2, if_neg (by omega)]
  have second : ∀ m, m ≤ n → ∃ l, ((List.range m).foldl (usesStep key) { jtis := jtis, pc := fun t => if t < n then .passed else .start }) =
      { jtis := l, pc := fun t => if t < m then .done (.ok ()) else if t < n then .passed else .start } := by
    intro m
    induction m with
    | zero => intro _; exact ⟨jtis, by simp⟩
    | succ m ih =>
      intro hm
      obtain ⟨l, hl⟩ := ih (by omega)
      refine ⟨key :: l, ?_⟩
      rw [List.range_succ, List.foldl_append, hl]
      simp only [List.foldl_cons, List.foldl_nil, usesStep, Nat.lt_irrefl, if_false, if_pos (show m < n by omega), jtiStep]
      congr 1
      funext i
      by_cases h1 : i = m
      · subst h1; simp
      · simp only [if_neg h1]
        by_cases h2 : i < m
        · rw [if_pos h2, if_pos (by omega)]
        · rw [if_neg h2, if_neg (show ¬ i < m + 1 by omega)]
  refine ⟨List.range n ++ List.range n, fun t ht => ?_⟩
  obtain ⟨l, hl⟩ := second n (Nat.le_refl n)
  unfold usesRun
  rw [List.foldl_append, first n, hl]
  simp [ht]

end Verif
