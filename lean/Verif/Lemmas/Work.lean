import Verif.Lemmas.PiecesKeys
import Verif.Spec.Work
set_option linter.unusedSimpArgs false
set_option linter.unusedVariables false
/-! Programs that keep to their own keys do not notice each other. -/
namespace Verif
open Spec

theorem run_map {α β : Type} (f : α → β) (p : Prog α) (s : Store) : (p.map f).run s = ((p.run s).1, f (p.run s).2) := by
  unfold Prog.map
  rw [run_bind]
  rfl

theorem within_map {α β : Type} {W : Str → Prop} {Q : α → Prop} (f : α → β) {p : Prog α} (h : p.Within W Q) : (p.map f).Within W Any :=
  Prog.Within.bind h fun _ _ => trivial

/-- The pieces of a work, without interruption, are the work. -/
theorem workP_run (cfg : WorkCfg) (w : Work) (s : Store) : (workP cfg w).run s = serve cfg s w := by
  cases w <;> simp only [workP, serve, run_map, authzProcessP_run, tokenEndpointP_run, userinfoP_run, introspectP_run, createSessionP_run,
    createGrantP_run, addGrantP_run, revokeTokenP_run, revokeGrantP_run, revokeClientP_run, removeSessionP_run, deleteP_run]

theorem in_of {env : Env} {v : Str} {W : Str → Prop} (h : ∀ u, TokenOf env v u → W u) (now : Int) : In env W now v :=
  fun sid hs => h _ ⟨now, sid, hs, rfl⟩

/-- A work keeps to the keys of the users it touches. -/
theorem workP_within (cfg : WorkCfg) (L : TokenCryptoLaws cfg.env.cr) (w : Work) (hn : WorkNames w) :
    (workP cfg w).Within (Touches cfg.env w) Any := by
  cases w with
  | authorize cdb now gid mc ma idt a req => exact within_map _ (withinAuthz _ _ _ _ _ _ _ _ _ hn fun u h => h)
  | token i req =>
    exact within_map _ (withinTokenEndpoint _ L _ _ _
      (fun v hv => ⟨in_of (fun u h => Or.inl ⟨v, hv, Or.inl h⟩) _, in_of (fun u h => Or.inl ⟨v, hv, Or.inr h⟩) _⟩)
      (fun v hv => in_of (fun u h => Or.inr ⟨v, hv, h⟩) _))
  | userinfo now v => exact within_map _ (withinUserinfo _ _ (in_of (fun u h => h) _))
  | introspect now v => exact within_map _ (withinIntrospect _ _ _ _ (in_of (fun u h => h) _))
  | createSession now gid u c a => exact within_map _ (withinCreateSession (W := fun v => v = u) _ _ _ _ _ hn rfl)
  | createGrant now gid u c a => exact within_map _ (withinCreateGrant (W := fun v => v = u) _ _ _ _ _ hn rfl)
  | addGrant now gid u c a => exact within_map _ (withinAddGrant _ _ _ _ hn rfl)
  | revokeToken limit sid v b => exact within_map _ (withinRevokeToken _ _ _ _ rfl)
  | revokeGrant sid => exact within_map _ (withinRevokeGrant rfl)
  | revokeClientSession sid => exact within_map _ (withinRevokeClient rfl)
  | removeSession sid => exact within_map _ (withinRemove _ (Or.inl rfl) fun c g h => Or.inr ⟨c, g, h, rfl⟩)
  | delete path => exact within_map _ (withinDelete _ (by
      cases path with
      | nil => intro u hu; simp at hu
      | cons u r => exact headOk_name (hn u rfl) r) (fun u h => Or.inl h) fun c g r h => Or.inr ⟨c, g, r, h, rfl⟩)

/-- What a program does depends on, and changes, its own keys only. -/
theorem run_own {α : Type} {W : Str → Prop} {Q : α → Prop} {p : Prog α} (hp : p.Within W Q) {s s' : Store} (h : ∀ k, W (ownerOf k) → s k = s' k) :
    (p.run s).2 = (p.run s').2 ∧ (∀ k, W (ownerOf k) → (p.run s).1 k = (p.run s').1 k) ∧ ∀ k, ¬ W (ownerOf k) → (p.run s).1 k = s k := by
  induction p generalizing s s' with
  | ret a => exact ⟨rfl, h, fun _ _ => rfl⟩
  | read k f ih =>
    simp only [run_read]
    rw [← h k hp.1]
    exact ih _ (hp.2 _) h
  | write k v p ih =>
    have := ih hp.2 (s := fun k' => if k' = k then v else s k') (s' := fun k' => if k' = k then v else s' k') (fun k' hk' => by
      split
      · rfl
      · exact h k' hk')
    refine ⟨this.1, this.2.1, fun k' hk' => ?_⟩
    refine (this.2.2 k' hk').trans ?_
    rw [if_neg]
    rintro rfl
    exact hk' hp.1

/-- The state of threads that keep to keys of different users: each is on the way to what it would do alone. -/
structure OnTheWay {α : Type} (W : Nat → Str → Prop) (s : Store) (p : Nat → Prog α) (x : Threads α) : Prop where
  within : ∀ t, (x.prog t).Within (W t) Any
  result : ∀ t, ((x.prog t).run x.store).2 = ((p t).run s).2
  own : ∀ t k, W t (ownerOf k) → ((x.prog t).run x.store).1 k = ((p t).run s).1 k
  rest : ∀ k, (∀ t, ¬ W t (ownerOf k)) → x.store k = s k

theorem onTheWay_step {α : Type} {W : Nat → Str → Prop} (hd : ∀ t t' u, t ≠ t' → W t u → ¬ W t' u) {s : Store} {p : Nat → Prog α} {x : Threads α}
    (h : OnTheWay W s p x) (t : Nat) : OnTheWay W s p (x.step t) := by
  unfold Threads.step
  split
  · exact h
  · rename_i k f hp
    have hw := h.within t
    rw [hp] at hw
    have e : ∀ i, ((if i = t then f (x.store k) else x.prog i).run x.store) = (x.prog i).run x.store := by
      intro i
      split
      · rename_i hi; subst hi; rw [hp]; rfl
      · rfl
    refine ⟨fun i => ?_, fun i => ?_, fun i k' hk => ?_, h.rest⟩
    · dsimp only
      split
      · rename_i hi; subst hi; exact hw.2 _
      · exact h.within i
    · dsimp only; rw [e]; exact h.result i
    · dsimp only; rw [e]; exact h.own i k' hk
  · rename_i k v q hp
    have hw := h.within t
    rw [hp] at hw
    have other : ∀ i, i ≠ t → ((x.prog i).run (fun k' => if k' = k then v else x.store k')).2 = ((x.prog i).run x.store).2 ∧
        ∀ k', W i (ownerOf k') → ((x.prog i).run (fun k' => if k' = k then v else x.store k')).1 k' = ((x.prog i).run x.store).1 k' := by
      intro i hi
      have := run_own (h.within i) (s := fun k' => if k' = k then v else x.store k') (s' := x.store) (fun k' hk' => by
        rw [if_neg]
        rintro rfl
        exact hd _ _ _ hi hk' hw.1)
      exact ⟨this.1, this.2.1⟩
    refine ⟨fun i => ?_, fun i => ?_, fun i k' hk => ?_, fun k' hk' => ?_⟩
    · dsimp only
      split
      · rename_i hi; subst hi; exact hw.2
      · exact h.within i
    · dsimp only
      split
      · rename_i hi; subst hi
        have := h.result i
        rw [hp] at this
        exact this
      · rename_i hi
        rw [(other i hi).1]; exact h.result i
    · dsimp only
      split
      · rename_i hi; subst hi
        have := h.own i k' hk
        rw [hp] at this
        exact this
      · rename_i hi
        rw [(other i hi).2 k' hk]; exact h.own i k' hk
    · dsimp only
      rw [if_neg]
      · exact h.rest k' hk'
      · rintro rfl
        exact hk' t hw.1

theorem onTheWay_run {α : Type} {W : Nat → Str → Prop} (hd : ∀ t t' u, t ≠ t' → W t u → ¬ W t' u) {s : Store} {p : Nat → Prog α}
    (sched : List Nat) {x : Threads α} (h : OnTheWay W s p x) : OnTheWay W s p (x.run sched) := by
  induction sched generalizing x with
  | nil => exact h
  | cons t l ih => exact ih (onTheWay_step hd h t)

/-- Only the threads that were scheduled write, and only what is theirs. -/
theorem run_untouched {α : Type} {W : Nat → Str → Prop} (k : Str) (sched : List Nat) (x : Threads α) (hw : ∀ t, (x.prog t).Within (W t) Any)
    (h : ∀ t ∈ sched, ¬ W t (ownerOf k)) : (x.run sched).store k = x.store k := by
  induction sched generalizing x with
  | nil => rfl
  | cons t l ih =>
    have key : (∀ i, ((x.step t).prog i).Within (W i) Any) ∧ (x.step t).store k = x.store k := by
      have ht := hw t
      have hk := h t List.mem_cons_self
      unfold Threads.step
      split
      · exact ⟨hw, rfl⟩
      · rename_i k' f hp
        rw [hp] at ht
        refine ⟨fun i => ?_, rfl⟩
        dsimp only
        split
        · rename_i hi; subst hi; exact ht.2 _
        · exact hw i
      · rename_i k' v q hp
        rw [hp] at ht
        refine ⟨fun i => ?_, ?_⟩
        · dsimp only
          split
          · rename_i hi; subst hi; exact ht.2
          · exact hw i
        · dsimp only
          rw [if_neg]
          rintro rfl
          exact hk ht.1
    exact (ih (x.step t) key.1 (fun i hi => h i (List.mem_cons_of_mem _ hi))).trans key.2

/-- Serving one after the other: each works on what was there for its users at first, and nobody else touches that. -/
theorem fold_own {α : Type} {W : Nat → Str → Prop} {p : Nat → Prog α} (hw : ∀ t, (p t).Within (W t) Any)
    (hd : ∀ t t' u, t ≠ t' → W t u → ¬ W t' u) (ts : List Nat) (hn : ts.Nodup) (s : Store) :
    (∀ t ∈ ts, ∀ k, W t (ownerOf k) → ts.foldl (fun s t => ((p t).run s).1) s k = ((p t).run s).1 k) ∧
    ∀ k, (∀ t ∈ ts, ¬ W t (ownerOf k)) → ts.foldl (fun s t => ((p t).run s).1) s k = s k := by
  induction ts generalizing s with
  | nil => exact ⟨fun t h => (by cases h), fun _ _ => rfl⟩
  | cons a l ih =>
    have hn' := List.nodup_cons.1 hn
    obtain ⟨i1, i2⟩ := ih hn'.2 ((p a).run s).1
    have fr := fun k => (run_own (hw a) (s := s) (s' := s) (fun _ _ => rfl)).2.2 k
    refine ⟨fun t ht k hk => ?_, fun k hk => ?_⟩
    · simp only [List.foldl_cons]
      rcases List.mem_cons.1 ht with rfl | ht
      · exact i2 k fun t' ht' hk' => hd t t' _ (fun e => hn'.1 (e ▸ ht')) hk hk'
      · rw [i1 t ht k hk]
        refine (run_own (hw t) (fun k' hk' => ?_)).2.1 k hk
        exact fr k' (fun hc => hd t a _ (fun e => hn'.1 (e ▸ ht)) hk' hc)
    · simp only [List.foldl_cons]
      rw [i2 k (fun t ht => hk t (List.mem_cons_of_mem _ ht))]
      exact fr k (hk a List.mem_cons_self)

/-- A thread that is not interrupted comes to its end. -/
theorem alone_ends {α : Type} (q : Prog α) (x : Threads α) (t : Nat) (h : x.prog t = q) :
    ∃ n, (x.run (List.replicate n t)).prog t = .ret (q.run x.store).2 ∧ (x.run (List.replicate n t)).store = (q.run x.store).1 := by
  induction q generalizing x with
  | ret a => exact ⟨0, h, rfl⟩
  | read k f ih =>
    obtain ⟨n, h1, h2⟩ := ih (x.store k) (x.step t) (by unfold Threads.step; rw [h]; exact if_pos rfl)
    have e : (x.step t).store = x.store := by unfold Threads.step; rw [h]
    rw [e] at h1 h2
    exact ⟨n + 1, h1, h2⟩
  | write k v q ih =>
    obtain ⟨n, h1, h2⟩ := ih (x.step t) (by unfold Threads.step; rw [h]; exact if_pos rfl)
    have e : (x.step t).store = fun k' => if k' = k then v else x.store k' := by unfold Threads.step; rw [h]
    rw [e] at h1 h2
    exact ⟨n + 1, h1, h2⟩

end Verif
