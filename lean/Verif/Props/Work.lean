import Verif.Lemmas.Work
import Verif.Props.Isolation
set_option linter.unusedSimpArgs false
set_option linter.unusedVariables false
/-! Threads that serve requests of different users (C167). -/
namespace Verif
open Spec

/-- What the theorems start from: the threads have not begun. -/
theorem workers_start (cfg : WorkCfg) (L : TokenCryptoLaws cfg.env.cr) (s : Store) (w : Nat → Work) (hn : ∀ t, WorkNames (w t)) :
    OnTheWay (fun t => Touches cfg.env (w t)) s (fun t => workP cfg (w t)) (workers cfg s w) :=
  ⟨fun t => workP_within cfg L (w t) (hn t), fun _ => rfl, fun _ _ _ => rfl, fun _ _ => rfl⟩

/-- Threads work for different users on one storage, interrupted anywhere between two reads or writes of storage items.  A thread
that is through got the result it would have got if it had been alone, and has left its users' records as if it had been alone. -/
theorem C167_as_if_alone (cfg : WorkCfg) (L : TokenCryptoLaws cfg.env.cr) (s : Store) (w : Nat → Work) (hn : ∀ t, WorkNames (w t))
    (hd : DifferentUsers cfg.env w) (sched : List Nat) (t : Nat) (r : WorkOut) (h : Through ((workers cfg s w).run sched) t r) :
    r = (serve cfg s (w t)).2 ∧
    ∀ k, Touches cfg.env (w t) (ownerOf k) → ((workers cfg s w).run sched).store k = (serve cfg s (w t)).1 k := by
  have hi := onTheWay_run hd sched (workers_start cfg L s w hn)
  have h1 := hi.result t
  have h2 := hi.own t
  rw [show ((workers cfg s w).run sched).prog t = .ret r from h] at h1 h2
  rw [workP_run] at h1 h2
  exact ⟨h1, h2⟩

/-- Records of users whose threads have not been scheduled, or who have none, are untouched: also while other threads are under
way. -/
theorem C167_others_untouched (cfg : WorkCfg) (L : TokenCryptoLaws cfg.env.cr) (s : Store) (w : Nat → Work) (hn : ∀ t, WorkNames (w t))
    (sched : List Nat) (k : Str) (h : ∀ t ∈ sched, ¬ Touches cfg.env (w t) (ownerOf k)) :
    ((workers cfg s w).run sched).store k = s k :=
  run_untouched (W := fun t => Touches cfg.env (w t)) k sched _ (fun t => workP_within cfg L (w t) (hn t)) h

/-- If all the threads that were scheduled are through, the storage is as if they had been served one after the other, in any
order. -/
theorem C167_as_if_in_turn (cfg : WorkCfg) (L : TokenCryptoLaws cfg.env.cr) (s : Store) (w : Nat → Work) (hn : ∀ t, WorkNames (w t))
    (hd : DifferentUsers cfg.env w) (sched ts : List Nat) (hnd : ts.Nodup) (hts : ∀ t ∈ sched, t ∈ ts)
    (h : ∀ t ∈ ts, ∃ r, Through ((workers cfg s w).run sched) t r) :
    ((workers cfg s w).run sched).store = ts.foldl (fun s t => (serve cfg s (w t)).1) s := by
  have hf := fold_own (W := fun t => Touches cfg.env (w t)) (p := fun t => workP cfg (w t)) (fun t => workP_within cfg L (w t) (hn t)) hd ts hnd s
  have e : (fun (s : Store) t => ((workP cfg (w t)).run s).1) = fun s t => (serve cfg s (w t)).1 := by
    funext s t; rw [workP_run]
  simp only [e] at hf
  refine funext fun k => ?_
  by_cases hk : ∃ t ∈ ts, Touches cfg.env (w t) (ownerOf k)
  · obtain ⟨t, ht, hk⟩ := hk
    obtain ⟨r, hr⟩ := h t ht
    rw [(C167_as_if_alone cfg L s w hn hd sched t r hr).2 k hk, hf.1 t ht k hk, workP_run]
  · rw [hf.2 k (fun t ht hc => hk ⟨t, ht, hc⟩)]
    exact C167_others_untouched cfg L s w hn sched k (fun t ht hc => hk ⟨t, hts t ht, hc⟩)

/-- A thread that is not interrupted any more comes to its end; alone, it does what the function does that serves the request. -/
theorem C167_every_thread_ends (cfg : WorkCfg) (s : Store) (w : Nat → Work) (sched : List Nat) (t : Nat) :
    (∃ n r, Through ((workers cfg s w).run (sched ++ List.replicate n t)) t r) ∧
    ∃ n, Through ((workers cfg s w).run (List.replicate n t)) t (serve cfg s (w t)).2 ∧
      ((workers cfg s w).run (List.replicate n t)).store = (serve cfg s (w t)).1 := by
  constructor
  · obtain ⟨n, h, _⟩ := alone_ends _ ((workers cfg s w).run sched) t rfl
    have e : (workers cfg s w).run (sched ++ List.replicate n t) = ((workers cfg s w).run sched).run (List.replicate n t) := by
      unfold Threads.run; rw [List.foldl_append]
    exact ⟨n, _, show Through _ t _ from e ▸ h⟩
  · obtain ⟨n, h1, h2⟩ := alone_ends _ (workers cfg s w) t rfl
    refine ⟨n, ?_⟩
    change ((workers cfg s w).run (List.replicate n t)).prog t = .ret ((workP cfg (w t)).run s).2 at h1
    change ((workers cfg s w).run (List.replicate n t)).store = ((workP cfg (w t)).run s).1 at h2
    rw [workP_run] at h1 h2
    exact ⟨h1, h2⟩

/-! ### A concrete case -/

/-- A configuration for the demo environment. -/
def demoWork : WorkCfg := { mode := .byValue, env := demoEnv, helpers := demoHelpers, issuer := c!"https://op", release := true, users := demoUsers }

/-- `diana`'s client redeems her code while `bob` logs in; the other threads have nothing to do. -/
def twoWorks : Nat → Work
  | 0 => .token (tokIn 2 c!"n3" c!"n4") demoTokReq
  | 1 => .authorize demoDb 1 c!"g2" (mintIn c!"m1") (mintIn c!"m2") (.val c!"IDT") { ident := .plain c!"bob" } (demoReq [c!"code"])
  | _ => .delete []

theorem twoWorks_ok : (∀ t, WorkNames (twoWorks t)) ∧ DifferentUsers demoEnv twoWorks := by
  have nb : UserName c!"bob" := userName_of (by decide) (by decide)
  have h0 : ∀ u, Touches demoEnv (twoWorks 0) u → u = c!"diana" := demoTokReq_owner
  have h1 : ∀ u, Touches demoEnv (twoWorks 1) u → u = c!"bob" := fun u h => h
  have h2 : ∀ n u, ¬ Touches demoEnv (twoWorks (n + 2)) u := by
    rintro n u (h | ⟨c, g, r, h, _⟩) <;> cases h
  constructor
  · intro t
    match t with
    | 0 => trivial
    | 1 => rintro uid (h | ⟨sid, h⟩) <;> cases h; exact nb
    | n + 2 => intro u h; cases h
  · intro t t' u hne ht ht'
    match t, t' with
    | 0, 0 => exact hne rfl
    | 1, 1 => exact hne rfl
    | 0, 1 => exact absurd ((h0 u ht).symm.trans (h1 u ht')) (by decide)
    | 1, 0 => exact absurd ((h0 u ht').symm.trans (h1 u ht)) (by decide)
    | n + 2, _ => exact h2 n u ht
    | _, n + 2 => exact h2 n u ht'

/-- Is it a token answer, with a token in it? -/
def gotToken : Prog WorkOut → Bool
  | .ret (.token (.val _)) => true
  | _ => false

/-- Is it an authorization answer, with a code in it? -/
def gotCode : Prog WorkOut → Bool
  | .ret (.authz _ (.reply r)) => match r.content with
    | .val a => a.code.isSome
    | _ => false
  | _ => false

/-- The two threads take turns, forty times. -/
def turns : List Nat := (List.range 40).flatMap fun _ => [0, 1]

set_option maxRecDepth 16000 in
/-- Both are through after that, and successful. -/
example : gotToken (((workers demoWork (sysRun (envCfg demoEnv) [dianaIn]).store twoWorks).run turns).prog 0) = true ∧
    gotCode (((workers demoWork (sysRun (envCfg demoEnv) [dianaIn]).store twoWorks).run turns).prog 1) = true := by decide

end Verif
