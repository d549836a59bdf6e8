import Verif.Model.Provider
import Verif.Lemmas.SysInv
set_option linter.unusedSimpArgs false
set_option linter.unusedVariables false
/-! The sessions of the provider under HTTP requests are those of a history of session steps (refinement). -/
namespace Verif
open Spec

/-- Induction on the last element. -/
@[elab_as_elim] theorem snocInd {α : Type} {P : List α → Prop} (l : List α) (nil : P [])
    (append_singleton : ∀ l x, P l → P (l ++ [x])) : P l := by
  rw [← List.reverse_reverse l]
  induction l.reverse with
  | nil => exact nil
  | cons x r ih => rw [List.reverse_cons]; exact append_singleton _ _ ih

/-- The session steps of `clean_sessions`: up to the first failure. -/
def cleanOps (s : Store) : List Str → List SysOp
  | [] => []
  | sid :: l => .revokeClientSession sid :: match (revokeClientSession s sid).2 with
    | .error _ => []
    | .ok () => cleanOps (revokeClientSession s sid).1 l

theorem cleanOps_run (cfg : SysCfg) (l : List Str) (st : Sys) :
    (cleanOps st.store l).foldl (sysStep cfg) st = { st with store := (cleanSessions st.store l).1 } := by
  induction l generalizing st with
  | nil => rfl
  | cons sid l ih =>
    unfold cleanOps cleanSessions
    dsimp only
    rw [List.foldl_cons]
    have e : sysStep cfg st (.revokeClientSession sid) = { st with store := (revokeClientSession st.store sid).1 } := rfl
    rw [e]
    cases h : (revokeClientSession st.store sid).2 with
    | error x => rfl
    | ok u =>
      dsimp only
      have := ih { st with store := (revokeClientSession st.store sid).1 }
      exact this

/-- The session steps of a logout. -/
def logoutOps (env : LogoutEnv) (cdb : Cdb) (s : Store) (sid : Str) (alla : Bool) : List SysOp :=
  match unpack3 sid with
  | .error _ => []
  | .ok (u, c, g) =>
    if alla then
      match dbGet s [u] with
      | .error _ => []
      | .ok ui => match dbGet s [u, c] with
        | .error _ => []
        | .ok _ => match ui.subordinate with
          | .error _ => []
          | .ok clients => match logoutCalls env cdb u clients with
            | .error _ => []
            | .ok calls => cleanOps s (calls.map fun p => sessionKey [u, p.1])
    else
      match dbGet s [u, c, g] with
      | .error _ => []
      | .ok _ => match cdb c with
        | none => []
        | some cl => match logoutCall env cl sid with
          | .error _ => []
          | .ok _ => cleanOps s [sid]

theorem doVerifiedLogout_store (env : LogoutEnv) (cdb : Cdb) (post : Str → Str → Except Exn Unit) (s : Store) (sid : Str)
    (alla : Bool) : (doVerifiedLogout env cdb post s sid alla).1 =
      (if alla then logoutAllClients env cdb s sid else logoutFromClient env cdb s sid).1 := by
  unfold doVerifiedLogout
  dsimp only
  generalize (if alla then logoutAllClients env cdb s sid else logoutFromClient env cdb s sid) = r
  cases r.2 with
  | error e => rfl
  | ok calls =>
    dsimp only
    cases (postAll post calls).2 <;> rfl

theorem logoutOps_run (cfg : SysCfg) (env : LogoutEnv) (cdb : Cdb) (post : Str → Str → Except Exn Unit) (st : Sys) (sid : Str)
    (alla : Bool) : (logoutOps env cdb st.store sid alla).foldl (sysStep cfg) st =
      { st with store := (doVerifiedLogout env cdb post st.store sid alla).1 } := by
  rw [doVerifiedLogout_store]
  cases alla with
  | true =>
    simp only [if_true]
    unfold logoutOps logoutAllClients
    cases unpack3 sid with
    | error e => rfl
    | ok t =>
      obtain ⟨u, c, g⟩ := t
      simp only [if_true]
      cases dbGet st.store [u] with
      | error e => rfl
      | ok ui =>
        dsimp only
        cases dbGet st.store [u, c] with
        | error e => rfl
        | ok _ =>
          dsimp only
          cases ui.subordinate with
          | error e => rfl
          | ok clients =>
            dsimp only
            cases logoutCalls env cdb u clients with
            | error e => rfl
            | ok calls =>
              dsimp only
              rw [cleanOps_run]
              cases (cleanSessions st.store (calls.map fun p => sessionKey [u, p.1])).2 <;> rfl
  | false =>
    simp only [Bool.false_eq_true, if_false]
    unfold logoutOps logoutFromClient
    cases unpack3 sid with
    | error e => rfl
    | ok t =>
      obtain ⟨u, c, g⟩ := t
      simp only [Bool.false_eq_true, if_false]
      cases dbGet st.store [u, c, g] with
      | error e => rfl
      | ok _ =>
        dsimp only
        cases cdb c with
        | none => rfl
        | some cl =>
          dsimp only
          cases logoutCall env cl sid with
          | error e => rfl
          | ok o =>
            dsimp only
            rw [cleanOps_run]
            cases (cleanSessions st.store [sid]).2 <;> rfl

/-- The session steps of one HTTP request. -/
def sysOps (cfg : ProvCfg) (st : Prov) : HttpOp → List SysOp
  | .authorize now gid mc ma idt raw req => match authzParse cfg.sys.env st.cdb st.par req.areq with
    | (_, .val q) => match st.cdb q.clientId, authnIn cfg.sys.env cfg.acfg now raw { req with areq := q } with
      | some _, .ok a => [.authorize st.cdb now gid mc ma idt a q]
      | _, _ => []
    | _ => []
  | .tokenParse now r req =>
    match clientAuthentication cfg.lib st.cdb now cfg.tokenMethods cfg.tokenTargets plainFromToken st.jtis r with
    | (_, .ok o) => [.tokParse now { req with clientId := requestClient r o }]
    | _ => []
  | .tokenProcess i req => [.tokProcess i req]
  | .logout _ sid alla => logoutOps cfg.logout st.cdb st.sys.store sid alla
  | .restart => [.crash (.revokeToken 0 [] [] false) 0]
  | _ => []

theorem authzBrowser_store (env : Env) (c : AuthnCfg) (cdb : Cdb) (s : Store) (now : Int) (gid : Str) (mc ma : MintIn) (idt : Out Str)
    (raw : Option Str) (r : UserReq) :
    (authzBrowser env c cdb s now gid mc ma idt raw r).2.1 = match authnIn env c now raw r with
      | .ok a => (authzProcess env cdb s now gid mc ma idt a r.areq).2.1
      | .error _ => s := by
  unfold authzBrowser
  cases authnIn env c now raw r with
  | error e =>
    cases cdb r.areq.clientId with
    | none => rfl
    | some cl => dsimp only; split <;> rfl
  | ok a =>
    unfold authzProcess
    cases h : cdb r.areq.clientId with
    | none => rfl
    | some cl => dsimp only; split <;> rfl

/-- One request does to the sessions what its session steps do. -/
theorem provStep_sys (cfg : ProvCfg) (st : Prov) (op : HttpOp) :
    (provStep cfg st op).sys = (sysOps cfg st op).foldl (sysStep cfg.sys) st.sys := by
  cases op with
  | register => rfl
  | push => rfl
  | userinfo => rfl
  | introspect => rfl
  | tokenProcess => rfl
  | authorize now gid mc ma idt raw req =>
    simp only [provStep, authorizeEndpoint, sysOps]
    cases authzParse cfg.sys.env st.cdb st.par req.areq with
    | mk par o =>
      cases o with
      | errMsg e => rfl
      | raise e => rfl
      | val q =>
        dsimp only
        rw [authzBrowser_store]
        cases hc : st.cdb q.clientId with
        | none =>
          cases authnIn cfg.sys.env cfg.acfg now raw { req with areq := q } with
          | error e => rfl
          | ok a => simp [authzProcess, hc]
        | some cl =>
          cases authnIn cfg.sys.env cfg.acfg now raw { req with areq := q } with
          | error e => rfl
          | ok a => rfl
  | tokenParse now r req =>
    simp only [provStep, tokenParseEndpoint, sysOps]
    cases clientAuthentication cfg.lib st.cdb now cfg.tokenMethods cfg.tokenTargets plainFromToken st.jtis r with
    | mk j o =>
      cases o with
      | error e => rfl
      | ok o =>
        simp only [List.foldl_cons, List.foldl_nil, sysStep]
        cases tokParse cfg.sys.env cfg.sys.helpers st.sys.store now { req with clientId := requestClient r o } <;> rfl
  | logout post sid alla =>
    simp only [provStep, sysOps]
    exact (logoutOps_run cfg.sys cfg.logout st.cdb post st.sys sid alla).symm
  | restart =>
    simp only [provStep, sysOps, List.foldl_cons, List.foldl_nil, sysStep]
    cases cfg.sys.mode <;> rfl

/-- The session steps of a history of requests, from a state on. -/
def expandFrom (cfg : ProvCfg) : Prov → List HttpOp → List SysOp
  | _, [] => []
  | st, op :: ops => sysOps cfg st op ++ expandFrom cfg (provStep cfg st op) ops

/-- The session steps of a history of requests. -/
def expand (cfg : ProvCfg) (ops : List HttpOp) : List SysOp := expandFrom cfg (Prov.init cfg) ops

theorem expandFrom_append (cfg : ProvCfg) (l l' : List HttpOp) (st : Prov) :
    expandFrom cfg st (l ++ l') = expandFrom cfg st l ++ expandFrom cfg (l.foldl (provStep cfg) st) l' := by
  induction l generalizing st with
  | nil => rfl
  | cons op l ih => simp [expandFrom, ih, List.append_assoc]

theorem expand_snoc (cfg : ProvCfg) (ops : List HttpOp) (op : HttpOp) :
    expand cfg (ops ++ [op]) = expand cfg ops ++ sysOps cfg (provRun cfg ops) op := by
  unfold expand
  rw [expandFrom_append]
  simp [expandFrom, provRun]

theorem provRun_snoc (cfg : ProvCfg) (ops : List HttpOp) (op : HttpOp) :
    provRun cfg (ops ++ [op]) = provStep cfg (provRun cfg ops) op := by
  simp [provRun, List.foldl_append]

/-- Refinement: the sessions after a history of requests are those after its session steps. -/
theorem provRun_sys (cfg : ProvCfg) (ops : List HttpOp) : (provRun cfg ops).sys = sysRun cfg.sys (expand cfg ops) := by
  induction ops using snocInd with
  | nil => rfl
  | append_singleton l op ih =>
    rw [provRun_snoc, expand_snoc, provStep_sys, ih]
    unfold sysRun
    rw [List.foldl_append]

theorem take_snoc {α : Type} {l : List α} {k : Nat} {x : α} (h : l[k]? = some x) : l.take (k + 1) = l.take k ++ [x] := by
  rw [List.take_add_one, h]; rfl

/-- Every session step belongs to a request. -/
theorem expand_at {cfg : ProvCfg} {ops : List HttpOp} {j : Nat} {sop : SysOp} (h : (expand cfg ops)[j]? = some sop) :
    ∃ k op pre post, ops[k]? = some op ∧ sysOps cfg (provRun cfg (ops.take k)) op = pre ++ sop :: post ∧
      (expand cfg ops).take j = expand cfg (ops.take k) ++ pre := by
  induction ops using snocInd with
  | nil => simp [expand, expandFrom] at h
  | append_singleton l op ih =>
    rw [expand_snoc] at h ⊢
    by_cases hj : j < (expand cfg l).length
    · rw [List.getElem?_append_left hj] at h
      obtain ⟨k, op', pre, post, h1, h2, h3⟩ := ih h
      have hk : k < l.length := (List.getElem?_eq_some_iff.1 h1).1
      have htk : (l ++ [op]).take k = l.take k := List.take_append_of_le_length (by omega)
      refine ⟨k, op', pre, post, ?_, ?_, ?_⟩
      · rw [List.getElem?_append_left hk]; exact h1
      · rw [htk]; exact h2
      · rw [htk, List.take_append_of_le_length (by omega)]; exact h3
    · have hj' : (expand cfg l).length ≤ j := by omega
      rw [List.getElem?_append_right hj'] at h
      refine ⟨l.length, op, (sysOps cfg (provRun cfg l) op).take (j - (expand cfg l).length),
        (sysOps cfg (provRun cfg l) op).drop (j - (expand cfg l).length + 1), ?_, ?_, ?_⟩
      · simp
      · rw [List.take_left]
        obtain ⟨hlt, he⟩ := List.getElem?_eq_some_iff.1 h
        rw [← he, ← List.drop_eq_getElem_cons hlt, List.take_append_drop]
      · rw [List.take_left, List.take_append]
        congr 1
        exact List.take_of_length_le hj'

end Verif
