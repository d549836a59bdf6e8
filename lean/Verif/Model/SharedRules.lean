import Verif.Model.AuthzHandling
/-! Usage rules are dictionaries that are *shared*: between the provider's configuration, the clients' records, the grants and the
tokens, and `set_defaults` changes them in place.  Everywhere else in this model tokens have their own copies.  Here is the
sharing, with addresses, next to the model with copies. -/
namespace Verif

/-- Where a rules dictionary lives: in the configuration or a client's record (numbered), in a deep copy made when session number
`n` of the log was started (one per token type), or freshly made at step `n`. -/
inductive RuleAddr where
  | cfg (n : Nat)
  | copy (n : Nat) (typ : Str)
  | own (n : Nat)
deriving DecidableEq, Repr

/-- The configuration with addresses: the contents of the dictionaries that were written down, which of them the provider's
`grant_config["usage_rules"]` (authz/__init__.py:24-26) names for which token type (`none`: not configured), and which a client's
`token_usage_rules` (authz/__init__.py:30-31).  One dictionary may be named several times, as with YAML anchors. -/
structure RulesCfg where
  cells : Nat → UsageRules
  prov : Option (Dict Nat) := none
  client : Str → Option (Dict Nat) := fun _ => none

/-- The heap of rules dictionaries, the `usage_rules` of the grants, the tokens with their `usage_rules`, and a clock for fresh
addresses. -/
structure RulesHeap where
  heap : RuleAddr → UsageRules
  grants : List (Str → Option RuleAddr) := []
  toks : List (Str × RuleAddr) := []
  n : Nat := 0

/-- What happens to rules: a session is begun for a client, a grant is decided upon, a token of a type is minted from a grant, and
a refreshed token takes over the rules of another one. -/
inductive RulesOp where
  | session (client : Str)
  | authz (g : Nat)
  | mint (g : Nat) (typ : Str)
  | rotate (new old : Nat)

/-- `set_defaults` for a token type; types without a class are not minted (session/grant.py:216-217, 233-234). -/
def defaultsFor (typ : Str) (r : UsageRules) : UsageRules :=
  match defaultTokenMap.get? typ with
  | some k => setDefaults k r
  | none => r

/-- `AuthzHandling.usage_rules` (authz/__init__.py:24-46) on the heap: where the rules of a type are for a new session. -/
def rulesRef (cfg : RulesCfg) (client : Str) (n : Nat) (typ : Str) : Option RuleAddr :=
  let p := cfg.prov.getD []
  if p.isEmpty then ((cfg.client client).bind (·.get? typ)).map .cfg
  else match p.get? typ with
    | some _ => some (.copy n typ)
    | none => ((cfg.client client).bind (·.get? typ)).map .cfg

/-- The deep copies it makes, updated with the client's rules (authz/__init__.py:25, 36-39).  `deepcopy` would keep sharing between
types inside the copy; here each type has its own (see `OneTypeEach`). -/
def copiedRules (cfg : RulesCfg) (heap : RuleAddr → UsageRules) (client typ : Str) : UsageRules :=
  match (cfg.prov.getD []).get? typ with
  | none => {}
  | some a => match (cfg.client client).bind (·.get? typ) with
    | some b => (heap (.cfg a)).update (heap (.cfg b))
    | none => heap (.cfg a)

/-- One step.  session: authz/__init__.py:24-46, session/manager.py:111-116.  authz: `setattr(grant, "usage_rules", val)`
(authz/__init__.py:72-76), by reference.  mint: `usage_rules or {}` (session/token.py:32) keeps the reference of a dictionary that
is not empty, and `set_defaults` (session/token.py:99-100, 145-156) writes into it.  rotate: `token.usage_rules.copy()`
(oidc/token.py:245). -/
def RulesHeap.step (cfg : RulesCfg) (h : RulesHeap) : RulesOp → RulesHeap
  | .session c =>
    { h with
      heap := fun a => match a with
        | .copy m t => if m = h.n then copiedRules cfg h.heap c t else h.heap (.copy m t)
        | a => h.heap a
      grants := h.grants ++ [rulesRef cfg c h.n]
      n := h.n + 1 }
  | .authz i =>
    match cfg.prov with
    | none => { h with n := h.n + 1 }
    | some p => { h with grants := h.grants.modify i (fun _ => fun t => (p.get? t).map .cfg), n := h.n + 1 }
  | .mint i t =>
    match h.grants[i]?, defaultTokenMap.get? t with
    | some g, some _ =>
      match (g t).filter (fun a => !(h.heap a).isEmpty) with
      | some a => { h with heap := fun b => if b = a then defaultsFor t (h.heap a) else h.heap b, toks := h.toks ++ [(t, a)], n := h.n + 1 }
      | none => { h with heap := fun b => if b = .own h.n then defaultsFor t {} else h.heap b, toks := h.toks ++ [(t, .own h.n)], n := h.n + 1 }
    | _, _ => { h with n := h.n + 1 }
  | .rotate j j' =>
    match h.toks[j]?, h.toks[j']? with
    | some x, some y =>
      { h with heap := fun b => if b = .own h.n then h.heap y.2 else h.heap b, toks := h.toks.set j (x.1, .own h.n), n := h.n + 1 }
    | _, _ => { h with n := h.n + 1 }

/-- The start: only what was written down (token/__init__.py and authz/__init__.py:18-22: the configuration is kept by reference). -/
def RulesHeap.start (cfg : RulesCfg) : RulesHeap :=
  { heap := fun a => match a with
      | .cfg n => cfg.cells n
      | _ => {} }

def RulesHeap.run (cfg : RulesCfg) (ops : List RulesOp) : RulesHeap := ops.foldl (RulesHeap.step cfg) (RulesHeap.start cfg)

/-- What the tokens' rules are. -/
def RulesHeap.seen (h : RulesHeap) : List (Str × UsageRules) := h.toks.map fun x => (x.1, h.heap x.2)

/-- The same with copies, as in the rest of the model. -/
structure RulesCopies where
  grants : List (Dict UsageRules) := []
  toks : List (Str × UsageRules) := []

/-- The four steps with the functions of the rest of the model: `usageRulesOf`, the replacement in `authzCall` and the rules of
`Grant.mintToken` (Model/AuthzHandling.lean, Model/Grant.lean; same sources as above). -/
def RulesCopies.step (gc : AuthzConfig) (cdb : Cdb) (c : RulesCopies) : RulesOp → RulesCopies
  | .session cl => { c with grants := c.grants ++ [usageRulesOf gc cdb cl] }
  | .authz i => { c with grants := c.grants.modify i (fun r => gc.usageRules.getD r) }
  | .mint i t =>
    match c.grants[i]?, defaultTokenMap.get? t with
    | some g, some k => { c with toks := c.toks ++ [(t, setDefaults k ((g.get? t).getD {}))] }
    | _, _ => c
  | .rotate j j' =>
    match c.toks[j]?, c.toks[j']? with
    | some x, some y => { c with toks := c.toks.set j (x.1, y.2) }
    | _, _ => c

def RulesCopies.run (gc : AuthzConfig) (cdb : Cdb) (ops : List RulesOp) : RulesCopies := ops.foldl (RulesCopies.step gc cdb) {}

end Verif
