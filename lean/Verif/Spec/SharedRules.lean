import Verif.Model.SharedRules
/-! Specification for C171: rules dictionaries that are written down once per token type. -/
namespace Verif.Spec

/-- The configuration with addresses says the same as the configuration `gc` and the client records `cdb`. -/
structure WrittenAs (cfg : RulesCfg) (gc : AuthzConfig) (cdb : Cdb) : Prop where
  provider : gc.usageRules = cfg.prov.map fun p => p.map fun kv => (kv.1, cfg.cells kv.2)
  clients : ∀ c, (cdb c).bind (·.tokenUsageRules) = (cfg.client c).map fun p => p.map fun kv => (kv.1, cfg.cells kv.2)

/-- No dictionary is used for two token types, nor both by the provider and by a client. -/
structure OneTypeEach (cfg : RulesCfg) (typeOf : Nat → Str) : Prop where
  provider : ∀ p t a, cfg.prov = some p → p.get? t = some a → typeOf a = t
  clients : ∀ c p t a, cfg.client c = some p → p.get? t = some a → typeOf a = t
  apart : ∀ p c d t t' a b, cfg.prov = some p → cfg.client c = some d → p.get? t = some a → d.get? t' = some b → a ≠ b

end Verif.Spec
