import Verif.Lemmas.ProviderInv
set_option linter.unusedSimpArgs false
set_option linter.unusedVariables false
/-! Sessions of the web have no limit of use. -/
namespace Verif
open Spec

theorem step_maxUsage {env : Env} {k : Str} {g : Grant} {op : GrantOp} (ha : Allowed env k g op) :
    (g.step op).maxUsage = g.maxUsage := by
  cases op with
  | mint now id tt b rules scope args value =>
    simp only [Grant.step]
    rcases mintToken_cases g now id tt (b.bind g.tokenAt) rules scope args value with h | h
    · rw [h.1]
    · obtain ⟨v, k, rfl, _, _, _, item, hi, hr⟩ := h; rw [hr]
  | copyRules s d => simp only [Grant.step]; cases g.tokenAt s <;> rfl
  | configure c => exact ha.2.1
  | _ => rfl

theorem Evo.maxUsage {env : Env} {k : Str} {g g' : Grant} (h : Evo env k g g') : g'.maxUsage = g.maxUsage := by
  induction h with
  | refl => rfl
  | step op _ ha ih => rw [step_maxUsage ha, ih]

/-- The steps of the web set no limits. -/
theorem expand_unlimited {cfg : ProvCfg} (ops : List HttpOp) : ∀ op ∈ expand cfg ops,
    NoLimitGiven op ∨ ∀ env s u c gid ev sub, ¬ LogsIn env s op u c gid ev sub := by
  induction ops using snocInd with
  | nil => intro op hop; cases hop
  | append_singleton l op ih =>
    intro sop hsop
    rw [expand_snoc] at hsop
    rcases List.mem_append.1 hsop with hm | hm
    · exact ih sop hm
    · rcases sysOps_authorize hm with ⟨_, _, _, _, _, _, _, _, _, _, _, _, _, rfl, _⟩ | h
      · exact Or.inl trivial
      · exact Or.inr h.1.2.2.2.2

/-- The sessions of the web may be used any number of times, and have the three types of tokens. -/
theorem web_unlimited {cfg : ProvCfg} {ops : List HttpOp} (hw : WebRun cfg ops) {sid : Str} {g : Grant}
    (h : getGrant (provRun cfg ops).sys.store sid = .ok g) : g.maxUsage = none ∧ g.tokenMap = defaultTokenMap := by
  obtain ⟨hf, -, -⟩ := expand_ok hw
  have hi := sysRun_inv cfg.sys (expand cfg ops) hf hw.blank (expand cfg ops).length
  have hk : (sysRun cfg.sys ((expand cfg ops).take (expand cfg ops).length)).store sid = some (.grant g) := by
    rw [List.take_length] at hi ⊢
    rw [← provRun_sys] at hi ⊢
    exact (getGrant_key hi.noEmpty h).1
  refine ⟨?_, ((hi.grants _ _ hk).2).tokenMap⟩
  obtain ⟨j, op, g0, -, hj, hc, hev⟩ := grant_origin hf hw.blank _ hk
  rw [hev.maxUsage]
  rcases expand_unlimited ops op (List.mem_of_getElem? hj) with hn | hn
  · exact hc.2.2.2.2.2.2 hn
  · obtain ⟨u, c, gid, -, hl⟩ := hc.1
    exact absurd hl (hn _ _ _ _ _ _ _)

end Verif
