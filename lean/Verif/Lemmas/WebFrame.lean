import Verif.Spec.WebFlow
import Verif.Props.WebTree
import Verif.Props.Isolation
set_option linter.unusedSimpArgs false
set_option linter.unusedVariables false
/-! Requests of others leave a client's record and a user's sessions as they are. -/
namespace Verif
open Spec

/-! ### The client's record -/

theorem provStep_keeps {cfg : ProvCfg} {st : Prov} {op : HttpOp} (h : FreshIds op) {c : Str} {r : RegRec}
    (hr : st.reg.cdb.get? c = some r) : (provStep cfg st op).reg.cdb.get? c = some r := by
  by_cases hop : ∃ i n ss v req, op = .register i n ss v req
  · obtain ⟨i, n, ss, v, req, rfl⟩ := hop
    cases (show n = true from h)
    exact C43_other_clients_unchanged cfg.regLib cfg.regCfg st.reg i ss v req c r hr
  · rw [provStep_reg (fun i n ss v req e => hop ⟨i, n, ss, v, req, e⟩)]; exact hr

theorem provRun_keeps {cfg : ProvCfg} (l mid : List HttpOp) (h : ∀ op ∈ mid, FreshIds op) {c : Str} {r : RegRec}
    (hr : (provRun cfg l).reg.cdb.get? c = some r) : (provRun cfg (l ++ mid)).reg.cdb.get? c = some r := by
  induction mid using snocInd with
  | nil => simpa using hr
  | append_singleton m op ih =>
    rw [← List.append_assoc, provRun_snoc]
    exact provStep_keeps (h op (by simp)) (ih fun o ho => h o (by simp [ho]))

/-! ### The user's sessions -/

theorem authnIn_decoded {cfg : ProvCfg} {now : Int} {raw : Option Str} {r : UserReq} {a : AuthnIn}
    (h : authnIn cfg.sys.env cfg.acfg now raw r = .ok a) {x sid : Option Str} (hd : a.ident = .decoded x sid) :
    ∃ v b, CookieSays cfg raw v ∧ cfg.acfg.lib.b64d v = some b ∧ cfg.acfg.lib.json b = .ok (x, sid) := by
  unfold authnIn at h
  split at h
  · cases h
  · split at h
    · cases h
    · rename_i i hi
      cases h
      dsimp only at hd
      unfold identity at hi
      have said : ∀ uid ts, authenticatedAs cfg.acfg now raw (demandedAge r) = .ok (some (uid, ts)) → CookieSays cfg raw uid := by
        intro uid ts he
        unfold authenticatedAs at he
        split at he
        · cases he
        · rename_i raw'
          split at he
          · split at he <;> cases he
          · cases he
          · rename_i uid' ts' typ hg
            have hu : uid' = uid := by
              split at he
              · split at he
                · cases he
                · split at he
                  · cases he
                  · cases he; rfl
              · split at he
                · cases he; rfl
                · split at he
                  · cases he
                  · split at he
                    · cases he
                    · cases he; rfl
            subst hu
            exact ⟨_, _, _, rfl, hg⟩
      split at hi
      · split at hi
        · cases hi; cases hd
        · cases hi
      · cases hi; cases hd
      · rename_i uid ts he
        have hs := said uid ts he
        split at hi
        · cases hi; cases hd
        · rename_i b hb
          split at hi
          · cases hi
          · rename_i u0 sid0 hj
            cases hi
            cases hd
            exact ⟨_, _, hs, hb, hj⟩

theorem authnIn_of {cfg : ProvCfg} {now : Int} {raw : Option Str} {r : UserReq} {a : AuthnIn}
    (h : authnIn cfg.sys.env cfg.acfg now raw r = .ok a) {u : Str} (hu : IdentOf a.ident u) : CookieOf cfg raw u := by
  cases hi : a.ident with
  | nobody => rw [hi] at hu; exact hu.elim
  | plain x =>
    rw [hi] at hu
    cases (show u = x from hu)
    exact Or.inl ((authnIn_shows h).2.2.1 _ hi)
  | decoded x sid =>
    rw [hi] at hu
    obtain ⟨v, b, h1, h2, h3⟩ := authnIn_decoded h hi
    refine Or.inr ⟨v, b, x, sid, h1, h2, h3, ?_⟩
    rcases hu with h | ⟨k, h, h'⟩
    · exact Or.inl h.symm
    · exact Or.inr ⟨k, h, h'.symm⟩

theorem unpack3_head {sid u c g : Str} (h : unpack3 sid = .ok (u, c, g)) : ownerOf sid = u := by
  unfold ownerOf
  rw [unpack3_list h]
  rfl

theorem cleanOps_in {s : Store} {l : List Str} {sop : SysOp} (h : sop ∈ cleanOps s l) : ∃ sid ∈ l, sop = .revokeClientSession sid := by
  induction l generalizing s with
  | nil => cases h
  | cons x l ih =>
    unfold cleanOps at h
    rcases List.mem_cons.1 h with h | h
    · exact ⟨x, by simp, h⟩
    · split at h
      · cases h
      · obtain ⟨y, hy, e⟩ := ih h
        exact ⟨y, by simp [hy], e⟩

/-- The user part of a session id, put in front of a client id, is the owner again. -/
theorem owner_of_part {sid u c g : Str} (h : unpack3 sid = .ok (u, c, g)) (x : Str) : ownerOf (sessionKey [u, x]) = u := by
  have hp := (split_dd_spec ';' sid).2
  have he : pySplit [';', ';'] sid = [u, c, g] := unpack3_list h
  rw [he] at hp
  have hu : UserName u := ⟨hp.1 u (by simp), hp.2 u (by simp)⟩
  simpa [sessionKey, pyJoin] using ownerOf_cons (x := x) hu

theorem logoutOps_owner {env : LogoutEnv} {cdb : Cdb} {s : Store} {sid : Str} {alla : Bool} {sop : SysOp}
    (h : sop ∈ logoutOps env cdb s sid alla) : ∃ x, sop = .revokeClientSession x ∧ ownerOf x = ownerOf sid := by
  unfold logoutOps at h
  split at h
  · cases h
  · rename_i u c g hun
    split at h
    · split at h
      · cases h
      · split at h
        · cases h
        · split at h
          · cases h
          · split at h
            · cases h
            · obtain ⟨x, hx, e⟩ := cleanOps_in h
              obtain ⟨p, _, rfl⟩ := List.mem_map.1 hx
              exact ⟨_, e, by rw [unpack3_head hun, owner_of_part hun]⟩
    · split at h
      · cases h
      · split at h
        · cases h
        · split at h
          · cases h
          · obtain ⟨x, hx, e⟩ := cleanOps_in h
            simp only [List.mem_singleton] at hx
            subst hx
            exact ⟨_, e, rfl⟩

theorem foldl_frame (cfg : SysCfg) (k : Str) (sops : List SysOp)
    (h : ∀ sop ∈ sops, ∀ st : Sys, (sysStep cfg st sop).store k = st.store k) (st : Sys) :
    (sops.foldl (sysStep cfg) st).store k = st.store k := by
  induction sops generalizing st with
  | nil => rfl
  | cons x l ih =>
    rw [List.foldl_cons, ih (fun o ho => h o (by simp [ho])), h x (by simp)]

/-- Other users' browsers leave the stored records of `u` as they are. -/
theorem others_store {cfg : ProvCfg} (L : TokenCryptoLaws cfg.sys.env.cr) {st : Prov} {now : Int} {gid : Str} {mc ma : MintIn} {idt : Out Str}
    {raw : Option Str} {req : UserReq} {u : Str} (h : ¬ CookieOf cfg raw u)
    (hn : ∀ v, (ShowsLogin cfg raw v ∨ ∃ s, ShowsSession cfg raw v s) → UserName v)
    {k : Str} (hk : ownerOf k = u) : (provStep cfg st (.authorize now gid mc ma idt raw req)).sys.store k = st.sys.store k := by
  rw [provStep_sys]
  refine foldl_frame cfg.sys k _ (fun sop hsop st' => ?_) st.sys
  have simple : NamesOk sop → (∀ op' n, sop = .crash op' n → cfg.sys.mode = .byValue) → ¬ About cfg.sys.env sop u → ¬ Spill sop u →
      (sysStep cfg.sys st' sop).store k = st'.store k := fun h1 h2 h3 h4 =>
    frameStep cfg.sys L sop h1 h2 st' k (by rw [hk]; exact fun h => h.elim h3 h4)
  rcases sysOps_authorize hsop with ⟨now', gid', mc', ma', idt', raw', req', q, a, e, hp, hc, ha, rfl, _⟩ | hno
  · cases e
    refine simple ?_ (fun _ _ h => nomatch h) (fun h' => h (authnIn_of ha h')) (fun h => h)
    obtain ⟨-, -, hl, hs⟩ := authnIn_shows ha
    rintro v (hv | ⟨s, hv⟩)
    · exact hn v (Or.inl (hl v hv))
    · exact hn v (Or.inr ⟨s, hs v _ hv⟩)
  · simp only [sysOps] at hsop
    split at hsop
    · split at hsop
      · simp only [List.mem_singleton] at hsop
        subst hsop
        have := hno.1.1
        simp [newGid] at this
      · cases hsop
    · cases hsop

theorem Spec.GoodNames.prefix {cfg : ProvCfg} {l mid : List HttpOp} (h : GoodNames cfg (l ++ mid)) : GoodNames cfg l := by
  induction mid using snocInd with
  | nil => simpa using h
  | append_singleton m op ih => exact ih (by rw [← List.append_assoc] at h; exact h.snoc_left)

end Verif
