import Verif.Lemmas.ClaimsOrigin
import Verif.Props.GivenRefresh
import Verif.Props.ClaimsGranted
set_option linter.unusedSimpArgs false
set_option linter.unusedVariables false
/-! C152: what a client is told at the userinfo endpoint was settled by an authorization request. -/
namespace Verif
open Spec

theorem sysOps_quiet {cfg : ProvCfg} {st : Prov} {op : HttpOp} {sop : SysOp} (h : sop ∈ sysOps cfg st op) :
    Quiet sop ∨ ∃ cdb now gid mc ma idt a req, sop = .authorize cdb now gid mc ma idt a req := by
  cases op with
  | register => cases h
  | push => cases h
  | userinfo => cases h
  | introspect => cases h
  | tokenProcess i req =>
    simp only [sysOps, List.mem_singleton] at h
    subst h
    exact Or.inl (.process _ _)
  | tokenParse now r req =>
    simp only [sysOps] at h
    split at h
    · simp only [List.mem_singleton] at h
      subst h
      exact Or.inl (.parse _ _)
    · cases h
  | logout post sid alla =>
    obtain ⟨sid', rfl⟩ := logoutOps_mem h
    exact Or.inl (.logout _)
  | restart =>
    simp only [sysOps, List.mem_singleton] at h
    subst h
    exact Or.inl .restart
  | authorize now gid mc ma idt raw req =>
    simp only [sysOps] at h
    split at h
    · split at h
      · simp only [List.mem_singleton] at h
        exact Or.inr ⟨_, _, _, _, _, _, _, _, h⟩
      · cases h
    · cases h

theorem mem_expand {cfg : ProvCfg} {ops : List HttpOp} {sop : SysOp} (h : sop ∈ expand cfg ops) :
    ∃ (k : Nat) (op : HttpOp), ops[k]? = some op ∧ sop ∈ sysOps cfg (provRun cfg (ops.take k)) op := by
  obtain ⟨j, hj, hh⟩ := List.getElem_of_mem h
  obtain ⟨k, op, pre, post, k1, k2, k3⟩ := expand_at (show (expand cfg ops)[j]? = some sop by rw [List.getElem?_eq_getElem hj, hh])
  exact ⟨k, op, k1, by rw [k2]; simp⟩

/-- A stored session has no scope and no claims yet, or it has those that the provider's policy gave it in a request at the
authorization endpoint: the one that it has on record. -/
theorem session_terms {cfg : ProvCfg} {ops : List HttpOp} (hw : WebRun cfg ops) {n : Nat} {sid : Str} {g : Grant}
    (h : (provRun cfg (ops.take n)).sys.store sid = some (.grant g)) :
    (g.scope = [] ∧ g.claims = []) ∨
    ∃ k now gid mc ma idt raw areq q, k < n ∧ ops[k]? = some (.authorize now gid mc ma idt raw areq) ∧
      Parsed cfg (provRun cfg (ops.take k)) areq.areq q ∧ TermsBy cfg.sys.env (provRun cfg (ops.take k)).cdb q g := by
  obtain ⟨hf, hn, _⟩ := expand_ok (hw.take n)
  rw [provRun_sys] at h
  rcases terms_origin hf hw.blank hn (fun op hop => by
    obtain ⟨k, o, _, h2⟩ := mem_expand hop
    exact sysOps_quiet h2) (expand cfg (ops.take n)).length (by rw [List.take_length]; exact h) with
    h0 | ⟨j, cdb, now, gid, mc, ma, idt, a, req, h1, h2, h3⟩
  · exact Or.inl h0
  · right
    obtain ⟨k, op, pre, post, k1, k2, k3⟩ := expand_at h2
    rcases sysOps_authorize (show SysOp.authorize cdb now gid mc ma idt a req ∈ sysOps cfg (provRun cfg ((ops.take n).take k)) op by rw [k2]; simp) with
      ⟨now', gid', mc', ma', idt', raw, areq, q, a', rfl, hp, hc, ha, hop, _⟩ | hno
    · cases hop
      have hk : k < (ops.take n).length := (List.getElem?_eq_some_iff.1 k1).1
      have hk' : k < n ∧ k < ops.length := by simp at hk; omega
      have ht : (ops.take n).take k = ops.take k := by rw [List.take_take]; congr 1; omega
      rw [ht] at hp hc h3
      rw [List.getElem?_take_of_lt hk'.1] at k1
      exact ⟨k, now, gid, mc, ma, idt, raw, areq, req, hk'.1, k1, hp, h3⟩
    · exact absurd hno.1.1 (by simp [newGid])

/-- C152: what a client is told about a user at the userinfo endpoint was settled by a request of that client at the
authorization endpoint: apart from `sub`, it is told the claims that this request's claims parameter and scope, the provider's
configuration and the client's record (as it was then) give it (`GrantedAs`), as far as the user has a value that the
request allows; and these claims are all there. -/
theorem C152_userinfo_as_authorized (cfg : ProvCfg) (himp : cfg.sys.env.gc.implicit = false) (ops : List HttpOp) (hw : WebRun cfg ops)
    (i : Nat) (now : Int) (r : AuthnReq) (j : List Str) (info : Dict Val) (client : Str)
    (h : userinfoEndpoint cfg (provRun cfg (ops.take i)) now r = (j, .val (info, client))) :
    ∃ (t sid u gid' : Str) (k : Nat) (now' : Int) (gid : Str) (mc ma : MintIn) (idt : Out Str) (raw : Option Str) (areq : UserReq)
      (q : AuthReq) (granted : Claims), Bears cfg.userinfoMethods r t ∧ cfg.sys.env.th.sid cfg.sys.env.cr now t = .ok sid ∧
      sid = sessionKey [u, client, gid'] ∧
      k < i ∧ ops[k]? = some (.authorize now' gid mc ma idt raw areq) ∧ Parsed cfg (provRun cfg (ops.take k)) areq.areq q ∧
      q.clientId = client ∧
      (DistinctNames q.claims ((cfg.sys.env.ccfg.modules.get? c!"userinfo").getD {}) → ∀ n,
        GrantedAs cfg.sys.env.ccfg ((cfg.sys.env.ccfg.modules.get? c!"userinfo").getD {}) (provRun cfg (ops.take k)).cdb client q.claims q.scope
          c!"userinfo" n (Dict.get? granted n)) ∧
      ((∀ p ∈ granted, WellFormed p.2) → (granted.map Prod.fst).Nodup → ∀ n x, n ≠ c!"sub" → (info.get? n = some x ↔
        ∃ spec, Dict.get? granted n = some spec ∧ HasValue ((cfg.userDb u).get? n) x ∧ Allows spec x)) := by
  unfold userinfoEndpoint at h
  cases hp : userinfoParse cfg (provRun cfg (ops.take i)) now r with
  | mk j' o =>
    rw [hp] at h
    cases o with
    | errMsg e => cases h
    | raise e => cases h
    | val t =>
      simp only [Prod.mk.injEq] at h
      obtain ⟨rfl, h⟩ := h
      have hbear : Bears cfg.userinfoMethods r t := by
        unfold userinfoParse at hp
        split at hp
        · simp only [Prod.mk.injEq] at hp
          have := hp.2
          split at this <;> cases this
        · cases hp
        · rename_i j2 i2 hca
          cases ht : i2.token with
          | none => rw [ht] at hp; cases hp
          | some t' =>
            rw [ht] at hp
            cases hp
            exact clientAuthentication_token hca ht
      obtain ⟨sid, u, gid', g, tk, e, h1, h2, _, _, _, _, _, h9⟩ := C34_userinfo_released_only_if _ _ _ _ _ _ _ h
      have hg := (getGrant_key (webNoEmpty hw i) h1.2.1).1
      have hsid : sid = sessionKey [u, client, gid'] := by rw [← h2, session_key_unpack]
      obtain ⟨k0, now0, gid0, mc0, ma0, idt0, raw0, areq0, q0, u0, a1, a2, a3, ac, a4, a5, a6⟩ := session_request hw hg
      have hcl : q0.clientId = client := by
        have := h2
        rw [a4] at this
        have hu0 : UserName u0 := hw.users _ _ _ _ _ _ _ (List.mem_of_getElem? a2) u0 (a5.imp_right fun ⟨s, hs⟩ => ⟨_, hs⟩)
        have hc0 : UserName q0.clientId := (hw.take k0).clients _ (provRun_named cfg (ops.take k0) _ ac)
        rw [unpack_names hu0 hc0 (hw.good gid0 (List.mem_flatMap.2 ⟨_, List.mem_of_getElem? a2, by simp [httpGid]⟩)).2] at this
        simp only [List.cons.injEq] at this
        exact this.2.1
      have hsc : ∃ ar, g.authReq = some ar ∧ g.scope = ar.scope ∧ ar.scope ≠ [] := by
        obtain ⟨hf, _, _⟩ := expand_ok (hw.take i)
        have hi := sysRun_inv cfg.sys (expand cfg (ops.take i)) hf hw.blank (expand cfg (ops.take i)).length
        rw [List.take_length, ← provRun_sys] at hi
        obtain ⟨ar, e1, e2⟩ := (hi.grants _ _ hg).2.scope (List.ne_nil_of_mem h1.2.2.1)
        exact ⟨ar, e1, e2 himp⟩
      obtain ⟨ar, s1, s2, s3⟩ := hsc
      rcases session_terms hw hg with ⟨e1, _⟩ | ⟨k, now', gid, mc, ma, idt, raw, areq, q, b1, b2, b3, b4, nw, g0, g1, b5, b6, b7, b8⟩
      · exact absurd (s2.symm.trans e1) s3
      · have hq : q.clientId = client := by rw [a6 q b4, hcl]
        rw [hq] at b6
        refine ⟨t, sid, u, gid', k, now', gid, mc, ma, idt, raw, areq, q, (g.claims.get? c!"userinfo").getD [], hbear, h1.1, hsid, b1, b2, b3, hq, ?_, ?_⟩
        · intro hd n
          obtain ⟨c, c1, c2⟩ := C139_granted_claims cfg.sys.env.gc himp cfg.sys.env.ccfg (provRun cfg (ops.take k)).cdb _ nw client g0 g1 q q b5
            (Prod.ext rfl b6) c!"userinfo" (by simp) hd
          rw [b8, c1]
          exact c2 n
        · intro hwf hnd n x hn
          rw [h9 hwf hnd n x hn]
          constructor
          · rintro ⟨spec, x1, x2⟩
            exact ⟨spec, Dict.mem_get? hnd x1, x2⟩
          · rintro ⟨spec, x1, x2⟩
            exact ⟨spec, Dict.get?_mem x1, x2⟩

end Verif
