import Verif.Props.GivenDemo
import Verif.Props.TokenRefresh
import Verif.Props.WebRefresh
set_option linter.unusedSimpArgs false
set_option linter.unusedVariables false
/-! C151: refreshing over HTTP, on whose terms and with what. -/
namespace Verif
open Spec

/-- The authorization request that a stored session has on record is one that was made, parsed, by the browser of the session's
user for the session's client; and the session is the one made for it. -/
theorem session_request {cfg : ProvCfg} {ops : List HttpOp} (hw : WebRun cfg ops) {n : Nat} {sid : Str} {g : Grant}
    (h : (provRun cfg (ops.take n)).sys.store sid = some (.grant g)) :
    ∃ k now gid mc ma idt raw areq q u, k < n ∧ ops[k]? = some (.authorize now gid mc ma idt raw areq) ∧
      Parsed cfg (provRun cfg (ops.take k)) areq.areq q ∧ ((provRun cfg (ops.take k)).cdb q.clientId).isSome = true ∧
      sid = sessionKey [u, q.clientId, gid] ∧ (ShowsLogin cfg raw u ∨ ∃ s, ShowsSession cfg raw u (some s)) ∧
      ∀ ar, g.authReq = some ar → ar = q := by
  obtain ⟨hf, _, _⟩ := expand_ok (hw.take n)
  rw [provRun_sys] at h
  obtain ⟨j, sop, g0, h1, h2, ⟨⟨u, c, gid', h3, h4⟩, _, _, _, h6, _⟩, h5⟩ := grant_origin hf hw.blank (expand cfg (ops.take n)).length
    (by rw [List.take_length]; exact h)
  obtain ⟨k, op, pre, post, k1, k2, k3⟩ := expand_at h2
  rcases sysOps_authorize (show sop ∈ sysOps cfg (provRun cfg ((ops.take n).take k)) op by rw [k2]; simp) with
    ⟨now, gid, mc, ma, idt, raw, req, q, a, rfl, hp, hc, ha, rfl, _⟩ | hno
  · obtain ⟨-, -, hl, hs⟩ := authnIn_shows ha
    have hk : k < (ops.take n).length := (List.getElem?_eq_some_iff.1 k1).1
    have hk' : k < n ∧ k < ops.length := by simp at hk; omega
    have ht : (ops.take n).take k = ops.take k := by rw [List.take_take]; congr 1; omega
    rw [ht] at hp hc
    rw [List.getElem?_take_of_lt hk'.1] at k1
    have hreq : ∀ ar, g.authReq = some ar → ar = q := by
      intro ar har
      rw [h5.authReq] at har
      simpa [newReqs] using h6 ar har
    generalize g0.authnEvent = ev at h4
    generalize g0.sub = sb at h4
    cases h4 with
    | login e1 e2 => exact ⟨k, now, _, mc, ma, idt, raw, req, q, u, hk'.1, k1, hp, hc, h3, Or.inl (hl _ e1), hreq⟩
    | returning e1 e2 e3 => exact ⟨k, now, _, mc, ma, idt, raw, req, q, u, hk'.1, k1, hp, hc, h3, Or.inr ⟨_, hs _ _ e1⟩, hreq⟩
  · exact absurd h4 (hno.1.2.2.2.2 _ _ _ _ _ _ _)

/-- C151: a refresh request is answered with tokens only for a refresh token that the provider made in an earlier request (and
told in its answer, if that was a success).  Its session was made by an earlier request at the authorization endpoint, by the
browser of the session's user for the session's client; the session and the token are neither revoked nor used up nor
expired; the scope is the one that authorization request asked for; and the new tokens are kept in that session, as made from
this refresh token. -/
theorem C151_refresh_terms_on_the_web (cfg : ProvCfg) (ops : List HttpOp) (hw : WebRun cfg ops) (i : Nat) (req : TokReq) (resp : TokResp)
    (h : tokensAt cfg ops i = some (req, resp)) (hgt : req.grantType = some c!"refresh_token") :
    ∃ inp v sid m, ops[i]? = some (.tokenProcess inp req) ∧ req.refreshToken = some v ∧ m < i ∧ MadeAt cfg ops m sid .refreshToken v ∧
      (∃ k now gid mc ma idt raw areq q u, k < i ∧ ops[k]? = some (.authorize now gid mc ma idt raw areq) ∧
        Parsed cfg (provRun cfg (ops.take k)) areq.areq q ∧ sid = sessionKey [u, q.clientId, gid] ∧
        (ShowsLogin cfg raw u ∨ ∃ s, ShowsSession cfg raw u (some s)) ∧ (cfg.sys.env.gc.implicit = false → resp.scope = q.scope)) ∧
      (∃ g t, (provRun cfg (ops.take i)).sys.store sid = some (.grant g) ∧ ActiveAt g.toItem g.maxUsage inp.now ∧
        t ∈ g.issuedToken ∧ t.value = v ∧ t.kind = .refreshToken ∧ ActiveAt t.toItem t.usageRules.maxUsage inp.now) ∧
      ∃ g', (provRun cfg (ops.take (i + 1))).sys.store sid = some (.grant g') ∧
        (∃ t ∈ g'.issuedToken, t.kind = .accessToken ∧ t.value = resp.accessToken ∧ t.basedOn = some v) ∧
        ∀ w, resp.refreshToken = some w → ∃ t ∈ g'.issuedToken, t.kind = .refreshToken ∧ t.value = w ∧ t.basedOn = some v := by
  obtain ⟨hf, _, _⟩ := expand_ok hw
  obtain ⟨a1, a2, a3⟩ := tokensAt_whole h
  obtain ⟨inp0, hop0, _, _⟩ := tokensAt_response h
  obtain ⟨inp, v, sid, g, t, g', hop, b1, b2, b3, b4, b5, b6, b7, b8, b9, b10, b11, tok, r', c1, c2, c3, c4, c5, c6⟩ :=
    refresh_response hw.blank hf a1 hgt
  rw [a2, ← provRun_sys] at b2 b3
  rw [a3, ← provRun_sys] at b11
  have hin : inp0 = inp := by
    obtain ⟨_, h1, h2, _⟩ := tokensAt_response h
    rw [hop0] at h1
    cases h1
    obtain ⟨rest, hr⟩ := expand_take cfg ops (i + 1)
    rw [hr, h2, List.append_assoc, List.getElem?_append_right (Nat.le_refl _)] at hop
    simp at hop
    exact hop
  subst hin
  obtain ⟨v1, v2⟩ := getToken_value b5
  obtain ⟨m, hm, hmade⟩ := C136_tokens_are_given_out cfg ops hw i sid _ v ⟨g, t, b3, v2, b6, v1⟩
  obtain ⟨k, now, gid, mc, ma, idt, raw, areq, q, u, d1, d2, d3, _, d4, d5, d6⟩ := session_request hw b3
  refine ⟨inp0, v, sid, m, hop0, b1, hm, hmade, ⟨k, now, gid, mc, ma, idt, raw, areq, q, u, d1, d2, d3, d4, d5, ?_⟩,
    ⟨g, t, b3, ?_, v2, v1, b6, ?_⟩, g', b11, ⟨tok, ?_, c3, c4.symm, c2⟩, ?_⟩
  · intro himp
    obtain ⟨ar, e1, e2⟩ := b4.scope (getToken_nonempty b5)
    rw [b10, (e2 himp).1, d6 ar e1]
  · exact (isActive_iff _ _ _).1 b8
  · exact (isActive_iff _ _ _).1 b7
  · rw [c1]; simp
  · intro w hw'
    have : w ∈ r'.map Token.value := by rw [c5, hw']; simp
    obtain ⟨x, hx, hxw⟩ := List.mem_map.1 this
    exact ⟨x, by rw [c1]; simp [hx], (c6 x hx).2, hxw, (c6 x hx).1⟩

end Verif
