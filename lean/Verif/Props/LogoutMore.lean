import Verif.Props.LogoutToken
/-! Logout requests that are served (C142) and how the others are refused (C47); the cipher stream (C102). -/
namespace Verif
open Spec
set_option linter.unusedSimpArgs false

/-- What the browser's session cookie says: it reads as a genuine cookie whose content names the session `sid` of user `u`,
client `c` and grant id `g`. -/
def NamesSession (env : EndEnv) (raw : Option Str) (sid u c g : Str) : Prop :=
  ∃ r v ts ty, raw = some r ∧ getCookieValue env.ccr env.dealer r = .ok (some (v, ts, ty)) ∧
    env.decodeSid v = .ok (some sid) ∧ unpackSessionKey sid = [u, c, g]

theorem namesSession_reads {env : EndEnv} {raw : Option Str} {sid u c g : Str} (h : NamesSession env raw sid u c g) {s : Store}
    {gr : Grant} (hg : dbGet s [u, c, g] = .ok (.grant gr)) : endSession env s raw = .ok (sid, c, .grant gr) := by
  obtain ⟨r, v, ts, ty, rfl, h1, h2, h3⟩ := h
  have hu : unpack3 sid = .ok (u, c, g) := by unfold unpack3; rw [h3]
  simp only [endSession, h1, h2, hu, hg]

/-- C142: a logout request with the cookie of a stored session of a registered client, and without a post-logout URI, is
served: the page that asks for confirmation is told that session, no state, and the provider's default address.  The hint,
if there is one, must be a genuine ID token for that client and subject. -/
theorem C142_plain_logout_served (env : EndEnv) (cdb : Cdb) (s : Store) (raw : Option Str) (sid u c g : Str)
    (hn : NamesSession env raw sid u c g) (gr : Grant) (hg : dbGet s [u, c, g] = .ok (.grant gr)) (cl : Client)
    (hc : cdb c = some cl) (req : EndReq) (hp : req.postLogoutRedirectUri = none)
    (hh : req.hint = none ∨ ∃ h t, req.hint = some h ∧ env.unpackHint h = some t ∧ t.alg ∈ env.supportedAlgs ∧ c ∈ t.aud ∧
      t.sub = gr.sub) :
    endSessionEndpoint env cdb s raw req = .ok ⟨sid, none, defaultPostLogout env⟩ := by
  have hs := namesSession_reads hn hg
  rcases hh with hh | ⟨h, t, h1, h2, h3, h4, h5⟩
  · simp [endSessionEndpoint, endParse, endProcess, hh, hp, hs, hintCheck, hc, endTarget]
  · simp [endSessionEndpoint, endParse, endProcess, h1, h2, h3, hp, hs, hintCheck, h4, h5, hc, endTarget]

/-- C142: with a genuine hint and a post-logout URI that is the one registered with that base, the request is served too:
the user will be sent to that URI, with the state if there is one. -/
theorem C142_logout_to_registered_uri_served (env : EndEnv) (hlib : ∀ u, DistinctKeys (env.lib.splitUri u).2) (cdb : Cdb)
    (hreg : ∀ c cl, cdb c = some cl → ∀ p ∈ cl.postLogoutRedirectUris, DistinctKeys p.2) (s : Store)
    (raw : Option Str) (sid u c g : Str) (hn : NamesSession env raw sid u c g) (hcid : c ≠ []) (gr : Grant)
    (hg : dbGet s [u, c, g] = .ok (.grant gr)) (cl : Client) (hc : cdb c = some cl)
    (hb : (cl.postLogoutRedirectUris.map Prod.fst).Nodup)
    (req : EndReq) (hr : req.clientId = none ∨ req.clientId = some c) (uri : Str)
    (hp : req.postLogoutRedirectUri = some uri) (hu : PostLogoutRegistered env.lib cl uri)
    (h : Str) (t : Hint) (h1 : req.hint = some h) (h2 : env.unpackHint h = some t) (h3 : t.alg ∈ env.supportedAlgs)
    (h4 : c ∈ t.aud) (h5 : t.sub = gr.sub) :
    (req.state = none → endSessionEndpoint env cdb s raw req = .ok ⟨sid, none, uri⟩) ∧
    (∀ st, req.state = some st → endSessionEndpoint env cdb s raw req =
      .ok ⟨sid, some st, uri ++ '?' :: env.lib.urlencode [(c!"state", [st])]⟩) := by
  have hs := namesSession_reads hn hg
  have hv : verifyUri env.lib cdb .postLogout req.clientId (some c) (some uri) = .ok () := by
    refine (C22_accepted_iff env.lib hlib cdb .postLogout _ _ uri hreg).2 ?_
    obtain ⟨hf, rq, hm, hq⟩ := hu
    obtain ⟨pre, post, he⟩ := List.append_of_mem hm
    refine ⟨c, cl, ?_, hcid, hc, hf, pre, rq, post, he, ?_, hq⟩
    · rcases hr with hr | hr <;> rw [hr] <;> rfl
    · intro p hp e
      rw [he, List.map_append, List.map_cons] at hb
      have := (List.nodup_append.1 hb).2.2 p.1 (List.mem_map_of_mem hp)
      exact this _ (by simp) e
  constructor
  · intro hst
    simp [endSessionEndpoint, endParse, endProcess, h1, h2, h3, hp, hs, hintCheck, h4, h5, hc, endTarget, hv, hst]
  · intro st hst
    simp [endSessionEndpoint, endParse, endProcess, h1, h2, h3, hp, hs, hintCheck, h4, h5, hc, endTarget, hv, hst]

set_option maxRecDepth 8000 in
/-- The concrete requests of the C47 example. -/
example : NamesSession endEnv (some endCookie) c!"diana;;c1;;g1" c!"diana" c!"c1" c!"g1" ∧
    endSessionEndpoint endEnv endCdb loginStore (some endCookie) {} = .ok ⟨c!"diana;;c1;;g1", none, c!"https://op/out"⟩ :=
  ⟨⟨endCookie, c!"diana;;c1;;g1", c!"5", c!"session", rfl, by decide, by decide, by decide⟩, by decide⟩

/-- C47: how a request without a usable session is refused, whatever else it says: a missing or unreadable cookie, a cookie
that names no session or a session that does not exist, are a `ValueError`; a cookie cut in the wrong number of parts is
an invalid request. -/
theorem C47_refusals (env : EndEnv) (cdb : Cdb) (s : Store) (raw : Option Str) (req : EndReq)
    (hp : req.postLogoutRedirectUri = none) (hh : req.hint = none) :
    (raw = none → endSessionEndpoint env cdb s raw req = .error .valueError) ∧
    (∀ r, raw = some r → getCookieValue env.ccr env.dealer r = .ok none →
      endSessionEndpoint env cdb s raw req = .error .valueError) ∧
    (∀ r e, raw = some r → getCookieValue env.ccr env.dealer r = .error e →
      endSessionEndpoint env cdb s raw req = .error (if e = .indexError then .invalidRequest
        else if e.isKeyError = true ∨ e = .attributeError then .valueError else e)) ∧
    (∀ r v ts ty, raw = some r → getCookieValue env.ccr env.dealer r = .ok (some (v, ts, ty)) →
      env.decodeSid v = .ok none → endSessionEndpoint env cdb s raw req = .error .valueError) ∧
    (∀ sid u c g e, NamesSession env raw sid u c g → dbGet s [u, c, g] = .error e →
      endSessionEndpoint env cdb s raw req = .error (if e.isKeyError then .valueError else e)) := by
  refine ⟨fun h => ?_, fun r h h1 => ?_, fun r e h h1 => ?_, fun r v ts ty h h1 h2 => ?_, fun sid u c g e h h1 => ?_⟩
  · simp [endSessionEndpoint, endParse, endProcess, hh, hp, h, endSession]
  · simp [endSessionEndpoint, endParse, endProcess, hh, hp, h, endSession, h1]
  · simp only [endSessionEndpoint, endParse, endProcess, hh, hp, h, endSession, h1, Option.isSome_none, Bool.false_eq_true,
      false_and, if_false]
    by_cases e1 : e = .indexError
    · simp [e1]
    · by_cases e2 : e.isKeyError = true <;> by_cases e3 : e = .attributeError <;> simp [e1, e2, e3]
  · simp [endSessionEndpoint, endParse, endProcess, hh, hp, h, endSession, h1, h2]
  · obtain ⟨r, v, ts, ty, rfl, k1, k2, k3⟩ := h
    have hu : unpack3 sid = .ok (u, c, g) := by unfold unpack3; rw [k3]
    simp only [endSessionEndpoint, endParse, endProcess, hh, hp, endSession, k1, k2, hu, h1, Option.isSome_none, Bool.false_eq_true,
      false_and, if_false]
    cases e.isKeyError <;> simp

/-- C102: position `i` of the cipher text is the plain byte mixed with position `i` of the key stream (so that no part of
the key stream is used twice within one token). -/
theorem C102_stream_positions (ks : Nat → UInt8) (j : Nat) (m : Bytes) (i : Nat) :
    (xorStream ks j m)[i]? = (m[i]?).map fun b => b ^^^ ks (j + i) := by
  induction m generalizing i j with
  | nil => simp [xorStream]
  | cons b m ih =>
    cases i with
    | zero => simp [xorStream]
    | succ i =>
      simp only [xorStream, List.getElem?_cons_succ]
      rw [ih]
      congr 1
      funext b
      rw [show j + 1 + i = j + (i + 1) by omega]

example : xorStream (fun i => UInt8.ofNat i) 0 [0, 0, 0] = [0, 1, 2] := by decide

end Verif
