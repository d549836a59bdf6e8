import Verif.Spec.LogoutToken
import Verif.Props.Logout
import Verif.Props.Payload
import Verif.Props.AuthzSession
/-! C101–C104: logout tokens, session ids shown to clients, logout pages, and the way back. -/
set_option linter.unusedSimpArgs false
namespace Verif
open Spec

theorem xorStream_length (ks : Nat → UInt8) (i : Nat) (m : Bytes) : (xorStream ks i m).length = m.length := by
  induction m generalizing i with
  | nil => rfl
  | cons b m ih => simp [xorStream, ih]

theorem xor_cancel (a k : UInt8) : (a ^^^ k) ^^^ k = a := by
  rw [UInt8.xor_assoc, UInt8.xor_self, UInt8.xor_zero]

theorem xorStream_twice (ks : Nat → UInt8) (i : Nat) (m : Bytes) : xorStream ks i (xorStream ks i m) = m := by
  induction m generalizing i with
  | nil => rfl
  | cons b m ih => simp [xorStream, ih, xor_cancel]

/-- What was encrypted is decrypted, by the same endpoint object. -/
theorem decrypt_encrypt (c : SidCipher) (hc : CipherLaws c) (sid : Str) : decryptSid c (encryptSid c sid) = .ok sid := by
  unfold decryptSid encryptSid
  dsimp only
  rw [hc.b64]
  dsimp only
  have h : (xorStream c.stream 0 (c.utf8 sid) ++ c.tag (xorStream c.stream 0 (c.utf8 sid))).length - 16 =
      (xorStream c.stream 0 (c.utf8 sid)).length := by
    simp [hc.tag]
  rw [h, List.take_left, List.drop_left, if_pos rfl, xorStream_twice, hc.utf8]

/-- What a client is sent by back channel comes from its own record, and its own identifier is in it. -/
theorem logoutCall_back {env : LogoutEnv} {cl : Client} {sid uri t : Str} (h : logoutCall env cl sid = .ok (some (.back uri t))) :
    cl.backchannelLogoutUri = some uri ∧ env.logoutToken cl sid = .ok t := by
  unfold logoutCall at h
  cases hb : cl.backchannelLogoutUri with
  | some u =>
    rw [hb] at h
    dsimp only at h
    cases ht : env.logoutToken cl sid with
    | error e => rw [ht] at h; cases h
    | ok x => rw [ht] at h; cases h; exact ⟨rfl, rfl⟩
  | none =>
    rw [hb] at h
    dsimp only at h
    cases hf : cl.frontchannelLogoutUri with
    | some u => rw [hf] at h; cases h
    | none => rw [hf] at h; cases h

theorem logoutCalls_mem {env : LogoutEnv} {cdb : Cdb} {u : Str} {cs : List Str} {calls : Dict LogoutCall}
    (h : logoutCalls env cdb u cs = .ok calls) {c : Str} {x : LogoutCall} (hm : (c, x) ∈ calls) :
    ∃ cl, cdb c = some cl ∧ c ∈ cs ∧ logoutCall env cl (sessionKey [u, c]) = .ok (some x) := by
  induction cs generalizing calls with
  | nil => cases h; simp at hm
  | cons c0 cs ih =>
    unfold logoutCalls at h
    cases hc : cdb c0 with
    | none => rw [hc] at h; cases h
    | some cl =>
      rw [hc] at h
      dsimp only at h
      cases hl : logoutCall env cl (sessionKey [u, c0]) with
      | error e => rw [hl] at h; cases h
      | ok o =>
        rw [hl] at h
        dsimp only at h
        cases hr : logoutCalls env cdb u cs with
        | error e => rw [hr] at h; cases h
        | ok r =>
          rw [hr] at h
          cases h
          cases o with
          | none =>
            obtain ⟨a, b, d, e⟩ := ih hr hm
            exact ⟨a, b, by simp [d], e⟩
          | some y =>
            rcases List.mem_cons.1 hm with e | hm
            · cases e; exact ⟨cl, hc, by simp, hl⟩
            · obtain ⟨a, b, d, e⟩ := ih hr hm
              exact ⟨a, b, by simp [d], e⟩

theorem makeLogoutToken_ok {cfg : LogoutCfg} {now : Int} {jti : Str → Str} {cl : Client} {sid t : Str}
    {unpack : Str → Option (Str × Dict Val)} (hr : ClaimsReadable cfg.pack unpack)
    (h : makeLogoutToken cfg now jti cl sid = .ok t) :
    ∃ client alg, cfg.ownId cl = some client ∧ unpack t = some (alg, logoutClaims cfg now (jti sid) client sid) ∧
      SignsFor (cl.algs.get? c!"id_token_signed_response_alg") cfg.idTokenAlgs alg := by
  unfold makeLogoutToken at h
  split at h
  · cases h
  · rename_i alg ha
    split at h
    · cases h
    · rename_i client hc
      refine ⟨client, alg, hc, hr _ _ _ h, ?_⟩
      unfold logoutAlg at ha
      cases hg : cl.algs.get? c!"id_token_signed_response_alg" with
      | some a => rw [hg] at ha; cases ha; exact .registered _ rfl
      | none =>
        rw [hg] at ha
        dsimp only at ha
        split at ha
        · rename_i a rest he; cases ha; rw [he]; exact .published _ rest rfl rfl
        · cases ha

theorem logoutClaims_spec (cfg : LogoutCfg) (now : Int) (jti client sid : Str) :
    IsLogoutToken (logoutClaims cfg now jti client sid) cfg.issuer client now jti ∧
    (logoutClaims cfg now jti client sid).get? c!"sid" = some (.str (encryptSid cfg.cipher sid)) ∧
    (logoutClaims cfg now jti client sid).get? c!"sub" = none := by
  refine ⟨⟨rfl, rfl, rfl, rfl, rfl, rfl, rfl⟩, rfl, rfl⟩

/-! ### C101 -/

/-- C101, logout everywhere: each client that is told by back channel gets, at its registered URI, a logout token signed by
the provider, addressed to that client alone, with its own identifier and valid for a day, whose session id (for the
provider, who can decrypt it) names the user who logs out and that client. -/
theorem C101_logout_tokens_partial (cfg : LogoutCfg) (hc : CipherLaws cfg.cipher) (unpack : Str → Option (Str × Dict Val))
    (hr : ClaimsReadable cfg.pack unpack) (now : Int) (jti : Str → Str) (env : LogoutEnv)
    (henv : env.logoutToken = makeLogoutToken cfg now jti) (cdb : Cdb) (s s' : Store) (sid : Str) (calls : Dict LogoutCall)
    (h : logoutAllClients env cdb s sid = (s', .ok calls)) (c uri t : Str) (hm : (c, LogoutCall.back uri t) ∈ calls) :
    ∃ cl client alg claims u c0 g e, cdb c = some cl ∧ cl.backchannelLogoutUri = some uri ∧ cfg.ownId cl = some client ∧
      unpack t = some (alg, claims) ∧ SignsFor (cl.algs.get? c!"id_token_signed_response_alg") cfg.idTokenAlgs alg ∧
      unpackSessionKey sid = [u, c0, g] ∧
      IsLogoutToken claims cfg.issuer client now (jti (sessionKey [u, c])) ∧
      claims.get? c!"sid" = some (.str e) ∧ decryptSid cfg.cipher e = .ok (sessionKey [u, c]) := by
  unfold logoutAllClients at h
  cases hu : unpack3 sid with
  | error e => rw [hu] at h; cases h
  | ok p =>
    obtain ⟨u, c0, g⟩ := p
    rw [hu] at h
    dsimp only at h
    split at h
    · cases h
    · split at h
      · cases h
      · split at h
        · cases h
        · split at h
          · cases h
          · rename_i clients hcl calls' hcalls
            split at h
            · cases h
            · cases h
              obtain ⟨cl, k1, _, k2⟩ := logoutCalls_mem hcalls hm
              obtain ⟨k3, k4⟩ := logoutCall_back k2
              rw [henv] at k4
              obtain ⟨client, alg, k5, k6, ka⟩ := makeLogoutToken_ok hr k4
              obtain ⟨k7, k8, _⟩ := logoutClaims_spec cfg now (jti (sessionKey [u, c])) client (sessionKey [u, c])
              exact ⟨cl, client, alg, _, u, c0, g, _, k1, k3, k5, k6, ka, unpack3_inv hu, k7, k8, decrypt_encrypt _ hc _⟩

/-- C101, logout from one client: as above, except that the session id in the token is the full one.
What is missing from the property: `C101_no_subject` and `C101_two_session_ids`. -/
theorem C101_single_logout_token_partial (cfg : LogoutCfg) (hc : CipherLaws cfg.cipher) (unpack : Str → Option (Str × Dict Val))
    (hr : ClaimsReadable cfg.pack unpack) (now : Int) (jti : Str → Str) (env : LogoutEnv)
    (henv : env.logoutToken = makeLogoutToken cfg now jti) (cdb : Cdb) (s s' : Store) (sid : Str) (calls : Dict LogoutCall)
    (h : logoutFromClient env cdb s sid = (s', .ok calls)) (c uri t : Str) (hm : (c, LogoutCall.back uri t) ∈ calls) :
    ∃ cl client alg claims u g e, cdb c = some cl ∧ cl.backchannelLogoutUri = some uri ∧ cfg.ownId cl = some client ∧
      unpack t = some (alg, claims) ∧ SignsFor (cl.algs.get? c!"id_token_signed_response_alg") cfg.idTokenAlgs alg ∧
      unpackSessionKey sid = [u, c, g] ∧ IsLogoutToken claims cfg.issuer client now (jti sid) ∧
      claims.get? c!"sid" = some (.str e) ∧ decryptSid cfg.cipher e = .ok sid := by
  unfold logoutFromClient at h
  cases hu : unpack3 sid with
  | error e => rw [hu] at h; cases h
  | ok p =>
    obtain ⟨u, c0, g⟩ := p
    rw [hu] at h
    dsimp only at h
    split at h
    · cases h
    · split at h
      · cases h
      · rename_i cl hcl
        split at h
        · cases h
        · rename_i o ho
          split at h
          · cases h
          · cases h
            cases o with
            | none => simp [addCall] at hm
            | some x =>
              simp only [addCall, List.mem_cons, List.not_mem_nil, or_false, Prod.mk.injEq] at hm
              obtain ⟨rfl, rfl⟩ := hm
              obtain ⟨k3, k4⟩ := logoutCall_back ho
              rw [henv] at k4
              obtain ⟨client, alg, k5, k6, ka⟩ := makeLogoutToken_ok hr k4
              obtain ⟨k7, k8, _⟩ := logoutClaims_spec cfg now (jti sid) client sid
              exact ⟨cl, client, alg, _, u, g, _, hcl, k3, k5, k6, ka, unpack3_inv hu, k7, k8, decrypt_encrypt _ hc _⟩

/-- C101 is false: no logout token says which user logged out, although the code says that it always does. -/
theorem C101_no_subject (cfg : LogoutCfg) (unpack : Str → Option (Str × Dict Val)) (hr : ClaimsReadable cfg.pack unpack) (now : Int)
    (jti : Str → Str) (cl : Client) (sid t : Str) (h : makeLogoutToken cfg now jti cl sid = .ok t) :
    ∃ alg claims, unpack t = some (alg, claims) ∧ claims.get? c!"sub" = none := by
  obtain ⟨client, alg, _, k, _⟩ := makeLogoutToken_ok hr h
  exact ⟨alg, _, k, (logoutClaims_spec cfg now (jti sid) client sid).2.2⟩

/-- C101 is false, second: for the same session the token has another session id when the user logs out everywhere than
when he logs out from that client. -/
theorem C101_two_session_ids (c : SidCipher) (hc : CipherLaws c) (u client g : Str) :
    encryptSid c (sessionKey [u, client]) ≠ encryptSid c (sessionKey [u, client, g]) := by
  intro h
  have e1 := decrypt_encrypt c hc (sessionKey [u, client])
  rw [h, decrypt_encrypt c hc] at e1
  have := congrArg List.length (Except.ok.inj e1)
  simp [sessionKey, pyJoin, divider] at this

/-! ### C102 -/

/-- C102, the part that holds: the provider can read the session id in a logout token, and different sessions have different
ones.  What is missing: `C102_known_session_reveals_others`. -/
theorem C102_sid_readable_partial (c : SidCipher) (hc : CipherLaws c) (a b : Str) :
    decryptSid c (encryptSid c a) = .ok a ∧ (encryptSid c a = encryptSid c b → a = b) := by
  refine ⟨decrypt_encrypt c hc a, fun h => ?_⟩
  have := decrypt_encrypt c hc a
  rw [h, decrypt_encrypt c hc b] at this
  exact (Except.ok.inj this).symm

/-- C102, integrity: a session id is read only from a message whose tag is right for its cipher text. -/
theorem C102_altered_refused (c : SidCipher) (ctx tag : Bytes) (hl : tag.length = 16) (ht : tag ≠ c.tag ctx) (msg : Str)
    (hm : c.b64d msg = .ok (ctx ++ tag)) : decryptSid c msg = .error .verificationError := by
  unfold decryptSid
  rw [hm]
  dsimp only
  have h : (ctx ++ tag).length - 16 = ctx.length := by simp [hl]
  rw [h, List.take_left, List.drop_left, if_neg (fun e => ht e.symm)]

theorem xorBytes_stream (ks : Nat → UInt8) (i : Nat) (a b ra rb : Bytes) (h : b.length ≤ a.length) :
    (xorBytes (xorBytes a (xorStream ks i a ++ ra)) (xorStream ks i b ++ rb)).take b.length = b := by
  induction b generalizing i a with
  | nil => simp
  | cons y b ih =>
    cases a with
    | nil => simp at h
    | cons x a =>
      simp only [xorStream, List.cons_append, xorBytes, List.length_cons, List.take_succ_cons]
      have e : x ^^^ (x ^^^ ks i) ^^^ (y ^^^ ks i) = y := by
        rw [← UInt8.xor_assoc x x, UInt8.xor_self, UInt8.zero_xor, UInt8.xor_comm y, ← UInt8.xor_assoc, UInt8.xor_self,
          UInt8.zero_xor]
      rw [e, ih _ _ (by simpa using h)]

/-- C102 is false: one initial vector is used for all tokens, so that whoever knows one session id (it is readable in the
user's own session cookie) and the two logout tokens computes every other session id that is not longer, without a key. -/
theorem C102_known_session_reveals_others (c : SidCipher) (hc : CipherLaws c) (known other : Str)
    (hlen : (c.utf8 other).length ≤ (c.utf8 known).length) :
    recoverSid c.utf8 c.b64d known (encryptSid c known) (encryptSid c other) = c.utf8 other := by
  unfold recoverSid encryptSid
  dsimp only
  rw [hc.b64, hc.b64]
  dsimp only
  have e : (xorStream c.stream 0 (c.utf8 other) ++ c.tag (xorStream c.stream 0 (c.utf8 other))).length - 16 =
      (c.utf8 other).length := by
    simp [hc.tag, xorStream_length]
  rw [e]
  exact xorBytes_stream _ _ _ _ _ _ hlen

/-! ### C103 -/

/-- C103 is false of front-channel logout: a client that asked for the session is sent the local name of the user, in
clear, in the address of its frame. -/
theorem C103_frame_reveals_user (env : LogoutEnv) (cdb : Cdb) (s s' : Store) (sid : Str) (calls : Dict LogoutCall)
    (h : logoutAllClients env cdb s sid = (s', .ok calls)) (c : Str) (cl : Client) (hcl : cdb c = some cl)
    (hreq : cl.frontchannelLogoutSessionRequired = true) (f : Str) (hm : (c, LogoutCall.front f) ∈ calls) :
    ∃ u c0 g base q, unpackSessionKey sid = [u, c0, g] ∧ f = c!"<iframe src=\"" ++ base ++ '?' :: env.urlencode q ++ c!"\">" ∧
      q.get? c!"sid" = some [sessionKey [u, c]] ∧ (GoodId u → GoodId c → (unpackSessionKey (sessionKey [u, c])).head? = some u) := by
  unfold logoutAllClients at h
  cases hu : unpack3 sid with
  | error e => rw [hu] at h; cases h
  | ok p =>
    obtain ⟨u, c0, g⟩ := p
    rw [hu] at h
    dsimp only at h
    split at h
    · cases h
    · split at h
      · cases h
      · split at h
        · cases h
        · split at h
          · cases h
          · rename_i clients _ calls' hcalls
            split at h
            · cases h
            · cases h
              obtain ⟨cl', k1, _, k2⟩ := logoutCalls_mem hcalls hm
              rw [hcl] at k1
              cases k1
              unfold logoutCall at k2
              cases hb : cl.backchannelLogoutUri with
              | some x =>
                rw [hb] at k2
                dsimp only at k2
                cases ht : env.logoutToken cl (sessionKey [u, c]) with
                | error e => rw [ht] at k2; cases k2
                | ok y => rw [ht] at k2; cases k2
              | none =>
                rw [hb] at k2
                dsimp only at k2
                cases hf : cl.frontchannelLogoutUri with
                | none => rw [hf] at k2; cases k2
                | some uri =>
                  rw [hf] at k2
                  dsimp only at k2
                  rw [hreq] at k2
                  have k3 : logoutIframe env true uri (sessionKey [u, c]) = f := by
                    injection k2 with k2; injection k2 with k2; injection k2
                  obtain ⟨src, j1, _, j2⟩ := C71_iframe_address env true uri (sessionKey [u, c])
                  obtain ⟨base, q, j3, _, _, _, j4, _⟩ := j2 rfl
                  refine ⟨u, c0, g, base, q, unpack3_inv hu, ?_, j4, fun gu gc => by
                    rw [unpack_good (goodPath_two gu gc)]; rfl⟩
                  rw [← k3, j1, j3]
                  simp

/-- C103 is false of JWT access tokens: whoever gets one reads the local name of the user in it. -/
theorem C103_token_reveals_user (cfg : ClaimsCfg) (cdb : Cdb) (db : Str → Dict Val) (g : Grant) (h : Handler)
    (ht : h.typ ≠ []) (u c gid : Str) (hu : GoodId u) (hc : GoodId c) (hg : GoodId gid) (tt : Str) (scope : List Str) (p : Dict Val)
    (hp : jwtTokenContents cfg cdb db g h (sessionKey [u, c, gid]) tt scope = .ok p) :
    ∃ sid, p.get? c!"sid" = some (.str sid) ∧ (unpackSessionKey sid).head? = some u := by
  refine ⟨_, (C58_session_binding_partial cfg cdb db g h ht _ tt scope p hp).1, ?_⟩
  rw [unpack_good (goodPath_three hu hc hg)]
  rfl

/-! ### C104 -/

/-- A logout that is accepted goes where `endTarget` says. -/
theorem endSession_target {env : EndEnv} {cdb : Cdb} {s : Store} {raw : Option Str} {req : EndReq} {p : EndPayload}
    (h : endSessionEndpoint env cdb s raw req = .ok p) : ∃ sid c, endTarget env cdb req sid c = .ok p := by
  unfold endSessionEndpoint at h
  split at h
  · cases h
  · unfold endProcess at h
    split at h
    · cases h
    · split at h
      · cases h
      · split at h
        · cases h
        · split at h
          · cases h
          · exact ⟨_, _, h⟩

/-- C104, the part that holds: after logout the client's URI, if it has no query, is called with the state of the request.
What is missing: `C104_state_lost_with_query`. -/
theorem C104_state_comes_back_partial (env : EndEnv) (cdb : Cdb) (s : Store) (raw : Option Str) (req : EndReq) (p : EndPayload)
    (h : endSessionEndpoint env cdb s raw req = .ok p) (uri st : Str) (hu : req.postLogoutRedirectUri = some uri)
    (hs : req.state = some st) (hq : '?' ∉ uri) :
    WithParameter uri (env.lib.urlencode [(c!"state", [st])]) p.redirectUri ∧ p.state = some st := by
  obtain ⟨sid, c, hp⟩ := endSession_target h
  unfold endTarget at hp
  rw [hu] at hp
  dsimp only at hp
  split at hp
  · cases hp
  · rw [hs] at hp; cases hp; exact ⟨.first hq, rfl⟩

/-- C104 is false for every URI with a query, which a client may register: what is called is not that URI with one more
parameter, the state is glued to the value of the last one. -/
theorem C104_state_lost_with_query (env : EndEnv) (cdb : Cdb) (s : Store) (raw : Option Str) (req : EndReq) (p : EndPayload)
    (h : endSessionEndpoint env cdb s raw req = .ok p) (uri st : Str) (hu : req.postLogoutRedirectUri = some uri)
    (hs : req.state = some st) (hq : '?' ∈ uri) :
    ¬ WithParameter uri (env.lib.urlencode [(c!"state", [st])]) p.redirectUri ∧
      p.redirectUri = uri ++ '?' :: env.lib.urlencode [(c!"state", [st])] := by
  obtain ⟨sid, c, hp⟩ := endSession_target h
  unfold endTarget at hp
  rw [hu] at hp
  dsimp only at hp
  split at hp
  · cases hp
  · rw [hs] at hp
    cases hp
    refine ⟨fun hw => ?_, rfl⟩
    generalize hx : uri ++ '?' :: env.lib.urlencode [(c!"state", [st])] = x at hw
    cases hw with
    | first hn => exact hn hq
    | more _ =>
      have := List.append_cancel_left hx
      injection this with h1 _
      exact absurd h1 (by decide)

/-! ### C105 -/

/-- C105, the part that holds: the frame of a client that does not ask for the session shows its URI and nothing else, if
the URI has no quote.  What is missing: `C105_logout_page_injection`. -/
theorem C105_frame_exact_partial (env : LogoutEnv) (a b sid : Str) (ha : '"' ∉ a) (hb : '"' ∉ b)
    (h : logoutIframe env false a sid = logoutIframe env false b sid) : a = b := by
  unfold logoutIframe at h
  simp only [Bool.false_eq_true, if_false, List.append_assoc] at h
  have h := List.append_cancel_left h
  exact (noQuote_cancel ha hb (x := c!">") (y := c!">") h).1

/-- C105 is false: a client can put any text into the provider's logout page, by registering it as part of its
front-channel logout URI. -/
theorem C105_logout_page_injection (env : LogoutEnv) (a html sid : Str) :
    ∃ rest, logoutIframe env false (a ++ c!"\">" ++ html) sid = logoutIframe env false a sid ++ html ++ rest := by
  refine ⟨c!"\">", ?_⟩
  simp [logoutIframe]

/-! ### Concrete cases -/

def toyEncode : Str → Bytes
  | [] => []
  | c :: s => UInt8.ofNat (c.toNat % 256) :: UInt8.ofNat (c.toNat / 256 % 256) :: UInt8.ofNat (c.toNat / 65536) :: toyEncode s

def toyDecode : Bytes → Str
  | a :: b :: d :: m => Char.ofNat (a.toNat + 256 * b.toNat + 65536 * d.toNat) :: toyDecode m
  | _ => []

/-- A cipher with a key stream that changes from byte to byte. -/
def toyCipher : SidCipher where
  stream i := UInt8.ofNat (3 * i + 7)
  tag b := List.replicate 16 (UInt8.ofNat b.length)
  utf8 := toyEncode
  fromUtf8 b := .ok (toyDecode b)
  b64e b := b.map fun x => Char.ofNat x.toNat
  b64d s := .ok (s.map fun c => UInt8.ofNat c.toNat)

theorem toyDecode_encode (s : Str) : toyDecode (toyEncode s) = s := by
  induction s with
  | nil => rfl
  | cons c s ih =>
    simp only [toyEncode, toyDecode, ih]
    have hc : c.toNat < 1114112 := by
      have := c.valid
      rcases this with h | ⟨_, h⟩
      · exact Nat.lt_trans h (by decide)
      · exact h
    have e : (UInt8.ofNat (c.toNat % 256)).toNat + 256 * (UInt8.ofNat (c.toNat / 256 % 256)).toNat +
        65536 * (UInt8.ofNat (c.toNat / 65536)).toNat = c.toNat := by
      simp only [UInt8.toNat_ofNat']
      omega
    rw [e, Char.ofNat_toNat]

theorem toyCipher_laws : CipherLaws toyCipher := by
  refine ⟨fun s => ?_, fun b => ?_, fun b => by simp [toyCipher]⟩
  · show Except.ok (toyDecode (toyEncode s)) = _
    rw [toyDecode_encode]
  · show Except.ok ((b.map fun x => Char.ofNat x.toNat).map fun c => UInt8.ofNat c.toNat) = _
    rw [List.map_map]
    have : ∀ x ∈ b, ((fun c : Char => UInt8.ofNat c.toNat) ∘ fun x : UInt8 => Char.ofNat x.toNat) x = x := by
      intro x _
      have hx := x.toNat_lt
      show UInt8.ofNat (Char.ofNat x.toNat).toNat = x
      have e : (Char.ofNat x.toNat).toNat = x.toNat := by
        unfold Char.ofNat
        rw [dif_pos (Or.inl (by omega))]
        rfl
      rw [e, UInt8.ofNat_toNat]
    rw [List.map_congr_left this, List.map_id']

/-- The provider signs one token: for client `c1`, about the user's session with it. -/
def oneLogoutClaims : Dict Val :=
  logoutClaims ⟨c!"https://op", toyCipher, [c!"RS256"], fun _ => none, fun _ _ => .error .keyError⟩ 7 c!"J" c!"c1" c!"diana;;c1"

def toyLogoutCfg : LogoutCfg where
  issuer := c!"https://op"
  cipher := toyCipher
  idTokenAlgs := [c!"RS256"]
  ownId c := c.algs.get? c!"client_id"
  pack alg claims := if alg = c!"RS256" ∧ claims = oneLogoutClaims then .ok c!"LT" else .error .valueError

def toyUnpack (t : Str) : Option (Str × Dict Val) := if t = c!"LT" then some (c!"RS256", oneLogoutClaims) else none

def tokenEnv : LogoutEnv :=
  { outEnv with logoutToken := makeLogoutToken toyLogoutCfg 7 (fun _ => c!"J") }

def tokenCdb : Cdb := fun c =>
  if c = c!"c1" then some { backchannelLogoutUri := some c!"https://rp/bc", algs := [(c!"client_id", c!"c1")] }
  else if c = c!"c2" then some { frontchannelLogoutUri := some c!"https://rp2/fc", frontchannelLogoutSessionRequired := true }
  else none

theorem toyReadable : ClaimsReadable toyLogoutCfg.pack toyUnpack := by
  intro alg claims t h
  simp only [toyLogoutCfg] at h
  split at h
  · rename_i e; cases h; rw [e.1, e.2]; rfl
  · cases h

set_option maxRecDepth 16000 in
/-- The hypotheses of C101 and of C103 are met: the user has sessions with two clients; one gets a logout token, the other a
frame with the session id in it. -/
example : CipherLaws toyLogoutCfg.cipher ∧ ClaimsReadable toyLogoutCfg.pack toyUnpack ∧
    ((logoutAllClients tokenEnv tokenCdb (mgrRun .aliased sfSample Store.empty outOps) c!"diana;;c1;;g1").2.toOption =
      some [(c!"c1", .back c!"https://rp/bc" c!"LT"), (c!"c2", .front c!"<iframe src=\"https://rp2/fc?q\">")]) := by
  refine ⟨toyCipher_laws, toyReadable, by decide⟩

set_option maxRecDepth 16000 in
/-- C102 in a case: `c2` knows its own user's session id and reads the one of another user. -/
example : recoverSid toyEncode (fun s => toyCipher.b64d s) c!"mallory;;c2;;g2" (encryptSid toyCipher c!"mallory;;c2;;g2")
    (encryptSid toyCipher c!"diana;;c1;;g1") = toyEncode c!"diana;;c1;;g1" := by
  decide

set_option maxRecDepth 16000 in
/-- C104 in a case: the client registered a URI with a query, and gets a request whose `a` is `1?state=s`. -/
example : endSessionEndpoint endEnv (fun c => if c = c!"c1" then some { postLogoutRedirectUris := [(c!"https://rp/out", [(c!"a", [c!"1"])])] } else none)
      loginStore (some endCookie) { hint := some c!"H", postLogoutRedirectUri := some c!"https://rp/out?a=1", state := some c!"s" } =
      .ok ⟨c!"diana;;c1;;g1", some c!"s", c!"https://rp/out?a=1?state=s"⟩ := by
  decide

end Verif
