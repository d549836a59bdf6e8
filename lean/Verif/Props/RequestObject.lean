import Verif.Model.RequestObject
import Verif.Spec.RequestObject
import Verif.Lemmas.Dict
import Verif.Props.Demo
/-! C100: request objects and the algorithms that protect them. -/
set_option linter.unusedSimpArgs false
namespace Verif
open Spec

theorem contains_ofStrs (l : List Str) (x : Str) : (Val.ofStrs l).contains (.str x) = some (decide (x ∈ l)) := by
  induction l with
  | nil => rfl
  | cons a l ih =>
    unfold Val.ofStrs Val.contains
    by_cases h : a = x
    · subst h; simp
    · have h' : ¬ x = a := fun e => h e.symm
      simp [h, h', ih]

theorem contains_ofStrs_null (l : List Str) : (Val.ofStrs l).contains .null = some false := by
  induction l with
  | nil => rfl
  | cons a l ih => unfold Val.ofStrs Val.contains; simp [ih]

/-- The algorithm check for signatures, in terms of the deciding entry. -/
theorem allowedAlg_sign {env : ReqObjEnv} {client : Str} {alg : Option Str} (h : allowedAlg env client alg c!"sign" = .ok ()) :
    ∃ cinfo v, env.registered client = some cinfo ∧ Decides cinfo env.provInfo v ∧ v.contains (optStr alg) = some true := by
  unfold allowedAlg at h
  cases hr : env.registered client with
  | none => rw [hr] at h; cases h
  | some cinfo =>
    rw [hr] at h
    have hp : algParams.get? c!"sign" = some (c!"request_object_signing_alg", c!"request_object_signing_alg_values_supported") := by
      decide
    rw [hp] at h
    dsimp only at h
    have nullc : ∀ x, Val.null.contains x = none := fun x => by cases x <;> rfl
    cases hg : cinfo.get? c!"request_object_signing_alg" with
    | none =>
      rw [hg] at h
      dsimp only at h
      cases hs : env.provInfo.get? c!"request_object_signing_alg_values_supported" with
      | none => rw [hs] at h; simp [nullc] at h
      | some v =>
        rw [hs] at h
        refine ⟨cinfo, v, rfl, .supported v (.inl hg) hs, ?_⟩
        simp only [Option.getD_some] at h
        cases hc : v.contains (optStr alg) with
        | none => rw [hc] at h; cases h
        | some b => cases b with
          | true => rfl
          | false => rw [hc] at h; cases h
    | some w =>
      rw [hg] at h
      by_cases hw : w = .null
      · subst hw
        dsimp only at h
        cases hs : env.provInfo.get? c!"request_object_signing_alg_values_supported" with
        | none => rw [hs] at h; simp [nullc] at h
        | some v =>
          rw [hs] at h
          refine ⟨cinfo, v, rfl, .supported v (.inr hg) hs, ?_⟩
          simp only [Option.getD_some] at h
          cases hc : v.contains (optStr alg) with
          | none => rw [hc] at h; cases h
          | some b => cases b with
            | true => rfl
            | false => rw [hc] at h; cases h
      · refine ⟨cinfo, w, rfl, .registered w hg hw, ?_⟩
        have h' : (match w.contains (optStr alg) with
            | none => .error .typeError
            | some true => .ok ()
            | some false => .error .valueError : Except Exn Unit) = .ok () := by
          cases w <;> first | exact absurd rfl hw | exact h
        cases hc : w.contains (optStr alg) with
        | none => rw [hc] at h'; cases h'
        | some b => cases b with
          | true => rfl
          | false => rw [hc] at h'; cases h'

/-- No standard signature algorithm is part of the name of another. -/
theorem jws_no_infix : ∀ a ∈ jwsAlgorithms, ∀ b ∈ jwsAlgorithms, isInfix a b = true → a = b := by decide

/-! ### C100 -/

/-- C100, the part that holds: a request object that is accepted was fetched successfully, verified with the client's
keys, is signed and not encrypted, and its algorithm is permitted by the entry that decides (the client's registration,
otherwise the provider's list); its parameters replace those of the request, the others stay.
What is missing: `C100_encrypted_refused`, `C100_no_lists_no_objects` and `C100_by_value_unchecked`. -/
theorem C100_only_allowed_algorithms_partial (env : ReqObjEnv) (client uri : Str) (req r : Dict Val)
    (hkeys : ∀ text jwt, env.fromJwt client text = .ok jwt → (jwt.args.map (·.1)).Nodup)
    (h : fetchObject env client uri req = .ok r)
    (hnoenc : ∀ text jwt hd, env.fromJwt client text = .ok jwt → jwt.jws = some hd → hd.get? c!"enc" = none)
    (hentries : ∀ cinfo, env.registered client = some cinfo → ∀ v,
      cinfo.get? c!"request_object_encryption_enc" = some v ∨
      env.provInfo.get? c!"request_object_encryption_enc_values_supported" = some v → v = .null ∨ AlgEntry v) :
    ∃ text jwt hdr cinfo entry, env.get uri = .ok (200, text) ∧ env.fromJwt client text = .ok jwt ∧
      jwt.jws = some hdr ∧ jwt.jwe = none ∧ env.registered client = some cinfo ∧ Decides cinfo env.provInfo entry ∧
      (AlgEntry entry → (∀ a, entry = .str a → a ∈ jwsAlgorithms) → (hdr.get? c!"alg").getD c!"RS256" ∈ jwsAlgorithms →
        Permits entry ((hdr.get? c!"alg").getD c!"RS256")) ∧
      ∀ k, r.get? k = (jwt.args.get? k).or (req.get? k) := by
  unfold fetchObject at h
  cases hg : env.get uri with
  | error e => rw [hg] at h; cases h
  | ok st =>
    obtain ⟨status, text⟩ := st
    rw [hg] at h
    dsimp only at h
    by_cases hs : status ≠ 200
    · rw [if_pos hs] at h; cases h
    · rw [if_neg hs] at h
      have hs' : status = 200 := Classical.not_not.1 hs
      subst hs'
      cases hj : env.fromJwt client text with
      | error e => rw [hj] at h; cases h
      | ok jwt =>
        rw [hj] at h
        dsimp only at h
        cases hh : jwt.jws with
        | none => rw [hh] at h; cases h
        | some hdr =>
          rw [hh] at h
          dsimp only at h
          cases ha : allowedAlg env client (some ((hdr.get? c!"alg").getD c!"RS256")) c!"sign" with
          | error e => rw [ha] at h; cases h
          | ok _ =>
            rw [ha] at h
            dsimp only at h
            obtain ⟨cinfo, entry, h1, h2, h3⟩ := allowedAlg_sign ha
            have hjwe : jwt.jwe = none := by
              cases he : jwt.jwe with
              | none => rfl
              | some x =>
                exfalso
                rw [he] at h
                dsimp only at h
                rw [hnoenc text jwt hdr hj hh] at h
                have : ∀ u, allowedAlg env client none c!"enc_enc" ≠ .ok u := by
                  intro u hu
                  unfold allowedAlg at hu
                  rw [h1] at hu
                  have hp : algParams.get? c!"enc_enc" =
                    some (c!"request_object_encryption_enc", c!"request_object_encryption_enc_values_supported") := by decide
                  rw [hp] at hu
                  dsimp only at hu
                  have key : ∀ v : Val, v = .null ∨ AlgEntry v → v.contains (optStr none) ≠ some true := by
                    rintro v (rfl | hv) hc
                    · cases hc
                    · cases hv with
                      | single a => cases hc
                      | oneOf l => rw [optStr, contains_ofStrs_null] at hc; cases hc
                  have key2 : ∀ v : Val, v = .null ∨ AlgEntry v → (match v.contains (optStr none) with
                      | none => .error .typeError
                      | some true => .ok ()
                      | some false => .error .valueError : Except Exn Unit) ≠ .ok u := by
                    intro v hv hc
                    have := key v hv
                    revert hc this
                    cases v.contains (optStr none) with
                    | none => intro hc; cases hc
                    | some b => cases b <;> intro hc hk <;> first | exact hk rfl | cases hc
                  have sup : (env.provInfo.get? c!"request_object_encryption_enc_values_supported").getD .null = .null ∨
                      AlgEntry ((env.provInfo.get? c!"request_object_encryption_enc_values_supported").getD .null) := by
                    cases hq : env.provInfo.get? c!"request_object_encryption_enc_values_supported" with
                    | none => exact .inl rfl
                    | some v => exact hentries cinfo h1 v (.inr hq)
                  cases hq : cinfo.get? c!"request_object_encryption_enc" with
                  | none => rw [hq] at hu; exact key2 _ sup hu
                  | some w =>
                    rw [hq] at hu
                    have hw := hentries cinfo h1 w (.inl hq)
                    by_cases hn : w = .null
                    · subst hn; exact key2 _ sup hu
                    · refine key2 w hw ?_
                      cases w <;> first | exact absurd rfl hn | exact hu
                cases hx : allowedAlg env client (hdr.get? c!"alg") c!"enc_alg" with
                | error e => rw [hx] at h; cases h
                | ok _ =>
                  rw [hx] at h
                  dsimp only at h
                  cases hy : allowedAlg env client none c!"enc_enc" with
                  | error e => rw [hy] at h; cases h
                  | ok u => exact this u hy
            rw [hjwe] at h
            cases h
            refine ⟨text, jwt, hdr, cinfo, entry, rfl, hj, hh, hjwe, h1, h2, ?_, fun k => by
              rw [Dict.get?_update _ _ _ (hkeys text jwt hj)]; cases jwt.args.get? k <;> rfl⟩
            intro hen hstd halg
            cases hen with
            | single a =>
              have : isInfix ((hdr.get? c!"alg").getD c!"RS256") a = true := by
                simpa [optStr, Val.contains] using h3
              rw [jws_no_infix _ halg a (hstd a rfl) this]
              exact .single a
            | oneOf l =>
              rw [optStr, contains_ofStrs] at h3
              exact .oneOf l _ (by simpa using h3)

/-- C100 is false for encrypted request objects, which a client may register for: none is ever accepted (the encryption
algorithms are looked up in the header of the signature). -/
theorem C100_encrypted_refused (env : ReqObjEnv) (client uri : Str) (req r : Dict Val) (text : Str) (jwt : ReqJwt)
    (hkeys : ∀ text jwt, env.fromJwt client text = .ok jwt → (jwt.args.map (·.1)).Nodup)
    (hnoenc : ∀ text jwt hd, env.fromJwt client text = .ok jwt → jwt.jws = some hd → hd.get? c!"enc" = none)
    (hentries : ∀ cinfo, env.registered client = some cinfo → ∀ v,
      cinfo.get? c!"request_object_encryption_enc" = some v ∨
      env.provInfo.get? c!"request_object_encryption_enc_values_supported" = some v → v = .null ∨ AlgEntry v)
    (hget : env.get uri = .ok (200, text)) (hj : env.fromJwt client text = .ok jwt) (he : jwt.jwe ≠ none) :
    fetchObject env client uri req ≠ .ok r := by
  intro h
  obtain ⟨text', jwt', _, _, _, a, b, _, c, _⟩ := C100_only_allowed_algorithms_partial env client uri req r hkeys h hnoenc hentries
  rw [hget] at a
  cases a
  rw [hj] at b
  cases b
  exact he c

/-- C100 is false: if neither the client registered an algorithm nor the provider lists any, no request object at all is
accepted: `TypeError`. -/
theorem C100_no_lists_no_objects (env : ReqObjEnv) (client uri : Str) (req : Dict Val) (text : Str) (jwt : ReqJwt) (hd : Dict Str)
    (cinfo : Dict Val) (hget : env.get uri = .ok (200, text)) (hj : env.fromJwt client text = .ok jwt) (hs : jwt.jws = some hd)
    (hc : env.registered client = some cinfo) (h1 : cinfo.get? c!"request_object_signing_alg" = none)
    (h2 : env.provInfo.get? c!"request_object_signing_alg_values_supported" = none) :
    fetchObject env client uri req = .error .typeError := by
  have : allowedAlg env client (some ((hd.get? c!"alg").getD c!"RS256")) c!"sign" = .error .typeError := by
    unfold allowedAlg
    have hp : algParams.get? c!"sign" = some (c!"request_object_signing_alg", c!"request_object_signing_alg_values_supported") := by
      decide
    rw [hc, hp]
    dsimp only
    rw [h1, h2]
    rfl
  unfold fetchObject
  rw [hget]
  dsimp only
  rw [if_neg (by decide), hj]
  dsimp only
  rw [hs]
  dsimp only
  rw [this]

/-- C100 is false for request objects passed by value: whatever the client registered, a request without `request_uri`
passes this step unchanged; no algorithm is looked at. -/
theorem C100_by_value_unchecked (env : Env) (cdb : Cdb) (client : Str) (par : ParDb) (req : AuthReq) (h : req.requestUri = none) :
    doRequestUri env cdb client par req = (par, .val req) := by
  unfold doRequestUri
  rw [h]

/-- The endpoint uses a request object only as above: a request that passes is the one sent (without `request_uri`), a pushed
one, or one made from a fetched object. -/
theorem C100_in_the_endpoint (env : Env) (oe : ReqObjEnv) (write : AuthReq → Dict Val) (read : Dict Val → AuthReq)
    (hf : env.fetch = fetchAs oe write read) (cdb : Cdb) (client : Str) (par par' : ParDb) (req r : AuthReq)
    (h : doRequestUri env cdb client par req = (par', .val r)) :
    ((req.requestUri = none ∨ req.requestUri = some []) ∧ r = req) ∨
    ∃ uri, req.requestUri = some uri ∧ (par uri = some r ∨
      ∃ d, fetchObject oe client uri (write req) = .ok d ∧ r = read d) := by
  unfold doRequestUri at h
  split at h
  · cases h; exact .inl ⟨.inl (by assumption), rfl⟩
  · cases h; exact .inl ⟨.inr (by assumption), rfl⟩
  · rename_i uri hne hu
    refine .inr ⟨uri, hu, ?_⟩
    split at h
    · split at h
      · rename_i r' hr; cases h; exact .inl hr
      · cases h
    · split at h
      · cases h
      · split at h
        · cases h
        · rw [hf] at h
          unfold fetchAs at h
          cases hd : fetchObject oe client uri (write req) with
          | error e => rw [hd] at h; cases h
          | ok d => rw [hd] at h; cases h; exact .inr ⟨d, rfl, rfl⟩

/-- A provider with one client, which registered RS256; the text of an object says how it is protected. -/
def demoObjEnv : ReqObjEnv where
  get := fun u => if u = c!"https://rp/gone" then .ok (404, []) else .ok (200, u)
  fromJwt := fun _ t =>
    if t = c!"https://rp/enc" then .ok ⟨some [(c!"alg", c!"RS256")], some [(c!"alg", c!"RSA-OAEP"), (c!"enc", c!"A128GCM")], []⟩
    else if t = c!"https://rp/es" then .ok ⟨some [(c!"alg", c!"ES256")], none, []⟩
    else .ok ⟨some [(c!"alg", c!"RS256")], none, [(c!"state", .str c!"signed")]⟩
  registered := fun c => if c = c!"c1" then some [(c!"request_object_signing_alg", .str c!"RS256"),
      (c!"request_object_encryption_alg", .str c!"RSA-OAEP"), (c!"request_object_encryption_enc", .str c!"A128GCM")]
    else none
  provInfo := [(c!"request_object_signing_alg_values_supported", Val.ofStrs [c!"RS256", c!"ES256"])]

example : fetchObject demoObjEnv c!"c1" c!"https://rp/ro" [(c!"state", .str c!"x"), (c!"nonce", .str c!"n")] =
    .ok [(c!"state", .str c!"signed"), (c!"nonce", .str c!"n")] := by decide
example : fetchObject demoObjEnv c!"c1" c!"https://rp/es" [] = .error .valueError := by decide
example : fetchObject demoObjEnv c!"c1" c!"https://rp/enc" [] = .error .valueError := by decide
example : fetchObject demoObjEnv c!"c1" c!"https://rp/gone" [] = .error .attributeError := by decide

/-- The hypotheses of the theorems hold of this provider. -/
example : (∀ text jwt, demoObjEnv.fromJwt c!"c1" text = .ok jwt → (jwt.args.map (·.1)).Nodup) ∧
    (∀ text jwt hd, demoObjEnv.fromJwt c!"c1" text = .ok jwt → jwt.jws = some hd → hd.get? c!"enc" = none) ∧
    (∀ cinfo, demoObjEnv.registered c!"c1" = some cinfo → ∀ v,
      cinfo.get? c!"request_object_encryption_enc" = some v ∨
      demoObjEnv.provInfo.get? c!"request_object_encryption_enc_values_supported" = some v → v = .null ∨ AlgEntry v) := by
  refine ⟨?_, ?_, ?_⟩
  · intro text jwt h
    simp only [demoObjEnv] at h
    split at h
    · cases h; decide
    · split at h <;> (cases h; decide)
  · intro text jwt hd h hh
    simp only [demoObjEnv] at h
    split at h
    · cases h; cases hh; decide
    · split at h <;> (cases h; cases hh; decide)
  · intro cinfo h v hv
    have hc : cinfo = [(c!"request_object_signing_alg", .str c!"RS256"), (c!"request_object_encryption_alg", .str c!"RSA-OAEP"),
        (c!"request_object_encryption_enc", .str c!"A128GCM")] := by
      have : demoObjEnv.registered c!"c1" = some [(c!"request_object_signing_alg", .str c!"RS256"),
        (c!"request_object_encryption_alg", .str c!"RSA-OAEP"), (c!"request_object_encryption_enc", .str c!"A128GCM")] := by
        decide
      rw [this] at h
      exact (Option.some.inj h).symm
    subst hc
    rcases hv with hv | hv
    · have : Dict.get? ([(c!"request_object_signing_alg", .str c!"RS256"), (c!"request_object_encryption_alg", .str c!"RSA-OAEP"),
        (c!"request_object_encryption_enc", .str c!"A128GCM")] : Dict Val) c!"request_object_encryption_enc" = some (.str c!"A128GCM") := by
        decide
      rw [this] at hv
      cases hv
      exact .inr (.single _)
    · have : demoObjEnv.provInfo.get? c!"request_object_encryption_enc_values_supported" = none := by decide
      rw [this] at hv
      cases hv

/-- C100: the check by itself, for each of the three kinds of algorithm: an algorithm passes exactly if it is in the list the client
registered for that kind, or, if it registered none, in the list the provider supports for that kind. -/
theorem C100_each_kind (env : ReqObjEnv) (client a : Str) (cinfo : Dict Val) (l : List Str) (kind reg sup : Str)
    (hk : (kind, reg, sup) ∈ algorithmKinds) (hc : env.registered client = some cinfo)
    (hl : cinfo.get? reg = some (Val.ofStrs l) ∨ (cinfo.get? reg = none ∧ env.provInfo.get? sup = some (Val.ofStrs l))) :
    allowedAlg env client (some a) kind = .ok () ↔ a ∈ l := by
  have hp : algParams.get? kind = some (reg, sup) := by
    simp only [algorithmKinds, List.mem_cons, List.not_mem_nil, or_false, Prod.mk.injEq] at hk
    rcases hk with ⟨rfl, rfl, rfl⟩ | ⟨rfl, rfl, rfl⟩ | ⟨rfl, rfl, rfl⟩ <;> rfl
  have hv : (match cinfo.get? reg with
      | some .null => (env.provInfo.get? sup).getD .null
      | some v => v
      | none => (env.provInfo.get? sup).getD .null) = Val.ofStrs l := by
    rcases hl with h | ⟨h1, h2⟩
    · rw [h]; cases l <;> rfl
    · rw [h1, h2]; rfl
  unfold allowedAlg
  simp only [hc, hp]
  have e : ∀ v : Val, v = Val.ofStrs l → ((match v.contains (optStr (some a)) with
      | none => .error .typeError
      | some true => .ok ()
      | some false => .error .valueError : Except Exn Unit) = .ok () ↔ a ∈ l) := by
    rintro v rfl
    rw [optStr, contains_ofStrs]
    by_cases h : a ∈ l <;> simp [h]
  exact e _ hv

/-- A client that registered one key encryption algorithm. -/
def encClient : ReqObjEnv where
  get := fun _ => .error .keyError
  fromJwt := fun _ _ => .error .keyError
  registered := fun _ => some [(c!"request_object_encryption_alg", Val.ofStrs [c!"RSA-OAEP"])]
  provInfo := []

example : allowedAlg encClient c!"c1" (some c!"RSA-OAEP") c!"enc_alg" = .ok () ∧
    allowedAlg encClient c!"c1" (some c!"RSA1_5") c!"enc_alg" = .error .valueError := by decide

end Verif
