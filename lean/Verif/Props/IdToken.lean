import Verif.Model.IdToken
import Verif.Spec.IdToken
import Verif.Props.Resource
set_option linter.unusedSimpArgs false
set_option linter.unusedVariables false
/-! ID tokens: C38, C53, C65, C66. -/
namespace Verif
open Spec

theorem addHash_get (lh : Str → Str → Str) (halg k k' : Str) (t : Option Str) (d : Dict Val) :
    (addHash lh halg k t d).get? k' = match t with
      | none => d.get? k'
      | some x => if x ≠ [] ∧ k' = k then some (.str (lh x halg)) else d.get? k' := by
  unfold addHash
  cases t with
  | none => rfl
  | some x =>
    by_cases hx : x = []
    · simp [hx]
    · simp only [hx, if_false, ne_eq, not_false_eq_true, true_and]
      rw [Dict.get?_set]

theorem addNonce_get (ar : Option AuthReq) (d : Dict Val) (k : Str) :
    (addNonce ar d).get? k = if k = c!"nonce" then
      (match ar.bind AuthReq.nonce with | none => d.get? k | some n => some (.str n)) else d.get? k := by
  unfold addNonce
  cases ar.bind AuthReq.nonce with
  | none => simp
  | some n => rw [Dict.get?_set]

theorem filter_not_mem {ui : Dict Val} {k : Str} (hk : k ∈ idTokenReserved) :
    k ∉ (ui.filter fun p => !(idTokenReserved.contains p.1)).map Prod.fst := by
  intro h
  rw [List.mem_map] at h
  obtain ⟨p, hp, rfl⟩ := h
  rw [List.mem_filter] at hp
  have : idTokenReserved.contains p.1 = true := List.contains_iff_mem.2 hk
  rw [this] at hp
  exact absurd hp.2 (by decide)

/-- Where a reserved claim of the payload comes from. -/
theorem payload_reserved {lh : Str → Str → Str} {db : Str → Dict Val} {user : Str} {g : Grant} {alg : Str}
    {code tok : Option Str} {p : Dict Val} (h : idTokenPayload lh db user g alg code tok [] = .ok p) {k : Str}
    (hk : k ∈ idTokenReserved) (hn : k ≠ c!"nonce") :
    p.get? k = Dict.get? ((c!"sub", Val.str g.sub) :: eventClaims g.authnEvent) k := by
  unfold idTokenPayload at h
  simp only at h
  cases h1 : getUserClaims db user ((g.claims.get? c!"id_token").getD []) with
  | error e => simp [h1] at h
  | ok ui =>
    simp only [h1] at h
    cases h2 : acrCheck ((c!"sub", .str g.sub) :: eventClaims g.authnEvent) ((g.claims.get? c!"id_token").getD []) with
    | error e => simp [h2] at h
    | ok _ =>
      simp only [h2, Except.ok.injEq] at h
      subst h
      have e1 : k ≠ c!"at_hash" := by rintro rfl; revert hk; decide
      have e2 : k ≠ c!"c_hash" := by rintro rfl; revert hk; decide
      rw [addNonce_get, if_neg hn, addHash_get]
      have key : (addHash lh (c!"HS" ++ pyDrop (-3) alg) c!"c_hash" code (Dict.update (Dict.update ((c!"sub", Val.str g.sub) ::
          eventClaims g.authnEvent) (ui.filter fun p => !(idTokenReserved.contains p.1))) [])).get? k =
          Dict.get? ((c!"sub", Val.str g.sub) :: eventClaims g.authnEvent) k := by
        rw [addHash_get]
        have : (Dict.update (Dict.update ((c!"sub", Val.str g.sub) :: eventClaims g.authnEvent)
            (ui.filter fun p => !(idTokenReserved.contains p.1))) []).get? k =
            Dict.get? ((c!"sub", Val.str g.sub) :: eventClaims g.authnEvent) k := by
          show (Dict.update _ _).get? k = _
          exact get?_update_of_not_mem _ _ (filter_not_mem hk)
        cases code with
        | none => exact this
        | some x => simp only [e2, and_false, if_false]; exact this
      cases tok with
      | none => exact key
      | some x => simp only [e1, and_false, if_false]; exact key

theorem payload_nonce {lh : Str → Str → Str} {db : Str → Dict Val} {user : Str} {g : Grant} {alg : Str}
    {code tok : Option Str} {p : Dict Val} (h : idTokenPayload lh db user g alg code tok [] = .ok p) :
    p.get? c!"nonce" = (g.authReq.bind AuthReq.nonce).map Val.str := by
  unfold idTokenPayload at h
  simp only at h
  cases h1 : getUserClaims db user ((g.claims.get? c!"id_token").getD []) with
  | error e => simp [h1] at h
  | ok ui =>
    simp only [h1] at h
    cases h2 : acrCheck ((c!"sub", .str g.sub) :: eventClaims g.authnEvent) ((g.claims.get? c!"id_token").getD []) with
    | error e => simp [h2] at h
    | ok _ =>
      simp only [h2, Except.ok.injEq] at h
      subst h
      rw [addNonce_get, if_pos rfl]
      cases g.authReq.bind AuthReq.nonce with
      | some n => rfl
      | none =>
        simp only [Option.map_none]
        rw [addHash_get]
        have e0 : (Dict.update (Dict.update ((c!"sub", Val.str g.sub) :: eventClaims g.authnEvent)
            (ui.filter fun p => !(idTokenReserved.contains p.1))) []).get? c!"nonce" = none := by
          have e1 : ∀ d : Dict Val, Dict.update d [] = d := fun _ => rfl
          rw [e1, get?_update_of_not_mem _ _ (filter_not_mem (k := c!"nonce") (by decide))]
          cases g.authnEvent with
          | none => simp [eventClaims, Dict.get?]
          | some e =>
            simp only [eventClaims]
            by_cases a1 : e.authnTime = 0 <;> by_cases a2 : e.authnInfo = [] <;> simp [Dict.get?, a1, a2]
        have key : (addHash lh (c!"HS" ++ pyDrop (-3) alg) c!"c_hash" code (Dict.update (Dict.update ((c!"sub", Val.str g.sub) ::
            eventClaims g.authnEvent) (ui.filter fun p => !(idTokenReserved.contains p.1))) [])).get? c!"nonce" = none := by
          rw [addHash_get]
          cases code with
          | none => exact e0
          | some x => simp only; rw [if_neg (by simp)]; exact e0
        cases tok with
        | none => exact key
        | some x => simp only; rw [if_neg (by simp)]; exact key

theorem payload_hashes {lh : Str → Str → Str} {db : Str → Dict Val} {user : Str} {g : Grant} {alg : Str}
    {code tok : Option Str} {p : Dict Val} (h : idTokenPayload lh db user g alg code tok [] = .ok p) :
    (∀ c, code = some c → c ≠ [] → p.get? c!"c_hash" = some (.str (lh c (c!"HS" ++ pyDrop (-3) alg)))) ∧
    (∀ t, tok = some t → t ≠ [] → p.get? c!"at_hash" = some (.str (lh t (c!"HS" ++ pyDrop (-3) alg)))) := by
  unfold idTokenPayload at h
  simp only at h
  cases h1 : getUserClaims db user ((g.claims.get? c!"id_token").getD []) with
  | error e => simp [h1] at h
  | ok ui =>
    simp only [h1] at h
    cases h2 : acrCheck ((c!"sub", .str g.sub) :: eventClaims g.authnEvent) ((g.claims.get? c!"id_token").getD []) with
    | error e => simp [h2] at h
    | ok _ =>
      simp only [h2, Except.ok.injEq] at h
      subst h
      constructor
      · intro c hc hne
        subst hc
        rw [addNonce_get, if_neg (by decide), addHash_get]
        have key : ∀ d : Dict Val, (addHash lh (c!"HS" ++ pyDrop (-3) alg) c!"c_hash" (some c) d).get? c!"c_hash" =
            some (.str (lh c (c!"HS" ++ pyDrop (-3) alg))) := by
          intro d; rw [addHash_get]; simp [hne]
        cases tok with
        | none => exact key _
        | some x => simp only; rw [if_neg (by simp)]; exact key _
      · intro t ht hne
        subst ht
        rw [addNonce_get, if_neg (by decide), addHash_get]
        simp [hne]

/-- What a successful `make` implies. -/
theorem idTokenMake_ok {cfg : IdTokenCfg} {cdb : Cdb} {s : Store} {sid : Str} {code tok : Option Str} {r : ToSign}
    (h : idTokenMake cfg cdb s sid code tok = .ok r) :
    ∃ user client gid c g, unpack3 sid = .ok (user, client, gid) ∧ wantsSessionId cfg.logout cdb client = false ∧
      cdb client = some c ∧ getAlgorithms cfg.algCfg c.algs c!"id_token" true false = .ok r.algs ∧
      getGrant s sid = .ok g ∧
      idTokenPayload cfg.leftHash cfg.userDb user g (r.algs.signAlg.getD []) code tok [] = .ok r.payload ∧
      r.aud = client ∧ r.lifetime = cfg.lifetime.getD 300 := by
  unfold idTokenMake at h
  cases h1 : unpack3 sid with
  | error e => simp [h1] at h
  | ok x =>
    obtain ⟨user, client, gid⟩ := x
    simp only [h1] at h
    by_cases h2 : wantsSessionId cfg.logout cdb client = true
    · simp [h2] at h
    · simp only [h2, if_false] at h
      rw [Bool.not_eq_true] at h2
      cases h3 : cdb client with
      | none => simp [h3] at h
      | some c =>
        simp only [h3] at h
        cases h4 : getAlgorithms cfg.algCfg c.algs c!"id_token" true false with
        | error e => simp [h4] at h
        | ok a =>
          simp only [h4] at h
          cases h5 : getGrant s sid with
          | error e => simp [h5] at h
          | ok g =>
            simp only [h5] at h
            cases h6 : idTokenPayload cfg.leftHash cfg.userDb user g (a.signAlg.getD []) code tok [] with
            | error e => simp [h6] at h
            | ok p =>
              simp only [h6, Bool.false_eq_true, if_false, Except.ok.injEq] at h
              subst h
              exact ⟨user, client, gid, c, g, rfl, h2, h3, h4, rfl, h6, rfl, rfl⟩

/-- C38: the security claims of every ID token are the provider's, whatever the user database and the claims request
contain, and no user data get at `iss`, `aud`, `exp`. -/
theorem C38_security_claims (cfg : IdTokenCfg) (cdb : Cdb) (s : Store) (sid : Str) (code tok : Option Str) (r : ToSign)
    (h : idTokenMake cfg cdb s sid code tok = .ok r) :
    ∃ g, getGrant s sid = .ok g ∧ r.payload.get? c!"sub" = some (.str g.sub) ∧
      r.payload.get? c!"nonce" = (g.authReq.bind AuthReq.nonce).map Val.str ∧
      r.payload.get? c!"acr" = (g.authnEvent.bind fun e => if e.authnInfo = [] then none else some (.str e.authnInfo)) ∧
      r.payload.get? c!"auth_time" = (g.authnEvent.bind fun e => if e.authnTime = 0 then none else some (.int e.authnTime)) ∧
      (∀ c, code = some c → c ≠ [] →
        r.payload.get? c!"c_hash" = some (.str (cfg.leftHash c (c!"HS" ++ pyDrop (-3) (r.algs.signAlg.getD []))))) ∧
      (∀ t, tok = some t → t ≠ [] →
        r.payload.get? c!"at_hash" = some (.str (cfg.leftHash t (c!"HS" ++ pyDrop (-3) (r.algs.signAlg.getD []))))) ∧
      r.payload.get? c!"iss" = none ∧ r.payload.get? c!"aud" = none ∧ r.payload.get? c!"exp" = none := by
  obtain ⟨user, client, gid, c, g, h1, h2, h3, h4, h5, h6, h7, h8⟩ := idTokenMake_ok h
  have key : ∀ k ∈ idTokenReserved, k ≠ c!"nonce" → r.payload.get? k =
      Dict.get? ((c!"sub", Val.str g.sub) :: eventClaims g.authnEvent) k := fun k hk hn => payload_reserved h6 hk hn
  refine ⟨g, h5, ?_, payload_nonce h6, ?_, ?_, (payload_hashes h6).1, (payload_hashes h6).2, ?_, ?_, ?_⟩
  · rw [key _ (by decide) (by decide)]; simp [Dict.get?]
  all_goals
    rw [key _ (by decide) (by decide)]
    cases g.authnEvent with
    | none => simp [Dict.get?, eventClaims]
    | some e =>
      simp only [eventClaims, Option.bind_some]
      by_cases a1 : e.authnTime = 0 <;> by_cases a2 : e.authnInfo = [] <;> simp [Dict.get?, a1, a2]

/-- C38: a requested `acr` that the authentication event does not satisfy is refused. -/
theorem C38_acr_mismatch_refused (cfg : IdTokenCfg) (cdb : Cdb) (s : Store) (sid : Str) (code tok : Option Str) (r : ToSign)
    (g : Grant) (hg : getGrant s sid = .ok g) (e : AuthnEvent) (he : g.authnEvent = some e) (hi : e.authnInfo ≠ [])
    (spec : ClaimSpec) (hs : Dict.get? ((g.claims.get? c!"id_token").getD []) c!"acr" = some spec)
    (hw : WellFormed spec) (h : idTokenMake cfg cdb s sid code tok = .ok r) : Allows spec (.str e.authnInfo) := by
  obtain ⟨user, client, gid, c, g', h1, h2, h3, h4, h5, h6, h7, h8⟩ := idTokenMake_ok h
  rw [hg] at h5
  cases h5
  unfold idTokenPayload at h6
  simp only at h6
  cases a1 : getUserClaims cfg.userDb user ((g.claims.get? c!"id_token").getD []) with
  | error e => simp [a1] at h6
  | ok ui =>
    simp only [a1] at h6
    cases a2 : acrCheck ((c!"sub", .str g.sub) :: eventClaims g.authnEvent) ((g.claims.get? c!"id_token").getD []) with
    | error e => simp [a2] at h6
    | ok _ =>
      unfold acrCheck at a2
      have hv : Dict.get? ((c!"sub", Val.str g.sub) :: eventClaims g.authnEvent) c!"acr" = some (.str e.authnInfo) := by
        rw [he]
        simp only [eventClaims]
        by_cases a1 : e.authnTime = 0 <;> simp [Dict.get?, a1, hi]
      simp only [hs, hv] at a2
      cases a3 : claimsMatch (some (.str e.authnInfo)) spec with
      | error x => simp [a3] at a2
      | ok b =>
        cases b with
        | false => simp [a3] at a2
        | true =>
          obtain ⟨b, b1, b2⟩ := C36_claims_match_iff (some (.str e.authnInfo)) spec hw
          rw [a3] at b1
          cases b1
          obtain ⟨x, ⟨x1, _⟩, x2⟩ := b2.1 rfl
          cases x1
          exact x2

/-- C38 at the authorization endpoint: the ID token of a response is made for the code and the access token of that same
response. -/
theorem C38_hashes_match_response (icfg : IdTokenCfg) (sign : ToSign → Out Str) (env : Env) (cdb : Cdb) (s s' : Store)
    (now : Int) (mc ma : MintIn) (req : AuthReq) (sid : Str) (a : RespArgs) (frag : Bool) (idt : Str)
    (h : createAuthnResponseFull icfg sign env cdb s now mc ma req sid = (s', .ok (.val a, frag)))
    (hi : a.idToken = some idt) :
    ∃ t, sign t = .val idt ∧
      (∀ c, a.code = some c → c ≠ [] →
        t.payload.get? c!"c_hash" = some (.str (icfg.leftHash c (c!"HS" ++ pyDrop (-3) (t.algs.signAlg.getD []))))) ∧
      (∀ x, a.accessToken = some x → x ≠ [] →
        t.payload.get? c!"at_hash" = some (.str (icfg.leftHash x (c!"HS" ++ pyDrop (-3) (t.algs.signAlg.getD []))))) := by
  unfold createAuthnResponseFull createAuthnResponse at h
  by_cases hn : req.responseType = [c!"none"]
  · rw [if_pos hn] at h
    simp only [Prod.mk.injEq, Except.ok.injEq, Out.val.injEq] at h
    rw [← h.2.1] at hi
    cases hi
  rw [if_neg hn] at h
  cases hg : getGrant s sid with
  | error e => simp [hg] at h
  | ok g =>
    simp only [hg] at h
    have hout : idTokenOutcome icfg sign env cdb s now mc ma req sid = match (codePart env s now mc sid g req).2.2 with
        | .error e => .raise e
        | .ok code => match (tokenPart env (codePart env s now mc sid g req).1 now ma sid (codePart env s now mc sid g req).2.1 code req).2.2 with
          | .error e => .raise e
          | .ok tok => match idTokenMake icfg cdb (tokenPart env (codePart env s now mc sid g req).1 now ma sid (codePart env s now mc sid g req).2.1 code req).1
                sid (hashArgs req code tok).1 (hashArgs req code tok).2 with
            | .error e => .raise e
            | .ok t => sign t := by
      unfold idTokenOutcome; simp only [hg]; rfl
    generalize hc : codePart env s now mc sid g req = r1 at h hout
    cases hc2 : r1.2.2 with
    | error e => simp [hc2] at h
    | ok code =>
      simp only [hc2] at h hout
      generalize ht : tokenPart env r1.1 now ma sid r1.2.1 code req = r2 at h hout
      cases ht2 : r2.2.2 with
      | error e => simp [ht2] at h
      | ok tok =>
        simp only [ht2] at h hout
        generalize idTokenOutcome icfg sign env cdb s now mc ma req sid = o at h hout
        cases h3 : (idTokenPart r2.1 o sid req).2 with
        | raise e => simp [h3] at h
        | errMsg e => simp [h3] at h
        | val i =>
          simp only [h3] at h
          split at h
          · simp only [Prod.mk.injEq, Except.ok.injEq, Out.val.injEq] at h
            obtain ⟨_, h, _⟩ := h
            subst h
            simp only at hi
            subst hi
            -- the ID token is the outcome
            have hidt : c!"id_token" ∈ req.responseType ∧ o = .val idt := by
              unfold idTokenPart at h3
              by_cases hm : c!"id_token" ∈ req.responseType
              · rw [if_pos hm] at h3
                refine ⟨hm, ?_⟩
                cases o with
                | raise e => simp at h3
                | errMsg e => simp at h3
                | val x =>
                  simp only at h3
                  split at h3
                  · simp at h3
                  · split at h3
                    · simp at h3
                    · split at h3
                      · simp at h3
                      · simp only [Out.val.injEq, Option.some.injEq] at h3
                        rw [h3]
              · rw [if_neg hm] at h3; simp at h3
            rw [hidt.2] at hout
            cases hm : idTokenMake icfg cdb r2.1 sid (hashArgs req code tok).1 (hashArgs req code tok).2 with
            | error e => simp [hm] at hout
            | ok t =>
              simp only [hm] at hout
              obtain ⟨_, _, _, _, _, _, c1, c2, _⟩ := C38_security_claims _ _ _ _ _ _ _ hm
              refine ⟨t, hout.symm, ?_, ?_⟩
              · intro c hcc hne
                refine c1 c ?_ hne
                by_cases hr : c!"code" ∈ req.responseType
                · simp only [hashArgs, hr, if_true]; exact hcc
                · exfalso
                  have : r1 = (s, g, .ok none) := by rw [← hc, codePart, if_neg hr]
                  rw [this] at hc2
                  simp at hc2
                  rw [← hc2] at hcc
                  simp at hcc
              · intro x hx hne
                refine c2 x ?_ hne
                by_cases hr : c!"token" ∈ req.responseType
                · simp only [hashArgs, hr, if_true]; exact hx
                · exfalso
                  have : r2 = (r1.1, r1.2.1, .ok none) := by rw [← ht, tokenPart, if_neg hr]
                  rw [this] at ht2
                  simp at ht2
                  rw [← ht2] at hx
                  simp at hx
          · simp at h

/-! ### C53 -/

/-- C53: the signing algorithm, for every configuration in which one can be found. -/
theorem C53_signing_algorithm (cfg : AlgCfg) (client : Dict Str) (a : AlgArgs) (sup : List Str)
    (hsup : cfg.supported.get? c!"id_token_signing_alg_values_supported" = some sup)
    (h : getAlgorithms cfg client c!"id_token" true false = .ok a) :
    ∃ x, a.signAlg = some x ∧
      SignChoice (client.get? c!"id_token_signed_response_alg") ((cfg.jwxDef.get? c!"signing_alg").bind (·.get? c!"id_token"))
        c!"RS256" sup x := by
  unfold getAlgorithms at h
  simp only [if_true] at h
  cases hs : signAlgFor cfg client c!"id_token" with
  | error e => simp [hs, Except.map] at h
  | ok x =>
    simp only [hs, Except.map, Bool.false_eq_true, if_false, Except.ok.injEq] at h
    subst h
    refine ⟨x, rfl, ?_⟩
    unfold signAlgFor at hs
    have k1 : c!"id_token" ++ c!"_signed_response_alg" = c!"id_token_signed_response_alg" := rfl
    have k2 : c!"id_token" ++ c!"_signing_alg_values_supported" = c!"id_token_signing_alg_values_supported" := rfl
    have k3 : defSignAlg.get? c!"id_token" = some c!"RS256" := rfl
    rw [k1, k2, k3] at hs
    cases h1 : client.get? c!"id_token_signed_response_alg" with
    | some y => simp only [h1] at hs; cases hs; exact .registered _ rfl
    | none =>
      simp only [h1] at hs
      cases h2 : (cfg.jwxDef.get? c!"signing_alg").bind (·.get? c!"id_token") with
      | some y => simp only [h2] at hs; cases hs; exact .default _ rfl rfl
      | none =>
        simp only [h2, hsup] at hs
        by_cases h3 : c!"RS256" ∈ sup
        · rw [if_pos h3] at hs; cases hs; exact .standard rfl rfl h3
        · rw [if_neg h3] at hs
          unfold firstSupported at hs
          rw [hsup] at hs
          cases sup with
          | nil => simp at hs
          | cons y l => simp only [Except.ok.injEq] at hs; subst hs; exact .first _ _ rfl rfl h3 rfl

theorem encFor_choice {cfg : AlgCfg} {client : Dict Str} {pt what x : Str} (h : encFor cfg client pt what = .ok x) :
    EncChoice (client.get? (pt ++ c!"_encrypted_response_" ++ what)) ((cfg.jwxDef.get? (c!"encryption_" ++ what)).bind (·.get? pt))
      ((cfg.supported.get? (pt ++ c!"_encryption_" ++ what ++ c!"_values_supported")).getD []) x := by
  unfold encFor at h
  split at h
  · rename_i a e; cases h; rw [e]; exact .registered _ rfl
  · rename_i e
    split at h
    · rename_i a e2; cases h; rw [e, e2]; exact .default _ rfl rfl
    · rename_i e2
      unfold firstSupported at h
      rw [e, e2]
      split at h
      · cases h
      · cases h
      · rename_i a l e3; cases h; rw [e3]; exact .first _ l rfl rfl rfl

/-- C53, for what is encrypted (userinfo responses): the key management and the content encryption algorithm are the registered
ones, else the provider's default, else the first supported, each by itself; what is signed as well is so marked, and nothing is
encrypted that was not to be. -/
theorem C53_encryption_choice (cfg : AlgCfg) (client : Dict Str) (sign encrypt : Bool) (a : AlgArgs)
    (h : getAlgorithms cfg client c!"userinfo" sign encrypt = .ok a) :
    a.sign = sign ∧ a.encrypt = encrypt ∧ (a.signAlg.isSome = sign) ∧
    (encrypt = false → a.encAlg = none ∧ a.encEnc = none) ∧
    (encrypt = true → ∃ x y, a.encAlg = some x ∧ a.encEnc = some y ∧
      EncChoice (client.get? c!"userinfo_encrypted_response_alg") ((cfg.jwxDef.get? c!"encryption_alg").bind (·.get? c!"userinfo"))
        ((cfg.supported.get? c!"userinfo_encryption_alg_values_supported").getD []) x ∧
      EncChoice (client.get? c!"userinfo_encrypted_response_enc") ((cfg.jwxDef.get? c!"encryption_enc").bind (·.get? c!"userinfo"))
        ((cfg.supported.get? c!"userinfo_encryption_enc_values_supported").getD []) y) := by
  unfold getAlgorithms at h
  dsimp only at h
  split at h
  · cases h
  · rename_i sa hsa
    have hs : sa.isSome = sign := by
      cases sign with
      | false => simp at hsa; rw [← hsa]; rfl
      | true =>
        simp only [if_true] at hsa
        cases hx : signAlgFor cfg client c!"userinfo" with
        | error e => rw [hx] at hsa; cases hsa
        | ok x => rw [hx] at hsa; cases hsa; rfl
    cases encrypt with
    | false =>
      simp only [Bool.false_eq_true, if_false, Except.ok.injEq] at h
      subst h
      exact ⟨rfl, rfl, hs, fun _ => ⟨rfl, rfl⟩, nofun⟩
    | true =>
      simp only [if_true] at h
      split at h
      · cases h
      · rename_i x hx
        split at h
        · cases h
        · rename_i y hy
          cases h
          exact ⟨rfl, rfl, hs, nofun, fun _ => ⟨x, y, rfl, rfl, encFor_choice hx, encFor_choice hy⟩⟩

/-- A client with a registered key management algorithm only: the content encryption is the first supported. -/
example :
    getAlgorithms ⟨[], [(c!"userinfo_encryption_enc_values_supported", [c!"A128GCM", c!"A256GCM"]),
        (c!"userinfo_encryption_alg_values_supported", [c!"RSA1_5"])]⟩ [(c!"userinfo_encrypted_response_alg", c!"RSA-OAEP")]
      c!"userinfo" false true = .ok ⟨false, true, none, some c!"RSA-OAEP", some c!"A128GCM"⟩ := by decide

/-- C53: an algorithm is found whenever the provider supports any. -/
theorem C53_algorithm_found (cfg : AlgCfg) (client : Dict Str) (y : Str) (sup : List Str)
    (hsup : cfg.supported.get? c!"id_token_signing_alg_values_supported" = some (y :: sup)) :
    ∃ a, getAlgorithms cfg client c!"id_token" true false = .ok a := by
  have : ∃ x, signAlgFor cfg client c!"id_token" = .ok x := by
    unfold signAlgFor
    have k2 : c!"id_token" ++ c!"_signing_alg_values_supported" = c!"id_token_signing_alg_values_supported" := rfl
    have k3 : defSignAlg.get? c!"id_token" = some c!"RS256" := rfl
    rw [k2, k3]
    split
    · exact ⟨_, rfl⟩
    · split
      · exact ⟨_, rfl⟩
      · simp only [hsup]
        split
        · exact ⟨_, rfl⟩
        · exact ⟨y, by simp [firstSupported, hsup]⟩
  obtain ⟨x, hx⟩ := this
  exact ⟨⟨true, false, some x, none, none⟩, by simp only [getAlgorithms, hx, Except.map, if_true, Bool.false_eq_true, if_false]⟩

/-- C53 is false of the code for encryption: whatever the client registered, an ID token is never encrypted. -/
theorem C53_encryption_ignored (cfg : IdTokenCfg) (cdb : Cdb) (s : Store) (sid : Str) (code tok : Option Str) (r : ToSign)
    (h : idTokenMake cfg cdb s sid code tok = .ok r) :
    r.algs.sign = true ∧ r.algs.encrypt = false ∧ r.algs.encAlg = none ∧ r.algs.encEnc = none := by
  obtain ⟨user, client, gid, c, g, h1, h2, h3, h4, _⟩ := idTokenMake_ok h
  unfold getAlgorithms at h4
  simp only [if_true, Bool.false_eq_true, if_false] at h4
  split at h4
  · cases h4
  · simp only [Except.ok.injEq] at h4
    rw [← h4]
    exact ⟨rfl, rfl, rfl, rfl⟩

/-! ### C65, C66 -/

/-- C65 is false of the code: a client that registered a logout URI for a channel the provider supports never gets an ID
token, in any state. -/
theorem C65_no_id_token_with_logout_uri (cfg : IdTokenCfg) (cdb : Cdb) (s : Store) (u client gid : Str) (sid : Str)
    (hsid : unpackSessionKey sid = [u, client, gid]) (c : Client) (hc : cdb client = some c)
    (h : (cfg.logout.back = true ∧ c.backchannelLogoutUri.isSome) ∨ (cfg.logout.front = true ∧ c.frontchannelLogoutUri.isSome))
    (code tok : Option Str) :
    idTokenMake cfg cdb s sid code tok = .error .attributeError := by
  have hu : unpack3 sid = .ok (u, client, gid) := by unfold unpack3; rw [hsid]
  have hw : wantsSessionId cfg.logout cdb client = true := by
    unfold wantsSessionId
    rw [hc]
    rcases h with ⟨h1, h2⟩ | ⟨h1, h2⟩ <;> simp [h1, h2]
  simp [idTokenMake, hu, hw]

/-- C65, what holds: without such a URI and with a known client and grant, a supported algorithm and user data that can be
read, an ID token is made. -/
theorem C65_id_token_otherwise_partial (cfg : IdTokenCfg) (cdb : Cdb) (s : Store) (u client gid : Str) (sid : Str)
    (hsid : unpackSessionKey sid = [u, client, gid]) (c : Client) (hc : cdb client = some c)
    (hb : c.backchannelLogoutUri = none) (hf : c.frontchannelLogoutUri = none) (y : Str) (sup : List Str)
    (hsup : cfg.algCfg.supported.get? c!"id_token_signing_alg_values_supported" = some (y :: sup))
    (g : Grant) (hg : getGrant s sid = .ok g) (hcl : g.claims.get? c!"id_token" = none ∨ g.claims.get? c!"id_token" = some [])
    (code tok : Option Str) : ∃ r, idTokenMake cfg cdb s sid code tok = .ok r := by
  have hu : unpack3 sid = .ok (u, client, gid) := by unfold unpack3; rw [hsid]
  have hw : wantsSessionId cfg.logout cdb client = false := by
    unfold wantsSessionId
    rw [hc]; simp [hb, hf]
  obtain ⟨a, ha⟩ := C53_algorithm_found cfg.algCfg c.algs y sup hsup
  have hr : (g.claims.get? c!"id_token").getD [] = [] := by rcases hcl with h | h <;> rw [h] <;> rfl
  simp only [idTokenMake, hu, hw, hc, ha, hg, Bool.false_eq_true, if_false]
  simp only [idTokenPayload, hr]
  exact ⟨_, rfl⟩

/-- C66: a userinfo response is signed exactly if the client registered an algorithm for it, with that algorithm, and
encrypted exactly if it registered both encryption settings. -/
theorem C66_userinfo_form_partial (client : Dict Str) :
    (userinfoForm client).sign = client.get? c!"userinfo_signed_response_alg" ∧
    ∀ a e, (userinfoForm client).encrypt = some (a, e) ↔
      client.get? c!"userinfo_encrypted_response_alg" = some a ∧ client.get? c!"userinfo_encrypted_response_enc" = some e := by
  refine ⟨rfl, fun a e => ?_⟩
  simp only [userinfoForm]
  cases h1 : client.get? c!"userinfo_encrypted_response_enc" with
  | none => simp
  | some x =>
    cases h2 : client.get? c!"userinfo_encrypted_response_alg" with
    | none => simp
    | some y =>
      simp only [Option.some.injEq, Prod.mk.injEq]

/-- C66 is false of the code: a client that registered only the key management algorithm, for which OpenID Connect
Registration section 2 gives a default content encryption, gets its userinfo in the clear. -/
theorem C66_enc_alone_is_ignored (client : Dict Str) (h : client.get? c!"userinfo_encrypted_response_enc" = none) :
    (userinfoForm client).encrypt = none := by
  simp [userinfoForm, h]

/-! ### A concrete ID token -/

def demoIdCfg : IdTokenCfg where
  algCfg := { jwxDef := [(c!"signing_alg", [(c!"userinfo", c!"ES256")])],
              supported := [(c!"id_token_signing_alg_values_supported", [c!"ES256", c!"RS256"])] }
  logout := ⟨true, false⟩
  leftHash := fun t h => h ++ c!"(" ++ t ++ c!")"
  userDb := fun _ => [(c!"sub", .str c!"root"), (c!"nonce", .str c!"evil"), (c!"at_hash", .str c!"evil"), (c!"email", .str c!"d@x")]

/-- A provider that puts these claims of the user in ID tokens. -/
def idEnv : Env :=
  { demoEnv with ccfg := { demoEnv.ccfg with modules := [(c!"userinfo", { byScope := true }),
      (c!"id_token", { baseClaims := [(c!"sub", none), (c!"nonce", none), (c!"at_hash", none), (c!"email", none)] }),
      (c!"introspection", {}), (c!"access_token", {})] } }

def idStore : Store := (sysRun (envCfg idEnv) loginOps).store

set_option maxRecDepth 8000 in
/-- The hypotheses are met, with hostile user data; and C38 is false of the code for `at_hash` when no access token is
returned alongside: then the user's data are used. -/
theorem C38_hash_from_user_data :
    (match idTokenMake demoIdCfg demoDb idStore c!"diana;;c1;;g1" (some c!"C") none with
      | .ok r => (r.algs.signAlg, r.aud, [c!"sub", c!"nonce", c!"c_hash", c!"at_hash", c!"email"].map fun k => r.payload.get? k)
      | .error _ => (none, [], [])) =
    (some c!"RS256", c!"c1", [some (.str c!"pub-diana"), none, some (.str c!"HS256(C)"), some (.str c!"evil"), some (.str c!"d@x")]) := by
  decide

set_option maxRecDepth 8000 in
example : (match getGrant idStore c!"diana;;c1;;g1" with
    | .ok g => (g.sub, g.issuedToken.length) | .error _ => ([], 0)) = (c!"pub-diana", 3) := by decide

/-- A response with code, access token and ID token in the demo (the signer shows what it signs). -/
def showSign (t : ToSign) : Out Str :=
  .val (match t.payload.get? c!"c_hash", t.payload.get? c!"at_hash" with
    | some (.str a), some (.str b) => a ++ b
    | _, _ => [])

set_option maxRecDepth 8000 in
example :
    (match (createAuthnResponseFull demoIdCfg showSign demoEnv demoDb (demoAuthz [c!"code", c!"id_token", c!"token"] none).2.1 2
        (mintIn c!"x") (mintIn c!"y") (demoReq [c!"code", c!"id_token", c!"token"]) c!"diana;;c1;;g1").2 with
      | .ok (.val a, _) => (match a.code, a.accessToken, a.idToken with
        | some c, some t, some i => decide (i = c!"HS256(" ++ c ++ c!")HS256(" ++ t ++ c!")")
        | _, _, _ => false)
      | _ => false) = true := by decide

end Verif
