import Verif.Props.IdToken
/-! Signing algorithms for other payload types (C53), ID tokens for unknown clients (C65). -/
namespace Verif
open Spec

/-- C53 for every kind of payload: the algorithm used when neither the client nor the configuration says which is RS256
(HS256 for client_secret_jwt) if the provider supports it, else the first one it supports. -/
theorem C53_standard_algorithm (cfg : AlgCfg) (client : Dict Str) (pt d : Str)
    (hp : (pt, d) ∈ [(c!"id_token", c!"RS256"), (c!"userinfo", c!"RS256"), (c!"request_object", c!"RS256"),
      (c!"client_secret_jwt", c!"HS256"), (c!"private_key_jwt", c!"RS256")])
    (sup : List Str) (hsup : cfg.supported.get? (pt ++ c!"_signing_alg_values_supported") = some sup)
    (hc : client.get? (pt ++ c!"_signed_response_alg") = none)
    (hj : (cfg.jwxDef.get? c!"signing_alg").bind (·.get? pt) = none) :
    (d ∈ sup → getAlgorithms cfg client pt true false = .ok ⟨true, false, some d, none, none⟩) ∧
    (∀ y r, sup = y :: r → d ∉ sup → getAlgorithms cfg client pt true false = .ok ⟨true, false, some y, none, none⟩) ∧
    (sup = [] → getAlgorithms cfg client pt true false = .error .indexError) := by
  have hd : defSignAlg.get? pt = some d := by
    simp only [List.mem_cons, List.not_mem_nil, or_false, Prod.mk.injEq] at hp
    rcases hp with ⟨rfl, rfl⟩ | ⟨rfl, rfl⟩ | ⟨rfl, rfl⟩ | ⟨rfl, rfl⟩ | ⟨rfl, rfl⟩ <;> decide
  refine ⟨fun h => ?_, fun y r e h => ?_, fun e => ?_⟩
  · simp [getAlgorithms, signAlgFor, hc, hj, hd, hsup, h, Except.map]
  · subst e
    simp only [getAlgorithms, signAlgFor, hc, hj, hd, hsup, h, Except.map, firstSupported]
    rfl
  · subst e
    simp [getAlgorithms, signAlgFor, hc, hj, hd, hsup, Except.map, firstSupported]

/-- C53: for any other kind of payload there is no standard algorithm. -/
theorem C53_no_standard_algorithm (cfg : AlgCfg) (client : Dict Str) (pt : Str)
    (hp : pt ∉ [c!"id_token", c!"userinfo", c!"request_object", c!"client_secret_jwt", c!"private_key_jwt"])
    (hc : client.get? (pt ++ c!"_signed_response_alg") = none)
    (hj : (cfg.jwxDef.get? c!"signing_alg").bind (·.get? pt) = none) :
    getAlgorithms cfg client pt true false = .error .keyError := by
  have hd : defSignAlg.get? pt = none := by
    simp only [List.mem_cons, List.not_mem_nil, or_false, not_or] at hp
    obtain ⟨h1, h2, h3, h4, h5⟩ := hp
    simp only [defSignAlg, Dict.get?_cons]
    simp [Ne.symm h1, Ne.symm h2, Ne.symm h3, Ne.symm h4, Ne.symm h5, Dict.get?]
  simp [getAlgorithms, signAlgFor, hc, hj, hd, Except.map]

example : getAlgorithms ⟨[], [(c!"client_secret_jwt_signing_alg_values_supported", [c!"ES256", c!"HS256"])]⟩ []
    c!"client_secret_jwt" true false = .ok ⟨true, false, some c!"HS256", none, none⟩ := by decide

/-- C65: for a session of a client that is not registered (any more) making an ID token fails, whatever the provider
supports. -/
theorem C65_unknown_client_raises (cfg : IdTokenCfg) (cdb : Cdb) (s : Store) (u client gid : Str) (sid : Str)
    (hsid : unpackSessionKey sid = [u, client, gid]) (hc : cdb client = none) (code tok : Option Str) :
    idTokenMake cfg cdb s sid code tok = .error .keyError := by
  have hu : unpack3 sid = .ok (u, client, gid) := by unfold unpack3; rw [hsid]
  simp [idTokenMake, hu, wantsSessionId, hc]

end Verif
