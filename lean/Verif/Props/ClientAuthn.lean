import Verif.Model.ClientAuthn
import Verif.Spec.ClientAuthn
import Verif.Lemmas.Str
set_option linter.unusedSimpArgs false
set_option linter.unusedVariables false
/-! Client authentication: C40, C41, C44, C67, C68. -/
namespace Verif
open Spec

/-- The methods do not need more than the loop says. -/
theorem tryMethods_some {lib : AuthnLib} {cdb : Cdb} {targets : List Str} {r : AuthnReq} {jtis j : List Str}
    {ms : List (Option AuthnMethod)} {i : AuthInfo} (h : tryMethods lib cdb targets r jtis ms = (j, some i)) :
    ∃ m j0, some m ∈ ms ∧ m.usable r = true ∧ m.verify lib cdb targets j0 r = (j, .ok i) ∧ (∀ k ∈ jtis, k ∈ j0) := by
  induction ms generalizing jtis with
  | nil => simp [tryMethods] at h
  | cons o ms ih =>
    cases o with
    | none =>
      simp only [tryMethods] at h
      obtain ⟨m, j0, h1, h2, h3, h4⟩ := ih h
      exact ⟨m, j0, List.mem_cons_of_mem _ h1, h2, h3, h4⟩
    | some m =>
      simp only [tryMethods] at h
      by_cases hu : m.usable r = true
      · simp only [hu, if_true] at h
        cases hv : m.verify lib cdb targets jtis r with
        | mk j' e =>
          simp only [hv] at h
          cases e with
          | ok i' =>
            simp only [Prod.mk.injEq, Option.some.injEq] at h
            obtain ⟨rfl, rfl⟩ := h
            exact ⟨m, jtis, by simp, hu, hv, fun k hk => hk⟩
          | error e =>
            simp only at h
            obtain ⟨m', j0, h1, h2, h3, h4⟩ := ih h
            refine ⟨m', j0, List.mem_cons_of_mem _ h1, h2, h3, fun k hk => h4 k ?_⟩
            exact verify_mono hv k hk
      · simp only [hu] at h
        obtain ⟨m', j0, h1, h2, h3, h4⟩ := ih h
        exact ⟨m', j0, List.mem_cons_of_mem _ h1, h2, h3, h4⟩
where
  jtiUse_mono {jtis j : List Str} {a : Assertion} (h : jtiUse jtis a = .ok j) (k : Str) (hk : k ∈ jtis) : k ∈ j := by
    unfold jtiUse at h
    cases ha : a.jti with
    | none => simp [ha] at h; rw [← h]; exact hk
    | some x =>
      simp only [ha] at h
      split at h
      · cases h; exact hk
      · split at h
        · cases h
        · cases h; exact List.mem_cons_of_mem _ hk
  jwsVerify_mono {lib : AuthnLib} {cdb : Cdb} {targets jtis j : List Str} {ca : Str} {b : Bool} {e : Except Exn Assertion}
      (h : jwsVerify lib cdb targets jtis ca b = (j, e)) (k : Str) (hk : k ∈ jtis) : k ∈ j := by
    unfold jwsVerify at h
    split at h
    · cases h; exact hk
    · split at h
      · cases h; exact hk
      · split at h
        · cases h; exact hk
        · split at h
          · cases h; exact hk
          · cases h; rename_i hj; exact jtiUse_mono hj k hk
  verify_mono {lib : AuthnLib} {cdb : Cdb} {targets jtis j : List Str} {r : AuthnReq} {m : AuthnMethod} {e : Except Exn AuthInfo}
      (h : m.verify lib cdb targets jtis r = (j, e)) (k : Str) (hk : k ∈ jtis) : k ∈ j := by
    cases m <;> simp only [AuthnMethod.verify] at h
    · split at h
      · cases h; exact hk
      · split at h <;> (cases h; exact hk)
    · split at h
      · split at h <;> (cases h; exact hk)
      · cases h; exact hk
    · cases h; exact hk
    · split at h <;> (cases h; exact hk)
    · split at h
      · cases h; rename_i hj; exact jwsVerify_mono hj k hk
      · cases h; rename_i hj; exact jwsVerify_mono hj k hk
    · split at h
      · cases h; rename_i hj; exact jwsVerify_mono hj k hk
      · cases h; rename_i hj; exact jwsVerify_mono hj k hk
    · split at h
      · cases h; exact hk
      · split at h
        · cases h; exact hk
        · cases h; rename_i hj; exact jtiUse_mono hj k hk

/-- A header accepted by `basic_authn` is a Basic header of exactly two parts. -/
theorem basicAuthn_ok {lib : AuthnLib} {a c s : Str} (h : basicAuthn lib a = .ok (c, s)) :
    ∃ b x y, a = c!"Basic " ++ b ∧ lib.b64decode b = some (x ++ c!":" ++ y) ∧ ':' ∉ x ∧ ':' ∉ y ∧
      lib.unquotePlus x = c ∧ lib.unquotePlus y = s := by
  unfold basicAuthn at h
  split at h
  · cases h
  · rename_i hp
    rw [Bool.not_eq_false] at hp
    cases hb : lib.b64decode (a.drop 6) with
    | none => simp [hb] at h
    | some t =>
      simp only [hb] at h
      have hs := split_one_spec ':' t
      split at h
      · rename_i i sec hm
        cases h
        obtain ⟨x, l, hl, hx, hm2⟩ := List.map_eq_cons_iff.1 hm
        obtain ⟨y, l2, hl2, hy, hm3⟩ := List.map_eq_cons_iff.1 hm2
        have hl3 : l2 = [] := List.map_eq_nil_iff.1 hm3
        subst hl3
        subst hl2
        change pySplit [':'] t = _ at hl
        rw [hl] at hs
        refine ⟨a.drop 6, x, y, ?_, ?_, hs.2 x (by simp), hs.2 y (by simp), hx, hy⟩
        · obtain ⟨r, hr⟩ := List.isPrefixOf_iff_prefix.1 hp
          rw [← hr]; rfl
        · rw [hb, ← hs.1]; simp [pyJoin]
      · cases h

/-- A correctly formed Basic header is taken apart as it was put together. -/
theorem basicAuthn_of {lib : AuthnLib} {b x y : Str} (hb : lib.b64decode b = some (x ++ c!":" ++ y)) (hx : ':' ∉ x)
    (hy : ':' ∉ y) : basicAuthn lib (c!"Basic " ++ b) = .ok (lib.unquotePlus x, lib.unquotePlus y) := by
  unfold basicAuthn
  have h1 : c!"Basic ".isPrefixOf (c!"Basic " ++ b) = true := by
    rw [List.isPrefixOf_iff_prefix]; exact List.prefix_append _ _
  rw [if_neg (by simp [h1])]
  have h2 : (c!"Basic " ++ b).drop 6 = b := rfl
  rw [h2, hb]
  have h3 : pySplit c!":" (x ++ c!":" ++ y) = [x, y] := by
    have := split_one_join ':' [x, y] (by simp) (by
      intro p hp; simp at hp; rcases hp with rfl | rfl <;> assumption)
    simpa [pyJoin] using this
  simp only [h3, List.map_cons, List.map_nil]

theorem checkSecret_ok {cdb : Cdb} {c s : Str} (h : checkSecret cdb c s = .ok ()) :
    ∃ cl, cdb c = some cl ∧ cl.clientSecret = some s := by
  unfold checkSecret at h
  cases hc : cdb c with
  | none => simp [hc] at h
  | some cl =>
    simp only [hc] at h
    cases hs : cl.clientSecret with
    | none => simp [hs] at h
    | some t =>
      simp only [hs] at h
      split at h
      · rename_i he; subst he; exact ⟨cl, rfl, hs⟩
      · cases h

theorem checkSecret_of {cdb : Cdb} {c s : Str} {cl : Client} (h : cdb c = some cl) (hs : cl.clientSecret = some s) :
    checkSecret cdb c s = .ok () := by simp [checkSecret, h, hs]

theorem validClientInfo_iff {cl : Client} {now : Int} : validClientInfo cl now = true ↔ NotExpired cl now := by
  unfold validClientInfo NotExpired
  simp only [Bool.not_eq_true', decide_eq_false_iff_not]
  omega

/-- The end of `verify_client` for a non-empty client id. -/
theorem finishClient_ok {cdb : Cdb} {now : Int} {ft : Str → Except Exn Str} {i i' : AuthInfo} {c : Str}
    (hc : i.clientId = some c) (hne : c ≠ []) (h : finishClient cdb now ft i = .ok i') :
    i' = i ∧ ∃ cl, cdb c = some cl ∧ NotExpired cl now := by
  unfold finishClient at h
  cases c with
  | nil => exact absurd rfl hne
  | cons x xs =>
    simp only [hc] at h
    cases hd : cdb (x :: xs) with
    | none => simp [hd] at h
    | some cl =>
      simp only [hd] at h
      split at h
      · rename_i hv; cases h; exact ⟨rfl, cl, rfl, validClientInfo_iff.1 hv⟩
      · cases h

theorem finishClient_of {cdb : Cdb} {now : Int} {ft : Str → Except Exn Str} {i : AuthInfo} {c : Str} {cl : Client}
    (hc : i.clientId = some c) (hne : c ≠ []) (hcl : cdb c = some cl) (hv : NotExpired cl now) :
    finishClient cdb now ft i = .ok i := by
  unfold finishClient
  cases c with
  | nil => exact absurd rfl hne
  | cons x xs => simp [hc, hcl, validClientInfo_iff.2 hv]

theorem except_map_ok {α β : Type} {f : α → β} {e : Except Exn α} {b : β} (h : e.map f = .ok b) : ∃ a, e = .ok a ∧ f a = b := by
  cases e with
  | error e => cases h
  | ok a => exact ⟨a, rfl, by cases h; rfl⟩

/-- **C40**: with secret-based methods only, a client id comes out only if the request presents the secret stored for that
very client, and the secret has not expired. -/
theorem C40_secret_sound (lib : AuthnLib) (cdb : Cdb) (now : Int) (methods : List (Option AuthnMethod)) (targets : List Str)
    (ft : Str → Except Exn Str) (jtis j : List Str) (r : AuthnReq) (i : AuthInfo) (hm : SecretOnly methods)
    (h : verifyClient lib cdb now methods targets ft jtis r = (j, .ok (some i))) :
    ∃ c cl s, i.clientId = some c ∧ cdb c = some cl ∧ cl.clientSecret = some s ∧ Presents lib r c s ∧ NotExpired cl now := by
  have hn : none ∉ methods := fun hn => by rcases hm _ hn with h | h <;> cases h
  unfold verifyClient at h
  cases ht : tryMethods lib cdb targets r jtis methods with
  | mk j' o =>
    simp only [ht] at h
    cases o with
    | none => simp only [if_neg hn] at h; cases h
    | some i0 =>
      simp only [Prod.mk.injEq] at h
      obtain ⟨i1, hf, hi⟩ := except_map_ok h.2
      cases hi
      obtain ⟨m, j0, hmem, hu, hv, -⟩ := tryMethods_some ht
      have key : ∃ c cl s, i0.clientId = some c ∧ i0.token = none ∧ cdb c = some cl ∧ cl.clientSecret = some s ∧
          Presents lib r c s := by
        rcases hm _ hmem with hb | hb <;> cases hb
        · simp only [AuthnMethod.verify] at hv
          split at hv
          · cases hv
          · rename_i c s hb
            split at hv
            · cases hv
            · rename_i hs
              cases hv
              obtain ⟨cl, h1, h2⟩ := checkSecret_ok hs
              obtain ⟨b, x, y, e1, e2, e3, e4, e5, e6⟩ := basicAuthn_ok hb
              refine ⟨c, cl, s, rfl, rfl, h1, h2, .inl ⟨b, x, y, ?_, e2, e3, e4, e5, e6⟩⟩
              cases ha : r.authorization with
              | none => simp [AuthnMethod.usable, ha] at hu
              | some a => simp [ha] at e1; rw [e1]; rfl
        · simp only [AuthnMethod.verify] at hv
          split at hv
          · rename_i c s h1 h2
            split at hv
            · cases hv
            · rename_i hs
              cases hv
              obtain ⟨cl, h3, h4⟩ := checkSecret_ok hs
              exact ⟨c, cl, s, rfl, rfl, h3, h4, .inr ⟨h1, h2⟩⟩
          · cases hv
      obtain ⟨c, cl, s, h1, h2, h3, h4, h5⟩ := key
      by_cases hc : c = []
      · subst hc; simp [finishClient, h1, h2] at hf
      · obtain ⟨e, cl', h6, h7⟩ := finishClient_ok h1 hc hf
        subst e
        rw [h3] at h6; cases h6
        exact ⟨c, cl, s, h1, h3, h4, h5, h7⟩

/-- **C40**, second half: if no method of the endpoint applies to the request (and `none` is not allowed), there is no client
id, the endpoint refuses the request, and nothing is recorded. -/
theorem C40_no_method (lib : AuthnLib) (cdb : Cdb) (now : Int) (methods : List (Option AuthnMethod)) (targets : List Str)
    (ft : Str → Except Exn Str) (jtis : List Str) (r : AuthnReq) (hn : none ∉ methods)
    (hu : ∀ m, some m ∈ methods → m.usable r = false) :
    verifyClient lib cdb now methods targets ft jtis r = (jtis, .ok none) ∧
      (methods ≠ [] → clientAuthentication lib cdb now methods targets ft jtis r = (jtis, .error .unAuthorizedClient)) := by
  have ht : tryMethods lib cdb targets r jtis methods = (jtis, none) := by
    clear hn
    induction methods with
    | nil => rfl
    | cons o ms ih =>
      have := ih fun m hm => hu m (List.mem_cons_of_mem _ hm)
      cases o with
      | none => simpa [tryMethods] using this
      | some m => simpa [tryMethods, hu m (by simp)] using this
  have hv : verifyClient lib cdb now methods targets ft jtis r = (jtis, .ok none) := by simp [verifyClient, ht, hn]
  refine ⟨hv, fun hne => ?_⟩
  simp [clientAuthentication, hv, hne]

/-- The names of the authentication methods (those of OpenID Connect Core section 9, and the library's own). -/
def Spec.methodName : AuthnMethod → String
  | .clientSecretBasic => "client_secret_basic"
  | .clientSecretPost => "client_secret_post"
  | .bearerHeader => "bearer_header"
  | .bearerBody => "bearer_body"
  | .clientSecretJwt => "client_secret_jwt"
  | .privateKeyJwt => "private_key_jwt"
  | .requestParam => "request_param"

/-- **C40**: the method reported to the endpoint is one that the endpoint is configured with and that the request can be used with;
or "none", if that is configured. -/
theorem C40_reported_method (lib : AuthnLib) (cdb : Cdb) (now : Int) (methods : List (Option AuthnMethod)) (targets : List Str)
    (ft : Str → Except Exn Str) (jtis j : List Str) (r : AuthnReq) (i : AuthInfo)
    (h : clientAuthentication lib cdb now methods targets ft jtis r = (j, .ok (some i))) :
    (∃ m, some m ∈ methods ∧ m.usable r = true ∧ i.method = (Spec.methodName m).toList) ∨
      (none ∈ methods ∧ i.method = "none".toList) := by
  have hfin : ∀ i0 i1 : AuthInfo, finishClient cdb now ft i0 = .ok i1 → i1.method = i0.method := by
    intro i0 i1 hf
    unfold finishClient at hf
    split at hf
    · split at hf
      · cases hf
      · split at hf <;> cases hf
        rfl
    · split at hf
      · cases hf
      · cases hf
      · split at hf
        · cases hf; rfl
        · split at hf <;> cases hf
  have htag : ∀ m : AuthnMethod, m.tag = (Spec.methodName m).toList := by intro m; cases m <;> decide
  have hver : ∀ (m : AuthnMethod) (j0 j1 : List Str) (x : AuthInfo), m.verify lib cdb targets j0 r = (j1, .ok x) → x.method = m.tag := by
    intro m j0 j1 x hx
    cases m <;> simp only [AuthnMethod.verify] at hx <;> (repeat' split at hx) <;>
      simp only [Prod.mk.injEq, Except.ok.injEq, reduceCtorEq, and_false] at hx <;> rw [← hx.2]
  unfold clientAuthentication verifyClient at h
  cases ht : tryMethods lib cdb targets r jtis methods with
  | mk j1 o =>
    rw [ht] at h
    cases o with
    | some i0 =>
      obtain ⟨m, j0, h1, h2, h3, _⟩ := tryMethods_some ht
      dsimp only at h
      cases hf : finishClient cdb now ft i0 with
      | error e => simp [hf, Except.map] at h
      | ok i1 =>
        simp only [hf, Except.map, Prod.mk.injEq, Except.ok.injEq, Option.some.injEq] at h
        refine .inl ⟨m, h1, h2, ?_⟩
        rw [← h.2, hfin _ _ hf, hver _ _ _ _ h3, htag]
    | none =>
      dsimp only at h
      by_cases hn : none ∈ methods
      · rw [if_pos hn] at h
        cases hf : finishClient cdb now ft { method := c!"none", clientId := r.clientId } with
        | error e => simp [hf, Except.map] at h
        | ok i1 =>
          simp only [hf, Except.map, Prod.mk.injEq, Except.ok.injEq, Option.some.injEq] at h
          refine .inr ⟨hn, ?_⟩
          rw [← h.2, hfin _ _ hf]
          rfl
      · rw [if_neg hn] at h
        dsimp only at h
        split at h <;> cases h

/-- **C40**, the endpoint: with secret-based methods the request goes on only as that of the client whose secret was presented;
its own client_id parameter is replaced. -/
theorem C40_request_client (lib : AuthnLib) (cdb : Cdb) (now : Int) (methods : List (Option AuthnMethod)) (targets : List Str)
    (ft : Str → Except Exn Str) (jtis j : List Str) (r : AuthnReq) (o : Option AuthInfo) (hm : SecretOnly methods)
    (hne : methods ≠ []) (h : clientAuthentication lib cdb now methods targets ft jtis r = (j, .ok o)) :
    ∃ c cl s, requestClient r o = some c ∧ cdb c = some cl ∧ cl.clientSecret = some s ∧ Presents lib r c s ∧
      NotExpired cl now := by
  unfold clientAuthentication at h
  cases hv : verifyClient lib cdb now methods targets ft jtis r with
  | mk j' e =>
    simp only [hv] at h
    cases e with
    | error e => cases h
    | ok o' =>
      cases o' with
      | none => simp [hne] at h
      | some i =>
        cases h
        obtain ⟨c, cl, s, h1, h2⟩ := C40_secret_sound lib cdb now methods targets ft jtis _ r i hm hv
        exact ⟨c, cl, s, by simp [requestClient, h1], h2⟩

/-- **C40**, completeness: a client that presents its unexpired secret, in the way the endpoint allows, is authenticated. -/
theorem C40_secret_accepted (lib : AuthnLib) (cdb : Cdb) (now : Int) (targets : List Str) (ft : Str → Except Exn Str)
    (jtis : List Str) (r : AuthnReq) (c s : Str) (cl : Client) (hne : c ≠ []) (hc : cdb c = some cl)
    (hs : cl.clientSecret = some s) (he : NotExpired cl now) (hp : Presents lib r c s)
    (hone : r.authorization = none ∨ r.clientSecret = none) :
    ∃ i, clientAuthentication lib cdb now [some .clientSecretBasic, some .clientSecretPost] targets ft jtis r = (jtis, .ok (some i)) ∧
      i.clientId = some c := by
  rcases hp with ⟨b, x, y, h1, h2, h3, h4, h5, h6⟩ | ⟨h1, h2⟩
  · have hb := basicAuthn_of h2 h3 h4
    rw [h5, h6] at hb
    have hu : AuthnMethod.usable .clientSecretBasic r = true := by
      simp only [AuthnMethod.usable, h1]
      rw [List.isPrefixOf_iff_prefix]; exact List.prefix_append _ _
    have hv : AuthnMethod.verify .clientSecretBasic lib cdb targets jtis r =
        (jtis, .ok { method := AuthnMethod.tag .clientSecretBasic, clientId := some c }) := by
      simp only [AuthnMethod.verify, h1, Option.getD_some, hb, checkSecret_of hc hs]
    refine ⟨{ method := AuthnMethod.tag .clientSecretBasic, clientId := some c }, ?_, rfl⟩
    simp only [clientAuthentication, verifyClient, tryMethods, hu, if_true, hv]
    rw [finishClient_of (i := { method := AuthnMethod.tag .clientSecretBasic, clientId := some c }) rfl hne hc he]
    rfl
  · have ha : r.authorization = none := by
      rcases hone with h | h
      · exact h
      · rw [h2] at h; cases h
    have hu : AuthnMethod.usable .clientSecretBasic r = false := by simp [AuthnMethod.usable, ha]
    have hu2 : AuthnMethod.usable .clientSecretPost r = true := by simp [AuthnMethod.usable, h1, h2]
    have hv : AuthnMethod.verify .clientSecretPost lib cdb targets jtis r =
        (jtis, .ok { method := AuthnMethod.tag .clientSecretPost, clientId := some c }) := by
      simp only [AuthnMethod.verify, h1, h2, checkSecret_of hc hs]
    refine ⟨{ method := AuthnMethod.tag .clientSecretPost, clientId := some c }, ?_, rfl⟩
    simp only [clientAuthentication, verifyClient, tryMethods, hu, hu2, if_true, hv]
    simp only [Bool.false_eq_true, if_false]
    rw [finishClient_of (i := { method := AuthnMethod.tag .clientSecretPost, clientId := some c }) rfl hne hc he]
    rfl

/-- A toy library: base64 and quoting are the identity; an assertion is one of two known strings. -/
def authnLib : AuthnLib where
  b64decode s := some s
  unquotePlus s := s
  unpack s :=
    if s = c!"jwt" then
      some { alg := c!"HS256", iss := c!"c1", aud := [c!"https://op/token"], jti := some c!"1", signedWith := c!"s1" }
    else if s = c!"old" then
      some { alg := c!"HS256", iss := c!"c1", aud := [c!"https://op/token"], signedWith := c!"leaked" }
    else if s = c!"odd" then
      some { alg := c!"HS256", iss := c!"c1:1", aud := [c!"https://op/token"], jti := some c!"2", signedWith := c!"s9" }
    else if s = c!"odd2" then
      some { alg := c!"HS256", iss := c!"c1", aud := [c!"https://op/token"], jti := some c!"1:2", signedWith := c!"s1" }
    else none
  firstOctKey c _ := if c = c!"c1" then some c!"s1" else if c = c!"c1:1" then some c!"s9" else none

/-- Two clients with secrets, and one whose id contains a colon. -/
def authnCdb : Cdb := fun c =>
  if c = c!"c1" then some { clientSecret := some c!"s1" }
  else if c = c!"c2" then some { clientSecret := some c!"s2", clientSecretExpiresAt := 100 }
  else if c = c!"c1:1" then some { clientSecret := some c!"s9" }
  else none

/-- c1 logs in by header, c2 by form until its secret expires; a wrong secret does not do. -/
example :
    (clientAuthentication authnLib authnCdb 50 [some .clientSecretBasic, some .clientSecretPost] [] (fun _ => .ok []) []
      { authorization := some c!"Basic c1:s1", clientId := some c!"c2" }).2.toOption.map (·.map (·.clientId)) = some (some (some c!"c1")) ∧
    (clientAuthentication authnLib authnCdb 50 [some .clientSecretBasic, some .clientSecretPost] [] (fun _ => .ok []) []
      { clientId := some c!"c2", clientSecret := some c!"s2" }).2.toOption.map (·.map (·.clientId)) = some (some (some c!"c2")) ∧
    (clientAuthentication authnLib authnCdb 101 [some .clientSecretBasic, some .clientSecretPost] [] (fun _ => .ok []) []
      { clientId := some c!"c2", clientSecret := some c!"s2" }).2 = .error .invalidClient ∧
    (clientAuthentication authnLib authnCdb 50 [some .clientSecretBasic, some .clientSecretPost] [] (fun _ => .ok []) []
      { clientId := some c!"c2", clientSecret := some c!"s1" }).2 = .error .unAuthorizedClient := by decide


/-- What the JWT methods guarantee about the assertion they accept. -/
theorem jwsVerify_ok {lib : AuthnLib} {cdb : Cdb} {targets jtis j : List Str} {ca : Str} {b : Bool} {a : Assertion}
    (h : jwsVerify lib cdb targets jtis ca b = (j, .ok a)) :
    lib.unpack ca = some a ∧ keyTypeCheck lib cdb a b = .ok () ∧ (∃ x ∈ a.aud, x ∈ targets) ∧ jtiUse jtis a = .ok j := by
  unfold jwsVerify at h
  split at h
  · cases h
  · rename_i a' hu
    split at h
    · cases h
    · rename_i hk
      split at h
      · cases h
      · rename_i ha
        rw [Bool.not_eq_false] at ha
        split at h
        · cases h
        · rename_i j' hj
          cases h
          refine ⟨hu, hk, ?_, hj⟩
          simpa using ha

theorem jtiUse_ok {jtis j : List Str} {a : Assertion} {x : Str} (h : jtiUse jtis a = .ok j) (hx : a.jti = some x) (hne : x ≠ []) :
    a.iss ++ c!":" ++ x ∉ jtis ∧ a.iss ++ c!":" ++ x ∈ j := by
  unfold jtiUse at h
  simp only [hx, hne, if_false] at h
  split at h
  · cases h
  · rename_i hk
    cases h
    exact ⟨hk, by simp⟩

/-- The methods that yield an assertion. -/
theorem verify_assertion {lib : AuthnLib} {cdb : Cdb} {targets jtis j : List Str} {r : AuthnReq} {m : AuthnMethod} {i : AuthInfo}
    {a : Assertion} (h : m.verify lib cdb targets jtis r = (j, .ok i)) (ha : i.assertion = some a) :
    jtiUse jtis a = .ok j ∧ i.method = m.tag ∧ i.clientId = some a.iss ∧ i.token = none ∧
      (m = .requestParam ∨
        ((m = .clientSecretJwt ∨ m = .privateKeyJwt) ∧ lib.unpack (r.clientAssertion.getD []) = some a ∧
          keyTypeCheck lib cdb a (decide (m = .clientSecretJwt)) = .ok () ∧ ∃ x ∈ a.aud, x ∈ targets)) := by
  cases m <;> simp only [AuthnMethod.verify] at h
  · split at h
    · cases h
    · split at h <;> cases h
      cases ha
  · split at h
    · split at h <;> cases h
      cases ha
    · cases h
  · cases h; cases ha
  · split at h <;> cases h
    cases ha
  · split at h
    · cases h
    · rename_i hj
      cases h
      cases ha
      obtain ⟨h1, h2, h3, h4⟩ := jwsVerify_ok hj
      exact ⟨h4, rfl, rfl, rfl, .inr ⟨.inl rfl, h1, h2, h3⟩⟩
  · split at h
    · cases h
    · rename_i hj
      cases h
      cases ha
      obtain ⟨h1, h2, h3, h4⟩ := jwsVerify_ok hj
      exact ⟨h4, rfl, rfl, rfl, .inr ⟨.inr rfl, h1, h2, h3⟩⟩
  · split at h
    · cases h
    · split at h
      · cases h
      · rename_i hj
        cases h
        cases ha
        exact ⟨hj, rfl, rfl, rfl, .inl rfl⟩

theorem finishClient_keeps {cdb : Cdb} {now : Int} {ft : Str → Except Exn Str} {i i' : AuthInfo}
    (h : finishClient cdb now ft i = .ok i') : i'.assertion = i.assertion ∧ i'.method = i.method := by
  unfold finishClient at h
  split at h
  · split at h
    · cases h
    · split at h
      · cases h; exact ⟨rfl, rfl⟩
      · cases h
  · split at h
    · cases h
    · cases h
    · split at h
      · cases h; exact ⟨rfl, rfl⟩
      · split at h <;> cases h

/-- An accepted assertion was accepted by one of the methods, from a record of seen keys that has not lost any. -/
theorem verifyClient_assertion {lib : AuthnLib} {cdb : Cdb} {now : Int} {methods : List (Option AuthnMethod)} {targets : List Str}
    {ft : Str → Except Exn Str} {jtis j : List Str} {r : AuthnReq} {i : AuthInfo} {a : Assertion}
    (h : verifyClient lib cdb now methods targets ft jtis r = (j, .ok (some i))) (ha : i.assertion = some a) :
    ∃ m j0 i0, some m ∈ methods ∧ m.usable r = true ∧ m.verify lib cdb targets j0 r = (j, .ok i0) ∧ (∀ k ∈ jtis, k ∈ j0) ∧
      i0.assertion = some a ∧ i0.method = i.method ∧ finishClient cdb now ft i0 = .ok i := by
  unfold verifyClient at h
  cases ht : tryMethods lib cdb targets r jtis methods with
  | mk j' o =>
    simp only [ht] at h
    cases o with
    | none =>
      simp only at h
      split at h
      · simp only [Prod.mk.injEq] at h
        obtain ⟨i1, hf, hi⟩ := except_map_ok h.2
        cases hi
        have := (finishClient_keeps hf).1
        rw [ha] at this
        cases this
      · cases h
    | some i0 =>
      simp only [Prod.mk.injEq] at h
      obtain ⟨rfl, h⟩ := h
      obtain ⟨i1, hf, hi⟩ := except_map_ok h
      cases hi
      obtain ⟨m, j0, h1, h2, h3, h4⟩ := tryMethods_some ht
      obtain ⟨h5, h6⟩ := finishClient_keeps hf
      exact ⟨m, j0, i0, h1, h2, h3, h4, by rw [← h5, ha], h6.symm, hf⟩

theorem tryMethods_mono {lib : AuthnLib} {cdb : Cdb} {targets : List Str} {r : AuthnReq} {jtis : List Str}
    {ms : List (Option AuthnMethod)} (k : Str) (hk : k ∈ jtis) : k ∈ (tryMethods lib cdb targets r jtis ms).1 := by
  induction ms generalizing jtis with
  | nil => exact hk
  | cons o ms ih =>
    cases o with
    | none => simpa only [tryMethods] using ih hk
    | some m =>
      simp only [tryMethods]
      split
      · cases hv : m.verify lib cdb targets jtis r with
        | mk j e =>
          have := tryMethods_some.verify_mono hv k hk
          cases e with
          | ok i => exact this
          | error e => exact ih this
      · exact ih hk

theorem verifyClient_mono {lib : AuthnLib} {cdb : Cdb} {now : Int} {methods : List (Option AuthnMethod)} {targets : List Str}
    {ft : Str → Except Exn Str} {jtis : List Str} {r : AuthnReq} (k : Str) (hk : k ∈ jtis) :
    k ∈ (verifyClient lib cdb now methods targets ft jtis r).1 := by
  have := tryMethods_mono (lib := lib) (cdb := cdb) (targets := targets) (r := r) (ms := methods) k hk
  unfold verifyClient
  cases ht : tryMethods lib cdb targets r jtis methods with
  | mk j o =>
    rw [ht] at this
    cases o with
    | some i => exact this
    | none => simp only; split <;> exact this

theorem jtisAfter_succ (lib : AuthnLib) (l : List AuthnStep) (k : Nat) (st : AuthnStep) (h : l[k]? = some st) :
    jtisAfter lib (l.take (k + 1)) =
      (verifyClient lib st.cdb st.now st.methods st.targets st.fromToken (jtisAfter lib (l.take k)) st.req).1 := by
  rw [List.take_add_one, h]
  simp [jtisAfter, List.foldl_append]

theorem jtisAfter_mono (lib : AuthnLib) (l : List AuthnStep) (x : Str) (n d : Nat) (h : x ∈ jtisAfter lib (l.take n)) :
    x ∈ jtisAfter lib (l.take (n + d)) := by
  induction d with
  | zero => exact h
  | succ d ih =>
    rw [Nat.add_succ]
    cases hl : l[n + d]? with
    | none =>
      rw [Nat.succ_eq_add_one, List.take_add_one, hl]
      simpa using ih
    | some st =>
      rw [Nat.succ_eq_add_one, jtisAfter_succ lib l _ st hl]
      exact verifyClient_mono x ih

theorem acceptedAt_some {lib : AuthnLib} {l : List AuthnStep} {k : Nat} {m : Str} {a : Assertion}
    (h : acceptedAt lib l k = some (m, a)) :
    ∃ st i, l[k]? = some st ∧
      verifyClient lib st.cdb st.now st.methods st.targets st.fromToken (jtisAfter lib (l.take k)) st.req =
        (jtisAfter lib (l.take (k + 1)), .ok (some i)) ∧ i.assertion = some a ∧ i.method = m := by
  unfold acceptedAt at h
  cases hl : l[k]? with
  | none => simp [hl] at h
  | some st =>
    simp only [hl] at h
    cases hv : verifyClient lib st.cdb st.now st.methods st.targets st.fromToken (jtisAfter lib (l.take k)) st.req with
    | mk j e =>
      have hj := jtisAfter_succ lib l k st hl
      rw [hv] at hj h
      simp only at h hj
      cases e with
      | error e => simp at h
      | ok o =>
        cases o with
        | none => simp at h
        | some i =>
          simp only [Option.map_eq_some_iff, Prod.mk.injEq] at h
          obtain ⟨a', h1, h2, h3⟩ := h
          subst h3
          exact ⟨st, i, rfl, by rw [hj, hv], h1, h2⟩

/-- **C41**: in every history of client authentications, over any endpoints, clients and times, each pair of issuer and `jti`
is accepted at most once. -/
theorem C41_accepted_once (lib : AuthnLib) (l : List AuthnStep) (k k' : Nat) (hlt : k < k') (m m' : Str) (a a' : Assertion) (x : Str)
    (h : acceptedAt lib l k = some (m, a)) (h' : acceptedAt lib l k' = some (m', a')) (hx : a.jti = some x) (hne : x ≠ []) :
    ¬ (a'.iss = a.iss ∧ a'.jti = some x) := by
  rintro ⟨h1, h2⟩
  obtain ⟨st, i, -, hv, hi, -⟩ := acceptedAt_some h
  obtain ⟨st', i', -, hv', hi', -⟩ := acceptedAt_some h'
  obtain ⟨mm, j0, i0, -, -, hm, -, ha, -, -⟩ := verifyClient_assertion hv hi
  obtain ⟨mm', j0', i0', -, -, hm', hsub, ha', -, -⟩ := verifyClient_assertion hv' hi'
  have e1 := (jtiUse_ok (verify_assertion hm ha).1 hx hne).2
  have e2 := (jtiUse_ok (verify_assertion hm' ha').1 h2 hne).1
  obtain ⟨d, rfl⟩ : ∃ d, k' = k + 1 + d := ⟨k' - (k + 1), by omega⟩
  have e3 := jtisAfter_mono lib l _ (k + 1) d e1
  apply e2
  rw [h1]
  exact hsub _ e3

/-- **C41**, audience: a client assertion is accepted (by `client_secret_jwt` or `private_key_jwt`) only if one of its audiences
is a target of the endpoint, and only for the client that issued it, which is registered and not expired. -/
theorem C41_audience (lib : AuthnLib) (cdb : Cdb) (now : Int) (methods : List (Option AuthnMethod)) (targets : List Str)
    (ft : Str → Except Exn Str) (jtis j : List Str) (r : AuthnReq) (i : AuthInfo) (a : Assertion)
    (h : verifyClient lib cdb now methods targets ft jtis r = (j, .ok (some i))) (ha : i.assertion = some a)
    (hm : some .requestParam ∉ methods) :
    (∃ x ∈ a.aud, x ∈ targets) ∧ i.clientId = some a.iss ∧ ∃ cl, cdb a.iss = some cl ∧ NotExpired cl now := by
  obtain ⟨m, j0, i0, h1, h2, h3, h4, h5, h6, h7⟩ := verifyClient_assertion h ha
  obtain ⟨g1, g2, g3, g4, g5⟩ := verify_assertion h3 h5
  rcases g5 with rfl | ⟨-, -, -, g6⟩
  · exact absurd h1 hm
  · refine ⟨g6, ?_⟩
    have hne : a.iss ≠ [] := by
      intro he
      rw [he] at g3
      simp [finishClient, g3, g4] at h7
    obtain ⟨e, cl, h8, h9⟩ := finishClient_ok g3 hne h7
    subst e
    exact ⟨g3, cl, h8, h9⟩

/-- **C41** is limited to `jti` keys: two different pairs of issuer and `jti` can share one ("a:b" and "c", "a" and "b:c"), and
then an assertion that was never seen is refused. -/
theorem C41_fresh_assertion_refused :
    ∃ (lib : AuthnLib) (st st' : AuthnStep) (a a' : Assertion) (m : Str),
      acceptedAt lib [st, st'] 0 = some (m, a) ∧ acceptedAt lib [st'] 0 = some (m, a') ∧ (a.iss, a.jti) ≠ (a'.iss, a'.jti) ∧
        acceptedAt lib [st, st'] 1 = none := by
  refine ⟨authnLib, ⟨authnCdb, 50, [some .clientSecretJwt], [c!"https://op/token"], fun _ => .ok [], { clientAssertion := some c!"odd" }⟩,
    ⟨authnCdb, 50, [some .clientSecretJwt], [c!"https://op/token"], fun _ => .ok [], { clientAssertion := some c!"odd2" }⟩,
    { alg := c!"HS256", iss := c!"c1:1", aud := [c!"https://op/token"], jti := some c!"2", signedWith := c!"s9" },
    { alg := c!"HS256", iss := c!"c1", aud := [c!"https://op/token"], jti := some c!"1:2", signedWith := c!"s1" },
    c!"client_secret_jwt", ?_⟩
  decide

/-- **C41** does not hold for `request_param`: it does not look at the audience. -/
theorem C41_request_param_any_audience (lib : AuthnLib) (cdb : Cdb) (now : Int) (ft : Str → Except Exn Str) (targets jtis : List Str)
    (r : AuthnReq) (w : Str) (a : Assertion) (cl : Client) (hr : r.request = some w) (hu : lib.unpack w = some a) (hj : a.jti = none)
    (hne : a.iss ≠ []) (hc : cdb a.iss = some cl) (hv : NotExpired cl now) :
    ∃ i, verifyClient lib cdb now [some .requestParam] targets ft jtis r = (jtis, .ok (some i)) ∧ i.clientId = some a.iss := by
  refine ⟨{ method := AuthnMethod.tag .requestParam, clientId := some a.iss, assertion := some a }, ?_, rfl⟩
  simp only [verifyClient, tryMethods, AuthnMethod.usable, hr, AuthnMethod.verify, Option.isSome_some, if_true, Option.getD_some, hu, jtiUse, hj]
  rw [finishClient_of (i := { method := AuthnMethod.tag .requestParam, clientId := some a.iss, assertion := some a }) rfl hne hc hv]
  rfl

/-- An assertion is accepted, its replay at another time is not. -/
example :
    acceptedAt authnLib
      [⟨authnCdb, 50, [some .privateKeyJwt, some .clientSecretJwt], [c!"https://op/token"], fun _ => .ok [], { clientAssertion := some c!"jwt" }⟩,
       ⟨authnCdb, 60, [some .clientSecretJwt], [c!"https://op/token"], fun _ => .ok [], { clientAssertion := some c!"jwt" }⟩] 0 =
      some (c!"client_secret_jwt", { alg := c!"HS256", iss := c!"c1", aud := [c!"https://op/token"], jti := some c!"1", signedWith := c!"s1" }) ∧
    acceptedAt authnLib
      [⟨authnCdb, 50, [some .privateKeyJwt, some .clientSecretJwt], [c!"https://op/token"], fun _ => .ok [], { clientAssertion := some c!"jwt" }⟩,
       ⟨authnCdb, 60, [some .clientSecretJwt], [c!"https://op/token"], fun _ => .ok [], { clientAssertion := some c!"jwt" }⟩] 1 = none := by
  decide

/-- **C67** is false of the code: where an endpoint allows `none` (also by configuring an empty list), any registered client is
impersonated by naming it, with no secret or with any secret. -/
theorem C67_no_credentials_needed (lib : AuthnLib) (cdb : Cdb) (now : Int) (methods : List (Option AuthnMethod)) (targets jtis : List Str)
    (ft : Str → Except Exn Str) (hn : none ∈ methods) (c : Str) (hne : c ≠ []) (cl : Client) (hc : cdb c = some cl)
    (hv : NotExpired cl now) (secret : Option Str) :
    ∃ i, clientAuthentication lib cdb now methods targets ft jtis { clientId := some c, clientSecret := secret } = (jtis, .ok (some i)) ∧
      i.clientId = some c := by
  have ht : ∀ ms : List (Option AuthnMethod), ∃ o, tryMethods lib cdb targets { clientId := some c, clientSecret := secret } jtis ms = (jtis, o) ∧
      ∀ i, o = some i → i.clientId = some c := by
    intro ms
    induction ms with
    | nil => exact ⟨none, rfl, by simp⟩
    | cons o ms ih =>
      cases o with
      | none => simpa only [tryMethods] using ih
      | some m =>
        cases m with
        | clientSecretPost =>
          cases secret with
          | none => simpa [tryMethods, AuthnMethod.usable] using ih
          | some s =>
            simp only [tryMethods, AuthnMethod.usable, Option.isSome_some, Bool.and_self, if_true, AuthnMethod.verify]
            cases hs : checkSecret cdb c s with
            | error e => exact ih
            | ok u => exact ⟨_, rfl, by rintro i hi; cases hi; rfl⟩
        | _ => simpa [tryMethods, AuthnMethod.usable] using ih
  obtain ⟨o, h1, h2⟩ := ht methods
  cases o with
  | none =>
    refine ⟨{ method := c!"none", clientId := some c }, ?_, rfl⟩
    simp only [clientAuthentication, verifyClient, h1, if_pos hn]
    rw [finishClient_of (i := { method := c!"none", clientId := some c }) rfl hne hc hv]
    rfl
  | some i =>
    refine ⟨i, ?_, h2 i rfl⟩
    simp only [clientAuthentication, verifyClient, h1]
    rw [finishClient_of (i := i) (h2 i rfl) hne hc hv]
    rfl

/-- An empty list in the configuration is the same as `none`. -/
theorem C67_empty_configuration (defaults : List (Option AuthnMethod)) : none ∈ endpointMethods (some []) defaults := by
  simp [endpointMethods]

/-- **C67**, what does hold: without `none` an endpoint with methods lets no request through that presents nothing. -/
theorem C67_credentials_needed_partial (lib : AuthnLib) (cdb : Cdb) (now : Int) (methods : List (Option AuthnMethod)) (targets jtis : List Str)
    (ft : Str → Except Exn Str) (hn : none ∉ methods) (hne : methods ≠ []) (c : Option Str) :
    clientAuthentication lib cdb now methods targets ft jtis { clientId := c } = (jtis, .error .unAuthorizedClient) :=
  (C40_no_method lib cdb now methods targets ft jtis { clientId := c } hn (by
    intro m _; cases m <;> simp [AuthnMethod.usable])).2 hne

example : clientAuthentication authnLib authnCdb 50 [some .clientSecretPost, none] [] (fun _ => .ok []) []
    { clientId := some c!"c1", clientSecret := some c!"wrong" } = ([], .ok (some { method := c!"none", clientId := some c!"c1" })) := by decide

/-- **C68**: when the key jar holds no symmetric key of the client but the one compared, an assertion accepted by
`client_secret_jwt` was signed with the client's stored secret. -/
theorem C68_signed_with_secret_partial (lib : AuthnLib) (cdb : Cdb) (now : Int) (targets : List Str)
    (ft : Str → Except Exn Str) (jtis j : List Str) (r : AuthnReq) (i : AuthInfo) (a : Assertion) (cl : Client) (s : Str)
    (hjar : ∀ w b, lib.unpack w = some b → c!"HS".isPrefixOf b.alg = true → lib.firstOctKey b.iss b.kid = some b.signedWith)
    (h : verifyClient lib cdb now [some .clientSecretJwt] targets ft jtis r = (j, .ok (some i))) (ha : i.assertion = some a)
    (hc : cdb a.iss = some cl) (hs : cl.clientSecret = some s) (hne : s ≠ []) :
    c!"HS".isPrefixOf a.alg = true ∧ a.signedWith = s := by
  obtain ⟨m, j0, i0, h1, h2, h3, h4, h5, h6, h7⟩ := verifyClient_assertion h ha
  simp only [List.mem_singleton, Option.some.injEq] at h1
  subst h1
  obtain ⟨g1, g2, g3, g4, g5⟩ := verify_assertion h3 h5
  rcases g5 with g5 | ⟨-, g5, g6, -⟩
  · cases g5
  · have hal : c!"HS".isPrefixOf a.alg = true := by
      cases hal : c!"HS".isPrefixOf a.alg with
      | true => rfl
      | false => simp [keyTypeCheck, hal] at g6
    refine ⟨hal, ?_⟩
    have hk := hjar _ _ g5 hal
    simp only [keyTypeCheck, hal, if_true, decide_true, hc, hs, hne, if_false, hk] at g6
    simpa using g6

/-- **C68** is false of the code in general: what is compared with the stored secret is the first symmetric key the jar holds for
the client, not the key that verified the signature; with an older key still in the jar, an assertion signed with that is
accepted. -/
theorem C68_signed_with_other_key :
    ∃ (lib : AuthnLib) (cdb : Cdb) (cl : Client) (a : Assertion) (i : AuthInfo) (w : Str),
      verifyClient lib cdb 50 [some .clientSecretJwt] [c!"https://op/token"] (fun _ => .ok []) [] { clientAssertion := some w } =
        ([], .ok (some i)) ∧ i.clientId = some c!"c1" ∧ i.assertion = some a ∧ cdb c!"c1" = some cl ∧
      some a.signedWith ≠ cl.clientSecret := by
  refine ⟨authnLib, authnCdb, { clientSecret := some c!"s1" },
    { alg := c!"HS256", iss := c!"c1", aud := [c!"https://op/token"], signedWith := c!"leaked" },
    { method := c!"client_secret_jwt", clientId := some c!"c1",
      assertion := some { alg := c!"HS256", iss := c!"c1", aud := [c!"https://op/token"], signedWith := c!"leaked" } }, c!"old", ?_⟩
  decide

/-- **C44**: with `bearer_header` as its method, the registration read endpoint shows a client's record only to a request whose
bearer token is a registration access token of that very client. -/
theorem C44_read_needs_token_partial (lib : AuthnLib) (cdb : Cdb) (rat : Str → Option Str) (now : Int) (targets jtis j : List Str)
    (r : AuthnReq) (c : Str) (cl : Client) (hcdb : cdb [] = none)
    (h : registrationRead lib cdb rat now [some .bearerHeader] targets jtis r = (j, .ok (c, cl))) :
    ∃ t, r.authorization = some (c!"Bearer " ++ t) ∧ rat t = some c ∧ r.clientId = some c ∧ cdb c = some cl := by
  unfold registrationRead clientAuthentication verifyClient at h
  simp only [tryMethods, AuthnMethod.usable] at h
  cases hau : r.authorization with
  | none => simp [hau] at h
  | some a =>
    simp only [hau] at h
    cases hp : c!"Bearer ".isPrefixOf a with
    | false => simp [hp] at h
    | true =>
      obtain ⟨t, rfl⟩ := List.isPrefixOf_iff_prefix.1 hp
      have hd : (c!"Bearer " ++ t).drop 7 = t := rfl
      simp only [hp, if_true, AuthnMethod.verify, hau, Option.getD_some, hd] at h
      refine ⟨t, rfl, ?_⟩
      cases t with
      | nil => simp [finishClient, Except.map] at h
      | cons x xs =>
        simp only [finishClient, regFromToken] at h
        cases hcl : r.clientId with
        | none => simp [hcl, Except.map, requestClient, hcdb] at h
        | some c0 =>
          simp only [hcl] at h
          cases hr : rat (x :: xs) with
          | none => simp [hr, Exn.isKeyError, Except.map] at h
          | some c1 =>
            simp only [hr] at h
            by_cases he : c0 = c1
            · subst he
              simp only [if_true, Except.map, requestClient] at h
              cases hdb : cdb c0 with
              | none => simp [hdb] at h
              | some cl0 =>
                simp only [hdb, Prod.mk.injEq, Except.ok.injEq] at h
                obtain ⟨-, rfl, rfl⟩ := h
                exact ⟨rfl, rfl, hdb⟩
            · simp [he, Except.map, requestClient, hcdb] at h

/-- **C44** is false of the endpoint as it is set up by default: it declares no authentication method, so everyone reads every
client's record. -/
theorem C44_default_is_open (lib : AuthnLib) (cdb : Cdb) (rat : Str → Option Str) (now : Int) (targets jtis : List Str) (r : AuthnReq)
    (c : Str) (cl : Client) (hr : r.clientId = some c) (hc : cdb c = some cl) :
    registrationRead lib cdb rat now (endpointMethods none []) targets jtis r = (jtis, .ok (c, cl)) := by
  simp [registrationRead, endpointMethods, clientAuthentication, verifyClient, tryMethods, requestClient, hr, hc]

/-- **C44** is false for `bearer_body` as well: any string will do as the token. -/
theorem C44_bearer_body_is_open (lib : AuthnLib) (cdb : Cdb) (rat : Str → Option Str) (now : Int) (targets jtis : List Str)
    (c t : Str) (cl : Client) (hne : c ≠ []) (hc : cdb c = some cl) (hv : NotExpired cl now) :
    registrationRead lib cdb rat now [some .bearerBody] targets jtis { clientId := some c, accessToken := some t } = (jtis, .ok (c, cl)) := by
  unfold registrationRead clientAuthentication verifyClient
  have hf : Option.filter (fun x => decide (x ≠ [])) (some c) = some c := by simp [hne]
  simp only [tryMethods, AuthnMethod.usable, AuthnMethod.verify, Option.isSome_some, if_true, hf]
  rw [finishClient_of (i := { method := AuthnMethod.tag .bearerBody, token := some t, clientId := some c }) rfl hne hc hv]
  simp [Except.map, requestClient, hc]

/-- c1's token opens c1's record and no other. -/
example :
    registrationRead authnLib authnCdb (fun t => if t = c!"rat1" then some c!"c1" else none) 50 [some .bearerHeader] [] []
      { authorization := some c!"Bearer rat1", clientId := some c!"c1" } = ([], .ok (c!"c1", { clientSecret := some c!"s1" })) ∧
    (registrationRead authnLib authnCdb (fun t => if t = c!"rat1" then some c!"c1" else none) 50 [some .bearerHeader] [] []
      { authorization := some c!"Bearer rat1", clientId := some c!"c2" }).2.toOption = none := by decide

end Verif
