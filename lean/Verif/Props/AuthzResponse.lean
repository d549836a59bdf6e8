import Verif.Model.Authorization
import Verif.Spec.Authorization
import Verif.Spec.Uri
import Verif.Props.Uri
set_option linter.unusedSimpArgs false
/-! C21, C23, C24, C26: what the authorization endpoint answers. -/
namespace Verif
open Spec

theorem sameSet_iff (a b : List Str) : sameSet a b = true ↔ ∀ x, x ∈ a ↔ x ∈ b := by
  unfold sameSet
  simp only [Bool.and_eq_true, List.all_eq_true, List.contains_iff_mem]
  exact ⟨fun h x => ⟨h.1 x, h.2 x⟩, fun h => ⟨fun x => (h x).1, fun x => (h x).2⟩⟩

theorem sameSet_code (a : List Str) : sameSet a [c!"code"] = true ↔ OnlyCode a := by
  rw [sameSet_iff]; simp [OnlyCode]

theorem verifyResponseType_iff (req : AuthReq) (c : Client) :
    verifyResponseType req c = true ↔ ResponseTypeRegistered c req.responseType := by
  unfold verifyResponseType ResponseTypeRegistered
  simp only
  by_cases h : c.responseTypes = []
  · simp only [h, List.map_nil, List.isEmpty_nil, if_true, List.any_cons, List.any_nil, Bool.or_false]
    exact sameSet_code _
  · have : (c.responseTypes.map fun rt => pySplit [' '] rt).isEmpty = false := by
      cases hc : c.responseTypes with
      | nil => exact absurd hc h
      | cons => rfl
    rw [if_neg h, this]
    simp only [Bool.false_eq_true, if_false, List.any_map, List.any_eq_true, Function.comp, sameSet_iff, words]

/-! ### The response -/

theorem codePart_ok {env : Env} {s : Store} {now : Int} {mc : MintIn} {sid : Str} {g : Grant} {req : AuthReq}
    {code : Option Token} (h : (codePart env s now mc sid g req).2.2 = .ok code) :
    code.isSome ↔ c!"code" ∈ req.responseType := by
  unfold codePart at h
  split at h
  · rename_i hm
    simp only [Except.map] at h
    split at h
    · cases h
    · cases h; simp [hm]
  · rename_i hm
    cases h; simp [hm]

theorem tokenPart_ok {env : Env} {s : Store} {now : Int} {ma : MintIn} {sid : Str} {g : Grant} {code : Option Token}
    {req : AuthReq} {tok : Option Token} (h : (tokenPart env s now ma sid g code req).2.2 = .ok tok) :
    tok.isSome ↔ c!"token" ∈ req.responseType := by
  unfold tokenPart at h
  split at h
  · rename_i hm
    simp only [Except.map] at h
    split at h
    · cases h
    · cases h; simp [hm]
  · rename_i hm
    cases h; simp [hm]

theorem idTokenPart_ok {s : Store} {idt : Out Str} {sid : Str} {req : AuthReq} {i : Option Str}
    (h : (idTokenPart s idt sid req).2 = .val i) : i.isSome ↔ c!"id_token" ∈ req.responseType := by
  unfold idTokenPart at h
  by_cases hm : c!"id_token" ∈ req.responseType
  · simp only [hm, if_true] at h
    cases idt with
    | raise e => simp at h
    | errMsg e => simp at h
    | val x =>
      simp only at h
      cases hu : unpack3 sid with
      | error e => simp [hu] at h
      | ok q =>
        obtain ⟨u, c, gi⟩ := q
        simp only [hu] at h
        cases hd : dbGet s [u, c] with
        | error e => simp [hd] at h
        | ok o =>
          simp only [hd] at h
          cases hw : (dbSet s [u, c] o).2 with
          | error e => simp [hw] at h
          | ok _ => simp [hw] at h; subst h; simp [hm]
  · simp [hm] at h; subst h; simp [hm]

/-- What a successful `create_authn_response` returns. -/
theorem createAuthnResponse_val (env : Env) (s : Store) (now : Int) (mc ma : MintIn) (idt : Out Str) (req : AuthReq)
    (sid : Str) (a : RespArgs) (frag : Bool)
    (h : (createAuthnResponse env s now mc ma idt req sid).2 = .ok (.val a, frag)) :
    (req.responseType = [c!"none"] ∧ frag = false ∧ a = { state := returnedState req }) ∨
    ((∀ x ∈ req.responseType, x ∈ supportedTypes) ∧ (frag = true ↔ ¬ OnlyCode req.responseType) ∧
      (a.code.isSome ↔ c!"code" ∈ req.responseType) ∧ (a.accessToken.isSome ↔ c!"token" ∈ req.responseType) ∧
      (a.idToken.isSome ↔ c!"id_token" ∈ req.responseType) ∧ a.state = returnedState req ∧ a.scope = req.scope) := by
  unfold createAuthnResponse at h
  by_cases hn : req.responseType = [c!"none"]
  · simp only [hn, if_true] at h
    simp at h
    exact .inl ⟨hn, h.2, h.1.symm⟩
  · right
    simp only [hn, if_false] at h
    cases hg : getGrant s sid with
    | error e => simp [hg] at h
    | ok g =>
      simp only [hg] at h
      cases h1 : (codePart env s now mc sid g req).2.2 with
      | error e => simp [h1] at h
      | ok code =>
        simp only [h1] at h
        have hc := codePart_ok h1
        generalize codePart env s now mc sid g req = r1 at h
        cases h2 : (tokenPart env r1.1 now ma sid r1.2.1 code req).2.2 with
        | error e => simp [h2] at h
        | ok tok =>
          simp only [h2] at h
          generalize (tokenPart env r1.1 now ma sid r1.2.1 code req).1 = s2 at h
          cases h3 : (idTokenPart s2 idt sid req).2 with
          | raise e => simp [h3] at h
          | errMsg e => simp [h3] at h
          | val i =>
            simp only [h3] at h
            by_cases hall : req.responseType.all (fun t => [c!"code", c!"token", c!"id_token"].contains t) = true
            · rw [if_pos hall] at h
              simp only [Except.ok.injEq, Prod.mk.injEq, Out.val.injEq] at h
              obtain ⟨rfl, rfl⟩ := h
              refine ⟨?_, ?_, ?_, ?_, ?_, rfl, rfl⟩
              · intro x hx
                exact List.contains_iff_mem.1 (List.all_eq_true.1 hall x hx)
              · rw [Bool.not_eq_true', ← Bool.not_eq_true, sameSet_code]
              · simp only [Option.isSome_map]; exact hc
              · simp only [Option.isSome_map]; exact tokenPart_ok h2
              · exact idTokenPart_ok h3
            · rw [if_neg hall] at h
              simp at h

/-- How a successful reply comes about. -/
theorem authzPart2_val (env : Env) (cdb : Cdb) (s : Store) (now : Int) (mc ma : MintIn) (idt : Out Str) (req : AuthReq)
    (sid : Str) (a : RespArgs) (h : (authzPart2 env cdb s now mc ma idt req sid).2.2.content = .val a) :
    ∃ cdb' s' frag u, (createAuthnResponse env s' now mc ma idt req sid).2 = .ok (.val a, frag) ∧
      getUri env.lib cdb' .redirect req.clientId req.redirectUri = .ok u ∧
      (authzPart2 env cdb s now mc ma idt req sid).1 = cdb' ∧
      (authzPart2 env cdb s now mc ma idt req sid).2.2.uri = some u ∧
      responseMode req.responseMode frag = .ok (authzPart2 env cdb s now mc ma idt req sid).2.2.placement := by
  unfold authzPart2 at h ⊢
  cases hg : getGrant s sid with
  | error e => simp [hg, errReply] at h
  | ok g =>
    simp only [hg] at h ⊢
    cases hu : unpack3 sid with
    | error e => simp [hu, errReply] at h
    | ok ucg =>
      obtain ⟨u, c, gi⟩ := ucg
      simp only [hu] at h ⊢
      cases ha : (authzCall env.gc env.ccfg cdb now c g req).2 with
      | error e => simp [ha, errReply] at h
      | ok g' =>
        simp only [ha] at h ⊢
        cases hw : (dbSet s [u, c, gi] (.grant g')).2 with
        | error e => simp [hw, errReply] at h
        | ok _ =>
          simp only [hw] at h ⊢
          cases hr : (createAuthnResponse env (dbSet s [u, c, gi] (.grant g')).1 now mc ma idt req sid).2 with
          | error e => simp [hr, errReply] at h
          | ok cf =>
            obtain ⟨content, frag⟩ := cf
            simp only [hr] at h ⊢
            cases hx : getUri env.lib (authzCall env.gc env.ccfg cdb now c g req).1 .redirect req.clientId req.redirectUri with
            | error e => simp only [hx] at h; split at h <;> simp [errReply] at h
            | ok uri =>
              simp only [hx] at h ⊢
              cases hm : responseMode req.responseMode frag with
              | error e => simp [hm] at h
              | ok pl =>
                simp only [hm] at h ⊢
                subst h
                exact ⟨_, _, frag, uri, hr, hx, rfl, rfl, hm⟩

theorem responseMode_ok {mode : Option Str} {frag : Bool} {p : Placement} (h : responseMode mode frag = .ok p) :
    (p = .query → frag = false) ∧ (p = .fragment → frag = true) ∧
    (mode = some c!"query" → p = .query) ∧ (mode = some c!"fragment" → p = .fragment) ∧
    (mode = some c!"form_post" → p = .formPost) ∧ (p = .formPost → mode = some c!"form_post") ∧
    (∀ m, mode = some m → m = c!"query" ∨ m = c!"fragment" ∨ m = c!"form_post") := by
  unfold responseMode at h
  cases mode with
  | none => cases frag <;> simp at h <;> subst h <;> simp
  | some m =>
    simp only at h
    by_cases h1 : m = c!"form_post"
    · subst h1; simp at h; subst h; simp
    · by_cases h2 : m = c!"fragment"
      · subst h2; cases frag <;> simp at h; subst h; simp
      · by_cases h3 : m = c!"query"
        · subst h3; cases frag <;> simp at h; subst h; simp
        · simp [h1, h2, h3] at h

/-- C23: a successful response is put in the query only if the response type is exactly `code`, or `none`; a response with
an access token or ID token is a fragment or a form; a response mode that was asked for is the one used (so a
contradictory one never gives a success). -/
theorem C23_no_tokens_in_query (env : Env) (cdb : Cdb) (s : Store) (now : Int) (mc ma : MintIn) (idt : Out Str)
    (req : AuthReq) (sid : Str) (r : AuthzReply) (a : RespArgs)
    (hr : (authzPart2 env cdb s now mc ma idt req sid).2.2 = r) (ha : r.content = .val a) :
    (r.placement = .query → OnlyCode req.responseType ∨ req.responseType = [c!"none"]) ∧
    (r.placement = .query → a.accessToken = none ∧ a.idToken = none) ∧
    (a.accessToken ≠ none ∨ a.idToken ≠ none → r.placement = .fragment ∨ r.placement = .formPost) ∧
    (∀ m, req.responseMode = some m →
      (m = c!"query" ∧ r.placement = .query) ∨ (m = c!"fragment" ∧ r.placement = .fragment) ∨
      (m = c!"form_post" ∧ r.placement = .formPost)) := by
  subst hr
  obtain ⟨cdb', s', frag, u, h1, _, _, _, h2⟩ := authzPart2_val env cdb s now mc ma idt req sid a ha
  generalize (authzPart2 env cdb s now mc ma idt req sid).2.2.placement = p at h2
  obtain ⟨m1, m2, m3, m4, m5, m6, m7⟩ := responseMode_ok h2
  have key : p = .query → (OnlyCode req.responseType ∨ req.responseType = [c!"none"]) ∧
      a.accessToken = none ∧ a.idToken = none := by
    intro hp
    have hf := m1 hp
    rcases createAuthnResponse_val env s' now mc ma idt req sid a frag h1 with ⟨hn, _, rfl⟩ | ⟨_, hfr, _, ht, hi, _, _⟩
    · exact ⟨.inr hn, rfl, rfl⟩
    · have hoc : OnlyCode req.responseType := by
        by_cases k : OnlyCode req.responseType
        · exact k
        · rw [hfr.2 k] at hf; cases hf
      refine ⟨.inl hoc, ?_, ?_⟩
      · by_cases k : a.accessToken.isSome
        · have := (hoc _).1 (ht.1 k); exact absurd this (by decide)
        · simpa using k
      · by_cases k : a.idToken.isSome
        · have := (hoc _).1 (hi.1 k); exact absurd this (by decide)
        · simpa using k
  refine ⟨fun hp => (key hp).1, fun hp => (key hp).2, ?_, ?_⟩
  · intro h
    cases p with
    | query => obtain ⟨_, k1, k2⟩ := key rfl; rcases h with h | h <;> contradiction
    | fragment => exact .inl rfl
    | formPost => exact .inr rfl
  · intro m hm
    rcases m7 m hm with rfl | rfl | rfl
    · exact .inl ⟨rfl, m3 hm⟩
    · exact .inr (.inl ⟨rfl, m4 hm⟩)
    · exact .inr (.inr ⟨rfl, m5 hm⟩)

/-- C24: a successful response has a code, an access token, an ID token exactly if asked for, and the request's state;
only supported response types give a success. -/
theorem C24_response_contents (env : Env) (cdb : Cdb) (s : Store) (now : Int) (mc ma : MintIn) (idt : Out Str)
    (req : AuthReq) (sid : Str) (a : RespArgs)
    (ha : (authzPart2 env cdb s now mc ma idt req sid).2.2.content = .val a) :
    (a.code ≠ none ↔ c!"code" ∈ req.responseType) ∧ (a.accessToken ≠ none ↔ c!"token" ∈ req.responseType) ∧
    (a.idToken ≠ none ↔ c!"id_token" ∈ req.responseType) ∧ (req.state ≠ some [] → a.state = req.state) ∧
    (req.responseType = [c!"none"] ∨ ∀ x ∈ req.responseType, x ∈ supportedTypes) := by
  obtain ⟨cdb', s', frag, u, h1, _⟩ := authzPart2_val env cdb s now mc ma idt req sid a ha
  rcases createAuthnResponse_val env s' now mc ma idt req sid a frag h1 with ⟨hn, _, rfl⟩ | ⟨hs, _, hc, ht, hi, hst, _⟩
  · simp +contextual [hn, returnedState]
  · rw [← hc, ← ht, ← hi, hst]
    simp only [Option.isSome_iff_ne_none]
    exact ⟨trivial, trivial, trivial, fun h => by simp [returnedState, h], .inr hs⟩

/-- C22 at the endpoint: a successful response goes to the verified redirect URI. -/
theorem C22_response_goes_to_verified_uri (env : Env) (hlib : ∀ u, DistinctKeys (env.lib.splitUri u).2) (cdb : Cdb) (s : Store)
    (now : Int) (mc ma : MintIn) (idt : Out Str) (req : AuthReq) (sid : Str) (a : RespArgs) (ru : Str)
    (hru : req.redirectUri = some ru)
    (hreg : ∀ c cl, (authzPart2 env cdb s now mc ma idt req sid).1 c = some cl → ∀ p ∈ cl.redirectUris, DistinctKeys p.2)
    (ha : (authzPart2 env cdb s now mc ma idt req sid).2.2.content = .val a) :
    (authzPart2 env cdb s now mc ma idt req sid).2.2.uri = some ru ∧
    ∃ cl, (authzPart2 env cdb s now mc ma idt req sid).1 req.clientId = some cl ∧
      env.lib.fragment (env.lib.unquote ru) = [] ∧
      ∃ rq, ((env.lib.splitUri (env.lib.unquote ru)).1, rq) ∈ cl.redirectUris ∧
        SameQuery (env.lib.splitUri (env.lib.unquote ru)).2 rq := by
  obtain ⟨cdb', s', frag, u, _, hu, hc, hq, _⟩ := authzPart2_val env cdb s now mc ma idt req sid a ha
  rw [hru] at hu
  rcases C22_get_uri env.lib cdb' .redirect req.clientId _ u hu with ⟨h1, h2⟩ | ⟨h1, _⟩ | ⟨h1, _⟩
  · cases h1
    refine ⟨hq, ?_⟩
    subst hc
    exact C22_accepted_is_registered env.lib hlib _ .redirect req.clientId none ru hreg h2
  · cases h1
  · cases h1

/-- C26: with `deny_unknown_scopes`, unless every requested scope is allowed the request is refused and nothing changes. -/
theorem C26_unknown_scopes_refused (env : Env) (hd : env.denyUnknown = true) (cdb : Cdb) (s : Store) (now : Int) (gid : Str)
    (mc ma : MintIn) (idt : Out Str) (a : AuthnIn) (req : AuthReq) (cl : Client) (hc : cdb req.clientId = some cl)
    (x : Str) (hx : x ∈ req.scope) (hn : x ∉ (if cl.allowedScopes = [] then env.scopesSupported else cl.allowedScopes)) :
    authzProcess env cdb s now gid mc ma idt a req = (cdb, s, .raise .unAuthorizedClient) := by
  have : checkScopes env cl req = false := by
    unfold checkScopes
    rw [List.all_eq_false]
    refine ⟨x, hx, ?_⟩
    simp only [List.isEmpty_iff, List.contains_iff_mem]
    have : (decide (x ∈ (if cl.allowedScopes = [] then env.scopesSupported else cl.allowedScopes))) = false := by simpa using hn
    simp [hd]
    simpa using hn
  simp [authzProcess, hc, this]

/-- C26, the converse direction: the check refuses nothing else. -/
theorem C26_only_unknown_scopes_refused (env : Env) (cl : Client) (req : AuthReq) :
    checkScopes env cl req = true ↔ (env.denyUnknown = true →
      ∀ x ∈ req.scope, x ∈ (if cl.allowedScopes = [] then env.scopesSupported else cl.allowedScopes)) := by
  unfold checkScopes
  rw [List.all_eq_true]
  simp only [List.isEmpty_iff]
  constructor
  · intro h hd x hx
    have := h x hx
    simpa [hd] using this
  · intro h x hx
    cases hd : env.denyUnknown with
    | false => simp
    | true => simpa using h hd x hx

end Verif
