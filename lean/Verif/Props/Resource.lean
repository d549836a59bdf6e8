import Verif.Model.Resource
import Verif.Spec.Resource
import Verif.Props.TokenHistory
import Verif.Props.Claims
set_option linter.unusedSimpArgs false
set_option linter.unusedVariables false
/-! The userinfo and introspection endpoints: C34, C35, C20, C33, C64. -/
namespace Verif
open Spec

theorem userClaimsLoop_keys {info : Dict Val} {r : Claims} {res : Dict Val} (h : userClaimsLoop info r = .ok res) :
    List.Sublist (res.map Prod.fst) (r.map Prod.fst) := by
  induction r generalizing res with
  | nil => simp [userClaimsLoop] at h; subst h; exact List.Sublist.refl _
  | cons p r ih =>
    obtain ⟨k, spec⟩ := p
    unfold userClaimsLoop at h
    cases h1 : claimsMatch (info.get? k) spec with
    | error e => simp [h1] at h
    | ok b =>
      simp only [h1] at h
      cases h2 : userClaimsLoop info r with
      | error e => simp [h2] at h
      | ok rest =>
        simp only [h2] at h
        cases h
        cases b with
        | true => exact (ih h2).cons_cons _
        | false => exact (ih h2).cons _

theorem getUserClaims_keys {db : Str → Dict Val} {u : Str} {r : Claims} {res : Dict Val} (h : getUserClaims db u r = .ok res) :
    List.Sublist (res.map Prod.fst) (r.map Prod.fst) := by
  unfold getUserClaims at h
  split at h
  · cases h; exact List.nil_sublist _
  · exact userClaimsLoop_keys h

/-- What a userinfo response implies. -/
theorem userinfoProcess_val {env : Env} {db : Str → Dict Val} {s : Store} {now : Int} {v client : Str} {info : Dict Val}
    (h : userinfoProcess env db s now v = .val (info, client)) :
    ∃ sid user gid g t e ui, sessionByToken env.th env.cr s now v = .ok (sid, .grant g) ∧ unpack3 sid = .ok (user, client, gid) ∧
      g.getToken v = some t ∧ t.kind = .accessToken ∧ t.isActive now = true ∧ g.authnEvent = some e ∧ now < e.validUntil ∧
      getUserClaims db user ((g.claims.get? c!"userinfo").getD []) = .ok ui ∧ info = Dict.set ui c!"sub" (.str g.sub) := by
  unfold userinfoProcess at h
  cases hs : sessionByToken env.th env.cr s now v with
  | error e => simp [hs] at h
  | ok x =>
    obtain ⟨sid, o⟩ := x
    cases o with
    | info _ => simp [hs] at h
    | grant g =>
      simp only [hs] at h
      cases ht : g.getToken v with
      | none => simp [ht] at h
      | some t =>
        simp only [ht] at h
        by_cases hk : t.kind = .accessToken
        · by_cases ha : t.isActive now = false
          · simp [hk, ha] at h
          · rw [Bool.not_eq_false] at ha
            simp only [hk, ha, ne_eq, not_true_eq_false, if_false, Bool.true_eq_false] at h
            cases he : g.authnEvent with
            | none => simp [he, authnLive] at h
            | some e =>
              simp only [he, authnLive] at h
              by_cases hv : e.validUntil > now
              · simp only [hv, decide_true] at h
                cases hu : unpack3 sid with
                | error e => simp [hu] at h
                | ok y =>
                  obtain ⟨u, c, gi⟩ := y
                  simp only [hu] at h
                  cases hg : getUserClaims db u ((g.claims.get? c!"userinfo").getD []) with
                  | error e => simp [hg] at h
                  | ok ui =>
                    simp only [hg, Out.val.injEq, Prod.mk.injEq] at h
                    obtain ⟨h1, h2⟩ := h
                    subst h2
                    exact ⟨sid, u, gi, g, t, e, ui, rfl, hu, ht, hk, ha, he, hv, hg, h1.symm⟩
              · simp [hv] at h
        · simp [hk] at h

theorem storedToken_of {env : Env} {s : Store} {now : Int} {v sid : Str} {g : Grant} {t : Token}
    (h1 : sessionByToken env.th env.cr s now v = .ok (sid, .grant g)) (h2 : g.getToken v = some t) :
    StoredToken env s now v sid g t := by
  refine ⟨?_, sessionByToken_getGrant h1, (getToken_value h2).2, (getToken_value h2).1⟩
  unfold sessionByToken at h1
  cases hh : env.th.sid env.cr now v with
  | error e => simp [hh] at h1
  | ok sid' =>
    simp only [hh] at h1
    cases hu : unpack3 sid' with
    | error e => simp [hu] at h1
    | ok y =>
      simp only [hu] at h1
      split at h1
      · cases h1
      · cases h1; rfl

/-- C34: userinfo is only released for a stored, active access token and a live authentication; the subject is the grant's
and every other claim is exactly what the grant allows and the user database has. -/
theorem C34_userinfo_released_only_if (env : Env) (db : Str → Dict Val) (s : Store) (now : Int) (v client : Str)
    (info : Dict Val) (h : userinfoProcess env db s now v = .val (info, client)) :
    ∃ sid user gid g t e, StoredToken env s now v sid g t ∧ unpackSessionKey sid = [user, client, gid] ∧
      t.kind = .accessToken ∧ t.isActive now = true ∧ g.authnEvent = some e ∧ now < e.validUntil ∧
      info.get? c!"sub" = some (.str g.sub) ∧
      ((∀ p ∈ (g.claims.get? c!"userinfo").getD [], WellFormed p.2) → (((g.claims.get? c!"userinfo").getD []).map Prod.fst).Nodup →
        ∀ k x, k ≠ c!"sub" → (info.get? k = some x ↔
          ∃ spec, (k, spec) ∈ (g.claims.get? c!"userinfo").getD [] ∧ HasValue ((db user).get? k) x ∧ Allows spec x)) := by
  obtain ⟨sid, user, gid, g, t, e, ui, h1, h2, h3, h4, h5, h6, h7, h8, h9⟩ := userinfoProcess_val h
  refine ⟨sid, user, gid, g, t, e, storedToken_of h1 h3, ?_, h4, h5, h6, h7, ?_, ?_⟩
  · unfold unpack3 at h2
    split at h2
    · cases h2; assumption
    · cases h2
  · rw [h9, Dict.get?_set]; simp
  · intro hw hn k x hk
    obtain ⟨res, r1, r2⟩ := C36_user_claims_exact db user _ hw
    rw [h8] at r1
    cases r1
    rw [h9, Dict.get?_set, if_neg hk, ← r2]
    constructor
    · exact Dict.get?_mem
    · exact Dict.mem_get? ((getUserClaims_keys h8).nodup hn)

/-! ### C35 -/

/-- What an introspection response implies. -/
theorem introspectProcess_val {env : Env} {issuer : Str} {release : Bool} {db : Str → Dict Val} {s : Store} {now : Int}
    {v : Str} {d : Dict Val} (h : introspectProcess env issuer release db s now v = .val d) :
    (d = inactive ∧ (sessionByToken env.th env.cr s now v = .error .unknownToken ∨
      ∃ sid user client gid g t, sessionByToken env.th env.cr s now v = .ok (sid, .grant g) ∧
        unpack3 sid = .ok (user, client, gid) ∧ g.getToken v = some t ∧ introspectInfo issuer now t client g = none)) ∨
    ∃ sid user client gid g t info ui, sessionByToken env.th env.cr s now v = .ok (sid, .grant g) ∧
      unpack3 sid = .ok (user, client, gid) ∧ g.getToken v = some t ∧ introspectInfo issuer now t client g = some info ∧
      getUserClaims db user ((g.claims.get? c!"introspection").getD []) = .ok ui ∧
      d = Dict.set (Dict.update (Dict.update inactive (if release then Dict.set info c!"username" (.str user) else info)) ui)
        c!"active" (.bool true) := by
  unfold introspectProcess at h
  cases hs : sessionByToken env.th env.cr s now v with
  | error e =>
    simp only [hs] at h
    by_cases he : e = .unknownToken
    · simp only [he, if_true] at h
      cases h
      exact Or.inl ⟨rfl, Or.inl (by rw [he])⟩
    · simp [he] at h
  | ok x =>
    obtain ⟨sid, o⟩ := x
    cases o with
    | info _ => simp [hs] at h
    | grant g =>
      simp only [hs] at h
      cases hu : unpack3 sid with
      | error e => simp [hu] at h
      | ok y =>
        obtain ⟨u, c, gi⟩ := y
        simp only [hu] at h
        cases ht : g.getToken v with
        | none => simp [ht] at h
        | some t =>
          simp only [ht] at h
          cases hi : introspectInfo issuer now t c g with
          | none =>
            simp only [hi] at h
            cases h
            exact Or.inl ⟨rfl, Or.inr ⟨sid, u, c, gi, g, t, rfl, hu, ht, hi⟩⟩
          | some info =>
            simp only [hi] at h
            right
            cases hr : (g.claims.get? c!"introspection").getD [] with
            | nil =>
              simp only [hr] at h
              refine ⟨sid, u, c, gi, g, t, info, [], rfl, hu, ht, hi, ?_, ?_⟩
              · rw [hr]; rfl
              · exact (Out.val.inj h).symm
            | cons p r =>
              simp only [hr] at h
              cases hg : getUserClaims db u (p :: r) with
              | error e => simp [hg] at h
              | ok ui =>
                simp only [hg] at h
                exact ⟨sid, u, c, gi, g, t, info, ui, rfl, hu, ht, hi, by rw [hr]; exact hg, (Out.val.inj h).symm⟩

theorem introspectInfo_isSome (issuer : Str) (now : Int) (t : Token) (client : Str) (g : Grant) :
    (introspectInfo issuer now t client g).isSome = true ↔
      (t.typ = tAccessToken ∨ t.typ = tRefreshToken) ∧ t.isActive now = true := by
  unfold introspectInfo
  by_cases h1 : t.typ ≠ tAccessToken ∧ t.typ ≠ tRefreshToken
  · rw [if_pos h1]
    simp
    rintro (h | h)
    · exact absurd h h1.1
    · exact absurd h h1.2
  · rw [if_neg h1]
    by_cases h2 : t.isActive now = false
    · rw [if_pos h2]; simp [h2]
    · rw [if_neg h2]
      rw [Bool.not_eq_false] at h2
      simp only [h2, and_true]
      constructor
      · intro _
        by_cases h3 : t.typ = tAccessToken
        · exact Or.inl h3
        · right
          by_cases h4 : t.typ = tRefreshToken
          · exact h4
          · exact absurd ⟨h3, h4⟩ h1
      · intro _; simp

/-- C35 (partial): whenever introspection gives an answer, it says `active: true` exactly if the string is an access or
refresh token of its stored grant that is active now, and an answer that does not say so says nothing else.  What is
missing: it may raise instead, and user data may replace the other parameters (see below). -/
theorem C35_active_iff_partial (env : Env) (issuer : Str) (release : Bool) (db : Str → Dict Val) (s : Store) (now : Int)
    (v : Str) (d : Dict Val) (h : introspectProcess env issuer release db s now v = .val d) :
    (d.get? c!"active" = some (.bool true) ↔
      ∃ sid g t, sessionByToken env.th env.cr s now v = .ok (sid, .grant g) ∧ g.getToken v = some t ∧
        (t.typ = tAccessToken ∨ t.typ = tRefreshToken) ∧ t.isActive now = true) ∧
    (d.get? c!"active" ≠ some (.bool true) → d = [(c!"active", .bool false)]) := by
  rcases introspectProcess_val h with ⟨rfl, h1⟩ | ⟨sid, user, client, gid, g, t, info, ui, h1, h2, h3, h4, h5, h6⟩
  · refine ⟨⟨fun hh => (by simp [inactive, Dict.get?] at hh), ?_⟩, fun _ => rfl⟩
    rintro ⟨sid, g, t, e1, e2, e3, e4⟩
    exfalso
    rcases h1 with h1 | ⟨sid', u, c, gi, g', t', h1, h2, h3, h4⟩
    · rw [h1] at e1; cases e1
    · rw [h1] at e1
      cases e1
      rw [h3] at e2
      cases e2
      have := (introspectInfo_isSome issuer now t c g).2 ⟨e3, e4⟩
      rw [h4] at this
      cases this
  · have ha : d.get? c!"active" = some (.bool true) := by rw [h6, Dict.get?_set]; simp
    refine ⟨⟨fun _ => ⟨sid, g, t, h1, h3, ?_⟩, fun _ => ha⟩, fun hn => absurd ha hn⟩
    exact (introspectInfo_isSome issuer now t client g).1 (by rw [h4]; rfl)

theorem get?_none_of_not_mem {α : Type} {d : Dict α} {k : Str} (h : k ∉ d.map Prod.fst) : d.get? k = none := by
  cases hg : d.get? k with
  | none => rfl
  | some x => exact absurd (List.mem_map.2 ⟨_, Dict.get?_mem hg, rfl⟩) h

theorem get?_update_of_not_mem {α : Type} (d e : Dict α) {k : Str} (h : k ∉ e.map Prod.fst) : (d.update e).get? k = d.get? k := by
  unfold Dict.update
  induction e generalizing d with
  | nil => rfl
  | cons p e ih =>
    simp only [List.map_cons, List.mem_cons, not_or] at h
    rw [List.foldl_cons, ih _ h.2, Dict.get?_set, if_neg h.1]

theorem introspectInfo_some {issuer : Str} {now : Int} {t : Token} {client : Str} {g : Grant} {info : Dict Val}
    (h : introspectInfo issuer now t client g = some info) :
    ∃ tail, (tail = [] ∨ ∃ x, tail = [(c!"aud", x)]) ∧
      info = [(c!"active", .bool true), (c!"scope", .str (joinBlank (if t.scope = [] then g.scope else t.scope))),
      (c!"client_id", .str client), (c!"token_type", .str t.typ), (c!"exp", .int t.expiresAt), (c!"iat", .int t.issuedAt),
      (c!"sub", .str g.sub), (c!"iss", .str issuer)] ++ tail := by
  unfold introspectInfo at h
  by_cases h1 : t.typ ≠ tAccessToken ∧ t.typ ≠ tRefreshToken
  · rw [if_pos h1] at h; cases h
  · rw [if_neg h1] at h
    by_cases h2 : t.isActive now = false
    · rw [if_pos h2] at h; cases h
    · rw [if_neg h2] at h
      dsimp only at h
      generalize (if t.resources = [] then g.resources else t.resources) = aud at h
      by_cases h3 : aud = []
      · rw [if_pos h3] at h
        exact ⟨[], Or.inl rfl, by rw [← Option.some.inj h, List.append_nil]⟩
      · rw [if_neg h3] at h
        exact ⟨_, Or.inr ⟨_, rfl⟩, (Option.some.inj h).symm⟩

theorem introspectInfo_nodup {issuer : Str} {now : Int} {t : Token} {client : Str} {g : Grant} {info : Dict Val}
    (h : introspectInfo issuer now t client g = some info) : (info.map (·.1)).Nodup := by
  obtain ⟨tail, h1, rfl⟩ := introspectInfo_some h
  rcases h1 with rfl | ⟨x, rfl⟩ <;>
  · simp only [List.cons_append, List.nil_append, List.map_cons, List.map_nil]
    decide

theorem introspectInfo_fields {issuer : Str} {now : Int} {t : Token} {client : Str} {g : Grant} {info : Dict Val}
    (h : introspectInfo issuer now t client g = some info) :
    info.get? c!"scope" = some (.str (joinBlank (if t.scope = [] then g.scope else t.scope))) ∧
        info.get? c!"client_id" = some (.str client) ∧ info.get? c!"token_type" = some (.str t.typ) ∧
        info.get? c!"exp" = some (.int t.expiresAt) ∧ info.get? c!"iat" = some (.int t.issuedAt) ∧
        info.get? c!"sub" = some (.str g.sub) ∧ info.get? c!"iss" = some (.str issuer) ∧
        info.get? c!"username" = none := by
  obtain ⟨tail, h1, rfl⟩ := introspectInfo_some h
  rcases h1 with rfl | ⟨x, rfl⟩ <;> simp [Dict.get?]

/-- The parameters of the answer that is put together from a token. -/
theorem introspect_fields {issuer : Str} {release : Bool} {db : Str → Dict Val} {now : Int} {user client : Str} {g : Grant} {t : Token}
    {info ui d : Dict Val} (h4 : introspectInfo issuer now t client g = some info)
    (h5 : getUserClaims db user ((g.claims.get? c!"introspection").getD []) = .ok ui)
    (h6 : d = @Dict.set Val (Dict.update (Dict.update inactive (if release then Dict.set info c!"username" (.str user) else info)) ui) c!"active" (.bool true))
    (hres : ∀ k ∈ reserved, k ∉ ((g.claims.get? c!"introspection").getD []).map Prod.fst) :
    d.get? c!"scope" = some (.str (joinBlank (if t.scope = [] then g.scope else t.scope))) ∧
        d.get? c!"client_id" = some (.str client) ∧ d.get? c!"token_type" = some (.str t.typ) ∧
        d.get? c!"exp" = some (.int t.expiresAt) ∧ d.get? c!"iat" = some (.int t.issuedAt) ∧
        d.get? c!"sub" = some (.str g.sub) ∧ d.get? c!"iss" = some (.str issuer) ∧
        d.get? c!"username" = (if release then some (.str user) else none) := by
  have hui : ∀ k ∈ reserved, k ∉ ui.map Prod.fst :=
    fun k hk hm => hres k hk ((getUserClaims_keys h5).subset hm)
  have hg : ∀ k ∈ reserved, k ≠ c!"active" → d.get? k =
      (Dict.update inactive (if release then Dict.set info c!"username" (.str user) else info)).get? k := by
    intro k hk hne
    rw [h6, Dict.get?_set, if_neg hne, get?_update_of_not_mem _ _ (hui k hk)]
  have hm : ∀ k ∈ reserved, k ≠ c!"active" → k ≠ c!"username" → d.get? k = info.get? k := by
    intro k hk h1 h2
    rw [hg k hk h1, Dict.get?_update _ _ _ (by
      cases release with
      | false => exact introspectInfo_nodup h4
      | true => exact Dict.keys_set_nodup (introspectInfo_nodup h4) _ _)]
    have hi : inactive.get? k = none := by simp [inactive, Dict.get?, Ne.symm h1]
    cases release with
    | false => rw [hi]; simp only [Bool.false_eq_true, if_false]; cases info.get? k <;> rfl
    | true => rw [hi]; simp only [if_true]; rw [Dict.get?_set, if_neg h2]; cases info.get? k <;> rfl
  have hf := introspectInfo_fields h4
  refine ⟨?_, ?_, ?_, ?_, ?_, ?_, ?_, ?_⟩
  · rw [hm _ (by decide) (by decide) (by decide)]; exact hf.1
  · rw [hm _ (by decide) (by decide) (by decide)]; exact hf.2.1
  · rw [hm _ (by decide) (by decide) (by decide)]; exact hf.2.2.1
  · rw [hm _ (by decide) (by decide) (by decide)]; exact hf.2.2.2.1
  · rw [hm _ (by decide) (by decide) (by decide)]; exact hf.2.2.2.2.1
  · rw [hm _ (by decide) (by decide) (by decide)]; exact hf.2.2.2.2.2.1
  · rw [hm _ (by decide) (by decide) (by decide)]; exact hf.2.2.2.2.2.2.1
  · rw [hg _ (by decide) (by decide), Dict.get?_update _ _ _ (by
      cases release with
      | false => exact introspectInfo_nodup h4
      | true => exact Dict.keys_set_nodup (introspectInfo_nodup h4) _ _)]
    cases release with
    | true => simp only [if_true]; rw [Dict.get?_set, if_pos rfl]
    | false =>
      simp only [Bool.false_eq_true, if_false]
      rw [hf.2.2.2.2.2.2.2]
      rfl

/-- C35 (partial): the parameters of an active answer, provided the claims the grant allows for introspection are not named
like parameters of the response. -/
theorem C35_active_answer_partial (env : Env) (issuer : Str) (release : Bool) (db : Str → Dict Val) (s : Store) (now : Int)
    (v : Str) (d : Dict Val) (h : introspectProcess env issuer release db s now v = .val d)
    (ha : d.get? c!"active" = some (.bool true)) :
    ∃ sid user client gid g t, StoredToken env s now v sid g t ∧ unpackSessionKey sid = [user, client, gid] ∧
      ((∀ k ∈ reserved, k ∉ ((g.claims.get? c!"introspection").getD []).map Prod.fst) →
        d.get? c!"scope" = some (.str (joinBlank (if t.scope = [] then g.scope else t.scope))) ∧
        d.get? c!"client_id" = some (.str client) ∧ d.get? c!"token_type" = some (.str t.typ) ∧
        d.get? c!"exp" = some (.int t.expiresAt) ∧ d.get? c!"iat" = some (.int t.issuedAt) ∧
        d.get? c!"sub" = some (.str g.sub) ∧ d.get? c!"iss" = some (.str issuer) ∧
        d.get? c!"username" = (if release then some (.str user) else none)) := by
  rcases introspectProcess_val h with ⟨rfl, h1⟩ | ⟨sid, user, client, gid, g, t, info, ui, h1, h2, h3, h4, h5, h6⟩
  · simp [inactive, Dict.get?] at ha
  · refine ⟨sid, user, client, gid, g, t, storedToken_of h1 h3, ?_, ?_⟩
    · unfold unpack3 at h2
      split at h2
      · cases h2; assumption
      · cases h2
    · exact fun hres => introspect_fields h4 h5 h6 hres

/-! ### C35 is false where the code raises or lets user data replace parameters -/

/-- A string that decrypts but is in no stored token of its grant makes introspection raise instead of answering. -/
theorem C35_unstored_token_raises (env : Env) (issuer : Str) (release : Bool) (db : Str → Dict Val) (s : Store) (now : Int)
    (v sid : Str) (g : Grant) (h1 : sessionByToken env.th env.cr s now v = .ok (sid, .grant g)) (h2 : g.getToken v = none)
    (u c gid : Str) (h3 : unpack3 sid = .ok (u, c, gid)) :
    introspectProcess env issuer release db s now v = .raise .attributeError := by
  simp [introspectProcess, h1, h2, h3]

/-- Every failure to resolve the token other than "unknown token" is raised, not answered with `active: false`. -/
theorem C35_unresolved_token_raises (env : Env) (issuer : Str) (release : Bool) (db : Str → Dict Val) (s : Store) (now : Int)
    (v : Str) (e : Exn) (h : sessionByToken env.th env.cr s now v = .error e) (he : e ≠ .unknownToken) :
    introspectProcess env issuer release db s now v = .raise e := by
  simp [introspectProcess, h, he]

/-- The user database of the demo. -/
def demoUsers : Str → Dict Val := fun _ => [(c!"email", .str c!"d@x"), (c!"scope", .str c!"admin")]

/-- A provider that releases a claim named "scope" in introspection. -/
def scopeEnv : Env :=
  { demoEnv with ccfg := { demoEnv.ccfg with modules := [(c!"userinfo", { byScope := true }), (c!"id_token", {}),
      (c!"introspection", { baseClaims := [(c!"scope", none), (c!"email", none)] }), (c!"access_token", {})] } }

def envCfg (env : Env) : SysCfg := ⟨.aliased, env, demoHelpers⟩

/-- The access token that the demo's code gives. -/
def demoAt : Str := handlerCall demoCrypto ⟨.jwt, c!"T", 5, c!"k2"⟩ 2 [] c!"n3" c!"diana;;c1;;g1" []

/-- Login and redemption of the code. -/
def loginOps : List SysOp :=
  [ .authorize demoDb 1 c!"g1" (mintIn c!"n1") (mintIn c!"n2") (.val c!"IDT") { ident := .plain c!"diana" } (demoReq [c!"code"]),
    .tokParse 2 demoTokReq, .tokProcess (tokIn 2 c!"n3" c!"n4") demoTokReq ]

theorem loginOps_fresh (l : List SysOp) (hl : ∀ op ∈ l, newGid op = [] ∧ PlainGrants op) : FreshRun (loginOps ++ l) := by
  have hz : l.flatMap newGid = [] := by
    rw [List.flatMap_eq_nil_iff]; exact fun op h => (hl op h).1
  have he : (loginOps ++ l).flatMap newGid = [c!"g1"] := by
    rw [List.flatMap_append, hz]; rfl
  refine ⟨by rw [he]; decide, by rw [he]; decide, ?_⟩
  intro op hop
  rcases List.mem_append.1 hop with h | h
  · simp only [loginOps, List.mem_cons, List.not_mem_nil, or_false] at h
    rcases h with rfl | rfl | rfl <;> trivial
  · exact (hl op h).2

def strAt (o : Out (Dict Val)) (k : Str) : Option Str :=
  match o with
  | .val d => match Dict.get? d k with
    | some (.str x) => some x
    | _ => none
  | _ => none

def errAt {α : Type} : Out α → Option Exn
  | .raise e => some e
  | _ => none

set_option maxRecDepth 8000 in
/-- C35 is false of the code: a user whose record has a claim named "scope" is reported with that scope. -/
theorem C35_user_data_replaces_scope :
    strAt (introspectProcess scopeEnv c!"iss" false demoUsers (sysRun (envCfg scopeEnv) loginOps).store 3 demoAt) c!"scope" =
      some c!"admin" ∧
    strAt (introspectProcess demoEnv c!"iss" false demoUsers (sysRun (envCfg demoEnv) loginOps).store 3 demoAt) c!"scope" =
      some c!"openid offline_access" := by
  decide

set_option maxRecDepth 8000 in
/-- C35 is false of the code: for an expired token, and for a token of a session that was removed, introspection raises. -/
theorem C35_expired_or_removed_raises :
    errAt (introspectProcess demoEnv c!"iss" false demoUsers (sysRun (envCfg demoEnv) loginOps).store 100 demoAt) =
      some .tooOld ∧
    errAt (introspectProcess demoEnv c!"iss" false demoUsers
      (sysRun (envCfg demoEnv) (loginOps ++ [.removeSession c!"diana;;c1;;g1"])).store 3 demoAt) = some .keyError := by
  decide

/-! ### C20: the tokens of a revoked grant are still accepted -/

def isVal {α : Type} : Out α → Bool
  | .val _ => true
  | _ => false

set_option maxRecDepth 8000 in
/-- C20 is false of the code in its second half: after `revoke_grant` userinfo releases claims for, and introspection calls
active, an access token of the revoked grant. -/
theorem C20_revoked_grant_still_accepted :
    let s := (sysRun (envCfg demoEnv) (loginOps ++ [.revokeGrant c!"diana;;c1;;g1"])).store
    ((match getGrant s c!"diana;;c1;;g1" with | .ok g => g.revoked | _ => false) = true) ∧
    isVal (userinfoProcess demoEnv demoUsers s 3 demoAt) = true ∧
    strAt (introspectProcess demoEnv c!"iss" false demoUsers s 3 demoAt) c!"client_id" = some c!"c1" := by
  decide

/-! ### C64: a revoked token is never accepted again -/

theorem not_active_of_revoked {t : Token} {now : Int} (h : t.revoked = true) : t.isActive now = false := by
  simp [Token.isActive, Item.isActive, h]

/-- A token that is revoked in a stored grant stays so while the grant is stored. -/
theorem revoked_later {cfg : SysCfg} (hb : BlankFree cfg.env) {ops : List SysOp} (hf : FreshRun ops) {i j : Nat}
    (hij : i ≤ j) {n0 : Int} {v sid : Str} {g : Grant} {t : Token}
    (h1 : sessionByToken cfg.env.th cfg.env.cr (sysRun cfg (ops.take i)).store n0 v = .ok (sid, .grant g))
    (h2 : g.getToken v = some t) (hr : t.revoked = true) {now : Int} {sid' : Str} {g' : Grant}
    (h3 : sessionByToken cfg.env.th cfg.env.cr (sysRun cfg (ops.take j)).store now v = .ok (sid', .grant g')) :
    ∃ t', g'.getToken v = some t' ∧ t'.revoked = true := by
  have hi := sysRun_inv cfg ops hf hb i
  have hj := sysRun_inv cfg ops hf hb j
  obtain ⟨k1, k2, _⟩ := sessionByToken_key hi.noEmpty h1
  obtain ⟨l1, l2, _⟩ := sessionByToken_key hj.noEmpty h3
  have := sid_det k1 l1
  subst this
  have hh : Holds ((ops.take i).flatMap newGid) (sysRun cfg (ops.take i)).store sid v (fun t => t.revoked = true) :=
    ⟨(hi.grants _ _ k2).1, fun g1 hg1 => by
      rw [k2] at hg1; cases hg1; exact ⟨t, h2, hr⟩⟩
  exact (holds_later hf hb (fun t t' hp h => hp.revoked h) hh j hij).2 g' l2

/-- C64: in every history of the provider, once a token is revoked userinfo never again releases anything for it and
introspection never again calls it active. -/
theorem C64_revoked_token_refused (cfg : SysCfg) (hb : BlankFree cfg.env) (ops : List SysOp) (hf : FreshRun ops)
    (i j : Nat) (hij : i ≤ j) (n0 : Int) (v sid : Str) (g : Grant) (t : Token)
    (h1 : sessionByToken cfg.env.th cfg.env.cr (sysRun cfg (ops.take i)).store n0 v = .ok (sid, .grant g))
    (h2 : g.getToken v = some t) (hr : t.revoked = true) (now : Int) (db : Str → Dict Val) (issuer : Str) (release : Bool) :
    (∀ r, userinfoProcess cfg.env db (sysRun cfg (ops.take j)).store now v ≠ .val r) ∧
    (∀ d, introspectProcess cfg.env issuer release db (sysRun cfg (ops.take j)).store now v = .val d →
      d = [(c!"active", .bool false)]) := by
  refine ⟨?_, ?_⟩
  · rintro ⟨info, client⟩ h
    obtain ⟨sid', user, gid, g', t', e, ui, a1, a2, a3, a4, a5, _⟩ := userinfoProcess_val h
    obtain ⟨t'', b1, b2⟩ := revoked_later hb hf hij h1 h2 hr a1
    rw [a3] at b1
    cases b1
    rw [not_active_of_revoked b2] at a5
    cases a5
  · intro d h
    obtain ⟨c1, c2⟩ := C35_active_iff_partial _ _ _ _ _ _ _ _ h
    apply c2
    intro ha
    obtain ⟨sid', g', t', a1, a2, a3, a4⟩ := c1.1 ha
    obtain ⟨t'', b1, b2⟩ := revoked_later hb hf hij h1 h2 hr a1
    rw [a2] at b1
    cases b1
    rw [not_active_of_revoked b2] at a4
    cases a4

/-- C33: what introspection reports as scope of an active token is the scope of the authorization request of its session
(unless user data replace it, or the default policy is used: C75). -/
theorem C33_introspected_scope (cfg : SysCfg) (hb : BlankFree cfg.env) (ops : List SysOp) (hf : FreshRun ops) (i : Nat)
    (issuer : Str) (release : Bool) (db : Str → Dict Val) (now : Int) (v : Str) (d : Dict Val)
    (hpol : cfg.env.gc.implicit = false)
    (h : introspectProcess cfg.env issuer release db (sysRun cfg (ops.take i)).store now v = .val d)
    (ha : d.get? c!"active" = some (.bool true)) :
    ∃ sid g ar, cfg.env.th.sid cfg.env.cr now v = .ok sid ∧ getGrant (sysRun cfg (ops.take i)).store sid = .ok g ∧
      g.authReq = some ar ∧
      ((∀ k ∈ reserved, k ∉ ((g.claims.get? c!"introspection").getD []).map Prod.fst) →
        d.get? c!"scope" = some (.str (joinBlank ar.scope))) := by
  obtain ⟨sid, user, client, gid, g, t, ⟨a1, a2, a3, a4⟩, _, a5⟩ := C35_active_answer_partial _ _ _ _ _ _ _ _ h ha
  obtain ⟨b1, b2⟩ := C33_stored_scopes cfg hb ops hf i sid g a2
  obtain ⟨ar, b3, b4⟩ := b2 hpol (List.ne_nil_of_mem a3)
  refine ⟨sid, g, ar, a1, a2, b3, fun hk => ?_⟩
  rw [(a5 hk).1, b1 t a3, b4]
  simp

/-! ### The hypotheses are met -/

set_option maxRecDepth 8000 in
/-- Userinfo is released in the demo. -/
example : (match userinfoProcess demoEnv demoUsers (sysRun (envCfg demoEnv) loginOps).store 3 demoAt with
    | .val (d, c) => some (d.map Prod.fst, c)
    | _ => none) = some ([c!"sub"], c!"c1") := by decide

set_option maxRecDepth 8000 in
/-- A revoked token in a history, and what introspection says. -/
example :
    let s := (sysRun (envCfg demoEnv) (loginOps ++ [.revokeToken 10 c!"diana;;c1;;g1" demoAt false])).store
    (match sessionByToken demoEnv.th demoEnv.cr s 3 demoAt with
      | .ok (_, .grant g) => (g.getToken demoAt).map (fun t => t.revoked)
      | _ => none) = some true ∧
    (match introspectProcess demoEnv c!"iss" false demoUsers s 3 demoAt with
      | .val d => d.map Prod.fst
      | _ => []) = [c!"active"] := by decide

end Verif
