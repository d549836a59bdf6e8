import Verif.Spec.SelfJwt
import Verif.Lemmas.Dict
set_option linter.unusedSimpArgs false
/-! C148–C150: the provider's messages to itself. -/
namespace Verif
open Spec

theorem get?_setIfTrue (d : Dict Val) (k k' : Str) (v : Option Val) :
    (setIfTrue d k v).get? k' = if k = k' then (match trueValue v with | some x => some x | none => d.get? k') else d.get? k' := by
  unfold setIfTrue trueValue
  cases v with
  | none => simp
  | some x =>
    by_cases hx : x.truthy = true
    · simp only [hx, if_true, Option.filter]
      rw [Dict.get?_set]
      by_cases e : k = k' <;> simp [e, eq_comm]
    · simp only [hx, Option.filter]; simp

theorem argsBase_get (acr : Str) (uri : Val) (q : Str) (u : Option Str) (k : Str) : (argsBase acr uri q u).get? k =
    if k = c!"authn_class_ref" then some (.str acr) else if k = c!"return_uri" then some uri
    else if k = c!"query" then some (.str q)
    else if k = c!"as_user" then u.map fun u => Val.lcons (.str u) .lnil else none := by
  unfold argsBase
  by_cases e1 : k = c!"authn_class_ref"
  · subst e1; cases u <;> simp [Dict.get?_cons, Dict.get?_set]
  by_cases e2 : k = c!"return_uri"
  · subst e2; cases u <;> simp [Dict.get?_cons, Dict.get?_set]
  by_cases e3 : k = c!"query"
  · subst e3; cases u <;> simp [Dict.get?_cons, Dict.get?_set]
  by_cases e4 : k = c!"as_user"
  · subst e4; cases u <;> simp [Dict.get?_cons, Dict.get?_set, Dict.get?]
  cases u <;> simp [Dict.get?_cons, Dict.get?_set, Dict.get?, e1, e2, e3, e4, Ne.symm e1, Ne.symm e2, Ne.symm e3, Ne.symm e4]

theorem args_get {enc req acr cinfo u args} (h : authnArgs enc req acr cinfo u = .ok args) (k : Str) :
    args.get? k =
      if k = c!"authn_class_ref" then some (.str acr)
      else if k = c!"return_uri" then req.get? c!"redirect_uri"
      else if k = c!"query" then some (.str (enc req))
      else if k = c!"as_user" then u.map fun u => Val.lcons (.str u) .lnil
      else if k = c!"policy_uri" ∨ k = c!"logo_uri" ∨ k = c!"tos_uri" then trueValue (cinfo.get? k)
      else if k = c!"ui_locales" ∨ k = c!"acr_values" ∨ k = c!"login_hint" then trueValue (req.get? k)
      else none := by
  unfold authnArgs at h
  cases hr : req.get? c!"redirect_uri" with
  | none => simp only [hr] at h; cases h
  | some uri =>
    simp only [hr, Except.ok.injEq] at h
    subst h
    simp only [List.foldl, get?_setIfTrue, argsBase_get]
    have key : ∀ a b : Option Val, (match trueValue a with | some x => some x | none => b) = (trueValue a).or b := by
      intro a b; cases trueValue a <;> rfl
    simp only [key]
    by_cases e1 : k = c!"authn_class_ref"
    · subst e1; simp
    by_cases e2 : k = c!"return_uri"
    · subst e2; simp
    by_cases e3 : k = c!"query"
    · subst e3; simp
    by_cases e4 : k = c!"as_user"
    · subst e4; simp
    by_cases f1 : k = c!"policy_uri"
    · subst f1; simp
    by_cases f2 : k = c!"logo_uri"
    · subst f2; simp
    by_cases f3 : k = c!"tos_uri"
    · subst f3; simp
    by_cases g1 : k = c!"ui_locales"
    · subst g1; simp
    by_cases g2 : k = c!"acr_values"
    · subst g2; simp
    by_cases g3 : k = c!"login_hint"
    · subst g3; simp
    simp [e1, e2, e3, e4, f1, f2, f3, g1, g2, g3, Ne.symm f1, Ne.symm f2, Ne.symm f3, Ne.symm g1, Ne.symm g2, Ne.symm g3]

/-- What the JWT library adds to the claims. -/
def jwtAdded (now : Int) (iss : Str) (lifetime : Option Int) (recv : Option Str) : Dict Val :=
  [(c!"iss", .str iss), (c!"iat", .int now)]
    ++ (match lifetime with | some l => [(c!"exp", .int (now + l))] | none => [])
    ++ (match recv with | some r => [(c!"aud", .lcons (.str r) .lnil)] | none => [])

theorem jwtAdded_nodup (now : Int) (iss : Str) (l : Option Int) (r : Option Str) :
    ((jwtAdded now iss l r).map (·.1)).Nodup := by
  cases l <;> cases r <;> simp [jwtAdded]

theorem jwtAdded_other (now : Int) (iss : Str) (l : Option Int) (r : Option Str) {k : Str}
    (h : k ∉ [c!"iss", c!"iat", c!"exp", c!"aud"]) : (jwtAdded now iss l r).get? k = none := by
  simp only [List.mem_cons, List.not_mem_nil, or_false, not_or] at h
  obtain ⟨h1, h2, h3, h4⟩ := h
  cases l <;> cases r <;> simp [jwtAdded, Dict.get?, Ne.symm h1, Ne.symm h2, Ne.symm h3, Ne.symm h4]

theorem jwtPack_ok {J : JwsLib} {jar : KeyJar} {now : Int} {iss alg : Str} {l : Option Int} {r : Option Str}
    {payload : Dict Val} {t : Str} (h : jwtPack J jar now iss alg l r payload = .ok t) :
    ∃ k ∈ jar [] (J.keyType alg), t = J.sign k alg (Dict.update payload (jwtAdded now iss l r)) := by
  unfold jwtPack at h
  cases hk : jar [] (J.keyType alg) with
  | nil => simp only [hk] at h; cases h
  | cons k ks =>
    simp only [hk, Except.ok.injEq] at h
    exact ⟨k, by simp, h.symm⟩

/-- The claims in a token that was packed: those added by the library, and otherwise those given. -/
theorem packed_get (payload : Dict Val) (now : Int) (iss : Str) (l : Option Int) (r : Option Str) (k : Str) :
    (Dict.update payload (jwtAdded now iss l r)).get? k
      = match (jwtAdded now iss l r).get? k with | some v => some v | none => payload.get? k := by
  rw [Dict.get?_update _ _ _ (jwtAdded_nodup now iss l r)]
  cases (jwtAdded now iss l r).get? k <;> rfl

theorem packed_iss (payload : Dict Val) (now : Int) (iss : Str) (l : Option Int) (r : Option Str) :
    (Dict.update payload (jwtAdded now iss l r)).get? c!"iss" = some (.str iss) := by
  rw [packed_get]; rfl

theorem packed_iat (payload : Dict Val) (now : Int) (iss : Str) (l : Option Int) (r : Option Str) :
    (Dict.update payload (jwtAdded now iss l r)).get? c!"iat" = some (.int now) := by
  rw [packed_get]; rfl

theorem packed_other (payload : Dict Val) (now : Int) (iss : Str) (l : Option Int) (r : Option Str) {k : Str}
    (h : k ∉ [c!"iss", c!"iat", c!"exp", c!"aud"]) :
    (Dict.update payload (jwtAdded now iss l r)).get? k = payload.get? k := by
  rw [packed_get, jwtAdded_other now iss l r h]

theorem verify_signed {J : JwsLib} (hJ : GoodJws J) {jar : KeyJar} {k alg : Str} {d : Dict Val} (ha : alg ≠ c!"none")
    (hk : k ∈ jwtKeys J jar alg d) : verifySignedJwt J jar (J.sign k alg d) = .ok d := by
  unfold verifySignedJwt
  simp only [hJ.reads, ha, if_false]
  rw [if_pos]
  exact List.any_eq_true.2 ⟨k, hk, hJ.checks k alg d⟩

/-- **C148**. The token in the login form brings back what the login page was shown for: the request, its return address, the
authentication class, the user asked for, the hints in the request and the client's addresses — nothing changed, and the page
itself posts to the configured address. -/
theorem C148_form_carries_request {J : JwsLib} (hJ : GoodJws J) {jar : KeyJar} {iss : Str} (hown : OwnKeysFiled jar iss)
    {enc : Dict Val → Str} {req cinfo conf args page : Dict Val} {acr action : Str} {u : Option Str} {now : Int}
    (hargs : authnArgs enc req acr cinfo u = .ok args) (hpage : loginPage J jar now iss action conf args = .ok page) :
    ∃ (token : Str) (p : Dict Val),
      page.get? c!"token" = some (.str token) ∧ page.get? c!"action" = some (.str action)
      ∧ verifySignedJwt J jar token = .ok p
      ∧ p.get? c!"query" = some (.str (enc req))
      ∧ p.get? c!"return_uri" = req.get? c!"redirect_uri"
      ∧ p.get? c!"authn_class_ref" = some (.str acr)
      ∧ p.get? c!"as_user" = u.map (fun u => Val.lcons (.str u) .lnil)
      ∧ (∀ k ∈ [c!"ui_locales", c!"acr_values", c!"login_hint"], p.get? k = trueValue (req.get? k))
      ∧ (∀ k ∈ [c!"policy_uri", c!"logo_uri", c!"tos_uri"], p.get? k = trueValue (cinfo.get? k))
      ∧ p.get? c!"iss" = some (.str iss) ∧ p.get? c!"iat" = some (.int now)
      ∧ (∀ k, p.get? k ≠ none → k ∈ [c!"query", c!"return_uri", c!"authn_class_ref", c!"as_user", c!"ui_locales",
          c!"acr_values", c!"login_hint", c!"policy_uri", c!"logo_uri", c!"tos_uri", c!"iss", c!"iat"]) := by
  unfold loginPage at hpage
  cases hp : jwtPack J jar now iss c!"RS256" none none args with
  | error e => simp only [hp] at hpage; cases hpage
  | ok t =>
    simp only [hp] at hpage
    split at hpage
    · cases hpage
    · simp only [Except.ok.injEq] at hpage
      subst hpage
      obtain ⟨k, hk, rfl⟩ := jwtPack_ok hp
      have g := args_get hargs
      refine ⟨_, _, rfl, rfl, verify_signed hJ (by decide) ?_, ?_, ?_, ?_, ?_, ?_, ?_, packed_iss .., packed_iat .., ?_⟩
      · unfold jwtKeys
        rw [packed_iss]
        exact List.mem_append_left _ (hown _ _ hk)
      · rw [packed_other _ _ _ _ _ (by decide), g]; rfl
      · rw [packed_other _ _ _ _ _ (by decide), g]; rfl
      · rw [packed_other _ _ _ _ _ (by decide), g]; rfl
      · rw [packed_other _ _ _ _ _ (by decide), g]; rfl
      · intro k hk
        simp only [List.mem_cons, List.not_mem_nil, or_false] at hk
        rcases hk with rfl | rfl | rfl <;> (rw [packed_other _ _ _ _ _ (by decide), g]; rfl)
      · intro k hk
        simp only [List.mem_cons, List.not_mem_nil, or_false] at hk
        rcases hk with rfl | rfl | rfl <;> (rw [packed_other _ _ _ _ _ (by decide), g]; rfl)
      · intro k hk
        by_cases hin : k ∈ [c!"iss", c!"iat", c!"exp", c!"aud"]
        · simp only [List.mem_cons, List.not_mem_nil, or_false] at hin
          rcases hin with rfl | rfl | rfl | rfl
          · simp
          · simp
          · exfalso; apply hk; rw [packed_get, g]; rfl
          · exfalso; apply hk; rw [packed_get, g]; rfl
        · rw [packed_other _ _ _ _ _ hin, g] at hk
          repeat' split at hk
          all_goals simp_all
          all_goals (rename_i h; rcases h with rfl | rfl | rfl <;> simp)

/-- **C148**. The login page can be made exactly if the request has a redirect URI, the provider an RSA key, and the
configuration does not name a page parameter "action" or "token". -/
theorem C148_page_is_made_iff {J : JwsLib} {jar : KeyJar} {iss : Str} {enc : Dict Val → Str} {req cinfo conf : Dict Val}
    {acr action : Str} {u : Option Str} {now : Int} :
    (∃ args page, authnArgs enc req acr cinfo u = .ok args ∧ loginPage J jar now iss action conf args = .ok page)
      ↔ req.get? c!"redirect_uri" ≠ none ∧ jar [] (J.keyType c!"RS256") ≠ []
        ∧ conf.get? c!"action" = none ∧ conf.get? c!"token" = none := by
  have hc : (conf.has c!"action" = true ∨ conf.has c!"token" = true)
      ↔ ¬ (conf.get? c!"action" = none ∧ conf.get? c!"token" = none) := by
    unfold Dict.has
    cases conf.get? c!"action" <;> cases conf.get? c!"token" <;> simp
  unfold loginPage authnArgs jwtPack
  simp only [hc]
  cases hr : req.get? c!"redirect_uri" with
  | none => simp
  | some uri =>
    cases hk : jar [] (J.keyType c!"RS256") with
    | nil => simp
    | cons k ks =>
      by_cases h : conf.get? c!"action" = none ∧ conf.get? c!"token" = none
      · simp [h]
      · simp only [h, not_false_eq_true, if_true]
        constructor
        · rintro ⟨_, _, _, h2⟩; cases h2
        · rintro ⟨_, _, h3⟩; exact h3.elim

theorem setDefaults_get (l : Dict Val) (conf : Dict Val) (k : Str) :
    (l.foldl (fun d kv => if d.has kv.1 then d else d.set kv.1 kv.2) conf).get? k
      = match conf.get? k with | some v => some v | none => l.get? k := by
  induction l generalizing conf with
  | nil => simp only [List.foldl, Dict.get?]; cases conf.get? k <;> rfl
  | cons x r ih =>
    obtain ⟨k', v'⟩ := x
    simp only [List.foldl]
    rw [ih, Dict.get?_cons]
    by_cases hh : conf.has k' = true
    · simp only [hh, if_true]
      by_cases e : k' = k
      · subst e
        unfold Dict.has at hh
        cases hc : conf.get? k' with
        | none => rw [hc] at hh; cases hh
        | some v => rfl
      · simp only [e, if_false]
    · simp only [hh, if_false, Bool.false_eq_true]
      rw [Dict.get?_set]
      by_cases e : k' = k
      · subst e
        unfold Dict.has at hh
        cases hc : conf.get? k' with
        | none => simp
        | some v => rw [hc] at hh; simp at hh
      · simp only [e, Ne.symm e, if_false]

/-- **C148**. For the client's policy, terms of service and logo the page shows what the client has; without, what is
configured; and a label goes with each address of the client. -/
theorem C148_page_shows_client {J : JwsLib} {jar : KeyJar} {iss action : Str} {conf args page : Dict Val} {now : Int}
    (hpage : loginPage J jar now iss action conf args = .ok page) :
    (∀ k ∈ [c!"policy_uri", c!"tos_uri", c!"logo_uri"], page.get? k = shown args conf k)
    ∧ (args.get? c!"policy_uri" ≠ none → page.get? c!"policy_label" = some (.str c!"Service policy"))
    ∧ (args.get? c!"tos_uri" ≠ none → page.get? c!"tos_label" = some (.str c!"Terms of Service"))
    ∧ (args.get? c!"logo_uri" ≠ none → page.get? c!"logo_label" = some (.str []))
    ∧ page.get? c!"page_header" = some ((conf.get? c!"page_header").getD (.str c!"Log in"))
    ∧ page.get? c!"user_label" = some ((conf.get? c!"user_label").getD (.str c!"Username"))
    ∧ page.get? c!"passwd_label" = some ((conf.get? c!"passwd_label").getD (.str c!"Password"))
    ∧ page.get? c!"submit_btn" = some ((conf.get? c!"submit_btn").getD (.str c!"Log in")) := by
  unfold loginPage at hpage
  cases hp : jwtPack J jar now iss c!"RS256" none none args with
  | error e => simp only [hp] at hpage; cases hpage
  | ok t =>
    simp only [hp] at hpage
    split at hpage
    · cases hpage
    · simp only [Except.ok.injEq] at hpage
      subst hpage
      have hd : ∀ k, (pageDefaults conf).get? k = match conf.get? k with
          | some v => some v
          | none => Dict.get? [(c!"page_header", Val.str c!"Log in"), (c!"user_label", .str c!"Username"),
              (c!"passwd_label", .str c!"Password"), (c!"submit_btn", .str c!"Log in"), (c!"tos_uri", .str []),
              (c!"logo_uri", .str []), (c!"policy_uri", .str []), (c!"tos_label", .str []), (c!"logo_label", .str []),
              (c!"policy_label", .str [])] k := fun k => setDefaults_get _ conf k
      have hu : ∀ k, (pageUris args (pageDefaults conf)).get? k =
          match (if k = c!"logo_uri" then args.get? c!"logo_uri"
            else if k = c!"logo_label" then (args.get? c!"logo_uri").map fun _ => Val.str []
            else if k = c!"tos_uri" then args.get? c!"tos_uri"
            else if k = c!"tos_label" then (args.get? c!"tos_uri").map fun _ => Val.str c!"Terms of Service"
            else if k = c!"policy_uri" then args.get? c!"policy_uri"
            else if k = c!"policy_label" then (args.get? c!"policy_uri").map fun _ => Val.str c!"Service policy"
            else none) with
          | some v => some v
          | none => (pageDefaults conf).get? k := by
        intro k
        unfold pageUris
        simp only [List.foldl]
        by_cases e1 : k = c!"logo_uri"
        · subst e1; cases args.get? c!"logo_uri" <;> cases args.get? c!"tos_uri" <;> cases args.get? c!"policy_uri"
            <;> simp [Dict.get?_set]
        by_cases e2 : k = c!"logo_label"
        · subst e2; cases args.get? c!"logo_uri" <;> cases args.get? c!"tos_uri" <;> cases args.get? c!"policy_uri"
            <;> simp [Dict.get?_set]
        by_cases e3 : k = c!"tos_uri"
        · subst e3; cases args.get? c!"logo_uri" <;> cases args.get? c!"tos_uri" <;> cases args.get? c!"policy_uri"
            <;> simp [Dict.get?_set]
        by_cases e4 : k = c!"tos_label"
        · subst e4; cases args.get? c!"logo_uri" <;> cases args.get? c!"tos_uri" <;> cases args.get? c!"policy_uri"
            <;> simp [Dict.get?_set]
        by_cases e5 : k = c!"policy_uri"
        · subst e5; cases args.get? c!"logo_uri" <;> cases args.get? c!"tos_uri" <;> cases args.get? c!"policy_uri"
            <;> simp [Dict.get?_set]
        by_cases e6 : k = c!"policy_label"
        · subst e6; cases args.get? c!"logo_uri" <;> cases args.get? c!"tos_uri" <;> cases args.get? c!"policy_uri"
            <;> simp [Dict.get?_set]
        cases args.get? c!"logo_uri" <;> cases args.get? c!"tos_uri" <;> cases args.get? c!"policy_uri"
            <;> simp [Dict.get?_set, e1, e2, e3, e4, e5, e6]
      have hpg : ∀ k, k ≠ c!"action" → k ≠ c!"token" →
          Dict.get? ([(c!"action", Val.str action), (c!"token", .str t)] ++ pageUris args (pageDefaults conf) : Dict Val) k
            = (pageUris args (pageDefaults conf)).get? k := by
        intro k h1 h2
        simp only [List.cons_append, List.nil_append, Dict.get?_cons, Ne.symm h1, Ne.symm h2, if_false]
      refine ⟨?_, ?_, ?_, ?_, ?_, ?_, ?_, ?_⟩
      · intro k hk
        simp only [List.mem_cons, List.not_mem_nil, or_false] at hk
        unfold shown
        rcases hk with rfl | rfl | rfl
        · rw [hpg _ (by decide) (by decide), hu, hd]; simp; cases args.get? c!"policy_uri" <;> cases conf.get? c!"policy_uri" <;> rfl
        · rw [hpg _ (by decide) (by decide), hu, hd]; simp; cases args.get? c!"tos_uri" <;> cases conf.get? c!"tos_uri" <;> rfl
        · rw [hpg _ (by decide) (by decide), hu, hd]; simp; cases args.get? c!"logo_uri" <;> cases conf.get? c!"logo_uri" <;> rfl
      · intro h
        rw [hpg _ (by decide) (by decide), hu]; simp; cases ha : args.get? c!"policy_uri" with
        | none => exact absurd ha h
        | some v => rfl
      · intro h
        rw [hpg _ (by decide) (by decide), hu]; simp; cases ha : args.get? c!"tos_uri" with
        | none => exact absurd ha h
        | some v => rfl
      · intro h
        rw [hpg _ (by decide) (by decide), hu]; simp; cases ha : args.get? c!"logo_uri" with
        | none => exact absurd ha h
        | some v => rfl
      · rw [hpg _ (by decide) (by decide), hu, hd]; simp; cases conf.get? c!"page_header" <;> rfl
      · rw [hpg _ (by decide) (by decide), hu, hd]; simp; cases conf.get? c!"user_label" <;> rfl
      · rw [hpg _ (by decide) (by decide), hu, hd]; simp; cases conf.get? c!"passwd_label" <;> rfl
      · rw [hpg _ (by decide) (by decide), hu, hd]; simp; cases conf.get? c!"submit_btn" <;> rfl

/-! ### C149: who can make a login form -/

/-- **C149** (what holds): a form token that is accepted was signed with a key that is filed in the provider's key jar under
the name the token gives itself, or with one of the provider's own; and what is read from it is what was signed. -/
theorem C149_signed_by_named_partial {J : JwsLib} (hJ : GoodJws J) {jar : KeyJar} {token : Str} {p : Dict Val}
    (h : verifySignedJwt J jar token = .ok p) :
    ∃ owner alg k, (owner = [] ∨ p.get? c!"iss" = some (.str owner)) ∧ alg ≠ c!"none" ∧ k ∈ jar owner (J.keyType alg)
      ∧ token = J.sign k alg p := by
  unfold verifySignedJwt at h
  cases hr : J.read token with
  | none => simp only [hr] at h; cases h
  | some x =>
    obtain ⟨alg, d⟩ := x
    simp only [hr] at h
    split at h
    · cases h
    · rename_i hn
      split at h
      · rename_i hany
        simp only [Except.ok.injEq] at h
        subst h
        obtain ⟨k, hk, hc⟩ := List.any_eq_true.1 hany
        obtain ⟨a, d', rfl⟩ := hJ.sound k token hc
        rw [hJ.reads] at hr
        simp only [Option.some.injEq, Prod.mk.injEq] at hr
        obtain ⟨rfl, rfl⟩ := hr
        unfold jwtKeys at hk
        split at hk
        · rename_i iss hi
          rcases List.mem_append.1 hk with hk | hk
          · exact ⟨iss, a, k, .inr hi, hn, hk, rfl⟩
          · split at hk
            · exact ⟨[], a, k, .inl rfl, hn, hk, rfl⟩
            · cases hk
        · exact ⟨[], a, k, .inl rfl, hn, hk, rfl⟩
      · cases h

/-- **C149** (what fails): every client whose key or secret is in the key jar can make form tokens with any content, in
particular with the request of another client. -/
theorem C149_client_makes_form_tokens {J : JwsLib} (hJ : GoodJws J) {jar : KeyJar} {client alg k : Str}
    (ha : alg ≠ c!"none") (hk : k ∈ jar client (J.keyType alg)) (content : Dict Val) :
    ∃ token p, token = J.sign k alg p ∧ verifySignedJwt J jar token = .ok p
      ∧ p.get? c!"iss" = some (.str client) ∧ ∀ x, x ≠ c!"iss" → p.get? x = content.get? x := by
  refine ⟨_, content.set c!"iss" (.str client), rfl, verify_signed hJ ha ?_, ?_, ?_⟩
  · unfold jwtKeys
    rw [Dict.get?_set]
    exact List.mem_append_left _ hk
  · rw [Dict.get?_set]; rfl
  · intro x hx
    rw [Dict.get?_set, if_neg hx]

/-- **C149**. Exactly which tokens `verify_signed_jwt` takes: readable ones, not with "none", whose signature fits a key of the right
kind filed under the issuer that the token names; the provider's own keys also count if they are symmetric, or if the
token names no issuer. -/
theorem C149_accepted_iff (J : JwsLib) (jar : KeyJar) (token : Str) (c : Dict Val) :
    verifySignedJwt J jar token = .ok c ↔ ∃ alg k, J.read token = some (alg, c) ∧ alg ≠ c!"none" ∧ J.check k token = true ∧
      ((∃ iss, c.get? c!"iss" = some (.str iss) ∧ k ∈ jar iss (J.keyType alg)) ∨
       (k ∈ jar [] (J.keyType alg) ∧ (J.keyType alg = c!"oct" ∨ ∀ iss, c.get? c!"iss" ≠ some (.str iss)))) := by
  have hkeys : ∀ alg k, k ∈ jwtKeys J jar alg c ↔
      ((∃ iss, c.get? c!"iss" = some (.str iss) ∧ k ∈ jar iss (J.keyType alg)) ∨
       (k ∈ jar [] (J.keyType alg) ∧ (J.keyType alg = c!"oct" ∨ ∀ iss, c.get? c!"iss" ≠ some (.str iss)))) := by
    intro alg k
    unfold jwtKeys
    split
    · rename_i iss hi
      rw [hi, List.mem_append]
      by_cases ho : J.keyType alg = c!"oct"
      · simp [ho]
      · simp [ho]
    · rename_i hi
      constructor
      · exact fun hk => .inr ⟨hk, .inr fun iss e => hi iss e⟩
      · rintro (⟨iss, e, _⟩ | ⟨hk, _⟩)
        · exact absurd e (hi iss)
        · exact hk
  unfold verifySignedJwt
  constructor
  · intro h
    cases hr : J.read token with
    | none => rw [hr] at h; cases h
    | some x =>
      obtain ⟨alg, d⟩ := x
      rw [hr] at h
      simp only at h
      split at h
      · cases h
      · rename_i hn
        split at h
        · rename_i hany
          cases h
          obtain ⟨k, hk, hc⟩ := List.any_eq_true.1 hany
          exact ⟨alg, k, rfl, hn, hc, (hkeys alg k).1 hk⟩
        · cases h
  · rintro ⟨alg, k, h1, h2, h3, h4⟩
    rw [h1]
    simp only [h2, if_false]
    rw [if_pos (List.any_eq_true.2 ⟨k, (hkeys alg k).2 h4, h3⟩)]

/-! ### C150: the logout confirmation -/

theorem claims_get (p : EndPayload) :
    Dict.get? p.claims c!"sid" = some (.str p.sid) ∧ Dict.get? p.claims c!"state" = p.state.map Val.str
    ∧ Dict.get? p.claims c!"redirect_uri" = some (.str p.redirectUri) := by
  obtain ⟨sid, st, uri⟩ := p
  cases st <;> exact ⟨rfl, rfl, rfl⟩

theorem unpack_packed {J : JwsLib} (hJ : GoodJws J) {jar : KeyJar} {now : Int} {iss alg : Str} {l : Option Int}
    {r : Option Str} {payload : Dict Val} {t : Str} (h : jwtPack J jar now iss alg l r payload = .ok t) :
    unpackSignedJwt J jar alg t = .ok (Dict.update payload (jwtAdded now iss l r)) := by
  obtain ⟨k, hk, rfl⟩ := jwtPack_ok h
  unfold unpackSignedJwt
  simp only [hJ.reads, ne_eq, not_true_eq_false, if_false]
  rw [if_pos]
  exact List.any_eq_true.2 ⟨k, hk, hJ.checks _ _ _⟩

/-- **C150**. The confirmation that the logout endpoint sends out comes back as the session, the state and the address it
decided on. -/
theorem C150_confirmation_comes_back {J : JwsLib} (hJ : GoodJws J) {jar : KeyJar} {now : Int} {iss alg t : Str}
    {p : EndPayload} (h : logoutJwt J jar now iss alg p = .ok t) :
    ∃ c, unpackSignedJwt J jar alg t = .ok c ∧ c.get? c!"sid" = some (.str p.sid)
      ∧ c.get? c!"state" = p.state.map Val.str ∧ c.get? c!"redirect_uri" = some (.str p.redirectUri) := by
  refine ⟨_, unpack_packed hJ h, ?_, ?_, ?_⟩
  · rw [packed_other _ _ _ _ _ (by decide)]; exact (claims_get p).1
  · rw [packed_other _ _ _ _ _ (by decide)]; exact (claims_get p).2.1
  · rw [packed_other _ _ _ _ _ (by decide)]; exact (claims_get p).2.2

/-- **C150**. Only the provider can make a confirmation: one that is accepted was signed, with exactly the claims that are
read, by one of the provider's own keys, with the configured algorithm. -/
theorem C150_only_own_keys {J : JwsLib} (hJ : GoodJws J) {jar : KeyJar} {alg t : Str} {c : Dict Val}
    (h : unpackSignedJwt J jar alg t = .ok c) : ∃ k ∈ jar [] (J.keyType alg), t = J.sign k alg c := by
  unfold unpackSignedJwt at h
  cases hr : J.read t with
  | none => simp only [hr] at h; cases h
  | some x =>
    obtain ⟨a, d⟩ := x
    simp only [hr] at h
    split at h
    · cases h
    · rename_i hn
      split at h
      · rename_i hany
        simp only [Except.ok.injEq] at h
        subst h
        obtain ⟨k, hk, hc⟩ := List.any_eq_true.1 hany
        obtain ⟨a', d', rfl⟩ := hJ.sound k t hc
        rw [hJ.reads] at hr
        simp only [Option.some.injEq, Prod.mk.injEq] at hr
        obtain ⟨rfl, rfl⟩ := hr
        have : a' = alg := Decidable.not_not.1 hn
        exact ⟨k, hk, by rw [this]⟩
      · cases h

/-- **C150** (what fails): every JWT access token that was signed with the same algorithm is accepted as confirmation of the
logout of its session. -/
theorem C150_access_token_confirms {J : JwsLib} (hJ : GoodJws J) {jar : KeyJar} {now : Int} {iss alg t : Str}
    {lifetime : Int} {cfg : ClaimsCfg} {cdb : Cdb} {userDb : Str → Dict Val} {g : Grant} {hd : Handler} {sid kind : Str}
    {scope : List Str} {contents : Dict Val} (hc : jwtTokenContents cfg cdb userDb g hd sid kind scope = .ok contents)
    (ht : jwtTokenString J jar now iss alg lifetime contents = .ok t) :
    ∃ c, unpackSignedJwt J jar alg t = .ok c ∧ c.get? c!"sid" = some (.str sid) := by
  refine ⟨_, unpack_packed hJ ht, ?_⟩
  rw [packed_other _ _ _ _ _ (by decide)]
  unfold jwtTokenContents at hc
  cases hp : (payloadArguments cfg cdb userDb g sid kind scope).2 with
  | error e => simp only [hp] at hc; cases hc
  | ok p =>
    simp only [hp] at hc
    cases hb : bindArgs p with
    | error e => simp only [hb] at hc; cases hc
    | ok x =>
      obtain ⟨tt, rest⟩ := x
      simp only [hb, Except.ok.injEq] at hc
      subst hc
      unfold jwtTokenPayload
      rw [Dict.get?_update _ _ _ (by simp)]
      rfl

/-- What a JWT access token says: the provider's name, when it was made, and when it ends. -/
theorem C150_access_token_times {J : JwsLib} (hJ : GoodJws J) {jar : KeyJar} {now : Int} {iss alg t : Str}
    {lifetime : Int} {contents : Dict Val} (ht : jwtTokenString J jar now iss alg lifetime contents = .ok t) :
    ∃ c, unpackSignedJwt J jar alg t = .ok c ∧ c.get? c!"iss" = some (.str iss) ∧ c.get? c!"iat" = some (.int now) ∧
      c.get? c!"exp" = some (.int (now + lifetime)) ∧
      ∀ k, k ∉ [c!"iss", c!"iat", c!"exp", c!"aud"] → c.get? k = contents.get? k := by
  refine ⟨_, unpack_packed hJ ht, packed_iss .., packed_iat .., ?_, fun k hk => packed_other _ _ _ _ _ hk⟩
  rw [packed_get]; rfl

/-- **C150** (what fails): the confirmation has an end of validity, a day after it was made, and is accepted after that:
`unpack_signed_jwt` is given no time.  For every time there is an accepted confirmation that ended before it. -/
theorem C150_accepted_after_end {J : JwsLib} (hJ : GoodJws J) {jar : KeyJar} {iss alg k : Str}
    (hk : jar [] (J.keyType alg) = [k]) (p : EndPayload) (later : Int) :
    ∃ now t c e, logoutJwt J jar now iss alg p = .ok t ∧ unpackSignedJwt J jar alg t = .ok c
      ∧ c.get? c!"exp" = some (.int e) ∧ e < later := by
  have ht : ∃ t, logoutJwt J jar (later - 86401) iss alg p = .ok t := by
    unfold logoutJwt jwtPack
    rw [hk]
    exact ⟨_, rfl⟩
  obtain ⟨t, ht⟩ := ht
  refine ⟨later - 86401, t, _, later - 86401 + 86400, ht, unpack_packed hJ ht, ?_, by omega⟩
  rw [packed_get]; rfl

/-! ### A toy library, and examples -/

/-- A text with its end marked. -/
def encStr : Str → Str
  | [] => ['.']
  | c :: r => 'c' :: c :: encStr r

theorem encStr_inj {a b r r' : Str} (h : encStr a ++ r = encStr b ++ r') : a = b ∧ r = r' := by
  induction a generalizing b with
  | nil => cases b with
    | nil => simpa [encStr] using h
    | cons c t => simp [encStr] at h
  | cons c t ih => cases b with
    | nil => simp [encStr] at h
    | cons c' t' =>
      simp only [encStr, List.cons_append, List.cons.injEq, true_and] at h
      obtain ⟨h1, h2⟩ := h
      obtain ⟨h3, h4⟩ := ih h2
      exact ⟨by rw [h1, h3], h4⟩

/-- A value as a text. -/
def encVal : Val → Str
  | .null => ['n']
  | .bool true => ['t']
  | .bool false => ['f']
  | .int (.ofNat n) => 'p' :: encStr (List.replicate n 'u')
  | .int (.negSucc n) => 'm' :: encStr (List.replicate n 'u')
  | .str s => 's' :: encStr s
  | .lnil => ['l']
  | .lcons h t => 'L' :: (encVal h ++ encVal t)
  | .dnil => ['d']
  | .dcons k v r => 'D' :: (encStr k ++ (encVal v ++ encVal r))

theorem replicate_inj {n m : Nat} {c : Char} (h : List.replicate n c = List.replicate m c) : n = m := by
  have := congrArg List.length h
  simpa using this

theorem encVal_inj {a b : Val} {r r' : Str} (h : encVal a ++ r = encVal b ++ r') : a = b ∧ r = r' := by
  induction a generalizing b r r' with
  | null => cases b with
    | bool x => cases x <;> simp [encVal] at h
    | int x => cases x <;> simp [encVal] at h
    | null => simpa [encVal] using h
    | _ => simp [encVal] at h
  | bool x => cases b with
    | bool y => cases x <;> cases y <;> simp [encVal] at h ⊢ <;> exact h
    | int y => cases x <;> cases y <;> simp [encVal] at h
    | _ => cases x <;> simp [encVal] at h
  | int x => cases b with
    | bool y => cases x <;> cases y <;> simp [encVal] at h
    | int y =>
      cases x <;> cases y <;> simp only [encVal, List.cons_append, List.cons.injEq, true_and, reduceCtorEq, false_and,
        Char.reduceEq] at h
      · obtain ⟨h1, h2⟩ := encStr_inj h
        rw [replicate_inj h1]; exact ⟨rfl, h2⟩
      · obtain ⟨h1, h2⟩ := encStr_inj h
        rw [replicate_inj h1]; exact ⟨rfl, h2⟩
    | _ => cases x <;> simp [encVal] at h
  | str x => cases b with
    | bool y => cases y <;> simp [encVal] at h
    | int y => cases y <;> simp [encVal] at h
    | str y =>
      simp only [encVal, List.cons_append, List.cons.injEq, true_and] at h
      obtain ⟨h1, h2⟩ := encStr_inj h
      rw [h1]; exact ⟨rfl, h2⟩
    | _ => simp [encVal] at h
  | lnil => cases b with
    | bool x => cases x <;> simp [encVal] at h
    | int x => cases x <;> simp [encVal] at h
    | lnil => simpa [encVal] using h
    | _ => simp [encVal] at h
  | dnil => cases b with
    | bool x => cases x <;> simp [encVal] at h
    | int x => cases x <;> simp [encVal] at h
    | dnil => simpa [encVal] using h
    | _ => simp [encVal] at h
  | lcons x y ix iy => cases b with
    | bool x => cases x <;> simp [encVal] at h
    | int x => cases x <;> simp [encVal] at h
    | lcons x' y' =>
      simp only [encVal, List.cons_append, List.cons.injEq, true_and, List.append_assoc] at h
      obtain ⟨h1, h2⟩ := ix h
      obtain ⟨h3, h4⟩ := iy h2
      exact ⟨by rw [h1, h3], h4⟩
    | _ => simp [encVal] at h
  | dcons k x y ix iy => cases b with
    | bool x => cases x <;> simp [encVal] at h
    | int x => cases x <;> simp [encVal] at h
    | dcons k' x' y' =>
      simp only [encVal, List.cons_append, List.cons.injEq, true_and, List.append_assoc] at h
      obtain ⟨h0, h⟩ := encStr_inj h
      obtain ⟨h1, h2⟩ := ix h
      obtain ⟨h3, h4⟩ := iy h2
      exact ⟨by rw [h0, h1, h3], h4⟩
    | _ => simp [encVal] at h

/-- Claims as a text. -/
def encDict : Dict Val → Str
  | [] => []
  | (k, v) :: r => encStr k ++ (encVal v ++ encDict r)

theorem encStr_ne (a : Str) : encStr a ≠ [] := by cases a <;> simp [encStr]

theorem encDict_inj {a b : Dict Val} (h : encDict a = encDict b) : a = b := by
  induction a generalizing b with
  | nil => cases b with
    | nil => rfl
    | cons x r =>
      obtain ⟨k, v⟩ := x
      simp only [encDict] at h
      exact absurd (List.append_eq_nil_iff.1 h.symm).1 (encStr_ne k)
  | cons x r ih =>
    obtain ⟨k, v⟩ := x
    cases b with
    | nil =>
      simp only [encDict] at h
      exact absurd (List.append_eq_nil_iff.1 h).1 (encStr_ne k)
    | cons y r' =>
      obtain ⟨k', v'⟩ := y
      simp only [encDict] at h
      obtain ⟨h1, h2⟩ := encStr_inj h
      obtain ⟨h3, h4⟩ := encVal_inj h2
      rw [h1, h3, ih h4]

/-- A token: key, algorithm and claims, written down. -/
def toySign (k a : Str) (d : Dict Val) : Str := encStr k ++ (encStr a ++ encDict d)

theorem toySign_inj {k a k' a' : Str} {d d' : Dict Val} (h : toySign k a d = toySign k' a' d') : k = k' ∧ a = a' ∧ d = d' := by
  obtain ⟨h1, h2⟩ := encStr_inj h
  obtain ⟨h3, h4⟩ := encStr_inj h2
  exact ⟨h1, h3, encDict_inj h4⟩

open Classical in
/-- A library with the assumed properties. -/
noncomputable def toyJws : JwsLib where
  keyType a := if a = c!"HS256" then c!"oct" else c!"RSA"
  sign := toySign
  read t := if h : ∃ x : Str × Str × Dict Val, t = toySign x.1 x.2.1 x.2.2 then some h.choose.2 else none
  check k t := decide (∃ x : Str × Dict Val, t = toySign k x.1 x.2)

open Classical in
theorem toyJws_good : GoodJws toyJws where
  reads k a d := by
    have h : ∃ x : Str × Str × Dict Val, toySign k a d = toySign x.1 x.2.1 x.2.2 := ⟨(k, a, d), rfl⟩
    show (if h : ∃ x : Str × Str × Dict Val, toySign k a d = toySign x.1 x.2.1 x.2.2 then some h.choose.2 else none) = some (a, d)
    rw [dif_pos h]
    obtain ⟨_, h2, h3⟩ := toySign_inj h.choose_spec
    exact congrArg some (Prod.ext h2.symm h3.symm)
  checks k a d := decide_eq_true ⟨(a, d), rfl⟩
  sound k t h := by
    obtain ⟨x, hx⟩ := of_decide_eq_true h
    exact ⟨x.1, x.2, hx⟩

/-- The provider has an RSA key, filed under its issuer name too; a client has its secret there. -/
def formJar : KeyJar := fun o kt =>
  if kt = c!"RSA" then (if o = [] ∨ o = c!"https://op" then [c!"opkey"] else [])
  else if o = c!"evil" then [c!"evilsecret"] else []

theorem formJar_own : OwnKeysFiled formJar c!"https://op" := by
  intro kt k h
  unfold formJar at h ⊢
  by_cases e : kt = c!"RSA"
  · simpa [e] using h
  · simp [e] at h

def formReq : Dict Val := [(c!"client_id", .str c!"rp"), (c!"redirect_uri", .str c!"https://rp/cb"), (c!"login_hint", .str c!"diana")]

def formInfo : Dict Val := [(c!"policy_uri", .str c!"https://rp/policy")]

/-- The form for a request is made, and brings the request back. -/
example : ∃ (page : Dict Val) (token : Str) (p : Dict Val), page.get? c!"token" = some (.str token) ∧ verifySignedJwt toyJws formJar token = .ok p
    ∧ p.get? c!"query" = some (.str c!"q") ∧ p.get? c!"policy_uri" = some (.str c!"https://rp/policy")
    ∧ page.get? c!"policy_uri" = some (.str c!"https://rp/policy") := by
  obtain ⟨args, page, h1, h2⟩ := (C148_page_is_made_iff (J := toyJws) (jar := formJar) (iss := c!"https://op")
    (enc := fun _ => c!"q") (req := formReq) (cinfo := formInfo) (conf := []) (acr := c!"pwd") (action := c!"/verify")
    (u := none) (now := 100)).2 ⟨by decide, by decide, rfl, rfl⟩
  obtain ⟨t, p, h3, _, h4, h5, _, _, _, _, h6, _⟩ := C148_form_carries_request toyJws_good formJar_own h1 h2
  refine ⟨page, t, p, h3, h4, h5, (h6 _ (by decide)).trans (by decide), ?_⟩
  rw [(C148_page_shows_client h2).1 _ (by decide)]
  unfold shown
  rw [args_get h1]
  decide

/-- A client with a secret makes a form token with the request of another client, and it is accepted. -/
example : ∃ token p, verifySignedJwt toyJws formJar token = .ok p ∧ p.get? c!"query" = some (.str c!"client_id=rp") := by
  obtain ⟨t, p, _, h, _, hx⟩ := C149_client_makes_form_tokens toyJws_good (jar := formJar) (client := c!"evil")
    (alg := c!"HS256") (k := c!"evilsecret") (by decide) (by decide) [(c!"query", .str c!"client_id=rp")]
  exact ⟨t, p, h, hx _ (by decide)⟩

/-- A confirmation comes back, also when it has long ended. -/
example : ∃ t, logoutJwt toyJws formJar 100 c!"https://op" c!"RS256" ⟨c!"diana;;rp;;g1", some c!"st", c!"https://rp/out"⟩ = .ok t :=
  ⟨_, rfl⟩

end Verif
