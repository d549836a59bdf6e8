import Verif.Props.DeliverAuthz
/-! C95–C98: what the browser gets from the authorization endpoint, the claims themselves. -/
namespace Verif
open Spec
set_option linter.unusedSimpArgs false

/-! ### C95: every outcome reaches the client -/

theorem requestUrl_sentTo (lib : MsgLib) (m : Message) (u : Str) (frag : Bool) :
    SentTo u (lib.toUrl m) frag (requestUrl lib m u frag) := by
  unfold requestUrl
  cases frag with
  | true => exact .fragment
  | false =>
    by_cases h : '?' ∈ u
    · simp only [Bool.false_eq_true, if_false, h, if_true]; exact .moreQuery h
    · simp only [Bool.false_eq_true, if_false, h]; exact .query h

/-- Delivery of a dictionary with a redirect URI and no page. -/
theorem deliver_plain (lib : MsgLib) (i : RespInfo) (u : Str) (hu : i.uri = some u) (hp : i.page = none) :
    ∃ r, deliverAuthz lib i = .ok r ∧ r.cookie = i.cookies ∧ r.placement = none ∧
      r.response = some (.text (requestUrl lib i.args u (i.frag.getD false))) := by
  refine ⟨{ response := some (.text (requestUrl lib i.args u (i.frag.getD false))), headers := noCacheHeaders,
            placement := none, cookie := i.cookies, callers := none }, ?_, rfl, rfl, rfl⟩
  have hb : ¬ (c!"url" : Str) = c!"body" := by decide
  simp only [deliverAuthz, doResponse, hu, hp, ne_eq, not_true_eq_false, if_false, placeMessage, Option.map_none, authzStyle,
    hb, if_true, fragFlag, Except.map, respHeaders, List.nil_append]
  cases i.frag <;> rfl

/-- Delivery of a dictionary with a page. -/
theorem deliver_page (lib : MsgLib) (i : RespInfo) (p : Str) (hp : i.page = some p) :
    ∃ r, deliverAuthz lib i = .ok r ∧ r.cookie = i.cookies ∧ r.placement = some c!"body" ∧ r.response = some (.text p) := by
  refine ⟨{ response := some (.text p), headers := (hContentType, c!"text/html") :: noCacheHeaders,
            placement := some c!"body", cookie := i.cookies, callers := none }, ?_, rfl, rfl, rfl⟩
  simp only [deliverAuthz, doResponse, hp, ne_eq, not_true_eq_false, if_false, Option.map_some, msgContentType, respHeaders]
  rfl

/-- Delivery of a dictionary without redirect URI or page: `do_response` raises. -/
theorem deliver_nowhere (lib : MsgLib) (i : RespInfo) (hu : i.uri = none) (hp : i.page = none) :
    deliverAuthz lib i = .error .keyError := by
  have hb : ¬ (c!"url" : Str) = c!"body" := by decide
  simp only [deliverAuthz, doResponse, hu, hp, ne_eq, not_true_eq_false, if_false, placeMessage, Option.map_none, authzStyle,
    hb, if_true, Except.map]

/-- Session management leaves all but parameters and cookies as it was. -/
theorem sessionPart_same {cfg : ReplyCfg} {s : Store} {now : Int} {salt : Str} {req : AuthReq} {sid : Str} {i0 i : RespInfo}
    (h : sessionPart cfg s now salt req sid i0 = .val i) :
    i.content = i0.content ∧ i.uri = i0.uri ∧ i.page = i0.page ∧ i.frag = i0.frag ∧
    ∃ l, i.args = i0.args ++ l ∧ ∀ p ∈ l, p.1 = c!"session_state" := by
  rcases sessionPart_val h with ⟨_, rfl⟩ | ⟨_, u, ev, opbs, _, _, _, _, _, rfl⟩
  · exact ⟨rfl, rfl, rfl, rfl, [], by simp, by simp⟩
  · exact ⟨rfl, rfl, rfl, rfl, _, rfl, by simp⟩

/-- The form page posts exactly the parameters. -/
theorem formInputs_fields (d : Dict Str) (t : Str) (ht : HiddenFields [] t) : HiddenFields d (formInputs d ++ t) := by
  induction d with
  | nil => exact ht
  | cons p d ih =>
    cases d with
    | nil =>
      have := HiddenFields.field p.1 p.2 [] t ht
      simpa [formInputs, pyJoin] using this
    | cons q d =>
      have := HiddenFields.field p.1 p.2 (q :: d) _ (.blank '\n' _ _ (.inr rfl) ih)
      simpa [formInputs, pyJoin] using this

set_option maxRecDepth 4000 in
theorem formPage_posts (d : Dict Str) (u : Str) : PostsForm (formPage d u) u d := by
  refine ⟨c!"<html>\n  <head>\n    <title>Submit This Form</title>\n  </head>\n  ",
    c!"\n        " ++ (formInputs d ++ c!"\n    "), ?_, ?_⟩
  · simp only [formPage, List.append_assoc, List.cons_append, List.nil_append]
  · have e : HiddenFields [] c!"\n    " := by
      repeat (first | exact .nil | refine .blank _ _ _ (by simp) ?_)
    have := formInputs_fields d _ e
    show HiddenFields d ('\n' :: ' ' :: ' ' :: ' ' :: ' ' :: ' ' :: ' ' :: ' ' :: ' ' :: (formInputs d ++ c!"\n    "))
    repeat (first | exact this | refine .blank _ _ _ (by simp) ?_)

section
variable (cfg : ReplyCfg) (env : Env) (cdb : Cdb) (s : Store) (now : Int) (mc ma : MintIn) (idt : Out Str) (d salt : Str)
variable (cookie : Option Str) (req : AuthReq) (sid : Str) (lib : MsgLib)

/-- C95, the part that holds: every successful authorization response reaches the client.  It is sent to the redirect URI that
was verified for the client, as query or fragment of that URI, or (if asked for, and only then) as a page with a form that posts it there.
What is missing: `C95_denial_not_delivered`. -/
theorem C95_success_is_delivered_partial (i : RespInfo) (a : RespArgs)
    (h : (authzPart2Full cfg env cdb s now mc ma idt d salt cookie req sid).2.2 = .ok i) (ha : i.content = .val a) :
    ∃ u r, getUri env.lib (authzPart2Full cfg env cdb s now mc ma idt d salt cookie req sid).1 .redirect req.clientId
        req.redirectUri = .ok u ∧
      deliverAuthz lib i = .ok r ∧
      ((req.responseMode = some c!"form_post" ∧ (∃ page, r.response = some (.text page) ∧
          PostsForm page u (argsMessage a)) ∧ r.placement = some c!"body") ∨
       (req.responseMode ≠ some c!"form_post" ∧ ∃ frag loc, SentTo u (lib.toUrl i.args) frag loc ∧
          r.response = some (.text loc) ∧ r.placement = none)) := by
  rcases full_ok cfg env cdb s now mc ma idt d salt cookie req sid i h with rfl | ⟨i0, i1, _, hsh, hs, rfl⟩
  · cases ha
  · obtain ⟨c1, c2, c3, c4, _⟩ := sessionPart_same hs
    simp only at ha
    rw [c1] at ha
    generalize hi : ({ i1 with args := i1.args ++ [(c!"iss", cfg.issuer), (c!"client_id", req.clientId)] } : RespInfo) = i
    have k2 : i.uri = i0.uri := by rw [← hi]; exact c2
    have k3 : i.page = i0.page := by rw [← hi]; exact c3
    cases hsh with
    | noUri e frag he => cases ha
    | badMode m u frag h1 h2 h3 => cases ha
    | page content u frag hc h1 h2 =>
      simp only at ha
      subst ha
      obtain ⟨r, hr, _, hpl, hre⟩ := deliver_page lib i _ k3
      exact ⟨u, r, h1, hr, .inl ⟨h2, ⟨_, hre, formPage_posts _ u⟩, hpl⟩⟩
    | plain content u frag hc h1 h2 =>
      simp only at ha
      subst ha
      obtain ⟨r, hr, _, hpl, hre⟩ := deliver_plain lib i u k2 k3
      exact ⟨u, r, h1, hr, .inr ⟨h2, _, _, requestUrl_sentTo lib i.args u _, hre, hpl⟩⟩

/-- C95 is false: whatever the reason for which authorization is denied, or fails, after the user logged in, the response
cannot be built: `do_response` raises `KeyError`, and neither user nor client hear anything. -/
theorem C95_denial_not_delivered (i : RespInfo)
    (h : (authzPart2Full cfg env cdb s now mc ma idt d salt cookie req sid).2.2 = .ok i)
    (he : i.content = .errMsg c!"access_denied" ∨ i.content = .errMsg c!"server_error") :
    deliverAuthz lib i = .error .keyError := by
  rcases full_ok cfg env cdb s now mc ma idt d salt cookie req sid i h with rfl | ⟨i0, i1, _, hsh, hs, rfl⟩
  · exact deliver_nowhere lib _ rfl rfl
  · obtain ⟨c1, c2, c3, c4, _⟩ := sessionPart_same hs
    simp only [c1] at he
    cases hsh with
    | noUri e frag he => exact deliver_nowhere lib _ c2 c3
    | badMode m u frag h1 h2 h3 => rcases he with he | he <;> exact absurd (Out.errMsg.inj he) (by decide)
    | page content u frag hc h1 h2 =>
      rcases hc with ⟨a, rfl⟩ | rfl
      · rcases he with he | he <;> cases he
      · rcases he with he | he <;> exact absurd (Out.errMsg.inj he) (by decide)
    | plain content u frag hc h1 h2 =>
      rcases hc with ⟨a, rfl⟩ | rfl
      · rcases he with he | he <;> cases he
      · rcases he with he | he <;> exact absurd (Out.errMsg.inj he) (by decide)

/-- C95 is false for every request without scope, which OAuth2 permits: unless the policy is "implicit", it is denied, and
the denial is lost; with session management it is an exception already before. -/
theorem C95_no_scope_no_answer (hs : req.scope = []) (himp : env.gc.implicit = false) :
    (∃ e, (authzPart2Full cfg env cdb s now mc ma idt d salt cookie req sid).2.2 = .error e) ∨
    ∃ i, (authzPart2Full cfg env cdb s now mc ma idt d salt cookie req sid).2.2 = .ok i ∧
      deliverAuthz lib i = .error .keyError := by
  have hden : (postAuthn env cdb s now mc ma idt d cookie req sid).2.2 = .ok (errInfo emptyInfo c!"access_denied" d) := by
    unfold postAuthn
    cases hg : getGrant s sid with
    | error e => rfl
    | ok g =>
      simp only
      cases hu : unpack3 sid with
      | error e => rfl
      | ok x =>
        obtain ⟨u, c, gi⟩ := x
        simp only [authzCall, himp, Bool.false_eq_true, if_false, hs, if_true]
  cases hf : (authzPart2Full cfg env cdb s now mc ma idt d salt cookie req sid).2.2 with
  | error e => exact .inl ⟨e, rfl⟩
  | ok i =>
    refine .inr ⟨i, rfl, ?_⟩
    apply C95_denial_not_delivered cfg env cdb s now mc ma idt d salt cookie req sid lib i hf
    rcases full_ok cfg env cdb s now mc ma idt d salt cookie req sid i hf with rfl | ⟨i0, i1, hp, hsh, hs, rfl⟩
    · exact .inr rfl
    · rw [hden] at hp
      cases hp
      exact .inl (sessionPart_same hs).1

/-- C95 is false: with session management (`check_session_iframe`) a denial never comes out of the endpoint as such. -/
theorem C95_iframe_never_says_denied (hf : cfg.iframe = true) (i : RespInfo)
    (h : (authzPart2Full cfg env cdb s now mc ma idt d salt cookie req sid).2.2 = .ok i) :
    i.content ≠ .errMsg c!"access_denied" := by
  rcases full_ok cfg env cdb s now mc ma idt d salt cookie req sid i h with rfl | ⟨i0, i1, _, hsh, hs, rfl⟩
  · simp [errInfo]
  · obtain ⟨c1, c2, c3, c4, _⟩ := sessionPart_same hs
    simp only [c1]
    rcases sessionPart_val hs with ⟨hf', _⟩ | ⟨_, u, ev, opbs, hu, _⟩
    · rw [hf] at hf'; cases hf'
    · cases hsh with
      | noUri e frag he => cases hu
      | badMode m u frag h1 h2 h3 => simp
      | page content u frag hc h1 h2 => rcases hc with ⟨a, rfl⟩ | rfl <;> simp
      | plain content u frag hc h1 h2 => rcases hc with ⟨a, rfl⟩ | rfl <;> simp

/-! ### C96: a response says who it is from, for whom, and which request it answers -/

theorem valueOf_append (a b : Message) (k : Str) : valueOf (a ++ b) k = (valueOf a k).or (valueOf b k) := by
  unfold valueOf
  rw [List.find?_append]
  cases a.find? (fun p => decide (p.1 = k)) <;> rfl

theorem valueOf_none {l : Message} {k : Str} (h : ∀ p ∈ l, p.1 ≠ k) : valueOf l k = none := by
  unfold valueOf
  rw [Option.map_eq_none_iff, List.find?_eq_none]
  intro p hp
  simpa using h p hp

theorem argsMessage_keys (a : RespArgs) : ∀ p ∈ argsMessage a,
    p.1 ∈ [c!"state", c!"scope", c!"code", c!"access_token", c!"token_type", c!"expires_in", c!"id_token"] := by
  obtain ⟨st, sc, co, at', it, ex⟩ := a
  intro p hp
  simp only [argsMessage, List.mem_append] at hp
  rcases hp with (((((hp | hp) | hp) | hp) | hp) | hp) | hp
  · cases st <;> simp [optParam] at hp; simp [hp]
  · split at hp <;> simp at hp; simp [hp]
  · cases co <;> simp [optParam] at hp; simp [hp]
  · cases at' <;> simp [optParam] at hp; simp [hp]
  · cases at' <;> simp [optParam] at hp; simp [hp]
  · cases ex <;> simp [optParam] at hp; simp [hp]
  · cases it <;> simp [optParam] at hp; simp [hp]

theorem argsMessage_state (a : RespArgs) : valueOf (argsMessage a) c!"state" = a.state := by
  obtain ⟨st, sc, co, at', it, ex⟩ := a
  unfold argsMessage
  simp only [List.append_assoc]
  rw [valueOf_append]
  cases st with
  | some v => simp [optParam, valueOf]
  | none =>
    simp only [optParam]
    rw [valueOf_none (l := []) (by simp), Option.none_or]
    apply valueOf_none
    intro p hp
    have := argsMessage_keys ⟨none, sc, co, at', it, ex⟩ p (by simpa [argsMessage, optParam] using hp)
    simp only [List.mem_append] at hp
    intro k
    rcases hp with hp | hp | hp | hp | hp | hp
    · split at hp <;> simp at hp; rw [hp] at k; simp at k
    · cases co <;> simp [optParam] at hp; rw [hp] at k; simp at k
    · cases at' <;> simp [optParam] at hp; rw [hp] at k; simp at k
    · cases at' <;> simp [optParam] at hp; rw [hp] at k; simp at k
    · cases ex <;> simp [optParam] at hp; rw [hp] at k; simp at k
    · cases it <;> simp [optParam] at hp; rw [hp] at k; simp at k

/-- C96, the part that holds: the parameters of a successful response that is not a form contain the issuer, the client
and the request's state (which the session is for).  What is missing: `C96_form_does_not_name_issuer`,
`C96_errors_without_state`. -/
theorem C96_response_names_issuer_client_state_partial (i : RespInfo) (a : RespArgs)
    (h : (authzPart2Full cfg env cdb s now mc ma idt d salt cookie req sid).2.2 = .ok i) (ha : i.content = .val a)
    (hm : req.responseMode ≠ some c!"form_post") :
    valueOf i.args c!"iss" = some cfg.issuer ∧ valueOf i.args c!"client_id" = some req.clientId ∧
    valueOf i.args c!"state" = (if req.state = some [] then none else req.state) := by
  have hst : a.state = (if req.state = some [] then none else req.state) := by
    rcases full_ok cfg env cdb s now mc ma idt d salt cookie req sid i h with rfl | ⟨i0, i1, hp, hsh, hs, rfl⟩
    · cases ha
    · have h2 := authzPart2_eq env cdb s now mc ma idt d cookie req sid
      rw [hp] at h2
      have hc : (authzPart2 env cdb s now mc ma idt req sid).2.2.content = .val a := by
        rw [h2]; simp only [RespInfo.reply]; rw [← (sessionPart_same hs).1]; exact ha
      obtain ⟨cdb', s', frag, u, h1, _⟩ := authzPart2_val env cdb s now mc ma idt req sid a hc
      rcases createAuthnResponse_val env s' now mc ma idt req sid a frag h1 with ⟨_, _, rfl⟩ | ⟨_, _, _, _, _, hst, _⟩
      · rfl
      · exact hst
  rcases full_ok cfg env cdb s now mc ma idt d salt cookie req sid i h with rfl | ⟨i0, i1, hp, hsh, hs, rfl⟩
  · cases ha
  · obtain ⟨c1, c2, c3, c4, l, c5, c6⟩ := sessionPart_same hs
    simp only at ha
    rw [c1] at ha
    have hargs : i0.args = argsMessage a := by
      cases hsh with
      | noUri e frag he => cases ha
      | badMode m u frag h1 h2 h3 => cases ha
      | page content u frag hc h1 h2 => exact absurd h2 hm
      | plain content u frag hc h1 h2 => simp only at ha; subst ha; rfl
    have hk := argsMessage_keys a
    simp only [c5, hargs]
    refine ⟨?_, ?_, ?_⟩
    · rw [valueOf_append, valueOf_none, Option.none_or]
      · rfl
      · intro p hp
        rcases List.mem_append.1 hp with hp | hp
        · intro k; have := hk p hp; rw [k] at this; exact absurd this (by decide)
        · rw [c6 p hp]; decide
    · rw [valueOf_append, valueOf_none, Option.none_or]
      · simp [valueOf]
      · intro p hp
        rcases List.mem_append.1 hp with hp | hp
        · intro k; have := hk p hp; rw [k] at this; exact absurd this (by decide)
        · rw [c6 p hp]; decide
    · rw [valueOf_append, valueOf_append, argsMessage_state, ← hst]
      rw [valueOf_none (l := l) (fun p hp => by rw [c6 p hp]; decide)]
      have : valueOf [(c!"iss", cfg.issuer), (c!"client_id", req.clientId)] c!"state" = none := by
        apply valueOf_none
        simp
      rw [this]
      simp

/-- C96 is false with `response_mode=form_post`: the page was made before the issuer and the client were added, so that
what the client gets is the same whoever the issuer is. -/
theorem C96_form_does_not_name_issuer (iss' : Str) (i i' : RespInfo)
    (h : (authzPart2Full cfg env cdb s now mc ma idt d salt cookie req sid).2.2 = .ok i)
    (h' : (authzPart2Full { cfg with issuer := iss' } env cdb s now mc ma idt d salt cookie req sid).2.2 = .ok i')
    (hm : req.responseMode = some c!"form_post") : deliverAuthz lib i = deliverAuthz lib i' := by
  unfold authzPart2Full at h h'
  have hpost := postAuthn_shape env cdb s now mc ma idt d cookie req sid
  generalize postAuthn env cdb s now mc ma idt d cookie req sid = p at h h' hpost
  obtain ⟨p1, p2, p3⟩ := p
  cases p3 with
  | error e =>
    simp only [Except.ok.injEq] at h h'
    rw [← h, ← h']
  | ok i0 =>
    have hsh := hpost i0 rfl
    simp only at h h' hsh
    have e : sessionPart { cfg with issuer := iss' } p2 now salt req sid i0 = sessionPart cfg p2 now salt req sid i0 := rfl
    rw [e] at h'
    cases hs : sessionPart cfg p2 now salt req sid i0 with
    | raise x => simp [hs] at h
    | errMsg x => simp only [hs, Except.ok.injEq] at h h'; rw [← h, ← h']
    | val i1 =>
      simp only [hs, Except.ok.injEq] at h h'
      rw [← h, ← h']
      obtain ⟨c1, c2, c3, c4, _⟩ := sessionPart_same hs
      have : ∀ (j : RespInfo) (m : Message), (j.page.isSome ∨ j.uri = none) →
          deliverAuthz lib { j with args := m } = deliverAuthz lib j := by
        intro j m hj
        obtain ⟨jc, ja, jf, ju, jp, jk⟩ := j
        cases jp with
        | some pg =>
          simp only [deliverAuthz, doResponse, ne_eq, not_true_eq_false, if_false]
        | none =>
          rcases hj with hj | hj
          · cases hj
          · simp only at hj
            subst hj
            exact (deliver_nowhere lib _ rfl rfl).trans (deliver_nowhere lib _ rfl rfl).symm
      by_cases hpage : i1.page.isSome ∨ i1.uri = none
      · exact (this i1 _ hpage).trans (this i1 _ hpage).symm
      · rw [c3, c2] at hpage
        cases hsh with
        | noUri e frag he => exact absurd (.inr rfl) hpage
        | badMode m u frag h1 h2 h3 => rw [hm] at h2; exact absurd (Option.some.inj h2).symm h3
        | page content u frag hc h1 h2 => exact absurd (.inl rfl) hpage
        | plain content u frag hc h1 h2 => exact absurd hm h2

/-- C96 is false: no error response carries the request's state (which the standard requires), so that the client cannot
tell which of its requests failed. -/
theorem C96_errors_without_state (i : RespInfo) (e : Str)
    (h : (authzPart2Full cfg env cdb s now mc ma idt d salt cookie req sid).2.2 = .ok i) (he : i.content = .errMsg e) :
    valueOf i.args c!"state" = none := by
  rcases full_ok cfg env cdb s now mc ma idt d salt cookie req sid i h with rfl | ⟨i0, i1, hp, hsh, hs, rfl⟩
  · apply valueOf_none
    intro p hp
    simp only [errInfo, contentMessage, List.mem_cons, List.not_mem_nil, or_false] at hp
    rcases hp with rfl | rfl <;> simp
  · obtain ⟨c1, c2, c3, c4, l, c5, c6⟩ := sessionPart_same hs
    simp only at he
    rw [c1] at he
    have hargs : ∃ x, i0.args = [(c!"error", x), (c!"error_description", d)] := by
      cases hsh with
      | noUri e frag _ => exact ⟨_, rfl⟩
      | badMode m u frag h1 h2 h3 => exact ⟨_, rfl⟩
      | page content u frag hc h1 h2 => simp only at he; subst he; exact ⟨_, rfl⟩
      | plain content u frag hc h1 h2 => simp only at he; subst he; exact ⟨_, rfl⟩
    obtain ⟨x, hx⟩ := hargs
    simp only [c5, hx]
    apply valueOf_none
    intro p hp
    simp only [List.mem_append, List.mem_cons, List.not_mem_nil, or_false] at hp
    rcases hp with ((rfl | rfl) | hp) | rfl | rfl
    · simp
    · simp
    · rw [c6 p hp]; decide
    · simp
    · simp

/-! ### C97: session state -/

/-- C97, the part that holds: with session management and a cookie dealer, a response has a `session_state` made from the client, the origin of the
redirect URI and the value of the session management cookie, made from the time of the login, and that cookie is sent along.
What is missing: `C97_without_dealer`. -/
theorem C97_state_and_cookie_partial (hf : cfg.iframe = true) (mk : Int → Except Exn Str) (hd : cfg.dealer = some mk)
    (hmk : ∀ t, mk t ≠ .ok []) (i : RespInfo) (a : RespArgs)
    (h : (authzPart2Full cfg env cdb s now mc ma idt d salt cookie req sid).2.2 = .ok i) (ha : i.content = .val a) :
    ∃ u ev opbs, i.uri = some u ∧
      getAuthnEvent (authzPart2Full cfg env cdb s now mc ma idt d salt cookie req sid).2.1 sid = .ok (some ev) ∧
      now < ev.validUntil ∧ mk ev.authnTime = .ok opbs ∧
      valueOf i.args c!"session_state" = some (computeSessionState cfg opbs salt req.clientId u) ∧
      i.cookies = some [cookie, some opbs] := by
  rcases full_ok cfg env cdb s now mc ma idt d salt cookie req sid i h with rfl | ⟨i0, i1, hp, hsh, hs, rfl⟩
  · cases ha
  · rcases sessionPart_val hs with ⟨hf', _⟩ | ⟨_, u, ev, opbs, hu, hev, hv, _, hmk2, rfl⟩
    · rw [hf] at hf'; cases hf'
    · have hne : opbs ≠ [] := fun k => hmk ev.authnTime (k ▸ hmk2 mk hd)
      simp only at ha
      have hargs : i0.args = argsMessage a ∧ i0.cookies = some [cookie] := by
        cases hsh with
        | noUri e frag he => cases ha
        | badMode m u frag h1 h2 h3 => cases ha
        | page content u frag hc h1 h2 => simp only at ha; subst ha; exact ⟨rfl, rfl⟩
        | plain content u frag hc h1 h2 => simp only at ha; subst ha; exact ⟨rfl, rfl⟩
      refine ⟨u, ev, opbs, hu, hev, hv, hmk2 mk hd, ?_, ?_⟩
      · simp only [hargs.1, List.append_assoc]
        rw [valueOf_append, valueOf_none, Option.none_or]
        · simp [valueOf]
        · intro p hp k
          have := argsMessage_keys a p hp
          rw [k] at this
          exact absurd this (by decide)
      · simp only [addCookie, hne, if_false, hargs.2, Option.getD_some, List.cons_append, List.nil_append]

end

/-- The last occurrence of a character determines the parts. -/
theorem last_cancel {c : Char} {x y a b : Str} (ha : c ∉ a) (hb : c ∉ b) (h : x ++ c :: a = y ++ c :: b) :
    x = y ∧ a = b := by
  rcases List.append_eq_append_iff.1 h with ⟨z, hz1, hz2⟩ | ⟨z, hz1, hz2⟩
  · cases z with
    | nil => simp at hz1 hz2; exact ⟨hz1.symm, hz2⟩
    | cons k z =>
      simp only [List.cons_append, List.cons.injEq] at hz2
      exact absurd (by rw [hz2.2]; simp) ha
  · cases z with
    | nil => simp at hz1 hz2; exact ⟨hz1, hz2.symm⟩
    | cons k z =>
      simp only [List.cons_append, List.cons.injEq] at hz2
      exact absurd (by rw [hz2.2]; simp) hb

/-- The first occurrence of a character determines the parts. -/
theorem first_cancel {c : Char} {x y a b : Str} (hx : c ∉ x) (hy : c ∉ y) (h : x ++ c :: a = y ++ c :: b) :
    x = y ∧ a = b := by
  rcases List.append_eq_append_iff.1 h with ⟨z, hz1, hz2⟩ | ⟨z, hz1, hz2⟩
  · cases z with
    | nil => simp at hz1 hz2; exact ⟨hz1.symm, hz2⟩
    | cons k z =>
      simp only [List.cons_append, List.cons.injEq] at hz2
      exact absurd (by rw [hz1, hz2.1]; simp) hy
  · cases z with
    | nil => simp at hz1 hz2; exact ⟨hz1, hz2.symm⟩
    | cons k z =>
      simp only [List.cons_append, List.cons.injEq] at hz2
      exact absurd (by rw [hz1, hz2.1]; simp) hx

/-- C97: equal session states mean the same client, the same origin, the same browser state (cookie value) and salt, for all client
identifiers (blanks included), as long as cookie values and salts have no blanks. -/
theorem C97_session_state_determines (cfg : ReplyCfg) (hc : CollisionFree cfg.hash) (hdot : DotFree cfg.hash)
    (ho : OriginLike cfg.origin) (opbs opbs' salt salt' client client' u u' : Str)
    (h1 : ' ' ∉ opbs) (h1' : ' ' ∉ opbs') (h2 : ' ' ∉ salt) (h2' : ' ' ∉ salt')
    (h : computeSessionState cfg opbs salt client u = computeSessionState cfg opbs' salt' client' u') :
    client = client' ∧ cfg.origin u = cfg.origin u' ∧ opbs = opbs' ∧ salt = salt' := by
  obtain ⟨a1, a2, a3⟩ := ho u
  obtain ⟨b1, b2, b3⟩ := ho u'
  unfold computeSessionState at h
  simp only [List.append_assoc, List.cons_append, List.nil_append] at h
  obtain ⟨e1, e2⟩ := first_cancel (hdot _) (hdot _) h
  subst e2
  have e := hc _ _ e1
  have shape : ∀ (cl s n o : Str), cl ++ ' ' :: (s ++ ':' :: '/' :: '/' :: (n ++ ' ' :: (o ++ ' ' :: salt))) =
      (((cl ++ ' ' :: (s ++ [':', '/'])) ++ '/' :: n) ++ ' ' :: o) ++ ' ' :: salt := by
    intro cl s n o; simp
  rw [shape, shape] at e
  obtain ⟨e, _⟩ := last_cancel h2 h2 e
  obtain ⟨e, k1⟩ := last_cancel h1 h1' e
  obtain ⟨e, k2⟩ := last_cancel a3 b3 e
  have blank : ∀ s : Str, ' ' ∉ s → ' ' ∉ s ++ [':', '/'] := by
    intro s hs; simp [hs]
  obtain ⟨e, k3⟩ := last_cancel (blank _ a2) (blank _ b2) e
  have k4 := List.append_cancel_right k3
  exact ⟨e, Prod.ext k4 k2, k1, rfl⟩

/-- A digest without collisions and dots: every character in unary. -/
def unary : Str → Str
  | [] => []
  | c :: s => List.replicate c.toNat 'a' ++ 'b' :: unary s

theorem unary_collisionFree : CollisionFree unary := by
  intro x
  induction x with
  | nil => intro y h; cases y with
    | nil => rfl
    | cons c y => simp [unary] at h
  | cons c x ih =>
    intro y h
    cases y with
    | nil => simp [unary] at h
    | cons k y =>
      simp only [unary] at h
      obtain ⟨e1, e2⟩ := first_cancel (by simp [List.mem_replicate]) (by simp [List.mem_replicate]) h
      have : c.toNat = k.toNat := by simpa using congrArg List.length e1
      have hc : c = k := by
        apply Char.ext
        exact UInt32.toNat_inj.1 this
      rw [hc, ih y e2]

theorem unary_dotFree : DotFree unary := by
  intro x
  induction x with
  | nil => simp [unary]
  | cons c x ih => simp [unary, List.mem_replicate, ih]

/-- The hypotheses of `C97_session_state_determines` can be met, and the states of two clients then differ. -/
example : computeSessionState { issuer := [], iframe := true, dealer := none, hash := unary, origin := fun _ => (c!"https", c!"rp") }
      c!"opbs" c!"salt" c!"c 1" c!"https://rp/cb" ≠
    computeSessionState { issuer := [], iframe := true, dealer := none, hash := unary, origin := fun _ => (c!"https", c!"rp") }
      c!"opbs" c!"salt" c!"c 2" c!"https://rp/cb" := by
  intro h
  have := C97_session_state_determines _ unary_collisionFree unary_dotFree (by intro u; simp) _ _ _ _ _ _ _ _
    (by decide) (by decide) (by decide) (by decide) h
  exact absurd this.1 (by decide)

/-- C97 is false without a cookie dealer: the response still has a session state, but it is the same for every user and
every login, and there is no cookie to compare it with: the page that watches the session cannot notice a logout. -/
theorem C97_without_dealer (cfg : ReplyCfg) (env : Env) (cdb : Cdb) (s : Store) (now : Int) (mc ma : MintIn) (idt : Out Str)
    (d salt : Str) (cookie : Option Str) (req : AuthReq) (sid : Str) (hf : cfg.iframe = true) (hd : cfg.dealer = none)
    (i : RespInfo) (a : RespArgs)
    (h : (authzPart2Full cfg env cdb s now mc ma idt d salt cookie req sid).2.2 = .ok i) (ha : i.content = .val a) :
    ∃ u, i.uri = some u ∧ valueOf i.args c!"session_state" = some (computeSessionState cfg [] salt req.clientId u) ∧
      i.cookies = some [cookie] := by
  rcases full_ok cfg env cdb s now mc ma idt d salt cookie req sid i h with rfl | ⟨i0, i1, hp, hsh, hs, rfl⟩
  · cases ha
  · rcases sessionPart_val hs with ⟨hf', _⟩ | ⟨_, u, ev, opbs, hu, hev, hv, hno, _, rfl⟩
    · rw [hf] at hf'; cases hf'
    · have := hno hd
      subst this
      simp only at ha
      have hargs : i0.args = argsMessage a ∧ i0.cookies = some [cookie] := by
        cases hsh with
        | noUri e frag he => cases ha
        | badMode m u frag h1 h2 h3 => cases ha
        | page content u frag hc h1 h2 => simp only at ha; subst ha; exact ⟨rfl, rfl⟩
        | plain content u frag hc h1 h2 => simp only at ha; subst ha; exact ⟨rfl, rfl⟩
      refine ⟨u, hu, ?_, ?_⟩
      · simp only [hargs.1, List.append_assoc]
        rw [valueOf_append, valueOf_none, Option.none_or]
        · simp [valueOf]
        · intro p hp k
          have := argsMessage_keys a p hp
          rw [k] at this
          exact absurd this (by decide)
      · simp only [addCookie, if_true, hargs.2]

/-! ### C98: errors come back the way the response would have -/

theorem login_required_delivered (lib : MsgLib) (other : Bool) (u : Str) (rt : List Str) :
    ∃ r, deliverLoginRequired lib other u rt = .ok r ∧
      r.response = some (.text (requestUrl lib [(c!"error", c!"login_required")] u
        (if other ∨ rt = [] then false else decide (rt ≠ [c!"code"])))) := by
  have hb : ¬ (c!"url" : Str) = c!"body" := by decide
  refine ⟨_, rfl, ?_⟩
  cases other with
  | true => rfl
  | false =>
    simp only [fragFlag, Bool.false_eq_true, if_false, false_or, fragmentEncoding]
    by_cases h1 : rt = []
    · simp only [h1, if_true]; rfl
    · by_cases h2 : rt = [c!"code"]
      · simp only [h1, h2, if_true, if_false, ne_eq, not_true_eq_false, decide_false]; rfl
      · simp only [h1, h2, if_false, ne_eq, not_false_eq_true, decide_true]; rfl

/-- C98, the part that holds: if nobody is logged in and no login page may be shown, the error is sent to the redirect URI, as query for the
code flow, as fragment if tokens were asked for: as a success would be (`C23`).  What is missing: `C98_other_user_in_query`,
`C98_none_in_fragment`. -/
theorem C98_login_required_placement_partial (lib : MsgLib) (u : Str) (rt : List Str)
    (hrt : rt = [c!"code"] ∨ c!"token" ∈ rt ∨ c!"id_token" ∈ rt) :
    ∃ r loc, deliverLoginRequired lib false u rt = .ok r ∧ r.response = some (.text loc) ∧
      SentTo u (lib.toUrl [(c!"error", c!"login_required")]) (decide (rt ≠ [c!"code"])) loc := by
  obtain ⟨r, h1, h2⟩ := login_required_delivered lib false u rt
  refine ⟨r, _, h1, h2, ?_⟩
  have hne : ¬ rt = [] := by
    rintro rfl
    rcases hrt with h | h | h
    · cases h
    · cases h
    · cases h
  simp only [Bool.false_eq_true, hne, or_self, if_false]
  exact requestUrl_sentTo _ _ _ _

/-- C98 is false: if somebody else is logged in than the one asked for, the error always is in the query, where a client
that asked for tokens does not look for it. -/
theorem C98_other_user_in_query (lib : MsgLib) (u : Str) (rt : List Str) :
    ∃ r loc, deliverLoginRequired lib true u rt = .ok r ∧ r.response = some (.text loc) ∧
      SentTo u (lib.toUrl [(c!"error", c!"login_required")]) false loc := by
  obtain ⟨r, h1, h2⟩ := login_required_delivered lib true u rt
  exact ⟨r, _, h1, h2, requestUrl_sentTo _ _ _ _⟩

/-- C98 is false: for `response_type=none` a success is in the query (`createAuthnResponse_val`), the error in the fragment. -/
theorem C98_none_in_fragment (lib : MsgLib) (u : Str) :
    ∃ r, deliverLoginRequired lib false u [c!"none"] = .ok r ∧
      r.response = some (.text (u ++ '#' :: lib.toUrl [(c!"error", c!"login_required")])) := by
  obtain ⟨r, h1, h2⟩ := login_required_delivered lib false u [c!"none"]
  refine ⟨r, h1, ?_⟩
  rw [h2]
  rfl

/-! ### The hypotheses can be met -/

/-- The reply of the demo provider to a logged-in user's request, in detail. -/
def demoFull (cfg : ReplyCfg) (req : AuthReq) : Except Exn RespInfo :=
  match setupAuth demoEnv demoDb Store.empty 1 c!"g1" req { ident := .plain c!"diana" } with
  | (s, .val (.session sid _)) =>
    (authzPart2Full cfg demoEnv demoDb s 1 (mintIn c!"n1") (mintIn c!"n2") (.val c!"IDT") c!"why" c!"salt" (some c!"ck") req sid).2.2
  | _ => .error .valueError

/-- A configuration with session management; the "digest" only replaces dots, and so has no collisions on texts without '^'. -/
def demoReplyCfg (iframe : Bool) : ReplyCfg where
  issuer := c!"https://op"
  iframe := iframe
  dealer := some fun _ => .ok c!"opbs"
  hash := fun s => s.map fun c => if c = '.' then '^' else c
  origin := fun u => if u = c!"https://rp/cb" then (c!"https", c!"rp") else (c!"http", c!"x")

def demoMsgLib : MsgLib where
  toJson m := pyJoin c!"," (m.map fun p => p.1 ++ c!":" ++ p.2)
  toUrl m := pyJoin c!"&" (m.map fun p => p.1 ++ c!"=" ++ p.2)

/-- What the browser gets, as text. -/
def demoSent (r : Except Exn RespInfo) : Option Str :=
  match r with
  | .ok i => match deliverAuthz demoMsgLib i with
    | .ok { response := some (.text t), .. } => some t
    | _ => none
  | _ => none

/-- Whether a detailed reply is a success. -/
def isSuccess (r : Except Exn RespInfo) : Bool := match r with
  | .ok i => match i.content with
    | .val _ => true
    | _ => false
  | _ => false

set_option maxRecDepth 16000 in
example : isSuccess (demoFull (demoReplyCfg false) (demoReq [c!"code"])) = true ∧
    isSuccess (demoFull (demoReplyCfg true) (demoReq [c!"code", c!"id_token", c!"token"])) = true ∧
    isSuccess (demoFull (demoReplyCfg true) { demoReq [c!"code"] with responseMode := some c!"form_post" }) = true := by
  decide

set_option maxRecDepth 16000 in
example : (match demoFull (demoReplyCfg true) (demoReq [c!"code"]) with
    | .ok i => (valueOf i.args c!"iss", valueOf i.args c!"state", valueOf i.args c!"session_state", i.cookies)
    | _ => (none, none, none, none)) =
    (some c!"https://op", some c!"st", some c!"c1 https://rp opbs salt.salt", some [some c!"ck", some c!"opbs"]) := by
  decide

set_option maxRecDepth 16000 in
example : (demoSent (demoFull (demoReplyCfg false) (demoReq [c!"code"]))).map (fun t => t.take 23) =
    some c!"https://rp/cb?state=st&" := by
  decide

/-- A request without scope: the denial that `C95_no_scope_no_answer` is about. -/
example : (match demoFull (demoReplyCfg false) { demoReq [c!"code"] with scope := [] } with
    | .ok i => (i.content, i.uri, valueOf i.args c!"iss")
    | _ => (.raise .valueError, none, none)) = (.errMsg c!"access_denied", none, some c!"https://op") := by
  decide

example : demoFull (demoReplyCfg true) { demoReq [c!"code"] with scope := [] } = .error .keyError := by
  decide

end Verif
