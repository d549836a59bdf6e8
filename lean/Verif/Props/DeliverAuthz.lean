import Verif.Props.Deliver
/-! C95–C98: what the browser gets from the authorization endpoint. -/
namespace Verif
open Spec
set_option linter.unusedSimpArgs false

/-- What a dictionary of the detailed model says in the terms of `authzPart2`. -/
def RespInfo.reply (i : RespInfo) : AuthzReply :=
  { content := i.content
    placement := if i.page.isSome then .formPost else if i.frag = some true then .fragment else .query
    uri := i.uri }

/-- The detailed model and `authzPart2` agree, so that everything proved about that one holds here. -/
theorem authzPart2_eq (env : Env) (cdb : Cdb) (s : Store) (now : Int) (mc ma : MintIn) (idt : Out Str) (d : Str)
    (cookie : Option Str) (req : AuthReq) (sid : Str) :
    authzPart2 env cdb s now mc ma idt req sid =
      ((postAuthn env cdb s now mc ma idt d cookie req sid).1, (postAuthn env cdb s now mc ma idt d cookie req sid).2.1,
        match (postAuthn env cdb s now mc ma idt d cookie req sid).2.2 with
        | .error _ => errReply c!"server_error"
        | .ok i => i.reply) := by
  unfold authzPart2 postAuthn
  cases hg : getGrant s sid with
  | error e => rfl
  | ok g =>
    simp only
    cases hu : unpack3 sid with
    | error e => rfl
    | ok ucg =>
      obtain ⟨u, c, gi⟩ := ucg
      simp only
      cases ha : (authzCall env.gc env.ccfg cdb now c g req).2 with
      | error e => rfl
      | ok g' =>
        simp only
        cases hw : (dbSet s [u, c, gi] (.grant g')).2 with
        | error e => rfl
        | ok _ =>
          simp only
          cases hr : (createAuthnResponse env (dbSet s [u, c, gi] (.grant g')).1 now mc ma idt req sid).2 with
          | error e => rfl
          | ok cf =>
            obtain ⟨content, frag⟩ := cf
            simp only
            cases hx : getUri env.lib (authzCall env.gc env.ccfg cdb now c g req).1 .redirect req.clientId req.redirectUri with
            | error e =>
              simp only
              by_cases he : (e == Exn.redirectURIError || e == Exn.parameterError) = true
              · simp only [he, if_true]; cases frag <;> rfl
              · simp only [he, if_false, Bool.false_eq_true]
            | ok uri =>
              simp only
              cases hm : req.responseMode with
              | none => simp only [responseMode]; cases frag <;> rfl
              | some m =>
                simp only [responseMode, responseModeInfo]
                by_cases h1 : m = c!"form_post"
                · simp only [h1, if_true]; rfl
                · by_cases h2 : m = c!"fragment"
                  · simp only [h1, h2, if_true, if_false]; cases frag <;> rfl
                  · by_cases h3 : m = c!"query"
                    · simp only [h1, h2, h3, if_true, if_false]; cases frag <;> rfl
                    · simp only [h1, h2, h3, if_false]; cases frag <;> rfl

/-- Everything `post_authentication` returns: an error without redirect URI; or parameters with a verified URI, as a page if
and only if that was asked for. -/
inductive PostShape (env : Env) (d : Str) (cookie : Option Str) (req : AuthReq) (cdb' : Cdb) : RespInfo → Prop where
  | noUri (e : Str) (frag : Option Bool) : e ∈ [c!"access_denied", c!"server_error", c!"invalid_request"] → PostShape env d cookie req cdb'
      { content := .errMsg e, args := [(c!"error", e), (c!"error_description", d)], frag := frag }
  | badMode (m u : Str) (frag : Bool) : getUri env.lib cdb' .redirect req.clientId req.redirectUri = .ok u →
      req.responseMode = some m → m ≠ c!"form_post" → PostShape env d cookie req cdb'
      { content := .errMsg c!"invalid_request", frag := some frag, uri := some u
        args := [(c!"error", c!"invalid_request"), (c!"error_description", d)] }
  | page (content : Out RespArgs) (u : Str) (frag : Bool) : ((∃ a, content = .val a) ∨ content = .errMsg c!"invalid_request") →
      getUri env.lib cdb' .redirect req.clientId req.redirectUri = .ok u →
      req.responseMode = some c!"form_post" → PostShape env d cookie req cdb'
      { content := content, args := contentMessage d content, frag := some frag, uri := some u
        page := some (formPage (contentMessage d content) u), cookies := some [cookie] }
  | plain (content : Out RespArgs) (u : Str) (frag : Bool) : ((∃ a, content = .val a) ∨ content = .errMsg c!"invalid_request") →
      getUri env.lib cdb' .redirect req.clientId req.redirectUri = .ok u →
      req.responseMode ≠ some c!"form_post" → PostShape env d cookie req cdb'
      { content := content, args := contentMessage d content, frag := some frag, uri := some u, cookies := some [cookie] }

/-- `create_authn_response` gives parameters, or the error `invalid_request`. -/
theorem createAuthnResponse_content {env : Env} {s : Store} {now : Int} {mc ma : MintIn} {idt : Out Str} {req : AuthReq}
    {sid : Str} {content : Out RespArgs} {frag : Bool}
    (h : (createAuthnResponse env s now mc ma idt req sid).2 = .ok (content, frag)) :
    (∃ a, content = .val a) ∨ content = .errMsg c!"invalid_request" := by
  unfold createAuthnResponse at h
  by_cases hn : req.responseType = [c!"none"]
  · simp only [hn, if_true, Except.ok.injEq, Prod.mk.injEq] at h
    exact .inl ⟨_, h.1.symm⟩
  · simp only [hn, if_false] at h
    cases hg : getGrant s sid with
    | error e => simp [hg] at h
    | ok g =>
      simp only [hg] at h
      generalize codePart env s now mc sid g req = r1 at h
      cases h1 : r1.2.2 with
      | error e => simp [h1] at h
      | ok code =>
        simp only [h1] at h
        generalize tokenPart env r1.1 now ma sid r1.2.1 code req = r2 at h
        cases h2 : r2.2.2 with
        | error e => simp [h2] at h
        | ok tok =>
          simp only [h2] at h
          cases h3 : (idTokenPart r2.1 idt sid req).2 with
          | raise e => simp [h3] at h
          | errMsg e =>
            simp only [h3, Except.ok.injEq, Prod.mk.injEq] at h
            refine .inr ?_
            rw [← h.1]
            unfold idTokenPart at h3
            split at h3
            · cases idt with
              | raise e => simp at h3
              | errMsg e => simp at h3; rw [h3]
              | val i =>
                simp only at h3
                cases hu : unpack3 sid with
                | error e => simp [hu] at h3
                | ok x =>
                  obtain ⟨u, c, gi⟩ := x
                  simp only [hu] at h3
                  cases hd : dbGet r2.1 [u, c] with
                  | error e => simp [hd] at h3
                  | ok o =>
                    simp only [hd] at h3
                    cases hw : (dbSet r2.1 [u, c] o).2 with
                    | error e => simp [hw] at h3
                    | ok _ => simp [hw] at h3
            · simp at h3
          | val i =>
            simp only [h3] at h
            split at h <;> simp only [Except.ok.injEq, Prod.mk.injEq] at h
            · exact .inl ⟨_, h.1.symm⟩
            · exact .inr h.1.symm

theorem responseModeInfo_cases (m uri : Str) (frag : Bool) (i : RespInfo) :
    (m ≠ c!"form_post" ∧ ∃ e, responseModeInfo m uri frag i = .error e) ∨
    (m = c!"form_post" ∧ responseModeInfo m uri frag i = .ok { i with page := some (formPage i.args uri) }) ∨
    (m ≠ c!"form_post" ∧ responseModeInfo m uri frag i = .ok i) := by
  unfold responseModeInfo
  by_cases h1 : m = c!"form_post"
  · exact .inr (.inl ⟨h1, by rw [if_pos h1]⟩)
  · rw [if_neg h1]
    by_cases h2 : m = c!"fragment"
    · rw [if_pos h2]
      cases frag
      · exact .inl ⟨h1, _, rfl⟩
      · exact .inr (.inr ⟨h1, rfl⟩)
    · rw [if_neg h2]
      by_cases h3 : m = c!"query"
      · rw [if_pos h3]
        cases frag
        · exact .inr (.inr ⟨h1, rfl⟩)
        · exact .inl ⟨h1, _, rfl⟩
      · rw [if_neg h3]; exact .inl ⟨h1, _, rfl⟩

theorem postAuthn_shape (env : Env) (cdb : Cdb) (s : Store) (now : Int) (mc ma : MintIn) (idt : Out Str) (d : Str)
    (cookie : Option Str) (req : AuthReq) (sid : Str) (i : RespInfo)
    (h : (postAuthn env cdb s now mc ma idt d cookie req sid).2.2 = .ok i) :
    PostShape env d cookie req (postAuthn env cdb s now mc ma idt d cookie req sid).1 i := by
  unfold postAuthn at h ⊢
  cases hg : getGrant s sid with
  | error e => simp only [hg, Except.ok.injEq] at h; subst h; exact .noUri _ none (by simp)
  | ok g =>
    simp only [hg] at h ⊢
    cases hu : unpack3 sid with
    | error e => simp only [hu, Except.ok.injEq] at h; subst h; exact .noUri _ none (by simp)
    | ok ucg =>
      obtain ⟨u, c, gi⟩ := ucg
      simp only [hu] at h ⊢
      cases ha : (authzCall env.gc env.ccfg cdb now c g req).2 with
      | error e => simp only [ha, Except.ok.injEq] at h; subst h; exact .noUri _ none (by simp)
      | ok g' =>
        simp only [ha] at h ⊢
        cases hw : (dbSet s [u, c, gi] (.grant g')).2 with
        | error e => simp only [hw, Except.ok.injEq] at h; subst h; exact .noUri _ none (by simp)
        | ok _ =>
          simp only [hw] at h ⊢
          cases hr : (createAuthnResponse env (dbSet s [u, c, gi] (.grant g')).1 now mc ma idt req sid).2 with
          | error e => simp [hr] at h
          | ok cf =>
            obtain ⟨content, frag⟩ := cf
            simp only [hr] at h ⊢
            have hc := createAuthnResponse_content hr
            cases hx : getUri env.lib (authzCall env.gc env.ccfg cdb now c g req).1 .redirect req.clientId req.redirectUri with
            | error e =>
              simp only [hx] at h ⊢
              by_cases he : (e == Exn.redirectURIError || e == Exn.parameterError) = true
              · simp only [he, if_true, Except.ok.injEq] at h; subst h; exact .noUri _ (some frag) (by simp)
              · simp only [he, if_false, Bool.false_eq_true] at h; cases h
            | ok uri =>
              simp only [hx] at h ⊢
              cases hm : req.responseMode with
              | none =>
                simp only [hm, Except.ok.injEq] at h ⊢
                subst h
                exact .plain content uri frag hc hx (by rw [hm]; simp)
              | some m =>
                simp only [hm] at h ⊢
                rcases responseModeInfo_cases m uri frag
                    { content := content, args := contentMessage d content, frag := some frag, uri := some uri } with
                  ⟨h1, e, k⟩ | ⟨h1, k⟩ | ⟨h1, k⟩
                · simp only [k, Except.ok.injEq] at h ⊢; subst h
                  exact .badMode m uri frag hx hm h1
                · simp only [k, Except.ok.injEq] at h ⊢; subst h
                  exact .page content uri frag hc hx (by rw [hm, h1])
                · simp only [k, Except.ok.injEq] at h ⊢; subst h
                  exact .plain content uri frag hc hx (by rw [hm]; intro k; exact h1 (Option.some.inj k))

/-- Session management and the added parameters change neither the clients nor the sessions. -/
theorem full_state (cfg : ReplyCfg) (env : Env) (cdb : Cdb) (s : Store) (now : Int) (mc ma : MintIn) (idt : Out Str)
    (d salt : Str) (cookie : Option Str) (req : AuthReq) (sid : Str) :
    (authzPart2Full cfg env cdb s now mc ma idt d salt cookie req sid).1 = (postAuthn env cdb s now mc ma idt d cookie req sid).1 ∧
    (authzPart2Full cfg env cdb s now mc ma idt d salt cookie req sid).2.1 =
      (postAuthn env cdb s now mc ma idt d cookie req sid).2.1 := by
  unfold authzPart2Full
  generalize postAuthn env cdb s now mc ma idt d cookie req sid = p
  obtain ⟨p1, p2, p3⟩ := p
  cases p3 with
  | error e => exact ⟨rfl, rfl⟩
  | ok i0 => simp only; cases hs : sessionPart cfg p2 now salt req sid i0 <;> simp only [and_self]

/-- What the session management part adds. -/
theorem sessionPart_val {cfg : ReplyCfg} {s : Store} {now : Int} {salt : Str} {req : AuthReq} {sid : Str} {i0 i : RespInfo}
    (h : sessionPart cfg s now salt req sid i0 = .val i) :
    (cfg.iframe = false ∧ i = i0) ∨
    (cfg.iframe = true ∧ ∃ u ev opbs, i0.uri = some u ∧ getAuthnEvent s sid = .ok (some ev) ∧ now < ev.validUntil ∧
      (cfg.dealer = none → opbs = []) ∧ (∀ mk, cfg.dealer = some mk → mk ev.authnTime = .ok opbs) ∧
      i = { i0 with
        args := i0.args ++ [(c!"session_state", computeSessionState cfg opbs salt req.clientId u)]
        cookies := addCookie i0.cookies opbs }) := by
  unfold sessionPart at h
  cases hf : cfg.iframe with
  | false =>
    simp only [hf, if_true, Out.val.injEq] at h
    exact .inl ⟨rfl, h.symm⟩
  | true =>
    simp only [hf, Bool.true_eq_false, if_false] at h
    cases he : getAuthnEvent s sid with
    | error e => simp only [he] at h; split at h <;> cases h
    | ok oe =>
      cases oe with
      | none => simp [he] at h
      | some ev =>
        simp only [he] at h
        by_cases hv : ev.validUntil ≤ now
        · simp [hv] at h
        · simp only [hv, if_false] at h
          have fin : ∀ opbs, (match i0.uri with
              | none => Out.raise Exn.keyError
              | some u => Out.val { i0 with
                  args := i0.args ++ [(c!"session_state", computeSessionState cfg opbs salt req.clientId u)]
                  cookies := addCookie i0.cookies opbs } : Out RespInfo) = .val i →
              (cfg.dealer = none → opbs = []) → (∀ mk, cfg.dealer = some mk → mk ev.authnTime = .ok opbs) →
              ∃ u ev' opbs, i0.uri = some u ∧ (Except.ok (some ev) : Except Exn (Option AuthnEvent)) = .ok (some ev') ∧
                now < ev'.validUntil ∧
                (cfg.dealer = none → opbs = []) ∧ (∀ mk, cfg.dealer = some mk → mk ev'.authnTime = .ok opbs) ∧
                i = { i0 with
                  args := i0.args ++ [(c!"session_state", computeSessionState cfg opbs salt req.clientId u)]
                  cookies := addCookie i0.cookies opbs } := by
            intro opbs k h1 h2
            cases hu : i0.uri with
            | none => rw [hu] at k; cases k
            | some u =>
              rw [hu] at k
              simp only [Out.val.injEq] at k
              exact ⟨u, ev, opbs, rfl, rfl, by omega, h1, h2, k.symm⟩
          refine .inr ⟨rfl, ?_⟩
          cases hd : cfg.dealer with
          | none =>
            simp only [hd] at h
            have := fin [] (by cases hu : i0.uri <;> simp [hu] at h ⊢; exact h) (fun _ => rfl) (fun mk k => by rw [hd] at k; cases k)
            rwa [hd] at this
          | some mk =>
            simp only [hd] at h
            cases ho : mk ev.authnTime with
            | error e => simp [ho] at h
            | ok opbs =>
              simp only [ho] at h
              have := fin opbs (by cases hu : i0.uri <;> simp [hu] at h ⊢; exact h) (fun k => by rw [hd] at k; cases k)
                (fun mk' k => by rw [hd] at k; cases k; exact ho)
              rwa [hd] at this

/-- Everything `authz_part2` returns: an error from an empty dictionary; or what `post_authentication` returned with
parameters (and a cookie) added. -/
theorem full_ok (cfg : ReplyCfg) (env : Env) (cdb : Cdb) (s : Store) (now : Int) (mc ma : MintIn) (idt : Out Str)
    (d salt : Str) (cookie : Option Str) (req : AuthReq) (sid : Str) (i : RespInfo)
    (h : (authzPart2Full cfg env cdb s now mc ma idt d salt cookie req sid).2.2 = .ok i) :
    i = errInfo emptyInfo c!"server_error" d ∨
    ∃ i0 i1,
      (postAuthn env cdb s now mc ma idt d cookie req sid).2.2 = .ok i0 ∧
      PostShape env d cookie req (authzPart2Full cfg env cdb s now mc ma idt d salt cookie req sid).1 i0 ∧
      sessionPart cfg (authzPart2Full cfg env cdb s now mc ma idt d salt cookie req sid).2.1 now salt req sid i0 = .val i1 ∧
      i = { i1 with args := i1.args ++ [(c!"iss", cfg.issuer), (c!"client_id", req.clientId)] } := by
  obtain ⟨e1, e2⟩ := full_state cfg env cdb s now mc ma idt d salt cookie req sid
  rw [e1, e2]
  have hpost := postAuthn_shape env cdb s now mc ma idt d cookie req sid
  unfold authzPart2Full at h
  generalize postAuthn env cdb s now mc ma idt d cookie req sid = p at h hpost
  obtain ⟨p1, p2, p3⟩ := p
  cases p3 with
  | error e =>
    simp only [Except.ok.injEq] at h
    exact .inl h.symm
  | ok i0 =>
    have hsh := hpost i0 rfl
    simp only at h
    cases hs : sessionPart cfg p2 now salt req sid i0 with
    | raise e => simp [hs] at h
    | errMsg e =>
      have : e = c!"server_error" := by
        unfold sessionPart at hs
        cases hf : cfg.iframe with
        | false => simp [hf] at hs
        | true =>
          simp only [hf, Bool.true_eq_false, if_false] at hs
          cases he : getAuthnEvent p2 sid with
          | error x =>
            simp only [he] at hs
            split at hs
            · exact (Out.errMsg.inj hs).symm
            · cases hs
          | ok oe =>
            cases oe with
            | none => simp [he] at hs
            | some ev =>
              simp only [he] at hs
              by_cases hv : ev.validUntil ≤ now
              · simp only [hv, if_true] at hs; exact (Out.errMsg.inj hs).symm
              · simp only [hv, if_false] at hs
                split at hs
                · cases hs
                · split at hs <;> cases hs
      simp only [hs, Except.ok.injEq] at h
      rw [this] at h
      exact .inl h.symm
    | val i1 =>
      simp only [hs, Except.ok.injEq] at h
      exact .inr ⟨i0, i1, rfl, hsh, hs, h.symm⟩

end Verif
