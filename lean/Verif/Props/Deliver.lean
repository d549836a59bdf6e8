import Verif.Model.Deliver
import Verif.Spec.Deliver
import Verif.Props.AuthzResponse
import Verif.Props.Demo
/-! C93–C98: what is sent to the browser or the client. -/
namespace Verif
open Spec

/-! ### C93: caching and content type -/

theorem respHeaders_noCache (ct : Str) (given : Option Headers) : ∃ l, (respHeaders ct given).1 = l ++ noCacheHeaders := by
  cases given with
  | none => exact ⟨_, rfl⟩
  | some h => exact ⟨_, rfl⟩

theorem uncacheable_append (l : Headers) : Uncacheable (l ++ noCacheHeaders) := by
  simp [Uncacheable, noCacheHeaders]

/-- What a successful `do_response` is made of. -/
theorem doResponse_ok {lib : MsgLib} {st : EpStyle} {construct : Message → Except Exn Message} {kw : RespKw} {r : Delivered}
    (h : doResponse lib st construct kw = .ok r) :
    ∃ ct, r.headers = (respHeaders ct kw.httpHeaders).1 ∧ r.callers = (respHeaders ct kw.httpHeaders).2 ∧
      r.cookie = kw.cookie ∧
      ((kw.error ≠ [] ∧ placeMessage lib st kw (errorMessage kw) = .ok (ct, r.response) ∧ r.placement = none) ∨
       (kw.error = [] ∧ ∃ page, kw.responseMsg = some page ∧ ct = msgContentType st kw.contentType ∧
          r.response = some (.text page) ∧
          r.placement = if kw.responsePlacement = some [] then none else kw.responsePlacement) ∨
       (kw.error = [] ∧ kw.responseMsg = none ∧ ∃ m, construct kw.args = .ok m ∧
          placeMessage lib st kw m = .ok (ct, r.response) ∧ r.placement = none)) := by
  unfold doResponse at h
  by_cases he : kw.error ≠ []
  · simp only [if_pos he] at h
    cases hp : placeMessage lib st kw (errorMessage kw) with
    | error e => simp [hp, Except.map] at h
    | ok p =>
      simp only [hp, Except.map, Except.ok.injEq] at h
      subst h
      exact ⟨p.1, rfl, rfl, rfl, .inl ⟨he, rfl, rfl⟩⟩
  · have he' : kw.error = [] := by simpa using he
    simp only [if_neg he] at h
    cases hm : kw.responseMsg with
    | some page =>
      simp only [hm, Except.ok.injEq] at h
      subst h
      exact ⟨_, rfl, rfl, rfl, .inr (.inl ⟨he', page, rfl, rfl, rfl, rfl⟩)⟩
    | none =>
      simp only [hm] at h
      cases hc : construct kw.args with
      | error e => simp [hc] at h
      | ok m =>
        simp only [hc] at h
        cases hp : placeMessage lib st kw m with
        | error e => simp [hp, Except.map] at h
        | ok p =>
          simp only [hp, Except.map, Except.ok.injEq] at h
          subst h
          exact ⟨p.1, rfl, rfl, rfl, .inr (.inr ⟨he', rfl, m, rfl, hp, rfl⟩)⟩

/-- C93, the part that holds: whatever the endpoint's style and the arguments, every response `do_response` builds (success,
error or page) forbids caching.  What is missing: `C93_discovery_cacheable`. -/
theorem C93_responses_not_cacheable_partial (lib : MsgLib) (st : EpStyle) (construct : Message → Except Exn Message)
    (kw : RespKw) (r : Delivered) (h : doResponse lib st construct kw = .ok r) : Uncacheable r.headers := by
  obtain ⟨ct, h1, _⟩ := doResponse_ok h
  obtain ⟨l, h2⟩ := respHeaders_noCache ct kw.httpHeaders
  rw [h1, h2]
  exact uncacheable_append l

/-- C93: neither may the user's claims be cached, as JSON or as a JWT. -/
theorem C93_userinfo_not_cacheable_partial (jwt : Bool) :
    Uncacheable (userinfoHeaders jwt) ∧
    contentTypes (userinfoHeaders jwt) = [if jwt then c!"application/jwt" else c!"application/json"] := by
  cases jwt <;> (unfold Uncacheable; decide)

/-- C93 is false: the answer of the discovery endpoint may be cached. -/
theorem C93_discovery_cacheable : ¬ Uncacheable discoveryHeaders := by
  unfold Uncacheable; decide

theorem lower_contentType : lower hContentType = c!"content-type" := by decide

theorem contentTypes_append (a b : Headers) : contentTypes (a ++ b) = contentTypes a ++ contentTypes b := by
  simp [contentTypes]

/-- C93, the part that holds: a caller's header list without differently written content type headers, and without the
very one together with another, never leads to more than one content type, and it is the one of the body.  What is
missing: `C93_two_content_types`. -/
theorem C93_one_content_type_partial (lib : MsgLib) (st : EpStyle) (construct : Message → Except Exn Message) (kw : RespKw)
    (r : Delivered) (h : doResponse lib st construct kw = .ok r)
    (hh : ∀ l, kw.httpHeaders = some l → (∀ p ∈ l, lower p.1 = c!"content-type" → p.1 = hContentType) ∧
      (contentTypes l).length ≤ 1) :
    (contentTypes r.headers).length ≤ 1 ∧
    (∀ t, r.response = some (.text t) → st.placement = c!"body" → st.format = c!"json" → kw.contentType = none →
      kw.responseMsg = none → contentTypes r.headers = [c!"application/json; charset=utf-8"]) := by
  obtain ⟨ct, h1, _, _, hcase⟩ := doResponse_ok h
  have hno : contentTypes noCacheHeaders = [] := by decide
  have key : (contentTypes (respHeaders ct kw.httpHeaders).1).length ≤ 1 ∧
      (ct ≠ [] → contentTypes (respHeaders ct kw.httpHeaders).1 = [ct]) := by
    cases hk : kw.httpHeaders with
    | none =>
      by_cases hc : ct = []
      · subst hc; exact ⟨by decide, fun h => absurd rfl h⟩
      · simp only [respHeaders, hc, if_false, contentTypes_append, hno, List.append_nil]
        have : contentTypes [(hContentType, ct)] = [ct] := by
          simp [contentTypes, lower_contentType]
        rw [this]
        simp
    | some l =>
      obtain ⟨ha, hb⟩ := hh l hk
      by_cases hc : ct = []
      · subst hc
        simp only [respHeaders, if_true, contentTypes_append, hno, List.append_nil]
        exact ⟨hb, fun h => absurd rfl h⟩
      · simp only [respHeaders, hc, if_false, contentTypes_append, hno, List.append_nil]
        unfold setContentType
        by_cases hm : (hContentType, ct) ∈ l
        · simp only [hm, if_true]
          refine ⟨hb, fun _ => ?_⟩
          have hin : ct ∈ contentTypes l := by
            unfold contentTypes
            refine List.mem_map.2 ⟨(hContentType, ct), List.mem_filter.2 ⟨hm, ?_⟩, rfl⟩
            simp [lower_contentType]
          match hl : contentTypes l, hb, hin with
          | [x], _, hin => simp at hin; rw [hin]
          | x :: y :: t, hb, _ => simp at hb
        · simp only [hm, if_false, contentTypes_append]
          have e1 : contentTypes (l.filter fun p => decide (p.1 ≠ hContentType)) = [] := by
            simp only [contentTypes, List.map_eq_nil_iff, List.filter_eq_nil_iff]
            intro p hp
            obtain ⟨hp1, hp2⟩ := List.mem_filter.1 hp
            simp only [decide_eq_true_eq] at hp2 ⊢
            exact fun k => hp2 (ha p hp1 k)
          have e2 : contentTypes [(hContentType, ct)] = [ct] := by simp [contentTypes, lower_contentType]
          rw [e1, e2]
          simp
  rw [h1]
  refine ⟨key.1, ?_⟩
  intro t ht hp hf hc hm
  have hct : ct = c!"application/json; charset=utf-8" := by
    rcases hcase with ⟨_, k, _⟩ | ⟨_, page, k, _⟩ | ⟨_, _, m, _, k, _⟩
    · unfold placeMessage at k
      simp only [hc, hp, hf, if_true, Except.ok.injEq, Prod.mk.injEq] at k
      exact k.1.symm
    · rw [hm] at k; cases k
    · unfold placeMessage at k
      simp only [hc, hp, hf, if_true, Except.ok.injEq, Prod.mk.injEq] at k
      exact k.1.symm
  rw [← hct]
  exact key.2 (by rw [hct]; decide)

/-- C93: the content type says what is in the body, for messages (`charset` added, except for forms; none for a redirection) and
for ready-made pages, if the caller gives neither headers nor a content type. -/
theorem C93_content_type_exact (lib : MsgLib) (st : EpStyle) (construct : Message → Except Exn Message) (kw : RespKw)
    (r : Delivered) (h : doResponse lib st construct kw = .ok r) (hh : kw.httpHeaders = none) (hc : kw.contentType = none)
    (jose : Bool) (hj : jose = true ↔ st.reqFormat = c!"jws" ∨ st.reqFormat = c!"jwe" ∨ st.reqFormat = c!"jose") :
    (kw.error = [] ∧ kw.responseMsg ≠ none → contentTypes r.headers =
      [if st.format = c!"json" then c!"application/json" else if jose then c!"application/jose" else c!"application/x-www-form-urlencoded"]) ∧
    (kw.error ≠ [] ∨ kw.responseMsg = none →
      (st.placement = c!"body" → st.format = c!"json" →
        contentTypes r.headers = [c!"application/json; charset=utf-8"] ∧ ∃ m, r.response = some (.text (lib.toJson m))) ∧
      (st.placement = c!"body" → st.format ≠ c!"json" → jose = true →
        contentTypes r.headers = [c!"application/jose; charset=utf-8"] ∧ ∃ m, r.response = some (.message m)) ∧
      (st.placement = c!"body" → st.format ≠ c!"json" → jose = false →
        contentTypes r.headers = [c!"application/x-www-form-urlencoded"] ∧ ∃ m, r.response = some (.text (lib.toUrl m))) ∧
      (st.placement = c!"url" → contentTypes r.headers = [])) := by
  obtain ⟨ct, h1, _, _, hcase⟩ := doResponse_ok h
  have hno : contentTypes noCacheHeaders = [] := by decide
  have key : contentTypes r.headers = if ct = [] then [] else [ct] := by
    rw [h1, hh]
    by_cases hct : ct = []
    · subst hct; decide
    · simp only [respHeaders, hct, if_false, contentTypes_append, hno, List.append_nil]
      simp [contentTypes, lower_contentType]
  have hmem : (st.reqFormat ∈ joseFormats) ↔ jose = true := by
    rw [hj]; simp [joseFormats]
  have msg : ∀ m, placeMessage lib st kw m = .ok (ct, r.response) →
      (st.placement = c!"body" → st.format = c!"json" →
        contentTypes r.headers = [c!"application/json; charset=utf-8"] ∧ ∃ m, r.response = some (.text (lib.toJson m))) ∧
      (st.placement = c!"body" → st.format ≠ c!"json" → jose = true →
        contentTypes r.headers = [c!"application/jose; charset=utf-8"] ∧ ∃ m, r.response = some (.message m)) ∧
      (st.placement = c!"body" → st.format ≠ c!"json" → jose = false →
        contentTypes r.headers = [c!"application/x-www-form-urlencoded"] ∧ ∃ m, r.response = some (.text (lib.toUrl m))) ∧
      (st.placement = c!"url" → contentTypes r.headers = []) := by
    intro m k
    unfold placeMessage at k
    simp only [hc, hmem] at k
    refine ⟨?_, ?_, ?_, ?_⟩
    · intro hp hf
      simp only [hp, hf, if_true, Except.ok.injEq, Prod.mk.injEq] at k
      refine ⟨?_, m, k.2.symm⟩
      rw [key, ← k.1]; decide
    · intro hp hf hjo
      simp only [hp, hf, hjo, if_true, if_false, Except.ok.injEq, Prod.mk.injEq] at k
      refine ⟨?_, m, k.2.symm⟩
      rw [key, ← k.1]; decide
    · intro hp hf hjo
      simp only [hp, hf, hjo, if_true, if_false, Except.ok.injEq, Prod.mk.injEq, Bool.false_eq_true] at k
      refine ⟨?_, m, k.2.symm⟩
      rw [key, ← k.1]; decide
    · intro hp
      have hb : ¬ (c!"url" : Str) = c!"body" := by decide
      simp only [hp, hb, if_true, if_false] at k
      cases hr : kw.returnUri with
      | none => simp [hr] at k
      | some u =>
        simp only [hr, Except.ok.injEq, Prod.mk.injEq] at k
        rw [key, ← k.1]; rfl
  rcases hcase with ⟨he, k, _⟩ | ⟨he, page, hm, k, _⟩ | ⟨he, hm, m, _, k, _⟩
  · exact ⟨fun hx => absurd hx.1 he, fun _ => msg _ k⟩
  · refine ⟨fun _ => ?_, fun hx => ?_⟩
    · rw [key, k]
      simp only [msgContentType, hc, hmem]
      split
      · rfl
      · split <;> rfl
    · rcases hx with hx | hx
      · exact absurd he hx
      · rw [hm] at hx; cases hx
  · exact ⟨fun hx => absurd hm hx.2, fun _ => msg _ k⟩

example : ∃ r, doResponse ⟨fun _ => c!"j", fun _ => c!"u"⟩ { placement := c!"body", format := c!"", reqFormat := c!"jwe" } .ok { args := [] } = .ok r ∧
    contentTypes r.headers = [c!"application/jose; charset=utf-8"] := ⟨_, rfl, by decide⟩

/-- C93 is false: header names are compared with their case, so a caller's `Content-Type` header stays beside the endpoint's
own, for every message. -/
theorem C93_two_content_types (lib : MsgLib) (m : Message) :
    ∃ r, doResponse lib { placement := c!"body", format := c!"json", reqFormat := c!"urlencoded" } .ok
        { args := m, httpHeaders := some [(c!"Content-Type", c!"text/html")] } = .ok r ∧
      contentTypes r.headers = [c!"text/html", c!"application/json; charset=utf-8"] := by
  have h : ∀ a, contentTypes (respHeaders c!"application/json; charset=utf-8" (some [(c!"Content-Type", c!"text/html")])).1 = a →
      ∃ r, doResponse lib { placement := c!"body", format := c!"json", reqFormat := c!"urlencoded" } .ok
        { args := m, httpHeaders := some [(c!"Content-Type", c!"text/html")] } = .ok r ∧ contentTypes r.headers = a :=
    fun a ha => ⟨_, rfl, ha⟩
  exact h _ (by decide)

/-- C93 is false: the list of headers the caller passed in is extended itself if the content type is already there, so
that it grows with every response. -/
theorem C93_callers_list_grows (lib : MsgLib) (st : EpStyle) (construct : Message → Except Exn Message) (kw : RespKw)
    (r : Delivered) (l : Headers) (hl : kw.httpHeaders = some l)
    (hu : st.placement = c!"url") (hm : kw.responseMsg = none) (hc : kw.contentType = none)
    (h : doResponse lib st construct kw = .ok r) : r.callers = some (l ++ noCacheHeaders) := by
  obtain ⟨ct, _, h2, _, hcase⟩ := doResponse_ok h
  have hct : ct = [] := by
    have hb : ¬ (c!"url" : Str) = c!"body" := by decide
    rcases hcase with ⟨_, k, _⟩ | ⟨_, page, k, _⟩ | ⟨_, _, m, _, k, _⟩
    · unfold placeMessage at k
      simp only [hc, hu, hb, if_false, if_true] at k
      cases hr : kw.returnUri with
      | none => simp [hr] at k
      | some u => simp only [hr, Except.ok.injEq, Prod.mk.injEq] at k; exact k.1.symm
    · rw [hm] at k; cases k
    · unfold placeMessage at k
      simp only [hc, hu, hb, if_false, if_true] at k
      cases hr : kw.returnUri with
      | none => simp [hr] at k
      | some u => simp only [hr, Except.ok.injEq, Prod.mk.injEq] at k; exact k.1.symm
  rw [h2, hl, hct]
  rfl

/-! ### C94: errors -/

/-- C94, the part that holds: what is sent for an error depends on the error, its description and the place it goes to
alone; nothing of a response, page or placement prepared before is in it.  What is missing: `C94_error_lost`. -/
theorem C94_error_hides_result_partial (lib : MsgLib) (st : EpStyle) (c c' : Message → Except Exn Message) (kw kw' : RespKw)
    (he : kw.error ≠ []) (h1 : kw'.error = kw.error) (h2 : kw'.errorDescription = kw.errorDescription)
    (h3 : kw'.contentType = kw.contentType) (h4 : kw'.fragmentEnc = kw.fragmentEnc) (h5 : kw'.returnType = kw.returnType)
    (h6 : kw'.returnUri = kw.returnUri) (h7 : kw'.httpHeaders = kw.httpHeaders) (h8 : kw'.cookie = kw.cookie) :
    doResponse lib st c kw = doResponse lib st c' kw' := by
  have e1 : errorMessage kw' = errorMessage kw := by simp [errorMessage, h1, h2]
  have e2 : fragFlag kw' = fragFlag kw := by simp [fragFlag, h4, h5]
  have e3 : ∀ m, placeMessage lib st kw' m = placeMessage lib st kw m := by
    intro m; simp only [placeMessage, h3, h6, e2]
  simp only [doResponse, h1, he, ne_eq, not_false_eq_true, if_true, e1, e3, h7, h8]

/-- C94: an error answered as JSON is the error and its description. -/
theorem C94_error_body (lib : MsgLib) (st : EpStyle) (c : Message → Except Exn Message) (kw : RespKw) (r : Delivered)
    (hb : st.placement = c!"body") (hf : st.format = c!"json") (he : kw.error ≠ []) (hc : kw.contentType = none)
    (h : doResponse lib st c kw = .ok r) :
    r.response = some (.text (lib.toJson ([(c!"error", kw.error)] ++ optParam c!"error_description" kw.errorDescription))) := by
  obtain ⟨ct, _, _, _, hcase⟩ := doResponse_ok h
  rcases hcase with ⟨_, k, _⟩ | ⟨k, _⟩ | ⟨k, _⟩
  · unfold placeMessage at k
    simp only [hc, hb, hf, if_true, Except.ok.injEq, Prod.mk.injEq] at k
    rw [← k.2]
    cases hd : kw.errorDescription <;> simp [errorMessage, optParam, hd]
  · exact absurd k he
  · exact absurd k he

/-- C94 is false: if a content type is given with an error (or a result), nothing at all is sent as its body. -/
theorem C94_error_lost (lib : MsgLib) (st : EpStyle) (c : Message → Except Exn Message) (kw : RespKw) (ct : Str)
    (he : kw.error ≠ []) (hc : kw.contentType = some ct) :
    ∃ r, doResponse lib st c kw = .ok r ∧ r.response = none := by
  refine ⟨{ response := none, headers := (respHeaders ct kw.httpHeaders).1, placement := none, cookie := kw.cookie,
            callers := (respHeaders ct kw.httpHeaders).2 }, ?_, rfl⟩
  simp only [doResponse, he, ne_eq, not_false_eq_true, if_true, placeMessage, hc, Except.map]
  rfl

example : ∃ r, doResponse ⟨fun _ => c!"json", fun _ => c!"url"⟩
      { placement := c!"body", format := c!"json", reqFormat := c!"json" } .ok
      { args := [(c!"access_token", c!"t")], error := c!"invalid_grant", httpHeaders := some [(c!"Content-type", c!"application/json")] }
      = .ok r ∧ r.response = some (.text c!"json") ∧ contentTypes r.headers = [c!"application/json; charset=utf-8"] :=
  ⟨_, rfl, by decide, by decide⟩

end Verif
