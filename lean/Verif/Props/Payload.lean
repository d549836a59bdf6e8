import Verif.Model.Payload
import Verif.Props.Resource
import Verif.Props.TokenString
set_option linter.unusedSimpArgs false
set_option linter.unusedVariables false
/-! The contents of JWT access tokens: C58. -/
namespace Verif
open Spec

theorem update_two (d : Dict Val) (a b : Val) :
    Dict.get? (Dict.update d [(c!"sid", a), (c!"ttype", b)]) c!"sid" = some a ∧
    Dict.get? (Dict.update d [(c!"sid", a), (c!"ttype", b)]) c!"ttype" = some b ∧
    ∀ k, k ≠ c!"sid" → k ≠ c!"ttype" → Dict.get? (Dict.update d [(c!"sid", a), (c!"ttype", b)]) k = d.get? k := by
  simp only [Dict.update, List.foldl_cons, List.foldl_nil]
  refine ⟨?_, ?_, ?_⟩
  · rw [Dict.get?_set, if_neg (by decide), Dict.get?_set, if_pos rfl]
  · rw [Dict.get?_set, if_pos rfl]
  · intro k h1 h2
    rw [Dict.get?_set, if_neg h2, Dict.get?_set, if_neg h1]

theorem get?_erase (d : Dict Val) (k k' : Str) (h : k' ≠ k) : (d.erase k).get? k' = d.get? k' := by
  induction d with
  | nil => rfl
  | cons p r ih =>
    obtain ⟨a, b⟩ := p
    simp only [Dict.erase]
    by_cases e : a = k
    · subst e
      simp only [if_true, Dict.get?]
      rw [if_neg (fun e => h e.symm)]
    · simp only [e, if_false, Dict.get?]
      by_cases e2 : a = k'
      · simp [e2]
      · simp only [e2, if_false]; exact ih

/-- What the contents of a token consist of. -/
theorem contents_ok {cfg : ClaimsCfg} {cdb : Cdb} {db : Str → Dict Val} {g : Grant} {h : Handler} {sid tt : Str}
    {scope : List Str} {p : Dict Val} (hp : jwtTokenContents cfg cdb db g h sid tt scope = .ok p) :
    ∃ user client gid restr ui, unpack3 sid = .ok (user, client, gid) ∧
      (getClaims cfg cdb client (g.authReq.bind AuthReq.claims) (if scope = [] then g.scope else scope) tt).2 = .ok restr ∧
      getUserClaims db user restr = .ok ui ∧
      bindArgs (Dict.update [(c!"scope", Val.ofStrs (if scope = [] then g.scope else scope)), (c!"aud", Val.ofStrs g.resources)] ui) =
        .ok (((Dict.get? (Dict.update [(c!"scope", Val.ofStrs (if scope = [] then g.scope else scope)),
          (c!"aud", Val.ofStrs g.resources)] ui) c!"ttype").map Val.truthy).getD false,
          Dict.erase (Dict.update [(c!"scope", Val.ofStrs (if scope = [] then g.scope else scope)), (c!"aud", Val.ofStrs g.resources)] ui) c!"ttype") ∧
      p = jwtTokenPayload h sid (((Dict.get? (Dict.update [(c!"scope", Val.ofStrs (if scope = [] then g.scope else scope)),
          (c!"aud", Val.ofStrs g.resources)] ui) c!"ttype").map Val.truthy).getD false)
        (Dict.erase (Dict.update [(c!"scope", Val.ofStrs (if scope = [] then g.scope else scope)), (c!"aud", Val.ofStrs g.resources)] ui) c!"ttype") := by
  unfold jwtTokenContents payloadArguments at hp
  cases h1 : unpack3 sid with
  | error e => simp [h1] at hp
  | ok x =>
    obtain ⟨user, client, gid⟩ := x
    simp only [h1] at hp
    cases h2 : (getClaims cfg cdb client (g.authReq.bind AuthReq.claims) (if scope = [] then g.scope else scope) tt).2 with
    | error e => simp [h2] at hp
    | ok restr =>
      simp only [h2] at hp
      cases h3 : getUserClaims db user restr with
      | error e => simp [h3] at hp
      | ok ui =>
        simp only [h3] at hp
        refine ⟨user, client, gid, restr, ui, rfl, h2, h3, ?_⟩
        generalize Dict.update [(c!"scope", Val.ofStrs (if scope = [] then g.scope else scope)), (c!"aud", Val.ofStrs g.resources)] ui = d at hp ⊢
        unfold bindArgs at hp ⊢
        by_cases h4 : d.has c!"session_id" = true ∨ d.has c!"self" = true
        · simp [h4] at hp
        · simp only [h4, if_false] at hp ⊢
          exact ⟨trivial, (Except.ok.inj hp).symm⟩

/-- C58 (partial): the session id of every JWT token is the one it was minted for, and its type is the handler's, whatever
the user database and the claims specification contain, except that user data named "ttype" make the type "A".  Scope and
audience are the grant's unless user data have these names. -/
theorem C58_session_binding_partial (cfg : ClaimsCfg) (cdb : Cdb) (db : Str → Dict Val) (g : Grant) (h : Handler)
    (ht : h.typ ≠ []) (sid tt : Str) (scope : List Str) (p : Dict Val)
    (hp : jwtTokenContents cfg cdb db g h sid tt scope = .ok p) :
    p.get? c!"sid" = some (.str sid) ∧
    (p.get? c!"ttype" = some (.str h.typ) ∨ p.get? c!"ttype" = some (.str c!"A")) ∧
    ∃ user client gid, unpackSessionKey sid = [user, client, gid] ∧
      ((db user).get? c!"ttype" = none → p.get? c!"ttype" = some (.str h.typ)) ∧
      ((db user).get? c!"scope" = none → p.get? c!"scope" = some (Val.ofStrs (if scope = [] then g.scope else scope))) ∧
      ((db user).get? c!"aud" = none → p.get? c!"aud" = some (Val.ofStrs g.resources)) := by
  obtain ⟨user, client, gid, restr, ui, h1, h2, h3, _, h5⟩ := contents_ok hp
  have hui : ∀ k, (db user).get? k = none → k ∉ ui.map Prod.fst := by
    intro k hk hm
    have : ∀ (r : Claims) (res : Dict Val), userClaimsLoop (db user) r = .ok res → k ∉ res.map Prod.fst := by
      intro r
      induction r with
      | nil => intro res hr; simp [userClaimsLoop] at hr; subst hr; simp
      | cons q r ih =>
        obtain ⟨a, spec⟩ := q
        intro res hr
        unfold userClaimsLoop at hr
        cases c1 : claimsMatch ((db user).get? a) spec with
        | error e => simp [c1] at hr
        | ok b =>
          simp only [c1] at hr
          cases c2 : userClaimsLoop (db user) r with
          | error e => simp [c2] at hr
          | ok rest =>
            simp only [c2, Except.ok.injEq] at hr
            subst hr
            cases b with
            | false => exact ih rest c2
            | true =>
              simp only [if_true, List.map_cons, List.mem_cons, not_or]
              refine ⟨?_, ih rest c2⟩
              rintro rfl
              rw [hk] at c1
              simp [claimsMatch] at c1
    unfold getUserClaims at h3
    split at h3
    · cases h3; simp at hm
    · exact this _ _ h3 hm
  unfold jwtTokenPayload at h5
  simp only at h5
  generalize hd : Dict.update [(c!"scope", Val.ofStrs (if scope = [] then g.scope else scope)), (c!"aud", Val.ofStrs g.resources)] ui = d at h5
  obtain ⟨u1, u2, u3⟩ := update_two (d.erase c!"ttype") (.str sid)
    (.str (if !(((Dict.get? d c!"ttype").map Val.truthy).getD false) ∧ h.typ ≠ [] then h.typ else c!"A"))
  have hsc : ∀ k, k ∉ ui.map Prod.fst → d.get? k = Dict.get? [(c!"scope", Val.ofStrs (if scope = [] then g.scope else scope)),
      (c!"aud", Val.ofStrs g.resources)] k := by
    intro k hk
    rw [← hd]; exact get?_update_of_not_mem _ _ hk
  have hkey : unpackSessionKey sid = [user, client, gid] := by
    unfold unpack3 at h1
    split at h1
    · cases h1; assumption
    · cases h1
  refine ⟨by rw [h5]; exact u1, ?_, user, client, gid, hkey, ?_, ?_, ?_⟩
  · rw [h5, u2]
    split
    · exact Or.inl rfl
    · exact Or.inr rfl
  · intro hn
    rw [h5, u2, hsc _ (hui _ hn)]
    simp [Dict.get?, ht]
  · intro hn
    rw [h5, u3 _ (by decide) (by decide), get?_erase _ _ _ (by decide), hsc _ (hui _ hn)]
    simp [Dict.get?]
  · intro hn
    rw [h5, u3 _ (by decide) (by decide), get?_erase _ _ _ (by decide), hsc _ (hui _ hn)]
    simp [Dict.get?]

/-- The handler's `ttype` argument that such a claim gives is the input `ttype` of the minting model. -/
theorem effectiveType_of_arg (h : Handler) (b : Bool) (tt : Str) (hb : b = true ↔ tt ≠ []) :
    (if !b ∧ h.typ ≠ [] then h.typ else c!"A") = effectiveType h tt := by
  unfold effectiveType
  by_cases e : tt = []
  · have : b = false := by
      cases b with
      | false => rfl
      | true => exact absurd e (hb.1 rfl)
    simp [e, this]
  · have : b = true := hb.2 e
    simp [e, this]

/-! ### C58 is false for scope, audience and type -/

def loudDb : Str → Dict Val := fun _ =>
  [(c!"sid", .str c!"x;;y;;z"), (c!"ttype", .str c!"R"), (c!"scope", .lcons (.str c!"admin") .lnil), (c!"aud", .str c!"https://api")]

def loudCfg : ClaimsCfg :=
  { demoEnv.ccfg with modules := [(c!"access_token", { baseClaims := [(c!"sid", none), (c!"ttype", none), (c!"scope", none), (c!"aud", none)] })] }

def loudGrant : Grant := Grant.new 1 c!"g1" { scope := [c!"openid"], resources := [c!"c1"] }

set_option maxRecDepth 4000 in
/-- C58 is false of the code: user data named "scope", "aud" and "ttype" reach the token. -/
theorem C58_user_data_in_token :
    (match jwtTokenContents loudCfg demoDb loudDb loudGrant ⟨.jwt, c!"T", 5, c!"k"⟩ c!"diana;;c1;;g1" tAccessToken [] with
      | .ok p => [c!"sid", c!"ttype", c!"scope", c!"aud"].map fun k => p.get? k
      | .error _ => []) =
    [some (.str c!"diana;;c1;;g1"), some (.str c!"A"), some (.lcons (.str c!"admin") .lnil), some (.str c!"https://api")] := by
  decide

/-- And user data named "session_id" make minting fail. -/
theorem C58_session_id_claim_raises (d : Dict Val) (h : d.has c!"session_id" = true) : bindArgs d = .error .typeError := by
  simp [bindArgs, h]

/-- The values Python takes for false: None, False, 0 and the empty string, list and dictionary. -/
def falseValues : List Val := [.null, .bool false, .int 0, .str [], .lnil, .dnil]

theorem truthy_iff (v : Val) : v.truthy = true ↔ v ∉ falseValues := by
  cases v with
  | bool b => cases b <;> simp [Val.truthy, falseValues]
  | _ => simp [Val.truthy, falseValues]

/-- Exactly which user data named "ttype" change the type of the token: those that are not false, empty or zero; the type then is "A". -/
theorem C58_which_ttype_claims (h : Handler) (ht : h.typ ≠ []) (sid : Str) (d : Dict Val) (hs : d.has c!"session_id" = false)
    (hf : d.has c!"self" = false) :
    ∃ b rest, bindArgs d = .ok (b, rest) ∧
      ((∀ v, d.get? c!"ttype" = some v → v ∈ falseValues) → (jwtTokenPayload h sid b rest).get? c!"ttype" = some (.str h.typ)) ∧
      (∀ v, d.get? c!"ttype" = some v → v ∉ falseValues → (jwtTokenPayload h sid b rest).get? c!"ttype" = some (.str c!"A")) := by
  refine ⟨_, _, by unfold bindArgs; simp only [hs, hf, Bool.false_eq_true, or_self, if_false]; rfl, fun hv => ?_, fun v hv hn => ?_⟩
  · unfold jwtTokenPayload
    obtain ⟨_, u2, _⟩ := update_two (d.erase c!"ttype") (.str sid)
      (.str (if !(((Dict.get? d c!"ttype").map Val.truthy).getD false) ∧ h.typ ≠ [] then h.typ else c!"A"))
    rw [u2]
    have : ((Dict.get? d c!"ttype").map Val.truthy).getD false = false := by
      cases hd : Dict.get? d c!"ttype" with
      | none => rfl
      | some v =>
        cases htv : v.truthy with
        | false => simp [htv]
        | true => exact absurd (hv v hd) ((truthy_iff v).1 htv)
    simp [this, ht]
  · unfold jwtTokenPayload
    obtain ⟨_, u2, _⟩ := update_two (d.erase c!"ttype") (.str sid)
      (.str (if !(((Dict.get? d c!"ttype").map Val.truthy).getD false) ∧ h.typ ≠ [] then h.typ else c!"A"))
    rw [u2]
    simp [hv, (truthy_iff v).2 hn]

/-- With the default handler, a claim named "ttype" makes access and refresh tokens unusable: the string the handler made is
refused by that handler. -/
theorem C58_ttype_claim_breaks_default_tokens (cr : TokenCrypto) (hl : TokenCryptoLaws cr) (h : Handler)
    (hc : h.cls = .default) (ht : h.typ ≠ c!"A") (now now' : Int) (rnd nonce sid tt : Str) (htt : tt ≠ []) :
    handlerInfo cr h now' (handlerCall cr h now rnd nonce sid tt) = .error .wrongTokenType := by
  have he : effectiveType h tt = c!"A" := by simp [effectiveType, htt]
  have hx := splitToken_call cr hl h h hc rfl now rnd nonce sid tt
  simp only [handlerInfo, hc, hx, he]
  simp [Ne.symm ht]

/-- The hypotheses are met. -/
example : (match jwtTokenContents demoEnv.ccfg demoDb demoUsers loudGrant ⟨.jwt, c!"T", 5, c!"k"⟩ c!"diana;;c1;;g1" tAccessToken [] with
    | .ok p => [c!"sid", c!"ttype", c!"scope", c!"aud"].map fun k => p.get? k
    | .error _ => []) =
    [some (.str c!"diana;;c1;;g1"), some (.str c!"T"), some (.lcons (.str c!"openid") .lnil), some (.lcons (.str c!"c1") .lnil)] := by
  decide

end Verif
