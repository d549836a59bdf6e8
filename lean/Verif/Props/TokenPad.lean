import Verif.Props.TokenStart
import Verif.Props.TokenErrors
import Verif.Props.MetadataMore
import Verif.Props.RequestObject
import Verif.Props.Storage
import Verif.Props.Crash
/-! Details: the padding of sealed tokens (C04), the kind of a token (C131), request objects and odd registrations (C100), what is left
when a deletion fails half way (C99), refresh requests under PKCE (C143). -/
namespace Verif
open Spec
set_option linter.unusedSimpArgs false

/-- **C04** What is sealed is the text, followed by the fewest blanks that make its length in bytes a multiple of 16. -/
theorem C04_padding (text : Str) : ∃ n, n < 16 ∧ cryptPad text = text ++ List.replicate n ' ' ∧ 16 ∣ utf8Len (cryptPad text) ∧
    ∀ m, 16 ∣ utf8Len (text ++ List.replicate m ' ') → n ≤ m := by
  have hl : ∀ m, utf8Len (text ++ List.replicate m ' ') = utf8Len text + m := by
    intro m
    have h1 : (' ' : Char).utf8Size = 1 := by decide
    simp [utf8Len, List.map_append, List.sum_append, List.map_replicate, h1]
  by_cases h : utf8Len text % 16 = 0
  · refine ⟨0, by omega, by simp [cryptPad, h], ?_, fun m _ => Nat.zero_le m⟩
    simp only [cryptPad, h, ne_eq, not_true, if_false]
    omega
  · have e : cryptPad text = text ++ List.replicate (16 - utf8Len text % 16) ' ' := by simp [cryptPad, h]
    refine ⟨16 - utf8Len text % 16, by omega, e, ?_, fun m hm => ?_⟩
    · rw [e, hl]; omega
    · rw [hl] at hm; omega

example : cryptPad c!"12345678901234é" = c!"12345678901234é" ∧ cryptPad c!"abc" = c!"abc             " := by decide

/-- **C131** The kind of a string the provider made itself: the letter of its handler; a JWT's only until it expires. -/
theorem C131_kind_of_own_token (cr : TokenCrypto) (L : TokenCryptoLaws cr) (kl : KeyLib) (kj : Option TokenKeys)
    (a : HandlerArgs) (t : TokenHandler) (h : handlerFactory kl kj a = .ok t)
    (x : Handler) (hx : t.code = some x ∨ t.accessToken = some x ∨ t.refreshToken = some x) (now later : Int) (rnd nonce sid : Str) :
    (x.cls = .default → t.type cr later (handlerCall cr x now rnd nonce sid []) = .ok x.typ) ∧
    (x.cls = .jwt → t.type cr later (handlerCall cr x now rnd nonce sid []) =
      if now + x.lifetime < 0 ∨ later ≤ now + x.lifetime then .ok x.typ else .error .tooOld) ∧
    (t.code = some x → x.typ = c!"A") ∧ (t.accessToken = some x → x.typ = c!"T") ∧ (t.refreshToken = some x → x.typ = c!"R") := by
  have hm : x ∈ t.order := by
    simp only [TokenHandler.order, List.mem_append, Option.mem_toList]
    rcases hx with hx | hx | hx
    · exact .inl (.inl hx)
    · exact .inl (.inr hx)
    · exact .inr hx
  have hf := started_types h
  refine ⟨fun hd => ?_, fun hd => ?_, ?_⟩
  · unfold TokenHandler.type
    rw [C04_default_token_resolves cr L t hf x hm hd]; rfl
  · unfold TokenHandler.type
    rw [C04_jwt_token_resolves cr L t hf x hm hd]
    split <;> rfl
  · exact ⟨fun hc => hf.1 _ hc, fun hc => hf.2.1 _ hc, fun hc => hf.2.2 _ hc⟩

/-- **C100** A registered (or published) set of algorithms that is a dictionary stands for its keys. -/
theorem C100_dictionary_of_algorithms (env : ReqObjEnv) (client : Str) (cinfo : Dict Val) (hreg : env.registered client = some cinfo)
    (d : Val) (hd : IsDict d) (he : cinfo.get? c!"request_object_signing_alg" = some d) (a : Str) :
    (HasKey a d → allowedAlg env client (some a) c!"sign" = .ok ()) ∧
    (¬ HasKey a d → allowedAlg env client (some a) c!"sign" = .error .valueError) := by
  obtain ⟨b, h1, h2⟩ := contains_dict (.str a) hd
  have hb : b = true ↔ HasKey a d := h2.trans ⟨fun ⟨k, e, hk⟩ => by cases e; exact hk, fun hk => ⟨_, rfl, hk⟩⟩
  have hp : algParams.get? c!"sign" = some (c!"request_object_signing_alg", c!"request_object_signing_alg_values_supported") := by
    decide
  have hall : allowedAlg env client (some a) c!"sign" = if b then .ok () else .error .valueError := by
    unfold allowedAlg
    rw [hreg]; simp only [hp, he]
    have hne : d ≠ .null := by intro e; subst e; cases hd
    have key : (match d.contains (optStr (some a)) with
        | none => .error .typeError
        | some true => .ok ()
        | some false => .error .valueError : Except Exn Unit) = if b then .ok () else .error .valueError := by
      simp only [optStr, h1]
      cases b <;> rfl
    cases d <;> first | exact absurd rfl hne | exact key
  constructor
  · intro h; rw [hall, hb.2 h]; rfl
  · intro h
    have : b = false := by cases b <;> simp_all
    rw [hall, this]; rfl

example : IsDict (.dcons c!"RS256" .null .dnil) ∧ HasKey c!"RS256" (.dcons c!"RS256" .null .dnil) ∧
    ¬ HasKey c!"none" (.dcons c!"RS256" .null .dnil) :=
  ⟨.cons _ _ _ .nil, .inl rfl, by simp [HasKey]⟩

/-- **C99** is false, third: deleting the grants of a session one after the other is not all or nothing.  If one of them is already
gone, the deletion stops with `KeyError` (over `dict` and in memory), and the ones before it are gone too. -/
theorem C99_half_deleted (b : Backend) (hb : b = dictBackend .aliased ∨ b = inMemoryBackend) (s : Store) (u c : Str) (hu : GoodId u)
    (hc : GoodId c) (before : List Str) (g : Str) (after : List Str) (hg : GoodId g) (hgb : ∀ x ∈ before, GoodId x)
    (hp : ∀ x ∈ before, (s (sessionKey [u, c, x])).isSome) (hn : before.Nodup) (hgn : g ∉ before)
    (ha : s (sessionKey [u, c, g]) = none) :
    (delGrantsOn b s u c (before ++ g :: after)).2 = .error .keyError ∧
    (∀ x ∈ before, (delGrantsOn b s u c (before ++ g :: after)).1 (sessionKey [u, c, x]) = none) ∧
    (∀ k, (∀ x ∈ before, k ≠ sessionKey [u, c, x]) → (delGrantsOn b s u c (before ++ g :: after)).1 k = s k) := by
  have hd : b.delItem = dictDel := by rcases hb with rfl | rfl <;> rfl
  induction before generalizing s with
  | nil =>
    have e : delGrantsOn b s u c (g :: after) = (s, .error .keyError) := by
      simp [delGrantsOn, hd, dictDel, ha]
    simp only [List.nil_append, e]
    exact ⟨trivial, by simp, fun k _ => trivial⟩
  | cons x r ih =>
    obtain ⟨o, ho⟩ := Option.isSome_iff_exists.1 (hp x (by simp))
    have e : delGrantsOn b s u c (x :: r ++ g :: after) = delGrantsOn b (s.del (sessionKey [u, c, x])) u c (r ++ g :: after) := by
      simp [delGrantsOn, hd, dictDel, ho]
    rw [e]
    have hinj : ∀ y, GoodId y → y ≠ x → sessionKey [u, c, y] ≠ sessionKey [u, c, x] := by
      intro y hy hne he
      exact hne (key3_inj hu hc hy (hgb x (by simp)) he)
    simp only [List.nodup_cons] at hn
    obtain ⟨i1, i2, i3⟩ := ih (s.del (sessionKey [u, c, x])) (fun y hy => hgb y (by simp [hy])) (fun y hy => by
        rw [del_ne _ (hinj y (hgb y (by simp [hy])) (fun e => hn.1 (e ▸ hy)))]
        exact hp y (by simp [hy])) hn.2 (fun h => hgn (by simp [h])) (by
        rw [del_ne _ (hinj g hg (fun e => hgn (by simp [e])))]; exact ha)
    refine ⟨i1, fun y hy => ?_, fun k hk => ?_⟩
    · rcases List.mem_cons.1 hy with rfl | hy
      · rw [i3 _ (fun z hz => (hinj z (hgb z (by simp [hz])) (fun e => hn.1 (e ▸ hz))).symm)]
        simp [Store.del]
      · exact i2 y hy
    · rw [i3 k (fun z hz => hk z (by simp [hz])), del_ne _ (hk x (by simp))]

/-- Two grants recorded, the second gone: the first is lost. -/
example : let s := Store.empty.put (sessionKey [c!"u", c!"c", c!"g1"]) (.info SessInfo.client)
    (s (sessionKey [c!"u", c!"c", c!"g1"])).isSome ∧ s (sessionKey [c!"u", c!"c", c!"g2"]) = none := by
  exact ⟨rfl, rfl⟩

/-- **C143** Under PKCE, a refresh request whose own token is fine is still refused if it brings a code: `invalid_grant` if the code's
user has no session any more, and an exception nobody catches if none of the provider's handlers can open the code. -/
theorem C143_refresh_with_odd_code (env : Env) (helpers : Dict Helper) (s : Store) (now : Int) (req : TokReq)
    (hh : helpers.get? c!"refresh_token" = some (.inst .refreshToken)) (hg : req.grantType = some c!"refresh_token")
    (p : Pkce) (hp : env.pkce = some p) (r : TokReq) (hr : tokParse { env with pkce := none } helpers s now req = .val r)
    (v : Str) (hc : req.code = some v) :
    (∀ u c g, GoodId u → GoodId c → GoodId g → env.th.sid env.cr now v = .ok (sessionKey [u, c, g]) → s u = none →
      tokParse env helpers s now req = .errMsg c!"invalid_grant") ∧
    (NotOurs env v → tokParse env helpers s now req = .raise .unknownToken) := by
  have e : helperParse { env with pkce := none } helpers s now req = helperParse env helpers s now req := rfl
  have e2 : tokParse env helpers s now req = pkceTokenParse p env s now req := by
    unfold tokParse at hr ⊢
    rw [e] at hr
    cases hx : helperParse env helpers s now req with
    | errMsg e => simp [hx] at hr
    | raise e => simp [hx] at hr
    | val r0 =>
      have hr0 : r0 = req := by
        simp only [helperParse, hg, hh] at hx
        exact (refreshParse_val hx).1
      subst hr0
      simp only [hp]
  rw [e2]
  constructor
  · intro u c g hu hcl hgi hs hn
    have : sessionByToken env.th env.cr s now v = .error .keyError := by
      simp only [sessionByToken, hs, unpack3_good hu hcl hgi, dbGet, evalPath, hn]
    simp only [pkceTokenParse, hc, this]
    rfl
  · intro hn
    simp only [pkceTokenParse, hc, notOurs_session hn]
    rfl

set_option maxRecDepth 8000 in
/-- A refresh request that passes without PKCE, and brings a code that is none. -/
example : tokParse { demoEnv with pkce := none } demoHelpers (sysRun (demoCfg .aliased) (demoOps.take 5)).store 3
      { demoRefReq with code := some c!"junk" } = .val { demoRefReq with code := some c!"junk" } ∧
    demoEnv.th.sid demoEnv.cr 3 c!"junk" = .error .unknownToken := by decide

end Verif
