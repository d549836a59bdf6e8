import Verif.Props.AuthzParse
import Verif.Props.ProviderDemo
import Verif.Props.Cookie
set_option linter.unusedSimpArgs false
/-! C138, C140: what becomes of an authorization request that cannot be served, and of a cookie that is not the provider's. -/
namespace Verif
open Spec

/-! ### C138: faulty requests -/

theorem postParse_uri_error {env : Env} {cdb : Cdb} {client : Str} {cl : Client} {par : ParDb} {req : AuthReq} {e : Exn}
    (hc : cdb client = some cl) (hr : ResponseTypeRegistered cl req.responseType)
    (he : getUri env.lib cdb .redirect req.clientId req.redirectUri = .error e) :
    postParse env cdb client par req = (par, if uriErrCaught e then .errMsg c!"invalid_request" else .raise e) := by
  unfold postParse
  have hv := (verifyResponseType_iff req cl).2 hr
  simp [hc, hv, he]

theorem doRequestUri_plain {env : Env} {cdb : Cdb} {client : Str} {par : ParDb} {req : AuthReq} (h0 : req.requestUri = none) :
    doRequestUri env cdb client par req = (par, .val req) := by
  unfold doRequestUri
  rw [h0]

/-- A request without request URI that is refused in the first check is refused as a whole. -/
theorem authzParse_first {env : Env} {cdb : Cdb} {par : ParDb} {req : AuthReq} (h0 : req.requestUri = none) {o : Out AuthReq}
    (h : postParse env cdb req.clientId par req = (par, o)) (ho : ∀ r, o ≠ .val r) : authzParse env cdb par req = (par, o) := by
  unfold authzParse authzSteps
  simp only [List.cons_append, runSteps, doRequestUri_plain h0, h]
  cases o with
  | val r => exact absurd rfl (ho r)
  | errMsg e => rfl
  | raise e => rfl

/-- What the provider answers if the request as such is refused: the error, and nothing has changed. -/
theorem authorize_errMsg {cfg : ProvCfg} {st : Prov} {now : Int} {gid : Str} {mc ma : MintIn} {idt : Out Str} {raw : Option Str}
    {req : UserReq} {e : Str} (h : authzParse cfg.sys.env st.cdb st.par req.areq = (st.par, .errMsg e)) :
    authorizeEndpoint cfg st now gid mc ma idt raw req = (st.par, st.cdb, st.sys.store, .error e) := by
  unfold authorizeEndpoint
  rw [h]

theorem authorize_raises {cfg : ProvCfg} {st : Prov} {now : Int} {gid : Str} {mc ma : MintIn} {idt : Out Str} {raw : Option Str}
    {req : UserReq} {e : Exn} (h : authzParse cfg.sys.env st.cdb st.par req.areq = (st.par, .raise e)) :
    authorizeEndpoint cfg st now gid mc ma idt raw req = (st.par, st.cdb, st.sys.store, .raise e) := by
  unfold authorizeEndpoint
  rw [h]

/-- The base of a URI is none of the registered ones. -/
theorem matchRegistered_none {base : Str} {q : Query} {l : List RegUri} (h : ∀ p ∈ l, p.1 ≠ base) :
    matchRegistered base q l = .error .redirectURIError := by
  induction l with
  | nil => rfl
  | cons p l ih =>
    obtain ⟨rb, rq⟩ := p
    unfold matchRegistered
    have : base ≠ rb := fun e => h (rb, rq) (by simp) e.symm
    simp [this, ih (fun p hp => h p (by simp [hp]))]

/-- **C138**, where it holds: a request (without request URI) of an unknown client is answered with `unauthorized_client`; and with
`invalid_request` if the client is known but the response type is not registered, or the address, without fragment, is none of the
client's registered ones (whatever the query), or no address is given and the client has none or several.  Nothing changes. -/
theorem C138_faulty_request_answered_partial (cfg : ProvCfg) (st : Prov) (now : Int) (gid : Str) (mc ma : MintIn) (idt : Out Str)
    (raw : Option Str) (req : UserReq) (h0 : req.areq.requestUri = none) :
    (st.cdb req.areq.clientId = none →
      authorizeEndpoint cfg st now gid mc ma idt raw req = (st.par, st.cdb, st.sys.store, .error c!"unauthorized_client")) ∧
    ∀ cl, st.cdb req.areq.clientId = some cl →
      (¬ ResponseTypeRegistered cl req.areq.responseType ∨
        (req.areq.clientId ≠ [] ∧ cl.redirectUris ≠ [] ∧ ∃ uri, req.areq.redirectUri = some uri ∧
          cfg.sys.env.lib.fragment (cfg.sys.env.lib.unquote uri) = [] ∧
          ∀ p ∈ cl.redirectUris, p.1 ≠ (cfg.sys.env.lib.splitUri (cfg.sys.env.lib.unquote uri)).1) ∨
        (req.areq.redirectUri = none ∧ cl.redirectUris.length ≠ 1)) →
      authorizeEndpoint cfg st now gid mc ma idt raw req = (st.par, st.cdb, st.sys.store, .error c!"invalid_request") := by
  constructor
  · intro hc
    have h : postParse cfg.sys.env st.cdb req.areq.clientId st.par req.areq = (st.par, .errMsg c!"unauthorized_client") := by
      unfold postParse; rw [hc]
    exact authorize_errMsg (authzParse_first h0 h (by intro r e; cases e))
  · intro cl hc hbad
    have h : postParse cfg.sys.env st.cdb req.areq.clientId st.par req.areq = (st.par, .errMsg c!"invalid_request") := by
      by_cases hr : ResponseTypeRegistered cl req.areq.responseType
      · rcases hbad with hb | ⟨hne, hreg, uri, hu, hf, hb⟩ | ⟨hu, hl⟩
        · exact absurd hr hb
        · have : getUri cfg.sys.env.lib st.cdb .redirect req.areq.clientId req.areq.redirectUri = .error .redirectURIError := by
            unfold getUri verifyUri
            have hsome : (some req.areq.clientId <|> none : Option Str) = some req.areq.clientId := rfl
            have hur : cl.uris .redirect = cl.redirectUris := rfl
            rw [hu]
            simp only [hsome, hne, if_false, hf, ne_eq, not_true_eq_false, hc, hur, hreg]
            rw [matchRegistered_none hb]
          rw [postParse_uri_error hc hr this]
          rfl
        · have : getUri cfg.sys.env.lib st.cdb .redirect req.areq.clientId req.areq.redirectUri = .error .parameterError := by
            unfold getUri
            have hur : cl.uris .redirect = cl.redirectUris := rfl
            rw [hu]
            simp only [hc, hur]
            cases hx : cl.redirectUris with
            | nil => rfl
            | cons p l =>
              cases l with
              | nil => rw [hx] at hl; simp at hl
              | cons q l => rfl
          rw [postParse_uri_error hc hr this]
          rfl
      · unfold postParse
        rw [hc]
        have hv : verifyResponseType req.areq cl = false := by
          cases hv : verifyResponseType req.areq cl with
          | false => rfl
          | true => exact absurd ((verifyResponseType_iff _ _).1 hv) hr
        simp [hv]
    exact authorize_errMsg (authzParse_first h0 h (by intro r e; cases e))

/-- **C138** is false of the code: an otherwise fine request whose address has a fragment, or goes to a client without registered
addresses, or has a registered base but another query, is not answered but raises an exception. -/
theorem C138_faulty_uri_raises (cfg : ProvCfg) (st : Prov) (now : Int) (gid : Str) (mc ma : MintIn) (idt : Out Str)
    (raw : Option Str) (req : UserReq) (h0 : req.areq.requestUri = none) (cl : Client) (hc : st.cdb req.areq.clientId = some cl)
    (hr : ResponseTypeRegistered cl req.areq.responseType) (hne : req.areq.clientId ≠ []) (uri : Str) (hu : req.areq.redirectUri = some uri) :
    (cfg.sys.env.lib.fragment (cfg.sys.env.lib.unquote uri) ≠ [] →
      authorizeEndpoint cfg st now gid mc ma idt raw req = (st.par, st.cdb, st.sys.store, .raise .uriError)) ∧
    (cfg.sys.env.lib.fragment (cfg.sys.env.lib.unquote uri) = [] → cl.redirectUris = [] →
      authorizeEndpoint cfg st now gid mc ma idt raw req = (st.par, st.cdb, st.sys.store, .raise .valueError)) ∧
    ∀ pre b rq post, cfg.sys.env.lib.fragment (cfg.sys.env.lib.unquote uri) = [] → cl.redirectUris = pre ++ (b, rq) :: post →
      b = (cfg.sys.env.lib.splitUri (cfg.sys.env.lib.unquote uri)).1 → (∀ p ∈ pre, p.1 ≠ b) →
      DistinctKeys (cfg.sys.env.lib.splitUri (cfg.sys.env.lib.unquote uri)).2 → DistinctKeys rq →
      ¬ SameQuery (cfg.sys.env.lib.splitUri (cfg.sys.env.lib.unquote uri)).2 rq →
      authorizeEndpoint cfg st now gid mc ma idt raw req = (st.par, st.cdb, st.sys.store, .raise .valueError) := by
  have hsome : (some req.areq.clientId <|> none : Option Str) = some req.areq.clientId := rfl
  have hur : cl.uris .redirect = cl.redirectUris := rfl
  have key : ∀ e, uriErrCaught e = false → getUri cfg.sys.env.lib st.cdb .redirect req.areq.clientId req.areq.redirectUri = .error e →
      authorizeEndpoint cfg st now gid mc ma idt raw req = (st.par, st.cdb, st.sys.store, .raise e) := by
    intro e he hg
    have h := postParse_uri_error (par := st.par) hc hr hg
    rw [he] at h
    exact authorize_raises (authzParse_first h0 h (by intro r e; cases e))
  refine ⟨?_, ?_, ?_⟩
  · intro hf
    refine key .uriError (by decide) ?_
    unfold getUri verifyUri
    rw [hu]
    simp only [hsome, hne, if_false, hf, ne_eq, not_false_eq_true, if_true]
  · intro hf hx
    refine key .valueError (by decide) ?_
    unfold getUri verifyUri
    rw [hu]
    simp only [hsome, hne, if_false, hf, ne_eq, not_true_eq_false, hc, hur, hx, if_true]
  · rintro pre b rq post hf hx hb hpre hd1 hd2 hns
    have hq : queryMatches (cfg.sys.env.lib.splitUri (cfg.sys.env.lib.unquote uri)).2 rq = false := by
      cases hq : queryMatches (cfg.sys.env.lib.splitUri (cfg.sys.env.lib.unquote uri)).2 rq with
      | false => rfl
      | true => exact absurd ((queryMatches_iff _ _ hd1 hd2).1 hq) hns
    refine key .valueError (by decide) ?_
    have hm : ∀ pre : List RegUri, (∀ p ∈ pre, p.1 ≠ b) →
        matchRegistered b (cfg.sys.env.lib.splitUri (cfg.sys.env.lib.unquote uri)).2 (pre ++ (b, rq) :: post) = .error .valueError := by
      intro pre
      induction pre with
      | nil => intro _; simp [matchRegistered, hq]
      | cons p pre ih =>
        intro hp
        obtain ⟨x, y⟩ := p
        have : b ≠ x := fun e => hp (x, y) (by simp) e.symm
        simp only [List.cons_append, matchRegistered, this, if_false]
        exact ih (fun p h => hp p (by simp [h]))
    unfold getUri verifyUri
    have hne2 : pre ++ (b, rq) :: post ≠ [] := by simp
    rw [hu]
    simp only [hsome, hne, if_false, hf, ne_eq, not_true_eq_false, hc, hur, hx, hne2]
    rw [← hb, hm pre hpre]

/-! The hypotheses are met: a provider with one client that registered `https://rp/A`, and `https://rp/B?k=v`. -/

def faultCfg : ProvCfg := { webCfg with sys := { webCfg.sys with env := { webCfg.sys.env with lib := demoLib } } }
def faultProv : Prov := { Prov.init faultCfg with cdb := demoCdb }
def faultReq (client : Str) (uri : Option Str) (rt : List Str) : UserReq :=
  { areq := { demoReq rt with clientId := client, redirectUri := uri } }
def faultAnswer (client : Str) (uri : Option Str) (rt : List Str) : Option (Except Exn Str) :=
  match (authorizeEndpoint faultCfg faultProv 1000 c!"g" (mintIn c!"a") (mintIn c!"b") (.val []) none (faultReq client uri rt)).2.2.2 with
  | .error e => some (.ok e)
  | .raise e => some (.error e)
  | _ => none

set_option maxRecDepth 16000 in
example : faultAnswer c!"zz" (some c!"https://rp/A") [c!"code"] = some (.ok c!"unauthorized_client") ∧
    faultAnswer c!"c1" (some c!"https://rp/C") [c!"code"] = some (.ok c!"invalid_request") ∧
    faultAnswer c!"c1" none [c!"code"] = some (.ok c!"invalid_request") ∧
    faultAnswer c!"c1" (some c!"https://rp/A") [c!"token"] = some (.ok c!"invalid_request") ∧
    faultAnswer c!"c1" (some c!"https://rp/A#x") [c!"code"] = some (.error .uriError) ∧
    faultAnswer c!"c1" (some c!"https://rp/B?k=w") [c!"code"] = some (.error .valueError) ∧
    faultAnswer c!"c1" (some c!"https://rp/A") [c!"code"] = none := by decide

/-! ### C140: foreign cookies -/

/-- **C140**, where it holds: a cookie of the provider's name is taken as no cookie at all if it does not consist of three or four
parts; or of four parts that the provider cannot decrypt; or that it can decrypt, but whose inner signature is wrong; or if
its two time stamps differ. -/
theorem C140_junk_reads_as_nothing_partial (cr : CookieCrypto) (d : CookieDealer) (raw : Str) :
    ((pySplit c!"|" raw).length ≠ 3 → (pySplit c!"|" raw).length ≠ 4 → getCookieValue cr d raw = .ok none) ∧
    (∀ t p1 p2 p3 iv ctx tag ek, pySplit c!"|" raw = [t, p1, p2, p3] → cr.unb64 p1 = some iv → cr.unb64 p2 = some ctx →
      cr.unb64 p3 = some tag → d.encKey = some ek →
      (cr.gcmOpen ek iv ctx tag = none ∨
        ∃ msg load ts m k mac, cr.gcmOpen ek iv ctx tag = some msg ∧ lvUnpack msg = .ok [load, ts, m] ∧ d.signKey = some k ∧
          cr.unb64 m = some mac ∧ cr.macVerify k (load ++ ts) mac = false) → getCookieValue cr d raw = .ok none) ∧
    ∀ info ts value ts' typ, verDecContent cr d (pySplit c!"|" raw) = .ok (some (info, ts)) → pySplit c!"::" info = [value, ts', typ] →
      ts ≠ ts' → getCookieValue cr d raw = .ok none := by
  refine ⟨?_, ?_, ?_⟩
  · intro h3 h4
    have : verDecContent cr d (pySplit c!"|" raw) = .ok none := by
      unfold verDecContent
      split
      · rename_i h; rw [h] at h3; simp at h3
      · rename_i h; rw [h] at h4; simp at h4
      · rfl
    unfold getCookieValue
    rw [this]
  · rintro t p1 p2 p3 iv ctx tag ek hp h1 h2 h3 hk hbad
    have : verDecContent cr d (pySplit c!"|" raw) = .ok none := by
      rw [hp]
      unfold verDecContent verDecEncrypted
      simp only [h1, h2, h3, hk]
      rcases hbad with hb | ⟨msg, load, ts, m, k, mac, e1, e2, e3, e4, e5⟩
      · rw [hb]
      · rw [e1]
        simp only
        unfold verDecPlain
        simp [e2, e3, e4, e5]
    unfold getCookieValue
    rw [this]
  · intro info ts value ts' typ h1 h2 hne
    unfold getCookieValue
    rw [h1]
    simp [h2, hne]

/-- **C140**, where it holds: such a cookie, and one of a kind that the provider has no key for (an encrypted one if it does not encrypt,
or a signed one if it does not sign), changes nothing: the browser is answered as one without a cookie. -/
theorem C140_unread_cookie_is_no_cookie_partial (env : Env) (c : AuthnCfg) (cdb : Cdb) (s : Store) (now : Int) (gid : Str) (mc ma : MintIn)
    (idt : Out Str) (raw : Str) (r : UserReq)
    (h : getCookieValue c.cr c.dealer raw = .ok none ∨
      (∃ t p1 p2 p3 iv ctx tag, pySplit c!"|" raw = [t, p1, p2, p3] ∧ c.cr.unb64 p1 = some iv ∧ c.cr.unb64 p2 = some ctx ∧
        c.cr.unb64 p3 = some tag ∧ c.dealer.encKey = none) ∨
      (∃ ts load m mac, pySplit c!"|" raw = [ts, load, m] ∧ c.cr.unb64 m = some mac ∧ c.dealer.signKey = none)) :
    authzBrowser env c cdb s now gid mc ma idt (some raw) r = authzBrowser env c cdb s now gid mc ma idt none r := by
  have hg : getCookieValue c.cr c.dealer raw = .ok none ∨ getCookieValue c.cr c.dealer raw = .error .attributeError := by
    rcases h with h | ⟨t, p1, p2, p3, iv, ctx, tag, e, h1, h2, h3, h4⟩ | ⟨ts, load, m, mac, e, h1, h2⟩
    · exact Or.inl h
    · right
      unfold getCookieValue
      rw [e]
      unfold verDecContent verDecEncrypted
      simp [h1, h2, h3, h4]
    · right
      unfold getCookieValue
      rw [e]
      unfold verDecContent verDecSigned
      simp [h1, h2]
  have hi : identity c now (some raw) r = identity c now none r := by
    unfold identity authenticatedAs
    rcases hg with hg | hg <;> simp [hg]
  unfold authzBrowser authnIn
  simp only [hi]

/-- An encrypted cookie at a provider that only signs: the login page. -/
example : ∃ raw : Str, pySplit c!"|" raw = [c!"1", toyB64 c!"a", toyB64 c!"b", toyB64 c!"c"] ∧ demoAuthn.dealer.encKey = none ∧
    toyCookieCrypto.unb64 (toyB64 c!"a") = some c!"a" :=
  ⟨pyJoin c!"|" [c!"1", toyB64 c!"a", toyB64 c!"b", toyB64 c!"c"], by decide, by decide, by decide⟩

/-- **C140** is false of the code, for every provider that signs its cookies: a three-part cookie whose signature is well-formed
but wrong makes every otherwise fine authorization request fail with an exception (so a stale or foreign cookie locks the user out),
and so does one whose third part is not base64. -/
theorem C140_forged_signature_raises (env : Env) (c : AuthnCfg) (cdb : Cdb) (s : Store) (now : Int) (gid : Str) (mc ma : MintIn)
    (idt : Out Str) (raw : Str) (r : UserReq) (cl : Client) (hcl : cdb r.areq.clientId = some cl)
    (hs : checkScopes env cl r.areq = true) (hh : ∃ u, requestUser env.oidc c.hintLookup r = .ok u)
    (ts load m k : Str) (hp : pySplit c!"|" raw = [ts, load, m]) (hk : c.dealer.signKey = some k) :
    (∀ mac, c.cr.unb64 m = some mac → c.cr.macVerify k (load ++ ts) mac = false →
      authzBrowser env c cdb s now gid mc ma idt (some raw) r = (cdb, s, .raise .verificationError)) ∧
    (c.cr.unb64 m = none → authzBrowser env c cdb s now gid mc ma idt (some raw) r = (cdb, s, .raise .valueError)) := by
  obtain ⟨u, hu⟩ := hh
  have key : ∀ e, e ≠ .attributeError → nobodyExn e = false → verDecSigned c.cr c.dealer ts load m = .error e →
      authzBrowser env c cdb s now gid mc ma idt (some raw) r = (cdb, s, .raise e) := by
    intro e h1 h2 h3
    have hg : getCookieValue c.cr c.dealer raw = .error e := by
      unfold getCookieValue
      rw [hp]
      simp only [verDecContent, h3]
    unfold authzBrowser authnIn identity authenticatedAs
    simp [hcl, hs, hu, hg, h1, h2]
  constructor
  · intro mac hm hv
    exact key _ (by decide) (by decide) (by unfold verDecSigned; simp [hm, hk, hv])
  · intro hm
    exact key _ (by decide) (by decide) (by unfold verDecSigned; simp [hm])

/-- The demo provider with a cookie signed with another key, and with junk. -/
def junkBrowse (raw : Str) : AuthzAnswer :=
  (authzBrowser demoEnv demoAuthn demoDb Store.empty 1001 c!"g1" (mintIn c!"n1") (mintIn c!"n2") (.val c!"IDT") (some raw) demoUserReq).2.2

set_option maxRecDepth 32000 in
example : junkBrowse (pyJoin c!"|" [c!"1", c!"x", toyB64 c!"M"]) = .raise .verificationError ∧
    junkBrowse c!"1|x|?" = .raise .valueError ∧ junkBrowse c!"junk" = .login ∧ junkBrowse c!"a|b|c|d|e" = .login := by decide

end Verif
