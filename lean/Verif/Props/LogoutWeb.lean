import Verif.Props.LogoutMore
import Verif.Props.RegLasts
set_option linter.unusedSimpArgs false
set_option linter.unusedVariables false
/-! C156: where a logout leads to, at the level of HTTP requests. -/
namespace Verif
open Spec

namespace Spec

/-- Before request `i` the client was registered with this post-logout URI: the registration succeeded and told the client its id. -/
def LogoutRegisteredWith (cfg : ProvCfg) (ops : List HttpOp) (i : Nat) (c uri : Str) : Prop :=
  ∃ j inp n ss v rq resp l, j < i ∧ ops[j]? = some (.register inp n ss v rq) ∧
    (registrationProcess cfg.regLib cfg.regCfg (provRun cfg (ops.take j)).reg inp n ss v rq).2 = .ok resp ∧
    resp.get? c!"client_id" = some (.str c) ∧ rq.get? c!"post_logout_redirect_uris" = some (.strs l) ∧ uri ∈ l

/-- The URI (decoded) is the registered one: same address, same query, no fragment. -/
def SameLogoutUri (lib : UriLib) (registered uri : Str) : Prop :=
  lib.fragment (lib.unquote uri) = [] ∧ (lib.splitUri (lib.unquote uri)).1 = (lib.splitUri registered).1 ∧
    SameQuery (lib.splitUri (lib.unquote uri)).2 (lib.splitUri registered).2

end Spec

theorem stored_logout {lib : RegLib} {prov req c0 c' : RegRec} (h : doClientRegistration lib prov req c0 ignoredEntries = .val c')
    (hd : (req.map (·.1)).Nodup) :
    (req.get? c!"post_logout_redirect_uris" = none → c'.get? c!"post_logout_redirect_uris" = c0.get? c!"post_logout_redirect_uris") ∧
    (∀ v, req.get? c!"post_logout_redirect_uris" = some v → ∃ l, v = .strs l ∧ (∀ u ∈ l, lib.uri.fragment u = []) ∧
      c'.get? c!"post_logout_redirect_uris" = some (.uris (l.map lib.uri.splitUri))) := by
  obtain ⟨c1, c2, c3, c4, c5, h1, h2, h3, h4, h5, h6⟩ := doClientRegistration_val h
  have e : c'.get? c!"post_logout_redirect_uris" = c1.get? c!"post_logout_redirect_uris" := by
    rw [regAlgs_get _ h6 _ (by decide), regInfoUris_get _ h5 _ (by decide), regSector_get h4 _ (by decide) (by decide),
      regRequestUris_get h3 _ (by decide), regRedirect_get h2 _ (by decide)]
  rw [e]
  refine ⟨fun hn => ?_, fun v hv => ?_⟩
  · unfold regPostLogout at h1
    rw [hn] at h1
    cases h1
    unfold copyEntries
    rw [Dict.get?_update _ _ _ (nodup_filter_keys hd _), get?_filter_key req (fun x => !ignoredEntries.contains x), hn]
    simp
  · unfold regPostLogout at h1
    rw [hv] at h1
    cases v with
    | strs l =>
      simp only at h1
      split at h1
      · cases h1
      · rename_i hx
        cases h1
        refine ⟨l, rfl, fun u hu => ?_, by rw [Dict.get?_set, if_pos rfl]⟩
        apply Decidable.byContradiction
        intro hf
        exact hx (List.any_eq_true.2 ⟨u, hu, by simpa using hf⟩)
    | _ => cases h1

theorem initialRecord_logout (cfg : RegCfg) (i : RegIn) (n ss : Bool) (cid : Str) :
    (initialRecord cfg i n ss cid).get? c!"post_logout_redirect_uris" = none := by
  unfold initialRecord
  dsimp only
  cases cfg.readPath <;> cases n <;> cases ss <;> simp only [Bool.false_eq_true, if_true, if_false] <;> try split
  all_goals simp [Dict.get?_set, Dict.get?]

/-- Where the post-logout URIs in a client record come from. -/
theorem logouts_origin (cfg : ProvCfg) (hp : cfg.regLib.responseParam c!"client_id" = true) (ops : List HttpOp)
    (hd : ∀ i n ss v req, HttpOp.register i n ss v req ∈ ops → (req.map (·.1)).Nodup) (c : Str) (rec : RegRec)
    (h : (provRun cfg ops).reg.cdb.get? c = some rec) :
    cfg.clients.get? c = some rec ∨ rec.get? c!"post_logout_redirect_uris" = none ∨
    ∃ (l : List Str), rec.get? c!"post_logout_redirect_uris" = some (.uris (l.map cfg.regLib.uri.splitUri)) ∧
      ∀ u ∈ l, LogoutRegisteredWith cfg ops ops.length c u := by
  induction ops using snocInd generalizing rec with
  | nil => exact Or.inl h
  | append_singleton ops op ih =>
    rw [provRun_snoc] at h
    have old : (provRun cfg ops).reg.cdb.get? c = some rec → cfg.clients.get? c = some rec ∨ rec.get? c!"post_logout_redirect_uris" = none ∨
        ∃ (l : List Str), rec.get? c!"post_logout_redirect_uris" = some (.uris (l.map cfg.regLib.uri.splitUri)) ∧
          ∀ u ∈ l, LogoutRegisteredWith cfg (ops ++ [op]) (ops ++ [op]).length c u := by
      intro h
      rcases ih (fun i n ss v req hm => hd i n ss v req (List.mem_append_left _ hm)) rec h with h | h | ⟨l, h1, h2⟩
      · exact Or.inl h
      · exact Or.inr (Or.inl h)
      · refine Or.inr (Or.inr ⟨l, h1, fun u hu => ?_⟩)
        obtain ⟨j, inp, n, ss, v, rq, resp, l', q1, q2, q3, q4⟩ := h2 u hu
        refine ⟨j, inp, n, ss, v, rq, resp, l', by simp; omega, ?_, ?_, q4⟩
        · rw [List.getElem?_append_left q1]; exact q2
        · rw [take_lt q1]; exact q3
    by_cases hop : ∃ i n ss v req, op = .register i n ss v req
    · obtain ⟨i, n, ss, v, req, rfl⟩ := hop
      have hdr := hd i n ss v req (by simp)
      simp only [provStep] at h
      cases hpr : registrationProcess cfg.regLib cfg.regCfg (provRun cfg ops).reg i n ss v req with
      | mk s' o =>
        rw [hpr] at h
        cases o with
        | error e =>
          rcases registration_writes hpr with e' | ⟨cid, req', k1, k2, k3, k4, k5⟩
          · rw [e'] at h; exact old h
          · by_cases hc : c = cid
            · subst hc
              rw [(k5 e rfl).1] at h
              cases h
              exact Or.inr (Or.inl (initialRecord_logout _ _ _ _ _))
            · rw [k2 c hc] at h; exact old h
        | ok resp =>
          obtain ⟨cid, req', cinfo, h1, h2, h3, h4, h5, _⟩ := registration_ok hpr
          rw [h5] at h
          by_cases hc : c = cid
          · subst hc
            rw [Dict.get?_set, if_pos rfl] at h
            cases h
            obtain ⟨hd', hg⟩ := chooseId_get h2 hdr
            have hid := response_id hp hdr h2 h3 h4
            have S := stored_logout h3 hd'
            cases hr : req'.get? c!"post_logout_redirect_uris" with
            | none =>
              refine Or.inr (Or.inl ?_)
              rw [S.1 hr]
              exact initialRecord_logout _ _ _ _ _
            | some val =>
              have hrq := ((hg _ _ (by decide)).1 hr).1
              obtain ⟨l, rfl, _, hst⟩ := S.2 _ hr
              refine Or.inr (Or.inr ⟨l, hst, fun u hu => ?_⟩)
              refine ⟨ops.length, i, n, ss, v, req, resp, l, by simp, by simp, ?_, hid, hrq, hu⟩
              rw [List.take_left, hpr]
          · rw [Dict.get?_set, if_neg hc, Dict.get?_set, if_neg hc] at h
            exact old h
    · rw [provStep_reg (fun i n ss v req e => hop ⟨i, n, ss, v, req, e⟩)] at h
      exact old h

/-- What an accepted logout request was checked against. -/
theorem endSession_session {env : EndEnv} {cdb : Cdb} {s : Store} {raw : Option Str} {req : EndReq} {p : EndPayload}
    (h : endSessionEndpoint env cdb s raw req = .ok p) :
    ∃ u c g, unpackSessionKey p.sid = [u, c, g] ∧ endTarget env cdb req p.sid c = .ok p := by
  unfold endSessionEndpoint at h
  split at h
  · cases h
  · unfold endProcess at h
    split at h
    · cases h
    · split at h
      · cases h
      · rename_i sid c o hs
        split at h
        · cases h
        · split at h
          · cases h
          · obtain ⟨r, v, ts, ty, u, g, rfl, hv, hd, hu, hg⟩ := endSession_ok hs
            have : p.sid = sid := by
              unfold endTarget at h
              split at h
              · cases h; rfl
              · split at h
                · cases h
                · split at h <;> (cases h; rfl)
            rw [this]
            exact ⟨u, c, g, hu, h⟩

/-- **C156**: a logout leads only to addresses that a client gave for that purpose.  In every history: if the logout endpoint
accepts a request with a post-logout URI, then that URI (same address, same query, no fragment) was in a registration that
succeeded — of the client that the request names, or, if it names none, of the client of the session — unless that client is in the
provider's configuration. -/
theorem C156_logout_goes_to_registered_uris (cfg : ProvCfg) (env : EndEnv) (hu : env.lib = cfg.regLib.uri)
    (hp : cfg.regLib.responseParam c!"client_id" = true) (hlib : ∀ u, DistinctKeys (env.lib.splitUri u).2)
    (hconf : ∀ c r, cfg.clients.get? c = some r → ∀ p ∈ r.client.postLogoutRedirectUris, DistinctKeys p.2) (ops : List HttpOp)
    (hd : ∀ i n ss v req, HttpOp.register i n ss v req ∈ ops → (req.map (·.1)).Nodup)
    (raw : Option Str) (req : EndReq) (p : EndPayload) (uri : Str) (huri : req.postLogoutRedirectUri = some uri)
    (h : endSessionEndpoint env (provRun cfg ops).cdb (provRun cfg ops).sys.store raw req = .ok p) :
    ∃ c, (req.clientId = some c ∨ req.clientId = none ∧ ∃ u g, unpackSessionKey p.sid = [u, c, g]) ∧
      (p.redirectUri = uri ∨ ∃ st, req.state = some st ∧ p.redirectUri = uri ++ '?' :: env.lib.urlencode [(c!"state", [st])]) ∧
      ((cfg.clients.get? c).isSome = true ∨
        ∃ u, LogoutRegisteredWith cfg ops ops.length c u ∧ SameLogoutUri cfg.regLib.uri u uri) := by
  obtain ⟨u, c, g, h1, h2⟩ := endSession_session h
  have horig := logouts_origin cfg hp ops hd
  have huris : ∀ rec : RegRec, rec.client.postLogoutRedirectUris = match rec.get? c!"post_logout_redirect_uris" with
      | some (.uris l) => l
      | _ => [] := fun _ => rfl
  have hrec : ∀ c cl, (provRun cfg ops).cdb c = some cl →
      ∃ rec, (provRun cfg ops).reg.cdb.get? c = some rec ∧ cl.postLogoutRedirectUris = rec.client.postLogoutRedirectUris := by
    intro c cl hcl
    have := provRun_cdb cfg ops c
    unfold RegState.cdbFun at this
    cases hr : (provRun cfg ops).reg.cdb.get? c with
    | none => rw [hr, hcl] at this; cases this
    | some r =>
      obtain ⟨cl', e1, e2⟩ := found_as_registered hr
      rw [hcl] at e1
      cases e1
      exact ⟨r, rfl, e2.2.2.2.1.symm⟩
  have hdist : ∀ c cl, (provRun cfg ops).cdb c = some cl → ∀ p ∈ cl.postLogoutRedirectUris, DistinctKeys p.2 := by
    intro c cl hcl p hpm
    obtain ⟨rec, g1, g2⟩ := hrec c cl hcl
    rw [g2] at hpm
    rcases horig c rec g1 with h | h | ⟨l, h, _⟩
    · exact hconf c rec h p hpm
    · rw [huris, h] at hpm; cases hpm
    · rw [huris, h] at hpm
      obtain ⟨u, _, rfl⟩ := List.mem_map.1 hpm
      rw [← hu]; exact hlib u
  unfold endTarget at h2
  rw [huri] at h2
  simp only at h2
  cases hv : verifyUri env.lib (provRun cfg ops).cdb .postLogout req.clientId (some c) (some uri) with
  | error e => rw [hv] at h2; cases h2
  | ok x =>
    rw [hv] at h2
    simp only at h2
    obtain ⟨cid, cl, w1, w2, w3, w4, pre, rq, post, w5, w6, w7⟩ := (C22_accepted_iff env.lib hlib _ .postLogout _ _ uri hdist).1 hv
    refine ⟨cid, ?_, ?_, ?_⟩
    · cases hq : req.clientId with
      | some x => rw [hq] at w1; exact Or.inl w1
      | none =>
        rw [hq] at w1
        have : c = cid := Option.some.inj w1
        rw [← this]
        exact Or.inr ⟨rfl, u, g, h1⟩
    · cases hst : req.state with
      | none =>
        rw [hst] at h2
        have := Except.ok.inj h2
        exact Or.inl (by rw [← this])
      | some st =>
        rw [hst] at h2
        have := Except.ok.inj h2
        exact Or.inr ⟨st, rfl, by rw [← this]⟩
    · obtain ⟨rec, g1, g2⟩ := hrec _ _ w3
      have hm : ((env.lib.splitUri (env.lib.unquote uri)).1, rq) ∈ rec.client.postLogoutRedirectUris := by
        rw [← g2]
        show _ ∈ cl.uris .postLogout
        rw [w5]; simp
      rcases horig _ rec g1 with h | h | ⟨l, h, hreg⟩
      · exact Or.inl (by rw [h]; rfl)
      · rw [huris, h] at hm; cases hm
      · rw [huris, h] at hm
        obtain ⟨x, hx, he⟩ := List.mem_map.1 hm
        refine Or.inr ⟨x, hreg x hx, ?_⟩
        unfold SameLogoutUri
        rw [← hu]
        rw [← hu] at he
        refine ⟨w4, ?_, ?_⟩
        · rw [he]
        · rw [he]; exact w7

/-- **C156**: and those addresses work.  Say a client registers with post-logout URIs (of different addresses), and whatever requests
are made then by anybody (with the only restriction that no registration is made under an id somebody chose).  Then a logout
request with the cookie of a stored session of this client and a genuine ID token of that session is accepted with
each of these URIs. -/
theorem C156_registered_logout_uri_works (cfg : ProvCfg) (env : EndEnv) (hu : env.lib = cfg.regLib.uri)
    (hlib : ∀ u, DistinctKeys (env.lib.splitUri u).2) (hr : cfg.regLib.responseParam c!"client_id" = true)
    (hconf : ∀ c r, cfg.clients.get? c = some r → ∀ p ∈ r.client.postLogoutRedirectUris, DistinctKeys p.2)
    (past later : List HttpOp) (reg : RegIn) (req resp : RegRec) (l : List Str)
    (hd : ∀ i n ss v req', HttpOp.register i n ss v req' ∈ past ++ [.register reg true true true req] ++ later → (req'.map (·.1)).Nodup)
    (hids : [] ∉ reg.ids) (hl : req.get? c!"post_logout_redirect_uris" = some (.strs l)) (hl0 : l ≠ [] ∧ l ≠ [[]])
    (hb : (l.map (fun u => (env.lib.splitUri u).1)).Nodup)
    (h : (registrationProcess cfg.regLib cfg.regCfg (provRun cfg past).reg reg true true true req).2 = .ok resp)
    (hlater : ∀ op ∈ later, FreshIds op) :
    ∃ c, resp.get? c!"client_id" = some (.str c) ∧
    ∀ st, st = provRun cfg (past ++ [.register reg true true true req] ++ later) →
    ∀ (raw : Option Str) (sid u g : Str) (gr : Grant) (r : EndReq) (uri x hs : Str) (t : Hint),
      NamesSession env raw sid u c g → dbGet st.sys.store [u, c, g] = .ok (.grant gr) →
      (r.clientId = none ∨ r.clientId = some c) → r.postLogoutRedirectUri = some uri → x ∈ l → SameLogoutUri env.lib x uri →
      r.hint = some hs → env.unpackHint hs = some t → t.alg ∈ env.supportedAlgs → c ∈ t.aud → t.sub = gr.sub →
      (r.state = none → endSessionEndpoint env st.cdb st.sys.store raw r = .ok ⟨sid, none, uri⟩) ∧
      (∀ s, r.state = some s → endSessionEndpoint env st.cdb st.sys.store raw r =
        .ok ⟨sid, some s, uri ++ '?' :: env.lib.urlencode [(c!"state", [s])]⟩) := by
  generalize hp : registrationProcess cfg.regLib cfg.regCfg (provRun cfg past).reg reg true true true req = p at h
  obtain ⟨s', o⟩ := p
  dsimp only at h
  subst h
  have hdr := hd reg true true true req (by simp)
  obtain ⟨cid, req', cinfo, hm, hch, hdo, hcomb, hcdb, hrat, hkeys⟩ := registration_ok hp
  obtain ⟨hd', hg⟩ := chooseId_get hch hdr
  have hcid := chooseId_new hch
  have hid := response_id hr hdr hch hdo hcomb
  have hnb : ¬ Blank (.strs l) := by
    intro hx
    cases l with
    | nil => exact hl0.1 rfl
    | cons a b =>
      simp [Blank] at hx
      exact hl0.2 (by rw [hx.1, hx.2])
  obtain ⟨l', e1, _, hst⟩ := (stored_logout hdo hd').2 _ ((hg _ _ (by decide)).2 ⟨hl, hnb⟩)
  cases e1
  have hreg : (provRun cfg (past ++ [.register reg true true true req])).reg = s' := by
    rw [provRun_snoc]; simp only [provStep, hp]
  have hrec : (provRun cfg (past ++ [.register reg true true true req])).reg.cdb.get? cid = some cinfo := by
    rw [hreg, hcdb, Dict.get?_set, if_pos rfl]
  have hkeep := provRun_keeps _ later hlater hrec
  obtain ⟨cl, hcl, hsame⟩ := found_as_registered hkeep
  have hc0 : cid ≠ [] := fun e => hids (e ▸ hcid.1)
  have hpl : cl.postLogoutRedirectUris = l.map cfg.regLib.uri.splitUri := by
    rw [← hsame.2.2.2.1]
    simp only [RegRec.client, hst]
  have huris : ∀ rec : RegRec, rec.client.postLogoutRedirectUris = match rec.get? c!"post_logout_redirect_uris" with
      | some (.uris l) => l
      | _ => [] := fun _ => rfl
  refine ⟨cid, hid, ?_⟩
  rintro st rfl raw sid u g gr r uri x hs t hn hgr hc hpu hx hsl h1 h2 h3 h4 h5
  refine C142_logout_to_registered_uri_served env hlib _ ?_ _ raw sid u cid g hn hc0 gr hgr cl hcl ?_ r hc uri hpu ?_ hs t h1 h2 h3 h4 h5
  · intro c2 cl2 hc2 p hpm
    have := provRun_cdb cfg (past ++ [.register reg true true true req] ++ later) c2
    unfold RegState.cdbFun at this
    cases hrr : (provRun cfg (past ++ [.register reg true true true req] ++ later)).reg.cdb.get? c2 with
    | none => rw [hrr, hc2] at this; cases this
    | some r2 =>
      obtain ⟨cl', e1, e2⟩ := found_as_registered hrr
      rw [hc2] at e1
      cases e1
      rw [← e2.2.2.2.1] at hpm
      rcases logouts_origin cfg hr _ hd c2 r2 hrr with h | h | ⟨l2, h, _⟩
      · exact hconf c2 r2 h p hpm
      · rw [huris, h] at hpm; cases hpm
      · rw [huris, h] at hpm
        obtain ⟨y, _, rfl⟩ := List.mem_map.1 hpm
        rw [← hu]; exact hlib y
  · rw [hpl, List.map_map, ← hu]; exact hb
  · obtain ⟨s1, s2, s3⟩ := hsl
    refine ⟨s1, (env.lib.splitUri x).2, ?_, s3⟩
    rw [hpl, s2, ← hu]
    exact List.mem_map.2 ⟨x, hx, rfl⟩

/-- Registration with a post-logout URI, and a login. -/
def outRegReq : RegRec := webReg ++ [(c!"post_logout_redirect_uris", .strs [c!"https://rp/out", c!"https://rp/bye?a=1"])]

def outWebOps : List HttpOp :=
  [.register webRegIn true true true outRegReq,
   .authorize 1000 c!"g1" (mintIn c!"n1") (mintIn c!"n2") (.val c!"IDT") webCookie webAreq]

set_option maxRecDepth 32000 in
/-- C156: the provider accepts the registered addresses, and no others. -/
example : (∀ i n ss v req, HttpOp.register i n ss v req ∈ outWebOps → (req.map (·.1)).Nodup) ∧
    endEnv.lib = webCfg.regLib.uri ∧ ([c!"https://rp/out", c!"https://rp/bye?a=1"].map (fun u => (endEnv.lib.splitUri u).1)).Nodup ∧
    endSessionEndpoint endEnv (provRun webCfg outWebOps).cdb (provRun webCfg outWebOps).sys.store (some endCookie)
      { hint := some c!"H", postLogoutRedirectUri := some c!"https://rp/bye?a=1" } =
      .ok ⟨c!"diana;;c1;;g1", none, c!"https://rp/bye?a=1"⟩ ∧
    (endSessionEndpoint endEnv (provRun webCfg outWebOps).cdb (provRun webCfg outWebOps).sys.store (some endCookie)
      { hint := some c!"H", postLogoutRedirectUri := some c!"https://rp/bye" }).toOption = none ∧
    (endSessionEndpoint endEnv (provRun webCfg outWebOps).cdb (provRun webCfg outWebOps).sys.store (some endCookie)
      { hint := some c!"H", postLogoutRedirectUri := some c!"https://rp/cb" }).toOption = none := by
  refine ⟨?_, rfl, by decide, by decide, by decide, by decide⟩
  intro i n ss v req hm
  simp only [outWebOps, List.mem_cons, List.not_mem_nil, or_false, HttpOp.register.injEq, reduceCtorEq] at hm
  obtain ⟨-, -, -, -, rfl⟩ := hm
  decide

end Verif
