import Verif.Props.RegistrationPrefs
import Verif.Props.ProviderUri
import Verif.Lemmas.WebFlow
import Verif.Lemmas.WebFrame
import Verif.Props.ProviderDemo
/-! A registration lasts: C153. -/
namespace Verif
open Spec
set_option linter.unusedVariables false

/-- Two client records agree in everything except the claims configured for the client. -/
def SameRegistration (x y : Client) : Prop :=
  x.clientSecret = y.clientSecret ∧ x.clientSecretExpiresAt = y.clientSecretExpiresAt ∧ x.redirectUris = y.redirectUris ∧
  x.postLogoutRedirectUris = y.postLogoutRedirectUris ∧ x.responseTypes = y.responseTypes ∧ x.allowedScopes = y.allowedScopes ∧
  x.requestUris = y.requestUris ∧ x.tokenUsageRules = y.tokenUsageRules ∧ x.subjectType = y.subjectType ∧
  x.sectorIdentifierUri = y.sectorIdentifierUri ∧ x.backchannelLogoutUri = y.backchannelLogoutUri ∧
  x.frontchannelLogoutUri = y.frontchannelLogoutUri ∧
  x.frontchannelLogoutSessionRequired = y.frontchannelLogoutSessionRequired ∧ x.algs = y.algs

theorem sameRegistration_of {x y : Client} (h : { x with claims := [] } = { y with claims := [] }) : SameRegistration x y := by
  simp only [Client.mk.injEq] at h
  unfold SameRegistration
  exact ⟨h.2.2.2.2.2.1, h.2.2.2.2.2.2.1, h.1, h.2.1, h.2.2.1, h.2.2.2.1, h.2.2.2.2.1, h.2.2.2.2.2.2.2.1, h.2.2.2.2.2.2.2.2.2.1,
    h.2.2.2.2.2.2.2.2.2.2.1, h.2.2.2.2.2.2.2.2.2.2.2.1, h.2.2.2.2.2.2.2.2.2.2.2.2.1, h.2.2.2.2.2.2.2.2.2.2.2.2.2.1,
    h.2.2.2.2.2.2.2.2.2.2.2.2.2.2⟩

/-- What the endpoints find for a client: what the registration wrote, but for the claims. -/
theorem found_as_registered {cfg : ProvCfg} {ops : List HttpOp} {c : Str} {r : RegRec} (hr : (provRun cfg ops).reg.cdb.get? c = some r) :
    ∃ cl, (provRun cfg ops).cdb c = some cl ∧ SameRegistration (RegRec.client r) cl := by
  have := provRun_cdb cfg ops c
  unfold RegState.cdbFun at this
  rw [hr] at this
  cases hc : (provRun cfg ops).cdb c with
  | none => rw [hc] at this; cases this
  | some y =>
    rw [hc] at this
    simp only [Option.map_some, Option.some.injEq] at this
    exact ⟨y, rfl, sameRegistration_of this⟩

/-- The id in a registration response, and the record behind it. -/
theorem registered_record {lib : RegLib} {cfg : RegCfg} {s s' : RegState} {i : RegIn} {ss v : Bool} {req resp : RegRec}
    (hd : (req.map (·.1)).Nodup) (hr : lib.responseParam c!"client_id" = true)
    (h : registrationProcess lib cfg s i true ss v req = (s', .ok resp)) :
    ∃ c r, resp.get? c!"client_id" = some (.str c) ∧ c ∈ i.ids ∧ s.cdb.get? c = none ∧ s'.cdb.get? c = some r ∧
      (req.get? c!"client_secret" = none → r.get? c!"client_secret" = (initialRecord cfg i true ss c).get? c!"client_secret") ∧
      (req.get? c!"client_secret_expires_at" = none →
        r.get? c!"client_secret_expires_at" = (initialRecord cfg i true ss c).get? c!"client_secret_expires_at") := by
  obtain ⟨cid, req', cinfo, hm, hch, hdo, hcomb, hcdb, hrat, hkeys⟩ := registration_ok h
  obtain ⟨hd', hg⟩ := chooseId_get hch hd
  have hcid := chooseId_new hch
  have hnone : ∀ k, k ≠ c!"client_id" → req.get? k = none → req'.get? k = none := by
    intro k hk hn
    cases hx : req'.get? k with
    | none => rfl
    | some w => rw [hg k w hk, hn] at hx; cases hx.1
  have hid' : req'.get? c!"client_id" = none := by
    rw [hcid.2.2, get?_filter_key (rmBlanks req) (fun x => decide (x ≠ c!"client_id"))]
    simp
  refine ⟨cid, cinfo, ?_, hcid.1, hcid.2.1, by rw [hcdb, Dict.get?_set, if_pos rfl], fun hn => ?_, fun hn => ?_⟩
  · rw [combUri_id hcomb, get?_filter_key cinfo lib.responseParam, if_pos hr, doClientRegistration_get hd' hdo _ (by decide), hid']
    exact initialRecord_id cfg i true ss cid
  · rw [doClientRegistration_get hd' hdo _ (by decide), hnone _ (by decide) hn]
  · rw [doClientRegistration_get hd' hdo _ (by decide), hnone _ (by decide) hn]

/-- **C153** A registration lasts.  After a client has registered, and whatever requests are made then by anybody (with the only
restriction that no registration is made under an id somebody chose), the provider finds for this client id what it registered
- secret, expiry, addresses, response types, scopes, subject type -; no other client gets the same id; until its expiry
the secret from the registration response authenticates the client; and only that secret does. -/
theorem C153_registration_lasts (cfg : ProvCfg) (past : List HttpOp) (reg : RegIn) (req resp : RegRec) (hd : (req.map (·.1)).Nodup)
    (hids : [] ∉ reg.ids) (hr : cfg.regLib.responseParam c!"client_id" = true)
    (hns : req.get? c!"client_secret" = none) (hne : req.get? c!"client_secret_expires_at" = none)
    (h : (registrationProcess cfg.regLib cfg.regCfg (provRun cfg past).reg reg true true true req).2 = .ok resp) :
    ∃ c cl, resp.get? c!"client_id" = some (.str c) ∧
      (provRun cfg (past ++ [.register reg true true true req])).cdb c = some cl ∧
    ∀ later : List HttpOp, (∀ op ∈ later, FreshIds op) → ∀ now st, now = past ++ [.register reg true true true req] ++ later →
      st = provRun cfg now →
      (∃ cl', st.cdb c = some cl' ∧ SameRegistration cl cl') ∧
      (∀ reg' ss v req' resp', (req'.map (·.1)).Nodup →
        (registrationProcess cfg.regLib cfg.regCfg st.reg reg' true ss v req').2 = .ok resp' → resp'.get? c!"client_id" ≠ some (.str c)) ∧
      (∀ t targets ft jtis, (cfg.regCfg.secretExpires = false ∨ t ≤ reg.now + cfg.regCfg.secretExpiresIn) →
        ∃ i, clientAuthentication cfg.lib st.cdb t [some .clientSecretBasic, some .clientSecretPost] targets ft jtis
          { clientId := some c, clientSecret := some reg.secret } = (jtis, .ok (some i)) ∧ i.clientId = some c) ∧
      (∀ t methods targets ft jtis j r o, SecretOnly methods → methods ≠ [] →
        clientAuthentication cfg.lib st.cdb t methods targets ft jtis r = (j, .ok o) → requestClient r o = some c →
        Presents cfg.lib r c reg.secret ∧ (cfg.regCfg.secretEnd reg.now = 0 ∨ t ≤ cfg.regCfg.secretEnd reg.now)) := by
  generalize hp : registrationProcess cfg.regLib cfg.regCfg (provRun cfg past).reg reg true true true req = p at h
  obtain ⟨s', o⟩ := p
  dsimp only at h
  subst h
  obtain ⟨c, r, h1, h2, h3, h4, h5, h6⟩ := registered_record hd hr hp
  have hc0 : c ≠ [] := fun e => hids (e ▸ h2)
  have hreg : (provRun cfg (past ++ [.register reg true true true req])).reg = s' := by
    rw [provRun_snoc]; simp only [provStep, hp]
  have hinit := C43_failed_registration_leaves_client.initialRecord_secret cfg.regCfg reg c
  have hrs : (RegRec.client r).clientSecret = some reg.secret := by
    simp only [RegRec.client, h5 hns, hinit.1]
  have hre : (RegRec.client r).clientSecretExpiresAt = cfg.regCfg.secretEnd reg.now := by
    simp only [RegRec.client, h6 hne, hinit.2]
    by_cases hz : cfg.regCfg.secretEnd reg.now = 0 <;> simp [hz]
  have hrec : (provRun cfg (past ++ [.register reg true true true req])).reg.cdb.get? c = some r := by rw [hreg]; exact h4
  obtain ⟨cl, hcl, hsame⟩ := found_as_registered hrec
  refine ⟨c, cl, h1, hcl, ?_⟩
  rintro later hlater now st rfl rfl
  have hkeep := provRun_keeps _ later hlater hrec
  obtain ⟨cl', hcl', hsame'⟩ := found_as_registered hkeep
  have hs' : cl'.clientSecret = some reg.secret := by rw [← hsame'.1]; exact hrs
  have he' : cl'.clientSecretExpiresAt = cfg.regCfg.secretEnd reg.now := by rw [← hsame'.2.1]; exact hre
  refine ⟨⟨cl', hcl', ?_⟩, ?_, ?_, ?_⟩
  · unfold SameRegistration at *
    simp only [← hsame, ← hsame', and_self]
  · intro reg' ss v req' resp' hd' hx hid
    generalize hq : registrationProcess cfg.regLib cfg.regCfg _ reg' true ss v req' = q at hx
    obtain ⟨s2, o2⟩ := q
    dsimp only at hx
    subst hx
    obtain ⟨c2, _, k1, _, k3, _⟩ := registered_record hd' hr hq
    rw [hid] at k1
    cases k1
    rw [hkeep] at k3
    cases k3
  · intro t targets ft jtis ht
    refine C40_secret_accepted cfg.lib _ t targets ft jtis _ c reg.secret cl' hc0 hcl' hs' ?_ (.inr ⟨rfl, rfl⟩) (.inl rfl)
    unfold NotExpired
    rw [he']
    exact RegCfg.secretEnd_ok ht
  · intro t methods targets ft jtis j r' o hm hmn hca hrc
    obtain ⟨c2, cl2, s2, k1, k2, k3, k4, k5⟩ := C40_request_client cfg.lib _ t methods targets ft jtis j r' o hm hmn hca
    rw [hrc] at k1
    cases k1
    rw [hcl'] at k2
    cases k2
    rw [hs'] at k3
    cases k3
    refine ⟨k4, ?_⟩
    unfold NotExpired at k5
    rw [he'] at k5
    exact k5

/-- The hypotheses are met: the demo client's registration at the empty provider. -/
example : (webReg.map (·.1)).Nodup ∧ [] ∉ webRegIn.ids ∧ webCfg.regLib.responseParam c!"client_id" = true ∧
    webReg.get? c!"client_secret" = none ∧ webReg.get? c!"client_secret_expires_at" = none ∧
    ∃ resp, (registrationProcess webCfg.regLib webCfg.regCfg (provRun webCfg []).reg webRegIn true true true webReg).2 = .ok resp ∧
      resp.get? c!"client_id" = some (.str c!"c1") :=
  ⟨by decide, by decide, by decide, by decide, by decide, _, rfl, by decide⟩

/-- ... and what may happen later is not empty: the rest of the demo history. -/
example : ∀ op ∈ webOps.drop 1, FreshIds op := by
  simp [webOps, FreshIds]

end Verif
