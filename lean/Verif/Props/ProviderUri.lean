import Verif.Props.Provider
import Verif.Props.AuthzResponse
import Verif.Props.AuthzParse
set_option linter.unusedSimpArgs false
set_option linter.unusedVariables false
/-! Authorization responses on the web, and where they are sent: C123, C124. -/
namespace Verif
open Spec

/-- A reply with a response, taken apart. -/
theorem authorizeEndpoint_reply {cfg : ProvCfg} {st : Prov} {now : Int} {gid : Str} {mc ma : MintIn} {idt : Out Str} {raw : Option Str}
    {req : UserReq} {r : AuthzReply} (h : (authorizeEndpoint cfg st now gid mc ma idt raw req).2.2.2 = .reply r) :
    ∃ q a, Parsed cfg st req.areq q ∧ authnIn cfg.sys.env cfg.acfg now raw { req with areq := q } = .ok a ∧
      sysOps cfg st (.authorize now gid mc ma idt raw req) = [.authorize st.cdb now gid mc ma idt a q] ∧
      (authzProcess cfg.sys.env st.cdb st.sys.store now gid mc ma idt a q).2.2 = .reply r := by
  unfold authorizeEndpoint at h
  cases hp : authzParse cfg.sys.env st.cdb st.par req.areq with
  | mk par o =>
    rw [hp] at h
    cases o with
    | errMsg e => cases h
    | raise e => cases h
    | val q =>
      dsimp only at h
      unfold authzBrowser at h
      cases hc : st.cdb q.clientId with
      | none => rw [hc] at h; cases h
      | some cl =>
        rw [hc] at h
        dsimp only at h
        split at h
        · cases h
        · cases ha : authnIn cfg.sys.env cfg.acfg now raw { req with areq := q } with
          | error e => rw [ha] at h; cases h
          | ok a =>
            rw [ha] at h
            refine ⟨q, a, by unfold Parsed; rw [hp], ha, ?_, h⟩
            simp only [sysOps, hp, hc, ha]

/-- C123: an authorization response with a code or tokens is given only to a browser that shows who its user is; it is for
the client of the request, and the code and access token belong to a session of this user at this client that goes back to a
login on the web. -/
theorem C123_response_on_the_web (cfg : ProvCfg) (L : TokenCryptoLaws cfg.sys.env.cr) (ops : List HttpOp) (hw : WebRun cfg ops)
    (i : Nat) (now : Int) (gid : Str) (mc ma : MintIn) (idt : Out Str) (raw : Option Str) (req : UserReq)
    (ho : ops[i]? = some (.authorize now gid mc ma idt raw req)) (r : AuthzReply) (ra : RespArgs)
    (h : (authorizeEndpoint cfg (provRun cfg (ops.take i)) now gid mc ma idt raw req).2.2.2 = .reply r) (hr : r.content = .val ra) :
    ∃ u q sid sub ev g, Parsed cfg (provRun cfg (ops.take i)) req.areq q ∧
      (ShowsLogin cfg raw u ∨ ∃ s, ShowsSession cfg raw u (some s)) ∧ WebLogin cfg ops (i + 1) sid u q.clientId sub ev ∧
      getGrant (provRun cfg (ops.take (i + 1))).sys.store sid = .ok g ∧
      ∀ w, (ra.code = some w ∨ ra.accessToken = some w) → (∃ t ∈ g.issuedToken, t.value = w) ∧
        ∀ later x, cfg.sys.env.th.sid cfg.sys.env.cr later w = .ok x → x = sid := by
  obtain ⟨q, a, h1, h2, h3, h4⟩ := authorizeEndpoint_reply h
  obtain ⟨hf, hn, hc⟩ := expand_ok (hw.take (i + 1))
  have e : expand cfg (ops.take (i + 1)) = expand cfg (ops.take i) ++
      [.authorize (provRun cfg (ops.take i)).cdb now gid mc ma idt a q] := by
    rw [take_snoc ho, expand_snoc, h3]
  rw [provRun_sys] at h4
  have hat : (expand cfg (ops.take (i + 1)))[(expand cfg (ops.take i)).length]? =
      some (.authorize (provRun cfg (ops.take i)).cdb now gid mc ma idt a q) := by
    rw [e, List.getElem?_append_right (Nat.le_refl _)]; simp
  obtain ⟨u, sid, sub, ev, g, k1, k2, k3, k4⟩ := C118_response_for_the_user cfg.sys L hw.blank _ hf hn hc _ _ _ _ _ _ _ _ _ hat r ra
    (by rw [e, List.take_left]; exact h4) hr
  have hlen : (expand cfg (ops.take i)).length + 1 = (expand cfg (ops.take (i + 1))).length := by rw [e]; simp
  rw [hlen, List.take_length, ← provRun_sys] at k3
  obtain ⟨-, -, hl, hs⟩ := authnIn_shows h2
  refine ⟨u, q, sid, sub, ev, g, h1, ?_, (webLogin_of k2).of_take, k3, k4⟩
  rcases k1 with k1 | ⟨x, k1⟩
  · exact Or.inl (hl u k1)
  · exact Or.inr ⟨x, hs u _ k1⟩

/-! ### Redirect URIs -/

theorem no_redirects {lib : RegLib} {prov req c0 c' : RegRec} (h : doClientRegistration lib prov req c0 ignoredEntries = .val c')
    (hl : req.get? c!"redirect_uris" = none) (hd : (req.map (·.1)).Nodup) : c'.get? c!"redirect_uris" = c0.get? c!"redirect_uris" := by
  obtain ⟨c1, c2, c3, c4, c5, h1, h2, h3, h4, h5, h6⟩ := doClientRegistration_val h
  have e : c'.get? c!"redirect_uris" = c2.get? c!"redirect_uris" := by
    rw [regAlgs_get _ h6 _ (by decide), regInfoUris_get _ h5 _ (by decide), regSector_get h4 _ (by decide) (by decide),
      regRequestUris_get h3 _ (by decide)]
  rw [e]
  unfold regRedirect at h2
  rw [hl] at h2
  cases h2
  rw [regPostLogout_get h1 _ (by decide)]
  unfold copyEntries
  rw [Dict.get?_update _ _ _ (nodup_filter_keys hd _), get?_filter_key req (fun x => !ignoredEntries.contains x)]
  rw [if_neg (by decide)]

theorem initialRecord_redirects (cfg : RegCfg) (i : RegIn) (n ss : Bool) (cid : Str) :
    (initialRecord cfg i n ss cid).get? c!"redirect_uris" = none := by
  unfold initialRecord
  dsimp only
  cases cfg.readPath <;> cases n <;> cases ss <;> simp only [Bool.false_eq_true, if_true, if_false] <;> try split
  all_goals simp [Dict.get?_set, Dict.get?]

theorem initialRecord_id (cfg : RegCfg) (i : RegIn) (n ss : Bool) (cid : Str) :
    (initialRecord cfg i n ss cid).get? c!"client_id" = some (.str cid) := by
  unfold initialRecord
  dsimp only
  cases cfg.readPath <;> cases n <;> cases ss <;> simp only [Bool.false_eq_true, if_true, if_false] <;> try split
  all_goals simp [Dict.get?_set, Dict.get?]

theorem combOne_get (lib : RegLib) (args : RegRec) (k k' : Str) (hk : k' ≠ k) : (combOne lib args k).get? k' = args.get? k' := by
  unfold combOne
  split
  · rw [Dict.get?_set, if_neg hk]
  · rfl

theorem combUri_id {lib : RegLib} {args resp : RegRec} (h : combUri lib args = some resp) :
    resp.get? c!"client_id" = args.get? c!"client_id" := by
  have e : (combOne lib (combOne lib args c!"redirect_uris") c!"post_logout_redirect_uris").get? c!"client_id" = args.get? c!"client_id" := by
    rw [combOne_get _ _ _ _ (by decide), combOne_get _ _ _ _ (by decide)]
  unfold combUri at h
  dsimp only at h
  split at h
  · split at h
    · cases h
      rw [Dict.get?_set, if_neg (by decide), e]
    · cases h
  · cases h
    exact e

/-- The client id that a successful registration tells. -/
theorem response_id {lib : RegLib} {cfg : RegCfg} {s : RegState} {i : RegIn} {n ss : Bool} {req resp req' cinfo : RegRec} {cid : Str}
    (hp : lib.responseParam c!"client_id" = true) (hd : (req.map (·.1)).Nodup)
    (h2 : chooseId s i n (rmBlanks req) = some (.ok (cid, req')))
    (h3 : doClientRegistration lib cfg.prov req' (initialRecord cfg i n ss cid) ignoredEntries = .val cinfo)
    (h4 : combUri lib (cinfo.filter fun kv => lib.responseParam kv.1) = some resp) : resp.get? c!"client_id" = some (.str cid) := by
  obtain ⟨hd', _⟩ := chooseId_get h2 hd
  rw [combUri_id h4, get?_filter_key, if_pos hp, doClientRegistration_get hd' h3 _ (by decide)]
  cases n with
  | true =>
    obtain ⟨_, _, rfl⟩ := chooseId_new h2
    rw [get?_filter_key (rmBlanks req) (fun k => decide (k ≠ c!"client_id")), if_neg (by decide)]
    exact initialRecord_id _ _ _ _ _
  | false =>
    unfold chooseId at h2
    simp only [Bool.false_eq_true, if_false] at h2
    split at h2
    · rename_i x xs hx
      cases h2
      rw [hx]
    · cases h2

theorem take_lt {α : Type} {l : List α} {x : α} {j : Nat} (hj : j < l.length) : (l ++ [x]).take j = l.take j :=
  List.take_append_of_le_length (by omega)

/-- Where the redirect URIs in a client record come from. -/
theorem redirects_origin (cfg : ProvCfg) (hp : cfg.regLib.responseParam c!"client_id" = true) (ops : List HttpOp)
    (hd : ∀ i n ss v req, HttpOp.register i n ss v req ∈ ops → (req.map (·.1)).Nodup) (c : Str) (rec : RegRec)
    (h : (provRun cfg ops).reg.cdb.get? c = some rec) :
    cfg.clients.get? c = some rec ∨ rec.get? c!"redirect_uris" = none ∨
    ∃ (rq : RegRec) (l : List Str), rec.get? c!"redirect_uris" = some (.uris (l.map (storedRedirect cfg.regLib rq))) ∧
      ∀ u ∈ l, RegisteredWith cfg ops ops.length c rq u := by
  induction ops using snocInd generalizing rec with
  | nil => exact Or.inl h
  | append_singleton ops op ih =>
    rw [provRun_snoc] at h
    have old : (provRun cfg ops).reg.cdb.get? c = some rec → cfg.clients.get? c = some rec ∨ rec.get? c!"redirect_uris" = none ∨
        ∃ (rq : RegRec) (l : List Str), rec.get? c!"redirect_uris" = some (.uris (l.map (storedRedirect cfg.regLib rq))) ∧
          ∀ u ∈ l, RegisteredWith cfg (ops ++ [op]) (ops ++ [op]).length c rq u := by
      intro h
      rcases ih (fun i n ss v req hm => hd i n ss v req (List.mem_append_left _ hm)) rec h with h | h | ⟨rq, l, h1, h2⟩
      · exact Or.inl h
      · exact Or.inr (Or.inl h)
      · refine Or.inr (Or.inr ⟨rq, l, h1, fun u hu => ?_⟩)
        obtain ⟨j, inp, n, ss, v, resp, l', q1, q2, q3, q4⟩ := h2 u hu
        refine ⟨j, inp, n, ss, v, resp, l', by simp; omega, ?_, ?_, q4⟩
        · rw [List.getElem?_append_left q1]; exact q2
        · rw [take_lt q1]; exact q3
    by_cases hop : ∃ i n ss v req, op = .register i n ss v req
    · obtain ⟨i, n, ss, v, req, rfl⟩ := hop
      have hdr := hd i n ss v req (by simp)
      simp only [provStep] at h
      cases hpr : registrationProcess cfg.regLib cfg.regCfg (provRun cfg ops).reg i n ss v req with
      | mk s' o =>
        rw [hpr] at h
        cases o with
        | error e =>
          rcases registration_writes hpr with e' | ⟨cid, req', k1, k2, k3, k4, k5⟩
          · rw [e'] at h; exact old h
          · by_cases hc : c = cid
            · subst hc
              rw [(k5 e rfl).1] at h
              cases h
              exact Or.inr (Or.inl (initialRecord_redirects _ _ _ _ _))
            · rw [k2 c hc] at h; exact old h
        | ok resp =>
          obtain ⟨cid, req', cinfo, h1, h2, h3, h4, h5, _⟩ := registration_ok hpr
          rw [h5] at h
          by_cases hc : c = cid
          · subst hc
            rw [Dict.get?_set, if_pos rfl] at h
            cases h
            obtain ⟨hd', hg⟩ := chooseId_get h2 hdr
            have hid := response_id hp hdr h2 h3 h4
            cases hr : req'.get? c!"redirect_uris" with
            | none =>
              refine Or.inr (Or.inl ?_)
              rw [no_redirects h3 hr hd']
              exact initialRecord_redirects _ _ _ _ _
            | some val =>
              have hrq := ((hg _ _ (by decide)).1 hr).1
              cases val with
              | strs l =>
                refine Or.inr (Or.inr ⟨req, l, ?_, fun u hu => ?_⟩)
                · rw [(stored_redirects h3 hr).2]
                  have happ : ∀ u, storedRedirect cfg.regLib req' u = storedRedirect cfg.regLib req u := by
                    intro u
                    unfold storedRedirect
                    have : appType req' = .str c!"native" ↔ appType req = .str c!"native" := by
                      have nb : ¬ Blank (.str c!"native") := by simp [Blank]
                      have x1 : ∀ r : RegRec, appType r = .str c!"native" ↔ r.get? c!"application_type" = some (.str c!"native") := by
                        intro r
                        unfold appType
                        cases r.get? c!"application_type" with
                        | none => simp
                        | some y => simp
                      rw [x1, x1, hg _ _ (by decide)]
                      exact ⟨fun h => h.1, fun h => ⟨h, nb⟩⟩
                    simp only [this]
                  congr 2
                  exact List.map_congr_left fun u _ => happ u
                · refine ⟨ops.length, i, n, ss, v, resp, l, by simp, by simp, ?_, hid, hrq, hu⟩
                  rw [List.take_left, hpr]
              | _ =>
                exfalso
                obtain ⟨c1, c2, c3, c4, c5, g1, g2, g3, g4, g5, g6⟩ := doClientRegistration_val h3
                unfold regRedirect at g2
                rw [hr] at g2
                cases g2
          · rw [Dict.get?_set, if_neg hc, Dict.get?_set, if_neg hc] at h
            exact old h
    · rw [provStep_reg (fun i n ss v req e => hop ⟨i, n, ss, v, req, e⟩)] at h
      exact old h

theorem Spec.RegisteredWith.of_take {cfg : ProvCfg} {ops : List HttpOp} {i : Nat} {c : Str} {rq : RegRec} {u : Str}
    (h : RegisteredWith cfg (ops.take i) (ops.take i).length c rq u) : RegisteredWith cfg ops i c rq u := by
  obtain ⟨j, inp, n, ss, v, resp, l', q1, q2, q3, q4⟩ := h
  have hj : j < i ∧ j < ops.length := by simp at q1; omega
  have ht : (ops.take i).take j = ops.take j := by rw [List.take_take]; congr 1; omega
  rw [List.getElem?_take_of_lt hj.1] at q2
  rw [ht] at q3
  exact ⟨j, inp, n, ss, v, resp, l', hj.1, q2, q3, q4⟩

/-- C124: an authorization response with a code or tokens for a client that is not in the configuration is sent only to a URI
that the client gave in a registration that succeeded: same address, same query, no fragment. -/
theorem C124_codes_go_to_registered_uris (cfg : ProvCfg) (hu : cfg.regLib.uri = cfg.sys.env.lib)
    (hp : cfg.regLib.responseParam c!"client_id" = true) (hlib : ∀ u, DistinctKeys (cfg.sys.env.lib.splitUri u).2)
    (hconf : ∀ c r, cfg.clients.get? c = some r → ∀ p ∈ r.client.redirectUris, DistinctKeys p.2) (ops : List HttpOp)
    (hd : ∀ i n ss v req, HttpOp.register i n ss v req ∈ ops → (req.map (·.1)).Nodup)
    (i : Nat) (now : Int) (gid : Str) (mc ma : MintIn) (idt : Out Str) (raw : Option Str) (req : UserReq) (r : AuthzReply) (ra : RespArgs)
    (h : (authorizeEndpoint cfg (provRun cfg (ops.take i)) now gid mc ma idt raw req).2.2.2 = .reply r) (hr : r.content = .val ra) :
    ∃ q uri, Parsed cfg (provRun cfg (ops.take i)) req.areq q ∧ r.uri = some uri ∧
      ((cfg.clients.get? q.clientId).isSome = true ∨
        ∃ rq u, RegisteredWith cfg ops i q.clientId rq u ∧ IsRegistered cfg.regLib rq u uri) := by
  obtain ⟨q, a, h1, h2, h3, h4⟩ := authorizeEndpoint_reply h
  obtain ⟨s', sid, u, k1, k2, k3⟩ := authzProcess_reply h4
  have hd' : ∀ i' n ss v req, HttpOp.register i' n ss v req ∈ ops.take i → (req.map (·.1)).Nodup :=
    fun i' n ss v req hm => hd i' n ss v req (List.mem_of_mem_take hm)
  have horig := redirects_origin cfg hp (ops.take i) hd'
  have hsame := (provRun_cdb cfg (ops.take i)).trans
    (authzPart2_same cfg.sys.env (provRun cfg (ops.take i)).cdb s' now mc ma idt q sid)
  -- the redirect URIs of a client, as the endpoint has them, are those of its record
  have hrec : ∀ c cl, (authzPart2 cfg.sys.env (provRun cfg (ops.take i)).cdb s' now mc ma idt q sid).1 c = some cl →
      ∃ rec, (provRun cfg (ops.take i)).reg.cdb.get? c = some rec ∧ cl.redirectUris = rec.client.redirectUris := by
    intro c cl hcl
    rcases hsame.client c with ⟨_, e⟩ | ⟨x, y, e1, e2, _, e4, _⟩
    · rw [hcl] at e; cases e
    · rw [hcl] at e2
      cases e2
      unfold RegState.cdbFun at e1
      obtain ⟨rec, g1, g2⟩ := Option.map_eq_some_iff.1 e1
      exact ⟨rec, g1, by rw [← e4, ← g2]⟩
  have huris : ∀ rec : RegRec, rec.client.redirectUris = match rec.get? c!"redirect_uris" with
      | some (.uris l) => l
      | _ => [] := fun _ => rfl
  have hdist : ∀ c cl, (authzPart2 cfg.sys.env (provRun cfg (ops.take i)).cdb s' now mc ma idt q sid).1 c = some cl →
      ∀ p ∈ cl.redirectUris, DistinctKeys p.2 := by
    intro c cl hcl p hpm
    obtain ⟨rec, g1, g2⟩ := hrec c cl hcl
    rw [g2] at hpm
    rcases horig c rec g1 with h | h | ⟨rq, l, h, _⟩
    · exact hconf c rec h p hpm
    · rw [huris, h] at hpm; cases hpm
    · rw [huris, h] at hpm
      obtain ⟨u, _, rfl⟩ := List.mem_map.1 hpm
      unfold storedRedirect
      split
      · exact List.nodup_nil
      · rw [hu]; exact hlib u
  obtain ⟨uri, huri⟩ : ∃ uri, q.redirectUri = some uri := by
    unfold Parsed at h1
    cases hpp : authzParse cfg.sys.env (provRun cfg (ops.take i)).cdb (provRun cfg (ops.take i)).par req.areq with
    | mk par o =>
      rw [hpp] at h1
      dsimp only at h1
      subst h1
      obtain ⟨p1, p2, q0, q', u0, _, _, _, e1, _, e2⟩ := authzParse_val hpp
      rcases e2 with ⟨_, rfl⟩ | ⟨p, _, e2⟩
      · exact ⟨u0, by rw [e1]⟩
      · obtain ⟨e3, _⟩ := pkceParse_val e2
        exact ⟨u0, by rw [e3, e1]⟩
  rw [k2] at hr
  obtain ⟨w1, cl, w2, w3, rqy, w4, w5⟩ := C22_response_goes_to_verified_uri cfg.sys.env hlib _ _ _ _ _ _ q sid ra uri huri hdist hr
  refine ⟨q, uri, h1, by rw [k2]; exact w1, ?_⟩
  obtain ⟨rec, g1, g2⟩ := hrec _ _ w2
  rw [g2] at w4
  rcases horig _ rec g1 with h | h | ⟨rq, l, h, hreg⟩
  · exact Or.inl (by rw [h]; rfl)
  · rw [huris, h] at w4; cases w4
  · rw [huris, h] at w4
    obtain ⟨u, hul, he⟩ := List.mem_map.1 w4
    refine Or.inr ⟨rq, u, (hreg u hul).of_take, ?_⟩
    unfold IsRegistered
    rw [hu]
    refine ⟨w3, ?_⟩
    unfold storedRedirect at he
    split at he
    · rename_i hnat
      rw [if_pos hnat]
      simp only [Prod.mk.injEq] at he
      rw [← he.2] at w5
      exact ⟨he.1.symm, w5⟩
    · rename_i hnat
      rw [if_neg hnat, ← hu]
      rw [he, hu]
      exact ⟨rfl, w5⟩

end Verif
