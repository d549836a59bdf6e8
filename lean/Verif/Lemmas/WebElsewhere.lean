import Verif.Lemmas.ClientFrame
set_option linter.unusedSimpArgs false
set_option linter.unusedVariables false
/-! Requests of other users and at other clients leave the sessions of a user at a client as they are. -/
namespace Verif
open Spec

theorem During.nil {cfg : ProvCfg} {h : List HttpOp} {R : Prov → HttpOp → Prop} : During cfg h [] R := by
  intro pre op post e
  cases pre <;> cases e

theorem During.init {cfg : ProvCfg} {h m : List HttpOp} {op : HttpOp} {R : Prov → HttpOp → Prop} (H : During cfg h (m ++ [op]) R) :
    During cfg h m R := fun pre o post e => H pre o (post ++ [op]) (by rw [e]; simp)

theorem During.last {cfg : ProvCfg} {h m : List HttpOp} {op : HttpOp} {R : Prov → HttpOp → Prop} (H : During cfg h (m ++ [op]) R) :
    R (provRun cfg (h ++ m)) op := H m op [] rfl

theorem During.mono {cfg : ProvCfg} {h m : List HttpOp} {R R' : Prov → HttpOp → Prop} (H : During cfg h m R) (hR : ∀ st op, R st op → R' st op) :
    During cfg h m R' := fun pre o post e => hR _ _ (H pre o post e)

theorem During.append {cfg : ProvCfg} {h m m' : List HttpOp} {R : Prov → HttpOp → Prop} (H : During cfg h m R) (H' : During cfg (h ++ m) m' R) :
    During cfg h (m ++ m') R := by
  intro pre o post e
  rcases List.append_eq_append_iff.1 e with ⟨a, e1, e2⟩ | ⟨a, e1, e2⟩
  · rw [e1]
    rw [← List.append_assoc]
    exact H' a o post e2
  · cases a with
    | nil =>
      simp only [List.append_nil] at e1
      simp only [List.nil_append] at e2
      subst e1
      have := H' [] o post e2.symm
      simpa using this
    | cons x a =>
      simp only [List.cons_append, List.cons.injEq] at e2
      obtain ⟨rfl, rfl⟩ := e2
      exact H pre _ a e1

theorem During.one {cfg : ProvCfg} {h : List HttpOp} {op : HttpOp} {R : Prov → HttpOp → Prop} (H : R (provRun cfg h) op) : During cfg h [op] R := by
  intro pre o post e
  cases pre with
  | nil => cases e; simpa using H
  | cons x pre => simp at e

/-- A request by value is parsed as the request of the client that it names. -/
theorem authzParse_plain {env : Env} {cdb : Cdb} {par : ParDb} {req r : AuthReq} (h0 : req.requestUri = none)
    (h : (authzParse env cdb par req).2 = .val r) : r.clientId = req.clientId := by
  have h' : authzParse env cdb par req = ((authzParse env cdb par req).1, .val r) := by rw [← h]
  obtain ⟨p1, p2, q, q', u, hq, _, _, e1, _, e2⟩ := authzParse_val h'
  rw [(authzParse_same e1 e2).1]
  have plain : ∀ (p p' : ParDb) (q q' : AuthReq), q.requestUri = none → doRequestUri env cdb req.clientId p q = (p', .val q') → q' = q := by
    intro p p' q q' hn he
    unfold doRequestUri at he
    rw [hn] at he
    simp only [Prod.mk.injEq, Out.val.injEq] at he
    exact he.2.symm
  rcases hq with ⟨_, _, hq⟩ | ⟨_, p0, r0, u0, hr, _, _, hq⟩
  · rw [plain _ _ _ _ h0 hq]
  · have := plain _ _ _ _ h0 hr
    subst this
    rw [plain _ _ _ _ (by simpa using h0) hq]

/-- What is done for other users or clients leaves the sessions of `u` at `c` alone. -/
theorem others_kept {cfg : ProvCfg} (L : TokenCryptoLaws cfg.sys.env.cr) {l : List HttpOp} {op : HttpOp} (hn : GoodNames cfg (l ++ [op])) {u c : Str}
    (hu : GoodId u) (h : ByOthersOrRestart cfg u c (provRun cfg l) op) :
    ClientKept u c (provRun cfg l).sys.store (provRun cfg (l ++ [op])).sys.store := by
  have hS := provRun_sound hn.snoc_left
  have hcl : ∀ c, ((provRun cfg l).cdb c).isSome = true → GoodId c :=
    fun c hc => hn.snoc_left.clients c (provRun_named cfg l c hc)
  rw [provRun_snoc]
  generalize provRun cfg l = st at *
  cases op with
  | register => exact .refl _ _ _
  | push => exact .refl _ _ _
  | userinfo => exact .refl _ _ _
  | introspect => exact .refl _ _ _
  | tokenParse now r req => simp only [provStep]; split <;> exact .refl _ _ _
  | tokenProcess i req =>
    rcases h with h | ⟨h, _⟩
    · simp only [provStep, sysStep]
      split
      · exact kept_tokProcess hu hS _ _ _ _ _ (fun v hv g => h v g hv)
      · exact .refl _ _ _
    · cases h
  | logout post sid alla =>
    rcases h with h | ⟨h, _⟩
    · exact kept_logout hu hS _ _ _ _ _ (fun u' c' g' e e' => h c' g' (by rw [e, e']))
    · cases h
  | restart =>
    rcases h with h | ⟨_, h⟩
    · exact absurd h (fun h => h)
    · simp only [provStep, h]; exact .refl _ _ _
  | authorize now gid mc ma idt raw req =>
    rcases h with h | ⟨h, _⟩
    · have hus := hn.users now gid mc ma idt raw req (by simp)
      have hgid := hn.gids gid (by simp [httpGid])
      by_cases hck : CookieOf cfg raw u
      · have h : ∀ q, (authzParse cfg.sys.env st.cdb st.par req.areq).2 = .val q → q.clientId ≠ c := h hck
        simp only [provStep]
        unfold authorizeEndpoint
        generalize authzParse cfg.sys.env st.cdb st.par req.areq = r at h
        obtain ⟨par, o⟩ := r
        cases o with
        | errMsg e => exact .refl _ _ _
        | raise e => exact .refl _ _ _
        | val q =>
          simp only
          unfold authzBrowser
          split
          · exact .refl _ _ _
          · split
            · exact .refl _ _ _
            · split
              · exact .refl _ _ _
              · rename_i a ha
                obtain ⟨-, -, h1, h2⟩ := authnIn_shows ha
                refine kept_authzProcess hu hS _ _ _ _ _ _ _ _ hgid (hcl _) ?_ (h q rfl)
                cases hid : a.ident with
                | nobody => trivial
                | plain u => exact hus u (Or.inl (h1 u hid))
                | decoded u sid =>
                  rintro x rfl
                  exact hus x (Or.inr ⟨sid, h2 x sid hid⟩)
      · have same : ∀ k, ownerOf k = u → (provStep cfg st (.authorize now gid mc ma idt raw req)).sys.store k = st.sys.store k :=
          fun k hk => others_store L hck (fun v hv => goodId_name (hus v hv)) hk
        constructor
        · unfold Listed Store.at
          rw [same _ (by simpa [sessionKey, pyJoin] using ownerOf_name (goodId_name hu))]
        · rintro q hq ⟨r, rfl⟩
          unfold Store.at
          refine same _ ?_
          unfold ownerOf
          rw [unpack_good hq]
          rfl
    · cases h

/-- What is done for other users or clients leaves a grant of `u` at `c` as it is. -/
theorem others_grant {cfg : ProvCfg} (L : TokenCryptoLaws cfg.sys.env.cr) (l mid : List HttpOp) (hn : GoodNames cfg (l ++ mid)) {u c gid : Str}
    (hu : GoodId u) (hc : GoodId c) (hg : GoodId gid) (h : During cfg l mid (ByOthersOrRestart cfg u c)) {g : Grant} :
    getGrant (provRun cfg (l ++ mid)).sys.store (sessionKey [u, c, gid]) = .ok g ↔ getGrant (provRun cfg l).sys.store (sessionKey [u, c, gid]) = .ok g := by
  induction mid using snocInd with
  | nil => simp
  | append_singleton m op ih =>
    rw [← List.append_assoc] at hn ⊢
    rw [← ih hn.snoc_left (During.init h), getGrant_iff hu hc hg, getGrant_iff hu hc hg]
    exact (others_kept L hn hu (During.last h)).read3 hu hc hg _

/-- Without a restart, a parsed request stays one. -/
theorem others_pending {cfg : ProvCfg} {u c : Str} (l mid : List HttpOp) (h : During cfg l mid (ByOthers cfg u c)) {q : TokReq}
    (hq : q ∈ (provRun cfg l).sys.pending) : q ∈ (provRun cfg (l ++ mid)).sys.pending := by
  induction mid using snocInd with
  | nil => simpa using hq
  | append_singleton m op ih =>
    have hl := (During.last h)
    rw [← List.append_assoc, provRun_snoc]
    have ih := ih (During.init h)
    generalize provRun cfg (l ++ m) = st at ih hl
    cases op with
    | tokenParse now r req =>
      simp only [provStep]
      split
      · exact List.mem_cons_of_mem _ ih
      · exact ih
    | restart => exact absurd hl (fun h => h)
    | tokenProcess i req =>
      simp only [provStep, sysStep]
      split <;> exact ih
    | _ => exact ih

end Verif
