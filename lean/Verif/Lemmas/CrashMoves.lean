import Verif.Lemmas.SysToken
import Verif.Model.Crash
set_option linter.unusedSimpArgs false
set_option linter.unusedVariables false
/-! The storage at every crash point, seen from the stored grants. -/
namespace Verif
open Spec

variable {env : Env} {C : Str → Grant → Prop} {s0 s : Store}

/-- Every storage of the list satisfies the invariant within a step. -/
def Tr (env : Env) (C : Str → Grant → Prop) (s0 : Store) (l : List Store) : Prop := ∀ s' ∈ l, St env C s0 s'

theorem Tr.nil : Tr env C s0 [] := by simp [Tr]

theorem Tr.append {l r : List Store} (h1 : Tr env C s0 l) (h2 : Tr env C s0 r) : Tr env C s0 (l ++ r) := by
  intro s' hs'
  rcases List.mem_append.1 hs' with h | h
  · exact h1 _ h
  · exact h2 _ h

theorem Tr.mono {C' : Str → Grant → Prop} (hC : ∀ k g, C k g → C' k g) {l : List Store} (h : Tr env C s0 l) :
    Tr env C' s0 l := fun s' hs' => (h s' hs').mono hC

/-- At each point of `Database.set`, what was written is the object under the path's own key, and session records. -/
theorem setTrace_writes (s : Store) (path : List Str) (v : Obj)
    (hp : ∀ u c g r, path = u :: c :: g :: r → g ≠ []) (hv : NoEmpty s → ∀ i, v = .info i → [] ∉ i.subordinate)
    {s' : Store} (hs' : s' ∈ setTrace s path v) (k : Str) (o : Obj) (h : s' k = some o) :
    s k = some o ∨ (k = sessionKey (path.take 3) ∧ o = v) ∨ InfoOk s o := by
  have hfull := dbSet_writes s path v hp hv
  unfold setTrace at hs'
  unfold dbSet at hfull
  have infoV : ∀ {s1 : Store} {o}, (∀ k o, s1 k = some o → s k = some o ∨ (k = sessionKey (path.take 3) ∧ o = v) ∨ InfoOk s o) →
      InfoOk s1 o → InfoOk s o := by
    rintro s1 o h1 ⟨i, rfl, h2⟩
    refine ⟨i, rfl, fun hn => h2 ?_⟩
    intro k' i' hi'
    rcases h1 _ _ hi' with h | ⟨_, h⟩ | ⟨i2, h, h3⟩
    · exact hn _ _ h
    · exact hv hn _ h.symm
    · cases h; exact h3 hn
  have key : ∀ u c g, evalPath path = .ok (u, c, g) →
      (∀ k o, (if truthy g then s.put (sessionKey [u, c.getD [], g.getD []]) v else s) k = some o →
        s k = some o ∨ (k = sessionKey (path.take 3) ∧ o = v) ∨ InfoOk s o) ∧
      (∀ k o, (if truthy c then dbSetClient (if truthy g then s.put (sessionKey [u, c.getD [], g.getD []]) v else s) u (c.getD []) g v
          else ((if truthy g then s.put (sessionKey [u, c.getD [], g.getD []]) v else s), .ok ())).1 k = some o →
        s k = some o ∨ (k = sessionKey (path.take 3) ∧ o = v) ∨ InfoOk s o) := by
    intro u c g he
    have h1 : ∀ k o, (if truthy g then s.put (sessionKey [u, c.getD [], g.getD []]) v else s) k = some o →
        s k = some o ∨ (k = sessionKey (path.take 3) ∧ o = v) ∨ InfoOk s o := by
      intro k o h
      split at h
      · rename_i ht
        simp only [Store.put] at h
        split at h
        · right; left
          refine ⟨?_, (Option.some.inj h).symm⟩
          rename_i hk
          rw [hk]
          match path, hp, he with
          | [u1], _, he => cases he; cases ht
          | [u1, c1], _, he => cases he; cases ht
          | u1 :: c1 :: g1 :: r, _, he => cases he; rfl
        · exact Or.inl h
      · exact Or.inl h
    refine ⟨h1, ?_⟩
    intro k o h
    split at h
    · rename_i hc
      have hgne : g ≠ some [] := by
        match path, hp, he with
        | [u1], _, he => cases he; simp
        | [u1, c1], _, he => cases he; simp
        | u1 :: c1 :: g1 :: r, hp, he => cases he; simpa using hp _ _ _ _ rfl
      rcases dbSetClient_writes _ _ _ _ _ hgne _ _ h with h | ⟨h2, h3, h4⟩ | h
      · exact h1 _ _ h
      · right; left
        refine ⟨?_, h4⟩
        rw [h3]
        match path, hp, he with
        | [u1], _, he => cases he; cases hc
        | [u1, c1], _, he => cases he; rfl
        | u1 :: c1 :: g1 :: r, hp, he => cases he; cases h2
      · exact Or.inr (Or.inr (infoV h1 h))
    · exact h1 _ _ h
  cases he : evalPath path with
  | error e => simp [he] at hs'
  | ok t =>
    obtain ⟨u, c, g⟩ := t
    obtain ⟨k1, k2⟩ := key u c g he
    simp only [he] at hs' hfull
    generalize hr : (if truthy c then dbSetClient (if truthy g then s.put (sessionKey [u, c.getD [], g.getD []]) v else s) u (c.getD []) g v
          else ((if truthy g then s.put (sessionKey [u, c.getD [], g.getD []]) v else s), .ok ())) = r at hs' hfull k2
    cases hre : r.2 with
    | error e =>
      simp only [hre, List.mem_cons, List.not_mem_nil, or_false] at hs'
      rcases hs' with rfl | rfl
      · exact k1 _ _ h
      · exact k2 _ _ h
    | ok _ =>
      simp only [hre, List.mem_cons, List.not_mem_nil, or_false] at hs' hfull
      rcases hs' with rfl | rfl | rfl
      · exact k1 _ _ h
      · exact k2 _ _ h
      · exact hfull _ _ h

theorem St.setTr (h : St env C s0 s) (path : List Str) (v : Obj)
    (hp : ∀ u c g r, path = u :: c :: g :: r → g ≠ []) (hi : ∀ i, v = .info i → [] ∉ i.subordinate)
    (hg : ∀ g, v = .grant g → Has env C s0 (sessionKey (path.take 3)) g) : Tr env C s0 (setTrace s path v) := by
  intro s' hs'
  refine ⟨?_, ?_⟩
  · intro k g hk
    rcases setTrace_writes s path v hp (fun _ => hi) hs' k _ hk with h1 | ⟨h1, h2⟩ | ⟨i, h1, _⟩
    · exact h.moves k g h1
    · rw [h1]; exact hg g h2.symm
    · cases h1
  · intro k i hk
    rcases setTrace_writes s path v hp (fun _ => hi) hs' k _ hk with h1 | ⟨h1, h2⟩ | ⟨i', h1, h2⟩
    · exact h.noEmpty k i h1
    · exact hi i h2.symm
    · cases h1; exact h2 h.noEmpty

theorem St.mgrSetTr (h : St env C s0 s) {sid : Str} (hs : Sid3 sid) {g : Grant} (hg : Has env C s0 sid g) :
    Tr env C s0 (mgrSetTrace s sid (.grant g)) := by
  unfold mgrSetTrace
  obtain ⟨u, c, gi, h1, h2⟩ := hs
  have h3 := session_key_unpack sid
  apply h.setTr
  · rintro u' c' g' r h4
    rw [h1] at h4
    cases h4
    exact h2
  · simp
  · intro g' hg'
    cases hg'
    rw [h1] at h3 ⊢
    have : sessionKey ([u, c, gi].take 3) = sid := h3
    rw [this]
    exact hg

theorem St.mintTr (h : St env C s0 s) {sid : Str} (hs : Sid3 sid) {g : Grant} (hg : Has env C s0 sid g) (now : Int)
    (m : MintIn) (tt : Str) (hd : Option Handler) (b : Option Token)
    (hh : (if tt = tAuthorizationCode then env.th.code else env.th.accessToken) = hd)
    (hb : ∀ bt, b = some bt → ∃ i, g.tokenAt i = some bt) (hsc : ScopeOk env g) :
    Tr env C s0 (mintTrace env hd s now m sid tt g b) := by
  have h1 := (h.mint hs hg now m tt hd b hh hb hsc).2.2
  unfold mintTrace
  split
  · exact Tr.nil
  · exact Tr.nil
  · exact h.mgrSetTr hs h1

theorem delGrantsTrace_writes (u c : Str) (gs : List Str) (s : Store) {s' : Store} (hs' : s' ∈ delGrantsTrace s u c gs)
    (k : Str) (o : Obj) (h : s' k = some o) : s k = some o := by
  induction gs generalizing s with
  | nil => simp [delGrantsTrace] at hs'
  | cons g gs ih =>
    unfold delGrantsTrace at hs'
    cases hk : s (sessionKey [u, c, g]) with
    | none => simp [hk] at hs'
    | some _ =>
      simp only [hk, List.mem_cons] at hs'
      have hd : ∀ k o, (s.del (sessionKey [u, c, g])) k = some o → s k = some o := by
        intro k o h
        simp only [Store.del] at h
        split at h
        · cases h
        · exact h
      rcases hs' with rfl | hs'
      · exact hd _ _ h
      · exact hd _ _ (ih _ hs')

theorem lastOf_cases (s : Store) (l : List Store) : lastOf s l = s ∨ lastOf s l ∈ l := by
  unfold lastOf
  cases h : l.getLast? with
  | none => exact Or.inl rfl
  | some x => exact Or.inr (List.mem_of_getLast? h)

theorem deleteTrace_writes (s : Store) (path : List Str) {s' : Store} (hs' : s' ∈ deleteTrace s path) (k : Str) (o : Obj)
    (h : s' k = some o) : s k = some o ∨ InfoOk s o := by
  unfold deleteTrace at hs'
  have hdel : ∀ (s1 : Store) k0 k o, (s1.del k0) k = some o → s1 k = some o := by
    intro s1 k0 k o h
    simp only [Store.del] at h
    split at h
    · cases h
    · exact h
  cases hp : evalPath path with
  | error e => simp [hp] at hs'
  | ok t =>
    obtain ⟨u, c, g⟩ := t
    simp only [hp] at hs'
    cases hu : s u with
    | none => simp [hu] at hs'
    | some ui =>
      simp only [hu] at hs'
      by_cases hc : truthy c = false
      · simp only [hc, if_true, List.mem_singleton] at hs'
        subst hs'
        exact Or.inl (hdel _ _ _ _ h)
      · rw [Bool.not_eq_false] at hc
        simp only [hc, Bool.true_eq_false, if_false] at hs'
        cases hs : ui.subordinate with
        | error e => simp [hs] at hs'
        | ok usub =>
          simp only [hs] at hs'
          by_cases hm : c.getD [] ∈ usub
          · simp only [hm, not_true_eq_false, if_false] at hs'
            cases hci : s (sessionKey [u, c.getD []]) with
            | none =>
              simp only [hci, List.mem_singleton] at hs'
              subst hs'
              rcases dbDelUserPart_writes h with h | h
              · exact Or.inl h
              · rw [h]; exact Or.inr (setSub_infoOk hs (fun _ hx => hx) hu)
            | some ci =>
              simp only [hci] at hs'
              cases hcs : ci.subordinate with
              | error e => simp [hcs] at hs'
              | ok csub =>
                simp only [hcs] at hs'
                generalize hr : ((if truthy g = true then
                    if g.getD [] ∈ csub then
                      ([s.del (sessionKey [u, c.getD [], g.getD []])], csub.erase (g.getD []), Except.ok ())
                    else ([], csub, Except.ok ())
                  else (delGrantsTrace s u (c.getD []) csub, [], (dbDelGrants s u (c.getD []) csub).2)) :
                    List Store × List Str × Except Exn Unit) = r at hs'
                have hr1 : (∀ s1 ∈ r.1, ∀ k o, s1 k = some o → s k = some o) ∧ ∀ x ∈ r.2.1, x ∈ csub := by
                  rw [← hr]
                  split
                  · split
                    · refine ⟨?_, fun x hx => List.mem_of_mem_erase hx⟩
                      intro s1 hs1 k o hko
                      simp only [List.mem_singleton] at hs1
                      subst hs1
                      exact hdel _ _ _ _ hko
                    · exact ⟨by simp, fun _ h => h⟩
                  · exact ⟨fun s1 hs1 k o h => delGrantsTrace_writes _ _ _ _ hs1 _ _ h, by simp⟩
                have hl : ∀ k o, lastOf s r.1 k = some o → s k = some o := by
                  intro k o h
                  rcases lastOf_cases s r.1 with h1 | h1
                  · rw [h1] at h; exact h
                  · exact hr1.1 _ h1 _ _ h
                cases hre : r.2.2 with
                | error e => simp only [hre] at hs'; exact Or.inl (hr1.1 _ hs' _ _ h)
                | ok _ =>
                  simp only [hre] at hs'
                  split at hs'
                  · simp only [List.mem_append, List.mem_cons, List.not_mem_nil, or_false] at hs'
                    rcases hs' with hs' | rfl | rfl
                    · exact Or.inl (hr1.1 _ hs' _ _ h)
                    · exact Or.inl (hl _ _ (hdel _ _ _ _ h))
                    · rcases dbDelUserPart_writes h with h | h
                      · exact Or.inl (hl _ _ (hdel _ _ _ _ h))
                      · rw [h]; exact Or.inr (setSub_infoOk hs (fun _ hx => List.mem_of_mem_erase hx) hu)
                  · have hput : ∀ k o, ((lastOf s r.1).put (c.getD []) (ci.setSubordinate r.2.1)) k = some o →
                        s k = some o ∨ InfoOk s o := by
                      intro k o h
                      simp only [Store.put] at h
                      split at h
                      · right; rw [← Option.some.inj h]
                        exact setSub_infoOk hcs hr1.2 hci
                      · exact Or.inl (hl _ _ h)
                    simp only [List.mem_append, List.mem_cons, List.not_mem_nil, or_false] at hs'
                    rcases hs' with hs' | rfl | rfl
                    · exact Or.inl (hr1.1 _ hs' _ _ h)
                    · exact hput _ _ h
                    · rcases dbDelUserPart_writes h with h | h
                      · exact hput _ _ h
                      · rw [h]; exact Or.inr (setSub_infoOk hs (fun _ hx => hx) hu)
          · simp [hm] at hs'

theorem St.deleteTr (h : St env C s0 s) (path : List Str) : Tr env C s0 (deleteTrace s path) := by
  intro s' hs'
  refine ⟨?_, ?_⟩
  · intro k g hk
    rcases deleteTrace_writes s path hs' k _ hk with h1 | ⟨i, h1, _⟩
    · exact h.moves k g h1
    · cases h1
  · intro k i hk
    rcases deleteTrace_writes s path hs' k _ hk with h1 | ⟨i', h1, h2⟩
    · exact h.noEmpty k i h1
    · cases h1; exact h2 h.noEmpty

theorem St.removeTr (h : St env C s0 s) (sid : Str) : Tr env C s0 (removeTrace s sid) := by
  unfold removeTrace
  cases unpack3 sid with
  | error e => exact Tr.nil
  | ok t => exact h.deleteTr _

theorem createGrant_tr (h : St env C s0 s) (now : Int) (gid u c : Str) (a : SessArgs) (hgid : gid ≠ [])
    (hC : ∀ g, newGrant env.sf now gid u a = .ok g → g.issuedToken = [] → g.tokenMap = defaultTokenMap → g.authReq = some a.authReq → (g.scope = a.scopes ∧ g.claims = []) →
      C (sessionKey [u, c, gid]) g) :
    Tr env C s0 (createGrantTrace env.sf s now gid u c a) := by
  unfold createGrantTrace
  cases hn : newGrant env.sf now gid u a with
  | error e => exact Tr.nil
  | ok g =>
    simp only
    have hg : g.issuedToken = [] ∧ g.tokenMap = defaultTokenMap ∧ g.authReq = some a.authReq ∧
        g.scope = a.scopes ∧ g.claims = [] := by
      unfold newGrant at hn
      cases hf : env.sf a.subType with
      | none => simp [hf] at hn
      | some f => simp only [hf] at hn; cases hn; exact ⟨rfl, rfl, rfl, rfl, rfl⟩
    apply h.setTr
    · rintro _ _ _ _ ⟨⟩; exact hgid
    · simp
    · rintro g' ⟨⟩
      exact ⟨g, Or.inr (hC g hn hg.1 hg.2.1 hg.2.2.1 hg.2.2.2), Evo.refl g⟩

theorem ensureUser_tr (h : St env C s0 s) (u : Str) : Tr env C s0 (ensureUserTrace s u) := by
  unfold ensureUserTrace
  cases dbGet s [u] with
  | ok _ => exact Tr.nil
  | error e =>
    simp only
    split
    · apply h.setTr
      · simp
      · rintro i ⟨⟩; simp [SessInfo.user]
      · rintro g ⟨⟩
    · exact Tr.nil

theorem createSession_tr (h : St env C s0 s) (now : Int) (gid u c : Str) (a : SessArgs) (hgid : gid ≠ [])
    (hC : ∀ c' g, c' = (if c = [] then a.authReq.clientId else c) → newGrant env.sf now gid u a = .ok g → g.issuedToken = [] → g.tokenMap = defaultTokenMap → g.authReq = some a.authReq → (g.scope = a.scopes ∧ g.claims = []) →
      C (sessionKey [u, c', gid]) g) :
    Tr env C s0 (createSessionTrace env.sf s now gid u c a) := by
  unfold createSessionTrace
  simp only
  apply (ensureUser_tr h u).append
  have h1 := ensureUser_st h u
  cases he : (ensureUser s u).2 with
  | error e => exact Tr.nil
  | ok _ =>
    simp only
    generalize hc' : (if c = [] then a.authReq.clientId else c) = c'
    have h2 : St env C s0 (dbSet (ensureUser s u).1 [u, c'] (.info (SessInfo.client c'))).1 := by
      apply h1.set
      · simp
      · rintro i ⟨⟩; simp [SessInfo.client]
      · rintro g ⟨⟩
    refine Tr.append ?_ ?_
    · apply h1.setTr
      · simp
      · rintro i ⟨⟩; simp [SessInfo.client]
      · rintro g ⟨⟩
    · cases hw : (dbSet (ensureUser s u).1 [u, c'] (.info (SessInfo.client c'))).2 with
      | error e => exact Tr.nil
      | ok _ => exact createGrant_tr h2 now gid u c' a hgid (fun g => hC c' g hc'.symm)

theorem addGrant_tr (h : St env C s0 s) (now : Int) (gid u c : Str) (a : GrantArgs) (hgid : gid ≠ [])
    (hC : C (sessionKey [u, c, gid]) (Grant.new now gid { a with claims := [] })) :
    Tr env C s0 (addGrantTrace s now gid u c a) := by
  unfold addGrantTrace
  simp only
  generalize hG : Grant.new now gid { a with claims := [] } = G at hC ⊢
  have hp : ∀ u' c' g r, [u, c, gid] = u' :: c' :: g :: r → g ≠ [] := by rintro _ _ _ _ ⟨⟩; exact hgid
  have hgr : ∀ g, Obj.grant G = .grant g → Has env C s0 (sessionKey ([u, c, gid].take 3)) g := by
    rintro g ⟨⟩
    exact ⟨G, Or.inr hC, Evo.refl G⟩
  have h1 : St env C s0 (dbSet s [u, c, gid] (.grant G)).1 := h.set _ _ hp (by simp) hgr
  refine (h.setTr _ _ hp (by simp) hgr).append ?_
  cases hw : (dbSet s [u, c, gid] (.grant G)).2 with
  | error e => exact Tr.nil
  | ok _ =>
    simp only
    cases hd : dbGet (dbSet s [u, c, gid] (.grant G)).1 [u, c] with
    | error e => exact Tr.nil
    | ok o =>
      cases o with
      | grant g => exact Tr.nil
      | info i =>
        simp only
        obtain ⟨hk, hp⟩ := dbGet_key h1.noEmpty hd
        apply h1.setTr _ _ hp
        · rintro i' ⟨⟩
          simp only [List.mem_append, List.mem_singleton, not_or]
          exact ⟨h1.noEmpty _ _ hk, fun e => hgid e.symm⟩
        · rintro g ⟨⟩

theorem revokeClient_tr (h : St env C s0 s) (sid : Str) : Tr env C s0 (revokeClientTrace s sid) := by
  have go : ∀ u c, Tr env C s0 (match dbGet s [u, c] with
      | .error _ => ([] : List Store)
      | .ok (.grant _) => []
      | .ok (.info i) => setTrace s [u, c] (.info i.revoke)) := by
    intro u c
    cases hd : dbGet s [u, c] with
    | error e => exact Tr.nil
    | ok o =>
      cases o with
      | grant g => exact Tr.nil
      | info i =>
        simp only
        obtain ⟨hk, hp⟩ := dbGet_key h.noEmpty hd
        apply h.setTr _ _ hp
        · rintro i' ⟨⟩; exact h.noEmpty _ i hk
        · rintro g ⟨⟩
  unfold revokeClientTrace
  simp only
  split
  · exact go _ _
  · exact go _ _
  · exact Tr.nil

theorem revokeGrant_tr (h : St env C s0 s) (sid : Str) : Tr env C s0 (revokeGrantTrace s sid) := by
  unfold revokeGrantTrace
  cases hd : dbGet s (unpackSessionKey sid) with
  | error e => exact Tr.nil
  | ok o =>
    simp only
    obtain ⟨hk, hp⟩ := dbGet_key h.noEmpty hd
    apply h.setTr _ _ hp
    · intro i hi
      cases o with
      | grant g => cases hi
      | info i0 =>
        cases hi
        exact h.noEmpty _ i0 hk
    · intro g hg
      cases o with
      | info i0 => cases hg
      | grant g0 =>
        cases hg
        exact (h.moves _ _ hk).evo (Evo.one g0 .revokeGrant trivial)

/-! ### The token endpoint -/

theorem refreshPart_tr (h : St env C s0 s) {sid : Str} (hs : Sid3 sid) {g : Grant} (hg : Has env C s0 sid g) (hsc : ScopeOk env g)
    (i : TokIn) (b : Option Token) (hb : ∀ bt, b = some bt → ∃ i, g.tokenAt i = some bt) (want : Bool) :
    Tr env C s0 (refreshPartTrace env s i sid g b want) := by
  unfold refreshPartTrace
  cases want with
  | true => exact h.mintTr hs hg i.now i.mr tRefreshToken env.th.accessToken b (by simp [tRefreshToken, tAuthorizationCode]) hb hsc
  | false => exact Tr.nil

theorem finishCode_tr (h : St env C s0 s) {sid : Str} (hs : Sid3 sid) {g : Grant} (hg : Has env C s0 sid g) (b : Option Token) :
    Tr env C s0 (finishCodeTrace s sid g b) := by
  unfold finishCodeTrace
  cases b with
  | none => exact Tr.nil
  | some b => exact h.mgrSetTr hs (hg.evo (Evo.one g (.use b.value) trivial))

theorem exchangeCode_tr (h : St env C s0 s) {sid : Str} (hs : Sid3 sid) {g : Grant} (hg : Has env C s0 sid g) (hsc : ScopeOk env g)
    (i : TokIn) (b : Option Token) (hb : ∀ bt, b = some bt → ∃ i, g.tokenAt i = some bt) :
    Tr env C s0 (exchangeCodeTrace env s i sid g b) := by
  unfold exchangeCodeTrace
  simp only
  have h1 := h.mint hs hg i.now i.ma tAccessToken env.th.accessToken b (by simp [tAccessToken, tAuthorizationCode]) hb hsc
  refine (h.mintTr hs hg i.now i.ma tAccessToken env.th.accessToken b (by simp [tAccessToken, tAuthorizationCode]) hb hsc).append ?_
  cases he : (mintAndStore env env.th.accessToken s i.now i.ma sid tAccessToken g b).2.2 with
  | error e => exact Tr.nil
  | ok tok =>
    simp only
    have hb' : ∀ bt, b = some bt → ∃ j, (mintAndStore env env.th.accessToken s i.now i.ma sid tAccessToken g b).2.1.tokenAt j = some bt := by
      intro bt hbt
      obtain ⟨j, hj⟩ := hb bt hbt
      exact ⟨j, mint_keeps env _ s i.now i.ma sid tAccessToken g b j bt hj⟩
    have h2 := refreshPart_st h1.1 hs h1.2.2 (h1.2.1.scopeOk hsc) i b hb' (decide (c!"offline_access" ∈ g.scope))
    refine (refreshPart_tr h1.1 hs h1.2.2 (h1.2.1.scopeOk hsc) i b hb' (decide (c!"offline_access" ∈ g.scope))).append ?_
    generalize refreshPart env (mintAndStore env env.th.accessToken s i.now i.ma sid tAccessToken g b).1 i sid
      (mintAndStore env env.th.accessToken s i.now i.ma sid tAccessToken g b).2.1 b (decide (c!"offline_access" ∈ g.scope)) = R at h2 ⊢
    cases hR : R.2.2 with
    | error e => exact Tr.nil
    | ok rt => exact finishCode_tr h2.1 hs (h1.2.2.evo h2.2) b

theorem exchangeRefresh_tr (h : St env C s0 s) {sid : Str} (hs : Sid3 sid) {g : Grant} (hg : Has env C s0 sid g)
    (hsc : ScopeOk env g) (i : TokIn) (b : Option Token) (hb : ∀ bt, b = some bt → ∃ i, g.tokenAt i = some bt) :
    Tr env C s0 (exchangeRefreshTrace env s i sid g b) := by
  unfold exchangeRefreshTrace
  simp only
  have h1 := h.mint hs hg i.now i.ma tAccessToken env.th.accessToken b (by simp [tAccessToken, tAuthorizationCode]) hb hsc
  refine (h.mintTr hs hg i.now i.ma tAccessToken env.th.accessToken b (by simp [tAccessToken, tAuthorizationCode]) hb hsc).append ?_
  cases he : (mintAndStore env env.th.accessToken s i.now i.ma sid tAccessToken g b).2.2 with
  | error e => exact Tr.nil
  | ok tok =>
    simp only
    cases b with
    | none => exact Tr.nil
    | some b =>
      simp only
      cases b.usageRules.supportsMinting with
      | none => exact Tr.nil
      | some mints =>
        simp only
        obtain ⟨j, hj⟩ := hb b rfl
        have hk := mint_keeps env env.th.accessToken s i.now i.ma sid tAccessToken g (some b) j b hj
        exact refreshPart_tr h1.1 hs h1.2.2 (h1.2.1.scopeOk hsc) i (some b) (by rintro bt ⟨⟩; exact ⟨j, hk⟩) _

theorem tok_tr {helpers : Dict Helper} {used : List Str} (hn : NoEmpty s0)
    (hgi : ∀ k g, s0 k = some (.grant g) → GInv env k g) (i : TokIn) (req : TokReq) (hp : PendOk env helpers used s0 req) :
    Tr env C s0 (tokTrace env helpers s0 i req) := by
  have hst : St env C s0 s0 := St.start hn
  unfold tokTrace
  cases hgt : req.grantType with
  | none => exact Tr.nil
  | some gt =>
    simp only
    cases hx : helpers.get? gt with
    | none => exact Tr.nil
    | some hc =>
      cases hc with
      | bare c => exact Tr.nil
      | inst c =>
        cases c with
        | accessToken =>
          simp only
          obtain ⟨c, hc, hpl, hpend⟩ := (hp gt hgt).1 hx
          unfold codeTrace
          split
          · exact Tr.nil
          · simp only [hc, hpl]
            cases hsb : sessionByToken env.th env.cr s0 i.now c with
            | error e => exact Tr.nil
            | ok x =>
              obtain ⟨sid, o⟩ := x
              obtain ⟨h1, h2, h3⟩ := sessionByToken_key hn hsb
              cases o with
              | info _ => exact Tr.nil
              | grant g =>
                simp only
                obtain ⟨t, ht, _⟩ := (hpend _ _ h1).2 g h2
                cases har : g.authReq with
                | none => exact Tr.nil
                | some ar =>
                  simp only
                  cases redirectCheck ar req with
                  | raise e => exact Tr.nil
                  | errMsg e => exact Tr.nil
                  | val _ =>
                    exact exchangeCode_tr hst h3 ⟨g, Or.inl h2, Evo.refl g⟩ ((hgi _ _ h2).scope (getToken_nonempty ht)) i _
                      (fun bt hbt => getToken_tokenAt hbt)
        | refreshToken =>
          simp only
          obtain ⟨v, hv, hpend⟩ := (hp gt hgt).2 hx
          unfold refreshTrace
          split
          · exact Tr.nil
          · simp only [hv]
            cases hsb : sessionByToken env.th env.cr s0 i.now v with
            | error e => exact Tr.nil
            | ok x =>
              obtain ⟨sid, o⟩ := x
              obtain ⟨h1, h2, h3⟩ := sessionByToken_key hn hsb
              cases o with
              | info _ => exact Tr.nil
              | grant g =>
                simp only
                obtain ⟨t, ht, _⟩ := (hpend _ _ h1).2 g h2
                exact exchangeRefresh_tr hst h3 ⟨g, Or.inl h2, Evo.refl g⟩
                  ((hgi _ _ h2).scope (getToken_nonempty ht)) i _ (fun bt hbt => getToken_tokenAt hbt)

/-! ### The authorization endpoint -/

theorem startSession_tr {gid : Str} {req : AuthReq} (hn : NoEmpty s0) (hgid : gid ≠ []) (cdb : Cdb) (now : Int) (a : AuthnIn)
    (uid : Str) (hid : a.ident = .plain uid) : Tr env (NewFor env s0 now a gid req) s0 (startSessionTrace env cdb s0 now gid req a uid) := by
  unfold startSessionTrace
  simp only
  generalize hA : ({ authnEvent := _, authReq := req, usageRules := usageRulesOf env.gc cdb req.clientId } : SessArgs) = A
  have hAev : A.authnEvent = some (loginEvent now uid a) := by
    rw [← hA]
    simp only [loginEvent]
    cases a.expiresIn with
    | none => rfl
    | some e => by_cases he : e = 0 <;> simp [he, createAuthnEvent]
  have hreq : A.authReq = req := by rw [← hA]
  have hsco : A.scopes = [] := by rw [← hA]
  apply createSession_tr (St.start hn) now gid uid req.clientId A hgid
  intro c g hc hn e1 e2 e3 e4
  refine ⟨?_, ⟨uid, c, rfl⟩, e1, e2, by rw [e3, hreq], by rw [e4.1, hsco], e4.2⟩
  obtain ⟨f, h1, h2, h3, h4⟩ := newGrant_ok hn
  rw [hAev] at h3
  rw [← hA] at h1 h2 hc h4
  refine ⟨h4, uid, f, ?_, h1, h2, Or.inl ⟨hid, h3⟩⟩
  rw [hc]
  split <;> rename_i h <;> simp [h]

theorem setup_tr {gid : Str} {req : AuthReq} (hn : NoEmpty s0) (hgid : gid ≠ []) (cdb : Cdb) (now : Int) (a : AuthnIn) :
    Tr env (NewFor env s0 now a gid req) s0 (setupTrace env cdb s0 now gid req a) := by
  unfold setupTrace
  have hst : St env (NewFor env s0 now a gid req) s0 s0 := St.start hn
  cases hid : a.ident with
  | nobody => exact Tr.nil
  | plain uid =>
    simp only
    split
    · exact Tr.nil
    · split
      · exact Tr.nil
      · exact startSession_tr hn hgid cdb now a uid hid
  | decoded uid sid0 =>
    simp only
    cases sid0 with
    | none => exact Tr.nil
    | some sid0 =>
      simp only
      cases hg0 : mgrGet s0 sid0 with
      | error e => exact Tr.nil
      | ok o =>
        cases o with
        | info i => exact Tr.nil
        | grant g0 =>
          simp only
          split
          · exact Tr.nil
          · split
            · exact Tr.nil
            · cases uid with
              | none => exact Tr.nil
              | some uid =>
                simp only
                split
                · exact Tr.nil
                · cases hu : unpack3 sid0 with
                  | error e => exact Tr.nil
                  | ok t =>
                    obtain ⟨u1, c1, g1⟩ := t
                    simp only
                    split
                    · exact Tr.nil
                    · split
                      · exact Tr.nil
                      · cases eventValid now g0.authnEvent with
                        | error e => exact Tr.nil
                        | ok b =>
                          cases b with
                          | false => exact Tr.nil
                          | true =>
                            apply createGrant_tr hst now gid uid req.clientId { authnEvent := g0.authnEvent, authReq := req } hgid
                            intro g hng e1 e2 e3 e4
                            obtain ⟨f, f1, f2, f3, f4⟩ := newGrant_ok hng
                            exact ⟨⟨f4, uid, f, rfl, f1, f2, Or.inr ⟨sid0, g0, hid, mgrGet_getGrant hu hg0, f3⟩⟩,
                              ⟨uid, req.clientId, rfl⟩, e1, e2, e3, e4⟩

theorem codePart_tr (h : St env C s0 s) {sid : Str} (hs : Sid3 sid) {g : Grant} (hg : Has env C s0 sid g) (hsc : ScopeOk env g)
    (now : Int) (mc : MintIn) (req : AuthReq) : Tr env C s0 (codePartTrace env s now mc sid g req) := by
  unfold codePartTrace
  split
  · exact h.mintTr hs hg now mc tAuthorizationCode env.th.code none (by simp) (by simp) hsc
  · exact Tr.nil

theorem tokenPart_tr (h : St env C s0 s) {sid : Str} (hs : Sid3 sid) {g : Grant} (hg : Has env C s0 sid g) (hsc : ScopeOk env g)
    (now : Int) (ma : MintIn) (code : Option Token) (hb : ∀ t, code = some t → ∃ i, g.tokenAt i = some t) (req : AuthReq) :
    Tr env C s0 (tokenPartTrace env s now ma sid g code req) := by
  unfold tokenPartTrace
  split
  · exact h.mintTr hs hg now ma tAccessToken env.th.accessToken code (by simp [tAccessToken, tAuthorizationCode]) hb hsc
  · exact Tr.nil

theorem idTokenPart_tr (h : St env C s0 s) (idt : Out Str) (sid : Str) (req : AuthReq) :
    Tr env C s0 (idTokenPartTrace s idt sid req) := by
  unfold idTokenPartTrace
  split
  · cases idt with
    | raise e => exact Tr.nil
    | errMsg e => exact Tr.nil
    | val i =>
      simp only
      cases unpack3 sid with
      | error e => exact Tr.nil
      | ok t =>
        obtain ⟨u, c, gi⟩ := t
        simp only
        cases hd : dbGet s [u, c] with
        | error e => exact Tr.nil
        | ok o =>
          simp only
          obtain ⟨hk, _⟩ := dbGet_key h.noEmpty hd
          apply h.setTr
          · simp
          · intro i hi
            rw [hi] at hk
            exact h.noEmpty _ _ hk
          · intro g hg
            rw [hg] at hk
            exact h.moves _ _ hk
  · exact Tr.nil

theorem response_tr (h : St env C s0 s) {sid : Str} (now : Int) (mc ma : MintIn) (idt : Out Str) (req : AuthReq)
    (hsc : ∀ g, s sid = some (.grant g) → ScopeOk env g) :
    Tr env C s0 (responseTrace env s now mc ma idt req sid) := by
  unfold responseTrace
  split
  · exact Tr.nil
  · cases hg : getGrant s sid with
    | error e => exact Tr.nil
    | ok g =>
      obtain ⟨hk, hs, _⟩ := getGrant_key h.noEmpty hg
      simp only
      have h1 := codePart_st h hs (h.moves _ _ hk) (hsc g hk) now mc req
      refine (codePart_tr h hs (h.moves _ _ hk) (hsc g hk) now mc req).append ?_
      cases h2 : (codePart env s now mc sid g req).2.2 with
      | error e => exact Tr.nil
      | ok code =>
        simp only
        have hb : ∀ t, code = some t → ∃ i, (codePart env s now mc sid g req).2.1.tokenAt i = some t := by
          intro t ht
          rw [ht] at h2
          exact h1.2.2.2 t h2
        have h3 := tokenPart_st h1.1 hs h1.2.1 h1.2.2.1 now ma code hb req
        refine (tokenPart_tr h1.1 hs h1.2.1 h1.2.2.1 now ma code hb req).append ?_
        cases h4 : (tokenPart env (codePart env s now mc sid g req).1 now ma sid (codePart env s now mc sid g req).2.1 code req).2.2 with
        | error e => exact Tr.nil
        | ok tok => exact idTokenPart_tr h3 idt sid req

theorem part2_tr (h : St env C s0 s) {sid : Str} (cdb : Cdb) (now : Int) (mc ma : MintIn) (idt : Out Str) (req : AuthReq)
    (hreq : ∀ g, getGrant s sid = .ok g → g.authReq = some req) :
    Tr env C s0 (part2Trace env cdb s now mc ma idt req sid) := by
  unfold part2Trace
  cases hg : getGrant s sid with
  | error e => exact Tr.nil
  | ok g =>
    obtain ⟨hk, hs, u, c, gi, hu⟩ := getGrant_key h.noEmpty hg
    obtain ⟨hu1, hu2⟩ := unpack3_key hu
    simp only [hu]
    cases ha : (authzCall env.gc env.ccfg cdb now c g req).2 with
    | error e => exact Tr.nil
    | ok g' =>
      simp only
      have hev := authzCall_evo (env := env) (k := sid) ha (hreq g hg)
      have hgi : gi ≠ [] := by
        obtain ⟨u', c', gi', e1, e2⟩ := hs
        rw [hu1] at e1
        cases e1
        exact e2
      have hp : ∀ u' c' g r, [u, c, gi] = u' :: c' :: g :: r → g ≠ [] := by rintro _ _ _ _ ⟨⟩; exact hgi
      have hgr : ∀ g2, Obj.grant g' = .grant g2 → Has env C s0 (sessionKey ([u, c, gi].take 3)) g2 := by
        rintro g2 ⟨⟩
        have : sessionKey ([u, c, gi].take 3) = sid := hu2
        rw [this]
        exact (h.moves _ _ hk).evo hev.1
      have hset : St env C s0 (dbSet s [u, c, gi] (.grant g')).1 := h.set _ _ hp (by simp) hgr
      refine (h.setTr _ _ hp (by simp) hgr).append ?_
      cases hw : (dbSet s [u, c, gi] (.grant g')).2 with
      | error e => exact Tr.nil
      | ok _ =>
        simp only
        exact response_tr hset (sid := sid) now mc ma idt req (by
          intro g2 hg2
          have := dbSet3_own s u c gi (.grant g') hgi
          rw [hu2, hg2] at this
          cases this
          exact hev.2)

theorem authz_tr {gid : Str} {req : AuthReq} (hn : NoEmpty s0) (hgid : gid ≠ [])
    (hfresh : ∀ u c g, s0 (sessionKey [u, c, gid]) ≠ some (.grant g)) (cdb : Cdb) (now : Int) (mc ma : MintIn) (idt : Out Str)
    (a : AuthnIn) : Tr env (NewFor env s0 now a gid req) s0 (authzTrace env cdb s0 now gid mc ma idt a req) := by
  unfold authzTrace
  cases hc : cdb req.clientId with
  | none => exact Tr.nil
  | some c =>
    simp only
    split
    · exact Tr.nil
    · have h1 := setupAuth_st (env := env) (req := req) hn hgid cdb now a
      refine (setup_tr hn hgid cdb now a).append ?_
      cases hs : (setupAuth env cdb s0 now gid req a).2 with
      | raise e => exact Tr.nil
      | errMsg e => exact Tr.nil
      | val x =>
        cases x with
        | login => exact Tr.nil
        | loginRequired => exact Tr.nil
        | session sid u =>
          simp only
          apply part2_tr h1.1
          intro g hgg
          obtain ⟨hg, _, u1, c1, gi, hu1⟩ := getGrant_key h1.1.noEmpty hgg
          rcases h1.2 sid u hs with ⟨u', c', hk⟩ | ⟨g0, h2, h3, h4⟩
          · obtain ⟨g0, h5, h6⟩ := h1.1.moves _ _ hg
            rcases h5 with h5 | h5
            · rw [hk] at h5
              exact absurd h5 (hfresh _ _ _)
            · rw [h6.authReq]
              exact h5.2.2.2.2.1
          · rw [h4] at hg
            have h5 := (dbGet_key hn h2).1
            rw [(unpack3_key hu1).1] at h5
            have h6 : s0 (sessionKey [u1, c1, gi]) = some (.grant g0) := h5
            rw [(unpack3_key hu1).2, hg] at h6
            cases h6
            exact h3

end Verif
