import Verif.Model.Resource
import Verif.Model.TokenEndpoint
set_option linter.unusedSimpArgs false
set_option linter.unusedVariables false
/-! The `revoked` mark of user and client session records is read by nothing: two stores that differ only in such marks
behave alike. -/
namespace Verif

/-- Equal, or two session records that differ at most in the mark. -/
def SameObj : Obj → Obj → Prop
  | .info i, .info j => { i with revoked := false } = { j with revoked := false }
  | .grant g, .grant g' => g = g'
  | _, _ => False

def SameOpt : Option Obj → Option Obj → Prop
  | none, none => True
  | some a, some b => SameObj a b
  | _, _ => False

/-- Two stores that differ at most in `revoked` marks of session records. -/
def Blind (s s' : Store) : Prop := ∀ k, SameOpt (s k) (s' k)

/-- Two outcomes of a read. -/
def SameRead : Except Exn Obj → Except Exn Obj → Prop
  | .ok a, .ok b => SameObj a b
  | .error e, .error e' => e = e'
  | _, _ => False

theorem SameObj.refl (o : Obj) : SameObj o o := by cases o <;> rfl
theorem Blind.refl (s : Store) : Blind s s := fun k => by cases s k with
  | none => exact trivial
  | some o => exact SameObj.refl o

theorem SameObj.sub {a b : Obj} (h : SameObj a b) : a.subordinate = b.subordinate := by
  cases a <;> cases b <;> simp [SameObj, Obj.subordinate] at h ⊢
  exact h.2.2

theorem Blind.cases {s s' : Store} (h : Blind s s') (k : Str) :
    (s k = none ∧ s' k = none) ∨ ∃ a b, s k = some a ∧ s' k = some b ∧ SameObj a b := by
  have := h k
  cases h1 : s k <;> cases h2 : s' k <;> simp [h1, h2, SameOpt] at this
  · exact .inl ⟨rfl, rfl⟩
  · exact .inr ⟨_, _, rfl, rfl, this⟩

theorem SameRead.err (e : Exn) : SameRead (.error e) (.error e) := rfl

theorem Blind.get {s s' : Store} (h : Blind s s') (path : List Str) : SameRead (dbGet s path) (dbGet s' path) := by
  unfold dbGet
  cases evalPath path with
  | error e => exact rfl
  | ok p =>
    obtain ⟨u, c, g⟩ := p
    simp only
    rcases h.cases u with ⟨h1, h2⟩ | ⟨a, b, h1, h2, hs⟩
    · simp only [h1, h2]; exact rfl
    · simp only [h1, h2]
      cases c with
      | none => exact hs
      | some c =>
        simp only [← hs.sub]
        cases a.subordinate with
        | error e => exact rfl
        | ok usub =>
          simp only
          split
          · exact rfl
          · rcases h.cases (sessionKey [u, c]) with ⟨k1, k2⟩ | ⟨a', b', k1, k2, ks⟩
            · simp only [k1, k2]; exact rfl
            · simp only [k1, k2]
              cases g with
              | none => exact ks
              | some g =>
                simp only [← ks.sub]
                cases a'.subordinate with
                | error e => exact rfl
                | ok csub =>
                  simp only
                  split
                  · exact rfl
                  · rcases h.cases (sessionKey [u, c, g]) with ⟨l1, l2⟩ | ⟨a2, b2, l1, l2, ls⟩
                    · simp only [l1, l2]; exact rfl
                    · simp only [l1, l2]; exact ls

theorem Blind.put {s s' : Store} (h : Blind s s') (k : Str) {a b : Obj} (hs : SameObj a b) : Blind (s.put k a) (s'.put k b) := by
  intro k'
  unfold Store.put
  by_cases e : k' = k
  · simp only [e, if_true]; exact hs
  · simp only [e, if_false]; exact h k'

theorem SameObj.addSub {i j : SessInfo} (h : SameObj (.info i) (.info j)) (v : Str) :
    SameObj (.info (i.addSubordinate v)) (.info (j.addSubordinate v)) := by
  simp only [SameObj, SessInfo.mk.injEq, and_true] at h
  obtain ⟨h1, h2, h3⟩ := h
  unfold SessInfo.addSubordinate
  rw [h3]
  split <;> simp [SameObj, h1, h2, h3]

/-- Two results of an operation on the store. -/
def SameRes {α : Type} (r r' : Store × α) : Prop := Blind r.1 r'.1 ∧ r.2 = r'.2

theorem Blind.setClient {s s' : Store} (h : Blind s s') (u c : Str) (g : Option Str) {v w : Obj} (hv : SameObj v w) :
    SameRes (dbSetClient s u c g v) (dbSetClient s' u c g w) := by
  have hput : SameRes (s.put (sessionKey [u, c]) v, (.ok () : Except Exn Unit)) (s'.put (sessionKey [u, c]) w, .ok ()) :=
    ⟨h.put _ hv, rfl⟩
  unfold dbSetClient
  match g with
  | none => exact hput
  | some [] => exact hput
  | some (g0 :: gs) =>
    simp only
    rcases h.cases (sessionKey [u, c]) with ⟨h1, h2⟩ | ⟨a, b, h1, h2, hs⟩
    · simp only [h1, h2]
      exact ⟨h.put _ (SameObj.refl _), rfl⟩
    · simp only [h1, h2]
      cases a with
      | grant x =>
        cases b with
        | grant y => exact ⟨h, rfl⟩
        | info j => exact hs.elim
      | info i =>
        cases b with
        | grant y => exact hs.elim
        | info j =>
          simp only
          have : i.subordinate = j.subordinate := by simp [SameObj] at hs; exact hs.2.2
          rw [this]
          split
          · exact ⟨h, rfl⟩
          · exact ⟨h.put _ (hs.addSub _), rfl⟩

theorem Blind.setUser {s s' : Store} (h : Blind s s') (u : Str) (c : Option Str) {v w : Obj} (hv : SameObj v w) :
    SameRes (dbSetUser s u c v) (dbSetUser s' u c w) := by
  unfold dbSetUser
  match c with
  | none => exact ⟨h.put _ hv, rfl⟩
  | some [] => exact ⟨h, rfl⟩
  | some (c0 :: cs) =>
    simp only
    rcases h.cases u with ⟨h1, h2⟩ | ⟨a, b, h1, h2, hs⟩
    · simp only [h1, h2]
      exact ⟨h.put _ (SameObj.refl _), rfl⟩
    · simp only [h1, h2]
      cases a with
      | grant x =>
        cases b with
        | grant y => exact ⟨h, rfl⟩
        | info j => exact hs.elim
      | info i =>
        cases b with
        | grant y => exact hs.elim
        | info j =>
          simp only
          have : i.subordinate = j.subordinate := by simp [SameObj] at hs; exact hs.2.2
          rw [this]
          split
          · exact ⟨h, rfl⟩
          · exact ⟨h.put _ (hs.addSub _), rfl⟩

theorem Blind.set {s s' : Store} (h : Blind s s') (path : List Str) {v w : Obj} (hv : SameObj v w) :
    SameRes (dbSet s path v) (dbSet s' path w) := by
  unfold dbSet
  cases evalPath path with
  | error e => exact ⟨h, rfl⟩
  | ok p =>
    obtain ⟨u, c, g⟩ := p
    simp only
    have h1 : Blind (if truthy g = true then s.put (sessionKey [u, c.getD [], g.getD []]) v else s)
        (if truthy g = true then s'.put (sessionKey [u, c.getD [], g.getD []]) w else s') := by
      split
      · exact h.put _ hv
      · exact h
    generalize (if truthy g = true then s.put (sessionKey [u, c.getD [], g.getD []]) v else s) = s1 at h1 ⊢
    generalize (if truthy g = true then s'.put (sessionKey [u, c.getD [], g.getD []]) w else s') = s1' at h1 ⊢
    have h2 : SameRes (if truthy c = true then dbSetClient s1 u (c.getD []) g v else (s1, .ok ()))
        (if truthy c = true then dbSetClient s1' u (c.getD []) g w else (s1', .ok ())) := by
      split
      · exact h1.setClient _ _ _ hv
      · exact ⟨h1, rfl⟩
    generalize (if truthy c = true then dbSetClient s1 u (c.getD []) g v else (s1, .ok ())) = r at h2 ⊢
    generalize (if truthy c = true then dbSetClient s1' u (c.getD []) g w else (s1', .ok ())) = r' at h2 ⊢
    obtain ⟨a, b⟩ := h2
    rw [← b]
    cases r.2 with
    | error e => exact ⟨a, rfl⟩
    | ok _ => exact a.setUser u c hv

theorem Blind.mgrSet {s s' : Store} (h : Blind s s') (sid : Str) (g : Grant) :
    SameRes (mgrSet s sid (.grant g)) (mgrSet s' sid (.grant g)) := h.set _ rfl

/-- Looking up a token: the same grant, or the same error, or in both cases a record that is not a grant. -/
theorem Blind.byToken {s s' : Store} (h : Blind s s') (th : TokenHandler) (cr : TokenCrypto) (now : Int) (v : Str) :
    (∃ e, sessionByToken th cr s now v = .error e ∧ sessionByToken th cr s' now v = .error e) ∨
    (∃ sid g, sessionByToken th cr s now v = .ok (sid, .grant g) ∧ sessionByToken th cr s' now v = .ok (sid, .grant g)) ∨
    (∃ sid i j, sessionByToken th cr s now v = .ok (sid, .info i) ∧ sessionByToken th cr s' now v = .ok (sid, .info j)) := by
  unfold sessionByToken
  cases th.sid cr now v with
  | error e => exact .inl ⟨e, rfl, rfl⟩
  | ok sid =>
    simp only
    cases unpack3 sid with
    | error e => exact .inl ⟨e, rfl, rfl⟩
    | ok p =>
      obtain ⟨u, c, g⟩ := p
      simp only
      have := h.get [u, c, g]
      cases h1 : dbGet s [u, c, g] with
      | error e =>
        cases h2 : dbGet s' [u, c, g] with
        | error e' => rw [h1, h2] at this; cases this; exact .inl ⟨e, rfl, rfl⟩
        | ok o => rw [h1, h2] at this; exact this.elim
      | ok o =>
        cases h2 : dbGet s' [u, c, g] with
        | error e' => rw [h1, h2] at this; exact this.elim
        | ok o' =>
          rw [h1, h2] at this
          cases o with
          | grant g1 =>
            cases o' with
            | grant g2 => cases this; exact .inr (.inl ⟨sid, g1, rfl, rfl⟩)
            | info j => exact this.elim
          | info i =>
            cases o' with
            | grant g2 => exact this.elim
            | info j => exact .inr (.inr ⟨sid, i, j, rfl, rfl⟩)

theorem Blind.userinfo {s s' : Store} (h : Blind s s') (env : Env) (db : Str → Dict Val) (now : Int) (v : Str) :
    userinfoProcess env db s now v = userinfoProcess env db s' now v := by
  unfold userinfoProcess
  rcases h.byToken env.th env.cr now v with ⟨e, h1, h2⟩ | ⟨sid, g, h1, h2⟩ | ⟨sid, i, j, h1, h2⟩ <;> simp only [h1, h2]

theorem Blind.introspect {s s' : Store} (h : Blind s s') (env : Env) (iss : Str) (rel : Bool) (db : Str → Dict Val) (now : Int)
    (v : Str) : introspectProcess env iss rel db s now v = introspectProcess env iss rel db s' now v := by
  unfold introspectProcess
  rcases h.byToken env.th env.cr now v with ⟨e, h1, h2⟩ | ⟨sid, g, h1, h2⟩ | ⟨sid, i, j, h1, h2⟩ <;> simp only [h1, h2]

theorem Blind.tokParse {s s' : Store} (h : Blind s s') (env : Env) (hs : Dict Helper) (now : Int) (req : TokReq) :
    tokParse env hs s now req = tokParse env hs s' now req := by
  have h1 : codeParse env s now req = codeParse env s' now req := by
    unfold codeParse
    cases req.code with
    | none => rfl
    | some v =>
      rcases h.byToken env.th env.cr now v with ⟨e, h1, h2⟩ | ⟨sid, g, h1, h2⟩ | ⟨sid, i, j, h1, h2⟩ <;> simp only [h1, h2]
  have h2 : refreshParse env s now req = refreshParse env s' now req := by
    unfold refreshParse
    cases req.refreshToken with
    | none => rfl
    | some v =>
      rcases h.byToken env.th env.cr now v with ⟨e, h1, h2⟩ | ⟨sid, g, h1, h2⟩ | ⟨sid, i, j, h1, h2⟩ <;> simp only [h1, h2]
  have h3 : helperParse env hs s now req = helperParse env hs s' now req := by
    unfold helperParse
    rw [h1, h2]
  have h4 : ∀ p r, pkceTokenParse p env s now r = pkceTokenParse p env s' now r := by
    intro p r
    unfold pkceTokenParse
    cases r.code with
    | none => rfl
    | some v =>
      rcases h.byToken env.th env.cr now v with ⟨e, h1, h2⟩ | ⟨sid, g, h1, h2⟩ | ⟨sid, i, j, h1, h2⟩ <;> simp only [h1, h2]
  unfold Verif.tokParse
  rw [h3]
  simp only [h4]

/-- Storing a grant and going on. -/
def storeStep (s : Store) (sid : Str) (g : Grant) (t : Token) : Store × Grant × Except Exn Token :=
  match (mgrSet s sid (.grant g)).2 with
  | .error e => ((mgrSet s sid (.grant g)).1, g, .error e)
  | .ok () => ((mgrSet s sid (.grant g)).1, g, .ok t)

theorem Blind.storeStep {s s' : Store} (h : Blind s s') (sid : Str) (g : Grant) (t : Token) :
    SameRes (storeStep s sid g t) (storeStep s' sid g t) := by
  unfold Verif.storeStep
  obtain ⟨h1, h2⟩ := h.mgrSet sid g
  rw [← h2]
  split <;> exact ⟨h1, rfl⟩

theorem Blind.mint {s s' : Store} (h : Blind s s') (env : Env) (hd : Option Handler) (now : Int) (m : MintIn) (sid tt : Str)
    (g : Grant) (b : Option Token) :
    SameRes (mintAndStore env hd s now m sid tt g b) (mintAndStore env hd s' now m sid tt g b) := by
  unfold mintAndStore
  dsimp only
  split
  · exact ⟨h, rfl⟩
  · exact ⟨h, rfl⟩
  · exact h.storeStep sid _ _

theorem Blind.refreshPart {s s' : Store} (h : Blind s s') (env : Env) (i : TokIn) (sid : Str) (g : Grant) (b : Option Token)
    (w : Bool) : SameRes (refreshPart env s i sid g b w) (refreshPart env s' i sid g b w) := by
  unfold Verif.refreshPart
  split
  · obtain ⟨h1, h2⟩ := h.mint env env.th.accessToken i.now i.mr sid tRefreshToken g b
    dsimp only
    rw [← h2]
    exact ⟨h1, rfl⟩
  · exact ⟨h, rfl⟩

theorem Blind.finishCode {s s' : Store} (h : Blind s s') (i : TokIn) (sid : Str) (g : Grant) (b : Option Token) (ar : AuthReq)
    (t : Token) (rt : Option Token) : SameRes (finishCode s i sid g b ar t rt) (finishCode s' i sid g b ar t rt) := by
  unfold Verif.finishCode
  cases b with
  | none => exact ⟨h, rfl⟩
  | some b =>
    obtain ⟨h1, h2⟩ := h.mgrSet sid (g.registerUsage b.value)
    dsimp only
    rw [← h2]
    split
    · exact ⟨h1, rfl⟩
    · split <;> exact ⟨h1, rfl⟩

theorem Blind.exchangeCode {s s' : Store} (h : Blind s s') (env : Env) (i : TokIn) (sid : Str) (g : Grant) (b : Option Token)
    (ar : AuthReq) : SameRes (exchangeCode env s i sid g b ar) (exchangeCode env s' i sid g b ar) := by
  unfold Verif.exchangeCode
  obtain ⟨h1, h2⟩ := h.mint env env.th.accessToken i.now i.ma sid tAccessToken g b
  dsimp only
  rw [← h2]
  split
  · exact ⟨h1, rfl⟩
  · obtain ⟨h3, h4⟩ := h1.refreshPart env i sid
      (mintAndStore env env.th.accessToken s i.now i.ma sid tAccessToken g b).2.1 b (decide (c!"offline_access" ∈ g.scope))
    generalize Verif.refreshPart env (mintAndStore env env.th.accessToken s i.now i.ma sid tAccessToken g b).1 i sid _ b _ = r
      at h3 h4 ⊢
    generalize Verif.refreshPart env (mintAndStore env env.th.accessToken s' i.now i.ma sid tAccessToken g b).1 i sid _ b _ = r'
      at h3 h4 ⊢
    obtain ⟨x, y, z⟩ := r
    obtain ⟨x', y', z'⟩ := r'
    cases h4
    cases z with
    | error e => exact ⟨h3, rfl⟩
    | ok rt => exact Blind.finishCode h3 _ _ _ _ _ _ _

theorem Blind.codeProcess {s s' : Store} (h : Blind s s') (env : Env) (i : TokIn) (req : TokReq) :
    SameRes (codeProcess env s i req) (codeProcess env s' i req) := by
  unfold Verif.codeProcess
  split
  · exact ⟨h, rfl⟩
  · cases req.code with
    | none => exact ⟨h, rfl⟩
    | some c0 =>
      dsimp only
      rcases h.byToken env.th env.cr i.now (plusForBlank c0) with ⟨e, h1, h2⟩ | ⟨sid, g, h1, h2⟩ | ⟨sid, a, b, h1, h2⟩
      · simp only [h1, h2]; exact ⟨h, rfl⟩
      · simp only [h1, h2]
        split
        · exact ⟨h, rfl⟩
        · split
          · exact ⟨h, rfl⟩
          · exact ⟨h, rfl⟩
          · exact h.exchangeCode _ _ _ _ _ _
      · simp only [h1, h2]; exact ⟨h, rfl⟩

theorem Blind.newRefresh {s s' : Store} (h : Blind s s') (m : Mode) (env : Env) (i : TokIn) (sid : Str) (g : Grant) (b : Token)
    (w : Bool) : SameRes (newRefresh m env s i sid g b w) (newRefresh m env s' i sid g b w) := by
  unfold Verif.newRefresh
  obtain ⟨h1, h2⟩ := h.refreshPart env i sid g (some b) w
  dsimp only
  rw [← h2]
  split
  · exact ⟨h1, rfl⟩
  · exact ⟨h1, rfl⟩
  · refine ⟨?_, rfl⟩
    unfold touch
    cases m with
    | aliased => exact h1.put _ rfl
    | byValue => exact h1

theorem Blind.exchangeRefresh {s s' : Store} (h : Blind s s') (m : Mode) (env : Env) (i : TokIn) (sid : Str) (g : Grant)
    (b : Option Token) : SameRes (exchangeRefresh m env s i sid g b) (exchangeRefresh m env s' i sid g b) := by
  unfold Verif.exchangeRefresh
  obtain ⟨h1, h2⟩ := h.mint env env.th.accessToken i.now i.ma sid tAccessToken g b
  dsimp only
  rw [← h2]
  split
  · exact ⟨h1, rfl⟩
  · cases b with
    | none => exact ⟨h1, rfl⟩
    | some b =>
      dsimp only
      split
      · exact ⟨h1, rfl⟩
      · rename_i mints _
        obtain ⟨h3, h4⟩ := h1.newRefresh m env i sid
          (mintAndStore env env.th.accessToken s i.now i.ma sid tAccessToken g (some b)).2.1 b (decide (tRefreshToken ∈ mints))
        generalize Verif.newRefresh m env
          (mintAndStore env env.th.accessToken s i.now i.ma sid tAccessToken g (some b)).1 i sid _ b _ = r at h3 h4 ⊢
        generalize Verif.newRefresh m env
          (mintAndStore env env.th.accessToken s' i.now i.ma sid tAccessToken g (some b)).1 i sid _ b _ = r' at h3 h4 ⊢
        obtain ⟨x, z⟩ := r
        obtain ⟨x', z'⟩ := r'
        cases h4
        cases z with
        | error e => exact ⟨h3, rfl⟩
        | ok rt =>
          simp only [finishRefresh]
          cases idTokenFor (decide (c!"id_token" ∈ mints)) i.idt <;> exact ⟨h3, rfl⟩

theorem Blind.refreshProcess {s s' : Store} (h : Blind s s') (m : Mode) (env : Env) (i : TokIn) (req : TokReq) :
    SameRes (refreshProcess m env s i req) (refreshProcess m env s' i req) := by
  unfold Verif.refreshProcess
  split
  · exact ⟨h, rfl⟩
  · cases req.refreshToken with
    | none => exact ⟨h, rfl⟩
    | some v =>
      dsimp only
      rcases h.byToken env.th env.cr i.now v with ⟨e, h1, h2⟩ | ⟨sid, g, h1, h2⟩ | ⟨sid, a, b, h1, h2⟩
      · simp only [h1, h2]; exact ⟨h, rfl⟩
      · simp only [h1, h2]; exact h.exchangeRefresh _ _ _ _ _ _
      · simp only [h1, h2]; exact ⟨h, rfl⟩

theorem Blind.tokProcess {s s' : Store} (h : Blind s s') (m : Mode) (env : Env) (hs : Dict Helper) (i : TokIn) (req : TokReq) :
    SameRes (tokProcess m env hs s i req) (tokProcess m env hs s' i req) := by
  have hh : SameRes (helperProcess m env hs s i req) (helperProcess m env hs s' i req) := by
    unfold helperProcess
    split
    · exact ⟨h, rfl⟩
    · split
      · exact ⟨h, rfl⟩
      · exact ⟨h, rfl⟩
      · exact h.codeProcess _ _ _
      · exact h.refreshProcess _ _ _ _
  unfold Verif.tokProcess
  dsimp only
  obtain ⟨h1, h2⟩ := hh
  rw [← h2]
  split
  · exact ⟨h1, rfl⟩
  · exact ⟨h1, rfl⟩
  · rename_i resp _
    rcases h1.byToken env.th env.cr i.now resp.accessToken with ⟨e, k1, k2⟩ | ⟨sid, g, k1, k2⟩ | ⟨sid, a, b, k1, k2⟩ <;>
      (simp only [k1, k2]; exact ⟨h1, rfl⟩)

end Verif
