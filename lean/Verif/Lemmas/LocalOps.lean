import Verif.Lemmas.Local
import Verif.Lemmas.SysMoves
set_option linter.unusedSimpArgs false
set_option linter.unusedVariables false
/-! The session manager and the endpoints read and write only what belongs to the users they are about. -/
namespace Verif
open Spec

variable {P W : Str → Prop} {s s' : Store}

theorem ownerOf_key3 {u c g : Str} (h : UserName u) : ownerOf (sessionKey [u, c, g]) = u :=
  ((pathOk_name h [c, g]) u rfl).2 c [g] rfl |>.2 g [] rfl

/-- Names at the head of a path. -/
theorem headIn {Q : Str → Prop} {u : Str} {r : List Str} (h : Q u) : ∀ v, (u :: r).head? = some v → Q v := by
  intro v hv
  simp only [List.head?_cons, Option.some.injEq] at hv
  exact hv ▸ h

theorem unpackIn {Q : Str → Prop} {sid : Str} (h : Q (ownerOf sid)) : ∀ v, (unpackSessionKey sid).head? = some v → Q v := by
  obtain ⟨r, h1, _⟩ := unpack_owner sid
  rw [h1]
  exact headIn h

theorem simCreateGrant (ha : Agree P s s') (sf : SubFuncs) (now : Int) (gid : Str) {u : Str} (c : Str) (a : SessArgs)
    (hn : UserName u) (hu : P u) (hw : W u) : Sim W s s' (createGrant sf s now gid u c a) (createGrant sf s' now gid u c a) := by
  unfold createGrant
  cases newGrant sf now gid u a with
  | error e => exact Sim.pure _
  | ok g =>
    dsimp only
    have d := simSet (W := W) ha (pathOk_name hn [c, gid]) (headIn (Q := fun v => P v ∧ W v) ⟨hu, hw⟩) (.grant g)
    generalize dbSet s [u, c, gid] (.grant g) = q at d ⊢
    generalize dbSet s' [u, c, gid] (.grant g) = q' at d ⊢
    rw [← d.out]
    cases q.2 with
    | error e => exact d.map _
    | ok x => exact d.map _

theorem simEnsureUser (ha : Agree P s s') {u : Str} (hn : UserName u) (hu : P u) (hw : W u) :
    Sim W s s' (ensureUser s u) (ensureUser s' u) := by
  unfold ensureUser
  rw [ha.get (pathOk_name hn []) (headIn hu)]
  cases dbGet s' [u] with
  | ok o => exact Sim.pure _
  | error e =>
    dsimp only
    split
    · exact simSet ha (pathOk_name hn []) (headIn (Q := fun v => P v ∧ W v) ⟨hu, hw⟩) _
    · exact Sim.pure _

theorem simCreateSession (ha : Agree P s s') (sf : SubFuncs) (now : Int) (gid : Str) {u : Str} (c : Str) (a : SessArgs)
    (hn : UserName u) (hu : P u) (hw : W u) : Sim W s s' (createSession sf s now gid u c a) (createSession sf s' now gid u c a) := by
  unfold createSession
  dsimp only
  have d := simEnsureUser (W := W) ha hn hu hw
  generalize ensureUser s u = q at d ⊢
  generalize ensureUser s' u = q' at d ⊢
  rw [← d.out]
  cases q.2 with
  | error e => exact d.map _
  | ok x =>
    dsimp only
    generalize (if c = [] then a.authReq.clientId else c) = cc
    have d2 := simSet (W := W) (d.agree ha) (pathOk_name hn [cc]) (headIn (Q := fun v => P v ∧ W v) ⟨hu, hw⟩)
      (.info (SessInfo.client cc))
    generalize dbSet q.1 [u, cc] (.info (SessInfo.client cc)) = p at d2 ⊢
    generalize dbSet q'.1 [u, cc] (.info (SessInfo.client cc)) = p' at d2 ⊢
    rw [← d2.out]
    cases p.2 with
    | error e => exact d.trans (d2.map _)
    | ok x => exact d.trans (d2.trans (simCreateGrant (d2.agree (d.agree ha)) sf now gid cc a hn hu hw))

theorem simAddGrant (ha : Agree P s s') (now : Int) (gid : Str) {u : Str} (c : Str) (a : GrantArgs)
    (hn : UserName u) (hu : P u) (hw : W u) : Sim W s s' (addGrant s now gid u c a) (addGrant s' now gid u c a) := by
  unfold addGrant
  dsimp only
  generalize Grant.new now gid { a with claims := [] } = g
  have d := simSet (W := W) ha (pathOk_name hn [c, gid]) (headIn (Q := fun v => P v ∧ W v) ⟨hu, hw⟩) (.grant g)
  generalize dbSet s [u, c, gid] (.grant g) = q at d ⊢
  generalize dbSet s' [u, c, gid] (.grant g) = q' at d ⊢
  rw [← d.out]
  cases q.2 with
  | error e => exact d.map _
  | ok x =>
    dsimp only
    rw [(d.agree ha).get (pathOk_name hn [c]) (headIn hu)]
    cases dbGet q'.1 [u, c] with
    | error e => exact d.map _
    | ok o =>
      cases o with
      | grant gg => exact d.map _
      | info i =>
        dsimp only
        have d2 := simSet (W := W) (d.agree ha) (pathOk_name hn [c]) (headIn (Q := fun v => P v ∧ W v) ⟨hu, hw⟩)
          (.info { i with subordinate := i.subordinate ++ [gid] })
        generalize dbSet q.1 [u, c] (.info { i with subordinate := i.subordinate ++ [gid] }) = p at d2 ⊢
        generalize dbSet q'.1 [u, c] (.info { i with subordinate := i.subordinate ++ [gid] }) = p' at d2 ⊢
        rw [← d2.out]
        cases p.2 with
        | error e => exact d.trans (d2.map _)
        | ok x => exact d.trans (d2.map _)

theorem agree_findToken (ha : Agree P s s') (sid v : Str) (hu : P (ownerOf sid)) : findToken s sid v = findToken s' sid v := by
  unfold findToken
  cases h : unpack3 sid with
  | error e => rfl
  | ok p =>
    obtain ⟨u, c, g⟩ := p
    obtain ⟨e, hp, _⟩ := unpack3_owner h
    dsimp only
    rw [ha.get hp (headIn (e ▸ hu))]

theorem agree_getGrant (ha : Agree P s s') (sid : Str) (hu : P (ownerOf sid)) : getGrant s sid = getGrant s' sid := by
  unfold getGrant
  cases h : unpack3 sid with
  | error e => rfl
  | ok p =>
    obtain ⟨u, c, g⟩ := p
    obtain ⟨e, hp, _⟩ := unpack3_owner h
    dsimp only
    rw [ha.get hp (headIn (e ▸ hu))]

theorem agree_authnEvent (ha : Agree P s s') (sid : Str) (hu : P (ownerOf sid)) : getAuthnEvent s sid = getAuthnEvent s' sid := by
  unfold getAuthnEvent
  cases h : unpack3 sid with
  | error e => rfl
  | ok p =>
    obtain ⟨u, c, g⟩ := p
    obtain ⟨e, hp, _⟩ := unpack3_owner h
    dsimp only
    rw [ha.get hp (headIn (e ▸ hu))]

theorem agree_mgrGet (ha : Agree P s s') (sid : Str) (hu : P (ownerOf sid)) : mgrGet s sid = mgrGet s' sid := by
  unfold mgrGet
  exact ha.get (headOk_unpack sid).path (unpackIn hu)

theorem simMgrSet (ha : Agree P s s') (sid : Str) (v : Obj) (hu : P (ownerOf sid)) (hw : W (ownerOf sid)) :
    Sim W s s' (mgrSet s sid v) (mgrSet s' sid v) := by
  unfold mgrSet
  exact simSet ha (headOk_unpack sid).path (unpackIn (Q := fun v => P v ∧ W v) ⟨hu, hw⟩) v

theorem simRevokeToken (m : Mode) (ha : Agree P s s') (limit : Nat) (sid v : Str) (r : Bool) (hu : P (ownerOf sid))
    (hw : W (ownerOf sid)) : Sim W s s' (revokeToken m s limit sid v r) (revokeToken m s' limit sid v r) := by
  unfold revokeToken
  rw [agree_findToken ha sid v hu]
  cases findToken s' sid v with
  | error e => exact Sim.pure _
  | ok p =>
    obtain ⟨g, t⟩ := p
    cases t with
    | none => exact Sim.pure _
    | some t =>
      dsimp only
      cases m with
      | aliased => exact Sim.put hw _ _
      | byValue => exact Sim.pure _

theorem simRevokeGrant (ha : Agree P s s') (sid : Str) (hu : P (ownerOf sid)) (hw : W (ownerOf sid)) :
    Sim W s s' (revokeGrant s sid) (revokeGrant s' sid) := by
  unfold revokeGrant
  rw [ha.get (headOk_unpack sid).path (unpackIn hu)]
  cases dbGet s' (unpackSessionKey sid) with
  | error e => exact Sim.pure _
  | ok o => exact simSet ha (headOk_unpack sid).path (unpackIn (Q := fun v => P v ∧ W v) ⟨hu, hw⟩) _

theorem simRevokeClient (ha : Agree P s s') (sid : Str) (hu : P (ownerOf sid)) (hw : W (ownerOf sid)) :
    Sim W s s' (revokeClientSession s sid) (revokeClientSession s' sid) := by
  unfold revokeClientSession
  have key : ∀ u c, PathOk [u, c] → P u → W u →
      Sim W s s' (match dbGet s [u, c] with
        | .error e => (s, .error e)
        | .ok (.grant _) => (s, .error .typeError)
        | .ok (.info i) => dbSet s [u, c] (.info i.revoke))
       (match dbGet s' [u, c] with
        | .error e => (s', .error e)
        | .ok (.grant _) => (s', .error .typeError)
        | .ok (.info i) => dbSet s' [u, c] (.info i.revoke)) := by
    intro u c hp h1 h2
    rw [ha.get hp (headIn h1)]
    cases dbGet s' [u, c] with
    | error e => exact Sim.pure _
    | ok o =>
      cases o with
      | grant g => exact Sim.pure _
      | info i => exact simSet ha hp (headIn (Q := fun v => P v ∧ W v) ⟨h1, h2⟩) _
  obtain ⟨r, h1, h2⟩ := unpack_owner sid
  have hh := headOk_unpack sid
  rw [h1] at hh ⊢
  dsimp only
  have hn : r ≠ [] → UserName (ownerOf sid) := fun hr => (hh _ rfl).2 hr
  match r, hn with
  | [], _ => exact Sim.pure _
  | [c], hn => exact key _ c (pathOk_name (hn (by simp)) _) hu hw
  | [c, g], hn => exact key _ c (pathOk_name (hn (by simp)) _) hu hw
  | c :: g :: x :: r, _ => exact Sim.pure _

theorem simRemove (m : Mode) (ha : Agree P s s') (sid : Str) (hu : P (ownerOf sid)) (hw : W (ownerOf sid))
    (hc : ∀ c g, (unpackSessionKey sid).tail = [c, g] → W (ownerOf c)) :
    Sim W s s' (removeSession m s sid) (removeSession m s' sid) := by
  unfold removeSession
  cases h : unpack3 sid with
  | error e => exact Sim.pure _
  | ok p =>
    obtain ⟨u, c, g⟩ := p
    dsimp only
    have hk : unpackSessionKey sid = [u, c, g] := by
      unfold unpack3 at h
      split at h
      · rename_i a b d hq
        simp only [Except.ok.injEq, Prod.mk.injEq] at h
        obtain ⟨rfl, rfl, rfl⟩ := h
        exact hq
      · cases h
    have hh := headOk_unpack sid
    rw [hk] at hh hc
    obtain ⟨e, _⟩ := unpack3_owner h
    refine simDelete m ha hh (headIn (Q := fun v => P v ∧ W v) ⟨e ▸ hu, e ▸ hw⟩) ?_
    intro c' g' r hr
    simp only [List.tail_cons, List.cons.injEq] at hr
    exact hc c' g' (by simp [hr.1, hr.2.1])

/-! ### The authorization endpoint -/

theorem simMint (ha : Agree P s s') (env : Env) (h : Option Handler) (now : Int) (m : MintIn) (sid tt : Str) (g : Grant)
    (b : Option Token) (hu : P (ownerOf sid)) (hw : W (ownerOf sid)) :
    Sim W s s' (mintAndStore env h s now m sid tt g b) (mintAndStore env h s' now m sid tt g b) := by
  unfold mintAndStore
  dsimp only
  generalize g.mintToken now m.id tt b (some ((g.usageRules.get? tt).getD {})) [] {} (tokenString env h now m sid) = r
  cases r.2 with
  | error e => exact Sim.pure _
  | ok o =>
    cases o with
    | none => exact Sim.pure _
    | some t =>
      dsimp only
      generalize (if ((g.usageRules.get? tt).getD {}).expiresIn.getD 0 = 0 then r.1 else { r.1 with issuedToken := setLastExpiry (now + ((g.usageRules.get? tt).getD {}).expiresIn.getD 0) r.1.issuedToken } : Grant) = g'
      have d := simMgrSet (W := W) ha sid (.grant g') hu hw
      generalize mgrSet s sid (.grant g') = q at d ⊢
      generalize mgrSet s' sid (.grant g') = q' at d ⊢
      rw [← d.out]
      cases q.2 with
      | error e => exact d.map _
      | ok x => exact d.map _

theorem Sim.post {α β : Type} {r r' : Store × α} (h : Sim W s s' r r') (f : α → β) : Sim W s s' (r.1, f r.2) (r'.1, f r'.2) :=
  ⟨by rw [h.out], h.keep, h.frame⟩

theorem simCodePart (ha : Agree P s s') (env : Env) (now : Int) (mc : MintIn) (sid : Str) (g : Grant) (req : AuthReq)
    (hu : P (ownerOf sid)) (hw : W (ownerOf sid)) : Sim W s s' (codePart env s now mc sid g req) (codePart env s' now mc sid g req) := by
  unfold codePart
  split
  · exact (simMint ha env env.th.code now mc sid tAuthorizationCode g none hu hw).post fun x => (x.1, x.2.map some)
  · exact Sim.pure _

theorem simTokenPart (ha : Agree P s s') (env : Env) (now : Int) (mc : MintIn) (sid : Str) (g : Grant) (code : Option Token)
    (req : AuthReq) (hu : P (ownerOf sid)) (hw : W (ownerOf sid)) :
    Sim W s s' (tokenPart env s now mc sid g code req) (tokenPart env s' now mc sid g code req) := by
  unfold tokenPart
  split
  · exact (simMint ha env env.th.accessToken now mc sid tAccessToken g code hu hw).post fun x => (x.1, x.2.map some)
  · exact Sim.pure _

theorem simIdTokenPart (ha : Agree P s s') (idt : Out Str) (sid : Str) (req : AuthReq) (hu : P (ownerOf sid))
    (hw : W (ownerOf sid)) : Sim W s s' (idTokenPart s idt sid req) (idTokenPart s' idt sid req) := by
  unfold idTokenPart
  split
  · cases idt with
    | raise e => exact Sim.pure _
    | errMsg e => exact Sim.pure _
    | val i =>
      dsimp only
      cases h : unpack3 sid with
      | error e => exact Sim.pure _
      | ok p =>
        obtain ⟨u, c, g⟩ := p
        obtain ⟨e, _, hp⟩ := unpack3_owner h
        dsimp only
        rw [ha.get hp (headIn (e ▸ hu))]
        cases dbGet s' [u, c] with
        | error e => exact Sim.pure _
        | ok o =>
          dsimp only
          have d := simSet (W := W) ha hp (headIn (Q := fun v => P v ∧ W v) ⟨e ▸ hu, e ▸ hw⟩) o
          generalize dbSet s [u, c] o = q at d ⊢
          generalize dbSet s' [u, c] o = q' at d ⊢
          rw [← d.out]
          cases q.2 with
          | error e => exact d.map _
          | ok x => exact d.map _
  · exact Sim.pure _

theorem simAuthnResponse (ha : Agree P s s') (env : Env) (now : Int) (mc ma : MintIn) (idt : Out Str) (req : AuthReq) (sid : Str)
    (hu : P (ownerOf sid)) (hw : W (ownerOf sid)) :
    Sim W s s' (createAuthnResponse env s now mc ma idt req sid) (createAuthnResponse env s' now mc ma idt req sid) := by
  unfold createAuthnResponse
  split
  · exact Sim.pure _
  · rw [agree_getGrant ha sid hu]
    cases getGrant s' sid with
    | error e => exact Sim.pure _
    | ok g =>
      dsimp only
      have d := simCodePart (W := W) ha env now mc sid g req hu hw
      generalize codePart env s now mc sid g req = q at d ⊢
      generalize codePart env s' now mc sid g req = q' at d ⊢
      rw [← d.out]
      cases q.2.2 with
      | error e => exact d.map _
      | ok code =>
        dsimp only
        have d2 := simTokenPart (W := W) (d.agree ha) env now ma sid q.2.1 code req hu hw
        generalize tokenPart env q.1 now ma sid q.2.1 code req = p at d2 ⊢
        generalize tokenPart env q'.1 now ma sid q.2.1 code req = p' at d2 ⊢
        rw [← d2.out]
        cases p.2.2 with
        | error e => exact d.trans (d2.map _)
        | ok tok =>
          dsimp only
          have d3 := simIdTokenPart (W := W) (d2.agree (d.agree ha)) idt sid req hu hw
          generalize idTokenPart p.1 idt sid req = z at d3 ⊢
          generalize idTokenPart p'.1 idt sid req = z' at d3 ⊢
          rw [← d3.out]
          cases z.2 with
          | raise e => exact d.trans (d2.trans (d3.map _))
          | errMsg e => exact d.trans (d2.trans (d3.map _))
          | val i =>
            dsimp only
            split
            · exact d.trans (d2.trans (d3.map _))
            · exact d.trans (d2.trans (d3.map _))

theorem simAuthzPart2 (ha : Agree P s s') (env : Env) (cdb : Cdb) (now : Int) (mc ma : MintIn) (idt : Out Str) (req : AuthReq)
    (sid : Str) (hu : P (ownerOf sid)) (hw : W (ownerOf sid)) :
    let r := authzPart2 env cdb s now mc ma idt req sid
    let r' := authzPart2 env cdb s' now mc ma idt req sid
    Sim W s s' (r.2.1, r.1, r.2.2) (r'.2.1, r'.1, r'.2.2) := by
  unfold authzPart2
  rw [agree_getGrant ha sid hu]
  cases getGrant s' sid with
  | error e => exact Sim.pure _
  | ok g =>
    dsimp only
    cases h : unpack3 sid with
    | error e => exact Sim.pure _
    | ok p =>
      obtain ⟨u, c, gi⟩ := p
      obtain ⟨e, hp, _⟩ := unpack3_owner h
      dsimp only
      generalize authzCall env.gc env.ccfg cdb now c g req = a
      cases a.2 with
      | error e => exact Sim.pure _
      | ok g' =>
        dsimp only
        have d := simSet (W := W) ha hp (headIn (Q := fun v => P v ∧ W v) ⟨e ▸ hu, e ▸ hw⟩) (.grant g')
        generalize dbSet s [u, c, gi] (.grant g') = q at d ⊢
        generalize dbSet s' [u, c, gi] (.grant g') = q' at d ⊢
        rw [← d.out]
        cases q.2 with
        | error e => exact d.map _
        | ok x =>
          dsimp only
          have d2 := simAuthnResponse (W := W) (d.agree ha) env now mc ma idt req sid hu hw
          generalize createAuthnResponse env q.1 now mc ma idt req sid = z at d2 ⊢
          generalize createAuthnResponse env q'.1 now mc ma idt req sid = z' at d2 ⊢
          rw [← d2.out]
          cases z.2 with
          | error e => exact d.trans (d2.map _)
          | ok y =>
            obtain ⟨content, frag⟩ := y
            dsimp only
            cases getUri env.lib a.1 .redirect req.clientId req.redirectUri with
            | error e => exact d.trans (d2.map _)
            | ok uri =>
              dsimp only
              cases responseMode req.responseMode frag with
              | error e => exact d.trans (d2.map _)
              | ok pl => exact d.trans (d2.map _)

theorem simStartSession (ha : Agree P s s') (env : Env) (cdb : Cdb) (now : Int) (gid : Str) (req : AuthReq) (a : AuthnIn) {uid : Str}
    (hn : UserName uid) (hu : P uid) (hw : W uid) :
    Sim W s s' (startSession env cdb s now gid req a uid) (startSession env cdb s' now gid req a uid) := by
  unfold startSession
  dsimp only
  generalize ({ authnEvent := some _, authReq := req, usageRules := usageRulesOf env.gc cdb req.clientId } : SessArgs) = sa
  have d := simCreateSession (W := W) ha env.sf now gid req.clientId sa hn hu hw
  generalize createSession env.sf s now gid uid req.clientId sa = q at d ⊢
  generalize createSession env.sf s' now gid uid req.clientId sa = q' at d ⊢
  rw [← d.out]
  cases q.2 with
  | error e => exact d.map _
  | ok sid => exact d.map _

theorem createGrant_owner {sf : SubFuncs} {now : Int} {gid u c sid : Str} {a : SessArgs} (hn : UserName u)
    (h : (createGrant sf s now gid u c a).2 = .ok sid) : ownerOf sid = u := by
  unfold createGrant at h
  cases hg : newGrant sf now gid u a with
  | error e => rw [hg] at h; cases h
  | ok g =>
    rw [hg] at h
    dsimp only at h
    split at h
    · cases h
    · simp only [Except.ok.injEq] at h
      rw [← h]
      exact ownerOf_key3 hn

theorem createSession_owner {sf : SubFuncs} {now : Int} {gid u c sid : Str} {a : SessArgs} (hn : UserName u)
    (h : (createSession sf s now gid u c a).2 = .ok sid) : ownerOf sid = u := by
  unfold createSession at h
  dsimp only at h
  split at h
  · cases h
  · split at h
    · cases h
    · exact createGrant_owner hn h

/-- The end of `setupAuth`. -/
def sessionEnd (now : Int) (uid : Str) (r : Store × Out Str) : Store × Out Setup :=
  match r.2 with
  | .raise e => (r.1, .raise e)
  | .errMsg _ => (r.1, .val .login)
  | .val sid' =>
    match getAuthnEvent r.1 sid' with
    | .error e => (r.1, .raise e)
    | .ok ev => match eventValid now ev with
      | .error e => (r.1, .raise e)
      | .ok false => (r.1, .val .login)
      | .ok true => (r.1, .val (.session sid' uid))

theorem simSessionEnd {q q' : Store × Out Str} (d : Sim W s s' q q') (ha : Agree P s s') (now : Int) (uid : Str)
    (ho : ∀ x, q.2 = .val x → P (ownerOf x) ∧ W (ownerOf x)) :
    Sim W s s' (sessionEnd now uid q) (sessionEnd now uid q') ∧
      ∀ sid u, (sessionEnd now uid q).2 = .val (.session sid u) → P (ownerOf sid) ∧ W (ownerOf sid) := by
  unfold sessionEnd
  rw [← d.out]
  cases hq2 : q.2 with
  | raise e => exact ⟨d.map _, by simp⟩
  | errMsg e => exact ⟨d.map _, by simp⟩
  | val sid' =>
    obtain ⟨x1, x2⟩ := ho sid' hq2
    dsimp only
    rw [agree_authnEvent (d.agree ha) sid' x1]
    cases getAuthnEvent q'.1 sid' with
    | error e => exact ⟨d.map _, by simp⟩
    | ok ev =>
      dsimp only
      cases eventValid now ev with
      | error e => exact ⟨d.map _, by simp⟩
      | ok b =>
        cases b with
        | false => exact ⟨d.map _, by simp⟩
        | true =>
          refine ⟨d.map _, fun x u hx => ?_⟩
          simp only [Out.val.injEq, Setup.session.injEq] at hx
          rw [← hx.1]
          exact ⟨x1, x2⟩

theorem simSetupAuth (ha : Agree P s s') (env : Env) (cdb : Cdb) (now : Int) (gid : Str) (req : AuthReq) (a : AuthnIn)
    (hn : ∀ uid, (a.ident = .plain uid ∨ ∃ sid, a.ident = .decoded (some uid) sid) → UserName uid)
    (hu : ∀ u, IdentOf a.ident u → P u ∧ W u) :
    Sim W s s' (setupAuth env cdb s now gid req a) (setupAuth env cdb s' now gid req a) ∧
      ∀ sid u, (setupAuth env cdb s now gid req a).2 = .val (.session sid u) → P (ownerOf sid) ∧ W (ownerOf sid) := by
  unfold setupAuth
  cases hi : a.ident with
  | nobody => exact ⟨Sim.pure _, by simp [needLogin]; split <;> simp⟩
  | plain uid =>
    have hname := hn uid (Or.inl hi)
    obtain ⟨h1, h2⟩ := hu uid (by rw [hi]; rfl)
    dsimp only
    by_cases hr : a.reAuth = true
    · simp only [hr, if_true]; exact ⟨Sim.pure _, by simp⟩
    · simp only [hr, if_false, Bool.false_eq_true]
      by_cases hq : (a.reqUser.isSome = true) ∧ a.reqUser ≠ some uid
      · simp only [if_pos hq]; exact ⟨Sim.pure _, by simp [needLogin]; split <;> simp⟩
      · simp only [if_neg hq]
        refine ⟨simStartSession ha env cdb now gid req a hname h1 h2, ?_⟩
        intro sid u h
        unfold startSession at h
        dsimp only at h
        split at h
        · cases h
        · rename_i x hx
          simp only [Out.val.injEq, Setup.session.injEq] at h
          rw [← h.1, createSession_owner hname hx]
          exact ⟨h1, h2⟩
  | decoded uid sid =>
    dsimp only
    cases sid with
    | none => exact ⟨Sim.pure _, by simp⟩
    | some sid =>
      obtain ⟨p1, p2⟩ := hu (ownerOf sid) (by rw [hi]; exact Or.inr ⟨sid, rfl, rfl⟩)
      dsimp only
      rw [agree_mgrGet ha sid p1]
      cases mgrGet s' sid with
      | error e => exact ⟨Sim.pure _, by simp⟩
      | ok o =>
        cases o with
        | info i => exact ⟨Sim.pure _, by simp⟩
        | grant g0 =>
          dsimp only
          by_cases ha0 : g0.isActive now = false
          · simp only [ha0, if_true]; exact ⟨Sim.pure _, by simp [needLogin]; split <;> simp⟩
          · rw [if_neg ha0, if_neg ha0]
            by_cases hr : a.reAuth = true
            · rw [if_pos hr, if_pos hr]; exact ⟨Sim.pure _, by simp⟩
            · rw [if_neg hr, if_neg hr]
              cases uid with
              | none => exact ⟨Sim.pure _, by simp⟩
              | some uid =>
                have hname := hn uid (Or.inr ⟨some sid, hi⟩)
                obtain ⟨q1, q2⟩ := hu uid (by rw [hi]; exact Or.inl rfl)
                dsimp only
                by_cases hq : (a.reqUser.isSome = true) ∧ a.reqUser ≠ some uid
                · simp only [if_pos hq]; exact ⟨Sim.pure _, by simp [needLogin]; split <;> simp⟩
                · simp only [if_neg hq]
                  cases hunp : unpack3 sid with
                  | error e => exact ⟨Sim.pure _, by simp⟩
                  | ok tr =>
                    obtain ⟨u0, c0, gi0⟩ := tr
                    dsimp only
                    by_cases hc : req.clientId ≠ c0
                    · rw [if_pos hc, if_pos hc]; exact ⟨Sim.pure _, by simp⟩
                    · rw [if_neg hc, if_neg hc]
                      by_cases hq : g0.authReq = some req
                      · simp only [if_pos hq]
                        exact simSessionEnd (Sim.pure (Out.val sid)) ha now uid (fun x hx => by
                          simp only [Out.val.injEq] at hx; rw [← hx]; exact ⟨p1, p2⟩)
                      · simp only [if_neg hq]
                        cases eventValid now g0.authnEvent with
                        | error e => exact ⟨Sim.pure _, by simp⟩
                        | ok b =>
                          cases b with
                          | false => exact ⟨Sim.pure _, by simp⟩
                          | true =>
                            dsimp only
                            generalize ({ authnEvent := g0.authnEvent, authReq := req } : SessArgs) = sa
                            have d := simCreateGrant (W := W) ha env.sf now gid req.clientId sa hname q1 q2
                            have ho : ∀ x, (createGrant env.sf s now gid uid req.clientId sa).2 = .ok x → ownerOf x = uid :=
                              fun x hx => createGrant_owner hname hx
                            generalize createGrant env.sf s now gid uid req.clientId sa = q at d ho ⊢
                            generalize createGrant env.sf s' now gid uid req.clientId sa = q' at d ⊢
                            rw [← d.out]
                            cases hq2 : q.2 with
                            | error e => exact ⟨d.map _, by simp⟩
                            | ok y =>
                              exact simSessionEnd (d.map (Out.val y)) ha now uid (fun x hx => by
                                simp only [Out.val.injEq] at hx
                                rw [← hx, ho y hq2]
                                exact ⟨q1, q2⟩)

theorem simAuthz (ha : Agree P s s') (env : Env) (cdb : Cdb) (now : Int) (gid : Str) (mc ma : MintIn) (idt : Out Str)
    (a : AuthnIn) (req : AuthReq)
    (hn : ∀ uid, (a.ident = .plain uid ∨ ∃ sid, a.ident = .decoded (some uid) sid) → UserName uid)
    (hu : ∀ u, IdentOf a.ident u → P u ∧ W u) :
    let r := authzProcess env cdb s now gid mc ma idt a req
    let r' := authzProcess env cdb s' now gid mc ma idt a req
    Sim W s s' (r.2.1, r.1, r.2.2) (r'.2.1, r'.1, r'.2.2) := by
  unfold authzProcess
  cases cdb req.clientId with
  | none => exact Sim.pure _
  | some c =>
    dsimp only
    by_cases hs : checkScopes env c req = false
    · rw [if_pos hs, if_pos hs]; exact Sim.pure _
    · rw [if_neg hs, if_neg hs]
      obtain ⟨d, ho⟩ := simSetupAuth (W := W) ha env cdb now gid req a hn hu
      generalize setupAuth env cdb s now gid req a = q at d ho ⊢
      generalize setupAuth env cdb s' now gid req a = q' at d ⊢
      rw [← d.out]
      cases hq : q.2 with
      | raise e => exact d.map _
      | errMsg e => exact d.map _
      | val x =>
        cases x with
        | login => exact d.map _
        | loginRequired => exact d.map _
        | session sid u =>
          obtain ⟨x1, x2⟩ := ho sid u hq
          have d2 := simAuthzPart2 (W := W) (d.agree ha) env cdb now mc ma idt req sid x1 x2
          exact d.trans (d2.post fun y => (y.1, AuthzAnswer.reply y.2))

end Verif
