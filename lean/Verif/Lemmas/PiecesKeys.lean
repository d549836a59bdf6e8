import Verif.Lemmas.Pieces
import Verif.Lemmas.LocalToken
set_option linter.unusedSimpArgs false
set_option linter.unusedVariables false
/-! Which keys the programs of `Model/Pieces.lean` read and write, whatever they find there. -/
namespace Verif
open Spec

/-- The program touches only keys of users in `W`, whatever it reads, and ends only with results in `Q`. -/
def Prog.Within {α : Type} (W : Str → Prop) (Q : α → Prop) : Prog α → Prop
  | .ret a => Q a
  | .read k f => W (ownerOf k) ∧ ∀ o, (f o).Within W Q
  | .write k _ p => W (ownerOf k) ∧ p.Within W Q

theorem Prog.Within.bind {α β : Type} {W : Str → Prop} {Q : α → Prop} {R : β → Prop} {p : Prog α} {f : α → Prog β}
    (hp : p.Within W Q) (hf : ∀ a, Q a → (f a).Within W R) : (p.bind f).Within W R := by
  induction p with
  | ret a => exact hf a hp
  | read k h ih => exact ⟨hp.1, fun o => ih o (hp.2 o)⟩
  | write k v p ih => exact ⟨hp.1, ih hp.2⟩

theorem Prog.Within.mono {α : Type} {W : Str → Prop} {Q R : α → Prop} {p : Prog α} (hp : p.Within W Q) (hf : ∀ a, Q a → R a) : p.Within W R := by
  induction p with
  | ret a => exact hf a hp
  | read k h ih => exact ⟨hp.1, fun o => ih o (hp.2 o)⟩
  | write k v p ih => exact ⟨hp.1, ih hp.2⟩

/-- Any result. -/
abbrev Any {α : Type} : α → Prop := fun _ => True

variable {W : Str → Prop}

theorem withinGet {path : List Str} (hp : PathOk path) (hu : ∀ u, path.head? = some u → W u) : (getP path).Within W Any := by
  unfold getP
  match path, hp, hu with
  | [], _, _ => trivial
  | u :: r, hp, hu =>
    have hq := hp u rfl
    have hw : W u := hu u rfl
    have k1 : W (ownerOf u) := by rw [hq.1]; exact hw
    match r, hq with
    | [], hq => exact ⟨k1, fun o => by cases o <;> trivial⟩
    | [c], hq =>
      have k2 : W (ownerOf (sessionKey [u, c])) := by rw [(hq.2 c _ rfl).1]; exact hw
      refine ⟨k1, fun o => ?_⟩
      cases o with
      | none => trivial
      | some ui =>
        dsimp only
        cases ui.subordinate with
        | error e => trivial
        | ok usub =>
          dsimp only
          split
          · trivial
          · exact ⟨k2, fun o => by cases o <;> trivial⟩
    | c :: g :: r, hq =>
      have k2 : W (ownerOf (sessionKey [u, c])) := by rw [(hq.2 c _ rfl).1]; exact hw
      have k3 : W (ownerOf (sessionKey [u, c, g])) := by rw [(hq.2 c _ rfl).2 g r rfl]; exact hw
      refine ⟨k1, fun o => ?_⟩
      cases o with
      | none => trivial
      | some ui =>
        dsimp only
        cases ui.subordinate with
        | error e => trivial
        | ok usub =>
          dsimp only
          split
          · trivial
          · refine ⟨k2, fun o => ?_⟩
            cases o with
            | none => trivial
            | some ci =>
              dsimp only
              cases ci.subordinate with
              | error e => trivial
              | ok csub =>
                dsimp only
                split
                · trivial
                · exact ⟨k3, fun o => by cases o <;> trivial⟩

theorem withinSetClient {u c : Str} (k : W (ownerOf (sessionKey [u, c]))) (g : Option Str) (v : Obj) : (setClientP u c g v).Within W Any := by
  refine ⟨k, fun o => ?_⟩
  match g with
  | none => exact ⟨k, trivial⟩
  | some [] => exact ⟨k, trivial⟩
  | some (g0 :: gs) =>
    match o with
    | none => exact ⟨k, trivial⟩
    | some (.grant _) => trivial
    | some (.info i) =>
      dsimp only
      split
      · trivial
      · exact ⟨k, trivial⟩

theorem withinSetUser {u : Str} (k : W (ownerOf u)) (c : Option Str) (v : Obj) : (setUserP u c v).Within W Any := by
  refine ⟨k, fun o => ?_⟩
  match c with
  | none => exact ⟨k, trivial⟩
  | some [] => trivial
  | some (g0 :: gs) =>
    match o with
    | none => exact ⟨k, trivial⟩
    | some (.grant _) => trivial
    | some (.info i) =>
      dsimp only
      split
      · trivial
      · exact ⟨k, trivial⟩

theorem withinSetRest {u : Str} {c g : Option Str} (k1 : W (ownerOf u)) (k2 : truthy c = true → W (ownerOf (sessionKey [u, c.getD []]))) (v : Obj) :
    (setRestP u c g v).Within W Any := by
  unfold setRestP
  refine Prog.Within.bind (Q := Any) ?_ (fun a _ => ?_)
  · split
    · exact withinSetClient (k2 (by assumption)) _ _
    · trivial
  · cases a with
    | error e => trivial
    | ok x => exact withinSetUser k1 _ _

theorem withinSet {path : List Str} (hp : PathOk path) (hu : ∀ u, path.head? = some u → W u) (v : Obj) : (setP path v).Within W Any := by
  unfold setP
  match path, hp, hu with
  | [], _, _ => trivial
  | u :: r, hp, hu =>
    have hq := hp u rfl
    have hw : W u := hu u rfl
    have k1 : W (ownerOf u) := by rw [hq.1]; exact hw
    match r, hq with
    | [], hq => exact withinSetRest k1 (fun h => by cases h) v
    | [c], hq => exact withinSetRest k1 (fun _ => by rw [show (some c).getD [] = c from rfl, (hq.2 c _ rfl).1]; exact hw) v
    | c :: g :: r, hq =>
      have k3 : W (ownerOf (sessionKey [u, c, g])) := by rw [(hq.2 c _ rfl).2 g r rfl]; exact hw
      have := withinSetRest (W := W) (u := u) (c := some c) (g := some g) k1
        (fun _ => by rw [show (some c).getD [] = c from rfl, (hq.2 c _ rfl).1]; exact hw) v
      simp only [evalPath]
      split
      · exact ⟨k3, this⟩
      · exact this

theorem withinCreateGrant (sf : SubFuncs) (now : Int) (gid : Str) {u : Str} (c : Str) (a : SessArgs) (hn : UserName u) (hw : W u) :
    (createGrantP sf now gid u c a).Within W (fun r => ∀ sid, r = .ok sid → ownerOf sid = u) := by
  unfold createGrantP
  split
  · intro sid h; cases h
  · refine Prog.Within.bind (withinSet (pathOk_name hn _) (headIn hw) _) (fun a _ => ?_)
    cases a with
    | error e => intro sid h; cases h
    | ok x => intro sid h; cases h; exact ownerOf_key3 hn

theorem withinEnsureUser {u : Str} (hn : UserName u) (hw : W u) : (ensureUserP u).Within W Any := by
  unfold ensureUserP
  refine Prog.Within.bind (withinGet (pathOk_name hn _) (headIn hw)) (fun a _ => ?_)
  cases a with
  | ok o => trivial
  | error e =>
    dsimp only
    split
    · exact withinSet (pathOk_name hn _) (headIn hw) _
    · trivial

theorem withinCreateSession (sf : SubFuncs) (now : Int) (gid : Str) {u : Str} (c : Str) (a : SessArgs) (hn : UserName u) (hw : W u) :
    (createSessionP sf now gid u c a).Within W (fun r => ∀ sid, r = .ok sid → ownerOf sid = u) := by
  unfold createSessionP
  refine Prog.Within.bind (withinEnsureUser hn hw) (fun x _ => ?_)
  cases x with
  | error e => intro sid h; cases h
  | ok x =>
    refine Prog.Within.bind (withinSet (pathOk_name hn _) (headIn hw) _) (fun x _ => ?_)
    cases x with
    | error e => intro sid h; cases h
    | ok x => exact withinCreateGrant sf now gid _ a hn hw

theorem withinMgrGet {sid : Str} (hw : W (ownerOf sid)) : (mgrGetP sid).Within W Any := withinGet (headOk_unpack sid).path (unpackIn hw)
theorem withinMgrSet {sid : Str} (hw : W (ownerOf sid)) (v : Obj) : (mgrSetP sid v).Within W Any := withinSet (headOk_unpack sid).path (unpackIn hw) v

theorem withinGet3 {sid u c g : Str} (h : unpack3 sid = .ok (u, c, g)) (hw : W (ownerOf sid)) : (getP [u, c, g]).Within W Any := by
  obtain ⟨e, h1, _⟩ := unpack3_owner h
  exact withinGet h1 (headIn (e ▸ hw))

theorem withinGetGrant {sid : Str} (hw : W (ownerOf sid)) : (getGrantP sid).Within W Any := by
  unfold getGrantP
  split
  · trivial
  · rename_i u c g h
    refine Prog.Within.bind (withinGet3 h hw) (fun x _ => ?_)
    split <;> trivial

theorem withinByToken {env : Env} {now : Int} {v : Str} (hv : In env W now v) :
    (byTokenP env.th env.cr now v).Within W (fun r => ∀ sid o, r = .ok (sid, o) → env.th.sid env.cr now v = .ok sid) := by
  unfold byTokenP
  split
  · intro sid o h; cases h
  · rename_i sid hs
    split
    · intro sid o h; cases h
    · rename_i u c g h
      refine Prog.Within.bind (withinGet3 h (hv sid hs)) (fun x _ => ?_)
      cases x with
      | error e => intro sid o h; cases h
      | ok o => intro sid' o' h; cases h; exact hs

theorem withinRevokeClientAt {u c : Str} (hp : PathOk [u, c]) (hw : W u) : (revokeClientAtP u c).Within W Any := by
  unfold revokeClientAtP
  refine Prog.Within.bind (withinGet hp (headIn hw)) (fun x _ => ?_)
  split
  · trivial
  · trivial
  · exact withinSet hp (headIn hw) _

theorem withinRevokeClient {sid : Str} (hw : W (ownerOf sid)) : (revokeClientP sid).Within W Any := by
  unfold revokeClientP
  have hh := headOk_unpack sid
  obtain ⟨r, hr, _⟩ := unpack_owner sid
  rw [hr] at hh ⊢
  have hn : r ≠ [] → UserName (ownerOf sid) := fun h => (hh _ rfl).2 h
  match r, hn with
  | [], _ => trivial
  | [c], hn => exact withinRevokeClientAt (pathOk_name (hn (by simp)) _) hw
  | [c, g], hn => exact withinRevokeClientAt (pathOk_name (hn (by simp)) _) hw
  | c :: g :: x :: r, _ => trivial

theorem withinRevokeGrant {sid : Str} (hw : W (ownerOf sid)) : (revokeGrantP sid).Within W Any := by
  unfold revokeGrantP
  refine Prog.Within.bind (withinGet (headOk_unpack sid).path (unpackIn hw)) (fun x _ => ?_)
  cases x with
  | error e => trivial
  | ok o => exact withinSet (headOk_unpack sid).path (unpackIn hw) _

theorem withinAddGrant (now : Int) (gid : Str) {u : Str} (c : Str) (a : GrantArgs) (hn : UserName u) (hw : W u) : (addGrantP now gid u c a).Within W Any := by
  unfold addGrantP
  refine Prog.Within.bind (withinSet (pathOk_name hn _) (headIn hw) _) (fun x _ => ?_)
  cases x with
  | error e => trivial
  | ok x =>
    refine Prog.Within.bind (withinGet (pathOk_name hn _) (headIn hw)) (fun x _ => ?_)
    split
    · trivial
    · trivial
    · refine Prog.Within.bind (withinSet (pathOk_name hn _) (headIn hw) _) (fun x _ => ?_)
      cases x <;> trivial

theorem withinRevokeToken (m : Mode) (limit : Nat) {sid : Str} (v : Str) (r : Bool) (hw : W (ownerOf sid)) : (revokeTokenP m limit sid v r).Within W Any := by
  unfold revokeTokenP
  split
  · trivial
  · rename_i u c g h
    refine Prog.Within.bind (withinGet3 h hw) (fun x _ => ?_)
    split
    · trivial
    · trivial
    · split
      · trivial
      · cases m with
        | aliased => exact ⟨hw, trivial⟩
        | byValue => trivial

theorem withinDelGrants (u c : Str) (hk : ∀ g, W (ownerOf (sessionKey [u, c, g]))) (l : List Str) : (delGrantsP u c l).Within W Any := by
  induction l with
  | nil => trivial
  | cons g gs ih =>
    refine ⟨hk g, fun o => ?_⟩
    cases o with
    | none => trivial
    | some _ => exact ⟨hk g, ih⟩

theorem withinDelete (m : Mode) {path : List Str} (hp : HeadOk path) (hu : ∀ u, path.head? = some u → W u)
    (hc : ∀ c g r, path.tail = c :: g :: r → W (ownerOf c)) : (deleteP m path).Within W Any := by
  unfold deleteP
  match path, hp, hu, hc with
  | [], _, _, _ => trivial
  | u :: r, hp, hu, hc =>
    have hw : W u := hu u rfl
    have k1 : W (ownerOf u) := by rw [(hp u rfl).1]; exact hw
    have up : ∀ ui l, (delUserPartP u ui l).Within W Any := fun ui l => ⟨k1, trivial⟩
    match r with
    | [] =>
      refine ⟨k1, fun o => ?_⟩
      cases o with
      | none => trivial
      | some ui => exact ⟨k1, trivial⟩
    | c :: r =>
      have hn : UserName u := (hp u rfl).2 (by simp)
      have k2 : W (ownerOf (sessionKey [u, c])) := by rw [((pathOk_name hn [c]) u rfl).2 c [] rfl |>.1]; exact hw
      have k3 : ∀ g, W (ownerOf (sessionKey [u, c, g])) := fun g => by rw [ownerOf_key3 hn]; exact hw
      obtain ⟨g, hev⟩ : ∃ g, evalPath (u :: c :: r) = .ok (u, some c, g) := by
        match r with
        | [] => exact ⟨none, rfl⟩
        | g :: r => exact ⟨some g, rfl⟩
      have hspill : truthy g = true → W (ownerOf c) := by
        intro hg
        match r with
        | [] => cases hev; cases hg
        | g' :: r => exact hc c g' r rfl
      rw [hev]
      refine ⟨k1, fun o => ?_⟩
      cases o with
      | none => trivial
      | some ui =>
        dsimp only
        split
        · exact ⟨k1, trivial⟩
        · cases ui.subordinate with
          | error e => trivial
          | ok usub =>
            dsimp only
            split
            · trivial
            · refine ⟨k2, fun o => ?_⟩
              cases o with
              | none => exact up _ _
              | some ci =>
                dsimp only
                cases ci.subordinate with
                | error e => trivial
                | ok csub =>
                  dsimp only
                  split
                  · rename_i hg
                    have after : ∀ l, (afterGrantP u c ui ci usub l).Within W Any := by
                      intro l
                      unfold afterGrantP
                      split
                      · exact ⟨k2, up _ _⟩
                      · exact ⟨hspill hg, up _ _⟩
                    unfold removeGrantP
                    split
                    · refine ⟨k3 _, ?_⟩
                      split
                      · exact ⟨k2, after _⟩
                      · exact after _
                    · exact after _
                  · unfold delClientP
                    refine Prog.Within.bind (withinDelGrants u c k3 csub) (fun x _ => ?_)
                    cases x with
                    | error e => trivial
                    | ok x => exact ⟨k2, up _ _⟩

theorem withinRemove (m : Mode) {sid : Str} (hw : W (ownerOf sid)) (hc : ∀ c g, (unpackSessionKey sid).tail = [c, g] → W (ownerOf c)) :
    (removeSessionP m sid).Within W Any := by
  unfold removeSessionP
  split
  · trivial
  · rename_i u c g h
    have hk : unpackSessionKey sid = [u, c, g] := by
      unfold unpack3 at h
      split at h
      · rename_i a b d e
        simp only [Except.ok.injEq, Prod.mk.injEq] at h
        obtain ⟨rfl, rfl, rfl⟩ := h
        exact e
      · cases h
    have hh := headOk_unpack sid
    rw [hk] at hh hc
    obtain ⟨e, _⟩ := unpack3_owner h
    refine withinDelete m hh (headIn (e ▸ hw)) (fun c' g' r hr => ?_)
    simp only [List.tail_cons, List.cons.injEq] at hr
    exact hc c' g' (by simp [hr.1, hr.2.1])

/-! ### Minting and the token endpoint -/

/-- A minted token carries the string that the handler made for the session. -/
def StringOf (env : Env) (now : Int) (m : MintIn) (sid v : Str) : Prop := ∃ hd, v = handlerCall env.cr hd now m.rnd m.nonce sid m.ttype

theorem withinMint (env : Env) (h : Option Handler) (now : Int) (m : MintIn) {sid : Str} (tt : Str) (g : Grant) (b : Option Token) (hw : W (ownerOf sid)) :
    (mintP env h now m sid tt g b).Within W (fun r => ∀ t, r.2 = .ok t → StringOf env now m sid t.value) := by
  unfold mintP
  dsimp only
  rcases mintToken_cases g now m.id tt b (some ((g.usageRules.get? tt).getD {})) [] {} (tokenString env h now m sid)
    with ⟨h1, h2⟩ | ⟨v, k, hv, _, _, _, item, hi, hr⟩
  · split
    · intro t ht; cases ht
    · intro t ht; cases ht
    · rename_i t ht; exact absurd ht (h2 t)
  · rw [hr]
    dsimp only
    refine Prog.Within.bind (withinMgrSet hw _) (fun x _ => ?_)
    have hs : StringOf env now m sid v := by
      unfold tokenString at hv
      split at hv
      · cases hv
      · split at hv
        · cases hv
        · cases hv; exact ⟨_, rfl⟩
    have hvi : item.value = v := by rw [hi]; rfl
    cases x with
    | error e => intro t ht; cases ht
    | ok x =>
      intro t ht
      cases ht
      split
      · rw [hvi]; exact hs
      · change StringOf env now m sid item.value; rw [hvi]; exact hs

theorem withinMintIf (want : Bool) (env : Env) (h : Option Handler) (now : Int) (m : MintIn) {sid : Str} (tt : Str) (g : Grant) (b : Option Token)
    (hw : W (ownerOf sid)) : (mintIfP want env h now m sid tt g b).Within W Any := by
  unfold mintIfP
  split
  · exact Prog.Within.bind (withinMint env h now m tt g b hw) (fun x _ => trivial)
  · trivial

/-- The answer's access token was minted in a session. -/
def TokenFor (env : Env) (i : TokIn) (sid : Str) (o : Out TokResp) : Prop := ∀ resp, o = .val resp → StringOf env i.now i.ma sid resp.accessToken

theorem withinExchangeCode (env : Env) (i : TokIn) {sid : Str} (g : Grant) (b : Option Token) (ar : AuthReq) (hw : W (ownerOf sid)) :
    (exchangeCodeP env i sid g b ar).Within W (TokenFor env i sid) := by
  unfold exchangeCodeP
  refine Prog.Within.bind (withinMint env _ _ _ _ g b hw) (fun r1 h1 => ?_)
  split
  · intro r h; cases h
  · rename_i tok ht
    refine Prog.Within.bind (withinMintIf _ env _ _ _ _ _ _ hw) (fun r2 _ => ?_)
    split
    · intro r h; cases h
    · unfold finishCodeP
      split
      · intro r h; cases h
      · refine Prog.Within.bind (withinMgrSet hw _) (fun x _ => ?_)
        split
        · intro r h; cases h
        · split
          · intro r h; cases h
          · intro r h; cases h
          · intro r h; cases h; exact h1 tok ht

theorem withinExchangeRefresh (m : Mode) (env : Env) (i : TokIn) {sid : Str} (g : Grant) (b : Option Token) (hw : W (ownerOf sid)) :
    (exchangeRefreshP m env i sid g b).Within W (TokenFor env i sid) := by
  unfold exchangeRefreshP
  refine Prog.Within.bind (withinMint env _ _ _ _ g b hw) (fun r1 h1 => ?_)
  split
  · intro r h; cases h
  · rename_i tok ht
    split
    · intro r h; cases h
    · split
      · intro r h; cases h
      · refine Prog.Within.bind (Q := Any) ?_ (fun x _ => ?_)
        · unfold newRefreshP
          refine Prog.Within.bind (withinMintIf _ env _ _ _ _ _ _ hw) (fun r2 _ => ?_)
          split
          · trivial
          · trivial
          · cases m with
            | aliased => exact ⟨hw, trivial⟩
            | byValue => trivial
        · split
          · intro r h; cases h
          · unfold finishRefreshP
            split
            · intro r h; cases h
            · intro r h; cases h
            · intro r h; cases h; exact h1 tok ht

/-- The token in the answer resolves to a session of `W`. -/
def AnswerIn (env : Env) (W : Str → Prop) (i : TokIn) (o : Out TokResp) : Prop := ∀ resp, o = .val resp → In env W i.now resp.accessToken

theorem answerIn_of {env : Env} (L : TokenCryptoLaws env.cr) {i : TokIn} {sid : Str} (hw : W (ownerOf sid)) (o : Out TokResp) (h : TokenFor env i sid o) :
    AnswerIn env W i o := by
  intro resp hr x hx
  obtain ⟨hd, e⟩ := h resp hr
  rw [e] at hx
  rw [minted_sid L _ hx]
  exact hw

theorem withinTokProcess (m : Mode) {env : Env} (L : TokenCryptoLaws env.cr) (hs : Dict Helper) (i : TokIn) (req : TokReq)
    (hc : ∀ v, req.code = some v → In env W i.now (plusForBlank v)) (hr : ∀ v, req.refreshToken = some v → In env W i.now v) :
    (tokProcessP m env hs i req).Within W Any := by
  unfold tokProcessP
  refine Prog.Within.bind (Q := AnswerIn env W i) ?_ (fun x hx => ?_)
  · unfold helperProcessP
    split
    · intro r h; cases h
    · split
      · intro r h; cases h
      · intro r h; cases h
      · unfold codeProcessP
        split
        · intro r h; cases h
        · split
          · intro r h; cases h
          · rename_i v hv
            refine Prog.Within.bind (withinByToken (hc v hv)) (fun x hx => ?_)
            split
            · intro r h; cases h
            · intro r h; cases h
            · rename_i sid g
              have hw : W (ownerOf sid) := hc v hv sid (hx sid _ rfl)
              split
              · intro r h; cases h
              · split
                · intro r h; cases h
                · intro r h; cases h
                · exact (withinExchangeCode env i g _ _ hw).mono (answerIn_of L hw)
      · unfold refreshProcessP
        split
        · intro r h; cases h
        · split
          · intro r h; cases h
          · rename_i v hv
            refine Prog.Within.bind (withinByToken (hr v hv)) (fun x hx => ?_)
            split
            · intro r h; cases h
            · intro r h; cases h
            · rename_i sid g
              have hw : W (ownerOf sid) := hr v hv sid (hx sid _ rfl)
              exact (withinExchangeRefresh m env i g _ hw).mono (answerIn_of L hw)
  · split
    · trivial
    · trivial
    · refine Prog.Within.bind (withinByToken (hx _ rfl)) (fun x _ => ?_)
      split <;> trivial

/-- The parsed request has the token strings of the request. -/
def SameTokens (req : TokReq) (o : Out TokReq) : Prop := ∀ r, o = .val r → r.code = req.code ∧ r.refreshToken = req.refreshToken

theorem withinTokParse {env : Env} (hs : Dict Helper) (now : Int) (req : TokReq)
    (hc : ∀ v, req.code = some v → In env W now v) (hr : ∀ v, req.refreshToken = some v → In env W now v) :
    (tokParseP env hs now req).Within W (SameTokens req) := by
  unfold tokParseP
  refine Prog.Within.bind (Q := SameTokens req) ?_ (fun x hx => ?_)
  · unfold helperParseP
    split
    · intro r h; cases h
    · split
      · intro r h; cases h
      · intro r h; cases h
      · unfold codeParseP
        split
        · intro r h; cases h
        · rename_i v hv
          refine Prog.Within.bind (withinByToken (hc v hv)) (fun x hx => ?_)
          split
          · split <;> (intro r h; cases h)
          · intro r h; cases h
          · repeat' split
            all_goals (intro r h; cases h <;> exact ⟨rfl, rfl⟩)
      · unfold refreshParseP
        split
        · intro r h; cases h
        · rename_i v hv
          refine Prog.Within.bind (withinByToken (hr v hv)) (fun x hx => ?_)
          split
          · split <;> (intro r h; cases h)
          · intro r h; cases h
          · repeat' split
            all_goals (intro r h; cases h <;> exact ⟨rfl, rfl⟩)
  · split
    · intro r h; cases h
    · intro r h; cases h
    · rename_i q
      have hq := hx q rfl
      split
      · intro r h; cases h; exact hq
      · unfold pkceTokenParseP
        split
        · intro r h; cases h
        · rename_i v hv
          refine Prog.Within.bind (withinByToken (hc v (hq.1 ▸ hv))) (fun x hx => ?_)
          split
          · split <;> (intro r h; cases h)
          · intro r h; cases h
          · repeat' split
            all_goals (intro r h; cases h <;> exact hq)

theorem withinTokenEndpoint (m : Mode) {env : Env} (L : TokenCryptoLaws env.cr) (hs : Dict Helper) (i : TokIn) (req : TokReq)
    (hc : ∀ v, req.code = some v → In env W i.now v ∧ In env W i.now (plusForBlank v))
    (hr : ∀ v, req.refreshToken = some v → In env W i.now v) : (tokenEndpointP m env hs i req).Within W Any := by
  unfold tokenEndpointP
  refine Prog.Within.bind (withinTokParse hs i.now req (fun v h => (hc v h).1) hr) (fun x hx => ?_)
  split
  · trivial
  · trivial
  · rename_i r
    have hq := hx r rfl
    exact withinTokProcess m L hs i r (fun v h => (hc v (hq.1 ▸ h)).2) (fun v h => hr v (hq.2 ▸ h))

theorem withinUserinfo {env : Env} (db : Str → Dict Val) (now : Int) {v : Str} (hv : In env W now v) : (userinfoP env db now v).Within W Any := by
  unfold userinfoP
  refine Prog.Within.bind (withinByToken hv) (fun x _ => ?_)
  repeat' split
  all_goals trivial

theorem withinIntrospect {env : Env} (iss : Str) (rel : Bool) (db : Str → Dict Val) (now : Int) {v : Str} (hv : In env W now v) :
    (introspectP env iss rel db now v).Within W Any := by
  unfold introspectP
  refine Prog.Within.bind (withinByToken hv) (fun x _ => ?_)
  repeat' split
  all_goals trivial

/-! ### The authorization endpoint -/

/-- The session that `setup_auth` found or made belongs to a user of `W`. -/
def SetupIn (W : Str → Prop) (o : Out Setup) : Prop := ∀ sid u, o = .val (.session sid u) → W (ownerOf sid)

theorem withinSetup (env : Env) (cdb : Cdb) (now : Int) (gid : Str) (req : AuthReq) (a : AuthnIn)
    (hn : ∀ uid, (a.ident = .plain uid ∨ ∃ sid, a.ident = .decoded (some uid) sid) → UserName uid)
    (hw : ∀ u, IdentOf a.ident u → W u) : (setupAuthP env cdb now gid req a).Within W (SetupIn W) := by
  have nl : SetupIn W (.val (needLogin req)) := by
    intro sid u h
    unfold needLogin at h
    split at h <;> cases h
  unfold setupAuthP
  split
  · exact nl
  · rename_i uid hid
    split
    · intro sid u h; cases h
    · split
      · exact nl
      · unfold startSessionP
        refine Prog.Within.bind (withinCreateSession _ _ _ _ _ (hn uid (Or.inl hid)) (hw uid (by rw [hid]; exact rfl))) (fun x hx => ?_)
        cases x with
        | error e => intro sid u h; cases h
        | ok sid => intro sid' u h; cases h; rw [hx _ rfl]; exact hw uid (by rw [hid]; exact rfl)
  · rename_i uid sid hid
    split
    · intro sid u h; cases h
    · rename_i sid
      have hws : W (ownerOf sid) := hw _ (by rw [hid]; exact Or.inr ⟨_, rfl, rfl⟩)
      refine Prog.Within.bind (withinMgrGet hws) (fun x _ => ?_)
      split
      · intro sid u h; cases h
      · intro sid u h; cases h
      · split
        · exact nl
        · split
          · intro sid u h; cases h
          · split
            · intro sid u h; cases h
            · rename_i uid
              have hwu : W uid := hw _ (by rw [hid]; exact Or.inl rfl)
              split
              · exact nl
              · split
                · intro sid u h; cases h
                · split
                  · intro sid u h; cases h
                  · refine Prog.Within.bind (Q := fun o => ∀ sid', o = .val sid' → W (ownerOf sid')) ?_ (fun x hx => ?_)
                    · unfold reuseP
                      split
                      · intro sid' h; cases h; exact hws
                      · split
                        · intro sid' h; cases h
                        · intro sid' h; cases h
                        · refine Prog.Within.bind (withinCreateGrant _ _ _ _ _ (hn uid (Or.inr ⟨_, hid⟩)) hwu) (fun x hx => ?_)
                          cases x with
                          | error e => intro sid' h; cases h
                          | ok s' => intro sid' h; cases h; rw [hx _ rfl]; exact hwu
                    · split
                      · intro sid u h; cases h
                      · intro sid u h; cases h
                      · rename_i sid'
                        have hw' := hx sid' rfl
                        refine Prog.Within.bind (Q := Any) ?_ (fun x _ => ?_)
                        · unfold authnEventP
                          split
                          · trivial
                          · rename_i h
                            refine Prog.Within.bind (withinGet3 h hw') (fun x _ => ?_)
                            split <;> trivial
                        · split
                          · intro sid u h; cases h
                          · split
                            · intro sid u h; cases h
                            · intro sid u h; cases h
                            · intro sid u h; cases h; exact hw'

theorem withinResponse (env : Env) (now : Int) (mc ma : MintIn) (idt : Out Str) (req : AuthReq) {sid : Str} (hw : W (ownerOf sid)) :
    (responseP env now mc ma idt req sid).Within W Any := by
  unfold responseP
  split
  · trivial
  · refine Prog.Within.bind (withinGetGrant hw) (fun x _ => ?_)
    split
    · trivial
    · refine Prog.Within.bind (withinMintIf _ env _ _ _ _ _ _ hw) (fun r1 _ => ?_)
      split
      · trivial
      · refine Prog.Within.bind (withinMintIf _ env _ _ _ _ _ _ hw) (fun r2 _ => ?_)
        split
        · trivial
        · refine Prog.Within.bind (Q := Any) ?_ (fun x _ => ?_)
          · unfold idTokenPartP
            split
            · split
              · trivial
              · trivial
              · split
                · trivial
                · rename_i u c g h
                  obtain ⟨e, _, h2⟩ := unpack3_owner h
                  refine Prog.Within.bind (withinGet h2 (headIn (e ▸ hw))) (fun x _ => ?_)
                  split
                  · trivial
                  · refine Prog.Within.bind (withinSet h2 (headIn (e ▸ hw)) _) (fun x _ => ?_)
                    split <;> trivial
            · trivial
          · split
            · trivial
            · trivial
            · split <;> trivial

theorem withinPart2 (env : Env) (cdb : Cdb) (now : Int) (mc ma : MintIn) (idt : Out Str) (req : AuthReq) {sid : Str} (hw : W (ownerOf sid)) :
    (part2P env cdb now mc ma idt req sid).Within W Any := by
  unfold part2P
  refine Prog.Within.bind (withinGetGrant hw) (fun x _ => ?_)
  split
  · trivial
  · split
    · trivial
    · rename_i u c g h
      obtain ⟨e, h1, _⟩ := unpack3_owner h
      dsimp only
      split
      · trivial
      · refine Prog.Within.bind (withinSet h1 (headIn (e ▸ hw)) _) (fun x _ => ?_)
        split
        · trivial
        · refine Prog.Within.bind (withinResponse env now mc ma idt req hw) (fun x _ => ?_)
          repeat' split
          all_goals trivial

theorem withinAuthz (env : Env) (cdb : Cdb) (now : Int) (gid : Str) (mc ma : MintIn) (idt : Out Str) (a : AuthnIn) (req : AuthReq)
    (hn : ∀ uid, (a.ident = .plain uid ∨ ∃ sid, a.ident = .decoded (some uid) sid) → UserName uid)
    (hw : ∀ u, IdentOf a.ident u → W u) : (authzProcessP env cdb now gid mc ma idt a req).Within W Any := by
  unfold authzProcessP
  split
  · trivial
  · split
    · trivial
    · refine Prog.Within.bind (withinSetup env cdb now gid req a hn hw) (fun x hx => ?_)
      split
      · trivial
      · trivial
      · trivial
      · trivial
      · exact Prog.Within.bind (withinPart2 env cdb now mc ma idt req (hx _ _ rfl)) (fun _ _ => trivial)

end Verif
