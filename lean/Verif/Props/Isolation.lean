import Verif.Lemmas.LocalTrace
import Verif.Props.Resource
set_option linter.unusedSimpArgs false
set_option linter.unusedVariables false
/-! C112 C113 C114: users do not interfere with each other. -/
namespace Verif
open Spec

/-- The token request a step processes. -/
def processed : SysOp → List TokReq
  | .tokProcess _ req => [req]
  | .crash op _ => processed op
  | _ => []

def aboutOrSpill (env : Env) (op : SysOp) (u : Str) : Prop := About env op u ∨ Spill op u

theorem reqIn {env : Env} {req : TokReq} {Q : Str → Prop} (h : ∀ u, ReqOf env req u → Q u) (now : Int) :
    (∀ v, req.code = some v → In env Q now v) ∧ (∀ v, req.code = some v → In env Q now (plusForBlank v)) ∧
      ∀ v, req.refreshToken = some v → In env Q now v :=
  ⟨fun v hv sid hs => h _ (Or.inl ⟨v, hv, Or.inl ⟨now, sid, hs, rfl⟩⟩),
   fun v hv sid hs => h _ (Or.inl ⟨v, hv, Or.inr ⟨now, sid, hs, rfl⟩⟩),
   fun v hv sid hs => h _ (Or.inr ⟨v, hv, now, sid, hs, rfl⟩)⟩

/-- Crash points of a step from two states that agree on the users it is about. -/
theorem trStep (cfg : SysCfg) (op : SysOp) (hn : NamesOk op) {W : Str → Prop} (hW : ∀ u, aboutOrSpill cfg.env op u → W u)
    {st st' : Sys} (ha : Agree (About cfg.env op) st.store st'.store)
    (hp : ∀ req ∈ processed op, (req ∈ st.pending ↔ req ∈ st'.pending)) :
    SimL W st.store st'.store (stepTrace cfg st op) (stepTrace cfg st' op) := by
  induction op with
  | authorize cdb now gid mc ma idt a req =>
    exact trAuthz ha cfg.env cdb now gid mc ma idt a req hn (fun u hu => ⟨hu, hW u (Or.inl hu)⟩)
  | tokParse now req => exact .nil
  | tokProcess i req =>
    have h := reqIn (env := cfg.env) (req := req) (Q := fun u => About cfg.env (.tokProcess i req) u ∧ W u)
      (fun u hu => ⟨hu, hW u (Or.inl hu)⟩) i.now
    simp only [stepTrace]
    have hp := hp req (by simp [processed])
    by_cases hr : req ∈ st.pending
    · rw [if_pos hr, if_pos (hp.1 hr)]
      exact trTok ha cfg.env cfg.helpers i req h.2.1 h.2.2
    · rw [if_neg hr, if_neg (fun h => hr (hp.2 h))]
      exact .nil
  | createSession now gid u c a => exact trCreateSession ha cfg.env.sf now gid c a hn rfl (hW u (Or.inl rfl))
  | createGrant now gid u c a => exact trCreateGrant ha cfg.env.sf now gid c a hn rfl (hW u (Or.inl rfl))
  | addGrant now gid u c a => exact trAddGrant ha now gid c a hn rfl (hW u (Or.inl rfl))
  | revokeToken limit sid v r => exact .nil
  | revokeGrant sid => exact trRevokeGrant ha sid rfl (hW _ (Or.inl rfl))
  | revokeClientSession sid => exact trRevokeClient ha sid rfl (hW _ (Or.inl rfl))
  | removeSession sid => exact trRemove ha sid rfl (hW _ (Or.inl rfl)) (fun c g h => hW _ (Or.inr ⟨c, g, h, rfl⟩))
  | delete path =>
    exact trDelete ha (by cases path with
      | nil => intro u hu; simp at hu
      | cons u r => exact headOk_name (hn u rfl) r) (fun u hu => ⟨hu, hW u (Or.inl hu)⟩)
      (fun c g r h => hW _ (Or.inr ⟨c, g, r, h, rfl⟩))
  | crash op n ih => exact (ih hn hW ha hp).take n

/-- A step that is not a crash, from two states that agree on the users it is about: same answer, and what is equal stays
equal; and it writes only what belongs to those users. -/
theorem simStep (cfg : SysCfg) (L : TokenCryptoLaws cfg.env.cr) (op : SysOp) (hno : ∀ op' n, op ≠ .crash op' n) (hn : NamesOk op)
    {W : Str → Prop} (hW : ∀ u, aboutOrSpill cfg.env op u → W u)
    {st st' : Sys} (ha : Agree (About cfg.env op) st.store st'.store)
    (hp : ∀ req ∈ processed op, (req ∈ st.pending ↔ req ∈ st'.pending)) :
    Sim W st.store st'.store ((sysStep cfg st op).store, answer cfg st op) ((sysStep cfg st' op).store, answer cfg st' op) := by
  cases op with
  | authorize cdb now gid mc ma idt a req =>
    have d := simAuthz (W := W) ha cfg.env cdb now gid mc ma idt a req hn (fun u hu => ⟨hu, hW u (Or.inl hu)⟩)
    exact d.post fun x => Ans.authz x.1 x.2
  | tokParse now req =>
    have h := reqIn (env := cfg.env) (req := req) (Q := About cfg.env (.tokParse now req)) (fun u hu => hu) now
    have e := agree_tokParse ha cfg.env cfg.helpers now req h.1 h.2.2
    have hs : ∀ st, (sysStep cfg st (.tokParse now req)).store = st.store := by
      intro st
      simp only [sysStep]
      split <;> rfl
    simp only [hs, answer, e]
    exact Sim.pure _
  | tokProcess i req =>
    have h := reqIn (env := cfg.env) (req := req) (Q := fun u => About cfg.env (.tokProcess i req) u ∧ W u)
      (fun u hu => ⟨hu, hW u (Or.inl hu)⟩) i.now
    have hp := hp req (by simp [processed])
    simp only [sysStep, answer]
    by_cases hr : req ∈ st.pending
    · simp only [if_pos hr, if_pos (hp.1 hr)]
      exact (simTokProcess (W := W) cfg.mode ha L cfg.helpers i req h.2.1 h.2.2).post Ans.token
    · simp only [if_neg hr, if_neg (fun h => hr (hp.2 h))]
      exact Sim.pure _
  | createSession now gid u c a =>
    exact (simCreateSession ha cfg.env.sf now gid c a hn rfl (hW u (Or.inl rfl))).post Ans.sid
  | createGrant now gid u c a => exact (simCreateGrant ha cfg.env.sf now gid c a hn rfl (hW u (Or.inl rfl))).post Ans.sid
  | addGrant now gid u c a => exact (simAddGrant ha now gid c a hn rfl (hW u (Or.inl rfl))).post Ans.grant
  | revokeToken limit sid v r => exact (simRevokeToken cfg.mode ha limit sid v r rfl (hW _ (Or.inl rfl))).post Ans.done
  | revokeGrant sid => exact (simRevokeGrant ha sid rfl (hW _ (Or.inl rfl))).post Ans.done
  | revokeClientSession sid => exact (simRevokeClient ha sid rfl (hW _ (Or.inl rfl))).post Ans.done
  | removeSession sid =>
    exact (simRemove cfg.mode ha sid rfl (hW _ (Or.inl rfl)) (fun c g h => hW _ (Or.inr ⟨c, g, h, rfl⟩))).post Ans.done
  | delete path =>
    exact (simDelete cfg.mode ha (by cases path with
      | nil => intro u hu; simp at hu
      | cons u r => exact headOk_name (hn u rfl) r) (fun u hu => ⟨hu, hW u (Or.inl hu)⟩)
      (fun c g r h => hW _ (Or.inr ⟨c, g, r, h, rfl⟩))).post Ans.done
  | crash op n => exact absurd rfl (hno op n)

theorem frameStep (cfg : SysCfg) (L : TokenCryptoLaws cfg.env.cr) (op : SysOp) (hn : NamesOk op)
    (hm : ∀ op' n, op = .crash op' n → cfg.mode = .byValue) (st : Sys) (k : Str)
    (hk : ¬ aboutOrSpill cfg.env op (ownerOf k)) : (sysStep cfg st op).store k = st.store k := by
  by_cases hc : ∃ op' n, op = .crash op' n
  · obtain ⟨op', n, rfl⟩ := hc
    have d := trStep cfg op' hn (W := aboutOrSpill cfg.env op') (fun u h => h) (st := st) (st' := st) (fun _ _ => rfl) (fun _ _ => Iff.rfl)
    have := ((d.take n).last).frame k hk
    simp only [sysStep, hm op' n rfl]
    exact this
  · exact (simStep cfg L op (fun op' n h => hc ⟨op', n, h⟩) hn (W := aboutOrSpill cfg.env op) (fun u h => h) (st := st) (st' := st)
      (fun _ _ => rfl) (fun _ _ => Iff.rfl)).frame k hk

/-! ### C112 -/

/-- A step changes nothing that is stored for users it is not about: every read of their sessions, and everything userinfo,
introspection and the token endpoint's parser say about their tokens, is the same before and after.  (Exceptions: a single
grant is deleted under a client whose id is also a user name; a crash loses a storage that does not survive the process.) -/
theorem C112_only_own_sessions_change_partial (cfg : SysCfg) (L : TokenCryptoLaws cfg.env.cr) (op : SysOp) (hn : NamesOk op)
    (hm : ∀ op' n, op = .crash op' n → cfg.mode = .byValue) (st : Sys) (u : Str)
    (h1 : ¬ About cfg.env op u) (h2 : ¬ Spill op u) :
    (∀ path, UserName u → dbGet (sysStep cfg st op).store (u :: path) = dbGet st.store (u :: path)) ∧
    ∀ v, (∀ x, TokenOf cfg.env v x → x = u) →
      (∀ db now, userinfoProcess cfg.env db (sysStep cfg st op).store now v = userinfoProcess cfg.env db st.store now v) ∧
      (∀ iss rel db now, introspectProcess cfg.env iss rel db (sysStep cfg st op).store now v =
        introspectProcess cfg.env iss rel db st.store now v) := by
  have ha : Agree (fun x => x = u) (sysStep cfg st op).store st.store := by
    intro k hk
    exact frameStep cfg L op hn hm st k (by rw [hk]; exact fun h => h.elim h1 h2)
  refine ⟨fun path hu => ha.get (pathOk_name hu path) (headIn rfl), fun v hv => ⟨fun db now => ?_, fun iss rel db now => ?_⟩⟩
  · exact agree_userinfo ha cfg.env db now v (fun sid hs => hv _ ⟨now, sid, hs, rfl⟩)
  · exact agree_introspect ha cfg.env iss rel db now v (fun sid hs => hv _ ⟨now, sid, hs, rfl⟩)

/-! ### C113 -/

/-- What two runs have in common for the users of `U`. -/
structure SameSys (env : Env) (U : Str → Prop) (st st' : Sys) : Prop where
  store : Agree U st.store st'.store
  pending : ∀ req, (∀ u, ReqOf env req u → U u) → (req ∈ st.pending ↔ req ∈ st'.pending)

/-- A parsed request carries a token string that resolves to somebody. -/
theorem parsed_someone {env : Env} {hs : Dict Helper} {s : Store} {now : Int} {req r : TokReq}
    (h : tokParse env hs s now req = .val r) : ∃ u, ReqOf env r u := by
  obtain ⟨e1, e2⟩ := tokParse_tokens h
  have key : ∃ r', helperParse env hs s now req = .val r' := by
    unfold tokParse at h
    split at h
    · cases h
    · cases h
    · rename_i r' hr; exact ⟨r', hr⟩
  obtain ⟨r', hr⟩ := key
  unfold helperParse at hr
  split at hr
  · cases hr
  · split at hr
    · cases hr
    · cases hr
    · unfold codeParse at hr
      split at hr
      · cases hr
      · rename_i v hv
        split at hr
        · split at hr <;> cases hr
        · cases hr
        · rename_i sid g hb
          exact ⟨ownerOf sid, Or.inl ⟨v, by rw [e1, hv], Or.inl ⟨now, sid, byToken_sid hb, rfl⟩⟩⟩
    · unfold refreshParse at hr
      split at hr
      · cases hr
      · rename_i v hv
        split at hr
        · split at hr <;> cases hr
        · cases hr
        · rename_i sid g hb
          exact ⟨ownerOf sid, Or.inr ⟨v, by rw [e2, hv], now, sid, byToken_sid hb, rfl⟩⟩

theorem reqOf_congr {env : Env} {r req : TokReq} (h1 : r.code = req.code) (h2 : r.refreshToken = req.refreshToken) (u : Str) :
    ReqOf env r u ↔ ReqOf env req u := by
  unfold ReqOf
  rw [h1, h2]

/-- A step that is about nobody in `U` leaves the pending requests of `U` alone. -/
theorem pendingStep_other (cfg : SysCfg) (U : Str → Prop) (op : SysOp) (hno : ∀ op' n, op ≠ .crash op' n)
    (ho : ∀ u, About cfg.env op u ∨ Spill op u → ¬ U u) (st : Sys)
    (req : TokReq) (hr : ∀ u, ReqOf cfg.env req u → U u) : req ∈ (sysStep cfg st op).pending ↔ req ∈ st.pending := by
  cases op with
  | tokParse now q =>
    simp only [sysStep]
    split
    · rename_i r hp
      obtain ⟨e1, e2⟩ := tokParse_tokens hp
      obtain ⟨u, hu⟩ := parsed_someone hp
      have hne : req ≠ r := by
        rintro rfl
        exact ho u (Or.inl ((reqOf_congr e1 e2 u).1 hu)) (hr u hu)
      simp [hne]
    · exact Iff.rfl
  | tokProcess i q => simp only [sysStep]; split <;> exact Iff.rfl
  | crash op n => exact absurd rfl (hno op n)
  | _ => exact Iff.rfl

theorem pendingStep_own (cfg : SysCfg) (L : TokenCryptoLaws cfg.env.cr) (U : Str → Prop) (op : SysOp) (hno : ∀ op' n, op ≠ .crash op' n)
    (ho : ∀ u, About cfg.env op u → U u) {st st' : Sys} (h : SameSys cfg.env U st st')
    (req : TokReq) (hr : ∀ u, ReqOf cfg.env req u → U u) :
    req ∈ (sysStep cfg st op).pending ↔ req ∈ (sysStep cfg st' op).pending := by
  have hp := h.pending req hr
  cases op with
  | tokParse now q =>
    have hq := reqIn (env := cfg.env) (req := q) (Q := U) ho now
    have e := agree_tokParse h.store cfg.env cfg.helpers now q hq.1 hq.2.2
    simp only [sysStep]
    rw [e]
    split
    · simp only [List.mem_cons, hp]
    · exact hp
  | tokProcess i q => simp only [sysStep]; split <;> split <;> exact hp
  | crash op n => exact absurd rfl (hno op n)
  | _ => exact hp

theorem processed_about {env : Env} {U : Str → Prop} {op : SysOp} (ho : ∀ u, About env op u → U u) :
    ∀ req ∈ processed op, ∀ u, ReqOf env req u → U u := by
  induction op with
  | tokProcess i q =>
    intro req hr u hu
    simp only [processed, List.mem_cons, List.not_mem_nil, or_false] at hr
    subst hr
    exact ho u hu
  | crash op n ih => exact ih ho
  | _ => intro req hr; simp [processed] at hr

/-- One step on both sides. -/
theorem same_keep (cfg : SysCfg) (L : TokenCryptoLaws cfg.env.cr) (U : Str → Prop) (op : SysOp) (hn : NamesOk op)
    (hs : Separate cfg.env U op) {st st' : Sys} (h : SameSys cfg.env U st st') :
    SameSys cfg.env U (sysStep cfg st op) (sysStep cfg st' op) := by
  by_cases hc : ∃ op' n, op = .crash op' n
  · obtain ⟨op', n, rfl⟩ := hc
    cases hm : cfg.mode with
    | aliased => simp only [sysStep, hm]; exact ⟨fun _ _ => rfl, fun _ _ => Iff.rfl⟩
    | byValue =>
      simp only [sysStep, hm]
      refine ⟨?_, fun _ _ => Iff.rfl⟩
      rcases hs with ho | ho
      · have d := trStep cfg op' hn (W := aboutOrSpill cfg.env op') (fun u h => h) (st := st) (st' := st')
          (fun k hk => h.store k (ho _ hk)) (fun req hr => h.pending req (processed_about ho req hr))
        exact (d.take n).last.agree h.store
      · have fr : ∀ st : Sys, ∀ k, U (ownerOf k) → lastOf st.store ((stepTrace cfg st op').take n) k = st.store k := by
          intro st k hk
          have := frameStep cfg L (.crash op' n) hn (fun _ _ _ => hm) st k (fun h => ho _ h hk)
          simpa only [sysStep, hm] using this
        intro k hk
        have h1 := fr st k hk
        have h2 := fr st' k hk
        exact h1.trans ((h.store k hk).trans h2.symm)
  · have hno : ∀ op' n, op ≠ .crash op' n := fun op' n e => hc ⟨op', n, e⟩
    rcases hs with ho | ho
    · have d := simStep cfg L op hno hn (W := aboutOrSpill cfg.env op) (fun u h => h) (st := st) (st' := st')
        (fun k hk => h.store k (ho _ hk)) (fun req hr => h.pending req (processed_about ho req hr))
      exact ⟨d.agree h.store, fun req hr => pendingStep_own cfg L U op hno ho h req hr⟩
    · refine ⟨fun k hk => ?_, fun req hr => ?_⟩
      · rw [frameStep cfg L op hn (fun op' n e => absurd e (hno op' n)) st k (fun h => ho _ h hk),
          frameStep cfg L op hn (fun op' n e => absurd e (hno op' n)) st' k (fun h => ho _ h hk)]
        exact h.store k hk
      · rw [pendingStep_other cfg U op hno ho st req hr, pendingStep_other cfg U op hno ho st' req hr]
        exact h.pending req hr

theorem same_without (cfg : SysCfg) (L : TokenCryptoLaws cfg.env.cr) (U : Str → Prop) {ops ops' : List SysOp}
    (hw : Without cfg.env U ops ops') (hn : ∀ op ∈ ops, NamesOk op) (hs : ∀ op ∈ ops, Separate cfg.env U op) :
    ∀ {st st' : Sys}, SameSys cfg.env U st st' → SameSys cfg.env U (ops.foldl (sysStep cfg) st) (ops'.foldl (sysStep cfg) st') := by
  induction hw with
  | nil => intro st st' h; exact h
  | keep op _ ih =>
    intro st st' h
    exact ih (fun o ho => hn o (by simp [ho])) (fun o ho => hs o (by simp [ho]))
      (same_keep cfg L U op (hn op (by simp)) (hs op (by simp)) h)
  | drop op hno ho _ ih =>
    intro st st' h
    refine ih (fun o ho => hn o (by simp [ho])) (fun o ho => hs o (by simp [ho])) ⟨fun k hk => ?_, fun req hr => ?_⟩
    · rw [frameStep cfg L op (hn op (by simp)) (fun op' n e => absurd e (hno op' n)) st k (fun h => ho _ h hk)]
      exact h.store k hk
    · rw [pendingStep_other cfg U op hno ho st req hr]
      exact h.pending req hr
  | dropKilled op n ho _ ih =>
    intro st st' h
    refine ih (fun o ho => hn o (by simp [ho])) (fun o ho => hs o (by simp [ho])) ?_
    have hname : NamesOk op := hn (.crash op n) (by simp)
    cases hm : cfg.mode with
    | aliased => simp only [sysStep, hm]; exact ⟨fun _ _ => rfl, fun _ _ => Iff.rfl⟩
    | byValue =>
      refine ⟨fun k hk => ?_, fun req hr => by simp [sysStep, hm]⟩
      rw [frameStep cfg L (.crash op n) hname (fun _ _ _ => hm) st k (fun h => ho _ h hk)]
      simp only [sysStep, hm, List.take_zero, lastOf, List.getLast?_nil, Option.getD_none]
      exact h.store k hk

/-- Non-interference.  Take any group of users `U` and any history in which no step mixes users of `U` with others.  Leave
out any of the steps of the others.  Then nobody in `U` can tell the difference: every further request about users of `U`
gets the same answer, all their sessions read the same, and userinfo and introspection say the same about their tokens. -/
theorem C113_noninterference (cfg : SysCfg) (L : TokenCryptoLaws cfg.env.cr) (U : Str → Prop) (ops ops' : List SysOp)
    (hn : ∀ op ∈ ops, NamesOk op) (hs : ∀ op ∈ ops, Separate cfg.env U op) (hw : Without cfg.env U ops ops') :
    (∀ op, NamesOk op → (∀ u, About cfg.env op u → U u) → answer cfg (sysRun cfg ops) op = answer cfg (sysRun cfg ops') op) ∧
    (∀ u path, U u → UserName u → dbGet (sysRun cfg ops).store (u :: path) = dbGet (sysRun cfg ops').store (u :: path)) ∧
    ∀ v, (∀ u, TokenOf cfg.env v u → U u) →
      (∀ db now, userinfoProcess cfg.env db (sysRun cfg ops).store now v = userinfoProcess cfg.env db (sysRun cfg ops').store now v) ∧
      (∀ iss rel db now, introspectProcess cfg.env iss rel db (sysRun cfg ops).store now v =
        introspectProcess cfg.env iss rel db (sysRun cfg ops').store now v) := by
  have h := same_without cfg L U hw hn hs (st := Sys.init) (st' := Sys.init) ⟨fun _ _ => rfl, fun _ _ => Iff.rfl⟩
  change SameSys cfg.env U (sysRun cfg ops) (sysRun cfg ops') at h
  refine ⟨fun op hop ho => ?_, fun u path hu hname => h.store.get (pathOk_name hname path) (headIn hu), fun v hv => ⟨?_, ?_⟩⟩
  · by_cases hc : ∃ op' n, op = .crash op' n
    · obtain ⟨op', n, rfl⟩ := hc
      rfl
    · have d := simStep cfg L op (fun op' n e => hc ⟨op', n, e⟩) hop (W := aboutOrSpill cfg.env op) (fun u h => h)
        (st := sysRun cfg ops) (st' := sysRun cfg ops')
        (fun k hk => h.store k (ho _ hk)) (fun req hr => h.pending req (processed_about ho req hr))
      exact d.out
  · exact fun db now => agree_userinfo h.store cfg.env db now v (fun sid hs => hv _ ⟨now, sid, hs, rfl⟩)
  · exact fun iss rel db now => agree_introspect h.store cfg.env iss rel db now v (fun sid hs => hv _ ⟨now, sid, hs, rfl⟩)

/-! ### C114 -/

/-- Two steps that have no user in common can be done in either order: the storage is the same afterwards, and each gets the
answer it would have got alone. -/
theorem C114_other_users_steps_commute (cfg : SysCfg) (L : TokenCryptoLaws cfg.env.cr) (a b : SysOp)
    (ha : NamesOk a) (hb : NamesOk b) (ca : ∀ op n, a ≠ .crash op n) (cb : ∀ op n, b ≠ .crash op n)
    (hd : ∀ u, About cfg.env a u ∨ Spill a u → About cfg.env b u ∨ Spill b u → False) (st : Sys) :
    (sysStep cfg (sysStep cfg st a) b).store = (sysStep cfg (sysStep cfg st b) a).store ∧
    answer cfg (sysStep cfg st a) b = answer cfg st b ∧ answer cfg (sysStep cfg st b) a = answer cfg st a := by
  -- what one step leaves alone for the other
  have key : ∀ a b : SysOp, NamesOk a → NamesOk b → (∀ op n, a ≠ .crash op n) → (∀ op n, b ≠ .crash op n) →
      (∀ u, About cfg.env a u ∨ Spill a u → About cfg.env b u ∨ Spill b u → False) →
      Sim (aboutOrSpill cfg.env b) (sysStep cfg st a).store st.store
        ((sysStep cfg (sysStep cfg st a) b).store, answer cfg (sysStep cfg st a) b) ((sysStep cfg st b).store, answer cfg st b) := by
    intro a b ha hb ca cb hd
    refine simStep cfg L b cb hb (fun u h => h) ?_ ?_
    · intro k hk
      exact frameStep cfg L a ha (fun op n e => absurd e (ca op n)) st k (fun h => hd _ h (Or.inl hk))
    · intro req hr
      exact pendingStep_other cfg (About cfg.env b) a ca (fun u h1 h2 => hd u h1 (Or.inl h2)) st req
        (processed_about (fun u h => h) req hr)
  have d1 := key a b ha hb ca cb hd
  have d2 := key b a hb ha cb ca (fun u h1 h2 => hd u h2 h1)
  refine ⟨funext fun k => ?_, d1.out, d2.out⟩
  by_cases hk : aboutOrSpill cfg.env b (ownerOf k)
  · have h1 : ¬ aboutOrSpill cfg.env a (ownerOf k) := fun h => hd _ h hk
    have e1 : (sysStep cfg st a).store k = st.store k := frameStep cfg L a ha (fun op n e => absurd e (ca op n)) st k h1
    exact (d1.keep k e1).trans (d2.frame k h1).symm
  · have e2 : (sysStep cfg st b).store k = st.store k := frameStep cfg L b hb (fun op n e => absurd e (cb op n)) st k hk
    exact (d1.frame k hk).trans (d2.keep k e2).symm

/-! ### Concrete cases -/

theorem demoCode_owner (u : Str) (h : TokenOf demoEnv demoCode u) : u = c!"diana" := by
  obtain ⟨now, sid, h1, rfl⟩ := h
  rw [minted_sid demoCrypto_laws demoEnv.th h1]
  decide

theorem demoAt_owner (u : Str) (h : TokenOf demoEnv demoAt u) : u = c!"diana" := by
  obtain ⟨now, sid, h1, rfl⟩ := h
  rw [minted_sid demoCrypto_laws demoEnv.th h1]
  decide

set_option maxRecDepth 8000 in
theorem demoTokReq_owner (u : Str) (h : ReqOf demoEnv demoTokReq u) : u = c!"diana" := by
  rcases h with ⟨v, hv, h⟩ | ⟨v, hv, h⟩
  · cases hv
    have e : plusForBlank demoCode = demoCode := by decide
    rw [e] at h
    exact demoCode_owner u (h.elim id id)
  · cases hv

/-- `diana` logs in, while `bob` logs in at another client, has a session made for him, and logs out again. -/
def bobIn : SysOp := .authorize demoDb 1 c!"g2" (mintIn c!"m1") (mintIn c!"m2") (.val c!"IDT") { ident := .plain c!"bob" } (demoReq [c!"code"])
def bobGrant : SysOp := .createSession 2 c!"g3" c!"bob" c!"c2" { authReq := reqSample c!"c2" }
def bobOut : SysOp := .removeSession c!"bob;;c1;;g2"
def dianaIn : SysOp := .authorize demoDb 1 c!"g1" (mintIn c!"n1") (mintIn c!"n2") (.val c!"IDT") { ident := .plain c!"diana" } (demoReq [c!"code"])
def mixedOps : List SysOp :=
  [ bobIn, dianaIn, bobGrant, .tokParse 2 demoTokReq, bobOut, .tokProcess (tokIn 2 c!"n3" c!"n4") demoTokReq ]

/-- Nothing `bob` does is about anybody but `bob`; his logout also writes a record named after the client. -/
theorem bob_not_diana (op : SysOp) (h : op = bobIn ∨ op = bobGrant ∨ op = bobOut) (u : Str)
    (hu : About demoEnv op u ∨ Spill op u) : u ≠ c!"diana" := by
  rcases h with rfl | rfl | rfl
  · have : u = c!"bob" := hu.elim id False.elim
    rw [this]; decide
  · have : u = c!"bob" := hu.elim id False.elim
    rw [this]; decide
  · rcases hu with hu | ⟨c, g, h1, h2⟩
    · have : u = ownerOf c!"bob;;c1;;g2" := hu
      rw [this]; decide
    · have e : (unpackSessionKey c!"bob;;c1;;g2").tail = [c!"c1", c!"g2"] := by decide
      rw [e] at h1
      cases h1
      rw [h2]; decide

theorem userName_of {u : Str} (h1 : (List.range (u.length + 1)).all (fun i => !(List.isPrefixOf divider (u.drop i))) = true)
    (h2 : u.getLast? ≠ some ';') : UserName u := by
  refine ⟨fun ⟨a, b, h⟩ => ?_, fun ⟨a, h⟩ => h2 (by rw [← h]; simp)⟩
  rw [List.all_eq_true] at h1
  have := h1 a.length (by rw [List.mem_range]; subst h; simp; omega)
  rw [← h] at this
  have hp : List.isPrefixOf divider (divider ++ b) = true := List.isPrefixOf_iff_prefix.2 ⟨b, rfl⟩
  simp [hp] at this

theorem mixedOps_ok : (∀ op ∈ mixedOps, NamesOk op) ∧ (∀ op ∈ mixedOps, Separate demoEnv (fun u => u = c!"diana") op) ∧
    Without demoEnv (fun u => u = c!"diana") mixedOps loginOps := by
  have nd : UserName c!"diana" := userName_of (by decide) (by decide)
  have nb : UserName c!"bob" := userName_of (by decide) (by decide)
  have hb := bob_not_diana
  refine ⟨?_, ?_, ?_⟩
  · intro op hop
    simp only [mixedOps, List.mem_cons, List.not_mem_nil, or_false] at hop
    rcases hop with rfl | rfl | rfl | rfl | rfl | rfl
    · rintro uid (h | ⟨sid, h⟩) <;> cases h; exact nb
    · rintro uid (h | ⟨sid, h⟩) <;> cases h; exact nd
    · exact nb
    · trivial
    · trivial
    · trivial
  · intro op hop
    simp only [mixedOps, List.mem_cons, List.not_mem_nil, or_false] at hop
    rcases hop with rfl | rfl | rfl | rfl | rfl | rfl
    · exact Or.inr (hb _ (Or.inl rfl))
    · exact Or.inl fun u h => h
    · exact Or.inr (hb _ (Or.inr (Or.inl rfl)))
    · exact Or.inl demoTokReq_owner
    · exact Or.inr (hb _ (Or.inr (Or.inr rfl)))
    · exact Or.inl demoTokReq_owner
  · exact .drop _ (fun _ _ h => nomatch h) (hb _ (Or.inl rfl)) <| .keep _ <| .drop _ (fun _ _ h => nomatch h) (hb _ (Or.inr (Or.inl rfl))) <|
      .keep _ <| .drop _ (fun _ _ h => nomatch h) (hb _ (Or.inr (Or.inr rfl))) <| .keep _ .nil

/-- So the theorem applies: with or without `bob`, userinfo says the same about the token `diana`'s client got … -/
example (db : Str → Dict Val) (now : Int) :
    userinfoProcess demoEnv db (sysRun (envCfg demoEnv) mixedOps).store now demoAt =
      userinfoProcess demoEnv db (sysRun (envCfg demoEnv) loginOps).store now demoAt :=
  ((C113_noninterference (envCfg demoEnv) demoCrypto_laws _ mixedOps loginOps mixedOps_ok.1 mixedOps_ok.2.1 mixedOps_ok.2.2).2.2
    demoAt demoAt_owner).1 db now

set_option maxRecDepth 8000 in
/-- … and there is something to say: it is accepted. -/
example : isVal (userinfoProcess demoEnv demoUsers (sysRun (envCfg demoEnv) mixedOps).store 3 demoAt) = true := by decide

/-- C112 and C114 for `bob`'s logout and `diana`'s login. -/
example (st : Sys) : dbGet (sysStep (envCfg demoEnv) st bobOut).store [c!"diana", c!"c1"] = dbGet st.store [c!"diana", c!"c1"] :=
  (C112_only_own_sessions_change_partial (envCfg demoEnv) demoCrypto_laws bobOut trivial (fun _ _ h => nomatch h) st c!"diana"
    (fun h => bob_not_diana _ (Or.inr (Or.inr rfl)) _ (Or.inl h) rfl)
    (fun h => bob_not_diana _ (Or.inr (Or.inr rfl)) _ (Or.inr h) rfl)).1 _ (userName_of (by decide) (by decide))

example (st : Sys) : (sysStep (envCfg demoEnv) (sysStep (envCfg demoEnv) st bobOut) dianaIn).store =
    (sysStep (envCfg demoEnv) (sysStep (envCfg demoEnv) st dianaIn) bobOut).store :=
  (C114_other_users_steps_commute (envCfg demoEnv) demoCrypto_laws bobOut dianaIn trivial
    (by rintro uid (h | ⟨sid, h⟩) <;> cases h; exact userName_of (by decide) (by decide)) (fun _ _ h => nomatch h) (fun _ _ h => nomatch h)
    (fun u h1 h2 => bob_not_diana _ (Or.inr (Or.inr rfl)) _ h1 (h2.elim id False.elim)) st).1

set_option maxRecDepth 8000 in
/-- The exception in C112 is real: a user has the name of a client.  When a grant of *another* user at that client is
removed, that user's record is replaced: it can no longer be read as a user. -/
theorem C112_spill_is_real :
    ∃ ops : List SysOp, ∃ sid, ownerOf sid = c!"diana" ∧
      (dbGet (sysRun (envCfg demoEnv) ops).store [c!"c1", c!"c2"]).isOk = true ∧
      dbGet (sysRun (envCfg demoEnv) (ops ++ [.removeSession sid])).store [c!"c1"] ≠ dbGet (sysRun (envCfg demoEnv) ops).store [c!"c1"] := by
  refine ⟨[ .createSession 1 c!"g1" c!"diana" c!"c1" { authReq := reqSample c!"c1" },
    .createSession 1 c!"g2" c!"diana" c!"c1" { authReq := reqSample c!"c1" },
    .createSession 1 c!"g3" c!"c1" c!"c2" { authReq := reqSample c!"c2" } ], c!"diana;;c1;;g1", ?_, ?_, ?_⟩
  · decide
  · decide
  · decide

end Verif
