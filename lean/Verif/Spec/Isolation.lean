import Verif.Model.Resource
import Verif.Model.System
/-! Which users a step is about, and what a step answers. -/
namespace Verif.Spec

/-- The user a session id or storage key belongs to: what comes before the first `;;`. -/
def ownerOf (key : Str) : Str := (unpackSessionKey key).headD []

/-- A user name that can be put in front of `;;`: it contains no `;;` and does not end in `;`. -/
def UserName (u : Str) : Prop := ¬ divider <:+: u ∧ ¬ [';'] <:+ u

/-- The token string resolves, at some time, to a session of `u`. -/
def TokenOf (env : Env) (v u : Str) : Prop := ∃ now sid, env.th.sid env.cr now v = .ok sid ∧ ownerOf sid = u

/-- One of the token strings in a token request (a blank in a code stands for a plus sign) resolves to a session of `u`. -/
def ReqOf (env : Env) (req : TokReq) (u : Str) : Prop :=
  (∃ v, req.code = some v ∧ (TokenOf env v u ∨ TokenOf env (plusForBlank v) u)) ∨
  ∃ v, req.refreshToken = some v ∧ TokenOf env v u

/-- The user found by the authentication method, or the owner of the session named in the cookie. -/
def IdentOf : Ident → Str → Prop
  | .nobody, _ => False
  | .plain uid, u => u = uid
  | .decoded uid sid, u => some u = uid ∨ ∃ k, sid = some k ∧ u = ownerOf k

/-- The step is about `u`: it names `u`, or a session or token of `u`. -/
def About (env : Env) : SysOp → Str → Prop
  | .authorize _ _ _ _ _ _ a _, u => IdentOf a.ident u
  | .tokParse _ req, u => ReqOf env req u
  | .tokProcess _ req, u => ReqOf env req u
  | .createSession _ _ v _ _, u => u = v
  | .createGrant _ _ v _ _, u => u = v
  | .addGrant _ _ v _ _, u => u = v
  | .revokeToken _ sid _ _, u => u = ownerOf sid
  | .revokeGrant sid, u => u = ownerOf sid
  | .revokeClientSession sid, u => u = ownerOf sid
  | .removeSession sid, u => u = ownerOf sid
  | .delete path, u => path.head? = some u
  | .crash op _, u => About env op u

/-- Deleting a single grant also writes a record under the bare client id, as if that were a user (C16). -/
def Spill : SysOp → Str → Prop
  | .removeSession sid, u => ∃ c g, (unpackSessionKey sid).tail = [c, g] ∧ u = ownerOf c
  | .delete path, u => ∃ c g r, path.tail = c :: g :: r ∧ u = ownerOf c
  | .crash op _, u => Spill op u
  | _, _ => False

/-- The user names in the step can be put in front of `;;`. -/
def NamesOk : SysOp → Prop
  | .authorize _ _ _ _ _ _ a _ => ∀ uid, (a.ident = .plain uid ∨ ∃ sid, a.ident = .decoded (some uid) sid) → UserName uid
  | .createSession _ _ v _ _ => UserName v
  | .createGrant _ _ v _ _ => UserName v
  | .addGrant _ _ v _ _ => UserName v
  | .delete path => ∀ u, path.head? = some u → UserName u
  | .crash op _ => NamesOk op
  | _ => True

/-- What the caller of a step gets. -/
inductive Ans where
  | authz (cdb : Cdb) (a : AuthzAnswer)
  | parse (o : Out TokReq)
  | notParsed
  | token (o : Out TokResp)
  | sid (r : Except Exn Str)
  | grant (r : Except Exn Grant)
  | done (r : Except Exn Unit)
  | killed

/-- The answer to a step. -/
def answer (cfg : SysCfg) (st : Sys) : SysOp → Ans
  | .authorize cdb now gid mc ma idt a req =>
    let r := authzProcess cfg.env cdb st.store now gid mc ma idt a req
    .authz r.1 r.2.2
  | .tokParse now req => .parse (tokParse cfg.env cfg.helpers st.store now req)
  | .tokProcess i req =>
    if req ∈ st.pending then .token (tokProcess cfg.mode cfg.env cfg.helpers st.store i req).2 else .notParsed
  | .createSession now gid u c a => .sid (createSession cfg.env.sf st.store now gid u c a).2
  | .createGrant now gid u c a => .sid (createGrant cfg.env.sf st.store now gid u c a).2
  | .addGrant now gid u c a => .grant (addGrant st.store now gid u c a).2
  | .revokeToken limit sid v r => .done (revokeToken cfg.mode st.store limit sid v r).2
  | .revokeGrant sid => .done (revokeGrant st.store sid).2
  | .revokeClientSession sid => .done (revokeClientSession st.store sid).2
  | .removeSession sid => .done (removeSession cfg.mode st.store sid).2
  | .delete path => .done (dbDelete cfg.mode st.store path).2
  | .crash _ _ => .killed

/-- `ops'` is `ops` without some of the steps that neither are about anybody in `U` nor spill into it.  A crash hits
everybody: it stays, but what was interrupted is left out. -/
inductive Without (env : Env) (U : Str → Prop) : List SysOp → List SysOp → Prop
  | nil : Without env U [] []
  | keep (op : SysOp) : Without env U ops ops' → Without env U (op :: ops) (op :: ops')
  | drop (op : SysOp) : (∀ op' n, op ≠ .crash op' n) → (∀ u, About env op u ∨ Spill op u → ¬ U u) → Without env U ops ops' →
      Without env U (op :: ops) ops'
  | dropKilled (op : SysOp) (n : Nat) : (∀ u, About env op u ∨ Spill op u → ¬ U u) → Without env U ops ops' →
      Without env U (.crash op n :: ops) (.crash op 0 :: ops')

/-- No step mixes users of `U` with others: what it is about is in `U`, or nothing it writes is. -/
def Separate (env : Env) (U : Str → Prop) (op : SysOp) : Prop :=
  (∀ u, About env op u → U u) ∨ ∀ u, About env op u ∨ Spill op u → ¬ U u

end Verif.Spec
