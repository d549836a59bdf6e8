import Verif.Model.Authorization
import Verif.Model.ClientAuthn
/-! One-time use in pieces: threads that use pushed requests (oauth2/authorization.py:341-346) and threads that use the `jti` of an
assertion (client_authn.py:225-231, 286-292). -/
namespace Verif

/-- Where a thread is in `_do_request_uri`. -/
inductive UriPc where
  | start
  | found (r : AuthReq)
  | done (o : Out AuthReq)

/-- `_do_request_uri` for a pushed request, one access to the storage at a time: `par_db.get(_request_uri)`, then
`del par_db[_request_uri]` (oauth2/authorization.py:341-346).  `silent`: deleting what is not there does nothing, as in
`ShelveDataBase` (shelve_db.py:33-37, 22-23); otherwise it raises `KeyError`, as in `InMemoryDataBase` (in_memory_db.py:20-21) and in a
`dict`. -/
def uriStep (silent : Bool) (uri : Str) (par : ParDb) : UriPc → ParDb × UriPc
  | .start => match par uri with
    | some r => (par, .found r)
    | none => (par, .done (.raise .valueError))
  | .found r => match par uri with
    | some _ => ((fun k => if k = uri then none else par k), .done (.val r))
    | none => if silent then (par, .done (.val r)) else (par, .done (.raise .keyError))
  | .done o => (par, .done o)

/-- The pushed requests and the threads. -/
structure Pushes where
  par : ParDb
  pc : Nat → UriPc

/-- Something happens: a request is pushed (pushed_authorization.py:33), or a thread goes on. -/
inductive PushEv where
  | push (uri : Str) (req : AuthReq)
  | step (t : Nat)

/-- Thread `t` handles a request with the request URI `uris t`. -/
def pushEvStep (silent : Bool) (uris : Nat → Str) (x : Pushes) : PushEv → Pushes
  | .push uri req => { x with par := pushStore x.par uri req }
  | .step t => let r := uriStep silent (uris t) x.par (x.pc t)
    { par := r.1, pc := fun i => if i = t then r.2 else x.pc i }

/-- From the start: nothing pushed, no thread begun. -/
def pushRun (silent : Bool) (uris : Nat → Str) (evs : List PushEv) : Pushes :=
  evs.foldl (pushEvStep silent uris) { par := fun _ => none, pc := fun _ => .start }

/-- Where a thread is in the use of a `jti`: not begun, past the test `_key in jti_db`, or finished. -/
inductive JtiPc where
  | start
  | passed
  | done (r : Except Exn Unit)

/-- One access to `jti_db` (client_authn.py:228-231, 289-292) for the key of an assertion. -/
def jtiStep (key : Str) (jtis : List Str) : JtiPc → List Str × JtiPc
  | .start => if key ∈ jtis then (jtis, .done (.error .multipleUsage)) else (jtis, .passed)
  | .passed => (key :: jtis, .done (.ok ()))
  | .done r => (jtis, .done r)

/-- The seen keys and the threads, all with the same assertion. -/
structure Uses where
  jtis : List Str
  pc : Nat → JtiPc

/-- Thread `t` goes on. -/
def usesStep (key : Str) (x : Uses) (t : Nat) : Uses :=
  let r := jtiStep key x.jtis (x.pc t)
  { jtis := r.1, pc := fun i => if i = t then r.2 else x.pc i }

/-- A schedule. -/
def usesRun (key : Str) (jtis : List Str) (sched : List Nat) : Uses := sched.foldl (usesStep key) { jtis := jtis, pc := fun _ => .start }

end Verif
