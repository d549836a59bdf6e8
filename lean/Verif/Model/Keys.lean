import Verif.Py
/-! Session identifiers (`session/__init__.py`). -/
namespace Verif

/-- `DIVIDER` (session/__init__.py:3). -/
def divider : Str := c!";;"

/-- `session_key(*args)` (session/__init__.py:6-7). -/
def sessionKey (args : List Str) : Str := pyJoin divider args

/-- `unpack_session_key(key)` (session/__init__.py:10-11). -/
def unpackSessionKey (key : Str) : List Str := pySplit divider key

end Verif
