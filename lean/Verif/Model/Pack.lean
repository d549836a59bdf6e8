import Verif.Lemmas.Str
/-! Length:value packing (`util.py`). -/
namespace Verif

/-- `lv_pack(*args)` (util.py:111-121): `"{}:{}".format(len(a), a)` for every value, concatenated.
(Line numbers are those of util.py itself.) -/
def lvPack : List Str → Str
  | [] => []
  | a :: as => natStr a.length ++ ':' :: a ++ lvPack as

/-- The `while txt` loop of `lv_unpack` (util.py:133-136).  `l, v = txt.split(":", 1)` raises `ValueError` if there is
no colon, `int(l)` raises `ValueError` on anything that is not a number; a negative length slices from the end.
The loop terminates because `v` is strictly shorter than `txt`: this is the termination proof. -/
def lvUnpackLoop (txt : Str) : Except Exn (List Str) :=
  match txt with
  | [] => .ok []
  | c :: cs =>
    match h : pySplit1 ':' (c :: cs) with
    | none => .error .valueError
    | some (l, v) =>
      match pyInt l with
      | none => .error .valueError
      | some n =>
        have : (pyDrop n v).length < (c :: cs).length :=
          Nat.lt_of_le_of_lt (pyDrop_length n v) (pySplit1_length _ _ _ _ h)
        match lvUnpackLoop (pyDrop n v) with
        | .error e => .error e
        | .ok rest => .ok (pyTake n v :: rest)
termination_by txt.length

/-- `lv_unpack(txt)` (util.py:124-137): strips the input once, then runs the loop. -/
def lvUnpack (txt : Str) : Except Exn (List Str) := lvUnpackLoop (pyStrip txt)

end Verif
