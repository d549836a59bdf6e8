/-
Python primitives used by oidcendpoint, written as total computable functions.

A Python `str` is a list of characters.  Exceptions are values (`Exn`).
-/
namespace Verif

/-- A Python `str`. -/
abbrev Str := List Char

/-- `c!"abc"` is the literal `['a', 'b', 'c'] : Str`. -/
macro:max "c!" x:str : term => do
  let cs := x.getString.toList.map Lean.Syntax.mkCharLit
  `(([$(cs.toArray),*] : Str))

/-- The exceptions that the modelled code raises or lets through.  Python's `NoSuchClientSession` and `NoSuchGrant`
are subclasses of `KeyError` (exception.py:92-99), which matters for `except KeyError` clauses; see `Exn.isKeyError`. -/
inductive Exn where
  | valueError
  | keyError
  | noSuchClientSession
  | noSuchGrant
  | typeError
  | recursionError
  | attributeError
  | indexError
  | unknownToken
  | wrongTokenType
  | wrongTokenClass
  | tooOld
  | mintingNotAllowed
  | notAllowed
  | verificationError
  | invalidClient
  | unknownClient
  | unAuthorizedClient
  | authnFailure
  | multipleUsage
  | redirectURIError
  | uriError
  | parameterError
  | invalidRequest
  | capabilitiesMisMatch
  | invalidRedirectURI
  | invalidSectorIdentifier
  | badResponseMode
  | serviceError
  | oidcEndpointError
  | unicodeDecodeError
  | missingRequiredAttribute
deriving DecidableEq, Repr

/-- `except KeyError` also catches the two subclasses declared in `exception.py`. -/
def Exn.isKeyError : Exn → Bool
  | .keyError | .noSuchClientSession | .noSuchGrant => true
  | _ => false

/-- `except ValueError` also catches `UnicodeDecodeError`. -/
def Exn.isValueError : Exn → Bool
  | .valueError | .unicodeDecodeError => true
  | _ => false

instance [DecidableEq ε] [DecidableEq α] : DecidableEq (Except ε α)
  | .ok a, .ok b => if h : a = b then isTrue (h ▸ rfl) else isFalse (fun e => h (Except.ok.inj e))
  | .error a, .error b =>
    if h : a = b then isTrue (h ▸ rfl) else isFalse (fun e => h (Except.error.inj e))
  | .ok _, .error _ => isFalse (fun e => nomatch e)
  | .error _, .ok _ => isFalse (fun e => nomatch e)

/-! ### Splitting and joining -/

/-- Worker of `pySplit`: `skip` characters are still part of a separator, `cur` is the current piece, reversed. -/
def pySplitGo (sep : Str) : Nat → Str → Str → List Str
  | _, cur, [] => [cur.reverse]
  | 0, cur, c :: cs =>
    if sep.isPrefixOf (c :: cs) then cur.reverse :: pySplitGo sep (sep.length - 1) [] cs
    else pySplitGo sep 0 (c :: cur) cs
  | k + 1, cur, _ :: cs => pySplitGo sep k cur cs

/-- Python `s.split(sep)` for a non-empty `sep`: cut at the leftmost non-overlapping occurrences. -/
def pySplit (sep : Str) (s : Str) : List Str := pySplitGo sep 0 [] s

/-- Python `sep.join(parts)`. -/
def pyJoin (sep : Str) : List Str → Str
  | [] => []
  | [x] => x
  | x :: y :: r => x ++ sep ++ pyJoin sep (y :: r)

/-- Python `s.split(c, 1)` unpacked into two variables: `none` (a `ValueError`) if `c` does not occur. -/
def pySplit1 (c : Char) : Str → Option (Str × Str)
  | [] => none
  | x :: xs =>
    if x = c then some ([], xs)
    else match pySplit1 c xs with
      | none => none
      | some (a, b) => some (x :: a, b)

/-! ### Whitespace -/

/-- Python `str.isspace` for one character. -/
def isPySpace (c : Char) : Bool :=
  let n := c.toNat
  (9 ≤ n && n ≤ 13) || (28 ≤ n && n ≤ 32) || n == 0x85 || n == 0xA0 || n == 0x1680 ||
  (0x2000 ≤ n && n ≤ 0x200A) || n == 0x2028 || n == 0x2029 || n == 0x202F || n == 0x205F || n == 0x3000

/-- Python `s.rstrip()`. -/
def pyRstrip (s : Str) : Str := (s.reverse.dropWhile isPySpace).reverse

/-- Python `s.lstrip()`. -/
def pyLstrip (s : Str) : Str := s.dropWhile isPySpace

/-- Python `s.strip()`. -/
def pyStrip (s : Str) : Str := pyLstrip (pyRstrip s)

/-- Python `s.rstrip(" ")`. -/
def pyRstripBlank (s : Str) : Str := (s.reverse.dropWhile (· == ' ')).reverse

/-! ### Integers -/

/-- The decimal digit `n` (for `n < 10`). -/
def digitChar (n : Nat) : Char := Char.ofNat (48 + n)

/-- Worker of `natStr`; the first argument only bounds the recursion (a number has no more digits than its value). -/
def natStrGo : Nat → Nat → Str
  | 0, n => [digitChar n]
  | k + 1, n => if n < 10 then [digitChar n] else natStrGo k (n / 10) ++ [digitChar (n % 10)]

/-- Python `str(n)` for a non-negative integer. -/
def natStr (n : Nat) : Str := natStrGo n n

/-- Python `str(i)`. -/
def intStr (i : Int) : Str :=
  if i < 0 then '-' :: natStr i.natAbs else natStr i.natAbs

def isDigit (c : Char) : Bool := 48 ≤ c.toNat && c.toNat ≤ 57
def digitVal (c : Char) : Nat := c.toNat - 48

/-- Digits with single underscores between them, as `int()` accepts (PEP 515).  `prev` says whether the previous
character was a digit.  Simplification: only ASCII digits (Python also accepts other Unicode decimal digits). -/
def pyDigits : Bool → Nat → Str → Option Nat
  | prev, acc, [] => if prev then some acc else none
  | prev, acc, c :: cs =>
    if isDigit c then pyDigits true (10 * acc + digitVal c) cs
    else if c = '_' && prev then pyDigits false acc cs
    else none

/-- Python `int(s)`; `none` is `ValueError`. -/
def pyInt (s : Str) : Option Int :=
  match pyStrip s with
  | '+' :: cs => (pyDigits false 0 cs).map Int.ofNat
  | '-' :: cs => (pyDigits false 0 cs).map fun n => - Int.ofNat n
  | cs => (pyDigits false 0 cs).map Int.ofNat

/-- Python `s[:i]`. -/
def pyTake (i : Int) (s : Str) : Str :=
  if 0 ≤ i then s.take i.toNat else s.take (s.length - i.natAbs)

/-- Python `s[i:]`. -/
def pyDrop (i : Int) (s : Str) : Str :=
  if 0 ≤ i then s.drop i.toNat else s.drop (s.length - i.natAbs)

/-! ### Lists and dictionaries -/

/-- Python `list.remove(x)`: the first occurrence; `none` is `ValueError`. -/
def pyRemove [DecidableEq α] (x : α) : List α → Option (List α)
  | [] => none
  | y :: ys => if y = x then some ys else (pyRemove x ys).map (y :: ·)

/-- Does `needle` occur in `hay` (Python `needle in hay` on strings)? -/
def isInfix (needle : Str) : Str → Bool
  | [] => needle.isEmpty
  | c :: cs => needle.isPrefixOf (c :: cs) || isInfix needle cs

/-- An insertion-ordered Python dictionary. -/
abbrev Dict (α : Type) := List (Str × α)

namespace Dict
/-- `d.get(k)` -/
def get? (d : Dict α) (k : Str) : Option α :=
  match d with
  | [] => none
  | (k', v) :: r => if k' = k then some v else get? r k

/-- `d[k] = v`: in place if present, appended otherwise. -/
def set (d : Dict α) (k : Str) (v : α) : Dict α :=
  match d with
  | [] => [(k, v)]
  | (k', v') :: r => if k' = k then (k', v) :: r else (k', v') :: set r k v

/-- `del d[k]` / `d.pop(k, None)`. -/
def erase (d : Dict α) (k : Str) : Dict α :=
  match d with
  | [] => []
  | (k', v') :: r => if k' = k then r else (k', v') :: erase r k

/-- `k in d` -/
def has (d : Dict α) (k : Str) : Bool := (get? d k).isSome

def keys (d : Dict α) : List Str := d.map (·.1)

/-- `d.update(e)` -/
def update (d e : Dict α) : Dict α := e.foldl (fun acc p => set acc p.1 p.2) d
end Dict

end Verif
