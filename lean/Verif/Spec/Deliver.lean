import Verif.Model.Types
import Verif.Spec.Authorization
/-! What a browser or client may expect of the responses it gets. -/
namespace Verif.Spec

/-- The response must not be stored by caches (RFC 6749, 5.1). -/
def Uncacheable (headers : List (Str × Str)) : Prop :=
  (c!"Pragma", c!"no-cache") ∈ headers ∧ (c!"Cache-Control", c!"no-store") ∈ headers

/-- Header names are compared without regard to case; the letters of "content-type". -/
def lower (s : Str) : Str := s.map Char.toLower

/-- The values of the content type headers of a response, whatever the case of the name. -/
def contentTypes (headers : List (Str × Str)) : List Str :=
  (headers.filter fun h => lower h.1 = c!"content-type").map (·.2)

/-- The browser is sent to `uri` with the text `q` as query or as fragment. -/
inductive SentTo (uri q : Str) : (asFragment : Bool) → (location : Str) → Prop where
  | fragment : SentTo uri q true (uri ++ '#' :: q)
  | query : '?' ∉ uri → SentTo uri q false (uri ++ '?' :: q)
  | moreQuery : '?' ∈ uri → SentTo uri q false (uri ++ '&' :: q)

/-- The value of a parameter in a list of parameters. -/
def valueOf (params : List (Str × Str)) (name : Str) : Option Str := (params.find? fun p => p.1 = name).map (·.2)

/-- A digest without collisions. -/
def CollisionFree (hash : Str → Str) : Prop := ∀ x y, hash x = hash y → x = y

/-- The hexadecimal digest has no dot. -/
def DotFree (hash : Str → Str) : Prop := ∀ x, '.' ∉ hash x

/-- Scheme and network location as `urlparse` gives them: neither has a slash, and a scheme has no blank. -/
def OriginLike (origin : Str → Str × Str) : Prop :=
  ∀ u, '/' ∉ (origin u).1 ∧ ' ' ∉ (origin u).1 ∧ '/' ∉ (origin u).2

/-- The text of hidden input fields, with white space around them. -/
inductive HiddenFields : (fields : List (Str × Str)) → (html : Str) → Prop where
  | nil : HiddenFields [] []
  | blank (c : Char) (l : List (Str × Str)) (t : Str) : c = ' ' ∨ c = '\n' → HiddenFields l t → HiddenFields l (c :: t)
  | field (n v : Str) (l : List (Str × Str)) (t : Str) : HiddenFields l t →
      HiddenFields ((n, v) :: l) (c!"<input type=\"hidden\" name=\"" ++ n ++ c!"\" value=\"" ++ v ++ c!"\"/>" ++ t)

/-- The page has a form with these hidden fields, which is posted to `uri` as soon as the page is loaded. -/
def PostsForm (page uri : Str) (fields : List (Str × Str)) : Prop :=
  ∃ head html, page = head ++ c!"<body onload=\"javascript:document.forms[0].submit()\">\n    <form method=\"post\" action=\"" ++
      uri ++ c!"\">" ++ html ++ c!"</form>\n  </body>\n</html>" ∧
    HiddenFields fields html

end Verif.Spec
