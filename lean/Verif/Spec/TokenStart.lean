import Verif.Model.TokenStart
/-! What a token-handler configuration says, independently of how start-up works it out. -/
namespace Verif.Spec

/-- The options that count: those under `kwargs` if there is such a key, otherwise those beside it. -/
def optionsOf (s : HandlerSpec) : HandlerOpts := s.kwargs.getD s.inline

/-- The password a handler will have: the key of its id in the key jar, or else the configured one. -/
def passwordOf (keys : Option TokenKeys) (kid : Str) (s : HandlerSpec) : Option Str :=
  (keys.bind fun k => k kid) <|> (optionsOf s).password

/-- The handler a configuration describes: class, type letter, life time (300 seconds if none is given) and key. -/
structure Describes (kl : KeyLib) (keys : Option TokenKeys) (kid typ : Str) (s : HandlerSpec) (h : Handler) : Prop where
  cls : h.cls = s.cls.getD .default
  typ : h.typ = typ
  lifetime : h.lifetime = (optionsOf s).lifetime.getD 300
  sealed : h.cls = .default → ∃ p, passwordOf keys kid s = some p ∧ h.key = kl.derive p
  signed : h.cls = .jwt → h.key = kl.jwtKey

/-- The keys a start uses: none if handlers are configured without a key definition, otherwise those of the key file, or new ones
if there is no such file. -/
def keysAtStart (disk : Option TokenKeys) (new : TokenKeys) : HandlerConf → Option TokenKeys
  | .given _ false => none
  | _ => some (disk.getD new)

/-- The handlers to be made: those configured, or the default ones. -/
def handlersAtStart : HandlerConf → HandlerArgs
  | .given a _ => a
  | .absent => defaultHandlerArgs

/-- The handler cannot be made: it encrypts and has no password. -/
def Unusable (keys : Option TokenKeys) (kid : Str) (s : HandlerSpec) : Prop :=
  s.cls.getD .default = .default ∧ passwordOf keys kid s = none

end Verif.Spec
