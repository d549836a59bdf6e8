import Verif.Model.TokenString
/-! What is assumed of the cryptographic libraries, as explicit laws. -/
namespace Verif.Spec

/-- The laws of the sealing functions: a sealed text is opened by its own key only, and strings made by one mechanism
are not accepted by the other.  (Authenticated encryption and signatures, idealised.) -/
structure TokenCryptoLaws (cr : TokenCrypto) : Prop where
  open_seal : ∀ k n m, cr.fernetOpen k (cr.fernetSeal k n m) = some m
  open_other : ∀ k k' n m, k ≠ k' → cr.fernetOpen k' (cr.fernetSeal k n m) = none
  unpack_pack : ∀ k n s t e, cr.jwtUnpack k (cr.jwtPack k n s t e) = some (s, t, e)
  unpack_other : ∀ k k' n s t e, k ≠ k' → cr.jwtUnpack k' (cr.jwtPack k n s t e) = none
  open_pack : ∀ k k' n s t e, cr.fernetOpen k' (cr.jwtPack k n s t e) = none
  unpack_seal : ∀ k k' n m, cr.jwtUnpack k' (cr.fernetSeal k n m) = none

end Verif.Spec
