import Verif.Lemmas.TokenString
/-! C04: a minted token string resolves to the session it was minted for. -/
namespace Verif
open Spec

/-- The type letters `factory` gives to the handlers (token/handler.py:114). -/
def FactoryTypes (t : TokenHandler) : Prop :=
  (∀ h, t.code = some h → h.typ = c!"A") ∧ (∀ h, t.accessToken = some h → h.typ = c!"T") ∧
  (∀ h, t.refreshToken = some h → h.typ = c!"R")

theorem FactoryTypes.typ_inj {t : TokenHandler} (hf : FactoryTypes t) {h h' : Handler}
    (hh : h ∈ t.order) (hh' : h' ∈ t.order) (e : h.typ = h'.typ) : h = h' := by
  obtain ⟨h1, h2, h3⟩ := hf
  simp only [TokenHandler.order, List.mem_append, Option.mem_toList] at hh hh'
  rcases hh with (hh | hh) | hh <;> rcases hh' with (hh' | hh') | hh' <;>
    first
    | (rw [hh] at hh'; exact Option.some.inj hh')
    | (exfalso
       first
         | rw [h1 _ hh] at e | rw [h2 _ hh] at e | rw [h3 _ hh] at e
       first
         | (rw [h1 _ hh'] at e; revert e; decide)
         | (rw [h2 _ hh'] at e; revert e; decide)
         | (rw [h3 _ hh'] at e; revert e; decide))

theorem FactoryTypes.typ_ne {t : TokenHandler} (hf : FactoryTypes t) {h : Handler} (hh : h ∈ t.order) : h.typ ≠ [] := by
  obtain ⟨h1, h2, h3⟩ := hf
  simp only [TokenHandler.order, List.mem_append, Option.mem_toList] at hh
  rcases hh with (hh | hh) | hh
  · rw [h1 _ hh]; decide
  · rw [h2 _ hh]; decide
  · rw [h3 _ hh]; decide

/-- **C04** For every session id, a string made by one of the configured `DefaultToken` handlers is decoded by the
session manager's token handler to exactly that session id, type and expiry — at every later time, whichever handler
produced it, and whether or not the handlers share a key. -/
theorem C04_default_token_resolves (cr : TokenCrypto) (L : TokenCryptoLaws cr) (t : TokenHandler)
    (hf : FactoryTypes t) (h : Handler) (hh : h ∈ t.order) (hd : h.cls = .default)
    (now later : Int) (rnd nonce sid : Str) :
    t.info cr later (handlerCall cr h now rnd nonce sid []) =
      .ok { rid := some rnd, typ := h.typ, sid := some sid,
            exp := some (if 0 ≤ h.lifetime then intStr (now + h.lifetime) else c!"-1") } := by
  have key : ∀ hs : List Handler, (∀ x ∈ hs, x ∈ t.order) → h ∈ hs →
      infoLoop cr later (handlerCall cr h now rnd nonce sid []) hs =
      .ok { rid := some rnd, typ := h.typ, sid := some sid, exp := some (defaultExp h now) } := by
    intro hs
    induction hs with
    | nil => intro _ hm; simp at hm
    | cons h' hs ih =>
      intro hsub hm
      have ht : effectiveType h [] = h.typ := by simp [effectiveType, hf.typ_ne hh]
      by_cases e : h' = h
      · subst e
        simp [infoLoop, handlerInfo, hd, splitToken_call cr L h' h' hd rfl, ht]
      · have hm' : h ∈ hs := by
          rcases List.mem_cons.1 hm with rfl | hm
          · exact absurd rfl e
          · exact hm
        have rest := ih (fun x hx => hsub x (by simp [hx])) hm'
        have hne : h.typ ≠ h'.typ := fun e' => e (hf.typ_inj hh (hsub h' (by simp)) e').symm
        unfold infoLoop
        cases hc : h'.cls with
        | default =>
          by_cases hk : h'.key = h.key
          · simp [handlerInfo, hc, splitToken_call cr L h h' hd hk, ht, hne, handlerCaught, rest]
          · simp [handlerInfo, hc, splitToken_other cr L h h' hd hk, handlerCaught, rest]
        | jwt =>
          have : cr.jwtUnpack h'.key (handlerCall cr h now rnd nonce sid []) = none := by
            simp only [handlerCall, hd, cryptEncrypt]
            exact L.unpack_seal _ _ _ _
          simp [handlerInfo, hc, this, handlerCaught, rest]
  exact key t.order (fun _ hx => hx) hh

/-- **C04** The same for `JWTToken` handlers: until it expires the string resolves to its session id, type and expiry;
afterwards the answer is the `ToOld` exception, never a different session. -/
theorem C04_jwt_token_resolves (cr : TokenCrypto) (L : TokenCryptoLaws cr) (t : TokenHandler)
    (hf : FactoryTypes t) (h : Handler) (hh : h ∈ t.order) (hd : h.cls = .jwt)
    (now later : Int) (rnd nonce sid : Str) :
    t.info cr later (handlerCall cr h now rnd nonce sid []) =
      if now + h.lifetime < 0 ∨ later ≤ now + h.lifetime then
        .ok { rid := none, typ := h.typ, sid := some sid, exp := some (intStr (now + h.lifetime)) }
      else .error .tooOld := by
  have ht : effectiveType h [] = h.typ := by simp [effectiveType, hf.typ_ne hh]
  have key : ∀ hs : List Handler, h ∈ hs →
      infoLoop cr later (handlerCall cr h now rnd nonce sid []) hs =
      if isExpired (now + h.lifetime) later then .error .tooOld else
      .ok { rid := none, typ := h.typ, sid := some sid, exp := some (intStr (now + h.lifetime)) } := by
    intro hs
    induction hs with
    | nil => intro hm; simp at hm
    | cons h' hs ih =>
      intro hm
      unfold infoLoop
      have hcall : handlerCall cr h now rnd nonce sid [] = cr.jwtPack h.key nonce sid h.typ (now + h.lifetime) := by
        simp [handlerCall, hd, ht]
      cases hc : h'.cls with
      | default =>
        have hm' : h ∈ hs := by
          rcases List.mem_cons.1 hm with rfl | hm
          · rw [hc] at hd; cases hd
          · exact hm
        have : splitToken cr h' (handlerCall cr h now rnd nonce sid []) = .error .unknownToken := by
          rw [hcall]; simp [splitToken, cryptDecrypt, L.open_pack]
        simp [handlerInfo, hc, this, handlerCaught, ih hm']
      | jwt =>
        by_cases hk : h.key = h'.key
        · simp only [handlerInfo, hc, hcall, ← hk, L.unpack_pack]
          by_cases he : isExpired (now + h.lifetime) later = true
          · simp [he, handlerCaught, Exn.isKeyError]
          · simp [he]
        · have hm' : h ∈ hs := by
            rcases List.mem_cons.1 hm with rfl | hm
            · exact absurd rfl hk
            · exact hm
          have hu := L.unpack_other h.key h'.key nonce sid h.typ (now + h.lifetime) hk
          simp only [handlerInfo, hc, hcall, hu]
          have := ih hm'
          rw [hcall] at this
          simp [handlerCaught, this]
  have := key t.order hh
  rw [TokenHandler.info, this]
  unfold isExpired
  by_cases h1 : now + h.lifetime < 0
  · simp [h1]
  · by_cases h2 : later ≤ now + h.lifetime
    · have : ¬ later > now + h.lifetime := by omega
      simp [h1, h2, this]
    · have : later > now + h.lifetime := by omega
      simp [h1, h2, this]

/-- **C04** A string sealed with a key that none of the configured handlers holds is refused as an unknown token. -/
theorem C04_foreign_token_refused (cr : TokenCrypto) (L : TokenCryptoLaws cr) (t : TokenHandler)
    (h : Handler) (hk : ∀ h' ∈ t.order, h'.key ≠ h.key) (now later : Int) (rnd nonce sid ttype : Str) :
    t.info cr later (handlerCall cr h now rnd nonce sid ttype) = .error .unknownToken := by
  have key : ∀ hs : List Handler, (∀ x ∈ hs, x.key ≠ h.key) →
      infoLoop cr later (handlerCall cr h now rnd nonce sid ttype) hs = .error .unknownToken := by
    intro hs
    induction hs with
    | nil => intro _; rfl
    | cons h' hs ih =>
      intro hsub
      have hk' := hsub h' (by simp)
      have rest := ih (fun x hx => hsub x (by simp [hx]))
      unfold infoLoop
      cases hd : h.cls with
      | default =>
        cases hc : h'.cls with
        | default => simp [handlerInfo, hc, splitToken_other cr L h h' hd hk', handlerCaught, rest]
        | jwt =>
          have : cr.jwtUnpack h'.key (handlerCall cr h now rnd nonce sid ttype) = none := by
            simp only [handlerCall, hd, cryptEncrypt]
            exact L.unpack_seal _ _ _ _
          simp [handlerInfo, hc, this, handlerCaught, rest]
      | jwt =>
        have hcall : handlerCall cr h now rnd nonce sid ttype =
            cr.jwtPack h.key nonce sid (effectiveType h ttype) (now + h.lifetime) := by
          simp [handlerCall, hd]
        cases hc : h'.cls with
        | default =>
          have : splitToken cr h' (handlerCall cr h now rnd nonce sid ttype) = .error .unknownToken := by
            rw [hcall]; simp [splitToken, cryptDecrypt, L.open_pack]
          simp [handlerInfo, hc, this, handlerCaught, rest]
        | jwt =>
          have hu := L.unpack_other h.key h'.key nonce sid (effectiveType h ttype) (now + h.lifetime) (Ne.symm hk')
          rw [← hcall] at hu
          simp [handlerInfo, hc, hu, handlerCaught, rest]
  exact key t.order hk

/-! ### Non-vacuity: a concrete (insecure) crypto that satisfies the laws, and a concrete handler set. -/

def tagEnc : Str → Str → Str
  | [], m => '.' :: m
  | c :: k, m => 'x' :: c :: tagEnc k m

def untag : Str → Option (Str × Str)
  | '.' :: m => some ([], m)
  | 'x' :: c :: s => (untag s).map fun p => (c :: p.1, p.2)
  | _ => none

theorem untag_tagEnc (k m : Str) : untag (tagEnc k m) = some (k, m) := by
  induction k with
  | nil => rfl
  | cons c k ih => simp [tagEnc, untag, ih]

def toyInt (i : Int) : Str := if i < 0 then '-' :: List.replicate i.natAbs '1' else List.replicate i.natAbs '1'
def toyUnint : Str → Int
  | '-' :: s => - (s.length : Int)
  | s => (s.length : Int)

theorem toyUnint_toyInt (i : Int) : toyUnint (toyInt i) = i := by
  unfold toyInt
  split
  · simp [toyUnint]; omega
  · cases h : i.natAbs with
    | zero => simp [toyUnint]; omega
    | succ n => rw [List.replicate_succ]; simp [toyUnint]; omega

def toyCrypto : TokenCrypto where
  fernetSeal k _ m := 'F' :: tagEnc k m
  fernetOpen k t := match t with
    | 'F' :: s => match untag s with
      | some (k', m) => if k' = k then some m else none
      | none => none
    | _ => none
  jwtPack k n s t e := 'J' :: tagEnc k (tagEnc n (tagEnc s (tagEnc t (toyInt e))))
  jwtUnpack k t := match t with
    | 'J' :: s => match untag s with
      | some (k', m) => if k' = k then
          match untag m with
          | some (_, m1) => match untag m1 with
            | some (sid, m2) => match untag m2 with
              | some (tt, e) => some (sid, tt, toyUnint e)
              | none => none
            | none => none
          | none => none
        else none
      | none => none
    | _ => none

theorem toyCrypto_laws : TokenCryptoLaws toyCrypto where
  open_seal k n m := by simp [toyCrypto, untag_tagEnc]
  open_other k k' n m h := by simp [toyCrypto, untag_tagEnc, h]
  unpack_pack k n s t e := by simp [toyCrypto, untag_tagEnc, toyUnint_toyInt]
  unpack_other k k' n s t e h := by simp [toyCrypto, untag_tagEnc, h]
  open_pack := by intros; rfl
  unpack_seal := by intros; rfl

/-- Code and access handlers share a key, refresh tokens are JWTs: all hypotheses of the C04 theorems are met. -/
def toyHandlers : TokenHandler where
  code := some ⟨.default, c!"A", 300, c!"k1"⟩
  accessToken := some ⟨.default, c!"T", 3600, c!"k1"⟩
  refreshToken := some ⟨.jwt, c!"R", 86400, c!"k2"⟩

theorem toyHandlers_types : FactoryTypes toyHandlers := by
  refine ⟨?_, ?_, ?_⟩ <;> intro h hh <;> cases hh <;> rfl

example : toyHandlers.info toyCrypto 1000 (handlerCall toyCrypto ⟨.default, c!"T", 3600, c!"k1"⟩ 500 c!"r" c!"" c!"u;;c;;g" []) =
    .ok { rid := some c!"r", typ := c!"T", sid := some c!"u;;c;;g", exp := some c!"4100" } := by
  rw [C04_default_token_resolves toyCrypto toyCrypto_laws toyHandlers toyHandlers_types _ (by decide) rfl]
  decide

end Verif
