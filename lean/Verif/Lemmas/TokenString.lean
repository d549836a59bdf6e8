import Verif.Lemmas.Pack
import Verif.Spec.Crypto
namespace Verif
open Spec

theorem rstripBlank_pad (t : Str) (n : Nat) (h : ∀ c, t.getLast? = some c → c ≠ ' ') :
    pyRstripBlank (t ++ List.replicate n ' ') = t := by
  unfold pyRstripBlank
  rw [List.reverse_append, List.reverse_replicate]
  have h1 : List.dropWhile (fun x => x == ' ') (List.replicate n ' ' ++ t.reverse) =
      List.dropWhile (fun x => x == ' ') t.reverse := by
    rw [List.dropWhile_append]; simp
  rw [h1]
  have h2 : List.dropWhile (fun x => x == ' ') t.reverse = t.reverse := by
    rw [List.getLast?_eq_head?_reverse] at h
    cases hr : t.reverse with
    | nil => rfl
    | cons x xs =>
      rw [hr] at h
      have := h x rfl
      have hb : (x == ' ') = false := by simpa using this
      simp [List.dropWhile, hb]
  rw [h2, List.reverse_reverse]

theorem crypt_roundtrip (cr : TokenCrypto) (L : TokenCryptoLaws cr) (k n t : Str)
    (h : ∀ c, t.getLast? = some c → c ≠ ' ') : cryptDecrypt cr k (cryptEncrypt cr k n t) = some t := by
  unfold cryptDecrypt cryptEncrypt
  rw [L.open_seal]
  simp only [Option.map_some, Option.some.injEq]
  unfold cryptPad
  split
  · exact rstripBlank_pad t _ h
  · simpa using rstripBlank_pad t 0 h

theorem getLast_lvPack (vs : List Str) (a : Str) (ha : a ≠ []) :
    (lvPack (vs ++ [a])).getLast? = a.getLast? := by
  rw [lvPack_append]
  simp only [lvPack, List.append_nil]
  rw [List.getLast?_append, List.getLast?_append, List.getLast?_cons]
  cases h : a.getLast? with
  | none => rw [List.getLast?_eq_none_iff] at h; exact absurd h ha
  | some c => simp

theorem defaultExp_chars (h : Handler) (now : Int) : ∀ c ∈ defaultExp h now, isPySpace c = false := by
  unfold defaultExp
  split
  · exact intStr_not_space _
  · decide

theorem defaultExp_ne_nil (h : Handler) (now : Int) : defaultExp h now ≠ [] := by
  unfold defaultExp
  split
  · exact intStr_ne_nil _
  · decide

theorem splitToken_call (cr : TokenCrypto) (L : TokenCryptoLaws cr) (h h' : Handler) (hd : h.cls = .default)
    (hk : h'.key = h.key) (now : Int) (rnd nonce sid ttype : Str) :
    splitToken cr h' (handlerCall cr h now rnd nonce sid ttype) =
      .ok [rnd, effectiveType h ttype, sid, defaultExp h now] := by
  unfold handlerCall splitToken
  rw [hd, hk]
  simp only
  have hl : ∀ c, (defaultExp h now).getLast? = some c → isPySpace c = false := fun c hc =>
    defaultExp_chars h now c (List.mem_of_getLast? hc)
  have e : [rnd, effectiveType h ttype, sid, defaultExp h now] =
      [rnd, effectiveType h ttype, sid] ++ [defaultExp h now] := rfl
  rw [crypt_roundtrip cr L]
  · simp only
    rw [e, lvUnpack_lvPack_concat, (rstrip_eq_self_iff _).2 hl]
  · intro c hc
    rw [e, getLast_lvPack _ _ (defaultExp_ne_nil h now)] at hc
    rintro rfl
    have := hl ' ' hc
    exact absurd this (by decide)

theorem splitToken_other (cr : TokenCrypto) (L : TokenCryptoLaws cr) (h h' : Handler) (hd : h.cls = .default)
    (hk : h'.key ≠ h.key) (now : Int) (rnd nonce sid ttype : Str) :
    splitToken cr h' (handlerCall cr h now rnd nonce sid ttype) = .error .unknownToken := by
  unfold handlerCall splitToken cryptDecrypt cryptEncrypt
  rw [hd]
  simp only
  rw [L.open_other _ _ _ _ (Ne.symm hk)]
  rfl

end Verif
