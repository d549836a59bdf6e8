import Verif.Lemmas.Pack
import Verif.Model.Cookie
import Verif.Spec.Cookie
/-! C05, C06: cookie values. -/
namespace Verif

open Spec

theorem intStr_no_colon (i : Int) : ':' ∉ intStr i := intStr_not_mem i ':' (by decide) (by decide)

theorem load_good {v t : Str} (now : Int) (hv : CookieValueOk v) (ht : CookieTypeOk t) :
    pySplit c!"::" (pyJoin c!"::" [v, intStr now, t]) = [v, intStr now, t] := by
  apply split_dd_join ':' _ (by simp)
  have hn := intStr_no_colon now
  refine ⟨?_, ?_⟩
  · intro p hp
    simp only [List.mem_cons, List.not_mem_nil, or_false] at hp
    rcases hp with rfl | rfl | rfl
    · exact hv.1
    · exact fun h => hn (h.subset (by simp))
    · exact ht
  · intro p hp
    simp only [List.dropLast_cons_cons, List.dropLast_singleton, List.mem_cons, List.not_mem_nil, or_false] at hp
    rcases hp with rfl | rfl
    · exact hv.2
    · exact fun h => hn (h.subset (by simp))

theorem last_of_all {a : Str} (h : ∀ c ∈ a, isPySpace c = false) : pyRstrip a = a :=
  (rstrip_eq_self_iff a).2 fun c hc => h c (List.mem_of_getLast? hc)

/-- **C05** A cookie made by `create_cookie` is read back by `get_cookie_value` with the same keys as the same value,
timestamp and type, whether it is only signed, only encrypted or both.  A signed-only cookie travels in clear, so there
value and type must not contain the cookie's own separator `|`. -/
theorem C05_cookie_roundtrip (cr : CookieCrypto) (L : CookieLaws cr) (d : CookieDealer) (hd : DealerOk d)
    (now : Int) (iv value typ : Str) (hv : CookieValueOk value) (ht : CookieTypeOk typ)
    (hbar : d.encKey = none → '|' ∉ value ∧ '|' ∉ typ) :
    ∃ raw, createCookieValue cr d now iv value typ = .ok raw ∧
      getCookieValue cr d raw = .ok (some (value, intStr now, typ)) := by
  have hts : '|' ∉ intStr now := intStr_not_mem now '|' (by decide) (by decide)
  have hsplit := load_good now hv ht
  generalize hload : pyJoin c!"::" [value, intStr now, typ] = load at hsplit
  unfold createCookieValue signEncPayload
  rw [hload]
  cases he : d.encKey with
  | none =>
    obtain ⟨hb1, hb2⟩ := hbar he
    obtain ⟨k, hk⟩ : ∃ k, d.signKey = some k := by
      rcases hd.1 with h | h
      · exact Option.ne_none_iff_exists'.1 h
      · exact absurd he h
    have hlb : '|' ∉ load := by
      rw [← hload]
      simp only [pyJoin, List.mem_append, List.mem_cons, List.not_mem_nil, or_false, not_or]
      refine ⟨⟨hb1, by decide, by decide⟩, ⟨hts, by decide, by decide⟩, hb2⟩
    refine ⟨_, rfl, ?_⟩
    unfold getCookieValue
    rw [split_one_join '|' _ (by simp)]
    · simp [verDecContent, verDecSigned, L.unb64_b64, hk, L.verify_mac, hsplit]
    · intro p hp
      simp only [List.mem_cons, List.not_mem_nil, or_false] at hp
      rcases hp with rfl | rfl | rfl
      · exact hts
      · exact hlb
      · exact L.b64_bar _
  | some ek =>
    have hsz := hd.2 ek he
    simp only [hsz, if_true]
    refine ⟨_, rfl, ?_⟩
    unfold getCookieValue
    rw [split_one_join '|' _ (by simp)]
    · simp only [verDecContent, verDecEncrypted, L.unb64_b64, he, L.open_seal]
      cases hk : d.signKey with
      | none =>
        have e : [load, intStr now] = [load] ++ [intStr now] := rfl
        simp only [ne_eq, not_true_eq_false, if_false, verDecPlain]
        rw [e, lvUnpack_lvPack_concat, last_of_all (intStr_not_space now)]
        simp [hsplit]
      | some k =>
        by_cases hm : cr.mac k (load ++ intStr now) = []
        · have e : [load, intStr now] = [load] ++ [intStr now] := rfl
          simp only [hm, ne_eq, not_true_eq_false, if_false, verDecPlain]
          rw [e, lvUnpack_lvPack_concat, last_of_all (intStr_not_space now)]
          simp [hsplit]
        · have e : [load, intStr now, cr.b64 (cr.mac k (load ++ intStr now))] =
              [load, intStr now] ++ [cr.b64 (cr.mac k (load ++ intStr now))] := rfl
          simp only [hm, ne_eq, not_false_eq_true, if_true, verDecPlain]
          rw [e, lvUnpack_lvPack_concat, last_of_all (L.b64_space _)]
          simp [hk, L.unb64_b64, L.verify_mac, hsplit]
    · intro p hp
      simp only [List.mem_cons, List.not_mem_nil, or_false] at hp
      rcases hp with rfl | rfl | rfl | rfl
      · exact hts
      · exact L.b64_bar _
      · exact L.b64_bar _
      · exact L.b64_bar _

/-! ### Tampering -/

namespace Spec
/-- A cookie the server has issued: value, time and type. -/
structure Issued where
  value : Str
  now : Int
  typ : Str

/-- The text a cookie carries. -/
def Issued.load (i : Issued) : Str := i.value ++ c!"::" ++ intStr i.now ++ c!"::" ++ i.typ

/-- Unforgeability, symbolically: the signing key verifies only MACs over texts the server signed. -/
def MacUnforgeable (cr : CookieCrypto) (k : Str) (issued : List Issued) : Prop :=
  ∀ msg mac, cr.macVerify k msg mac = true → ∃ i ∈ issued, msg = i.load ++ intStr i.now

/-- The encryption key opens only what the server encrypted: `lv_pack` of load, timestamp and possibly a MAC. -/
def GcmUnforgeable (cr : CookieCrypto) (k : Str) (issued : List Issued) : Prop :=
  ∀ iv ctx tag msg, cr.gcmOpen k iv ctx tag = some msg →
    ∃ i ∈ issued, msg = lvPack [i.load, intStr i.now] ∨ ∃ m, msg = lvPack [i.load, intStr i.now, m]
end Spec

theorem dd_cut_unique (c : Char) (v v' s s' : Str)
    (h1 : ¬ [c, c] <:+: v) (h2 : ¬ [c] <:+ v) (h1' : ¬ [c, c] <:+: v') (h2' : ¬ [c] <:+ v')
    (h : v ++ c :: c :: s = v' ++ c :: c :: s') : v = v' ∧ s = s' := by
  have a := split_dd_append c v s h1 h2
  rw [h, split_dd_append c v' s' h1' h2'] at a
  have : v = v' := by simp at a; exact a.1.symm
  subst this
  simpa using h

theorem issued_split (i : Spec.Issued) (hv : CookieValueOk i.value) (v t y : Str)
    (h : pySplit c!"::" i.load = [v, t, y]) : v = i.value ∧ t = intStr i.now ∧ y = i.typ := by
  have hn := intStr_no_colon i.now
  have e : i.load = i.value ++ ':' :: ':' :: (intStr i.now ++ ':' :: ':' :: i.typ) := by
    simp [Spec.Issued.load]
  rw [e, split_dd_append ':' _ _ hv.1 hv.2,
    split_dd_append ':' _ _ (fun h => hn (h.subset (by simp))) (fun h => hn (h.subset (by simp)))] at h
  simp only [List.cons.injEq] at h
  obtain ⟨h1, h2, h3⟩ := h
  have := (split_dd_spec ':' i.typ).1
  rw [h3] at this
  simp [pyJoin] at this
  exact ⟨h1.symm, h2.symm, this⟩

/-- **C06** Whatever string a browser sends back, if `get_cookie_value` accepts it then value, timestamp and type are
exactly those of one cookie the server issued — although the MAC covers the unseparated concatenation of load and
timestamp, so that the boundary between the two can be moved. -/
theorem C06_no_recut (cr : CookieCrypto) (d : CookieDealer) (issued : List Spec.Issued)
    (hok : ∀ i ∈ issued, CookieValueOk i.value)
    (hmac : ∀ k, d.signKey = some k → MacUnforgeable cr k issued)
    (hgcm : ∀ k, d.encKey = some k → GcmUnforgeable cr k issued)
    (raw v t y : Str) (h : getCookieValue cr d raw = .ok (some (v, t, y))) :
    ∃ i ∈ issued, v = i.value ∧ t = intStr i.now ∧ y = i.typ := by
  unfold getCookieValue at h
  split at h
  · cases h
  · cases h
  · rename_i info timestamp hdec
    split at h
    · rename_i v' t' y' hspl
      split at h
      · rename_i htt
        simp only [Except.ok.injEq, Option.some.injEq, Prod.mk.injEq] at h
        obtain ⟨rfl, rfl, rfl⟩ := h
        subst htt
        -- either the clear text or the decrypted one
        have cases : (∃ i ∈ issued, info ++ timestamp = i.load ++ intStr i.now) ∨
            (∃ i ∈ issued, info = i.load) := by
          unfold verDecContent at hdec
          split at hdec
          · rename_i m _
            unfold verDecSigned at hdec
            split at hdec
            · cases hdec
            · split at hdec
              · cases hdec
              · rename_i k hk
                split at hdec
                · rename_i hver
                  simp only [Except.ok.injEq, Option.some.injEq, Prod.mk.injEq] at hdec
                  obtain ⟨rfl, rfl⟩ := hdec
                  exact Or.inl (hmac k hk _ _ hver)
                · cases hdec
          · unfold verDecEncrypted at hdec
            split at hdec
            · split at hdec
              · cases hdec
              · rename_i ek hek
                split at hdec
                · cases hdec
                · rename_i msg hopen
                  right
                  obtain ⟨i, hi, hmsg⟩ := hgcm ek hek _ _ _ _ hopen
                  refine ⟨i, hi, ?_⟩
                  have : ∃ rest, lvUnpack msg = .ok (i.load :: intStr i.now :: rest) := by
                    rcases hmsg with rfl | ⟨m, rfl⟩
                    · refine ⟨[], ?_⟩
                      have e : [i.load, intStr i.now] = [i.load] ++ [intStr i.now] := rfl
                      rw [e, lvUnpack_lvPack_concat, last_of_all (intStr_not_space _)]
                    · refine ⟨[pyRstrip m], ?_⟩
                      have e : [i.load, intStr i.now, m] = [i.load, intStr i.now] ++ [m] := rfl
                      rw [e, lvUnpack_lvPack_concat]
                      rfl
                  obtain ⟨rest, hrest⟩ := this
                  unfold verDecPlain at hdec
                  rw [hrest] at hdec
                  simp only at hdec
                  split at hdec
                  · split at hdec
                    · cases hdec
                    · split at hdec
                      · cases hdec
                      · split at hdec
                        · simp only [Except.ok.injEq, Option.some.injEq, Prod.mk.injEq] at hdec
                          exact hdec.1.symm
                        · simp at hdec
                  · simp only [Except.ok.injEq, Option.some.injEq, Prod.mk.injEq] at hdec
                    exact hdec.1.symm
            · cases hdec
          · simp at hdec
        rcases cases with ⟨i, hi, heq⟩ | ⟨i, hi, rfl⟩
        · refine ⟨i, hi, ?_⟩
          have hn := intStr_no_colon i.now
          have sp := split_dd_spec ':' info
          rw [hspl] at sp
          obtain ⟨hj, hg1, hg2⟩ := sp
          have hj' : v' ++ ':' :: ':' :: (timestamp ++ ':' :: ':' :: y') = info := by
            simpa [pyJoin] using hj
          have e : v' ++ ':' :: ':' :: (timestamp ++ ':' :: ':' :: (y' ++ timestamp)) =
              i.value ++ ':' :: ':' :: (intStr i.now ++ ':' :: ':' :: (i.typ ++ intStr i.now)) := by
            have : info ++ timestamp = i.load ++ intStr i.now := heq
            rw [← hj'] at this
            simpa [Spec.Issued.load] using this
          obtain ⟨e1, e2⟩ := dd_cut_unique ':' _ _ _ _ (hg1 v' (by simp)) (hg2 v' (by simp))
            (hok i hi).1 (hok i hi).2 e
          obtain ⟨e3, e4⟩ := dd_cut_unique ':' _ _ _ _ (hg1 timestamp (by simp)) (hg2 timestamp (by simp))
            (fun h => hn (h.subset (by simp))) (fun h => hn (h.subset (by simp))) e2
          rw [e3] at e4
          exact ⟨e1, e3, List.append_cancel_right e4⟩
        · exact ⟨i, hi, issued_split i (hok i hi) v' timestamp y' hspl⟩
      · cases h
    · cases h

/-! ### Non-vacuity -/

/-- A toy crypto: the MAC is the text itself behind the key, base64 writes every character as `A`s and a `B`. -/
def toyB64 : Str → Str
  | [] => []
  | c :: cs => List.replicate c.toNat 'A' ++ 'B' :: toyB64 cs

def toyUnb64Go : Nat → Str → Option Str
  | 0, [] => some []
  | _ + 1, [] => none
  | n, c :: cs =>
    if c = 'A' then toyUnb64Go (n + 1) cs
    else if c = 'B' then (toyUnb64Go 0 cs).map (Char.ofNat n :: ·)
    else none

theorem toyUnb64Go_rep (n m : Nat) (s : Str) : toyUnb64Go n (List.replicate m 'A' ++ s) = toyUnb64Go (n + m) s := by
  induction m generalizing n with
  | zero => rfl
  | succ m ih => rw [List.replicate_succ, List.cons_append, toyUnb64Go]; simp [ih]; congr 1; omega

theorem toyUnb64_toyB64 (x : Str) : toyUnb64Go 0 (toyB64 x) = some x := by
  induction x with
  | nil => rfl
  | cons c cs ih => rw [toyB64, toyUnb64Go_rep]; simp [toyUnb64Go, ih]

theorem toyB64_chars (x : Str) : ∀ c ∈ toyB64 x, c = 'A' ∨ c = 'B' := by
  induction x with
  | nil => simp [toyB64]
  | cons c cs ih =>
    intro d hd
    simp only [toyB64, List.mem_append, List.mem_replicate, List.mem_cons] at hd
    rcases hd with ⟨_, rfl⟩ | rfl | hd
    · exact Or.inl rfl
    · exact Or.inr rfl
    · exact ih d hd

def toyCookieCrypto : CookieCrypto where
  mac k m := 'M' :: k ++ m
  macVerify k m t := decide (t = 'M' :: k ++ m)
  b64 := toyB64
  unb64 := toyUnb64Go 0
  gcmSeal k _ m := (k ++ m, [])
  gcmOpen k _ ctx _ := if k.isPrefixOf ctx then some (ctx.drop k.length) else none

theorem toyCookieLaws : CookieLaws toyCookieCrypto where
  verify_mac := by simp [toyCookieCrypto]
  unb64_b64 := toyUnb64_toyB64
  b64_bar x h := by rcases toyB64_chars x _ h with h | h <;> revert h <;> decide
  b64_space x c h := by rcases toyB64_chars x _ h with rfl | rfl <;> decide
  open_seal k iv m := by simp [toyCookieCrypto, List.isPrefixOf_iff_prefix]

/-- C05's hypotheses are met by a signing and encrypting dealer and an ordinary base64 cookie value. -/
example : DealerOk ⟨some c!"sign", some c!"0123456789abcdef"⟩ ∧ CookieValueOk c!"eyJ1aWQ=:x" ∧ CookieTypeOk c!"sso" := by
  refine ⟨⟨Or.inl (by simp), by intro ek h; cases h; simp⟩, ⟨?_, ?_⟩, ?_⟩
  · have : isInfix [':', ':'] c!"eyJ1aWQ=:x" = false := by decide
    intro h
    obtain ⟨a, b, hab⟩ := h
    have hl := congrArg List.length hab
    simp only [List.length_append, List.length_cons, List.length_nil] at hl
    revert hab
    have hcount : (c!"eyJ1aWQ=:x").count ':' = 1 := by decide
    intro hab
    rw [← hab] at hcount
    simp [List.count_append] at hcount
    omega
  · decide
  · intro h
    have := h.subset (a := ':') (by simp)
    revert this; decide

/-- C06: a crypto whose verifier accepts exactly the one issued text satisfies the hypotheses and accepts its cookie. -/
def oneMac (i : Spec.Issued) : CookieCrypto :=
  { toyCookieCrypto with
    macVerify := fun _ msg _ => decide (msg = i.load ++ intStr i.now)
    gcmOpen := fun _ _ _ _ => none }

example (i : Spec.Issued) : MacUnforgeable (oneMac i) c!"k" [i] ∧ GcmUnforgeable (oneMac i) c!"e" [i] := by
  constructor
  · intro msg mac h
    exact ⟨i, by simp, by simpa [oneMac] using h⟩
  · intro iv ctx tag msg h
    simp [oneMac] at h

end Verif
