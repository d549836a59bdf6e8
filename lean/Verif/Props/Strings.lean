import Verif.Lemmas.Pack
import Verif.Model.Keys
import Verif.Spec.Strings
/-! C01, C02, C03: the string encodings everything else rests on. -/
namespace Verif
open Spec

/-- **C01** Unpacking a session identifier returns the ids it was built from, precisely when no id contains `;;` and
no id but the last ends in `;`. -/
theorem C01_session_id_roundtrip (ids : List Str) (h : ids ≠ []) :
    unpackSessionKey (sessionKey ids) = ids ↔ Encodable ids :=
  split_dd_join_iff ';' ids h

/-- Non-vacuity: a realistic triple is encodable, and one that is not decodes to something else. -/
example : Encodable [c!"diana", c!"client_1", c!"9f3;x"] ∧
    unpackSessionKey (sessionKey [c!"diana", c!"client_1", c!"9f3;x"]) = [c!"diana", c!"client_1", c!"9f3;x"] := by
  have h : unpackSessionKey (sessionKey [c!"diana", c!"client_1", c!"9f3;x"]) = [c!"diana", c!"client_1", c!"9f3;x"] := by
    decide
  exact ⟨(C01_session_id_roundtrip _ (by simp)).1 h, h⟩

/-- The empty argument list is the only one outside the theorem: `session_key()` is `""`, which unpacks to `[""]`. -/
example : unpackSessionKey (sessionKey []) = [[]] := by decide

/-- An id ending in `;` really breaks the round trip: user `u;` of client `c` is read back as user `u`, client `;c`. -/
theorem C01_trailing_semicolon_is_misread :
    unpackSessionKey (sessionKey [c!"u;", c!"c"]) = [c!"u", c!";c"] := by decide

theorem encodable_of_semicolonFree {ids : List Str} (h : ∀ id ∈ ids, SemicolonFree id) : Encodable ids := by
  refine ⟨fun id hid hi => h id hid ?_, fun id hid hi => h id (List.dropLast_subset _ hid) ?_⟩
  · exact hi.subset (by simp)
  · exact hi.subset (by simp)

/-- **C02** Different non-empty paths of `;`-free ids (a user, a user and client, or a user, client and grant) are kept
under different keys of the flat storage. -/
theorem C02_paths_have_distinct_keys (p q : List Str) (hp : p ≠ []) (hq : q ≠ [])
    (hpf : ∀ id ∈ p, SemicolonFree id) (hqf : ∀ id ∈ q, SemicolonFree id) :
    sessionKey p = sessionKey q ↔ p = q := by
  constructor
  · intro h
    have h1 := (C01_session_id_roundtrip p hp).2 (encodable_of_semicolonFree hpf)
    have h2 := (C01_session_id_roundtrip q hq).2 (encodable_of_semicolonFree hqf)
    rw [← h1, ← h2, h]
  · rintro rfl; rfl

example : (∀ id ∈ [c!"diana", c!"client_1"], SemicolonFree id) ∧ (∀ id ∈ [c!"diana"], SemicolonFree id) := by
  simp [SemicolonFree]

/-- Without the restriction keys do collide: (`u;`, `c`) and (`u`, `;c`) share storage. -/
theorem C02_collision_with_semicolons :
    ∃ p q : List Str, p ≠ q ∧ p.length = 2 ∧ q.length = 2 ∧ sessionKey p = sessionKey q :=
  ⟨[c!"u;", c!"c"], [c!"u", c!";c"], by decide, rfl, rfl, by decide⟩

/-- **C03** Length:value packing round-trips exactly for the lists whose last value does not end in whitespace,
whatever else the values contain. -/
theorem C03_lv_roundtrip (vs : List Str) :
    lvUnpack (lvPack vs) = .ok vs ↔ ∀ last, vs.getLast? = some last → ¬ EndsInSpace last := by
  rcases List.eq_nil_or_concat vs with rfl | ⟨init, a, rfl⟩
  · constructor
    · simp
    · intro _; simp only [lvPack, lvUnpack, pyStrip, pyRstrip, pyLstrip, List.reverse_nil, List.dropWhile_nil]
      exact lvUnpackLoop_nil
  · rw [List.concat_eq_append, lvUnpack_lvPack_concat]
    simp only [Except.ok.injEq, List.append_cancel_left_eq, List.cons.injEq, and_true, List.getLast?_append,
      List.getLast?_singleton, Option.some_or, Option.some.injEq, forall_eq']
    rw [rstrip_eq_self_iff]
    unfold EndsInSpace
    constructor
    · rintro h ⟨c, hc, hs⟩
      simp [h c hc] at hs
    · intro h c hc
      cases hs : isPySpace c with
      | false => rfl
      | true => exact absurd ⟨c, hc, hs⟩ h

/-- Values that look like the format itself are unpacked correctly. -/
example : lvUnpack (lvPack [c!"3:abc", c!"", c!" :", c!"7"]) = .ok [c!"3:abc", c!"", c!" :", c!"7"] :=
  (C03_lv_roundtrip _).2 (by simp [EndsInSpace, isPySpace])

/-- **C03** (what happens otherwise) only the trailing whitespace of the last value is lost. -/
theorem C03_lv_roundtrip_exact (vs : List Str) (last : Str) :
    lvUnpack (lvPack (vs ++ [last])) = .ok (vs ++ [pyRstrip last]) := lvUnpack_lvPack_concat vs last

/-- **C03** (termination) `lv_unpack` is a total function: on every input it returns a list or raises `ValueError`
(the loop's termination is the well-foundedness proof in the definition of `lvUnpackLoop`). -/
theorem C03_lv_unpack_total (txt : Str) :
    (∃ vs, lvUnpack txt = .ok vs) ∨ lvUnpack txt = .error .valueError := by
  cases h : lvUnpack txt with
  | ok vs => exact Or.inl ⟨vs, rfl⟩
  | error e => exact Or.inr (by rw [lvUnpackLoop_error _ _ h])

end Verif
