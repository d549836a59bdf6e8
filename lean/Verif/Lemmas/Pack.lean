import Verif.Model.Pack
namespace Verif

theorem lvUnpackLoop_nil : lvUnpackLoop [] = .ok [] := by
  rw [lvUnpackLoop]

theorem lvUnpackLoop_step (n : Nat) (v : Str) :
    lvUnpackLoop (natStr n ++ ':' :: v) =
      (match lvUnpackLoop (v.drop n) with
        | .error e => .error e
        | .ok rest => .ok (v.take n :: rest)) := by
  obtain ⟨c, cs, hc⟩ : ∃ c cs, natStr n ++ ':' :: v = c :: cs := by
    cases h : natStr n with
    | nil => exact absurd h (natStr_ne_nil n)
    | cons c cs => exact ⟨c, _, rfl⟩
  have hs : pySplit1 ':' (c :: cs) = some (natStr n, v) := by
    rw [← hc]
    apply pySplit1_append
    intro hm
    have := natStr_digits n _ hm
    simp [isDigit] at this
  rw [hc, lvUnpackLoop]
  split
  · rename_i h; rw [hs] at h; cases h
  · rename_i l v' h
    rw [hs] at h
    cases h
    rw [pyInt_natStr]
    simp only [pyDrop, pyTake, Int.natCast_nonneg, if_true, Int.toNat_natCast]
    cases lvUnpackLoop (List.drop n v) <;> rfl

theorem lvPack_append (a b : List Str) : lvPack (a ++ b) = lvPack a ++ lvPack b := by
  induction a with
  | nil => rfl
  | cons x xs ih => simp [lvPack, ih]

theorem lvUnpackLoop_pack (vs : List Str) (tail : Str) :
    lvUnpackLoop (lvPack vs ++ tail) =
      (match lvUnpackLoop tail with
        | .error e => .error e
        | .ok rest => .ok (vs ++ rest)) := by
  induction vs with
  | nil => simp only [lvPack, List.nil_append]; cases lvUnpackLoop tail <;> rfl
  | cons v vs ih =>
    have : lvPack (v :: vs) ++ tail = natStr v.length ++ ':' :: (v ++ (lvPack vs ++ tail)) := by
      simp [lvPack]
    rw [this, lvUnpackLoop_step]
    simp only [List.drop_left, List.take_left, ih]
    cases lvUnpackLoop tail <;> rfl

theorem rstrip_append_colon (x a : Str) (c : Char) (hc : isPySpace c = false) :
    pyRstrip (x ++ c :: a) = x ++ c :: pyRstrip a := by
  unfold pyRstrip
  simp only [List.reverse_append, List.reverse_cons, List.append_assoc]
  rw [List.dropWhile_append]
  split
  · rename_i h
    have h' : List.dropWhile isPySpace a.reverse = [] := by simpa using h
    simp [h', hc]
  · simp

theorem dropWhile_length_le (p : Char → Bool) (s : Str) : (s.dropWhile p).length ≤ s.length :=
  (List.dropWhile_suffix p).length_le

theorem rstrip_length (a : Str) : (pyRstrip a).length ≤ a.length := by
  unfold pyRstrip
  simpa using dropWhile_length_le isPySpace a.reverse

theorem lvPack_head_digit (vs : List Str) (h : vs ≠ []) :
    ∃ d r, lvPack vs = d :: r ∧ isDigit d = true := by
  cases vs with
  | nil => exact absurd rfl h
  | cons v vs =>
    cases hn : natStr v.length with
    | nil => exact absurd hn (natStr_ne_nil _)
    | cons d r =>
      refine ⟨d, _, by rw [lvPack, hn]; rfl, natStr_digits v.length d (by rw [hn]; simp)⟩

/-- The exact result of unpacking a packed list: trailing whitespace of the last value is lost, nothing else. -/
theorem lvUnpack_lvPack_concat (vs : List Str) (a : Str) :
    lvUnpack (lvPack (vs ++ [a])) = .ok (vs ++ [pyRstrip a]) := by
  have hr : pyRstrip (lvPack (vs ++ [a])) = lvPack vs ++ (natStr a.length ++ ':' :: pyRstrip a) := by
    have : lvPack (vs ++ [a]) = (lvPack vs ++ natStr a.length) ++ ':' :: a := by
      rw [lvPack_append]; simp [lvPack]
    rw [this, rstrip_append_colon _ _ _ (by decide)]
    simp
  have hl : pyLstrip (lvPack vs ++ (natStr a.length ++ ':' :: pyRstrip a)) =
      lvPack vs ++ (natStr a.length ++ ':' :: pyRstrip a) := by
    obtain ⟨d, r, hd, hdd⟩ : ∃ d r, lvPack vs ++ (natStr a.length ++ ':' :: pyRstrip a) = d :: r ∧ isDigit d = true := by
      cases vs with
      | nil =>
        cases hn : natStr a.length with
        | nil => exact absurd hn (natStr_ne_nil _)
        | cons d r => exact ⟨d, _, rfl, natStr_digits a.length d (by rw [hn]; simp)⟩
      | cons v vs =>
        obtain ⟨d, r, h, hd⟩ := lvPack_head_digit (v :: vs) (by simp)
        exact ⟨d, _, by rw [h]; rfl, hd⟩
    rw [hd]
    simp [pyLstrip, List.dropWhile, isDigit_not_space hdd]
  unfold lvUnpack pyStrip
  rw [hr, hl, lvUnpackLoop_pack, lvUnpackLoop_step]
  have h1 : (pyRstrip a).drop a.length = [] := List.drop_eq_nil_of_le (rstrip_length a)
  have h2 : (pyRstrip a).take a.length = pyRstrip a := List.take_of_length_le (rstrip_length a)
  rw [h1, h2, lvUnpackLoop_nil]

theorem rstrip_eq_self_iff (a : Str) : pyRstrip a = a ↔ ∀ c, a.getLast? = some c → isPySpace c = false := by
  unfold pyRstrip
  rw [List.getLast?_eq_head?_reverse]
  generalize hb : a.reverse = b
  have ha : a = b.reverse := by rw [← hb, List.reverse_reverse]
  subst ha
  rw [List.reverse_inj]
  cases b with
  | nil => simp
  | cons x xs =>
    simp only [List.dropWhile, List.head?_cons, Option.some.injEq, forall_eq']
    cases h : isPySpace x
    · simp
    · simp only [reduceCtorEq, iff_false]
      intro h'
      have := congrArg List.length h'
      have := dropWhile_length_le isPySpace xs
      simp at *
      omega

theorem lvUnpackLoop_error (txt : Str) (e : Exn) (h : lvUnpackLoop txt = .error e) : e = .valueError := by
  fun_induction lvUnpackLoop txt <;> simp_all

end Verif
