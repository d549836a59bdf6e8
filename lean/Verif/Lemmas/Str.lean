import Verif.Py
/-! Helper lemmas about the Python string primitives. -/
namespace Verif

/-! ### `split` with a separator of two equal characters -/

def consHead (x : Char) : List Str → List Str
  | [] => [[x]]
  | p :: ps => (x :: p) :: ps

theorem splitGo_ne_nil (sep : Str) (k : Nat) (cur s : Str) : pySplitGo sep k cur s ≠ [] := by
  induction s generalizing k cur with
  | nil => simp [pySplitGo]
  | cons c cs ih =>
    cases k with
    | zero => simp only [pySplitGo]; split <;> simp [ih]
    | succ k => simpa [pySplitGo] using ih k cur

theorem pySplit_ne_nil (sep s : Str) : pySplit sep s ≠ [] := splitGo_ne_nil _ _ _ _

theorem splitGo_cur (sep : Str) (k : Nat) (cur s : Str) :
    ∃ p ps, pySplitGo sep k [] s = p :: ps ∧ pySplitGo sep k cur s = (cur.reverse ++ p) :: ps := by
  induction s generalizing k cur with
  | nil => exact ⟨[], [], by simp [pySplitGo], by simp [pySplitGo]⟩
  | cons c cs ih =>
    cases k with
    | zero =>
      simp only [pySplitGo]
      by_cases h : sep.isPrefixOf (c :: cs) = true
      · simp [h]
      · simp only [h]
        obtain ⟨p, ps, h1, h2⟩ := ih 0 [c]
        obtain ⟨p', ps', h1', h2'⟩ := ih 0 (c :: cur)
        rw [h1] at h1'
        cases h1'
        exact ⟨[c] ++ p, ps, by simpa using h2, by simpa using h2'⟩
    | succ k => simpa [pySplitGo] using ih k cur

theorem splitGo_cons (sep : Str) (x : Char) (s : Str) :
    pySplitGo sep 0 [x] s = consHead x (pySplit sep s) := by
  obtain ⟨p, ps, h1, h2⟩ := splitGo_cur sep 0 [x] s
  simp [pySplit, h1, h2, consHead]

theorem pySplit_nil (sep : Str) : pySplit sep [] = [[]] := by simp [pySplit, pySplitGo]

theorem pySplit_dd (c : Char) (r : Str) : pySplit [c, c] (c :: c :: r) = [] :: pySplit [c, c] r := by
  simp [pySplit, pySplitGo, List.isPrefixOf]

theorem pySplit_dd_other (c x : Char) (r : Str) (h : ¬ (x = c ∧ ∃ r', r = c :: r')) :
    pySplit [c, c] (x :: r) = consHead x (pySplit [c, c] r) := by
  have : List.isPrefixOf [c, c] (x :: r) = false := by
    rw [Bool.eq_false_iff]
    intro hp
    rw [List.isPrefixOf_iff_prefix] at hp
    obtain ⟨t, ht⟩ := hp
    simp only [List.cons_append, List.nil_append, List.cons.injEq] at ht
    exact h ⟨ht.1.symm, t, ht.2.symm⟩
  rw [pySplit, pySplitGo, this]
  simp [splitGo_cons]

/-- The lists of pieces that `split` can produce for the separator `cc`. -/
def GoodPieces (c : Char) (l : List Str) : Prop :=
  (∀ p ∈ l, ¬ [c, c] <:+: p) ∧ (∀ p ∈ l.dropLast, ¬ [c] <:+ p)

theorem join_consHead (sep : Str) (x : Char) (l : List Str) (h : l ≠ []) :
    pyJoin sep (consHead x l) = x :: pyJoin sep l := by
  cases l with
  | nil => exact absurd rfl h
  | cons p ps => cases ps <;> simp [consHead, pyJoin]

theorem join_nil_cons (sep : Str) (l : List Str) (h : l ≠ []) :
    pyJoin sep ([] :: l) = sep ++ pyJoin sep l := by
  cases l with
  | nil => exact absurd rfl h
  | cons p ps => simp [pyJoin]

theorem infix_dd_cons (c x : Char) (p : Str) :
    [c, c] <:+: x :: p ↔ (x = c ∧ ∃ r, p = c :: r) ∨ [c, c] <:+: p := by
  rw [List.infix_cons_iff]
  constructor
  · rintro (⟨t, ht⟩ | h)
    · simp only [List.cons_append, List.nil_append, List.cons.injEq] at ht
      exact Or.inl ⟨ht.1.symm, t, ht.2.symm⟩
    · exact Or.inr h
  · rintro (⟨rfl, r, rfl⟩ | h)
    · exact Or.inl ⟨r, rfl⟩
    · exact Or.inr h

theorem suffix_one_cons (c x : Char) (p : Str) : [c] <:+ x :: p ↔ (p = [] ∧ x = c) ∨ [c] <:+ p := by
  rw [List.suffix_cons_iff]
  constructor
  · rintro (h | h)
    · simp only [List.cons.injEq] at h
      exact Or.inl ⟨h.2.symm, h.1.symm⟩
    · exact Or.inr h
  · rintro (⟨rfl, rfl⟩ | h)
    · exact Or.inl rfl
    · exact Or.inr h

theorem split_dd_spec (c : Char) (s : Str) :
    pyJoin [c, c] (pySplit [c, c] s) = s ∧ GoodPieces c (pySplit [c, c] s) := by
  match s with
  | [] => simp [pySplit_nil, pyJoin, GoodPieces]
  | x :: r =>
    by_cases h : x = c ∧ ∃ r', r = c :: r'
    · obtain ⟨rfl, r', rfl⟩ := h
      have ⟨ih1, ih2⟩ := split_dd_spec x r'
      have hne := pySplit_ne_nil [x, x] r'
      rw [pySplit_dd]
      refine ⟨by rw [join_nil_cons _ _ hne, ih1]; rfl, ?_, ?_⟩
      · intro p hp
        rcases List.mem_cons.1 hp with rfl | hp
        · simp
        · exact ih2.1 p hp
      · intro p hp
        rw [List.dropLast_cons_of_ne_nil hne] at hp
        rcases List.mem_cons.1 hp with rfl | hp
        · simp
        · exact ih2.2 p hp
    · have ⟨ih1, ih2⟩ := split_dd_spec c r
      have hne := pySplit_ne_nil [c, c] r
      rw [pySplit_dd_other c x r h]
      refine ⟨by rw [join_consHead _ _ _ hne, ih1], ?_⟩
      obtain ⟨p, ps, hp⟩ : ∃ p ps, pySplit [c, c] r = p :: ps := by
        cases hq : pySplit [c, c] r with
        | nil => exact absurd hq hne
        | cons p ps => exact ⟨p, ps, rfl⟩
      rw [hp] at ih1 ih2
      rw [hp]
      obtain ⟨i1, i2⟩ := ih2
      refine ⟨?_, ?_⟩
      · intro q hq
        rcases List.mem_cons.1 hq with rfl | hq
        · rw [infix_dd_cons]
          rintro (⟨rfl, r', rfl⟩ | h')
          · apply h
            refine ⟨rfl, ?_⟩
            cases ps <;> simp only [pyJoin, List.cons_append] at ih1 <;> exact ⟨_, ih1.symm⟩
          · exact i1 p (by simp) h'
        · exact i1 q (by simp [hq])
      · intro q hq
        cases ps with
        | nil => simp [consHead] at hq
        | cons p2 ps =>
          simp only [consHead, List.dropLast_cons_cons] at hq i2
          rcases List.mem_cons.1 hq with rfl | hq
          · rw [suffix_one_cons]
            rintro (⟨rfl, rfl⟩ | h')
            · apply h
              refine ⟨rfl, ?_⟩
              simp only [pyJoin, List.nil_append, List.cons_append] at ih1
              exact ⟨_, ih1.symm⟩
            · exact i2 p (by simp) h'
          · exact i2 q (by simp [hq])
termination_by s.length
decreasing_by all_goals simp_wf <;> simp_all <;> omega

/-- A piece without `cc` that does not end in `c`, followed by `cc`, is cut off first. -/
theorem split_dd_append (c : Char) (p s : Str) (h1 : ¬ [c, c] <:+: p) (h2 : ¬ [c] <:+ p) :
    pySplit [c, c] (p ++ c :: c :: s) = p :: pySplit [c, c] s := by
  induction p with
  | nil => exact pySplit_dd c s
  | cons x p ih =>
    rw [infix_dd_cons] at h1
    rw [suffix_one_cons] at h2
    have hx : ¬ (x = c ∧ ∃ r', p ++ c :: c :: s = c :: r') := by
      rintro ⟨rfl, r', hr⟩
      cases p with
      | nil => exact h2 (Or.inl ⟨rfl, rfl⟩)
      | cons y p' =>
        simp only [List.cons_append, List.cons.injEq] at hr
        exact h1 (Or.inl ⟨rfl, p', by rw [hr.1]⟩)
    rw [List.cons_append, pySplit_dd_other c x _ hx,
      ih (fun h => h1 (Or.inr h)) (fun h => h2 (Or.inr h))]
    rfl

theorem split_dd_one (c : Char) (p : Str) (h : ¬ [c, c] <:+: p) : pySplit [c, c] p = [p] := by
  induction p with
  | nil => rfl
  | cons x p ih =>
    rw [infix_dd_cons] at h
    rw [pySplit_dd_other c x _ (fun h' => h (Or.inl h')), ih (fun h' => h (Or.inr h'))]
    rfl

theorem split_dd_join (c : Char) (l : List Str) (hne : l ≠ []) (hg : GoodPieces c l) :
    pySplit [c, c] (pyJoin [c, c] l) = l := by
  induction l with
  | nil => exact absurd rfl hne
  | cons p ps ih =>
    cases ps with
    | nil => simpa [pyJoin] using split_dd_one c p (hg.1 p (by simp))
    | cons q qs =>
      have hd : (p :: q :: qs).dropLast = p :: (q :: qs).dropLast := rfl
      have := split_dd_append c p (pyJoin [c, c] (q :: qs)) (hg.1 p (by simp)) (hg.2 p (by simp [hd]))
      simp only [pyJoin, List.append_assoc, List.cons_append, List.nil_append] at this ⊢
      rw [this, ih (by simp) ⟨fun r hr => hg.1 r (by simp [hr]), fun r hr => hg.2 r (by rw [hd]; simp [hr])⟩]

theorem split_dd_join_iff (c : Char) (l : List Str) (hne : l ≠ []) :
    pySplit [c, c] (pyJoin [c, c] l) = l ↔ GoodPieces c l :=
  ⟨fun h => h ▸ (split_dd_spec c _).2, split_dd_join c l hne⟩

/-! ### `split` with a one-character separator -/

theorem pySplit_one_same (c : Char) (r : Str) : pySplit [c] (c :: r) = [] :: pySplit [c] r := by
  simp [pySplit, pySplitGo, List.isPrefixOf]

theorem pySplit_one_other (c x : Char) (r : Str) (h : x ≠ c) :
    pySplit [c] (x :: r) = consHead x (pySplit [c] r) := by
  have : List.isPrefixOf [c] (x :: r) = false := by
    simp [List.isPrefixOf, Ne.symm h]
  rw [pySplit, pySplitGo, this]
  simp [splitGo_cons]

theorem split_one_append (c : Char) (p s : Str) (h : c ∉ p) :
    pySplit [c] (p ++ c :: s) = p :: pySplit [c] s := by
  induction p with
  | nil => exact pySplit_one_same c s
  | cons x p ih =>
    simp only [List.mem_cons, not_or] at h
    rw [List.cons_append, pySplit_one_other c x _ (Ne.symm h.1), ih h.2]
    rfl

theorem split_one_one (c : Char) (p : Str) (h : c ∉ p) : pySplit [c] p = [p] := by
  induction p with
  | nil => rfl
  | cons x p ih =>
    simp only [List.mem_cons, not_or] at h
    rw [pySplit_one_other c x _ (Ne.symm h.1), ih h.2]
    rfl

theorem split_one_join (c : Char) (l : List Str) (hne : l ≠ []) (hg : ∀ p ∈ l, c ∉ p) :
    pySplit [c] (pyJoin [c] l) = l := by
  induction l with
  | nil => exact absurd rfl hne
  | cons p ps ih =>
    cases ps with
    | nil => simpa [pyJoin] using split_one_one c p (hg p (by simp))
    | cons q qs =>
      have := split_one_append c p (pyJoin [c] (q :: qs)) (hg p (by simp))
      simp only [pyJoin, List.append_assoc, List.cons_append, List.nil_append] at this ⊢
      rw [this, ih (by simp) (fun r hr => hg r (by simp [hr]))]

theorem split_one_spec (c : Char) (s : Str) :
    pyJoin [c] (pySplit [c] s) = s ∧ ∀ p ∈ pySplit [c] s, c ∉ p := by
  induction s with
  | nil => simp [pySplit_nil, pyJoin]
  | cons x r ih =>
    have hne := pySplit_ne_nil [c] r
    by_cases h : x = c
    · subst h
      rw [pySplit_one_same, join_nil_cons _ _ hne, ih.1]
      simpa using ih.2
    · rw [pySplit_one_other c x r h, join_consHead _ _ _ hne, ih.1]
      refine ⟨rfl, ?_⟩
      intro p hp
      cases hq : pySplit [c] r with
      | nil => exact absurd hq hne
      | cons q qs =>
        rw [hq] at hp ih
        rcases List.mem_cons.1 hp with rfl | hp
        · simp only [List.mem_cons, not_or]
          exact ⟨Ne.symm h, ih.2 q (by simp)⟩
        · exact ih.2 p (by simp [hp])

theorem pySplit1_append (c : Char) (a b : Str) (h : c ∉ a) : pySplit1 c (a ++ c :: b) = some (a, b) := by
  induction a with
  | nil => simp [pySplit1]
  | cons x a ih =>
    simp only [List.mem_cons, not_or] at h
    simp [pySplit1, Ne.symm h.1, ih h.2]

theorem pySplit1_length (c : Char) (s a b : Str) (h : pySplit1 c s = some (a, b)) :
    b.length < s.length := by
  induction s generalizing a b with
  | nil => simp [pySplit1] at h
  | cons x s ih =>
    simp only [pySplit1] at h
    split at h
    · cases h; simp
    · split at h
      · cases h
      · rename_i a' b' heq
        cases h
        have := ih _ _ heq
        simp; omega

theorem pyDrop_length (i : Int) (s : Str) : (pyDrop i s).length ≤ s.length := by
  unfold pyDrop; split <;> simp

/-! ### Decimal numbers -/

theorem digitChar_isDigit {n : Nat} (h : n < 10) : isDigit (digitChar n) = true ∧ digitVal (digitChar n) = n := by
  have : ∀ m : Fin 10, isDigit (digitChar m.1) = true ∧ digitVal (digitChar m.1) = m.1 := by decide
  exact this ⟨n, h⟩

theorem isDigit_not_space {c : Char} (h : isDigit c = true) : isPySpace c = false := by
  simp only [isDigit, Bool.and_eq_true, decide_eq_true_eq] at h
  simp only [isPySpace, Bool.or_eq_false_iff, Bool.and_eq_false_iff, decide_eq_false_iff_not, beq_eq_false_iff_ne]
  omega

theorem natStrGo_digits (k n : Nat) (h : n ≤ k) : ∀ c ∈ natStrGo k n, isDigit c = true := by
  induction k generalizing n with
  | zero =>
    have : n = 0 := by omega
    subst this
    intro c hc
    simp only [natStrGo, List.mem_singleton] at hc
    subst hc; decide
  | succ k ih =>
    intro c hc
    simp only [natStrGo] at hc
    split at hc
    · simp only [List.mem_singleton] at hc
      subst hc
      exact (digitChar_isDigit (by omega)).1
    · rcases List.mem_append.1 hc with hc | hc
      · exact ih (n / 10) (by omega) c hc
      · simp only [List.mem_singleton] at hc
        subst hc
        exact (digitChar_isDigit (by omega)).1

theorem natStrGo_ne_nil (k n : Nat) : natStrGo k n ≠ [] := by
  cases k <;> simp only [natStrGo]
  · simp
  · split <;> simp

theorem pyDigits_append (b : Bool) (acc : Nat) (s : Str) (d : Char) (m : Nat)
    (hs : ∀ c ∈ s, isDigit c = true) (hd : isDigit d = true)
    (h : pyDigits b acc s = some m ∨ (s = [] ∧ acc = m)) :
    pyDigits b acc (s ++ [d]) = some (10 * m + digitVal d) := by
  induction s generalizing b acc with
  | nil =>
    have : acc = m := by
      rcases h with h | h
      · cases b <;> simp [pyDigits] at h
        exact h
      · exact h.2
    simp [pyDigits, hd, this]
  | cons c cs ih =>
    have hc := hs c (by simp)
    rcases h with h | h
    · simp only [List.cons_append, pyDigits, hc] at h ⊢
      exact ih true _ (fun x hx => hs x (by simp [hx])) (Or.inl h)
    · simp at h

theorem pyDigits_natStrGo (k n : Nat) (h : n ≤ k) : pyDigits false 0 (natStrGo k n) = some n := by
  induction k generalizing n with
  | zero =>
    have : n = 0 := by omega
    subst this
    decide
  | succ k ih =>
    simp only [natStrGo]
    split
    · have := digitChar_isDigit (n := n) (by omega)
      simp [pyDigits, this.1, this.2]
    · have hd := digitChar_isDigit (n := n % 10) (by omega)
      rw [pyDigits_append _ _ _ _ _ (natStrGo_digits k (n / 10) (by omega)) hd.1 (Or.inl (ih (n / 10) (by omega))), hd.2]
      congr 1
      omega

theorem natStr_digits (n : Nat) : ∀ c ∈ natStr n, isDigit c = true := natStrGo_digits n n (Nat.le_refl _)
theorem natStr_ne_nil (n : Nat) : natStr n ≠ [] := natStrGo_ne_nil n n

theorem dropWhile_all_false {p : Char → Bool} {s : Str} (h : ∀ c ∈ s, p c = false) : s.dropWhile p = s := by
  cases s with
  | nil => rfl
  | cons c cs => simp [List.dropWhile, h c (by simp)]

theorem pyStrip_none {s : Str} (h : ∀ c ∈ s, isPySpace c = false) : pyStrip s = s := by
  have h1 : pyRstrip s = s := by
    unfold pyRstrip
    rw [dropWhile_all_false (fun c hc => h c (by simpa using hc)), List.reverse_reverse]
  unfold pyStrip pyLstrip
  rw [h1]
  exact dropWhile_all_false h

theorem pyInt_natStr (n : Nat) : pyInt (natStr n) = some (n : Int) := by
  have hs : pyStrip (natStr n) = natStr n :=
    pyStrip_none (fun c hc => isDigit_not_space (natStr_digits n c hc))
  unfold pyInt
  rw [hs]
  have hd := pyDigits_natStrGo n n (Nat.le_refl _)
  split
  · rename_i cs h
    have := natStr_digits n '+' (by rw [h]; simp)
    simp [isDigit] at this
  · rename_i cs h
    have := natStr_digits n '-' (by rw [h]; simp)
    simp [isDigit] at this
  · simp [natStr, hd]

theorem intStr_ne_nil (i : Int) : intStr i ≠ [] := by
  unfold intStr; split <;> simp [natStr_ne_nil]

theorem intStr_chars (i : Int) : ∀ c ∈ intStr i, isDigit c = true ∨ c = '-' := by
  intro c hc
  unfold intStr at hc
  split at hc
  · rcases List.mem_cons.1 hc with h | h
    · exact Or.inr h
    · exact Or.inl (natStr_digits _ c h)
  · exact Or.inl (natStr_digits _ c hc)

theorem intStr_not_mem (i : Int) (c : Char) (h1 : isDigit c = false) (h2 : c ≠ '-') : c ∉ intStr i := by
  intro hc
  rcases intStr_chars i c hc with h | h
  · simp [h] at h1
  · exact h2 h

theorem intStr_not_space (i : Int) : ∀ c ∈ intStr i, isPySpace c = false := by
  intro c hc
  rcases intStr_chars i c hc with h | h
  · exact isDigit_not_space h
  · subst h; decide

theorem pyInt_intStr (i : Int) : pyInt (intStr i) = some i := by
  by_cases h : i < 0
  · have hs : pyStrip (intStr i) = intStr i := pyStrip_none (intStr_not_space i)
    unfold pyInt
    rw [hs]
    simp only [intStr, h, if_true, natStr, pyDigits_natStrGo _ _ (Nat.le_refl _), Option.map_some]
    congr 1
    have : Int.ofNat i.natAbs = (i.natAbs : Int) := rfl
    omega
  · have : intStr i = natStr i.natAbs := by simp [intStr, h]
    rw [this, pyInt_natStr]
    congr 1
    omega

end Verif
