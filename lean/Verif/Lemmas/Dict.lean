import Verif.Py
set_option linter.unusedSimpArgs false
/-! Facts about dictionaries. -/
namespace Verif
namespace Dict
variable {α : Type}

theorem get?_cons (k' : Str) (v : α) (r : Dict α) (k : Str) :
    Dict.get? ((k', v) :: r : Dict α) k = if k' = k then some v else r.get? k := rfl

theorem get?_mem {d : Dict α} {k : Str} {v : α} (h : d.get? k = some v) : (k, v) ∈ d := by
  induction d with
  | nil => simp [Dict.get?] at h
  | cons p r ih =>
    obtain ⟨k', v'⟩ := p
    unfold Dict.get? at h
    split at h
    · rename_i e; cases h; simp [e]
    · exact List.mem_cons_of_mem _ (ih h)

theorem mem_get? {d : Dict α} (hd : (d.map (·.1)).Nodup) {k : Str} {v : α} (h : (k, v) ∈ d) :
    d.get? k = some v := by
  induction d with
  | nil => simp at h
  | cons p r ih =>
    obtain ⟨k', v'⟩ := p
    simp only [List.map_cons, List.nodup_cons] at hd
    unfold Dict.get?
    rcases List.mem_cons.1 h with e | e
    · cases e; simp
    · have : k' ≠ k := fun hk => hd.1 (hk ▸ List.mem_map_of_mem e)
      simp only [this, if_false]
      exact ih hd.2 e

theorem get?_isSome {d : Dict α} {k : Str} : (d.get? k).isSome ↔ k ∈ d.keys := by
  induction d with
  | nil => simp [Dict.get?, Dict.keys]
  | cons p r ih =>
    obtain ⟨k', v'⟩ := p
    unfold Dict.get?
    simp only [Dict.keys, List.map_cons, List.mem_cons] at ih ⊢
    by_cases e : k' = k
    · simp [e]
    · simp only [e, if_false, ih]
      constructor
      · exact Or.inr
      · rintro (h | h)
        · exact absurd h.symm e
        · exact h

theorem get?_set (d : Dict α) (k k' : Str) (v : α) :
    (d.set k v).get? k' = if k' = k then some v else d.get? k' := by
  induction d with
  | nil =>
    simp only [Dict.set, Dict.get?]
    by_cases e : k = k'
    · simp [e]
    · have : k' ≠ k := fun h => e h.symm
      simp [e, this]
  | cons p r ih =>
    obtain ⟨k1, v1⟩ := p
    unfold Dict.set
    by_cases e : k1 = k
    · subst e
      simp only [if_true, Dict.get?]
      by_cases e2 : k1 = k'
      · simp [e2]
      · have : k' ≠ k1 := fun h => e2 h.symm
        simp [e2, this]
    · simp only [e, if_false, Dict.get?, ih]
      by_cases e2 : k1 = k'
      · subst e2; simp [e]
      · simp [e2]

/-- Later dictionaries win. -/
theorem get?_update (d e : Dict α) (k : Str) (he : (e.map (·.1)).Nodup) :
    (d.update e).get? k = match e.get? k with
      | some v => some v
      | none => d.get? k := by
  unfold Dict.update
  induction e generalizing d with
  | nil => simp [Dict.get?]
  | cons p r ih =>
    obtain ⟨k1, v1⟩ := p
    simp only [List.map_cons, List.nodup_cons] at he
    simp only [List.foldl_cons]
    rw [ih (d.set k1 v1) he.2, get?_set]
    rw [get?_cons]
    by_cases e1 : k1 = k
    · subst e1
      have hn : Dict.get? r k1 = none := by
        cases hh : Dict.get? r k1 with
        | none => rfl
        | some v => exact absurd (List.mem_map_of_mem (f := (·.1)) (get?_mem hh)) he.1
      simp [hn]
    · have : k ≠ k1 := fun h => e1 h.symm
      simp only [e1, this, if_false]

theorem mem_keys_update (d e : Dict α) (k : Str) : k ∈ (d.update e).keys ↔ k ∈ d.keys ∨ k ∈ e.keys := by
  unfold Dict.update
  induction e generalizing d with
  | nil => simp [Dict.keys]
  | cons p r ih =>
    obtain ⟨k1, v1⟩ := p
    simp only [List.foldl_cons]
    rw [ih]
    rw [← get?_isSome, ← get?_isSome (d := d), get?_set]
    simp only [Dict.keys, List.map_cons, List.mem_cons]
    by_cases e1 : k = k1
    · simp [e1]
    · simp [e1]

theorem keys_set_nodup {d : Dict α} (h : d.keys.Nodup) (k : Str) (v : α) : (d.set k v).keys.Nodup := by
  induction d with
  | nil => simp [Dict.set, Dict.keys]
  | cons p r ih =>
    obtain ⟨k1, v1⟩ := p
    simp only [Dict.keys, List.map_cons, List.nodup_cons] at h
    unfold Dict.set
    by_cases e : k1 = k
    · simp only [e, if_true, Dict.keys, List.map_cons, List.nodup_cons]
      exact ⟨e ▸ h.1, h.2⟩
    · simp only [e, if_false, Dict.keys, List.map_cons, List.nodup_cons]
      refine ⟨?_, ih h.2⟩
      intro hk
      have := (get?_isSome (d := Dict.set r k v) (k := k1)).2 hk
      rw [get?_set] at this
      simp only [e, if_false] at this
      exact h.1 (get?_isSome.1 this)

theorem keys_update_nodup {d : Dict α} (h : d.keys.Nodup) (e : Dict α) : (d.update e).keys.Nodup := by
  unfold Dict.update
  induction e generalizing d with
  | nil => exact h
  | cons p r ih => exact ih (keys_set_nodup h p.1 p.2)

end Dict
end Verif
