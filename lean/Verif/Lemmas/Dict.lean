import Verif.Model.Dict

/-! Helper lemmas on dictionaries. -/

namespace Respy
namespace Dict

variable {κ ν : Type _} [DecidableEq κ]

theorem get?_insert (d : Dict κ ν) (k : κ) (v : ν) (k' : κ) :
    (d.insert k v).get? k' = if k = k' then some v else d.get? k' := by
  induction d with
  | nil => simp [insert, get?]
  | cons kv d ih =>
    obtain ⟨a, b⟩ := kv
    unfold insert
    by_cases h : a = k
    · subst h; by_cases h' : a = k' <;> simp [get?, h']
    · simp only [h, if_false, get?, ih]
      by_cases h1 : a = k'
      · subst h1; simp [Ne.symm h]
      · simp [h1]

theorem mem_keys_insert (d : Dict κ ν) (k : κ) (v : ν) (k' : κ) :
    k' ∈ (d.insert k v).keys ↔ k' = k ∨ k' ∈ d.keys := by
  induction d with
  | nil => simp [insert, keys]
  | cons kv d ih =>
    obtain ⟨a, b⟩ := kv
    unfold insert
    by_cases h : a = k
    · subst h; simp [keys]
    · simp only [h, if_false]
      simp only [keys, List.map_cons, List.mem_cons] at ih ⊢
      rw [ih]
      constructor
      · rintro (h | h | h) <;> simp_all
      · rintro (h | h | h) <;> simp_all

theorem nodup_keys_insert (d : Dict κ ν) (k : κ) (v : ν) (h : d.keys.Nodup) :
    (d.insert k v).keys.Nodup := by
  induction d with
  | nil => simp [insert, keys]
  | cons kv d ih =>
    obtain ⟨a, b⟩ := kv
    unfold insert
    by_cases h' : a = k
    · simpa [h', keys] using h
    · simp only [h', if_false]
      have h0 : (a :: Dict.keys d).Nodup := h
      rw [List.nodup_cons] at h0
      show (a :: Dict.keys (insert d k v)).Nodup
      rw [List.nodup_cons]
      refine ⟨?_, ih h0.2⟩
      rw [mem_keys_insert]
      rintro (h'' | h'')
      · exact h' h''
      · exact h0.1 h''

theorem get?_eq_none_iff (d : Dict κ ν) (k : κ) : d.get? k = none ↔ k ∉ d.keys := by
  induction d with
  | nil => simp [get?, keys]
  | cons kv d ih =>
    obtain ⟨a, b⟩ := kv
    by_cases h : a = k
    · simp [get?, h, keys]
    · simp only [get?, h, if_false, ih]
      simp only [keys, List.map_cons, List.mem_cons, not_or]
      constructor
      · intro h'; exact ⟨fun h'' => h h''.symm, h'⟩
      · intro h'; exact h'.2

theorem get?_of_mem (d : Dict κ ν) (hd : d.keys.Nodup) (k : κ) (v : ν) (h : (k, v) ∈ d) :
    d.get? k = some v := by
  induction d with
  | nil => simp at h
  | cons kv d ih =>
    obtain ⟨a, b⟩ := kv
    have hd' : (a :: Dict.keys d).Nodup := hd
    rw [List.nodup_cons] at hd'
    rcases List.mem_cons.1 h with h | h
    · cases h; simp [get?]
    · have : a ≠ k := by
        rintro rfl
        exact hd'.1 (List.mem_map.2 ⟨_, h, rfl⟩)
      simp [get?, this, ih hd'.2 h]

theorem mem_of_get? (d : Dict κ ν) (k : κ) (v : ν) (h : d.get? k = some v) : (k, v) ∈ d := by
  induction d with
  | nil => simp [get?] at h
  | cons kv d ih =>
    obtain ⟨a, b⟩ := kv
    by_cases h' : a = k
    · subst h'; simp [get?] at h; subst h; simp
    · simp [get?, h'] at h; exact List.mem_cons_of_mem _ (ih h)

theorem nodup_keys_update (d : Dict κ ν) (items : List (κ × ν)) (h : d.keys.Nodup) :
    (d.update items).keys.Nodup := by
  unfold update
  induction items generalizing d with
  | nil => simpa
  | cons kv items ih => exact ih _ (nodup_keys_insert _ _ _ h)

theorem nodup_keys_ofItems (items : List (κ × ν)) : (ofItems items).keys.Nodup :=
  nodup_keys_update _ _ (by simp [keys])

/-- Later items win. -/
theorem get?_update (d : Dict κ ν) (items : List (κ × ν)) (k : κ) :
    (d.update items).get? k =
      match items.reverse.find? (fun kv => decide (kv.1 = k)) with
      | some kv => some kv.2
      | none => d.get? k := by
  unfold update
  induction items generalizing d with
  | nil => simp
  | cons kv items ih =>
    simp only [List.foldl_cons, ih, List.reverse_cons, List.find?_append, get?_insert]
    cases h : items.reverse.find? (fun kv => decide (kv.1 = k)) with
    | some x => simp
    | none =>
      by_cases h' : kv.1 = k <;> simp [h']

theorem mem_keys_update (d : Dict κ ν) (items : List (κ × ν)) (k : κ) :
    k ∈ (d.update items).keys ↔ k ∈ d.keys ∨ k ∈ items.map Prod.fst := by
  unfold update
  induction items generalizing d with
  | nil => simp
  | cons kv items ih =>
    simp only [List.foldl_cons, ih, mem_keys_insert, List.map_cons, List.mem_cons]
    constructor
    · rintro ((h | h) | h) <;> simp_all
    · rintro (h | h | h) <;> simp_all

theorem mem_keys_ofItems (items : List (κ × ν)) (k : κ) :
    k ∈ (ofItems items).keys ↔ k ∈ items.map Prod.fst := by
  rw [ofItems, mem_keys_update]; simp [keys]

/-- Without repeated keys, a dictionary holds exactly its items. -/
theorem get?_ofItems_of_mem (items : List (κ × ν)) (h : (items.map Prod.fst).Nodup)
    (k : κ) (v : ν) (hm : (k, v) ∈ items) : (ofItems items).get? k = some v := by
  rw [ofItems, get?_update]
  cases hf : items.reverse.find? (fun kv => decide (kv.1 = k)) with
  | none =>
    have := List.find?_eq_none.1 hf (k, v) (by simpa using hm)
    simp at this
  | some kv =>
    have h1 : kv ∈ items := by simpa using List.mem_of_find?_eq_some hf
    have h2 : kv.1 = k := by simpa using List.find?_some hf
    have key : ∀ (l : List (κ × ν)), (l.map Prod.fst).Nodup → kv ∈ l → (k, v) ∈ l → kv.2 = v := by
      intro l
      induction l with
      | nil => simp
      | cons x l ih =>
        intro hn ha hb
        simp only [List.map_cons, List.nodup_cons] at hn
        rcases List.mem_cons.1 ha with rfl | ha' <;> rcases List.mem_cons.1 hb with hb' | hb'
        · cases hb'; rfl
        · exact absurd (List.mem_map.2 ⟨_, hb', h2.symm⟩) hn.1
        · subst hb'; exact absurd (List.mem_map.2 ⟨kv, ha', h2⟩ : k ∈ List.map Prod.fst l) hn.1
        · exact ih hn.2 ha' hb'
    simp [key items h h1 hm]

theorem mem_items_of_get?_ofItems (items : List (κ × ν)) (k : κ) (v : ν)
    (h : (ofItems items).get? k = some v) : (k, v) ∈ items := by
  rw [ofItems, get?_update] at h
  cases hf : items.reverse.find? (fun kv => decide (kv.1 = k)) with
  | none => simp [hf, get?] at h
  | some kv =>
    have h1 : kv ∈ items := by simpa using List.mem_of_find?_eq_some hf
    have h2 : kv.1 = k := by simpa using List.find?_some hf
    simp [hf] at h
    subst h; subst h2; exact h1

end Dict
end Respy

namespace Respy
namespace Dict

variable {κ ν : Type _} [DecidableEq κ]

theorem insert_of_not_mem (d : Dict κ ν) (k : κ) (v : ν) (h : k ∉ d.keys) :
    d.insert k v = d ++ [(k, v)] := by
  induction d with
  | nil => rfl
  | cons kv d ih =>
    obtain ⟨a, b⟩ := kv
    simp only [keys, List.map_cons, List.mem_cons, not_or] at h
    have : a ≠ k := fun h' => h.1 h'.symm
    simp [insert, this, ih h.2]

theorem update_of_nodup (d : Dict κ ν) (items : List (κ × ν))
    (h : (d.keys ++ items.map Prod.fst).Nodup) : d.update items = d ++ items := by
  unfold update
  induction items generalizing d with
  | nil => simp
  | cons kv items ih =>
    obtain ⟨k, v⟩ := kv
    have hk : k ∉ d.keys := by
      intro hk
      have := (List.nodup_append.1 h).2.2 k hk k (by simp)
      exact this rfl
    simp only [List.foldl_cons]
    rw [insert_of_not_mem d k v hk, ih]
    · simp
    · simpa [keys] using h

/-- Without repeated keys, a dictionary is the list of its items in order. -/
theorem ofItems_of_nodup (items : List (κ × ν)) (h : (items.map Prod.fst).Nodup) :
    ofItems items = items := by
  rw [ofItems, update_of_nodup] <;> simp [keys, h]

end Dict
end Respy
