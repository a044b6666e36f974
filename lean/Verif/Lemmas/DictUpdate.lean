import Verif.Lemmas.Dict

/-! Helper lemmas: updates of dictionaries. -/

namespace Respy

theorem get?_update_of_mem {κ ν : Type _} [DecidableEq κ] (d e : Dict κ ν) (he : e.keys.Nodup) (k : κ) (v : ν)
    (h : (k, v) ∈ e) : (d.update e).get? k = some v := by
  rw [Dict.get?_update]
  cases hf : e.reverse.find? (fun kv => decide (kv.1 = k)) with
  | none =>
    rw [List.find?_eq_none] at hf
    exact absurd (hf _ (List.mem_reverse.2 h)) (by simp)
  | some kv =>
    have h1 : kv.1 = k := by simpa using List.find?_some hf
    have h2 : kv ∈ e := List.mem_reverse.1 (List.mem_of_find?_eq_some hf)
    have h3 := Dict.get?_of_mem e he kv.1 kv.2 h2
    rw [h1, Dict.get?_of_mem e he k v h] at h3
    exact h3.symm

theorem get?_update_of_not_mem {κ ν : Type _} [DecidableEq κ] (d e : Dict κ ν) (k : κ)
    (h : k ∉ e.keys) : (d.update e).get? k = d.get? k := by
  rw [Dict.get?_update]
  cases hf : e.reverse.find? (fun kv => decide (kv.1 = k)) with
  | none => rfl
  | some kv =>
    have h1 : kv.1 = k := by simpa using List.find?_some hf
    have h2 : kv ∈ e := List.mem_reverse.1 (List.mem_of_find?_eq_some hf)
    exact absurd (List.mem_map.2 ⟨kv, h2, h1⟩) h

end Respy
