import Verif.Model.ParseParams
import Verif.Lemmas.Dict
import Mathlib.Data.List.GetD
import Mathlib.Tactic.Ring
import Mathlib.Tactic.Linarith

/-! # Lemmas about shock matrices -/

namespace Respy

theorem length_trilIndices_succ (n : Nat) (d : Bool) :
    (trilIndices (n + 1) d).length = (trilIndices n d).length + (if d then n + 1 else n) := by
  unfold trilIndices
  rw [List.range_succ, List.flatMap_append, List.length_append]
  simp

theorem length_trilIndices_true (n : Nat) : 2 * (trilIndices n true).length = n * (n + 1) := by
  induction n with
  | zero => rfl
  | succ n ih =>
    rw [length_trilIndices_succ, Nat.mul_add, ih]
    simp only [if_true]
    ring

theorem length_trilIndices_false (n : Nat) :
    (trilIndices n false).length + n = (trilIndices n true).length := by
  induction n with
  | zero => rfl
  | succ n ih =>
    rw [length_trilIndices_succ, length_trilIndices_succ]
    simp only [if_true, Bool.false_eq_true, if_false]
    omega

theorem triangularDim_length (n : Nat) : triangularDim (trilIndices n true).length = n := by
  unfold triangularDim
  have h := length_trilIndices_true n
  have e : 8 * (trilIndices n true).length + 1 = (2 * n + 1) * (2 * n + 1) := by
    have : 8 * (trilIndices n true).length = 4 * (n * (n + 1)) := by omega
    rw [this]; ring
  rw [e, Nat.sqrt_eq]
  omega

theorem mem_trilIndices (n : Nat) (d : Bool) (i j : Nat) :
    (i, j) ∈ trilIndices n d ↔ i < n ∧ (j < i ∨ d = true ∧ j = i) := by
  unfold trilIndices
  simp only [List.mem_flatMap, List.mem_range, List.mem_map, Prod.mk.injEq]
  constructor
  · rintro ⟨a, ha, b, hb, rfl, rfl⟩
    refine ⟨ha, ?_⟩
    cases d
    · left; simpa using hb
    · simp only [if_true] at hb
      rcases Nat.lt_or_ge b a with h | h
      · exact .inl h
      · exact .inr ⟨rfl, by omega⟩
  · rintro ⟨hi, h⟩
    refine ⟨i, hi, j, ?_, rfl, rfl⟩
    rcases h with h | ⟨rfl, rfl⟩
    · split <;> omega
    · simp

theorem nodup_trilIndices (n : Nat) (d : Bool) : (trilIndices n d).Nodup := by
  unfold trilIndices
  rw [List.nodup_flatMap]
  constructor
  · intro i _
    exact List.Nodup.map (fun a b h => (Prod.mk.inj h).2) List.nodup_range
  · refine List.nodup_range.imp ?_
    intro a b hab
    simp only [Function.onFun, List.Disjoint, List.mem_map]
    rintro x ⟨_, _, rfl⟩ ⟨_, _, h⟩
    exact hab (Prod.mk.inj h).1.symm

/-- The assigned entry. -/
theorem assignEntries_of_mem {K : Type _} (mat : Nat → Nat → K) (indices : List (Nat × Nat)) (values : List K)
    (hn : indices.Nodup) (i j : Nat) (v : K) (h : ((i, j), v) ∈ indices.zip values) :
    assignEntries mat indices values i j = v := by
  unfold assignEntries
  have hnd : ((indices.zip values).map Prod.fst).Nodup := by
    have : ∀ (a : List (Nat × Nat)) (b : List K), List.Sublist ((a.zip b).map Prod.fst) a := by
      intro a
      induction a with
      | nil => intro b; simp
      | cons x a ih =>
        intro b
        cases b with
        | nil => simp
        | cons y b => simpa using ih b
    exact (this indices values).nodup hn
  cases hf : (indices.zip values).reverse.find? fun p => decide (p.1 = (i, j)) with
  | none =>
    rw [List.find?_eq_none] at hf
    exact absurd (hf _ (List.mem_reverse.2 h)) (by simp)
  | some p =>
    have h1 : p.1 = (i, j) := by simpa using List.find?_some hf
    have h2 : p ∈ indices.zip values := List.mem_reverse.1 (List.mem_of_find?_eq_some hf)
    have := List.inj_on_of_nodup_map hnd h2 h (by rw [h1])
    rw [this]
    rfl

theorem assignEntries_of_not_mem {K : Type _} (mat : Nat → Nat → K) (indices : List (Nat × Nat))
    (values : List K) (i j : Nat) (h : (i, j) ∉ indices) :
    assignEntries mat indices values i j = mat i j := by
  unfold assignEntries
  cases hf : (indices.zip values).reverse.find? fun p => decide (p.1 = (i, j)) with
  | none => rfl
  | some p =>
    have h1 : p.1 = (i, j) := by simpa using List.find?_some hf
    have h2 : p ∈ indices.zip values := List.mem_reverse.1 (List.mem_of_find?_eq_some hf)
    have h3 : p.1 ∈ indices := (List.of_mem_zip (a := p.1) (b := p.2) h2).1
    rw [h1] at h3
    exact absurd h3 h

theorem take_eq_range_map (l : List Str) (k : Nat) (hk : k ≤ l.length) :
    l.take k = (List.range k).map fun j => l.getD j [] := by
  apply List.ext_getElem
  · simp [hk]
  · intro i h1 h2
    simp only [List.length_take, List.length_map, List.length_range] at h1 h2
    simp [List.getElem?_eq_getElem (show i < l.length by omega)]

theorem zipIdx_eq_range_map (l : List Str) :
    l.zipIdx = (List.range l.length).map fun i => (l.getD i [], i) := by
  apply List.ext_getElem
  · simp
  · intro i h1 h2
    simp only [List.length_zipIdx] at h1
    simp [List.getElem?_eq_getElem h1]

/-- The names of the lower triangle. -/
theorem lowerNames (choices : List Str) (hnd : choices.Nodup) (diagonal : Str → Str) (label : Str) :
    (choices.zipIdx.flatMap fun ci => (choices.take (ci.2 + 1)).flatMap fun c₂ =>
      if ci.1 = c₂ then [diagonal ci.1] else [label ++ ci.1 ++ ['_'] ++ c₂]) =
    (trilIndices choices.length true).map fun ij =>
      if ij.1 = ij.2 then diagonal (choices.getD ij.1 [])
      else label ++ choices.getD ij.1 [] ++ ['_'] ++ choices.getD ij.2 [] := by
  unfold trilIndices
  rw [zipIdx_eq_range_map, List.flatMap_map, List.map_flatMap]
  apply List.flatMap_congr
  intro i hi
  rw [List.mem_range] at hi
  rw [take_eq_range_map _ _ (by omega), List.flatMap_map, List.map_map, List.map_eq_flatMap]
  simp only [if_true]
  apply List.flatMap_congr
  intro j hj
  rw [List.mem_range] at hj
  have hiff : choices.getD i [] = choices.getD j [] ↔ i = j := by
    rw [List.getD_eq_getElem _ _ hi, List.getD_eq_getElem _ _ (by omega : j < choices.length)]
    exact hnd.getElem_inj_iff
  by_cases h : i = j
  · simp [h]
  · have h' : ¬ choices.getD i [] = choices.getD j [] := fun e => h (hiff.1 e)
    simp only [Function.comp, h, h', if_false]

theorem strictLowerNames (choices : List Str) (hnd : choices.Nodup) (label : Str) :
    (choices.zipIdx.flatMap fun ci => (choices.take (ci.2 + 1)).flatMap fun c₂ =>
      if ci.1 = c₂ then [] else [label ++ ci.1 ++ ['_'] ++ c₂]) =
    (trilIndices choices.length false).map fun ij =>
      label ++ choices.getD ij.1 [] ++ ['_'] ++ choices.getD ij.2 [] := by
  unfold trilIndices
  rw [zipIdx_eq_range_map, List.flatMap_map, List.map_flatMap]
  apply List.flatMap_congr
  intro i hi
  rw [List.mem_range] at hi
  rw [take_eq_range_map _ _ (by omega), List.flatMap_map, List.range_succ, List.flatMap_append]
  simp only [List.flatMap_cons, List.flatMap_nil, List.append_nil, if_true, Bool.false_eq_true, if_false,
    List.map_map]
  rw [List.map_eq_flatMap]
  apply List.flatMap_congr
  intro j hj
  rw [List.mem_range] at hj
  have hiff : choices.getD i [] = choices.getD j [] ↔ i = j := by
    rw [List.getD_eq_getElem _ _ hi, List.getD_eq_getElem _ _ (by omega : j < choices.length)]
    exact hnd.getElem_inj_iff
  have h' : ¬ choices.getD i [] = choices.getD j [] := fun e => by
    have := hiff.1 e
    omega
  simp only [Function.comp, h', if_false]

end Respy
