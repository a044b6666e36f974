import Verif.Model.DataChecking
import Mathlib.Data.List.Perm.Subperm
import Mathlib.Data.List.Nodup
import Mathlib.Data.List.Chain
import Mathlib.Tactic.Linarith

/-! # Lemmas about the checks of data -/

set_option linter.unusedSectionVars false

namespace Respy

variable {K : Type _} [Field K] [LinearOrder K]

theorem lastBefore_zero (rows : List (DataRow K)) (id : Int) : lastBefore rows 0 id = none := by
  simp [lastBefore]

theorem lastBefore_succ (rows : List (DataRow K)) (p : Nat) (id : Int) (r : DataRow K)
    (h : rows[p]? = some r) :
    lastBefore rows (p + 1) id = if r.id = id then some r else lastBefore rows p id := by
  unfold lastBefore
  rw [List.take_add_one, h, Option.toList_some, List.reverse_append, List.reverse_singleton,
    List.singleton_append, List.find?_cons]
  by_cases hr : r.id = id <;> simp [hr]

theorem lastBefore_some (rows : List (DataRow K)) (p : Nat) (id : Int) (r' : DataRow K)
    (hp : p ≤ rows.length) (h : lastBefore rows p id = some r') :
    r'.id = id ∧ ∃ q < p, rows[q]? = some r' ∧
      ∀ q', q < q' → q' < p → ∀ r, rows[q']? = some r → r.id ≠ id := by
  induction p with
  | zero => rw [lastBefore_zero] at h; simp at h
  | succ p ih =>
    have hr : rows[p]? = some rows[p] := List.getElem?_eq_getElem (by omega)
    rw [lastBefore_succ rows p id _ hr] at h
    by_cases hid : rows[p].id = id
    · rw [if_pos hid] at h
      simp only [Option.some.injEq] at h
      rw [← h]
      exact ⟨hid, p, by omega, hr, fun q' h1 h2 => by omega⟩
    · rw [if_neg hid] at h
      obtain ⟨h1, q, h2, h3, h4⟩ := ih (by omega) h
      refine ⟨h1, q, by omega, h3, fun q' h5 h6 r h7 => ?_⟩
      rcases Nat.lt_succ_iff_lt_or_eq.1 h6 with h8 | h8
      · exact h4 q' h5 h8 r h7
      · subst h8
        rw [hr] at h7
        simp only [Option.some.injEq] at h7
        rwa [← h7]

theorem lastBefore_none (rows : List (DataRow K)) (p : Nat) (id : Int)
    (hp : p ≤ rows.length) (h : lastBefore rows p id = none) :
    ∀ q < p, ∀ r, rows[q]? = some r → r.id ≠ id := by
  induction p with
  | zero => intro q hq; omega
  | succ p ih =>
    have hr : rows[p]? = some rows[p] := List.getElem?_eq_getElem (by omega)
    rw [lastBefore_succ rows p id _ hr] at h
    by_cases hid : rows[p].id = id
    · rw [if_pos hid] at h; simp at h
    · rw [if_neg hid] at h
      intro q hq r hqr
      rcases Nat.lt_succ_iff_lt_or_eq.1 hq with h8 | h8
      · exact ih (by omega) h q h8 r hqr
      · subst h8
        rw [hr] at hqr
        simp only [Option.some.injEq] at hqr
        rwa [← hqr]

theorem mem_shiftColumn {α : Type _} (rows : List (DataRow K)) (f : DataRow K → Option α) (p : Nat) (x : α) :
    (p, x) ∈ shiftColumn rows f ↔
      ∃ r, rows[p]? = some r ∧ ∃ r', lastBefore rows p r.id = some r' ∧ f r' = some x := by
  unfold shiftColumn
  simp only [List.mem_filterMap, List.mem_zipIdx_iff_getElem?, Prod.exists, Option.map_eq_some_iff,
    Option.bind_eq_some_iff, Prod.mk.injEq]
  constructor
  · rintro ⟨r, q, h1, y, ⟨r', h2, h3⟩, rfl, rfl⟩
    exact ⟨r, h1, r', h2, h3⟩
  · rintro ⟨r, h1, r', h2, h3⟩
    exact ⟨r, p, h1, x, ⟨r', h2, h3⟩, rfl, rfl⟩

/-- Different numbers which are not negative and whose maximum is one less than their count are all
numbers from zero on. -/
theorem perm_range_of_max (l : List Int) (hn : l.Nodup) (h0 : ∀ x ∈ l, 0 ≤ x)
    (hmax : l.max?.map (· + 1) = some (l.length : Int)) :
    l.Perm ((List.range l.length).map fun i : Nat => (i : Int)) := by
  obtain ⟨m, hm, hml⟩ := Option.map_eq_some_iff.1 hmax
  have hle := (List.max?_eq_some_iff.1 hm).2
  have hsub : l ⊆ (List.range l.length).map fun i : Nat => (i : Int) := by
    intro x hx
    have h1 := hle x hx
    have h2 := h0 x hx
    simp only [List.mem_map, List.mem_range]
    exact ⟨x.toNat, by omega, by omega⟩
  exact (hn.subperm hsub).perm_of_length_le (by simp)

/-- The periods in which an individual is observed. -/
def periodsOf (rows : List (DataRow K)) (id : Int) : List Int :=
  (rows.filter fun r => decide (r.id = id)).map (·.period)

theorem mem_periodsOf (rows : List (DataRow K)) (id t : Int) :
    t ∈ periodsOf rows id ↔ (id, t) ∈ rows.map fun r => (r.id, r.period) := by
  simp only [periodsOf, List.mem_map, List.mem_filter, decide_eq_true_eq, Prod.mk.injEq]
  constructor
  · rintro ⟨r, ⟨h1, h2⟩, h3⟩; exact ⟨r, h1, h2, h3⟩
  · rintro ⟨r, h1, h2, h3⟩; exact ⟨r, ⟨h1, h2⟩, h3⟩

theorem nodup_periodsOf (rows : List (DataRow K)) (id : Int)
    (h : (rows.map fun r => (r.id, r.period)).Nodup) : (periodsOf rows id).Nodup := by
  unfold periodsOf
  have h1 : ((rows.filter fun r => decide (r.id = id)).map fun r => (r.id, r.period)).Nodup :=
    h.sublist (List.filter_sublist.map _)
  rw [List.nodup_iff_pairwise_ne, List.pairwise_map] at h1 ⊢
  refine h1.imp_of_mem ?_
  intro a b ha hb hab heq
  simp only [List.mem_filter, decide_eq_true_eq] at ha hb
  exact hab (by rw [ha.2, hb.2, heq])

theorem mem_eraseDups_iff {α : Type _} [BEq α] [LawfulBEq α] (l : List α) (a : α) :
    a ∈ l.eraseDups ↔ a ∈ l := by
  induction h : l.length using Nat.strong_induction_on generalizing l with
  | _ n ih =>
    cases l with
    | nil => simp
    | cons x xs =>
      rw [List.eraseDups_cons, List.mem_cons,
        ih (List.filter (fun b => !b == x) xs).length (by
          rw [← h]; exact Nat.lt_succ_of_le (List.length_filter_le _ _)) _ rfl]
      by_cases hx : a = x <;> simp [hx]

end Respy
