import Mathlib.Data.List.Forall2
import Verif.Model.CoreStateSpace

/-! Helper lemmas on the creation of the core state space. -/

namespace Respy

theorem mem_genPerPeriodAux (period : Nat) (add : List Nat) :
    ∀ (pre addPre : List Nat), addPre.length = pre.length → pre.sum ≤ period → ∀ x,
      (x ∈ genPerPeriodAux period (addPre ++ add) add.length
          (pre ++ List.replicate add.length 0) pre.length ↔
        ∃ y, x = pre ++ y ∧ List.Forall₂ (· ≤ ·) y add ∧ pre.sum + y.sum ≤ period) := by
  induction add with
  | nil =>
    intro pre addPre hlen hsum x
    simp [genPerPeriodAux, hsum]
  | cons a add ih =>
    intro pre addPre hlen hsum x
    rw [List.length_cons, genPerPeriodAux]
    have hpos : (pre ++ List.replicate (add.length + 1) 0)[pre.length]? = some 0 := by simp
    have hget : (addPre ++ a :: add)[pre.length]? = some a := by
      rw [List.getElem?_append_right (by omega)]; simp [hlen]
    have hsum' : (pre ++ List.replicate (add.length + 1) 0).sum = pre.sum := by
      simp
    simp only [hpos, hget, hsum', List.mem_cons, List.mem_flatMap, List.mem_range]
    have key : ∀ i, (pre ++ List.replicate (add.length + 1) 0).set pre.length (0 + i) =
        (pre ++ [i]) ++ List.replicate add.length 0 := by
      intro i
      simp [List.replicate_succ]
    have hadd : addPre ++ a :: add = (addPre ++ [a]) ++ add := by simp
    constructor
    · rintro (rfl | ⟨i, hi, hx⟩)
      · refine ⟨List.replicate (a :: add).length 0, rfl, ?_, by simp [hsum]⟩
        have : ∀ l : List Nat, List.Forall₂ (· ≤ ·) (List.replicate l.length 0) l := by
          intro l; induction l with
          | nil => simp
          | cons b l ih => simp [List.replicate_succ, ih]
        exact this _
      · rw [key, hadd] at hx
        have := (ih (pre ++ [i]) (addPre ++ [a]) (by simp [hlen]) (by simp; omega) x).1
          (by simpa using hx)
        obtain ⟨y, rfl, hy, hs⟩ := this
        refine ⟨i :: y, by simp, ?_, ?_⟩
        · simp [hy]; omega
        · simp at hs ⊢; omega
    · rintro ⟨y, rfl, hy, hs⟩
      right
      cases hy with
      | cons h1 h2 =>
        rename_i b y
        refine ⟨b, ?_, ?_⟩
        · simp at hs; omega
        · rw [key, hadd]
          have := (ih (pre ++ [b]) (addPre ++ [a]) (by simp [hlen]) (by simp at hs ⊢; omega)
            (pre ++ b :: y)).2 ⟨y, by simp, h2, by simp at hs ⊢; omega⟩
          simpa using this

theorem mem_genPerPeriod_zero (period : Nat) (add x : List Nat) :
    x ∈ genPerPeriod period add (List.replicate add.length 0) 0 ↔
      List.Forall₂ (· ≤ ·) x add ∧ x.sum ≤ period := by
  have := mem_genPerPeriodAux period add [] [] rfl (by simp) x
  simp only [genPerPeriod, List.length_replicate, Nat.sub_zero]
  simp only [List.nil_append, List.length_nil, List.sum_nil, Nat.zero_add] at this
  rw [this]
  constructor
  · rintro ⟨y, rfl, h⟩; exact h
  · intro h; exact ⟨x, rfl, h⟩

theorem mem_coreFromExperiences (n : Nat) (add : List Nat) (hadd : add ≠ []) (s : CoreState) :
    s ∈ coreFromExperiences n add ↔
      s.period < n ∧ List.Forall₂ (· ≤ ·) s.exp add ∧ s.exp.sum ≤ s.period ∧ s.lags = [] := by
  simp only [coreFromExperiences, if_neg hadd, List.mem_flatMap, List.mem_range, List.mem_map,
    mem_genPerPeriod_zero]
  constructor
  · rintro ⟨t, ht, e, ⟨h1, h2⟩, rfl⟩
    exact ⟨ht, h1, h2, rfl⟩
  · rintro ⟨h1, h2, h3, h4⟩
    refine ⟨s.period, h1, s.exp, ⟨h2, h3⟩, ?_⟩
    cases s; simp_all

theorem mem_filterCore (filters : List (CoreState → Bool)) (df : List CoreState) (s : CoreState) :
    s ∈ filterCore filters df ↔ s ∈ df ∧ ∀ f ∈ filters, f s = false := by
  unfold filterCore
  induction filters generalizing df with
  | nil => simp
  | cons f fs ih => simp [ih, and_assoc]

theorem mem_product {α : Type _} (ls : List (List α)) (x : List α) :
    x ∈ product ls ↔ List.Forall₂ (· ∈ ·) x ls := by
  induction ls generalizing x with
  | nil => simp [product]
  | cons l ls ih =>
    simp only [product, List.mem_flatMap, List.mem_map, ih]
    constructor
    · rintro ⟨a, ha, y, hy, rfl⟩; exact .cons ha hy
    · intro h
      cases h with
      | cons h1 h2 => exact ⟨_, h1, _, h2, rfl⟩

theorem withinMax_iff (maxExp : List Nat) (s : CoreState) (h : s.exp.length = maxExp.length) :
    withinMax maxExp s = true ↔ List.Forall₂ (· ≤ ·) s.exp maxExp := by
  unfold withinMax
  generalize s.exp = e at *
  induction e generalizing maxExp with
  | nil => cases maxExp <;> simp_all
  | cons a e ih =>
    cases maxExp with
    | nil => simp at h
    | cons m ms => simp at h; simp [ih ms h]

theorem nodup_eraseDups {α : Type _} [BEq α] [LawfulBEq α] (l : List α) : l.eraseDups.Nodup := by
  match l with
  | [] => simp
  | a :: l =>
    rw [List.eraseDups_cons, List.nodup_cons]
    refine ⟨?_, nodup_eraseDups _⟩
    simp
termination_by l.length
decreasing_by
  simp only [List.length_cons]
  exact Nat.lt_succ_of_le (List.length_filter_le _ _)

theorem mem_addInitialExperiences (starts : List (List Nat)) (maxExp : List Nat)
    (df : List CoreState) (s : CoreState) :
    s ∈ addInitialExperiences starts maxExp df ↔
      ∃ init, List.Forall₂ (· ∈ ·) init starts ∧ ∃ b ∈ df, s = addInitial init b ∧
        withinMax maxExp s = true := by
  simp only [addInitialExperiences, List.mem_eraseDups, List.mem_flatMap, mem_product,
    List.mem_filter, List.mem_map]
  constructor
  · rintro ⟨init, h1, ⟨b, hb, rfl⟩, h3⟩
    exact ⟨init, h1, b, hb, rfl, h3⟩
  · rintro ⟨init, h1, b, hb, rfl, h3⟩
    exact ⟨init, h1, ⟨b, hb, rfl⟩, h3⟩

end Respy
