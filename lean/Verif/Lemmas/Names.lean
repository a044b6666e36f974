import Verif.Model.Names
import Verif.Props.Choices
import Mathlib.Data.List.Infix

/-! # Lemmas about the names of observables and exogenous processes -/

namespace Respy

theorem commonPrefix_prefix_left : ∀ a b : Str, commonPrefix a b <+: a
  | [], _ => by simp [commonPrefix]
  | x :: a, [] => by simp [commonPrefix]
  | x :: a, y :: b => by
    unfold commonPrefix
    split
    · rw [List.prefix_cons_inj]
      exact commonPrefix_prefix_left a b
    · exact List.nil_prefix

theorem commonPrefix_prefix_right : ∀ a b : Str, commonPrefix a b <+: b
  | [], _ => by simp [commonPrefix]
  | x :: a, [] => by simp [commonPrefix]
  | x :: a, y :: b => by
    unfold commonPrefix
    split
    · next h => rw [h, List.prefix_cons_inj]; exact commonPrefix_prefix_right a b
    · exact List.nil_prefix

theorem commonPrefix_append (n a b : Str) : commonPrefix (n ++ a) (n ++ b) = n ++ commonPrefix a b := by
  induction n with
  | nil => rfl
  | cons x n ih => simp [commonPrefix, ih]

theorem commonPrefix_nil_right (a : Str) : commonPrefix a [] = [] := by cases a <;> rfl

theorem commonPrefix_nil_left (a : Str) : commonPrefix [] a = [] := by cases a <;> rfl

theorem commonPrefix_apart : ∀ (a b x y : Str), ¬ a <+: b → ¬ b <+: a →
    commonPrefix (a ++ x) (b ++ y) = commonPrefix a b
  | [], b, _, _, h, _ => absurd List.nil_prefix h
  | a :: as, [], _, _, _, h => absurd List.nil_prefix h
  | a :: as, b :: bs, x, y, h1, h2 => by
    simp only [List.cons_append, commonPrefix]
    split
    · next h =>
      subst h
      rw [List.prefix_cons_inj] at h1 h2
      rw [commonPrefix_apart as bs x y h1 h2]
    · rfl

theorem rstripUnderscore_prefix (s : Str) : rstripUnderscore s <+: s := by
  unfold rstripUnderscore
  have h := List.dropWhile_suffix (l := s.reverse) (fun c => decide (c = '_'))
  rw [← List.reverse_prefix] at h
  simpa using h

theorem rstripUnderscore_eq (s : Str) (h : s.getLast? ≠ some '_') : rstripUnderscore s = s := by
  unfold rstripUnderscore
  rw [List.getLast?_eq_head?_reverse] at h
  cases hr : s.reverse with
  | nil =>
    have := congrArg List.reverse hr
    simpa using this.symm
  | cons c t =>
    rw [hr] at h
    have hc : c ≠ '_' := by simpa using h
    rw [List.dropWhile_cons_of_neg (by simpa using hc), ← hr, List.reverse_reverse]

theorem rstripUnderscore_concat (s : Str) : rstripUnderscore (s ++ ['_']) = rstripUnderscore s := by
  simp [rstripUnderscore]

theorem beforeLastUnderscore_prefix (s : Str) : beforeLastUnderscore s <+: s := by
  unfold beforeLastUnderscore
  split
  · exact List.prefix_rfl
  · next c rest h =>
    have h1 := List.dropWhile_suffix (l := s.reverse) (fun c => decide (c ≠ '_'))
    rw [h] at h1
    have h2 : rest <:+ s.reverse := (List.suffix_cons c rest).trans h1
    rw [← List.reverse_prefix] at h2
    simpa using h2

theorem beforeLastUnderscore_append (a w : Str) (hw : '_' ∉ w) :
    beforeLastUnderscore (a ++ '_' :: w) = a := by
  unfold beforeLastUnderscore
  have h : (a ++ '_' :: w).reverse.dropWhile (fun c => decide (c ≠ '_')) = '_' :: a.reverse := by
    rw [List.reverse_append, List.reverse_cons, List.append_assoc,
      List.dropWhile_append_of_pos]
    · simp
    · intro c hc
      have : c ≠ '_' := fun h => hw (by simpa [h] using hc)
      simpa using this
  rw [h]
  simp

/-- A text is one word, or there are a text and a last word. -/
theorem oneWord_or_split (s : Str) : '_' ∉ s ∨ ∃ a w, s = a ++ '_' :: w ∧ '_' ∉ w := by
  induction s with
  | nil => simp
  | cons c s ih =>
    rcases ih with h | ⟨a, w, hs, hw⟩
    · by_cases hc : c = '_'
      · exact .inr ⟨[], s, by simp [hc], h⟩
      · exact .inl (by simp [h, Ne.symm hc])
    · exact .inr ⟨c :: a, w, by simp [hs], hw⟩

theorem mem_combinations2 {α : Type _} (l : List α) (p : α × α) :
    p ∈ combinations2 l → p.1 ∈ l ∧ p.2 ∈ l := by
  induction l with
  | nil => simp [combinations2]
  | cons x xs ih =>
    simp only [combinations2, List.mem_append, List.mem_map, List.mem_cons]
    rintro (⟨y, hy, rfl⟩ | h)
    · exact ⟨.inl rfl, .inr hy⟩
    · exact ⟨.inr (ih h).1, .inr (ih h).2⟩

theorem combinations2_pairwise {α : Type _} {R : α → α → Prop} (l : List α) (h : l.Pairwise R) :
    ∀ p ∈ combinations2 l, R p.1 p.2 := by
  induction l with
  | nil => simp [combinations2]
  | cons x xs ih =>
    rw [List.pairwise_cons] at h
    simp only [combinations2, List.mem_append, List.mem_map]
    rintro p (⟨y, hy, rfl⟩ | hp)
    · exact h.1 y hy
    · exact ih h.2 p hp

theorem combinations2_map {α β : Type _} (f : α → β) (l : List α) :
    combinations2 (l.map f) = (combinations2 l).map fun p => (f p.1, f p.2) := by
  induction l with
  | nil => rfl
  | cons x xs ih => simp [combinations2, ih, Function.comp_def]

/-- Two elements with a property form a pair. -/
theorem exists_combination {α : Type _} (p : α → Bool) (l : List α) (h : 2 ≤ l.countP p) :
    ∃ q ∈ combinations2 l, p q.1 = true ∧ p q.2 = true := by
  induction l with
  | nil => simp at h
  | cons x xs ih =>
    rw [List.countP_cons] at h
    by_cases hx : p x = true
    · simp only [hx, if_true] at h
      have : 0 < xs.countP p := by omega
      obtain ⟨y, hy, hp⟩ := List.countP_pos_iff.1 this
      exact ⟨(x, y), by simp [combinations2, hy], hx, hp⟩
    · simp only [hx] at h
      obtain ⟨q, hq, h1⟩ := ih (by simpa using h)
      exact ⟨q, by simp [combinations2, hq], h1⟩

theorem two_le_countP_of_combination {α : Type _} (p : α → Bool) (l : List α) (q : α × α)
    (hq : q ∈ combinations2 l) (h1 : p q.1 = true) (h2 : p q.2 = true) : 2 ≤ l.countP p := by
  induction l with
  | nil => simp [combinations2] at hq
  | cons x xs ih =>
    simp only [combinations2, List.mem_append, List.mem_map] at hq
    rw [List.countP_cons]
    rcases hq with ⟨y, hy, rfl⟩ | hq
    · have : 0 < xs.countP p := List.countP_pos_iff.2 ⟨y, hy, h2⟩
      simp only [h1, if_true]
      omega
    · have := ih hq
      omega

/-- The prefixes before substrings are removed. -/
theorem mem_inferredNames (cats : List Str) (n : Str) : n ∈ inferredNames cats ↔
    (∃ p ∈ combinations2 cats, commonPrefix p.1 p.2 ≠ [] ∧ rstripUnderscore (commonPrefix p.1 p.2) = n) ∧
    ∀ p ∈ combinations2 cats, commonPrefix p.1 p.2 ≠ [] →
      n <:+: rstripUnderscore (commonPrefix p.1 p.2) → n = rstripUnderscore (commonPrefix p.1 p.2) := by
  have hm : ∀ m : Str, m ∈ ((((combinations2 cats).map fun p => commonPrefix p.1 p.2).filter
      fun p => p ≠ []).map rstripUnderscore).dedup ↔
      ∃ p ∈ combinations2 cats, commonPrefix p.1 p.2 ≠ [] ∧
        rstripUnderscore (commonPrefix p.1 p.2) = m := by
    intro m
    simp only [List.mem_dedup, List.mem_map, List.mem_filter, decide_eq_true_eq]
    constructor
    · rintro ⟨_, ⟨⟨p, hp, rfl⟩, h⟩, rfl⟩
      exact ⟨p, hp, h, rfl⟩
    · rintro ⟨p, hp, h, rfl⟩
      exact ⟨_, ⟨⟨p, hp, rfl⟩, h⟩, rfl⟩
  unfold inferredNames
  rw [mem_sortedSet, List.mem_filter, hm]
  refine and_congr_right fun h => ?_
  simp only [List.mem_filter, hm, List.any_eq_true, decide_eq_true_eq, not_and, not_exists]
  constructor
  · intro h2 p hp hne hin
    by_contra hcon
    exact h2 h _ ⟨p, hp, hne, rfl⟩ hcon hin
  · rintro h2 - m ⟨p, hp, hne, rfl⟩ hne' hin
    exact hne' (h2 p hp hne hin)

end Respy
