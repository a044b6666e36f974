import Verif.Model.Text

/-! # Lemmas about regular expressions -/

namespace Respy

theorem isPrefixOf_append_self (p s : Str) : p.isPrefixOf (p ++ s) = true := by
  rw [List.isPrefixOf_iff_prefix]
  exact List.prefix_append p s

theorem takeWhile_append_of_all {α : Type _} (p : α → Bool) (l r : List α) (h : ∀ x ∈ l, p x = true)
    (hr : ∀ x, r.head? = some x → p x = false) :
    (l ++ r).takeWhile p = l ∧ (l ++ r).dropWhile p = r := by
  induction l with
  | nil =>
    cases r with
    | nil => simp
    | cons x r => simp [hr x rfl]
  | cons x l ih =>
    have := ih fun y hy => h y (List.mem_cons_of_mem _ hy)
    simp [h x (by simp), this]

/-- The text which consists of prefix and name only is a match. -/
theorem extract_prefix_name (pre name : Str) (cls : Char → Bool) (hpre : pre ≠ [])
    (hw : ∀ c, pre.head? = some c → isWordChar c = true) (hn : name ≠ [])
    (hc : ∀ c ∈ name, cls c = true) (hcls : ∀ c, cls c = true → isWordChar c = true) :
    extract pre cls (pre ++ name) = some name := by
  have hm : matchHere pre cls none (pre ++ name) = some (name, []) := by
    obtain ⟨c, pre', rfl⟩ := List.exists_cons_of_ne_nil hpre
    have h1 := isPrefixOf_append_self (c :: pre') name
    obtain ⟨h2, h3⟩ := takeWhile_append_of_all cls name [] hc (by simp)
    have hb : isBoundary none (c :: pre' ++ name).head? = true := by
      simp [isBoundary, hw c rfl]
    have hlast : isBoundary name.getLast? none = true := by
      have hg : name.getLast? = some (name.getLast hn) := List.getLast?_eq_some_getLast hn
      rw [hg]
      simp [isBoundary, hcls _ (hc _ (List.getLast_mem hn))]
    unfold matchHere
    rw [h1, hb]
    simp only [Bool.and_self, if_true, List.drop_left]
    rw [List.append_nil] at h2 h3
    rw [h2, h3]
    simp [hn, hlast]
  unfold extract findAll
  unfold findAllFuel
  rw [hm]
  rfl

theorem matchHere_some (pre : Str) (cls : Char → Bool) (prev : Option Char) (s g r : Str)
    (h : matchHere pre cls prev s = some (g, r)) :
    s = pre ++ g ++ r ∧ g ≠ [] ∧ (∀ c ∈ g, cls c = true) := by
  unfold matchHere at h
  split at h
  · rename_i h1
    simp only at h
    split at h
    · rename_i h2
      simp only [Option.some.injEq, Prod.mk.injEq] at h
      obtain ⟨rfl, rfl⟩ := h
      simp only [Bool.and_eq_true, List.isPrefixOf_iff_prefix] at h1
      simp only [ne_eq, decide_not, Bool.and_eq_true, Bool.not_eq_eq_eq_not, Bool.not_true,
        decide_eq_false_iff_not] at h2
      obtain ⟨t, rfl⟩ := h1.1
      refine ⟨?_, h2.1, fun c hc => ?_⟩
      · rw [List.drop_left, List.append_assoc, List.takeWhile_append_dropWhile]
      · exact List.all_eq_true.1 List.all_takeWhile c hc
    · cases h
  · cases h

/-- Every match is an occurrence of the prefix followed by characters of the class. -/
theorem findAll_sound (pre : Str) (cls : Char → Bool) (s g : Str) (h : g ∈ findAll pre cls s) :
    (pre ++ g) <:+: s ∧ g ≠ [] ∧ ∀ c ∈ g, cls c = true := by
  unfold findAll at h
  generalize s.length + 1 = fuel at h
  generalize none = prev at h
  induction fuel generalizing prev s with
  | zero => simp [findAllFuel] at h
  | succ fuel ih =>
    unfold findAllFuel at h
    split at h
    · rename_i g' r hm
      obtain ⟨h1, h2, h3⟩ := matchHere_some pre cls prev s g' r hm
      rcases List.mem_cons.1 h with rfl | h
      · exact ⟨⟨[], r, by rw [h1]; simp⟩, h2, h3⟩
      · obtain ⟨h4, h5, h6⟩ := ih r _ h
        refine ⟨h4.trans ⟨pre ++ g', [], by rw [h1]; simp⟩, h5, h6⟩
    · split at h
      · simp at h
      · rename_i c s' _
        obtain ⟨h4, h5, h6⟩ := ih s' _ h
        exact ⟨h4.trans ⟨[c], [], by simp⟩, h5, h6⟩

theorem extract_sound (pre : Str) (cls : Char → Bool) (s g : Str) (h : extract pre cls s = some g) :
    (pre ++ g) <:+: s ∧ g ≠ [] ∧ ∀ c ∈ g, cls c = true :=
  findAll_sound pre cls s g (List.mem_of_head? h)

end Respy
