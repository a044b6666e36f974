import Verif.Model.Templates
import Verif.Props.LaggedChoices

/-! # Rows of templates -/

namespace Respy

theorem flatMap_single {α β : Type _} (f : α → List β) : ∀ (l : List α) (a : α), l.Nodup → a ∈ l →
    (∀ b ∈ l, b ≠ a → f b = []) → l.flatMap f = f a := by
  intro l
  induction l with
  | nil => intro a _ h; simp at h
  | cons x l ih =>
    intro a hnd ha hf
    rw [List.nodup_cons] at hnd
    rw [List.flatMap_cons]
    rcases List.mem_cons.1 ha with rfl | ha
    · have : l.flatMap f = [] := by
        rw [List.flatMap_eq_nil_iff]
        intro b hb
        exact hf b (by simp [hb]) (by rintro rfl; exact hnd.1 hb)
      rw [this, List.append_nil]
    · have hx : f x = [] := hf x (by simp) (by rintro rfl; exact hnd.1 ha)
      rw [hx, List.nil_append, ih a hnd.2 ha fun b hb => hf b (by simp [hb])]

/-- The name of a type. -/
def typeName (i : Nat) : Str := "type_".toList ++ Nat.toDigits 10 i

/-- The name of an observable of the template. -/
def observableName (i : Nat) : Str := "observable_".toList ++ Nat.toDigits 10 i

/-- The keys of the rows of templates. -/
inductive TemplateKey (nTypes : Nat) (choices : List Str) : Str × Str → Prop where
  | base (r : String × String) (h : r ∈ baseIndex) : TemplateKey nTypes choices (r.1.toList, r.2.toList)
  | prob (i : Nat) (name : String) (h1 : 1 ≤ i) (h2 : i < nTypes)
      (h3 : name ∈ ["constant", "up_to_nine_years_edu", "at_least_ten_years_edu"]) :
      TemplateKey nTypes choices (typeName i, name.toList)
  | shift (i : Nat) (cat : String) (h1 : 1 ≤ i) (h2 : i < nTypes)
      (h3 : cat ∈ ["wage_a", "wage_b", "nonpec_edu", "nonpec_home"]) :
      TemplateKey nTypes choices (cat.toList, typeName i)
  | start (s : Nat) :
      TemplateKey nTypes choices ("initial_exp_edu_".toList ++ Nat.toDigits 10 s, "probability".toList)
  | max : TemplateKey nTypes choices ("maximum_exp".toList, "edu".toList)
  | lag (k : Nat) (c : Str) (h : c ∈ choices) : TemplateKey nTypes choices (lagCategory k c, "constant".toList)
  | obs (i j : Nat) : TemplateKey nTypes choices
      (levelCategory "observable".toList (observableName i) (Nat.toDigits 10 j), "probability".toList)

variable {n k : Nat} {choices : List Str}

theorem mem_baseTemplate {values : Str × Str → ℝ} {p : (Str × Str) × ℝ} (h : p ∈ baseTemplate values) :
    ∃ r ∈ baseIndex, p.1 = (r.1.toList, r.2.toList) := by
  obtain ⟨r, hr, rfl⟩ := List.mem_map.1 h
  exact ⟨r, hr, rfl⟩

theorem mem_typeProbTemplate {p : (Str × Str) × ℝ} (h : p ∈ typeProbTemplate n k) :
    ∃ i, ∃ name ∈ ["constant", "up_to_nine_years_edu", "at_least_ten_years_edu"], 1 ≤ i ∧ i < n ∧
      p.1 = (typeName i, name.toList) := by
  obtain ⟨i, hi, h⟩ := List.mem_flatMap.1 h
  rw [List.mem_range'_1] at hi
  refine ⟨i, ?_⟩
  dsimp only at h
  rcases List.mem_append.1 h with h | h
  · split at h
    · rw [List.mem_singleton] at h
      exact ⟨"constant", by decide, by omega, by omega, by rw [h]; rfl⟩
    · simp at h
  · rcases List.mem_cons.1 h with h | h
    · exact ⟨"up_to_nine_years_edu", by decide, by omega, by omega, by rw [h]; rfl⟩
    · rw [List.mem_singleton] at h
      exact ⟨"at_least_ten_years_edu", by decide, by omega, by omega, by rw [h]; rfl⟩

theorem mem_typeShiftTemplate {p : (Str × Str) × ℝ} (h : p ∈ typeShiftTemplate n) :
    ∃ i, ∃ cat ∈ ["wage_a", "wage_b", "nonpec_edu", "nonpec_home"], 1 ≤ i ∧ i < n ∧
      p.1 = (cat.toList, typeName i) := by
  obtain ⟨i, hi, h⟩ := List.mem_flatMap.1 h
  rw [List.mem_range'_1] at hi
  refine ⟨i, ?_⟩
  obtain ⟨c, hc, h⟩ := List.mem_map.1 h
  simp only [List.mem_cons, List.not_mem_nil, or_false] at hc
  rcases hc with rfl | rfl | rfl | rfl
  · exact ⟨"wage_a", by decide, by omega, by omega, by rw [← h]; rfl⟩
  · exact ⟨"wage_b", by decide, by omega, by omega, by rw [← h]; rfl⟩
  · exact ⟨"nonpec_edu", by decide, by omega, by omega, by rw [← h]; rfl⟩
  · exact ⟨"nonpec_home", by decide, by omega, by omega, by rw [← h]; rfl⟩

theorem mem_initialTemplate {starts : List Nat} {shares : List ℝ} {m : Nat} {p : (Str × Str) × ℝ}
    (h : p ∈ initialAndMaxTemplate starts shares m) :
    (∃ s, p.1 = ("initial_exp_edu_".toList ++ Nat.toDigits 10 s, "probability".toList)) ∨
      p.1 = ("maximum_exp".toList, "edu".toList) := by
  rcases List.mem_append.1 h with h | h
  · rw [List.mem_iff_getElem?] at h
    obtain ⟨i, h⟩ := h
    rw [List.getElem?_zipWith_eq_some] at h
    obtain ⟨s, x, _, _, rfl⟩ := h
    exact .inl ⟨s, rfl⟩
  · rw [List.mem_singleton] at h
    exact .inr (by rw [h])

theorem mem_laggedTemplate {draws : List (List ℝ)} {p : (Str × Str) × ℝ}
    (h : p ∈ laggedChoicesTemplate choices draws) :
    ∃ k, ∃ c ∈ choices, p.1 = (lagCategory k c, "constant".toList) := by
  obtain ⟨d, _, h⟩ := List.mem_flatMap.1 h
  rw [List.mem_iff_getElem?] at h
  obtain ⟨i, h⟩ := h
  rw [List.getElem?_zipWith_eq_some] at h
  obtain ⟨c, x, hc, _, rfl⟩ := h
  exact ⟨d.2 + 1, c, List.mem_of_getElem? hc, rfl⟩

theorem obsKey_eq (i j : Nat) :
    "observable_observable_".toList ++ Nat.toDigits 10 i ++ ['_'] ++ Nat.toDigits 10 j =
      levelCategory "observable".toList (observableName i) (Nat.toDigits 10 j) := by
  have e : "observable_observable_".toList = "observable".toList ++ '_' :: "observable_".toList := by
    decide +kernel
  unfold levelCategory observableName
  rw [e]
  generalize "observable".toList = a, "observable_".toList = b
  simp only [List.append_assoc, List.cons_append, List.nil_append]

theorem mem_obsTemplate {draws : List (List ℝ)} {p : (Str × Str) × ℝ}
    (h : p ∈ observableProbTemplate draws) :
    ∃ i j, p.1 = (levelCategory "observable".toList (observableName i) (Nat.toDigits 10 j),
      "probability".toList) := by
  obtain ⟨d, _, h⟩ := List.mem_flatMap.1 h
  obtain ⟨pj, _, rfl⟩ := List.mem_map.1 h
  exact ⟨d.2, pj.2, by rw [← obsKey_eq]⟩

theorem mem_csvTemplate {values : Str × Str → ℝ} {p : (Str × Str) × ℝ}
    (h : p ∈ csvTemplate (baseTemplate values) n k) : TemplateKey n choices p.1 := by
  have hb : ∀ q ∈ baseTemplate values, TemplateKey n choices q.1 := by
    intro q hq
    obtain ⟨r, hr, e⟩ := mem_baseTemplate hq
    rw [e]; exact .base r hr
  unfold csvTemplate at h
  split at h
  · rcases List.mem_append.1 h with h | h
    · rcases List.mem_append.1 h with h | h
      · exact hb p h
      · obtain ⟨i, name, hn, h1, h2, e⟩ := mem_typeProbTemplate h
        rw [e]; exact .prob i name h1 h2 hn
    · obtain ⟨i, name, hn, h1, h2, e⟩ := mem_typeShiftTemplate h
      rw [e]; exact .shift i name h1 h2 hn
  · exact hb p h

theorem mem_restTemplate (t : TemplateSpec) {p : (Str × Str) × ℝ}
    (h : p ∈ initialAndMaxTemplate t.starts t.shares t.max ++
      (laggedChoicesTemplate t.choices t.lagDraws ++ observableProbTemplate t.obsDraws)) :
    (∃ s, p.1 = ("initial_exp_edu_".toList ++ Nat.toDigits 10 s, "probability".toList)) ∨
      p.1 = ("maximum_exp".toList, "edu".toList) ∨
      (∃ k, ∃ c ∈ t.choices, p.1 = (lagCategory k c, "constant".toList)) ∨
      ∃ i j, p.1 = (levelCategory "observable".toList (observableName i) (Nat.toDigits 10 j),
        "probability".toList) := by
  rcases List.mem_append.1 h with h | h
  · rcases mem_initialTemplate h with h | h
    · exact .inl h
    · exact .inr (.inl h)
  · rcases List.mem_append.1 h with h | h
    · exact .inr (.inr (.inl (mem_laggedTemplate h)))
    · exact .inr (.inr (.inr (mem_obsTemplate h)))

theorem mem_template (t : TemplateSpec) {p : (Str × Str) × ℝ} (h : p ∈ t.template) :
    TemplateKey t.nTypes t.choices p.1 := by
  rcases List.mem_append.1 h with h | h
  · exact mem_csvTemplate h
  · rcases mem_restTemplate t h with ⟨s, e⟩ | e | ⟨k, c, hc, e⟩ | ⟨i, j, e⟩ <;> rw [e]
    · exact .start s
    · exact .max
    · exact .lag k c hc
    · exact .obs i j

/-! ### Characters -/

theorem isWordChar_of_digit (c : Char) (h : c.isDigit = true) : isWordChar c = true := by
  simp [isWordChar, Char.isAlphanum, h]

theorem isWordChar_of_name (c : Char) (h : isNameChar c = true) : isWordChar c = true := by
  simp only [isNameChar, Bool.or_eq_true, decide_eq_true_eq] at h
  simp only [isWordChar, Char.isAlphanum, Bool.or_eq_true, decide_eq_true_eq]
  tauto

/-- A text consists of word characters. -/
def WordText (s : Str) : Prop := ∀ c ∈ s, isWordChar c = true

theorem WordText.append {a b : Str} (ha : WordText a) (hb : WordText b) : WordText (a ++ b) := by
  intro c hc
  rcases List.mem_append.1 hc with h | h
  · exact ha c h
  · exact hb c h

theorem wordLit (s : Str) (h : s.all isWordChar = true) : WordText s := fun c hc => List.all_eq_true.1 h c hc

theorem WordText.digits (i : Nat) : WordText (Nat.toDigits 10 i) :=
  fun c hc => isWordChar_of_digit c (toDigits_digit i c hc)

theorem baseIndex_words : ∀ r ∈ baseIndex, (∀ c ∈ r.1.toList, isWordChar c = true) ∧
    ∀ c ∈ r.2.toList, isWordChar c = true := by decide +kernel

theorem TemplateKey.words {key : Str × Str} (hch : ∀ c ∈ choices, ∀ x ∈ c, isNameChar x = true)
    (h : TemplateKey n choices key) : WordText key.1 ∧ WordText key.2 := by
  have ht : ∀ i, WordText (typeName i) := fun i => .append (wordLit _ (by decide)) (.digits i)
  cases h with
  | base r h => exact baseIndex_words r h
  | prob i name _ _ h3 =>
    refine ⟨ht i, ?_⟩
    have : ∀ name ∈ ["constant", "up_to_nine_years_edu", "at_least_ten_years_edu"],
      name.toList.all isWordChar = true := by decide
    exact wordLit _ (this name h3)
  | shift i cat _ _ h3 =>
    refine ⟨?_, ht i⟩
    have : ∀ cat ∈ ["wage_a", "wage_b", "nonpec_edu", "nonpec_home"],
      cat.toList.all isWordChar = true := by decide
    exact wordLit _ (this cat h3)
  | start s => exact ⟨.append (wordLit _ (by decide)) (.digits s), wordLit "probability".toList (by decide)⟩
  | max => exact ⟨wordLit _ (by decide), wordLit _ (by decide)⟩
  | lag k c h =>
    refine ⟨?_, wordLit "constant".toList (by decide)⟩
    refine .append (.append (.append (wordLit _ (by decide)) (.digits k)) (wordLit _ (by decide))) ?_
    exact fun x hx => isWordChar_of_name x (hch c h x hx)
  | obs i j =>
    refine ⟨?_, wordLit "probability".toList (by decide)⟩
    rw [← obsKey_eq]
    exact .append (.append (.append (wordLit _ (by decide)) (.digits i)) (wordLit _ (by decide)))
      (.digits j)

end Respy
