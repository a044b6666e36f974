import Verif.Model.Choices
import Verif.Lemmas.Characters
import Verif.Lemmas.Dict

/-! # Properties of the order of choices -/

namespace Respy

theorem mem_sortedSet (l : List Str) (c : Str) : c ∈ sortedSet l ↔ c ∈ l := by
  unfold sortedSet
  rw [(List.perm_insertionSort strLe l.dedup).mem_iff, List.mem_dedup]

theorem nodup_sortedSet (l : List Str) : (sortedSet l).Nodup := by
  unfold sortedSet
  rw [(List.perm_insertionSort strLe l.dedup).nodup_iff]
  exact List.nodup_dedup l

theorem sorted_sortedSet (l : List Str) : (sortedSet l).Pairwise (· ≤ ·) :=
  List.pairwise_insertionSort strLe l.dedup

theorem keys_prefix_insert {κ ν : Type _} [DecidableEq κ] (d : Dict κ ν) (k : κ) (v : ν) :
    d.keys <+: (d.insert k v).keys := by
  induction d with
  | nil => simp [Dict.keys]
  | cons kv d ih =>
    obtain ⟨a, b⟩ := kv
    unfold Dict.insert
    split
    · simp [Dict.keys]
    · simp only [Dict.keys, List.map_cons] at ih ⊢
      exact List.cons_prefix_cons.2 ⟨rfl, ih⟩

theorem keys_prefix_update {κ ν : Type _} [DecidableEq κ] (d : Dict κ ν) (items : List (κ × ν)) :
    d.keys <+: (d.update items).keys := by
  unfold Dict.update
  induction items generalizing d with
  | nil => simp
  | cons kv items ih => exact (keys_prefix_insert d kv.1 kv.2).trans (ih _)

/-- A choice is mentioned as alternative with a wage. -/
def MentionsWage (params : List (Str × Str)) (c : Str) : Prop :=
  ∃ p ∈ params, extract "wage_".toList isNameChar p.1 = some c

/-- A choice is mentioned as alternative with a non-pecuniary reward. -/
def MentionsNonpec (params : List (Str × Str)) (c : Str) : Prop :=
  ∃ p ∈ params, extract "nonpec_".toList isNameChar p.1 = some c

theorem mem_inferChoicesWithPrefix (params : List (Str × Str)) (pre c : Str) :
    c ∈ inferChoicesWithPrefix params pre ↔
      ∃ p ∈ params, extract pre isNameChar p.1 = some c := by
  unfold inferChoicesWithPrefix
  rw [mem_sortedSet]
  simp only [List.mem_filterMap, List.mem_map]
  constructor
  · rintro ⟨_, ⟨p, hp, rfl⟩, h⟩; exact ⟨p, hp, h⟩
  · rintro ⟨p, hp, h⟩; exact ⟨_, ⟨p, hp, rfl⟩, h⟩

/-! ### C46 Choices are ordered consistently -/

theorem nameChar_word (c : Char) (hc : isNameChar c = true) : isWordChar c = true := by
  simp only [isNameChar, isWordChar, Char.isAlphanum, Bool.or_eq_true] at hc ⊢
  tauto

/-- A category `wage_x` or `nonpec_x`, respectively, mentions the choice `x`, for every name of letters and
underscores. -/
theorem C46_categories (params : List (Str × Str)) (x : Str) (hx : x ≠ [])
    (hn : ∀ c ∈ x, c ∈ nameCharacters) :
    ((∃ p ∈ params, p.1 = "wage_".toList ++ x) → MentionsWage params x) ∧
    ((∃ p ∈ params, p.1 = "nonpec_".toList ++ x) → MentionsNonpec params x) := by
  have hn' : ∀ c ∈ x, isNameChar c = true := fun c hc => (isNameChar_iff c).2 (hn c hc)
  refine ⟨fun ⟨p, hp, h⟩ => ⟨p, hp, ?_⟩, fun ⟨p, hp, h⟩ => ⟨p, hp, ?_⟩⟩ <;> rw [h] <;>
    exact extract_prefix_name _ _ _ (by decide) (by decide) hx hn' nameChar_word

/-- A category mentions a choice `x` only if `x` consists of letters and underscores and `wage_x` or
`nonpec_x`, respectively, is one of its words. -/
theorem C46_categories_sound (params : List (Str × Str)) (x : Str) :
    (MentionsWage params x → x ≠ [] ∧ (∀ c ∈ x, c ∈ nameCharacters) ∧
      ∃ p ∈ params, WordOf ("wage_".toList ++ x) p.1) ∧
    (MentionsNonpec params x → x ≠ [] ∧ (∀ c ∈ x, c ∈ nameCharacters) ∧
      ∃ p ∈ params, WordOf ("nonpec_".toList ++ x) p.1) := by
  refine ⟨fun ⟨p, hp, h⟩ => ?_, fun ⟨p, hp, h⟩ => ?_⟩ <;>
  · obtain ⟨h1, h2, h3⟩ := (mem_findAll (by decide) (by decide) nameChar_word _ _).1 (List.mem_of_head? h)
    exact ⟨h1, fun c hc => (isNameChar_iff c).1 (h2 c hc), p, hp, (wholeWord_iff _ _).1 h3⟩

/-- If all categories consist of letters, digits and underscores, exactly the categories `wage_x` and
`nonpec_x` mention the choice `x`. -/
theorem C46_categories_exact (params : List (Str × Str)) (hw : ∀ p ∈ params, ∀ c ∈ p.1, c ∈ wordCharacters)
    (x : Str) :
    (MentionsWage params x ↔ x ≠ [] ∧ (∀ c ∈ x, c ∈ nameCharacters) ∧
      ∃ p ∈ params, p.1 = "wage_".toList ++ x) ∧
    (MentionsNonpec params x ↔ x ≠ [] ∧ (∀ c ∈ x, c ∈ nameCharacters) ∧
      ∃ p ∈ params, p.1 = "nonpec_".toList ++ x) := by
  refine ⟨⟨fun h => ?_, fun ⟨h1, h2, h3⟩ => (C46_categories params x h1 h2).1 h3⟩,
    ⟨fun h => ?_, fun ⟨h1, h2, h3⟩ => (C46_categories params x h1 h2).2 h3⟩⟩
  · obtain ⟨h1, h2, p, hp, h3⟩ := (C46_categories_sound params x).1 h
    exact ⟨h1, h2, p, hp, h3.eq (hw p hp)⟩
  · obtain ⟨h1, h2, p, hp, h3⟩ := (C46_categories_sound params x).2 h
    exact ⟨h1, h2, p, hp, h3.eq (hw p hp)⟩

/-- The experience of the choice `c` matters: `exp_c` is a word of the name of a parameter or of the
formula of a covariate which is the name of a parameter. -/
def ExperienceMatters (params : List (Str × Str)) (covariates : Dict Str Str) (c : Str) : Prop :=
  c ≠ [] ∧ (∀ x ∈ c, x ∈ nameCharacters) ∧
    ∃ p ∈ params, WordOf ("exp_".toList ++ c) p.2 ∨
      ∃ formula, (p.2, formula) ∈ covariates ∧ WordOf ("exp_".toList ++ c) formula

theorem mem_inferChoicesWithExperience (params : List (Str × Str)) (covariates : Dict Str Str)
    (c : Str) : c ∈ inferChoicesWithExperience params covariates ↔
      ExperienceMatters params covariates c := by
  have key : ∀ s, c ∈ findAll "exp_".toList isNameChar s ↔
      c ≠ [] ∧ (∀ x ∈ c, x ∈ nameCharacters) ∧ WordOf ("exp_".toList ++ c) s := by
    intro s
    rw [mem_findAll (by decide) (by decide) nameChar_word, wholeWord_iff]
    simp only [isNameChar_iff]
  unfold inferChoicesWithExperience ExperienceMatters
  simp only [mem_sortedSet, List.mem_append, List.mem_flatMap, List.mem_map, List.mem_filter,
    decide_eq_true_eq]
  constructor
  · rintro (⟨_, ⟨p, hp, rfl⟩, h⟩ | ⟨⟨n, f⟩, ⟨hm, p, hp, rfl⟩, h⟩)
    · obtain ⟨h1, h2, h3⟩ := (key _).1 h
      exact ⟨h1, h2, p, hp, Or.inl h3⟩
    · obtain ⟨h1, h2, h3⟩ := (key _).1 h
      exact ⟨h1, h2, p, hp, Or.inr ⟨f, hm, h3⟩⟩
  · rintro ⟨h1, h2, p, hp, h3 | ⟨f, hm, h3⟩⟩
    · exact Or.inl ⟨_, ⟨p, hp, rfl⟩, (key _).2 ⟨h1, h2, h3⟩⟩
    · exact Or.inr ⟨_, ⟨hm, p, hp, rfl⟩, (key _).2 ⟨h1, h2, h3⟩⟩

/-- The choices with experience are those with a wage and those with a non-pecuniary reward whose
experience matters for a parameter of the model; the choices without experience are those with a
non-pecuniary reward whose experience does not matter. -/
theorem C46_choices_with_experience (params : List (Str × Str)) (covariates : Dict Str Str) (c : Str) :
    (c ∈ (parseChoices params covariates).wExp ↔
      MentionsWage params c ∨ (MentionsNonpec params c ∧ ExperienceMatters params covariates c)) ∧
    (c ∈ (parseChoices params covariates).woExp ↔
      MentionsNonpec params c ∧ ¬ExperienceMatters params covariates c) := by
  simp only [parseChoices, List.mem_append, mem_sortedSet, List.mem_filter, decide_eq_true_eq,
    mem_inferChoicesWithPrefix, mem_inferChoicesWithExperience, MentionsWage, MentionsNonpec]
  generalize (∃ p ∈ params, extract "wage_".toList isNameChar p.1 = some c) = A
  generalize (∃ p ∈ params, extract "nonpec_".toList isNameChar p.1 = some c) = B
  generalize ExperienceMatters params covariates c = E
  by_cases hA : A <;> by_cases hB : B <;> by_cases hE : E <;> simp [hA, hB, hE]

/-- Every choice mentioned in the parameters gets exactly one code, and there are no other codes. -/
theorem C46_unique_codes (params : List (Str × Str)) (covariates : Dict Str Str) :
    (parseChoices params covariates).choices.Nodup ∧
    ∀ c, c ∈ (parseChoices params covariates).choices ↔
      MentionsWage params c ∨ MentionsNonpec params c := by
  refine ⟨Dict.nodup_keys_ofItems _, fun c => ?_⟩
  simp only [parseChoices, Dict.mem_keys_ofItems, List.map_map, List.mem_map, List.mem_append,
    Function.comp, exists_eq_right, mem_sortedSet, List.mem_filter, decide_eq_true_eq,
    mem_inferChoicesWithPrefix, MentionsWage, MentionsNonpec]
  generalize (∃ p ∈ params, extract "wage_".toList isNameChar p.1 = some c) = A
  generalize (∃ p ∈ params, extract "nonpec_".toList isNameChar p.1 = some c) = B
  generalize (c ∈ inferChoicesWithExperience params covariates) = E
  by_cases hA : A <;> by_cases hB : B <;> by_cases hE : E <;> simp [hA, hB, hE]

/-- Choices with a wage come first, then the other choices with experience: the code of a choice with
experience is its position among the choices with experience. All choices with a wage have experience,
and within the groups the order is alphabetical. -/
theorem C46_order (params : List (Str × Str)) (covariates : Dict Str Str) :
    let ch := parseChoices params covariates
    (∀ c, c ∈ ch.wWage ↔ MentionsWage params c) ∧ ch.wWage <+: ch.wExp ∧ ch.wExp <+: ch.choices ∧
    ch.wWage.Pairwise (· ≤ ·) ∧ (ch.wExp.drop ch.wWage.length).Pairwise (· ≤ ·) ∧
    ∀ (i : Nat) (c : Str), ch.wExp[i]? = some c → ch.choices[i]? = some c := by
  intro ch
  have hpre : ch.wExp <+: ch.choices := by
    have hnd : ch.wExp.Nodup := by
      apply List.nodup_append.2
      refine ⟨nodup_sortedSet _, nodup_sortedSet _, ?_⟩
      intro a ha b hb hab
      subst hab
      rw [mem_sortedSet] at ha hb
      simp only [List.mem_filter, decide_eq_true_eq] at hb
      exact hb.2 ha
    have h1 : (Dict.ofItems (ch.wExp.map fun c => (c, ()))).keys = ch.wExp := by
      rw [Dict.ofItems_of_nodup _ (by simpa [Function.comp_def] using hnd)]
      simp [Dict.keys, Function.comp_def]
    have h2 : ch.choices = ((Dict.ofItems (ch.wExp.map fun c => (c, ()))).update
        (ch.woExp.map fun c => (c, ()))).keys := by
      simp only [ch, parseChoices, Dict.ofItems, Dict.update, List.map_append, List.foldl_append]
    rw [h2]
    have := keys_prefix_update (Dict.ofItems (ch.wExp.map fun c => (c, ())))
      (ch.woExp.map fun c => (c, ()))
    rwa [h1] at this
  refine ⟨fun c => ?_, ⟨_, rfl⟩, hpre, sorted_sortedSet _, ?_, ?_⟩
  · simp only [ch, parseChoices, mem_sortedSet, mem_inferChoicesWithPrefix, MentionsWage]
  · simp only [ch, parseChoices, List.drop_left]
    exact sorted_sortedSet _
  · intro i c h
    obtain ⟨t, ht⟩ := hpre
    rw [← ht, List.getElem?_append_left (List.getElem?_eq_some_iff.1 h).1, h]

/-- Choices with and without experience are *not* disjoint: a choice with a wage and a non-pecuniary
reward whose experience occurs in no covariate is in both lists. -/
theorem C46_disjoint_false :
    ∃ (params : List (Str × Str)) (covariates : Dict Str Str) (c : Str),
      c ∈ (parseChoices params covariates).wExp ∧ c ∈ (parseChoices params covariates).woExp :=
  ⟨[("wage_a".toList, "constant".toList), ("nonpec_a".toList, "constant".toList)], [], "a".toList,
    by decide +kernel, by decide +kernel⟩

/-- They are disjoint if the experience of every choice with a wage and a non-pecuniary reward occurs in
the parameters. Missing: choices with a wage whose experience has no effect, see
`C46_disjoint_false`. -/
theorem C46_disjoint_partial (params : List (Str × Str)) (covariates : Dict Str Str)
    (h : ∀ c, MentionsWage params c → MentionsNonpec params c → ExperienceMatters params covariates c)
    (c : Str) (hc : c ∈ (parseChoices params covariates).wExp) :
    c ∉ (parseChoices params covariates).woExp := by
  rw [(C46_choices_with_experience params covariates c).1] at hc
  rw [(C46_choices_with_experience params covariates c).2]
  rintro ⟨h1, h2⟩
  rcases hc with hw | hw
  · exact h2 (h c hw h1)
  · exact h2 hw.2

/-- Four choices: two with a wage, one with experience only and one without experience. -/
example : let params := [("wage_b".toList, "exp_b".toList), ("wage_a".toList, "constant".toList),
      ("nonpec_edu".toList, "at_least_three".toList), ("nonpec_home".toList, "constant".toList)]
    let ch := parseChoices params [("at_least_three".toList, "exp_edu >= 3".toList)]
    ch.choices = ["a".toList, "b".toList, "edu".toList, "home".toList] ∧
    ch.wExp = ["a".toList, "b".toList, "edu".toList] ∧ ch.woExp = ["home".toList] := by
  decide +kernel

/-- Categories of word characters, as `C46_categories_exact` requires them. -/
example : ∀ p ∈ [("wage_b".toList, "exp_b".toList), ("nonpec_edu".toList, "at_least_three".toList),
    ("shocks_sdcorr".toList, "sd_b".toList), ("type_2".toList, "constant".toList)],
    ∀ c ∈ p.1, c ∈ wordCharacters := by
  decide +kernel

end Respy
