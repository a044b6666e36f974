import Verif.Props.Labels
import Verif.Props.ProcessModelExample

/-!
# C82: labels in the restrictions of the user

Labels of choices and of levels of observables become the positions of the choices and of the levels.
-/

namespace Respy

variable {env : ProcessEnv} {m : UserModel} {p : Processed}

/-- The label is the choice or the level of an observable at the position `code`. -/
def Processed.LabelCode (p : Processed) (label : Str) (code : Nat) : Prop :=
  p.choices.choices[code]? = some label ∨
    ∃ o ∈ p.observables, ∃ level, o.2[code]? = some level ∧ ofLex level.1 = Sum.inr label

/-- A part of a formula after the conversion: labels become codes, everything else is unchanged. -/
inductive Processed.Coded (p : Processed) : Piece → Piece → Prop
  | plain (t : Str) : p.Coded (.plain t) (.plain t)
  | label (q : Char) (l : Str) (code : Nat) : p.LabelCode l code → p.Coded (.quoted q l) (.plain (codeText code))
  | other (q : Char) (l : Str) : (∀ code, ¬ p.LabelCode l code) → p.Coded (.quoted q l) (.quoted q l)

theorem mem_labelCodes (label : Str) (code : Nat) :
    (label, code) ∈ labelCodes p.choices.choices (textLevels p.observables) ↔ p.LabelCode label code := by
  unfold labelCodes Processed.LabelCode
  rw [List.mem_append, List.mem_zipIdx_iff_getElem?, List.mem_flatMap]
  refine or_congr Iff.rfl ?_
  constructor
  · rintro ⟨o, ho, hm⟩
    obtain ⟨o', ho', rfl⟩ := List.mem_map.1 ho
    obtain ⟨⟨l, j⟩, hlj, he⟩ := List.mem_filterMap.1 hm
    obtain ⟨l', hl', he'⟩ := Option.map_eq_some_iff.1 he
    cases he'
    dsimp only at hl'
    rw [List.mem_zipIdx_iff_getElem?, List.getElem?_map] at hlj
    obtain ⟨level, h1, h2⟩ := Option.map_eq_some_iff.1 hlj
    refine ⟨o', ho', level, h1, ?_⟩
    dsimp only at h2
    rw [hl'] at h2
    generalize ofLex level.1 = x at h2
    cases x with
    | inl _ => cases h2
    | inr t => cases h2; rfl
  · rintro ⟨o, ho, level, h1, h2⟩
    refine ⟨_, List.mem_map.2 ⟨o, ho, rfl⟩, List.mem_filterMap.2 ⟨(some label, code), ?_, rfl⟩⟩
    rw [List.mem_zipIdx_iff_getElem?, List.getElem?_map, h1]
    simp only [Option.map_some, h2]

/-- **C82.** The restrictions of the user are among the formulas of the model, with each label in quotes replaced by the
position of the choice or of the level with this name; nothing else is changed. -/
theorem C82_labels_by_position (hp : processModel env m = some p) (sep : Char → Bool)
    (hlabels : ∀ label code, p.LabelCode label code → NoQuotes label ∧ label.any sep = false)
    (c : Str) (hc : c ∈ p.choices.choices) (fs : List Str) (hfs : Dict.get? m.negativeChoiceSet c = some fs)
    (ps : List Piece) (hps : formulaText ps ∈ fs) (h : WellQuoted sep true ps) :
    ∃ ps' gs, List.Forall₂ p.Coded ps ps' ∧ Dict.get? p.negativeChoiceSet c = some gs ∧ formulaText ps' ∈ gs := by
  obtain ⟨covariates, hfrom⟩ := processModel_from env m p hp
  obtain ⟨gs, hgs, hmem⟩ := hfrom.formulas c hc
  refine ⟨ps.map (resolve (labelCodes p.choices.choices (textLevels p.observables))), gs, ?_, hgs, (hmem _).2 (.inl ?_)⟩
  · rw [List.forall₂_map_right_iff, List.forall₂_same]
    intro x _
    cases x with
    | plain t => exact .plain t
    | quoted q l =>
      simp only [resolve]
      generalize hx : (labelCodes p.choices.choices (textLevels p.observables)).find? _ = x
      cases x with
      | none =>
        rw [List.find?_eq_none] at hx
        exact .other q l fun code hcode => absurd (hx _ ((mem_labelCodes l code).2 hcode)) (by simp)
      | some lc =>
        obtain ⟨l', i⟩ := lc
        have h1 : l' = l := by simpa using List.find?_some hx
        subst h1
        exact .label q l' i ((mem_labelCodes l' i).1 (List.mem_of_find?_eq_some hx))
  · rw [hfs, Option.getD_some]
    refine List.mem_map.2 ⟨_, hps, ?_⟩
    rw [C49_first_code sep _ _ _ _ h]
    rintro ⟨label, code⟩ hlc
    exact hlabels label code ((mem_labelCodes label code).1 hlc)

/-- The observable `iq` has levels which are texts; `b` is forbidden for the level `low` after `a`. -/
noncomputable def labelsUser : UserModel := { exampleUser with
  params := exampleUser.params.filter (fun q => !containsText "observable".toList q.1.1) ++
    [(("observable_iq_low".toList, "probability".toList), 1 / 2),
      (("observable_iq_high".toList, "probability".toList), 1 / 2)]
  negativeChoiceSet := [("b".toList, ["iq == 'low' and lagged_choice_1 == \"a\"".toList])] }

theorem labelsUser_check : (processModel exampleEnv labelsUser).any (fun p =>
    (labelCodes p.choices.choices (textLevels p.observables)).all (fun lc =>
      (lc.1.all fun c => c != '\'' && c != '"') && !lc.1.any fun c => decide (c = ' ')) &&
    decide ("b".toList ∈ p.choices.choices) &&
    decide (Dict.get? p.negativeChoiceSet "b".toList =
      some ["iq == 1 and lagged_choice_1 == 1".toList, "False".toList])) = true := by decide +kernel

/-- The hypotheses hold for the model, and the positions are those of the sorted choices `b`, `a` and of the sorted
levels `high`, `low`. -/
example : ∃ p, processModel exampleEnv labelsUser = some p ∧
    (∀ label code, p.LabelCode label code → NoQuotes label ∧ label.any (fun c => decide (c = ' ')) = false) ∧
    "b".toList ∈ p.choices.choices ∧
    WellQuoted (fun c => decide (c = ' ')) true [.plain "iq == ".toList, .quoted '\'' "low".toList,
      .plain " and lagged_choice_1 == ".toList, .quoted '"' "a".toList] ∧
    Dict.get? labelsUser.negativeChoiceSet "b".toList = some [formulaText [.plain "iq == ".toList,
      .quoted '\'' "low".toList, .plain " and lagged_choice_1 == ".toList, .quoted '"' "a".toList]] ∧
    Dict.get? p.negativeChoiceSet "b".toList =
      some ["iq == 1 and lagged_choice_1 == 1".toList, "False".toList] := by
  obtain ⟨p, hp, hcheck⟩ := (Option.any_eq_true _ _).1 labelsUser_check
  simp only [Bool.and_eq_true, decide_eq_true_eq] at hcheck
  refine ⟨p, hp, fun label code h => ?_, hcheck.1.2, by simp [WellQuoted, NoQuotes, IsQuote], rfl, hcheck.2⟩
  have := List.all_eq_true.1 hcheck.1.1 _ ((mem_labelCodes label code).2 h)
  simp only [Bool.and_eq_true, Bool.not_eq_true', List.all_eq_true, bne_iff_ne, ne_eq] at this
  exact ⟨fun c hc hq => hq.elim (this.1 c hc).1 (this.1 c hc).2, this.2⟩

end Respy
