import Verif.Model.ParseParams
import Verif.Props.Choices
import Verif.Lemmas.MapM
import Verif.Lemmas.Dict

/-!
# C76: measurement errors belong to the choices with wages

The vector `meas_error` is indexed by the codes of choices.
-/

namespace Respy

variable {K : Type _} [Zero K]

omit [Zero K] in
theorem hasCategory_iff (params : Dict (Str × Str) K) (category : String) :
    hasCategory params category = true ↔ ∃ p ∈ params, p.1.1 = category.toList := by
  simp [hasCategory]

theorem get?_isSome_iff {κ ν : Type _} [DecidableEq κ] (d : Dict κ ν) (k : κ) :
    (∃ v, d.get? k = some v) ↔ k ∈ d.keys := by
  induction d with
  | nil => simp [Dict.get?, Dict.keys]
  | cons kv d ih =>
    obtain ⟨a, b⟩ := kv
    by_cases h : a = k
    · simp [Dict.get?, Dict.keys, h]
    · have h' : k ≠ a := fun e => h e.symm
      simp only [Dict.get?, h, if_false, ih]
      simp [Dict.keys, h']

/-- C76 (when parameters are accepted). For all parameters and covariates: without parameters of the category
`meas_error` there is no measurement error; otherwise the parameters are accepted if and only if there is a standard
deviation for every choice with a wage. -/
theorem C76_all_or_none (params : Dict (Str × Str) K) (covariates : Dict Str Str) :
    ((∀ p ∈ params, p.1.1 ≠ "meas_error".toList) →
      parseMeasurementErrors (parseChoices (params.map Prod.fst) covariates).choices
        (parseChoices (params.map Prod.fst) covariates).wWage params =
        some (false, List.replicate (parseChoices (params.map Prod.fst) covariates).choices.length 0)) ∧
    ((∃ p ∈ params, p.1.1 = "meas_error".toList) →
      ((∃ r, parseMeasurementErrors (parseChoices (params.map Prod.fst) covariates).choices
        (parseChoices (params.map Prod.fst) covariates).wWage params = some r) ↔
        ∀ c, MentionsWage (params.map Prod.fst) c →
          ("meas_error".toList, "sd_".toList ++ c) ∈ params.map Prod.fst)) := by
  obtain ⟨hw, hpre1, hpre2, _⟩ := C46_order (params.map Prod.fst) covariates
  set ch := parseChoices (params.map Prod.fst) covariates
  have hlen : ch.wWage.length ≤ ch.choices.length := (hpre1.trans hpre2).length_le
  constructor
  · intro h
    have : hasCategory params "meas_error" = false := by
      rw [Bool.eq_false_iff, ne_eq, hasCategory_iff]
      rintro ⟨p, hp, e⟩
      exact h p hp e
    simp [parseMeasurementErrors, this]
  · intro h
    have hc : hasCategory params "meas_error" = true := (hasCategory_iff _ _).2 h
    unfold parseMeasurementErrors
    rw [if_pos hc]
    constructor
    · rintro ⟨r, hr⟩ c hmc
      have hmem := (hw c).2 hmc
      cases hm : (ch.wWage.map fun c => "sd_".toList ++ c).mapM
          fun l => params.get? ("meas_error".toList, l) with
      | none => simp only [hm, Option.bind_eq_bind, Option.bind_none] at hr; cases hr
      | some values =>
        obtain ⟨i, hi⟩ := List.mem_iff_getElem?.1 hmem
        obtain ⟨v, _, hv⟩ := forall₂_getElem? ((mapM_eq_some_iff _ _ _).1 hm) i ("sd_".toList ++ c)
          (by rw [List.getElem?_map, hi]; rfl)
        exact (get?_isSome_iff params _).1 ⟨v, hv⟩
    · intro hall
      obtain ⟨values, hm, _⟩ := mapM_option_exists (ch.wWage.map fun c => "sd_".toList ++ c)
        (fun l => params.get? ("meas_error".toList, l)) (by
          intro l hl
          obtain ⟨c, hcm, rfl⟩ := List.mem_map.1 hl
          exact (get?_isSome_iff params _).2 (hall c ((hw c).1 hcm)))
      simp only [hm, Option.bind_eq_bind, Option.bind_some, List.length_map, if_pos hlen]
      exact ⟨_, rfl⟩

/-- C76 (own standard deviation). For all accepted parameters: there is one element per choice, the element of
a choice with a wage is the parameter `(meas_error, sd_{choice})`, and the element of every other choice is zero. -/
theorem C76_own_standard_deviation (params : Dict (Str × Str) K) (covariates : Dict Str Str) (has : Bool)
    (sds : List K)
    (h : parseMeasurementErrors (parseChoices (params.map Prod.fst) covariates).choices
      (parseChoices (params.map Prod.fst) covariates).wWage params = some (has, sds)) :
    (has = true ↔ ∃ p ∈ params, p.1.1 = "meas_error".toList) ∧
    sds.length = (parseChoices (params.map Prod.fst) covariates).choices.length ∧
    ∀ (i : Nat) (c : Str), (parseChoices (params.map Prod.fst) covariates).choices[i]? = some c →
      (has = true → MentionsWage (params.map Prod.fst) c →
        ∃ v, sds[i]? = some v ∧ params.get? ("meas_error".toList, "sd_".toList ++ c) = some v) ∧
      ((has = false ∨ ¬ MentionsWage (params.map Prod.fst) c) → sds[i]? = some 0) := by
  obtain ⟨hw, hpre1, hpre2, _⟩ := C46_order (params.map Prod.fst) covariates
  have hnd := (C46_unique_codes (params.map Prod.fst) covariates).1
  set ch := parseChoices (params.map Prod.fst) covariates
  have hpre := hpre1.trans hpre2
  have hlen : ch.wWage.length ≤ ch.choices.length := hpre.length_le
  have hat : ∀ (i : Nat) (c : Str), ch.choices[i]? = some c →
      (i < ch.wWage.length ↔ MentionsWage (params.map Prod.fst) c) := by
    intro i c hi
    rw [← hw c]
    obtain ⟨t, ht⟩ := hpre
    constructor
    · intro hlt
      rw [← ht, List.getElem?_append_left hlt] at hi
      exact List.mem_of_getElem? hi
    · intro hmem
      obtain ⟨j, hj⟩ := List.mem_iff_getElem?.1 hmem
      have hjl : j < ch.wWage.length := (List.getElem?_eq_some_iff.1 hj).1
      have hj' : ch.choices[j]? = some c := by
        rw [← ht, List.getElem?_append_left hjl, hj]
      have hil : i < ch.choices.length := (List.getElem?_eq_some_iff.1 hi).1
      have := (List.getElem?_inj hil hnd).1 (hi.trans hj'.symm)
      omega
  unfold parseMeasurementErrors at h
  by_cases hc : hasCategory params "meas_error" = true
  · rw [if_pos hc] at h
    cases hm : (ch.wWage.map fun c => "sd_".toList ++ c).mapM
        fun l => params.get? ("meas_error".toList, l) with
    | none => simp only [hm, Option.bind_eq_bind, Option.bind_none] at h; cases h
    | some values =>
      simp only [hm, Option.bind_eq_bind, Option.bind_some, List.length_map, if_pos hlen] at h
      injection h with h
      injection h with h1 h2
      subst h1
      have hvl := mapM_eq_some_length _ _ _ hm
      rw [List.length_map] at hvl
      subst h2
      refine ⟨by rw [← hasCategory_iff]; exact ⟨fun _ => hc, fun _ => rfl⟩, by simp [hvl]; omega, ?_⟩
      intro i c hi
      have hil : i < ch.choices.length := (List.getElem?_eq_some_iff.1 hi).1
      constructor
      · intro _ hmc
        have hlt := (hat i c hi).2 hmc
        have hci : ch.wWage[i]? = some c := by
          obtain ⟨t, ht⟩ := hpre
          rw [← ht, List.getElem?_append_left hlt] at hi
          exact hi
        obtain ⟨v, hv, hg⟩ := forall₂_getElem? ((mapM_eq_some_iff _ _ _).1 hm) i ("sd_".toList ++ c)
          (by rw [List.getElem?_map, hci]; rfl)
        refine ⟨v, ?_, hg⟩
        rw [List.getElem?_append_left (by omega), hv]
      · rintro (h0 | hnm)
        · cases h0
        · have : ¬ i < ch.wWage.length := fun hlt => hnm ((hat i c hi).1 hlt)
          rw [List.getElem?_append_right (by omega), List.getElem?_replicate, if_pos (by omega)]
  · rw [if_neg hc] at h
    injection h with h
    injection h with h1 h2
    subst h1 h2
    refine ⟨?_, by simp, ?_⟩
    · rw [← hasCategory_iff]
      exact ⟨fun h => absurd h (by simp), fun h => absurd h hc⟩
    · intro i c hi
      have hil : i < ch.choices.length := (List.getElem?_eq_some_iff.1 hi).1
      exact ⟨fun h => absurd h (by simp), fun _ => by rw [List.getElem?_replicate, if_pos hil]⟩

/-- Two wages and one choice without wage; the standard deviations are listed in another order. -/
def measParams : Dict (Str × Str) Int :=
  [(("wage_a".toList, "constant".toList), 1), (("nonpec_c".toList, "constant".toList), 2),
   (("wage_b".toList, "constant".toList), 3), (("meas_error".toList, "sd_b".toList), 5),
   (("meas_error".toList, "sd_a".toList), 4)]

/-- The hypotheses of `C76_own_standard_deviation` and of the second part of `C76_all_or_none` are met. -/
example : parseMeasurementErrors (parseChoices (measParams.map Prod.fst) []).choices
    (parseChoices (measParams.map Prod.fst) []).wWage measParams = some (true, [4, 5, 0]) := by decide +kernel

/-- A missing standard deviation is an error. -/
example : parseMeasurementErrors (parseChoices ((measParams.take 4).map Prod.fst) []).choices
    (parseChoices ((measParams.take 4).map Prod.fst) []).wWage (measParams.take 4) = none := by decide +kernel

/-- The first part of `C76_all_or_none`. -/
example : ∀ p ∈ measParams.take 3, p.1.1 ≠ "meas_error".toList := by decide +kernel

end Respy
