import Verif.Lemmas.Solve3
import Verif.Spec.Emax
import Verif.Props.Exogenous

/-! Helper lemmas: the Bellman operator in the specification and in the model. -/

set_option linter.unusedSectionVars false

namespace Respy

variable {K : Type _} [Field K] [LinearOrder K]

theorem mem_valueFunctions (delta : K) (w m c e : List K) (x : K) :
    x ∈ valueFunctions delta w m c e ↔ ∃ (j : Nat) (wj mj cj ej : K), w[j]? = some wj ∧
      m[j]? = some mj ∧ c[j]? = some cj ∧ e[j]? = some ej ∧ x = wj * ej + mj + delta * cj := by
  induction w generalizing m c e with
  | nil => simp [valueFunctions]
  | cons w0 w ih =>
    cases m with
    | nil => simp [valueFunctions]
    | cons m0 m =>
      cases c with
      | nil => simp [valueFunctions]
      | cons c0 c =>
        cases e with
        | nil => simp [valueFunctions]
        | cons e0 e =>
          simp only [valueFunctions, List.mem_cons, ih, kwUtility]
          constructor
          · rintro (rfl | ⟨j, h⟩)
            · exact ⟨0, w0, m0, c0, e0, rfl, rfl, rfl, rfl, rfl⟩
            · obtain ⟨wj, mj, cj, ej, h⟩ := h
              exact ⟨j + 1, wj, mj, cj, ej, by simpa using h⟩
          · rintro ⟨j, wj, mj, cj, ej, h⟩
            cases j with
            | zero =>
              simp only [List.getElem?_cons_zero, Option.some.injEq] at h
              obtain ⟨rfl, rfl, rfl, rfl, rfl⟩ := h
              exact Or.inl rfl
            | succ j => exact Or.inr ⟨j, wj, mj, cj, ej, by simpa using h⟩

theorem emax_isMeanMax (delta : K) (w m c : List K) (draws : List (List K)) :
    IsMeanMax delta w m c draws (emax w m c draws delta) := by
  refine ⟨fun e => maxValue (valueFunctions delta w m c e), ?_, ?_⟩
  · intro e _
    obtain ⟨h1, h2, h3⟩ := maxValue_aux (valueFunctions delta w m c e) 0
    constructor
    · rcases h3 with h3 | h3
      · exact Or.inl h3
      · exact Or.inr ((mem_valueFunctions ..).1 h3)
    · rintro x (rfl | hx)
      · exact h1
      · exact h2 x ((mem_valueFunctions ..).2 hx)
  · rw [emax_eq_sum]

theorem isMeanMax_unique (delta : K) (w m c : List K) (draws : List (List K)) (v v' : K)
    (h : IsMeanMax delta w m c draws v) (h' : IsMeanMax delta w m c draws v') : v = v' := by
  obtain ⟨b, hb, rfl⟩ := h
  obtain ⟨b', hb', rfl⟩ := h'
  congr 2
  exact List.map_congr_left fun e he => (hb e he).unique (hb' e he)

theorem length_validChoices_take (cs : List Bool) (a : Nat) :
    ((List.range a).filter fun b => decide (cs[b]? = some true)).length = positionIn cs a := by
  unfold positionIn
  induction a with
  | zero => simp
  | succ a ih =>
    rw [List.range_succ, List.filter_append, List.length_append, ih]
    by_cases ha : a < cs.length
    · rw [List.take_succ_eq_append_getElem ha, List.count_append]
      congr 1
      cases h : cs[a] <;> simp [ha, h]
    · rw [List.take_of_length_le (by omega), List.take_of_length_le (by omega)]
      have : cs[a]? = none := by simpa using ha
      simp [this]

theorem validChoices_positionIn (cs : List Bool) (a : Nat) (h : cs[a]? = some true) :
    (validChoices cs)[positionIn cs a]? = some a := by
  obtain ⟨hlt, _⟩ := List.getElem?_eq_some_iff.1 h
  have hsplit : List.range cs.length =
      List.range a ++ a :: (List.range' (a + 1) (cs.length - (a + 1))) := by
    rw [List.range_eq_range', List.range_eq_range']
    have h1 : List.range' 0 cs.length = List.range' 0 a ++ List.range' (0 + 1 * a) (cs.length - a) := by
      rw [List.range'_append, Nat.add_sub_cancel' hlt.le]
    rw [h1]
    congr 1
    rw [show cs.length - a = (cs.length - (a + 1)) + 1 by omega, List.range'_succ]
    simp
  unfold validChoices
  rw [hsplit, List.filter_append, List.getElem?_append_right]
  · rw [length_validChoices_take, Nat.sub_self]
    simp [h]
  · rw [length_validChoices_take]

theorem positionIn_lt (cs : List Bool) (a : Nat) (h : cs[a]? = some true) :
    positionIn cs a < cs.count true := by
  have := validChoices_positionIn cs a h
  have h2 := (List.getElem?_eq_some_iff.1 this).1
  rwa [length_validChoices] at h2

end Respy
