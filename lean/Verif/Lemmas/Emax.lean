import Verif.Model.Emax
import Mathlib.Data.List.OfFn
import Mathlib.Algebra.BigOperators.Group.List.Basic
import Mathlib.Algebra.Order.Ring.Abs
import Mathlib.Tactic.Ring
import Mathlib.Tactic.Linarith
import Mathlib.Tactic.Positivity

/-! Helper lemmas on `emax`. -/

set_option linter.unusedSectionVars false

namespace Respy

section
variable {K : Type _} [Field K] [LinearOrder K]

theorem valueFunctions_ofFn (delta : K) {n : Nat} (w m c e : Fin n → K) :
    valueFunctions delta (List.ofFn w) (List.ofFn m) (List.ofFn c) (List.ofFn e) =
      List.ofFn fun j => w j * e j + m j + delta * c j := by
  induction n with
  | zero => simp [valueFunctions]
  | succ n ih => simp [List.ofFn_succ, valueFunctions, kwUtility, ih]

theorem maxValue_aux (vs : List K) (m0 : K) :
    let m := vs.foldl (fun m v => if v > m then v else m) m0
    m0 ≤ m ∧ (∀ v ∈ vs, v ≤ m) ∧ (m = m0 ∨ m ∈ vs) := by
  induction vs generalizing m0 with
  | nil => simp
  | cons v vs ih =>
    simp only [List.foldl_cons]
    obtain ⟨h1, h2, h3⟩ := ih (if v > m0 then v else m0)
    have hv : v ≤ if v > m0 then v else m0 := by
      split
      · exact le_rfl
      · rename_i h; exact not_lt.1 h
    have hm : m0 ≤ if v > m0 then v else m0 := by
      split
      · rename_i h; exact le_of_lt h
      · exact le_rfl
    refine ⟨hm.trans h1, ?_, ?_⟩
    · intro x hx
      rcases List.mem_cons.1 hx with rfl | hx
      · exact hv.trans h1
      · exact h2 x hx
    · rcases h3 with h3 | h3
      · by_cases h : v > m0
        · rw [if_pos h] at h3 ⊢
          exact Or.inr (by simp [h3])
        · rw [if_neg h] at h3 ⊢
          exact Or.inl h3
      · exact Or.inr (List.mem_cons_of_mem _ h3)

/-- The running maximum is the least upper bound of `0` and the values. -/
theorem maxValue_le_iff (vs : List K) (x : K) :
    maxValue vs ≤ x ↔ 0 ≤ x ∧ ∀ v ∈ vs, v ≤ x := by
  obtain ⟨h1, h2, h3⟩ := maxValue_aux vs 0
  constructor
  · intro h
    exact ⟨h1.trans h, fun v hv => (h2 v hv).trans h⟩
  · rintro ⟨h0, hv⟩
    rcases h3 with h3 | h3
    · exact h3.le.trans h0
    · exact hv _ h3

theorem maxValue_nonneg (vs : List K) : 0 ≤ maxValue vs := (maxValue_aux vs 0).1
theorem le_maxValue (vs : List K) (v : K) (h : v ∈ vs) : v ≤ maxValue vs :=
  (maxValue_aux vs 0).2.1 v h

theorem foldl_add_eq_sum {α : Type _} (f : α → K) (l : List α) (a : K) :
    l.foldl (fun acc x => acc + f x) a = a + (l.map f).sum := by
  induction l generalizing a with
  | nil => simp
  | cons x l ih => simp [ih, add_assoc]

theorem emax_eq_sum (ws ms cs : List K) (draws : List (List K)) (delta : K) :
    emax ws ms cs draws delta =
      (draws.map fun d => maxValue (valueFunctions delta ws ms cs d)).sum / (draws.length : K) := by
  rw [emax, foldl_add_eq_sum, zero_add]

end

section
variable {K : Type _} [Field K] [LinearOrder K] [IsStrictOrderedRing K]

theorem sum_map_le {α : Type _} (l : List α) (f g : α → K) (h : ∀ x ∈ l, f x ≤ g x) :
    (l.map f).sum ≤ (l.map g).sum := by
  induction l with
  | nil => simp
  | cons x l ih =>
    simp only [List.map_cons, List.sum_cons]
    exact add_le_add (h x (by simp)) (ih fun y hy => h y (List.mem_cons_of_mem _ hy))

theorem sum_map_lt {α : Type _} (l : List α) (f g : α → K) (h : ∀ x ∈ l, f x ≤ g x)
    (hs : ∃ x ∈ l, f x < g x) : (l.map f).sum < (l.map g).sum := by
  induction l with
  | nil => simp at hs
  | cons x l ih =>
    simp only [List.map_cons, List.sum_cons]
    obtain ⟨y, hy, hlt⟩ := hs
    rcases List.mem_cons.1 hy with rfl | hy
    · exact add_lt_add_of_lt_of_le hlt (sum_map_le l f g fun z hz => h z (List.mem_cons_of_mem _ hz))
    · exact add_lt_add_of_le_of_lt (h x (by simp))
        (ih (fun z hz => h z (List.mem_cons_of_mem _ hz)) ⟨y, hy, hlt⟩)

/-- Pointwise larger values with slack `e` on every draw. -/
theorem emax_le_emax_add (ws ms cs ms' cs' : List K) (draws : List (List K)) (delta e : K)
    (he : 0 ≤ e)
    (h : ∀ d ∈ draws, ∀ (j : Nat) v, (valueFunctions delta ws ms cs d)[j]? = some v →
      ∃ v', (valueFunctions delta ws ms' cs' d)[j]? = some v' ∧ v ≤ v' + e) :
    emax ws ms cs draws delta ≤ emax ws ms' cs' draws delta + e := by
  rw [emax_eq_sum, emax_eq_sum]
  rcases draws with _ | ⟨d0, ds⟩
  · simpa using he
  · generalize hdr : d0 :: ds = draws at h
    have hpos : (0 : K) < (draws.length : K) := by
      rw [← hdr]; exact_mod_cast Nat.succ_pos _
    rw [div_add' _ _ _ hpos.ne', div_le_div_iff_of_pos_right hpos]
    have : (draws.map fun d => maxValue (valueFunctions delta ws ms' cs' d)).sum +
        e * (draws.length : K) =
        (draws.map fun d => maxValue (valueFunctions delta ws ms' cs' d) + e).sum := by
      rw [List.sum_map_add]
      simp [mul_comm]
    rw [this]
    apply sum_map_le
    intro d hd
    rw [maxValue_le_iff]
    constructor
    · have := maxValue_nonneg (valueFunctions delta ws ms' cs' d)
      linarith
    · intro v hv
      obtain ⟨j, hj⟩ := List.mem_iff_getElem?.1 hv
      obtain ⟨v', hv', hle⟩ := h d hd j v hj
      have := le_maxValue _ _ (List.mem_of_getElem? hv')
      linarith

end
end Respy
