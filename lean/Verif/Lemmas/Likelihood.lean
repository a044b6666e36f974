import Verif.Model.Likelihood
import Verif.Lemmas.Shocks
import Verif.Lemmas.Solve4
import Verif.Lemmas.MapM
import Verif.Lemmas.Emax
import Mathlib.Algebra.Order.BigOperators.Group.List
import Mathlib.Algebra.BigOperators.Fin
import Mathlib.Tactic.Ring
import Mathlib.Tactic.Linarith
import Mathlib.Tactic.FieldSimp

/-! # Lemmas about the likelihood -/

namespace Respy

theorem runningMax_some (m : ℝ) (xs : List ℝ) :
    ∃ r, runningMax (some m) xs = some r ∧ (r = m ∨ r ∈ xs) ∧ m ≤ r ∧ ∀ x ∈ xs, x ≤ r := by
  induction xs generalizing m with
  | nil => exact ⟨m, rfl, Or.inl rfl, le_refl _, by simp⟩
  | cons x xs ih =>
    obtain ⟨r, hr, hmem, hle, hall⟩ := ih (if x > m then x else m)
    refine ⟨r, by simpa only [runningMax] using hr, ?_, ?_, ?_⟩
    · rcases hmem with h | h
      · split at h
        · exact Or.inr (by simp [h])
        · exact Or.inl h
      · exact Or.inr (List.mem_cons_of_mem _ h)
    · split at hle
      · rename_i hlt; exact le_trans (le_of_lt hlt) hle
      · exact hle
    · intro y hy
      rcases List.mem_cons.1 hy with rfl | hy
      · split at hle
        · exact hle
        · rename_i hlt; exact le_trans (not_lt.1 hlt) hle
      · exact hall y hy

theorem runningMax_none (xs : List ℝ) (h : xs ≠ []) :
    ∃ r, runningMax none xs = some r ∧ r ∈ xs ∧ ∀ x ∈ xs, x ≤ r := by
  cases xs with
  | nil => exact absurd rfl h
  | cons x xs =>
    obtain ⟨r, hr, hmem, hle, hall⟩ := runningMax_some x xs
    refine ⟨r, by simpa only [runningMax] using hr, ?_, ?_⟩
    · rcases hmem with rfl | h
      · exact List.mem_cons_self
      · exact List.mem_cons_of_mem _ h
    · intro y hy
      rcases List.mem_cons.1 hy with rfl | hy
      · exact hle
      · exact hall y hy

theorem foldl_add_exp (xs : List ℝ) (a : ℝ) :
    xs.foldl (fun acc d => acc + Real.exp d) a = a + (xs.map Real.exp).sum := by
  induction xs generalizing a with
  | nil => simp
  | cons x xs ih => simp only [List.foldl_cons, ih, List.map_cons, List.sum_cons]; ring

theorem sumExp_eq (xs : List ℝ) : sumExp xs = (xs.map Real.exp).sum := by
  unfold sumExp; rw [foldl_add_exp]; simp

theorem sum_map_exp_pos (xs : List ℝ) (h : xs ≠ []) : 0 < (xs.map Real.exp).sum := by
  apply List.sum_pos
  · intro y hy
    obtain ⟨x, _, rfl⟩ := List.mem_map.1 hy
    exact Real.exp_pos x
  · simpa using h

theorem sumExp_expDiffs (m : ℝ) (xs : List ℝ) :
    sumExp (expDiffs m xs) = (xs.map Real.exp).sum * Real.exp (-m) := by
  rw [sumExp_eq, expDiffs, List.map_map]
  induction xs with
  | nil => simp
  | cons x xs ih =>
    rw [List.map_cons, List.map_cons, List.sum_cons, List.sum_cons, ih, Function.comp,
      sub_eq_add_neg, Real.exp_add]
    ring

theorem logSumExp_eq (xs : List ℝ) (h : xs ≠ []) :
    logSumExp xs = some (Real.log (xs.map Real.exp).sum) := by
  obtain ⟨r, hr, _, _⟩ := runningMax_none xs h
  have hpos := sum_map_exp_pos xs h
  rw [logSumExp, hr, Option.map_some, sumExp_expDiffs,
    Real.log_mul hpos.ne' (Real.exp_pos _).ne', Real.log_exp]
  congr 1
  ring

theorem logSumExp_nil : logSumExp [] = none := rfl

theorem drawLogProb_ofFn (delta tau : ℝ) {n : Nat} (w m c e : Fin n → ℝ) (k : Fin n) :
    drawLogProb delta tau (List.ofFn w) (List.ofFn m) (List.ofFn c) (List.ofFn e) k =
      some (Real.log (Real.exp ((w k * e k + m k + delta * c k) / tau) /
        ∑ j, Real.exp ((w j * e j + m j + delta * c j) / tau))) := by
  have hn : 0 < n := Nat.lt_of_le_of_lt (Nat.zero_le _) k.2
  unfold drawLogProb
  rw [valueFunctions_ofFn, List.map_ofFn]
  have hne : List.ofFn ((fun v => v / tau) ∘ fun j => w j * e j + m j + delta * c j) ≠ [] := by
    rw [Ne, List.ofFn_eq_nil_iff]; omega
  simp only [List.getElem?_ofFn, k.2, dite_true, logSumExp_eq _ hne, List.map_ofFn,
    Option.bind_eq_bind, Option.bind_some, Function.comp]
  rw [Real.log_div (Real.exp_pos _).ne', Real.log_exp, List.sum_ofFn]
  · rfl
  · have : 0 < ∑ j, Real.exp ((w j * e j + m j + delta * c j) / tau) :=
      Finset.sum_pos (fun j _ => Real.exp_pos _) ⟨k, Finset.mem_univ _⟩
    exact this.ne'

theorem mapM_ofFn_some {α β : Type _} {n : Nat} (f : Fin n → α) (g : α → Option β) (h : Fin n → β)
    (H : ∀ i, g (f i) = some (h i)) : (List.ofFn f).mapM g = some (List.ofFn h) := by
  induction n with
  | zero => simp
  | succ n ih =>
    rw [List.ofFn_succ, List.ofFn_succ, List.mapM_cons, H 0,
      ih (fun i => f i.succ) (fun i => h i.succ) (fun i => H i.succ)]
    rfl

theorem simulatedLogProb_ofFn (delta tau : ℝ) {n D : Nat} (hD : 0 < D) (w m c : Fin n → ℝ)
    (e : Fin D → Fin n → ℝ) (k : Fin n) :
    simulatedLogProb delta tau (List.ofFn w) (List.ofFn m) (List.ofFn c)
      (List.ofFn fun d => List.ofFn (e d)) k =
      some (Real.log ((∑ d, Real.exp ((w k * e d k + m k + delta * c k) / tau) /
        ∑ j, Real.exp ((w j * e d j + m j + delta * c j) / tau)) / D)) := by
  unfold simulatedLogProb
  rw [mapM_ofFn_some _ _ _ (fun d => drawLogProb_ofFn delta tau w m c (e d) k)]
  have hne : ∀ f : Fin D → ℝ, List.ofFn f ≠ [] := by
    intro f; rw [Ne, List.ofFn_eq_nil_iff]; omega
  simp only [Option.bind_eq_bind, Option.bind_some, logSumExp_eq _ (hne _), List.map_ofFn,
    List.length_ofFn]
  have hp : ∀ d, 0 < Real.exp ((w k * e d k + m k + delta * c k) / tau) /
        ∑ j, Real.exp ((w j * e d j + m j + delta * c j) / tau) := fun d =>
    div_pos (Real.exp_pos _) (Finset.sum_pos (fun j _ => Real.exp_pos _) ⟨k, Finset.mem_univ _⟩)
  have hs : 0 < ∑ d, Real.exp ((w k * e d k + m k + delta * c k) / tau) /
        ∑ j, Real.exp ((w j * e d j + m j + delta * c j) / tau) :=
    Finset.sum_pos (fun d _ => hp d) ⟨⟨0, hD⟩, Finset.mem_univ _⟩
  rw [Real.log_div hs.ne' (by exact_mod_cast hD.ne'), List.sum_ofFn]
  simp only [Function.comp, Real.exp_log (hp _)]
  rfl

/-! ### Choice codes -/

theorem takeWhile_lt_of_sorted (l : List Nat) (hs : l.Pairwise (· < ·)) (i a : Nat)
    (h : l[i]? = some a) : (l.takeWhile fun k => k < a).length = i := by
  induction l generalizing i with
  | nil => simp at h
  | cons x l ih =>
    rw [List.pairwise_cons] at hs
    cases i with
    | zero =>
      simp only [List.getElem?_cons_zero, Option.some.injEq] at h
      subst h
      simp
    | succ i =>
      simp only [List.getElem?_cons_succ] at h
      have hx : x < a := hs.1 a (List.mem_of_getElem? h)
      simp [hx, ih hs.2 i h]

theorem mapChoiceCode_valid (cs : List Bool) (a : Nat) (h : cs[a]? = some true) :
    mapChoiceCode cs a = some (positionIn cs a) := by
  have hv := validChoices_positionIn cs a h
  have hlt := (List.getElem?_eq_some_iff.1 hv).1
  unfold mapChoiceCode searchsortedLeft
  rw [takeWhile_lt_of_sorted _ (validChoices_sorted cs) _ _ hv, List.getElem?_range hlt]

theorem mapChoiceCode_eq_none_iff (cs : List Bool) (a : Nat) :
    mapChoiceCode cs a = none ↔ ∀ b, cs[b]? = some true → b < a := by
  unfold mapChoiceCode searchsortedLeft
  rw [List.getElem?_eq_none_iff, List.length_range]
  have key : ∀ l : List Nat, l.length ≤ (l.takeWhile fun k => k < a).length ↔ ∀ b ∈ l, b < a := by
    intro l
    induction l with
    | nil => simp
    | cons x l ih =>
      by_cases hx : x < a
      · simp only [List.takeWhile_cons, hx, decide_true, if_true, List.length_cons,
          Nat.add_le_add_iff_right, List.mem_cons, forall_eq_or_imp, true_and]
        exact ih
      · simp [hx]
  rw [key]
  simp only [mem_validChoices]

/-- The code of an unavailable alternative is mapped to the position of the next available one. -/
theorem mapChoiceCode_some (cs : List Bool) (a i : Nat) (h : mapChoiceCode cs a = some i) :
    ∃ b, cs[b]? = some true ∧ i = positionIn cs b ∧ a ≤ b ∧
      ∀ b', cs[b']? = some true → a ≤ b' → b ≤ b' := by
  unfold mapChoiceCode searchsortedLeft at h
  obtain ⟨hlt, hi⟩ := List.getElem?_eq_some_iff.1 h
  rw [List.getElem_range] at hi
  rw [List.length_range] at hlt
  subst hi
  have key : ∀ (l : List Nat), l.Pairwise (· < ·) →
      ∀ h : (l.takeWhile fun k => k < a).length < l.length,
      a ≤ l[(l.takeWhile fun k => k < a).length] ∧ ∀ b' ∈ l, a ≤ b' →
        l[(l.takeWhile fun k => k < a).length] ≤ b' := by
    intro l hs h
    induction l with
    | nil => simp at h
    | cons x l ih =>
      rw [List.pairwise_cons] at hs
      by_cases hx : x < a
      · simp only [List.takeWhile_cons, hx, decide_true, if_true, List.length_cons,
          Nat.add_lt_add_iff_right] at h
        obtain ⟨h1, h2⟩ := ih hs.2 h
        simp only [List.takeWhile_cons, hx, decide_true, if_true, List.length_cons,
          List.getElem_cons_succ]
        refine ⟨h1, fun b' hb' hab => ?_⟩
        rcases List.mem_cons.1 hb' with rfl | hb'
        · omega
        · exact h2 b' hb' hab
      · simp only [List.takeWhile_cons, hx, decide_false, Bool.false_eq_true, if_false,
          List.length_nil, List.getElem_cons_zero]
        refine ⟨by omega, fun b' hb' hab => ?_⟩
        rcases List.mem_cons.1 hb' with rfl | hb'
        · exact le_refl _
        · exact le_of_lt (hs.1 _ hb')
  obtain ⟨h1, h2⟩ := key _ (validChoices_sorted cs) hlt
  have hmem : cs[(validChoices cs)[((validChoices cs).takeWhile fun k => k < a).length]]? = some true :=
    (mem_validChoices _ _).1 (List.getElem_mem _)
  refine ⟨_, hmem, ?_, h1, fun b' hb' hab => h2 b' ((mem_validChoices _ _).2 hb') hab⟩
  have hv := validChoices_positionIn cs _ hmem
  obtain ⟨hl, hg⟩ := List.getElem?_eq_some_iff.1 hv
  exact ((validChoices_nodup cs).getElem_inj_iff.1 hg).symm

end Respy
