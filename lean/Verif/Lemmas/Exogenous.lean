import Verif.Model.Exogenous
import Verif.Lemmas.MapM
import Mathlib.Algebra.BigOperators.Group.List.Basic

/-! Helper lemmas on choice sets and weighted continuation values. -/

set_option linter.unusedSectionVars false

namespace Respy

theorem validChoices_nil : validChoices [] = [] := rfl

theorem validChoices_cons (b : Bool) (bs : List Bool) :
    validChoices (b :: bs) = (if b then [0] else []) ++ (validChoices bs).map (· + 1) := by
  unfold validChoices
  rw [List.length_cons, List.range_succ_eq_map, List.filter_cons]
  simp only [List.getElem?_cons_zero, Option.some.injEq, decide_eq_true_eq]
  rw [List.filter_map]
  have : (fun i => decide ((b :: bs)[i]? = some true)) ∘ Nat.succ =
      fun i => decide (bs[i]? = some true) := by
    funext i; simp
  rw [this]
  cases b <;> simp

theorem mem_validChoices (cs : List Bool) (a : Nat) : a ∈ validChoices cs ↔ cs[a]? = some true := by
  simp only [validChoices, List.mem_filter, List.mem_range, decide_eq_true_eq, and_iff_right_iff_imp]
  intro h
  exact (List.getElem?_eq_some_iff.1 h).1

theorem validChoices_nodup (cs : List Bool) : (validChoices cs).Nodup := List.nodup_range.filter _

theorem validChoices_sorted (cs : List Bool) : (validChoices cs).Pairwise (· < ·) :=
  List.pairwise_lt_range.filter _

theorem length_validChoices (cs : List Bool) : (validChoices cs).length = cs.count true := by
  induction cs with
  | nil => rfl
  | cons b bs ih =>
    rw [validChoices_cons]
    cases b <;> simp [ih]

theorem boolIndex_eq {α : Type _} (mask : List Bool) (xs : List α) (h : mask.length = xs.length) :
    boolIndex mask xs = some ((validChoices mask).filterMap fun i => xs[i]?) := by
  rw [boolIndex, if_pos h]
  congr 1
  induction mask generalizing xs with
  | nil => simp [validChoices_nil]
  | cons b bs ih =>
    cases xs with
    | nil => simp at h
    | cons x xs =>
      rw [validChoices_cons, List.zip_cons_cons, List.filterMap_cons, List.filterMap_append,
        List.filterMap_map]
      have hfun : ((fun i => (x :: xs)[i]?) ∘ fun i => i + 1) = fun i => xs[i]? := by
        funext i; simp
      rw [hfun, ih xs (by simpa using h)]
      cases b <;> simp

/-- Boolean indexing of columns labelled by the choices of `rep` with the mask
`choice_set[rep]` selects the columns of the choices in `cs`. -/
theorem boolIndex_representation {α : Type _} (rep cs : List Bool) (hlen : rep.length = cs.length)
    (hsub : ∀ j : Nat, cs[j]? = some true → rep[j]? = some true) (x : Nat → α) :
    (representationCols rep cs).bind (fun mask => boolIndex mask ((validChoices rep).map x)) =
      some ((validChoices cs).map x) := by
  induction rep generalizing cs x with
  | nil =>
    cases cs with
    | nil => rfl
    | cons _ _ => simp at hlen
  | cons r rep ih =>
    cases cs with
    | nil => simp at hlen
    | cons c cs =>
      have ih' := ih cs (by simpa using hlen) (fun j hj => by simpa using hsub (j + 1) (by simpa using hj))
        (fun a => x (a + 1))
      have hlen' : rep.length = cs.length := by simpa using hlen
      unfold representationCols at ih' ⊢
      unfold boolIndex at ih' ⊢
      rw [if_pos hlen, Option.bind_some]
      rw [if_pos hlen', Option.bind_some] at ih'
      rw [validChoices_cons, validChoices_cons]
      cases r with
      | false =>
        cases c with
        | false =>
          simpa [List.map_map, Function.comp_def] using ih'
        | true =>
          have := hsub 0 (by simp)
          simp at this
      | true =>
        simp only [if_true, List.cons_append, List.nil_append, List.map_cons, List.map_map,
          List.zip_cons_cons, List.filterMap_cons, List.length_cons, Nat.add_right_cancel_iff]
        simp only [Function.comp_def]
        split at ih'
        · rename_i hl
          simp only [Option.some.injEq] at ih'
          cases c <;> simp [hl, ih', List.map_map, Function.comp_def]
        · cases ih'

variable {K : Type _} [Field K]

theorem zipWith_map_map {α : Type _} (vs : List α) (f g : α → K) :
    List.zipWith (· + ·) (vs.map f) (vs.map g) = vs.map fun a => f a + g a := by
  induction vs with
  | nil => rfl
  | cons v vs ih => simp [ih]

theorem reduceAdd_map {α β : Type _} (vs : List α) (g : β → α → K) (fs : List β) (hne : fs ≠ []) :
    reduceAdd (fs.map fun f => vs.map (g f)) = some (vs.map fun a => (fs.map fun f => g f a).sum) := by
  cases fs with
  | nil => exact absurd rfl hne
  | cons f fs =>
    simp only [List.map_cons, reduceAdd]
    rw [if_pos (by simp)]
    congr 1
    have : ∀ (h : α → K), List.foldl (List.zipWith (· + ·)) (vs.map h) (fs.map fun f => vs.map (g f)) =
        vs.map fun a => h a + (fs.map fun f => g f a).sum := by
      induction fs with
      | nil => intro h; simp
      | cons f' fs ih =>
        intro h
        simp only [List.map_cons, List.foldl_cons, zipWith_map_map, List.sum_cons]
        rw [ih (by simp)]
        apply List.map_congr_left
        intro a _
        rw [add_assoc]
    rw [this]
    simp

theorem mapM_eq_some_map {α β : Type _} (f : α → Option β) (g : α → β) (l : List α)
    (h : ∀ a ∈ l, f a = some (g a)) : l.mapM f = some (l.map g) := by
  induction l with
  | nil => rfl
  | cons a l ih =>
    rw [List.mapM_cons, h a (by simp), ih fun b hb => h b (List.mem_cons_of_mem _ hb)]
    rfl

theorem foldl_zipWith_or_length (rest : List (List Bool)) (cs : List Bool)
    (h : ∀ c ∈ rest, c.length = cs.length) :
    (rest.foldl (List.zipWith (· || ·)) cs).length = cs.length := by
  induction rest generalizing cs with
  | nil => rfl
  | cons r rest ih =>
    have hr := h r (by simp)
    have hl : (List.zipWith (· || ·) cs r).length = cs.length := by simp [hr]
    rw [List.foldl_cons, ih _ (fun c hc => by rw [hl]; exact h c (List.mem_cons_of_mem _ hc)), hl]

theorem foldl_zipWith_or (rest : List (List Bool)) (cs : List Bool)
    (h : ∀ c ∈ rest, c.length = cs.length) (j : Nat) :
    (rest.foldl (List.zipWith (· || ·)) cs)[j]? = some true ↔
      cs[j]? = some true ∨ ∃ c ∈ rest, c[j]? = some true := by
  induction rest generalizing cs with
  | nil => simp
  | cons r rest ih =>
    have hr := h r (by simp)
    have hl : (List.zipWith (· || ·) cs r).length = cs.length := by simp [hr]
    rw [List.foldl_cons, ih _ (fun c hc => by rw [hl]; exact h c (List.mem_cons_of_mem _ hc))]
    have : (List.zipWith (· || ·) cs r)[j]? = some true ↔ cs[j]? = some true ∨ r[j]? = some true := by
      rw [List.getElem?_zipWith]
      by_cases hj : j < cs.length
      · rw [List.getElem?_eq_getElem hj, List.getElem?_eq_getElem (hr ▸ hj)]
        simp
      · rw [List.getElem?_eq_none (by omega), List.getElem?_eq_none (by omega)]
        simp
    rw [this]
    simp only [List.mem_cons, exists_eq_or_imp]
    tauto

theorem maximalChoiceSet_spec (sets : List (List Bool)) (m : List Bool)
    (h : maximalChoiceSet sets = some m) :
    (∀ c ∈ sets, c.length = m.length) ∧
      ∀ j : Nat, m[j]? = some true ↔ ∃ c ∈ sets, c[j]? = some true := by
  cases sets with
  | nil => simp [maximalChoiceSet] at h
  | cons cs rest =>
    simp only [maximalChoiceSet] at h
    split at h
    · rename_i hl
      cases h
      refine ⟨?_, ?_⟩
      · intro c hc
        rw [foldl_zipWith_or_length rest cs hl]
        rcases List.mem_cons.1 hc with rfl | hc
        · rfl
        · exact hl c hc
      · intro j
        rw [foldl_zipWith_or rest cs hl]
        simp only [List.mem_cons, exists_eq_or_imp]
    · cases h

end Respy
