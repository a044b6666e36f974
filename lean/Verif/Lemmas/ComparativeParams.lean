import Verif.Lemmas.Comparative
import Verif.Lemmas.SolveFunction
import Verif.Props.Choices
import Verif.Props.ProcessModel

/-!
# Lemmas on parameters with larger rewards
-/

namespace Respy

variable {θ θ' : Dict (Str × Str) ℝ} {env : ProcessEnv} {ev : FormulaEval} {m : UserModel} {p q q' : Processed}

theorem RaisesRewards.index (h : RaisesRewards θ θ') : θ.map Prod.fst = θ'.map Prod.fst := by
  unfold RaisesRewards at h
  induction h with
  | nil => rfl
  | cons hx _ ih => rw [List.map_cons, List.map_cons, hx.1, ih]

theorem RaisesRewards.get? (h : RaisesRewards θ θ') (k : Str × Str) :
    Option.Rel (fun x y => x ≤ y ∧ (¬ IsReward k.1 → x = y)) (Dict.get? θ k) (Dict.get? θ' k) := by
  unfold RaisesRewards at h
  induction h with
  | nil => exact .none
  | @cons x y l l' hx _ ih =>
    unfold Dict.get?
    by_cases hk : x.1 = k
    · rw [if_pos hk, if_pos (hx.1 ▸ hk)]
      exact .some ⟨hx.2.1, hk ▸ hx.2.2⟩
    · rw [if_neg hk, if_neg (hx.1 ▸ hk)]
      exact ih

theorem RaisesRewards.filter (h : RaisesRewards θ θ') (f : Str × Str → Bool) :
    RaisesRewards (θ.filter fun x => f x.1) (θ'.filter fun x => f x.1) := by
  unfold RaisesRewards at h ⊢
  induction h with
  | nil => exact .nil
  | @cons x y l l' hx _ ih =>
    rw [List.filter_cons, List.filter_cons, ← hx.1]
    cases f x.1
    · exact ih
    · exact .cons hx ih

theorem RaisesRewards.eq (h : RaisesRewards θ θ') (hn : ∀ x ∈ θ, ¬ IsReward x.1.1) : θ = θ' := by
  unfold RaisesRewards at h
  induction h with
  | nil => rfl
  | @cons x y l l' hx _ ih =>
    rw [ih fun z hz => hn z (by simp [hz])]
    congr 1
    exact Prod.ext hx.1 (hx.2.2 (hn x (by simp)))

theorem RaisesRewards.ofCategory (h : RaisesRewards θ θ') (c : String) (hc : ¬ IsReward c.toList) :
    ofCategory θ c = ofCategory θ' c := by
  unfold Respy.ofCategory
  rw [(h.filter fun k => decide (k.1 = c.toList)).eq]
  intro x hx
  have := (List.mem_filter.1 hx).2
  rw [decide_eq_true_eq] at this
  rw [this]; exact hc

theorem RaisesRewards.hasCategory (h : RaisesRewards θ θ') (c : String) : hasCategory θ c = hasCategory θ' c := by
  have key : ∀ θ : Dict (Str × Str) ℝ, Respy.hasCategory θ c =
      (θ.map Prod.fst).any fun k => decide (k.1 = c.toList) := by
    intro θ
    rw [List.any_map]; rfl
  rw [key, key, h.index]

theorem RaisesRewards.parseShocks (h : RaisesRewards θ θ') : parseShocks θ = parseShocks θ' := by
  have hno : ∀ c ∈ ["shocks_sdcorr", "shocks_cov", "shocks_chol"], ¬ IsReward c.toList := by
    intro c hc
    simp only [List.mem_cons, List.not_mem_nil, or_false] at hc
    unfold IsReward
    rcases hc with rfl | rfl | rfl <;> exact of_decide_eq_true (by decide +kernel)
  unfold Respy.parseShocks
  dsimp only
  rw [h.ofCategory _ (hno "shocks_sdcorr" (by simp)), h.ofCategory _ (hno "shocks_cov" (by simp)),
    h.ofCategory _ (hno "shocks_chol" (by simp)), h.hasCategory, h.hasCategory, h.hasCategory,
    show (fun c => Respy.hasCategory θ c) = fun c => Respy.hasCategory θ' c from funext h.hasCategory]

theorem RaisesRewards.sum_le (h : RaisesRewards θ θ') (f : Str × Str → Bool) (g : Str → ℝ)
    (hg : ∀ x ∈ θ, ∀ y ∈ θ', x.1 = y.1 → x.2 ≠ y.2 → f x.1 = true → 0 ≤ g x.1.2) :
    ((θ.filter fun x => f x.1).map fun x => x.2 * g x.1.2).sum ≤
      ((θ'.filter fun x => f x.1).map fun x => x.2 * g x.1.2).sum := by
  unfold RaisesRewards at h
  induction h with
  | nil => simp
  | @cons x y l l' hx _ ih =>
    have hih := ih fun z hz u hu => hg z (by simp [hz]) u (by simp [hu])
    rw [List.filter_cons, List.filter_cons, ← hx.1]
    cases hf : f x.1 with
    | false => exact hih
    | true =>
      simp only [if_true, List.map_cons, List.sum_cons, ← hx.1]
      refine add_le_add ?_ hih
      by_cases he : x.2 = y.2
      · rw [he]
      · exact mul_le_mul_of_nonneg_right hx.2.1 (hg x (by simp) y (by simp) hx.1 he hf)

/-- An alternative with parameters of a wage belongs to the alternatives with a wage. -/
theorem wage_position (hp : processModel env m = some p) (a : Nat) (c : Str) (hc : p.choices.choices[a]? = some c)
    (h : ∃ x ∈ m.params, x.1.1 = "wage_".toList ++ c) : a < p.choices.wWage.length := by
  obtain ⟨covs, hfrom⟩ := processModel_from env m p hp
  have hch := hfrom.choices
  obtain ⟨hnd, hmem⟩ := C46_unique_codes (m.params.map Prod.fst) covs
  obtain ⟨hw, hpre1, hpre2, _⟩ := C46_order (m.params.map Prod.fst) covs
  rw [hch] at hc ⊢
  have hcm := (hmem c).1 (List.mem_of_getElem? hc)
  have hname : c ≠ [] ∧ ∀ x ∈ c, x ∈ nameCharacters := by
    rcases hcm with h' | h'
    · exact ⟨((C46_categories_sound _ _).1 h').1, ((C46_categories_sound _ _).1 h').2.1⟩
    · exact ⟨((C46_categories_sound _ _).2 h').1, ((C46_categories_sound _ _).2 h').2.1⟩
  have hmw : c ∈ (parseChoices (m.params.map Prod.fst) covs).wWage := by
    refine (hw c).2 ((C46_categories _ _ hname.1 hname.2).1 ?_)
    obtain ⟨x, hx, he⟩ := h
    exact ⟨x.1, List.mem_map_of_mem (f := Prod.fst) hx, he⟩
  obtain ⟨i, hi⟩ := List.mem_iff_getElem?.1 hmw
  have hlt := (List.getElem?_eq_some_iff.1 hi).1
  have hi' : (parseChoices (m.params.map Prod.fst) covs).choices[i]? = some c := by
    obtain ⟨t, ht⟩ := hpre1.trans hpre2
    rw [← ht, List.getElem?_append_left hlt, hi]
  have := (List.nodup_iff_getElem?_ne_getElem? .. |>.1 hnd)
  rcases Nat.lt_trichotomy a i with hai | rfl | hai
  · omega
  · exact hlt
  · exact absurd (hi'.trans hc.symm) (this i a hai (List.getElem?_eq_some_iff.1 hc).1)

/-- Larger coefficients of nonnegative covariates raise the utility of every alternative. -/
theorem RaisesRewards.flows (h : RaisesRewards θ θ') (hq : processModel env { m with params := θ } = some q)
    (hq' : processModel env { m with params := θ' } = some q') (senv : SolveEnv) (core : List CoreState)
    (hs : SameStructure q q')
    (hpos : ∀ d ∈ (q.buildSpec ev).denseIndices, ∀ s ∈ core, ∀ x ∈ θ, ∀ y ∈ θ', x.1 = y.1 → x.2 ≠ y.2 →
      x.1.1 ≠ "delta".toList → 0 ≤ (q.covariates ev d s x.1.2).getD 0) :
    FlowsRelated (· ≤ ·) (q.buildSpec ev) core (q.solveInput ev senv).wageOf
      (q.solveInput ev senv).nonpecOf (q.solveInput ev senv).shocks (q'.solveInput ev senv).wageOf
      (q'.solveInput ev senv).nonpecOf (q'.solveInput ev senv).shocks := by
  have hcholesky : q.cholesky = q'.cholesky := by
    obtain ⟨_, h1⟩ := processModel_from _ _ _ hq
    obtain ⟨_, h2⟩ := processModel_from _ _ _ hq'
    obtain ⟨sh, e1, e2⟩ := h1.shocks
    obtain ⟨sh', e1', e2'⟩ := h2.shocks
    dsimp only at e1 e1'
    rw [h.parseShocks, e1'] at e1
    cases e1
    rw [e2, e2']
  have hshocks : (q.solveInput ev senv).shocks = (q'.solveInput ev senv).shocks := by
    funext t cs
    unfold SolveInput.shocks SolveInput.baseOf Processed.solveInput
    simp only [hcholesky, hs.choices]
  intro d hd s hsc
  rw [← hshocks]
  rw [List.forall₂_same]
  intro e he a ha
  have halt : a < q.choices.choices.length := by
    have := (List.getElem?_eq_some_iff.1 ha).1
    cases d <;> simpa [BuildSpec.choiceSetAt, choiceSet, Processed.buildSpec, Processed.restrictions] using this
  have hc : q.choices.choices[a]? = some q.choices.choices[a] := List.getElem?_eq_getElem halt
  set c := q.choices.choices[a] with hcdef
  have hc' : q'.choices.choices[a]? = some c := by rw [← hs.choices]; exact hc
  have hne1 : ("wage_".toList ++ c) ≠ "delta".toList := by
    intro h
    have h' : some 'w' = some 'd' := congrArg List.head? h
    exact absurd h' (by decide)
  have hne2 : ("nonpec_".toList ++ c) ≠ "delta".toList := by
    intro h
    have h' : some 'n' = some 'd' := congrArg List.head? h
    exact absurd h' (by decide)
  unfold flowUtility
  rw [C82_wages_by_name hq senv d s a c hc, C82_wages_by_name hq' senv d s a c hc',
    C82_nonpecs_by_name hq senv d s a c hc, C82_nonpecs_by_name hq' senv d s a c hc', ← hs.covariates ev]
  dsimp only
  have h1 := h.sum_le (fun k => decide (k.1 = "wage_".toList ++ c)) (fun x => (q.covariates ev d s x).getD 0)
    fun x hx y hy hxy hne hf => by
      rw [decide_eq_true_eq] at hf
      exact hpos d hd s hsc x hx y hy hxy hne (hf ▸ hne1)
  have h2 := h.sum_le (fun k => decide (k.1 = "nonpec_".toList ++ c)) (fun x => (q.covariates ev d s x).getD 0)
    fun x hx y hy hxy hne hf => by
      rw [decide_eq_true_eq] at hf
      exact hpos d hd s hsc x hx y hy hxy hne (hf ▸ hne2)
  refine add_le_add ?_ h2
  by_cases hlt : a < q.choices.wWage.length
  · refine mul_le_mul_of_nonneg_right (Real.exp_le_exp.2 h1) ?_
    obtain ⟨z, _, rfl⟩ := List.mem_map.1 he
    unfold shockOf
    rw [if_pos (show a < (q.solveInput ev senv).nWages from hlt)]
    exact (Real.exp_pos _).le
  · have hnone : ∀ x ∈ θ, ¬ decide (x.1.1 = "wage_".toList ++ c) = true := by
      intro x hx hd
      rw [decide_eq_true_eq] at hd
      exact hlt (wage_position hq a c hc ⟨x, hx, hd⟩)
    have hnone' : ∀ x ∈ θ', ¬ decide (x.1.1 = "wage_".toList ++ c) = true := by
      intro x hx hd
      rw [decide_eq_true_eq] at hd
      have := wage_position hq' a c hc' ⟨x, hx, hd⟩
      rw [← hs.choices] at this
      exact hlt this
    rw [List.filter_eq_nil_iff.2 hnone, List.filter_eq_nil_iff.2 hnone']

end Respy
