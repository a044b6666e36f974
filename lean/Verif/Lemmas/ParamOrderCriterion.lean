import Verif.Lemmas.ParamOrderModel
import Verif.Lemmas.TypeOrder

/-!
# Models which differ in the order of coefficients have the same criterion function

Auxiliary results for C95.
-/

namespace Respy

theorem ReachedIn.of_start {D : Dict Str CovariateDef} {start start' : List Str} (h : ∀ x, x ∈ start → x ∈ start')
    {n : Nat} {k : Str} (hr : ReachedIn D start n k) : ReachedIn D start' n k := by
  induction hr with
  | start k hk => exact .start k (h k hk)
  | step n c d k _ hd hk ih => exact .step n c d k ih hd hk

theorem Graded.of_start {D : Dict Str CovariateDef} {start start' : List Str} {bound : Nat} (hg : Graded D start bound)
    (h : ∀ x, x ∈ start' → x ∈ start) : Graded D start' bound :=
  ⟨hg.nodup, fun k n m hk h1 h2 => hg.leaf k n m hk (h1.of_start h) (h2.of_start h),
    fun n k h1 => hg.finite n k (h1.of_start h)⟩

theorem SameCoefficients.get {L : Type _} [DecidableEq L] {d d' : Dict L (List (Str × ℝ))} (h : SameCoefficients d d')
    (k : L) : Option.Rel List.Perm (Dict.get? d k) (Dict.get? d' k) := by
  induction h with
  | nil => exact .none
  | @cons a b as bs hab _ ih =>
    rw [Dict.get?, Dict.get?, hab.1]
    split
    · exact .some hab.2
    · exact ih

theorem SameCoefficients.names {d d' : Dict Nat (List (Str × ℝ))} (h : SameCoefficients d d') (t : Nat) (x : Str) :
    x ∈ ((Dict.get? d t).getD []).map Prod.fst ↔ x ∈ ((Dict.get? d' t).getD []).map Prod.fst := by
  have := h.get t
  revert this
  generalize Dict.get? d t = a
  generalize Dict.get? d' t = b
  intro hab
  cases hab with
  | none => exact Iff.rfl
  | some hp => exact (hp.map Prod.fst).mem_iff

theorem xBetas_typeProb (e : Estimation Unit) (P : LikelihoodParams) {tp tp' : List (List (Str × ℝ))}
    (h : List.Forall₂ List.Perm tp tp') :
    e.xBetas { P with typeProb := tp } = e.xBetas { P with typeProb := tp' } := by
  funext id
  unfold Estimation.xBetas
  split
  · rfl
  · refine List.map_congr_left fun t _ => ?_
    dsimp only
    refine List.Perm.sum_eq ?_
    refine List.Perm.map _ ?_
    rw [List.getD_eq_getElem?_getD, List.getD_eq_getElem?_getD]
    induction h generalizing t with
    | nil => simp
    | cons hab _ ih =>
      cases t with
      | zero => simpa using hab
      | succ t => simpa using ih t (by simp at *; omega)

theorem logLike_typeProb (e : Estimation Unit) (P : LikelihoodParams) {tp tp' : List (List (Str × ℝ))}
    (h : List.Forall₂ List.Perm tp tp') :
    Estimation.logLike { e with params := fun _ => { P with typeProb := tp } } () =
      Estimation.logLike { e with params := fun _ => { P with typeProb := tp' } } () := by
  have hx := xBetas_typeProb e P h
  unfold Estimation.logLike
  congr 1
  funext sp
  congr 1
  funext rows
  congr 1
  exact congrArg (contributions e.lo e.hi e.nTypes rows e.identifiers) hx

section
variable {p q : Processed} {ev : FormulaEval}

theorem Processed.SameUpToOrder.nStatic (h : p.SameUpToOrder q) : p.nStatic = q.nStatic := by
  unfold Processed.nStatic
  rw [h.denseSpec]

theorem Processed.SameUpToOrder.typeCovariates (h : p.SameUpToOrder q) (ev : FormulaEval) :
    p.typeCovariates ev = q.typeCovariates ev := by
  funext r
  unfold Processed.typeCovariates Processed.observationFrame Processed.coreRow
  rw [h.nStatic, h.denseSpec, h.groups, h.choices]

theorem Processed.SameUpToOrder.typeFrame (h : p.SameUpToOrder q) (facts : GroupFacts p) (hf : p.FormulasSound ev)
    (hid : "identifier".toList ∉ Dict.keys p.groups.all)
    (e : EstimateEnv) (ho : ∀ n l, (e.order n l).Perm l) (r : EstimationRow) (t : Nat) (bound : Nat)
    (hg : Graded p.groups.all (((Dict.get? p.typeProb t).getD []).map Prod.fst) bound) (hfuel : bound + 1 ≤ e.fuel) :
    Option.Rel SameFrame (p.typeFrame ev e r t) (q.typeFrame ev e r t) := by
  unfold Processed.typeFrame
  rw [← h.typeCovariates, ← h.groups]
  cases hdf : p.typeCovariates ev r with
  | none => exact .none
  | some df =>
  have hn := h.typeProb.names t
  obtain ⟨found, N, a1, a2, a3, a4⟩ := necessary_definitions hg e.order ho
  obtain ⟨found', N', b1, b2, b3, b4⟩ := necessary_definitions (hg.of_start fun x hx => (hn x).2 hx) e.order ho
  simp only [Option.bind_eq_bind, Option.bind_some, a1 _ hfuel, b1 _ hfuel, Except.toOption, a2, b2]
  have hmem : ∀ c d, (c, d) ∈ N → (c, d) ∈ p.groups.all := fun c d hcd =>
    Dict.mem_of_get? _ _ _ ((a4 c d).1 hcd).2
  refine computeCovariates_same true (SameFrame.refl _) ?_ ?_ a3 b3 (fun c hc => ?_)
    fun c d hcd => hf.accurate c d (hmem c d hcd)
  · intro c d hcd
    obtain ⟨⟨⟨n, h1⟩, h2⟩, h3⟩ := (a4 c d).1 hcd
    exact ⟨d, (b4 c d).2 ⟨⟨⟨n, h1.of_start fun x => (hn x).1⟩, h2⟩, h3⟩, rfl, fun _ => Iff.rfl⟩
  · intro c d hcd
    obtain ⟨⟨⟨n, h1⟩, h2⟩, h3⟩ := (b4 c d).1 hcd
    exact ⟨d, (a4 c d).2 ⟨⟨⟨n, h1.of_start fun x => (hn x).2⟩, h2⟩, h3⟩, rfl, fun _ => Iff.rfl⟩
  · have hindex := typeCovariates_index facts.core_nodup (fun c d => facts.core_sub (c, d)) hf hid r df hdf
    obtain ⟨⟨c', d⟩, hm, rfl⟩ := List.mem_map.1 hc
    rw [hindex, Dict.get?_eq_none_iff]
    intro hk
    have hk' : c' ∈ Dict.keys p.groups.all := List.mem_map.2 ⟨_, hmem _ _ hm, rfl⟩
    simp only [Dict.keys, List.map_cons, List.map_nil, List.mem_cons, List.not_mem_nil, or_false] at hk
    rcases hk with rfl | rfl
    · exact hid hk'
    · exact hf.names _ (List.mem_append_left _ (by simp [coreColumns])) hk'

/-- The criterion does not depend on the order of coefficients. -/
theorem Processed.SameUpToOrder.logLike (h : p.SameUpToOrder q) (facts : GroupFacts p) (hf : p.FormulasSound ev)
    (hid : "identifier".toList ∉ Dict.keys p.groups.all) (e : EstimateEnv) (ho : ∀ n l, (e.order n l).Perm l)
    (hg : ∀ t, ∃ bound, Graded p.groups.all (((Dict.get? p.typeProb t).getD []).map Prod.fst) bound ∧
      bound + 1 ≤ e.fuel) (sp : Option (SimSpace ℝ)) :
    (p.estimation ev e sp).logLike () = (q.estimation ev e sp).logLike () := by
  have hcov : (fun (r : EstimationRow) t x => (p.typeFrame ev e r t).bind fun df => Dict.get? df.columns x) =
      fun r t x => (q.typeFrame ev e r t).bind fun df => Dict.get? df.columns x := by
    funext r t x
    obtain ⟨bound, h1, h2⟩ := hg t
    have h3 := h.typeFrame facts hf hid e ho r t bound h1 h2
    generalize p.typeFrame ev e r t = a at h3
    generalize q.typeFrame ev e r t = b at h3
    cases h3 with
    | none => rfl
    | some h => exact h.columns x
  have hpar : p.likelihoodParams = { q.likelihoodParams with typeProb := p.typeProb.map Prod.snd } := by
    unfold Processed.likelihoodParams
    rw [h.cholesky, h.choices, h.measurement, h.discount]
  have he : p.estimation ev e sp = { q.estimation ev e sp with params := fun _ => p.likelihoodParams } := by
    unfold Processed.estimation
    rw [hcov, h.nTypes, h.nStatic, h.nPeriods]
  rw [he, hpar]
  exact logLike_typeProb (q.estimation ev e sp) q.likelihoodParams h.typeProb.values

end

end Respy
