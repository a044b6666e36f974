import Verif.Lemmas.LogLike
import Verif.Props.Likelihood

/-! Helper lemmas: the value of the criterion function. -/

namespace Respy

noncomputable section

variable {P : Type}

/-- The observations of the data. -/
def Estimation.observations (e : Estimation P) : List (Nat × Nat) :=
  e.data.map fun r => (r.id, r.state.core.period)

theorem Estimation.rows_perm (e : Estimation P) (h : e.observations.Nodup) (lc lw : Nat → Nat → Nat → ℝ) :
    (e.typedRows.map fun rt => (⟨rt.1.id, rt.1.state.core.period, rt.2,
      lc rt.1.id rt.1.state.core.period rt.2, lw rt.1.id rt.1.state.core.period rt.2⟩ : LoglikeRow)).Perm
      (completeRows e.typeCount e.observations lc lw) := by
  have hlab : ∀ l : List LoglikeRow, (l.map fun r => (r.identifier, r.period, r.type)).Nodup → l.Nodup :=
    fun l hl => List.Nodup.of_map _ hl
  rw [List.perm_ext_iff_of_nodup]
  · intro r
    rw [mem_completeRows, List.mem_map]
    constructor
    · rintro ⟨rt, hrt, rfl⟩
      obtain ⟨r, hr, t, ht, rfl⟩ := (e.mem_typedRows rt).1 hrt
      refine ⟨List.mem_map.2 ⟨r, hr, ?_⟩, ht, rfl, rfl⟩
      show _ = ((e.typed r t).id, (e.stateOf r t).core.period)
      rw [e.stateOf_core]; rfl
    · rintro ⟨ho, ht, hc, hw⟩
      obtain ⟨r', hr', heq⟩ := List.mem_map.1 ho
      simp only [Prod.mk.injEq] at heq
      refine ⟨(e.typed r' r.type, r.type), (e.mem_typedRows _).2 ⟨r', hr', _, ht, rfl⟩, ?_⟩
      have h1 : (e.typed r' r.type).id = r.identifier := heq.1
      have h2 : (e.typed r' r.type).state.core.period = r.period := by
        show (e.stateOf r' r.type).core.period = _
        rw [e.stateOf_core]; exact heq.2
      simp only [h1, h2]
      cases r
      simp_all
  · apply hlab
    rw [List.map_map]
    exact e.labels_nodup h
  · apply hlab
    unfold completeRows
    rw [List.map_flatMap, List.nodup_flatMap]
    constructor
    · intro o _
      rw [List.map_map]
      exact List.nodup_range.map fun a b hab => by simpa using hab
    · refine List.Pairwise.imp ?_ h
      intro o o' hoo
      rw [Function.onFun, List.disjoint_left]
      intro l hl hl'
      simp only [List.map_map, List.mem_map, Function.comp] at hl hl'
      obtain ⟨_, _, rfl⟩ := hl
      obtain ⟨_, _, heq⟩ := hl'
      simp only [Prod.mk.injEq] at heq
      exact hoo (Prod.ext heq.1.symm heq.2.1.symm)

theorem filter_observations (e : Estimation P) (i : Nat) (f : Nat × Nat → ℝ) :
    ((e.observations.filter fun o => o.1 = i).map f) =
      (e.data.filter fun r => r.id = i).map fun r => f (r.id, r.state.core.period) := by
  unfold Estimation.observations
  rw [List.filter_map, List.map_map]
  rfl

theorem clip_eq_minmax (lo hi x : ℝ) : clip lo hi x = min (max x lo) hi := rfl

theorem exp_clip_log (lo hi x : ℝ) : Real.exp (clip lo hi (Real.log x)) = bounded lo hi x := rfl

theorem bounded_eq_self (lo hi x : ℝ) (hx : 0 < x) (h : Real.log x ∈ Set.Icc lo hi) : bounded lo hi x = x := by
  unfold bounded
  rw [max_eq_left h.1, min_eq_left h.2, Real.exp_log hx]

/-- The score used for an individual: the one of the observation in period zero. -/
def Estimation.scoreOf (e : Estimation P) (p : LikelihoodParams) (i t : Nat) : ℝ :=
  match e.sorted.find? fun r => decide (r.id = i ∧ r.state.core.period = 0) with
  | none => 0
  | some r => typeScore e p r t

theorem Estimation.find_first (e : Estimation P) (h : e.observations.Nodup) (r : EstimationRow)
    (hr : r ∈ e.data) (h0 : r.state.core.period = 0) :
    (e.sorted.find? fun r' => decide (r'.id = r.id ∧ r'.state.core.period = 0)) = some r := by
  cases hf : e.sorted.find? fun r' => decide (r'.id = r.id ∧ r'.state.core.period = 0) with
  | none =>
    rw [List.find?_eq_none] at hf
    exact absurd (hf r (e.sorted_perm.mem_iff.2 hr)) (by simp [h0])
  | some r' =>
    have h1 := List.find?_some hf
    have h2 := e.sorted_perm.mem_iff.1 (List.mem_of_find?_eq_some hf)
    simp only [decide_eq_true_eq] at h1
    congr 1
    exact List.inj_on_of_nodup_map h h2 hr (by rw [h1.1, h1.2, h0])

theorem Estimation.xBetas_first (e : Estimation P) (p : LikelihoodParams) (h2 : 2 ≤ e.nTypes)
    (h : e.observations.Nodup) (r : EstimationRow) (hr : r ∈ e.data) (h0 : r.state.core.period = 0) :
    e.xBetas p r.id = List.ofFn fun t : Fin e.typeCount => e.scoreOf p r.id t := by
  unfold Estimation.xBetas Estimation.scoreOf
  rw [e.find_first h r hr h0]
  have hT : e.typeCount = e.nTypes := by unfold Estimation.typeCount; rw [if_pos h2]
  simp only [typeScore]
  apply List.ext_getElem
  · simp [hT]
  · intro i _ _
    simp

theorem Estimation.identifiers_perm (e : Estimation P)
    (hfirst : 2 ≤ e.nTypes → ∀ r ∈ e.data, ∃ r' ∈ e.data, r'.id = r.id ∧ r'.state.core.period = 0) :
    e.identifiers.Perm (individuals e.data) := by
  unfold Estimation.identifiers individuals
  split
  · rename_i h2
    rw [List.perm_ext_iff_of_nodup (List.nodup_dedup _) (List.nodup_dedup _)]
    intro i
    simp only [List.mem_dedup, List.mem_map, List.mem_filter, decide_eq_true_eq, e.sorted_perm.mem_iff]
    constructor
    · rintro ⟨r, ⟨hr, _⟩, rfl⟩; exact ⟨r, hr, rfl⟩
    · rintro ⟨r, hr, rfl⟩
      obtain ⟨r', hr', h1, h0⟩ := hfirst h2 r hr
      exact ⟨r', ⟨hr', h0⟩, h1⟩
  · exact (e.sorted_perm.map _).dedup

theorem exp_sum_bounded (l : List EstimationRow) (f g : EstimationRow → ℝ) :
    Real.exp ((l.map fun r => f r + g r).sum) = (l.map fun r => Real.exp (f r) * Real.exp (g r)).prod := by
  rw [exp_list_sum, List.map_map]
  simp only [Function.comp_def, Real.exp_add]

/-- The value of the criterion function for rows which have been computed. -/
theorem Estimation.contributions_mean (e : Estimation P) (p : LikelihoodParams)
    (hlo : e.lo ≤ 0) (hhi : 0 < e.hi) (h : e.observations.Nodup)
    (hfirst : 2 ≤ e.nTypes → ∀ r ∈ e.data, ∃ r' ∈ e.data, r'.id = r.id ∧ r'.state.core.period = 0)
    (term : Nat → Nat → Nat → LikelihoodTerm) :
    ∃ out, contributions e.lo e.hi e.nTypes (e.typedRows.map fun rt => (⟨rt.1.id, rt.1.state.core.period, rt.2,
        clip e.lo e.hi (Real.log (term rt.1.id rt.1.state.core.period rt.2).prob),
        clip e.lo e.hi (Real.log (term rt.1.id rt.1.state.core.period rt.2).density)⟩ : LoglikeRow))
        e.identifiers (e.xBetas p) = some out ∧
      meanOf out = ((individuals e.data).map fun i => min (max (Real.log
        (individualLikelihood (bounded e.lo e.hi) e.typeCount e.data term (e.scoreOf p) i)) e.lo) e.hi).sum /
          (individuals e.data).length := by
  have hperm := e.rows_perm h (fun i q t => clip e.lo e.hi (Real.log (term i q t).prob))
    (fun i q t => clip e.lo e.hi (Real.log (term i q t).density))
  have hids := e.identifiers_perm hfirst
  set F : Nat → ℝ := fun i => min (max (Real.log
    (individualLikelihood (bounded e.lo e.hi) e.typeCount e.data term (e.scoreOf p) i)) e.lo) e.hi with hF
  by_cases h2 : 2 ≤ e.nTypes
  · have hT : 0 < e.typeCount := by unfold Estimation.typeCount; rw [if_pos h2]; omega
    have := C42_value_is_mean e.lo e.hi e.nTypes h2 _ e.identifiers (e.xBetas p) F (by
      intro i hi
      have hi' := hids.mem_iff.1 hi
      simp only [individuals, List.mem_dedup, List.mem_map] at hi'
      obtain ⟨r, hr, rfl⟩ := hi'
      obtain ⟨r', hr', h1, h0⟩ := hfirst h2 r hr
      rw [← h1, e.xBetas_first p h2 h r' hr' h0]
      rw [mixtureContribution_ofFn hT e.lo e.hi _ h hperm]
      simp only [hF, clip_eq_minmax, individualLikelihood, typeWeight, bounded, filter_observations]
      rw [Finset.sum_range]
      simp only [Finset.sum_range])
    obtain ⟨out, ho, hm⟩ := this
    refine ⟨out, ho, ?_⟩
    rw [hm, (hids.map F).sum_eq, hids.length_eq]
  · have hT : e.typeCount = 1 := by unfold Estimation.typeCount; rw [if_neg h2]
    refine ⟨_, by unfold contributions; rw [if_neg h2], ?_⟩
    unfold meanOf
    rw [List.length_map, ← hids.length_eq, ← (hids.map F).sum_eq]
    congr 2
    refine List.map_congr_left fun i _ => ?_
    rw [perIndividual_complete h hperm 0 (by omega)]
    simp only [hF, clip_eq_minmax, filter_observations, individualLikelihood, hT, Finset.range_one,
      Finset.sum_singleton, typeWeight]
    congr 2
    have hone : bounded e.lo e.hi (Real.exp (e.scoreOf p i 0) / Real.exp (e.scoreOf p i 0)) = 1 := by
      rw [div_self (Real.exp_pos _).ne']
      unfold bounded
      rw [Real.log_one, max_eq_left hlo, min_eq_left hhi.le, Real.exp_zero]
    rw [hone, one_mul]
    simp only [bounded]
    rw [← exp_sum_bounded, Real.log_exp]

theorem Built.Solved.criterion_terms {b : BuildSpec} {core : List CoreState} {bt : Built}
    {par : ParamObjects ℝ} {w m : Option Nat → CoreState → Nat → ℝ}
    {future : Option Nat → CoreState → List (Option Nat × ℝ)}
    (hs : bt.Solved b core par w m future) {ev : Dict Nat (List ℝ)}
    (hev : SameShape (initialValues bt.space) ev) {V : Option Nat → CoreState → ℝ}
    (hV : ∀ d ∈ b.denseIndices, ∀ s ∈ core, bt.ValueAt ev d s (V d s)) (vc ko : List Nat → List Nat)
    (e : Estimation P) (params : P) (hsolve : e.solve params = some (bt.simSpace b par ev vc ko))
    (hfits : e.Fits b core w params) (rows : List LocatedRow)
    (hrows : rows = (e.located (bt.simSpace b par ev vc ko)).getD []) :
    ∃ term : Nat → Nat → Nat → LikelihoodTerm,
      (∀ r ∈ e.data, ∀ t < e.typeCount, TermFollows b w m future V e (e.params params)
        (e.sizeOf bt.space.complexes rows) (e.sourceOf rows r.id r.state.core.period t) r t
        (term r.id r.state.core.period t) ∧
        TermUses b w m future V e (e.params params) r t (term r.id r.state.core.period t)) ∧
      (∀ r ∈ e.data, ∀ t < e.typeCount, ∀ r' ∈ e.data, ∀ t' < e.typeCount,
        e.sourceOf rows r.id r.state.core.period t = e.sourceOf rows r'.id r'.state.core.period t' →
        r = r' ∧ t = t') ∧
      e.logLike params = some (((individuals e.data).map fun i => min (max (Real.log
        (individualLikelihood (bounded e.lo e.hi) e.typeCount e.data term (e.scoreOf (e.params params)) i)) e.lo)
          e.hi).sum / (individuals e.data).length) := by
  obtain ⟨rows', term, h0, h1, h2, h3⟩ := hs.loglikeRows hev hV vc ko e params hfits
  rw [h0, Option.getD_some] at hrows
  subst hrows
  obtain ⟨out, ho, hm⟩ := e.contributions_mean (e.params params) hfits.lo hfits.hi hfits.index hfits.first
    fun i q t => term (i, q, t)
  refine ⟨fun i q t => term (i, q, t), h1, h2, ?_⟩
  unfold Estimation.logLike
  rw [hsolve, Option.bind_eq_bind, Option.bind_some, h3, Option.bind_eq_bind, Option.bind_some]
  simp only [labelOf]
  rw [ho, Option.bind_eq_bind, Option.bind_some, hm]
  rfl

theorem Built.Solved.criterion {b : BuildSpec} {core : List CoreState} {bt : Built}
    {par : ParamObjects ℝ} {w m : Option Nat → CoreState → Nat → ℝ}
    {future : Option Nat → CoreState → List (Option Nat × ℝ)}
    (hs : bt.Solved b core par w m future) {ev : Dict Nat (List ℝ)}
    (hev : SameShape (initialValues bt.space) ev) {V : Option Nat → CoreState → ℝ}
    (hV : ∀ d ∈ b.denseIndices, ∀ s ∈ core, bt.ValueAt ev d s (V d s)) (vc ko : List Nat → List Nat)
    (e : Estimation P) (params : P) (hsolve : e.solve params = some (bt.simSpace b par ev vc ko))
    (hfits : e.Fits b core w params) (rows : List LocatedRow)
    (hrows : rows = (e.located (bt.simSpace b par ev vc ko)).getD []) :
    CriterionFollows b w m future V (e.sizeOf bt.space.complexes rows) (e.sourceOf rows) e params := by
  obtain ⟨term, h1, h2, hval⟩ := hs.criterion_terms hev hV vc ko e params hsolve hfits rows hrows
  refine ⟨h2, term, e.scoreOf (e.params params), fun r hr t ht => (h1 r hr t ht).1, ?_, hval, ?_⟩
  · intro hT r hr h0 t _
    unfold Estimation.scoreOf
    rw [e.find_first hfits.index r hr h0]
  · rintro ⟨hb1, hb2⟩
    rw [hval]
    congr 3
    refine List.map_congr_left fun i hi => ?_
    have heq : individualLikelihood (bounded e.lo e.hi) e.typeCount e.data term
        (e.scoreOf (e.params params)) i = individualLikelihood id e.typeCount e.data
          term (e.scoreOf (e.params params)) i := by
      unfold individualLikelihood
      refine Finset.sum_congr rfl fun t ht => ?_
      have ht := Finset.mem_range.1 ht
      congr 1
      · refine bounded_eq_self _ _ _ (div_pos (Real.exp_pos _) ?_) ((hb2 i hi).2 t ht)
        exact Finset.sum_pos (fun _ _ => Real.exp_pos _) ⟨t, Finset.mem_range.2 ht⟩
      · congr 1
        refine List.map_congr_left fun r hr => ?_
        have hr := (List.mem_filter.1 hr).1
        obtain ⟨d, _, _, hp, _, hd, _⟩ := (h1 r hr t ht).1
        rw [bounded_eq_self _ _ _ hp (hb1 r hr t ht).1, bounded_eq_self _ _ _ hd (hb1 r hr t ht).2]
        rfl
    rw [heq, max_eq_left (hb2 i hi).1.1, min_eq_left (hb2 i hi).1.2]

end

end Respy
