import Verif.Spec.InitialDistribution
import Verif.Lemmas.SamplingTotal
import Mathlib.MeasureTheory.Constructions.Pi
import Mathlib.MeasureTheory.Measure.Prod

/-! Helper lemmas: the distribution of sampled characteristics. -/

open MeasureTheory ProbabilityTheory

namespace Respy

noncomputable section

/-- The uniform distribution on the unit interval. -/
abbrev unitUniform : Measure ℝ := volume.restrict (Set.Ico 0 1)

instance : IsProbabilityMeasure unitUniform := ⟨by simp⟩

theorem measurable_findIdx (cdf : List ℝ) : Measurable fun u : ℝ => cdf.findIdx fun c => decide (u < c) := by
  induction cdf with
  | nil => exact measurable_const
  | cons c cdf ih =>
    have h : (fun u : ℝ => (c :: cdf).findIdx fun c => decide (u < c)) =
        fun u => if u < c then 0 else (cdf.findIdx fun c => decide (u < c)) + 1 := by
      funext u
      rw [List.findIdx_cons]
      by_cases hu : u < c <;> simp [hu]
    rw [h]
    exact Measurable.ite measurableSet_Iio measurable_const (ih.add_const 1)

theorem measurable_randomChoice (levels : List Nat) (probs : List ℝ) (c : Option Nat) :
    MeasurableSet {u | randomChoice levels probs u = c} := by
  unfold randomChoice
  cases cumulativeDistribution probs with
  | none => exact MeasurableSet.const (none = c)
  | some cdf =>
    have hf : Measurable fun u : ℝ => firstAbove u cdf := by
      unfold firstAbove
      dsimp only
      refine Measurable.ite ?_ (measurable_findIdx cdf) measurable_const
      exact (measurable_findIdx cdf) (measurableSet_Iio (a := cdf.length))
    exact hf (MeasurableSet.of_discrete (s := {i : Nat | levels[i]? = c}))

theorem uniform_randomChoice {levels : List Nat} (hnd : levels.Nodup) {probs : List ℝ}
    (h : IsDistribution levels probs) {i x : Nat} {q : ℝ} (hx : levels[i]? = some x) (hq : probs[i]? = some q) :
    unitUniform {u | randomChoice levels probs u = some x} = ENNReal.ofReal q := by
  obtain ⟨hl, hnn, hsum⟩ := h
  have hmeas : MeasurableSet {u | randomChoice levels probs u = some x} :=
    measurable_randomChoice levels probs (some x)
  rw [Measure.restrict_apply hmeas]
  have hq1 : (probs.take i).sum + q ≤ 1 := by
    obtain ⟨hi, hv⟩ := List.getElem?_eq_some_iff.1 hq
    have h1 : (probs.take (i + 1)).sum = (probs.take i).sum + q := by
      rw [List.take_succ_eq_append_getElem hi, List.sum_append, hv]; simp
    have h2 := take_sum_mono probs hnn (i + 1) probs.length (by omega)
    rw [List.take_length, hsum] at h2
    linarith
  have hq0 : 0 ≤ (probs.take i).sum := List.sum_nonneg fun y hy => hnn y (List.mem_of_mem_take hy)
  have he : {u | randomChoice levels probs u = some x} ∩ Set.Ico 0 1 =
      Set.Ico (probs.take i).sum ((probs.take i).sum + q) := by
    ext u
    simp only [Set.mem_inter_iff, Set.mem_ofPred_eq, Set.mem_Ico]
    constructor
    · rintro ⟨h1, h2, h3⟩
      exact (C29_inverse_cdf_partial levels hnd probs hnn hsum u hl.symm h2 h3 i x q hx hq).1 h1
    · rintro ⟨h1, h2⟩
      have h3 : 0 ≤ u := hq0.trans h1
      have h4 : u < 1 := by linarith
      exact ⟨(C29_inverse_cdf_partial levels hnd probs hnn hsum u hl.symm h3 h4 i x q hx hq).2 ⟨h1, h2⟩, h3, h4⟩
  rw [he, Real.volume_Ico]
  congr 1
  ring

/-- The characteristics of individual `j` after sampling with the numbers `us`. -/
def sampledRow (j : Nat) : List CharacteristicLaw → CharRow → List ℝ → CharRow
  | l :: laws, row, u :: us =>
    sampledRow j laws (fillColumn l.column row ((randomChoice l.levels (l.weights j row) u).getD 0)) us
  | _, row, _ => row

/-- The weights are distributions for all characteristics which can be reached. -/
def GoodLaws (j : Nat) : List CharacteristicLaw → (R : CharRow → Prop) → Prop
  | [], _ => True
  | l :: laws, R => l.levels.Nodup ∧ (∀ row, R row → IsDistribution l.levels (l.weights j row)) ∧
    GoodLaws j laws fun row' => ∃ row, R row ∧ ∃ v ∈ l.levels, row' = fillColumn l.column row v

theorem sumsToOne_of {levels : List Nat} {ps : List ℝ} (h : IsDistribution levels ps) : SumsToOne ps := by
  obtain ⟨_, _, h3⟩ := h
  refine ⟨?_, ?_, ?_⟩
  · rintro rfl
    simp at h3
  · rw [h3]; norm_num
  · rw [h3]; norm_num

theorem initialProbability_nonneg {j : Nat} (target : CharRow) (laws : List CharacteristicLaw) :
    ∀ (R : CharRow → Prop), GoodLaws j laws R → ∀ row, R row → 0 ≤ initialProbability j target laws row := by
  induction laws with
  | nil =>
    intro R _ row _
    unfold initialProbability
    split <;> norm_num
  | cons l laws ih =>
    intro R hg row hr
    unfold initialProbability
    refine List.sum_nonneg fun y hy => ?_
    obtain ⟨x, hx, rfl⟩ := List.mem_map.1 hy
    have h1 := List.of_mem_zip hx
    exact mul_nonneg ((hg.2.1 row hr).2.1 _ h1.2) (ih _ hg.2.2 _ ⟨row, hr, x.1, h1.1, rfl⟩)

theorem sampledRow_measurable (j : Nat) (target : CharRow) (laws : List CharacteristicLaw) : ∀ row : CharRow,
    MeasurableSet {u : Fin laws.length → ℝ | sampledRow j laws row (List.ofFn u) = target} := by
  induction laws with
  | nil => intro row; exact MeasurableSet.const (row = target)
  | cons l laws ih =>
    intro row
    have he : {u : Fin (laws.length + 1) → ℝ | sampledRow j (l :: laws) row (List.ofFn u) = target} =
        ⋃ c : Option Nat, {u | randomChoice l.levels (l.weights j row) (u 0) = c} ∩
          (fun u : Fin (laws.length + 1) → ℝ => fun i : Fin laws.length => u i.succ) ⁻¹'
            {u | sampledRow j laws (fillColumn l.column row (c.getD 0)) (List.ofFn u) = target} := by
      ext u
      simp only [Set.mem_ofPred_eq, Set.mem_iUnion, Set.mem_inter_iff, Set.mem_preimage, List.ofFn_succ, sampledRow]
      exact ⟨fun h => ⟨_, rfl, h⟩, fun ⟨c, h1, h2⟩ => by rw [h1]; exact h2⟩
    show MeasurableSet {u : Fin (laws.length + 1) → ℝ | sampledRow j (l :: laws) row (List.ofFn u) = target}
    rw [he]
    refine MeasurableSet.iUnion fun c => MeasurableSet.inter ?_ ?_
    · have h0 : Measurable fun u : Fin (laws.length + 1) → ℝ => u 0 := measurable_pi_apply 0
      exact h0 (measurable_randomChoice l.levels (l.weights j row) c)
    · exact (measurable_pi_lambda _ fun i => measurable_pi_apply _) (ih _)

theorem ofFn_cons_eq {n : Nat} (u : Fin (n + 1) → ℝ) : List.ofFn u = u 0 :: List.ofFn fun i : Fin n => u i.succ :=
  List.ofFn_succ

theorem getD_of_lt {α : Type} {l : List α} {i : Nat} {d : α} (h : i < l.length) : l.getD i d = l[i] := by
  simp [List.getD, List.getElem?_eq_getElem h]

theorem sum_zip_eq {levels : List Nat} {ps : List ℝ} (hl : ps.length = levels.length) (F : Nat → ℝ → ℝ) :
    ((levels.zip ps).map fun x => F x.1 x.2).sum =
      ∑ i ∈ Finset.range levels.length, F (levels.getD i 0) (ps.getD i 0) := by
  induction levels generalizing ps with
  | nil => simp
  | cons x levels ih =>
    cases ps with
    | nil => simp at hl
    | cons q ps =>
      rw [List.zip_cons_cons, List.map_cons, List.sum_cons, ih (by simpa using hl), List.length_cons,
        Finset.sum_range_succ']
      simp [add_comm]

/-- The distribution of the sampled characteristics of an individual. -/
theorem sampledRow_distribution (j : Nat) (target : CharRow) (laws : List CharacteristicLaw) :
    ∀ (R : CharRow → Prop), GoodLaws j laws R → ∀ row, R row →
      (Measure.pi fun _ : Fin laws.length => unitUniform) {u | sampledRow j laws row (List.ofFn u) = target} =
        ENNReal.ofReal (initialProbability j target laws row) := by
  induction laws with
  | nil =>
    intro R _ row _
    by_cases h : row = target
    · have : {u : Fin ([] : List CharacteristicLaw).length → ℝ | sampledRow j [] row (List.ofFn u) = target} =
          Set.univ := by
        ext u
        simpa [sampledRow] using h
      rw [this, measure_univ, initialProbability, if_pos h, ENNReal.ofReal_one]
    · have : {u : Fin ([] : List CharacteristicLaw).length → ℝ | sampledRow j [] row (List.ofFn u) = target} = ∅ := by
        ext u
        simpa [sampledRow] using h
      rw [this, measure_empty, initialProbability, if_neg h, ENNReal.ofReal_zero]
  | cons l laws ih =>
    intro R hg row hr
    obtain ⟨hnd, hdist, hgood⟩ := hg
    have hd := hdist row hr
    set E : Nat → Set (Fin laws.length → ℝ) := fun x =>
      {u | sampledRow j laws (fillColumn l.column row x) (List.ofFn u) = target} with hE
    set I : Nat → Set ℝ := fun x => {u | randomChoice l.levels (l.weights j row) u = some x} with hI
    have hmp := measurePreserving_piFinSuccAbove (fun _ : Fin (laws.length + 1) => unitUniform) 0
    have he : {u : Fin (laws.length + 1) → ℝ | sampledRow j (l :: laws) row (List.ofFn u) = target} =
        (MeasurableEquiv.piFinSuccAbove (fun _ : Fin (laws.length + 1) => ℝ) 0) ⁻¹'
          ⋃ i ∈ Finset.range l.levels.length, I (l.levels.getD i 0) ×ˢ E (l.levels.getD i 0) := by
      ext u
      simp only [Set.mem_preimage, Set.mem_iUnion, Set.mem_prod, hI, hE, Set.mem_ofPred_eq, Finset.mem_range,
        MeasurableEquiv.piFinSuccAbove_apply, Fin.insertNthEquiv_zero, Fin.consEquiv_symm_apply, ofFn_cons_eq u,
        sampledRow, exists_prop]
      obtain ⟨x, hx, hc⟩ := randomChoice_total l.levels (l.weights j row) (u 0) hd.1.symm (sumsToOne_of hd)
      constructor
      · intro h
        obtain ⟨i, hi, rfl⟩ := List.mem_iff_getElem.1 hx
        refine ⟨i, hi, ?_, ?_⟩
        · rw [hc, getD_of_lt hi]
        · rw [getD_of_lt hi]
          rw [hc] at h
          exact h
      · rintro ⟨i, hi, h1, h2⟩
        rw [h1]
        exact h2
    have hmeasI : ∀ x, MeasurableSet (I x) := fun x => measurable_randomChoice _ _ _
    have hmeasE : ∀ x, MeasurableSet (E x) := fun x => sampledRow_measurable j target laws _
    show (Measure.pi fun _ : Fin (laws.length + 1) => unitUniform)
      {u : Fin (laws.length + 1) → ℝ | sampledRow j (l :: laws) row (List.ofFn u) = target} = _
    rw [he, hmp.measure_preimage_equiv, measure_biUnion_finset]
    · rw [initialProbability, sum_zip_eq hd.1 (fun x q => q * initialProbability j target laws (fillColumn l.column row x)),
        ENNReal.ofReal_sum_of_nonneg]
      · refine Finset.sum_congr rfl fun i hi => ?_
        have hi := Finset.mem_range.1 hi
        have hi' : i < (l.weights j row).length := by rw [hd.1]; exact hi
        rw [Measure.prod_prod, uniform_randomChoice hnd hd (i := i) (q := (l.weights j row).getD i 0)
          (by rw [getD_of_lt hi]; exact List.getElem?_eq_getElem hi)
          (by rw [getD_of_lt hi']; exact List.getElem?_eq_getElem hi'),
          ENNReal.ofReal_mul (hd.2.1 _ (by rw [getD_of_lt hi']; exact List.getElem_mem hi'))]
        congr 1
        exact ih _ hgood _ ⟨row, hr, _, by rw [getD_of_lt hi]; exact List.getElem_mem hi, rfl⟩
      · intro i hi
        have hi := Finset.mem_range.1 hi
        have hi' : i < (l.weights j row).length := by rw [hd.1]; exact hi
        refine mul_nonneg (hd.2.1 _ (by rw [getD_of_lt hi']; exact List.getElem_mem hi')) ?_
        exact initialProbability_nonneg target laws _ hgood _
          ⟨row, hr, _, by rw [getD_of_lt hi]; exact List.getElem_mem hi, rfl⟩
    · intro i hi i' hi' hne
      have hi := Finset.mem_range.1 hi
      have hi' := Finset.mem_range.1 hi'
      refine Set.disjoint_left.2 ?_
      rintro ⟨u, v⟩ h1 h2
      have h3 : randomChoice l.levels (l.weights j row) u = _ := h1.1
      have h4 : randomChoice l.levels (l.weights j row) u = _ := h2.1
      rw [h3, Option.some.injEq, getD_of_lt hi, getD_of_lt hi'] at h4
      exact hne ((List.Nodup.getElem_inj_iff hnd).1 h4)
    · exact fun i _ => (hmeasI _).prod (hmeasE _)

theorem followLaws_good {n j : Nat} (hj : j < n) : ∀ {chars : List (Characteristic ℝ)} {laws : List CharacteristicLaw}
    {R : Nat → CharRow → Prop}, FollowLaws n chars laws R → GoodLaws j laws (R j) := by
  intro chars
  induction chars with
  | nil =>
    intro laws R h
    cases laws with
    | nil => trivial
    | cons l laws => exact h.elim
  | cons ch chars ih =>
    intro laws R h
    cases laws with
    | nil => exact h.elim
    | cons l laws =>
      obtain ⟨_, _, h1, _, h2, h3⟩ := h
      exact ⟨h1, h2 j hj, ih h3⟩

theorem followLaws_length {n : Nat} : ∀ {chars : List (Characteristic ℝ)} {laws : List CharacteristicLaw}
    {R : Nat → CharRow → Prop}, FollowLaws n chars laws R → laws.length = chars.length := by
  intro chars
  induction chars with
  | nil =>
    intro laws R h
    cases laws with
    | nil => rfl
    | cons l laws => exact h.elim
  | cons ch chars ih =>
    intro laws R h
    cases laws with
    | nil => exact h.elim
    | cons l laws =>
      obtain ⟨_, _, _, _, _, h3⟩ := h
      simp [ih h3]

/-- Sampling succeeds, and the characteristics of an individual are a function of its own numbers. -/
theorem sampleAll_rows {G : Type} (rs : RandomSource ℝ G) {n : Nat} : ∀ {chars : List (Characteristic ℝ)}
    {laws : List CharacteristicLaw} {R : Nat → CharRow → Prop} (_ : FollowLaws n chars laws R) (seed : Nat)
    (us : Nat → Nat → ℝ)
    (_ : ∀ i < chars.length, (rs.uniform (rs.seed (seed + i)) n).1 = List.ofFn fun j : Fin n => us j i)
    (fp : List CharRow) (_ : fp.length = n) (_ : ∀ j row, fp[j]? = some row → R j row) (g : G),
    ∃ fp' g', sampleAll rs chars seed fp g = some (fp', g') ∧ fp'.length = n ∧
      ∀ j row, fp[j]? = some row → fp'[j]? = some (sampledRow j laws row ((List.range laws.length).map (us j))) := by
  intro chars
  induction chars with
  | nil =>
    intro laws R h seed us hus fp hl hR g
    cases laws with
    | nil => exact ⟨fp, g, rfl, hl, fun j row hj => hj⟩
    | cons l laws => exact h.elim
  | cons ch chars ih =>
    intro laws R h seed us hus fp hl hR g
    cases laws with
    | nil => exact h.elim
    | cons l laws =>
      obtain ⟨hcol, hlev, hnd, hprobs, hdist, hrest⟩ := h
      have hp := hprobs fp hl hR
      have hu := hus 0 (Nat.succ_pos _)
      rw [Nat.add_zero] at hu
      let next : Nat → CharRow → CharRow := fun j row =>
        fillColumn l.column row ((randomChoice l.levels (l.weights j row) (us j 0)).getD 0)
      have hone : ∀ j row, fp[j]? = some row →
          ∃ x ∈ l.levels, randomChoice l.levels (l.weights j row) (us j 0) = some x := by
        intro j row hj
        have hlt : j < n := by rw [← hl]; exact (List.getElem?_eq_some_iff.1 hj).1
        have hd := hdist j hlt row (hR j row hj)
        exact randomChoice_total _ _ _ hd.1.symm (sumsToOne_of hd)
      obtain ⟨g1, hstep⟩ : ∃ g1, sampleCharacteristic rs ch seed fp = some (fp.mapIdx next, g1) := by
        refine ⟨(rs.uniform (rs.seed seed) n).2, ?_⟩
        unfold sampleCharacteristic
        dsimp only
        have hlen : (ch.probs fp).length = n := by rw [hp, List.length_mapIdx, hl]
        have hvals : ((ch.probs fp).zip (rs.uniform (rs.seed seed) (ch.probs fp).length).1).mapM
            (fun x => randomChoice ch.levels x.1 x.2) = some (fp.mapIdx fun j row =>
              (randomChoice l.levels (l.weights j row) (us j 0)).getD 0) := by
          rw [hlen, hu, hp, mapM_eq_some_iff, List.forall₂_iff_get]
          refine ⟨by simp [hl], fun i h1 h2 => ?_⟩
          have hi : i < fp.length := by simpa using h2
          obtain ⟨x, _, hx⟩ := hone i fp[i] (List.getElem?_eq_getElem hi)
          simp only [List.get_eq_getElem, List.getElem_zip, List.getElem_mapIdx, List.getElem_ofFn, hlev, hx,
            Option.getD_some]
        rw [hvals]
        simp only [Option.bind_eq_bind, Option.bind_some, List.length_mapIdx, if_true, hlen]
        simp only [Option.pure_def, Option.some.injEq, Prod.mk.injEq, and_true]
        refine List.ext_getElem (by simp) fun i h1 h2 => ?_
        simp [next, hcol]
      have hR' : ∀ j row', (fp.mapIdx next)[j]? = some row' →
          ∃ row, R j row ∧ ∃ v ∈ l.levels, row' = fillColumn l.column row v := by
        intro j row' hj
        rw [List.getElem?_mapIdx] at hj
        obtain ⟨row, h1, h2⟩ := Option.map_eq_some_iff.1 hj
        obtain ⟨x, hx, hc⟩ := hone j row h1
        refine ⟨row, hR j row h1, x, hx, ?_⟩
        rw [← h2]
        simp only [next, hc, Option.getD_some]
      obtain ⟨fp', g', h1, h2, h3⟩ := ih hrest (seed + 1) (fun j i => us j (i + 1)) (fun i hi => by
        have := hus (i + 1) (by simpa using hi)
        rwa [show seed + (i + 1) = seed + 1 + i by omega] at this) (fp.mapIdx next) (by simpa using hl) hR' g1
      refine ⟨fp', g', ?_, h2, fun j row hj => ?_⟩
      · unfold sampleAll
        rw [hstep]
        exact h1
      · have := h3 j (next j row) (by rw [List.getElem?_mapIdx, hj]; rfl)
        rw [this, List.length_cons, List.range_succ_eq_map, List.map_cons, sampledRow, List.map_map]
        rfl

end

end Respy
