import Verif.Lemmas.InitialDistribution

/-!
# The distribution of initial characteristics

C111: the characteristics of the individuals of a sample have the distribution which is given by the probabilities of the
levels, and the characteristics of different individuals are independent.
-/

open MeasureTheory ProbabilityTheory

namespace Respy

noncomputable section

variable {Ω : Type} [MeasurableSpace Ω] (Q : Measure Ω) {G : Type}

omit [MeasurableSpace Ω] in
theorem ofFn_eq_range {k : Nat} (u : Fin k → ℝ) :
    (List.range k).map (fun i => if h : i < k then u ⟨i, h⟩ else 0) = List.ofFn u := by
  refine List.ext_getElem (by simp) fun i h1 h2 => ?_
  have : i < k := by simpa using h2
  simp [this]

/-- Sampling succeeds, and the characteristics of an individual are a function of its own numbers. -/
theorem sampledRow_of_numbers {chars : List (Characteristic ℝ)} {laws : List CharacteristicLaw} {input : List CharRow}
    (hlaws : FollowLaws input.length chars laws fun j row => input[j]? = some row) {rs : Ω → RandomSource ℝ G}
    {seed : Nat} {U : Fin input.length → Ω → Fin laws.length → ℝ} (hU : InitialNumbers Q rs seed U) (ω : Ω) (g : G) :
    ∃ fp g', sampleAll (rs ω) chars seed input g = some (fp, g') ∧ fp.length = input.length ∧
      ∀ j : Fin input.length, fp[(j : Nat)]? = some (sampledRow j laws input[j] (List.ofFn (U j ω))) := by
  obtain ⟨fp, g', h1, h2, h3⟩ := sampleAll_rows (rs ω) hlaws seed
    (fun j i => if hj : j < input.length then if hi : i < laws.length then U ⟨j, hj⟩ ω ⟨i, hi⟩ else 0 else 0)
    (fun i hi => by
      have hi' : i < laws.length := by rw [followLaws_length hlaws]; exact hi
      have := hU.draws ω ⟨i, hi'⟩
      dsimp only at this
      rw [this]
      congr 1
      funext j
      simp [hi']) input rfl (fun j row h => h) g
  refine ⟨fp, g', h1, h2, fun j => ?_⟩
  rw [h3 j input[j] (List.getElem?_eq_getElem j.2)]
  simp only [j.2, dite_true]
  rw [ofFn_eq_range]

/-- **C111.** All individuals are given characteristics. Any individuals have the characteristics `target` with the
product of the probabilities with which each of them is led to its characteristics by one level after the other. -/
theorem C111_distribution_of_characteristics {chars : List (Characteristic ℝ)} {laws : List CharacteristicLaw}
    {input : List CharRow} (hlaws : FollowLaws input.length chars laws fun j row => input[j]? = some row)
    {rs : Ω → RandomSource ℝ G} {seed : Nat} {U : Fin input.length → Ω → Fin laws.length → ℝ}
    (hU : InitialNumbers Q rs seed U) (g : G) :
    (∀ ω, ∃ fp g', sampleAll (rs ω) chars seed input g = some (fp, g') ∧ fp.length = input.length) ∧
    ∀ (J : Finset (Fin input.length)) (target : Fin input.length → CharRow),
      Q.real {ω | ∃ fp g', sampleAll (rs ω) chars seed input g = some (fp, g') ∧
        ∀ j ∈ J, fp[(j : Nat)]? = some (target j)} =
        ∏ j ∈ J, initialProbability j (target j) laws input[j] := by
  refine ⟨fun ω => ?_, fun J target => ?_⟩
  · obtain ⟨fp, g', h1, h2, _⟩ := sampledRow_of_numbers Q hlaws hU ω g
    exact ⟨fp, g', h1, h2⟩
  let E : Fin input.length → Set (Fin laws.length → ℝ) := fun j =>
    {u | sampledRow j laws input[j] (List.ofFn u) = target j}
  have hE : ∀ j, MeasurableSet (E j) := fun j => sampledRow_measurable j (target j) laws input[j]
  have hset : {ω | ∃ fp g', sampleAll (rs ω) chars seed input g = some (fp, g') ∧
      ∀ j ∈ J, fp[(j : Nat)]? = some (target j)} = ⋂ j ∈ J, U j ⁻¹' E j := by
    ext ω
    simp only [Set.mem_ofPred_eq, Set.mem_iInter, Set.mem_preimage, E]
    obtain ⟨fp, g', h1, _, h3⟩ := sampledRow_of_numbers Q hlaws hU ω g
    constructor
    · rintro ⟨fp', g'', h4, h5⟩ j hj
      rw [h1] at h4
      cases h4
      have := h5 j hj
      rw [h3 j] at this
      exact Option.some.inj this
    · intro h
      exact ⟨fp, g', h1, fun j hj => by rw [h3 j, h j hj]⟩
  rw [hset, Measure.real, hU.independent.measure_inter_preimage_eq_mul J fun j _ => hE j, ENNReal.toReal_prod]
  refine Finset.prod_congr rfl fun j _ => ?_
  rw [← Measure.map_apply (hU.measurable j) (hE j), hU.law j]
  have hgood := followLaws_good j.2 hlaws
  have hrow : input[(j : Nat)]? = some input[j] := List.getElem?_eq_getElem j.2
  have h1 := sampledRow_distribution j (target j) laws _ hgood _ hrow
  have h2 := initialProbability_nonneg (target j) laws _ hgood _ hrow
  show ((Measure.pi fun _ => unitUniform) (E j)).toReal = _
  rw [show (Measure.pi fun _ => unitUniform) (E j) = _ from h1, ENNReal.toReal_ofReal h2]

/-! ### Probabilities of characteristics -/

/-- **C111.** A characteristic which is known is not sampled: probabilities are those of the others. -/
theorem C111_known_characteristics {j : Nat} {target : CharRow} {l : CharacteristicLaw} {laws : List CharacteristicLaw}
    {row : CharRow} (hd : IsDistribution l.levels (l.weights j row)) (hknown : row[l.column]? ≠ some none) :
    initialProbability j target (l :: laws) row = initialProbability j target laws row := by
  have hfill : ∀ v, fillColumn l.column row v = row := by
    intro v
    unfold fillColumn
    refine List.ext_getElem? fun i => ?_
    rw [List.getElem?_modify]
    by_cases hi : l.column = i
    · subst hi
      cases hr : row[l.column]? with
      | none => rfl
      | some x =>
        cases x with
        | none => exact absurd hr hknown
        | some y => simp
    · cases row[i]? <;> simp [hi]
  rw [initialProbability]
  simp only [hfill]
  rw [sum_zip_eq hd.1 fun _ q => q * initialProbability j target laws row, ← Finset.sum_mul]
  have : ∑ i ∈ Finset.range l.levels.length, (l.weights j row).getD i 0 = 1 := by
    have h1 := sum_zip_eq hd.1 fun _ q => q
    rw [← h1]
    have h2 : ((l.levels.zip (l.weights j row)).map fun x => x.2) = l.weights j row :=
      List.map_snd_zip (by rw [hd.1])
    rw [h2, hd.2.2]
  rw [this, one_mul]

theorem fillColumn_getElem?_ne (c v i : Nat) (row : CharRow) (h : c ≠ i) : (fillColumn c row v)[i]? = row[i]? := by
  unfold fillColumn
  rw [List.getElem?_modify]
  cases row[i]? <;> simp [h]

theorem fillColumn_getElem?_missing (c v : Nat) (row : CharRow) (h : row[c]? = some none) :
    (fillColumn c row v)[c]? = some (some v) := by
  unfold fillColumn
  rw [List.getElem?_modify, h]
  simp

/-- Known characteristics are kept. -/
theorem initialProbability_kept {j : Nat} {target : CharRow} {c : Nat} {v : Nat} (ht : target[c]? ≠ some (some v)) :
    ∀ {laws : List CharacteristicLaw} {row : CharRow}, row[c]? = some (some v) →
      initialProbability j target laws row = 0 := by
  intro laws
  induction laws with
  | nil =>
    intro row hr
    rw [initialProbability, if_neg]
    rintro rfl
    exact ht hr
  | cons l laws ih =>
    intro row hr
    rw [initialProbability]
    refine List.sum_eq_zero fun y hy => ?_
    obtain ⟨x, _, rfl⟩ := List.mem_map.1 hy
    rw [ih, mul_zero]
    by_cases hc : l.column = c
    · subst hc
      unfold fillColumn
      rw [List.getElem?_modify, hr]
      simp
    · rw [fillColumn_getElem?_ne _ _ _ _ hc, hr]

/-- **C111.** A characteristic which is missing has the level of the target with the probability of this level, given the
characteristics known so far. -/
theorem C111_missing_characteristics {j : Nat} {target : CharRow} {l : CharacteristicLaw} {laws : List CharacteristicLaw}
    {row : CharRow} (hnd : l.levels.Nodup) (hd : IsDistribution l.levels (l.weights j row))
    (hmissing : row[l.column]? = some none) {i v : Nat} {q : ℝ} (hv : l.levels[i]? = some v)
    (hq : (l.weights j row)[i]? = some q) (htarget : target[l.column]? = some (some v)) :
    initialProbability j target (l :: laws) row = q * initialProbability j target laws (fillColumn l.column row v) := by
  obtain ⟨hi, hvi⟩ := List.getElem?_eq_some_iff.1 hv
  obtain ⟨hi', hqi⟩ := List.getElem?_eq_some_iff.1 hq
  rw [initialProbability, sum_zip_eq hd.1 fun x q => q * initialProbability j target laws (fillColumn l.column row x),
    Finset.sum_eq_single_of_mem i (Finset.mem_range.2 hi)]
  · rw [getD_of_lt hi, getD_of_lt hi', hvi, hqi]
  · intro i' hi2 hne
    have hi2 := Finset.mem_range.1 hi2
    rw [getD_of_lt hi2, initialProbability_kept (c := l.column) (v := l.levels[i']), mul_zero]
    · rw [htarget]
      intro h
      simp only [Option.some.injEq] at h
      rw [← hvi] at h
      exact hne ((List.Nodup.getElem_inj_iff hnd).1 h.symm)
    · exact fillColumn_getElem?_missing _ _ _ hmissing

/-- **C111.** The characteristic which is sampled last: its level has the probability given by all the other
characteristics, which have their own distribution. -/
theorem C111_last_characteristic {j : Nat} {target : CharRow} {l : CharacteristicLaw} {v i : Nat}
    (hnd : l.levels.Nodup) (hv : l.levels[i]? = some v) (htarget : target[l.column]? = some (some v)) :
    ∀ {laws : List CharacteristicLaw} {R : CharRow → Prop}, GoodLaws j (laws ++ [l]) R → l.column ∉ laws.map (·.column) →
      ∀ {row : CharRow}, R row → row[l.column]? = some none →
        initialProbability j target (laws ++ [l]) row =
          initialProbability j (target.set l.column none) laws row *
            (l.weights j (target.set l.column none)).getD i 0 := by
  intro laws
  induction laws with
  | nil =>
    intro R hg _ row hr hmissing
    obtain ⟨_, hd, _⟩ := hg
    have hd := hd row hr
    obtain ⟨hi, hvi⟩ := List.getElem?_eq_some_iff.1 hv
    have hi' : i < (l.weights j row).length := by rw [hd.1]; exact hi
    rw [List.nil_append, C111_missing_characteristics hnd hd hmissing hv (List.getElem?_eq_getElem hi') htarget]
    have hiff : fillColumn l.column row v = target ↔ row = target.set l.column none := by
      constructor
      · rintro rfl
        refine List.ext_getElem? fun k => ?_
        by_cases hk : l.column = k
        · subst hk
          rw [List.getElem?_set_self (by
            rw [fillColumn, List.length_modify]; exact (List.getElem?_eq_some_iff.1 hmissing).1), hmissing]
        · rw [List.getElem?_set_ne hk, fillColumn_getElem?_ne _ _ _ _ hk]
      · intro h
        refine List.ext_getElem? fun k => ?_
        by_cases hk : l.column = k
        · subst hk
          rw [fillColumn_getElem?_missing _ _ _ hmissing, htarget]
        · rw [fillColumn_getElem?_ne _ _ _ _ hk, h, List.getElem?_set_ne hk]
    rw [initialProbability, initialProbability]
    by_cases h : row = target.set l.column none
    · rw [if_pos h, if_pos (hiff.2 h), mul_one, one_mul, ← h, getD_of_lt hi']
    · rw [if_neg h, if_neg fun h' => h (hiff.1 h'), mul_zero, zero_mul]
  | cons k laws ih =>
    intro R hg hcol row hr hmissing
    obtain ⟨_, hd, hgood⟩ := hg
    simp only [List.map_cons, List.mem_cons, not_or] at hcol
    rw [List.cons_append, initialProbability, initialProbability, ← List.sum_map_mul_right]
    refine congrArg List.sum (List.map_congr_left fun x hx => ?_)
    rw [ih hgood hcol.2 ⟨row, hr, x.1, (List.of_mem_zip hx).1, rfl⟩
      (by rw [fillColumn_getElem?_ne _ _ _ _ (Ne.symm hcol.1), hmissing]), mul_assoc]

end

end Respy
