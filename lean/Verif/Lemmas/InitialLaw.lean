import Verif.Lemmas.Grounded
import Verif.Lemmas.StateCovariates
import Verif.Lemmas.InitialDistribution
import Verif.Lemmas.SampleOrder
import Verif.Spec.InitialLaw

/-! Helper lemmas: the distribution of initial characteristics of a model. -/

namespace Respy

section
variable {V : Type _} (eval : (Str → Option V) → Str → Option V) (notna : V → Bool) (checkNans : Bool)
  (P : Frame V → Prop) (defs : List (Str × CovariateDef))

/-- An invariant of computed covariates. -/
theorem computePass_inv (hP : ∀ df c (d : CovariateDef) v, P df → (c, d) ∈ defs → c ∉ df.columns.keys →
      isReady notna checkNans df d = true → eval df.lookup d.formula = some v → P ⟨df.columns.insert c v, df.index⟩) :
    ∀ (l : List (Str × CovariateDef)) (df df' : Frame V) (left : List (Str × CovariateDef)), (∀ x ∈ l, x ∈ defs) → P df →
      computePass eval notna checkNans df l = .ok (df', left) → P df' := by
  intro l
  induction l with
  | nil =>
    intro df df' left _ hdf h
    cases h
    exact hdf
  | cons x rest ih =>
    obtain ⟨c, d⟩ := x
    intro df df' left hl hdf h
    have hl' := fun x hx => hl x (List.mem_cons_of_mem _ hx)
    unfold computePass at h
    split at h
    · exact ih df df' left hl' hdf h
    · next hc =>
      split at h
      · next hr =>
        split at h
        · cases h
        · next v hv => exact ih _ df' left hl' (hP df c d v hdf (hl _ List.mem_cons_self) hc hr hv) h
      · split at h
        · cases h
        · next df₁ left₁ hp =>
          cases h
          exact ih df _ _ hl' hdf hp

theorem computeLoop_inv (hP : ∀ df c (d : CovariateDef) v, P df → (c, d) ∈ defs → c ∉ df.columns.keys →
      isReady notna checkNans df d = true → eval df.lookup d.formula = some v → P ⟨df.columns.insert c v, df.index⟩) :
    ∀ (fuel : Nat) (l : List (Str × CovariateDef)) (df df' : Frame V) (left : List (Str × CovariateDef)),
      (∀ x ∈ l, x ∈ defs) → P df → computeLoop eval notna checkNans fuel df l = .ok (df', left) → P df' := by
  intro fuel
  induction fuel with
  | zero => intro l df df' left _ _ h; cases h
  | succ fuel ih =>
    intro l df df' left hl hdf h
    simp only [computeLoop] at h
    split at h
    · cases h
    · next df₁ left₁ hp =>
      have h1 := computePass_inv eval notna checkNans P defs hP l df df₁ left₁ hl hdf hp
      split at h
      · exact ih left₁ df₁ df' left
          (fun x hx => hl x ((computePass_columns eval notna checkNans l df df₁ left₁ hp).2.2.1 x hx)) h1 h
      · cases h
        exact h1

end

noncomputable section
variable {env : ProcessEnv} {m : UserModel} {p : Processed} {ev : FormulaEval} {covariates : Dict Str Str}

theorem stateColumns_notin (hf : p.FormulasSound ev) {c : Str} (hc : c ∈ Dict.keys p.groups.all) :
    c ∉ p.stateColumns := by
  intro hmem
  refine hf.names c ?_ hc
  unfold Processed.stateColumns at hmem
  unfold coreColumns
  rcases List.mem_append.1 hmem with h | h
  · exact List.mem_append_left _ (List.mem_cons_of_mem _ h)
  · exact List.mem_append_right _ h

theorem initialFrame_none {j : Nat} {row : CharRow} {c : Str} (hc : c ∉ p.stateColumns) :
    Dict.get? (p.initialFrame j row).columns c = none := by
  rw [Dict.get?_eq_none_iff]
  intro hmem
  obtain ⟨kv, hkv, rfl⟩ := List.mem_map.1 hmem
  obtain ⟨x, hx, he⟩ := List.mem_filterMap.1 hkv
  obtain ⟨v, _, rfl⟩ := Option.map_eq_some_iff.1 he
  exact hc (List.mem_of_getElem? (List.mem_zipIdx_iff_getElem?.1 hx))

theorem initialFrame_some (hnd : p.stateColumns.Nodup) {j : Nat} {row : CharRow} {k n : Nat} {x : Str}
    (hx : p.stateColumns[k]? = some x) (hr : (row[k]?).join = some n) :
    Dict.get? (p.initialFrame j row).columns x = some (n : ℝ) := by
  apply Dict.get?_of_mem
  · have : (Dict.keys (p.initialFrame j row).columns).Sublist p.stateColumns := by
      unfold Processed.initialFrame Dict.keys
      dsimp only
      rw [List.map_filterMap]
      have h1 : p.stateColumns = p.stateColumns.zipIdx.map Prod.fst := by simp
      conv_rhs => rw [h1, ← List.filterMap_eq_map]
      generalize p.stateColumns.zipIdx = l
      induction l with
      | nil => simp
      | cons y l ih =>
        rw [List.filterMap_cons, List.filterMap_cons]
        cases hy : (row[y.2]?).join with
        | none => exact ih.cons y.1
        | some v => exact ih.cons_cons y.1
    exact this.nodup hnd
  · exact List.mem_filterMap.2 ⟨(x, k), List.mem_zipIdx_iff_getElem?.2 hx, by dsimp only; rw [hr]; rfl⟩

theorem get?_zipIdx_map' {V : Type} (l : List Str) (hnd : l.Nodup) (f : Nat → V) (j : Nat) (x : Str)
    (hx : l[j]? = some x) : Dict.get? (l.zipIdx.map fun y => (y.1, f y.2)) x = some (f j) := by
  apply Dict.get?_of_mem
  · have : Dict.keys (l.zipIdx.map fun y => (y.1, f y.2)) = l := by
      simp [Dict.keys, List.map_map, Function.comp_def]
    rw [this]; exact hnd
  · exact List.mem_map.2 ⟨(x, j), List.mem_zipIdx_iff_getElem?.2 hx, rfl⟩

/-- The columns of the frame of first periods have the values of each individual. -/
theorem sampleFrame_values (hf : p.FormulasSound ev) (hnames : p.stateColumns.Nodup) {fp : List CharRow}
    {df : Frame (List (Option ℝ))} (hdf : p.sampleFrame ev fp = some df) {i : Nat} {row : CharRow}
    (hi : fp[i]? = some row) {x : Str} {v : ℝ} (hx : frameValue df i x = some v) :
    ColumnValue ev.value (fun _ => true) false (p.initialFrame i row) p.groups.all x v := by
  have hilt : i < fp.length := (List.getElem?_eq_some_iff.1 hi).1
  unfold Processed.sampleFrame at hdf
  dsimp only at hdf
  have h := toOption_eq_some hdf
  unfold computeCovariates at h
  split at h
  · cases h
  · next df₁ left hl =>
    split at h
    · cases h
    · cases h
      have hinv := computeLoop_inv _ _ _ (fun df : Frame (List (Option ℝ)) => ∀ k col, df.lookup k = some col →
        col.length = fp.length ∧ ∀ w, col[i]? = some (some w) →
          ColumnValue ev.value (fun _ => true) false (p.initialFrame i row) p.groups.all k w)
        p.groups.all ?_ _ _ _ _ _ (fun _ h => h) ?_ hl
      · unfold frameValue at hx
        obtain ⟨col, h1, h2⟩ := Option.bind_eq_some_iff.1 hx
        exact (hinv x col (by unfold Frame.lookup; rw [h1]; rfl)).2 v (Option.join_eq_some_iff.1 h2)
      · intro df c d val hPdf hcd hc hr hv k col hk
        unfold Frame.lookup at hk
        dsimp only at hk
        rw [Dict.get?_insert] at hk
        split at hk
        · next e =>
          subst e
          simp only [Option.some_or, Option.some.injEq] at hk
          subst hk
          refine ⟨(column_complete ev _ _ _ _ hv).1, fun w hw => ?_⟩
          unfold FormulaEval.column at hv
          have h1 := mapM_getElem? _ _ _ hv i i (by simp [hilt])
          rw [hw] at h1
          obtain ⟨w', h2, h3⟩ := Option.map_eq_some_iff.1 h1.symm
          cases h3
          refine .computed c d _ w (initialFrame_none (stateColumns_notin hf (List.mem_map.2 ⟨_, hcd, rfl⟩))) hcd
            (fun x hx => ?_) (fun x hx y hy => ?_) h2
          · unfold isReady at hr
            simp only [Bool.and_eq_true, List.all_eq_true, Bool.or_eq_true, Bool.not_eq_true'] at hr
            rcases hr.2 with h | h
            · cases h
            · obtain ⟨col, hcol, hall⟩ := (Option.any_eq_true _ _).1 (h x hx)
              have hlt : i < col.length := by rw [(hPdf x col hcol).1]; exact hilt
              have := List.all_eq_true.1 hall _ (List.getElem_mem hlt)
              obtain ⟨y, hy⟩ := Option.isSome_iff_exists.1 this
              refine ⟨y, ?_, fun _ => rfl⟩
              rw [hcol, Option.bind_some, List.getElem?_eq_getElem hlt, hy]
              rfl
          · obtain ⟨col', h4, h5⟩ := Option.bind_eq_some_iff.1 hy
            exact (hPdf x col' h4).2 y (Option.join_eq_some_iff.1 h5)
        · exact hPdf k col hk
      · intro k col hk
        refine ⟨(goodFrame_start p fp).1 k col hk, fun w hw => .given k w ?_⟩
        unfold Frame.lookup at hk ⊢
        dsimp only at hk
        by_cases hk' : k ∈ p.stateColumns
        · obtain ⟨n, hn⟩ := List.mem_iff_getElem?.1 hk'
          rw [get?_zipIdx_map' p.stateColumns hnames (fun n => fp.map fun row =>
            ((row[n]?).join).map fun (v : Nat) => (v : ℝ)) n k hn, Option.some_or, Option.some.injEq] at hk
          subst hk
          rw [List.getElem?_map, hi, Option.map_some, Option.some.injEq] at hw
          obtain ⟨y, h1, rfl⟩ := Option.map_eq_some_iff.1 hw
          rw [initialFrame_some hnames hn h1]
          rfl
        · rw [initialFrame_none hk', Option.none_or]
          have h0 : Dict.get? (p.stateColumns.zipIdx.map fun x => (x.1, fp.map fun row =>
              ((row[x.2]?).join).map fun (v : Nat) => (v : ℝ))) k = none := by
            rw [Dict.get?_eq_none_iff]
            intro hm
            apply hk'
            simpa [Dict.keys, List.map_map, Function.comp_def] using hm
          rw [h0, Option.none_or] at hk
          show Dict.get? [("identifier".toList, (i : ℝ)), ("period".toList, 0)] k = some w
          have h1 : ("identifier".toList : Str) ≠ "period".toList := by decide
          by_cases e1 : "identifier".toList = k
          · rw [Dict.get?, if_pos e1] at hk ⊢
            simp only [Option.some.injEq] at hk
            subst hk
            simpa [hilt] using hw
          · rw [Dict.get?, if_neg e1] at hk ⊢
            by_cases e2 : "period".toList = k
            · rw [Dict.get?, if_pos e2] at hk ⊢
              simp only [Option.some.injEq] at hk
              subst hk
              rw [List.getElem?_replicate, if_pos hilt] at hw
              simpa using hw
            · rw [Dict.get?, if_neg e2] at hk
              cases hk

/-- The values of an individual are unique. -/
theorem initialValue_eq (hf : p.FormulasSound ev) (facts : GroupFacts p)
    (hid : "identifier".toList ∉ Dict.keys p.groups.all) {j : Nat} {row : CharRow} {x : Str} {v : ℝ}
    (h : ColumnValue ev.value (fun _ => true) false (p.initialFrame j row) p.groups.all x v) :
    p.initialValue ev j row x = some v := by
  unfold Processed.initialValue
  have hex : ∃ v, ColumnValue ev.value (fun _ => true) false (p.initialFrame j row) p.groups.all x v := ⟨v, h⟩
  rw [dif_pos hex, Option.some.injEq]
  refine ColumnValue.unique facts.nodup (fun c hc => ?_) (fun c d hcd => hf.accurate c d hcd) hex.choose_spec h
  rw [Dict.get?_eq_none_iff]
  intro hk
  simp only [Processed.initialFrame, Dict.keys, List.map_cons, List.map_nil, List.mem_cons, List.not_mem_nil, or_false] at hk
  rcases hk with rfl | rfl
  · exact hid hc
  · exact hf.names _ (List.mem_append_left _ (by simp [coreColumns])) hc

theorem followLaws_mono {n : Nat} : ∀ {chars : List (Characteristic ℝ)} {laws : List CharacteristicLaw}
    {R R' : Nat → CharRow → Prop}, (∀ j row, R j row → R' j row) → FollowLaws n chars laws R' →
      FollowLaws n chars laws R := by
  intro chars
  induction chars with
  | nil =>
    intro laws R R' _ h
    cases laws with
    | nil => trivial
    | cons l laws => exact h
  | cons ch chars ih =>
    intro laws R R' hR h
    cases laws with
    | nil => exact h
    | cons l laws =>
      obtain ⟨h1, h2, h3, h4, h5, h6⟩ := h
      exact ⟨h1, h2, h3, fun fp hl hr => h4 fp hl fun j row hj => hR j row (hr j row hj),
        fun j hj row hr => h5 j hj row (hR j row hr),
        ih (fun j row' ⟨row, hr, v, hv, he⟩ => ⟨row, hR j row hr, v, hv, he⟩) h6⟩

theorem logit_eq_softmax (z : List ℝ) : logit z = softmax z := rfl

theorem logit_isDistribution {levels : List Nat} {z : List ℝ} (hl : z.length = levels.length) (hne : z ≠ []) :
    IsDistribution levels (logit z) := by
  rw [logit_eq_softmax]
  exact ⟨by simp [softmax, hl], fun q hq => softmax_nonneg z q hq, softmax_sum z hne⟩

theorem levelProbabilities_eq (hf : p.FormulasSound ev) (facts : GroupFacts p) (hnames : p.stateColumns.Nodup)
    (hid : "identifier".toList ∉ Dict.keys p.groups.all) (v : SampledVariable) (fp : List CharRow)
    (df : Frame (List (Option ℝ))) (hdf : p.sampleFrame ev fp = some df)
    (hcov : ∀ i < fp.length, ∀ beta ∈ v.betas, ∀ item ∈ beta, (frameValue df i item.1).isSome) :
    (p.characteristic ev v).probs fp = fp.mapIdx (p.initialLaw ev v).weights := by
  have hrow : ∀ i row, fp[i]? = some row → v.betas.mapM (pandasDot (frameValue df i)) =
      some (v.betas.map fun beta => (beta.map fun item => item.2 * (p.initialValue ev i row item.1).getD 0).sum) := by
    intro i row hi
    have hilt : i < fp.length := (List.getElem?_eq_some_iff.1 hi).1
    have : ∀ l : List (List (Str × ℝ)), (∀ beta ∈ l, beta ∈ v.betas) → l.mapM (pandasDot (frameValue df i)) =
        some (l.map fun beta => (beta.map fun item => item.2 * (p.initialValue ev i row item.1).getD 0).sum) := by
      intro l hl
      induction l with
      | nil => rfl
      | cons beta l ih =>
        have hb := hl beta List.mem_cons_self
        rw [List.mapM_cons, pandasDot_eq _ _ fun item hit => hcov i hilt beta hb item hit,
          ih fun b hb => hl b (List.mem_cons_of_mem _ hb)]
        have : linearIndex (frameValue df i) beta =
            (beta.map fun item => item.2 * (p.initialValue ev i row item.1).getD 0).sum := by
          unfold linearIndex
          refine congrArg List.sum (List.map_congr_left fun item hit => ?_)
          obtain ⟨y, hy⟩ := Option.isSome_iff_exists.1 (hcov i hilt beta hb item hit)
          rw [hy, initialValue_eq hf facts hid (sampleFrame_values hf hnames hdf hi hy)]
        rw [this]
        rfl
    exact this _ fun _ h => h
  unfold Processed.characteristic Processed.levelProbabilities
  dsimp only
  rw [hdf, Option.bind_eq_bind, Option.bind_some]
  obtain ⟨r, hr, _⟩ := mapM_option_exists (List.range fp.length)
    (fun i => (v.betas.mapM (pandasDot (frameValue df i))).map softmax) (fun i hi => by
      have hi := List.mem_range.1 hi
      exact ⟨_, by rw [hrow i _ (List.getElem?_eq_getElem hi)]; rfl⟩)
  rw [hr, Option.getD_some]
  have hlen : r.length = fp.length := by simpa using mapM_eq_some_length _ _ _ hr
  refine List.ext_getElem (by simp [hlen]) fun i h1 h2 => ?_
  have hi : i < fp.length := by omega
  have h3 := mapM_getElem? _ _ _ hr i i (by simp [hi])
  rw [hrow i _ (List.getElem?_eq_getElem hi), List.getElem?_eq_getElem h1, Option.map_some, Option.some.injEq] at h3
  rw [h3, List.getElem_mapIdx]
  rfl

/-- The characteristics of a model have multinomial logit distributions. -/
theorem followLaws_of_samplable (h : ProcessedFrom env m p covariates) (hc : (Dict.keys m.covariates).Nodup)
    (hchoice : p.choices.choices ≠ []) (hobs : ∀ o ∈ p.observables, o.2 ≠ []) (hf : p.FormulasSound ev)
    (hid : "identifier".toList ∉ Dict.keys p.groups.all)
    (hnodup : ∀ v ∈ p.sampledVariables, v.levels.Nodup) {input : List CharRow}
    (hwidth : ∀ row ∈ input, row.length = p.stateColumns.length) (hsam : p.Samplable ev input) :
    FollowLaws input.length (p.sampledVariables.map (p.characteristic ev)) (p.sampledVariables.map (p.initialLaw ev))
      fun j row => input[j]? = some row := by
  have facts := h.groupFacts hc
  have key : ∀ rest pre, p.sampledVariables = pre ++ rest → FollowLaws input.length (rest.map (p.characteristic ev))
      (rest.map (p.initialLaw ev)) fun _ row => row.length = p.stateColumns.length ∧ ∀ x ∈ p.stateColumns,
        (KnownColumns [p.stateColumns.idxOf x] input ∨ x ∈ pre.map SampledVariable.name) →
          row[p.stateColumns.idxOf x]? ≠ some none := by
    intro rest
    induction rest with
    | nil => intro pre _; trivial
    | cons v rest ih =>
      intro pre hsplit
      have hv : v ∈ p.sampledVariables := by rw [hsplit]; simp
      obtain ⟨g1, g2⟩ := sampledVariable_levels h hchoice hobs hsam.lags hsam.types v hv
      refine ⟨rfl, rfl, hnodup v hv, fun fp hl hr => ?_, fun j _ row _ => ?_, ?_⟩
      · obtain ⟨df, hdf, hcov⟩ := hsam.covariates pre v rest hsplit fp hl
          (fun row hrow => by
            obtain ⟨j, hj⟩ := List.mem_iff_getElem?.1 hrow
            exact (hr j row hj).1)
          (fun x hx hor c hc row hrow => by
            rw [List.mem_singleton] at hc
            subst hc
            obtain ⟨j, hj⟩ := List.mem_iff_getElem?.1 hrow
            exact (hr j row hj).2 x hx hor)
        exact levelProbabilities_eq hf facts hsam.names hid v fp df hdf hcov
      · refine logit_isDistribution (by rw [List.length_map, ← g2]; rfl) ?_
        intro h0
        apply g1
        rw [List.map_eq_nil_iff] at h0
        exact List.length_eq_zero_iff.1 (by rw [g2, h0]; rfl)
      · refine followLaws_mono ?_ (ih (pre ++ [v]) (by rw [hsplit]; simp))
        rintro _ row' ⟨row, ⟨hl, hk⟩, val, _, rfl⟩
        refine ⟨by rw [fillColumn, List.length_modify, hl], fun x hx hor => ?_⟩
        show (fillColumn (p.stateColumns.idxOf v.name) row val)[p.stateColumns.idxOf x]? ≠ some none
        unfold fillColumn
        rw [List.getElem?_modify]
        by_cases hxv : p.stateColumns.idxOf v.name = p.stateColumns.idxOf x
        · simp only [if_pos hxv]
          cases row[p.stateColumns.idxOf x]? with
          | none => simp
          | some y => cases y <;> simp
        · simp only [if_neg hxv]
          have : row[p.stateColumns.idxOf x]? ≠ some none := by
            refine hk x hx (hor.imp id fun hm => ?_)
            rw [List.map_append, List.mem_append] at hm
            rcases hm with hm | hm
            · exact hm
            · rw [List.map_singleton, List.mem_singleton] at hm
              exact absurd (by rw [hm]) hxv
          simpa using this
  refine followLaws_mono ?_ (key p.sampledVariables [] rfl)
  intro j row hj
  have hmem := List.mem_of_getElem? hj
  refine ⟨hwidth row hmem, fun x _ hor => ?_⟩
  rcases hor with hk | hk
  · exact hk _ (by simp) row hmem
  · cases hk

end

end Respy
