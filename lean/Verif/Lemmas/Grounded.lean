import Verif.Lemmas.ProcessSimulate

/-! Helper lemmas: covariates of frames with missing values. -/

namespace Respy

section
variable {V : Type _} (eval : (Str → Option V) → Str → Option V) (notna : V → Bool) (checkNans : Bool)
  (P : Frame V → Prop)

theorem computePass_ready (hP : ∀ df c (d : CovariateDef) v, P df → eval df.lookup d.formula = some v → c ∉ df.columns.keys →
      P ⟨df.columns.insert c v, df.index⟩) :
    ∀ (l : List (Str × CovariateDef)) (df : Frame V), P df →
    (∀ cd ∈ l, ∀ df, P df → isReady notna checkNans df cd.2 = true → (eval df.lookup cd.2.formula).isSome) →
    ∃ df' left, computePass eval notna checkNans df l = .ok (df', left) ∧ P df' ∧ left.length ≤ l.length ∧
      (∀ cd ∈ left, cd ∈ l) ∧
      (left.length = l.length → df' = df ∧ ∀ cd ∈ left, isReady notna checkNans df' cd.2 = false) := by
  intro l
  induction l with
  | nil => intro df hdf _; exact ⟨df, [], rfl, hdf, le_refl _, fun _ h => h, fun _ => ⟨rfl, fun _ h => by cases h⟩⟩
  | cons x rest ih =>
    obtain ⟨c, d⟩ := x
    intro df hdf hev
    have hev' := fun cd hcd => hev cd (List.mem_cons_of_mem _ hcd)
    unfold computePass
    split
    · obtain ⟨df', left, h1, h2, h3, h4, _⟩ := ih df hdf hev'
      refine ⟨df', left, h1, h2, by simp only [List.length_cons]; omega, fun cd h => List.mem_cons_of_mem _ (h4 cd h), ?_⟩
      intro h; simp only [List.length_cons] at h; omega
    · next hc =>
      split
      · next hr =>
        obtain ⟨v, hv⟩ := Option.isSome_iff_exists.1 (hev (c, d) (by simp) df hdf hr)
        dsimp only at hv
        rw [hv]
        obtain ⟨df', left, h1, h2, h3, h4, _⟩ := ih _ (hP df c d v hdf hv hc) hev'
        refine ⟨df', left, h1, h2, by simp only [List.length_cons]; omega,
          fun cd h => List.mem_cons_of_mem _ (h4 cd h), ?_⟩
        intro h; simp only [List.length_cons] at h; omega
      · next hr =>
        obtain ⟨df', left, h1, h2, h3, h4, h5⟩ := ih df hdf hev'
        rw [h1]
        refine ⟨df', (c, d) :: left, rfl, h2, by simp only [List.length_cons]; omega, ?_, ?_⟩
        · intro cd hcd
          rcases List.mem_cons.1 hcd with rfl | hcd
          · simp
          · exact List.mem_cons_of_mem _ (h4 cd hcd)
        · intro h
          simp only [List.length_cons, Nat.add_right_cancel_iff] at h
          obtain ⟨h6, h7⟩ := h5 h
          refine ⟨h6, fun cd hcd => ?_⟩
          rcases List.mem_cons.1 hcd with rfl | hcd
          · rw [h6]; simpa using hr
          · exact h7 cd hcd

theorem computeLoop_ready (hP : ∀ df c (d : CovariateDef) v, P df → eval df.lookup d.formula = some v → c ∉ df.columns.keys →
      P ⟨df.columns.insert c v, df.index⟩) :
    ∀ (fuel : Nat) (l : List (Str × CovariateDef)) (df : Frame V), l.length < fuel → P df →
    (∀ cd ∈ l, ∀ df, P df → isReady notna checkNans df cd.2 = true → (eval df.lookup cd.2.formula).isSome) →
    ∃ df' left, computeLoop eval notna checkNans fuel df l = .ok (df', left) ∧ P df' ∧
      ∀ cd ∈ left, isReady notna checkNans df' cd.2 = false := by
  intro fuel
  induction fuel with
  | zero => intro l df h; omega
  | succ fuel ih =>
    intro l df hl hdf hev
    obtain ⟨df', left, h1, h2, h3, h4, h5⟩ := computePass_ready eval notna checkNans P hP l df hdf hev
    unfold computeLoop
    rw [h1]
    dsimp only
    split
    · next hne => exact ih left df' (by omega) h2 fun cd hcd => hev cd (h4 cd hcd)
    · next he => exact ⟨df', left, rfl, h2, (h5 (by omega)).2⟩

end

section
variable {p : Processed} {ev : FormulaEval}

theorem column_isSome (ev : FormulaEval) (n : Nat) (lookup : Str → Option (List (Option ℝ))) (formula : Str)
    (h : ∀ i < n, (ev.value (fun x => (lookup x).bind fun c => (c[i]?).join) formula).isSome) :
    (ev.column n lookup formula).isSome := by
  unfold FormulaEval.column
  obtain ⟨r, hr, _⟩ := mapM_option_exists (List.range n) (fun i =>
    (ev.value (fun x => (lookup x).bind fun c => (c[i]?).join) formula).map some) (fun i hi => by
    obtain ⟨v, hv⟩ := Option.isSome_iff_exists.1 (h i (List.mem_range.1 hi))
    exact ⟨some v, by rw [hv]; rfl⟩)
  rw [hr]; rfl

theorem column_complete (ev : FormulaEval) (n : Nat) (lookup : Str → Option (List (Option ℝ))) (formula : Str)
    (col : List (Option ℝ)) (h : ev.column n lookup formula = some col) :
    col.length = n ∧ ∀ x ∈ col, x.isSome := by
  unfold FormulaEval.column at h
  refine ⟨by simpa using mapM_eq_some_length _ _ _ h, fun x hx => ?_⟩
  obtain ⟨i, _, hi⟩ := mem_of_mapM_eq_some _ _ _ h x hx
  obtain ⟨v, _, rfl⟩ := Option.map_eq_some_iff.1 hi
  rfl

/-- Columns have one value per individual, and those which are not state variables are complete. -/
def Processed.GoodFrame (p : Processed) (n : Nat) (df : Frame (List (Option ℝ))) : Prop :=
  (∀ k col, df.lookup k = some col → col.length = n) ∧
  (∀ k col, df.columns.get? k = some col → k ∉ p.stateColumns → ∀ x ∈ col, x.isSome) ∧
  df.index.get? "period".toList = some (List.replicate n (some 0))

theorem goodFrame_insert (n : Nat) (df : Frame (List (Option ℝ))) (c : Str) (d : CovariateDef)
    (v : List (Option ℝ)) (h : p.GoodFrame n df) (hv : ev.column n df.lookup d.formula = some v) :
    p.GoodFrame n ⟨df.columns.insert c v, df.index⟩ := by
  obtain ⟨h1, h2⟩ := column_complete ev n _ _ v hv
  refine ⟨fun k col hk => ?_, fun k col hk hs => ?_, h.2.2⟩
  · unfold Frame.lookup at hk
    dsimp only at hk
    rw [Dict.get?_insert] at hk
    split at hk
    · simp only [Option.some_or, Option.some.injEq] at hk
      rw [← hk]; exact h1
    · exact h.1 k col hk
  · dsimp only at hk
    rw [Dict.get?_insert] at hk
    split at hk
    · simp only [Option.some.injEq] at hk
      rw [← hk]; exact h2
    · exact h.2.1 k col hk hs

theorem ready_evaluates (n : Nat) (df : Frame (List (Option ℝ))) (cd : Str × CovariateDef)
    (hdef : ∀ row : Str → Option ℝ, (∀ x ∈ cd.2.dependsOn, (row x).isSome) → (ev.value row cd.2.formula).isSome)
    (hdf : p.GoodFrame n df) (hr : isReady (fun c : List (Option ℝ) => c.all Option.isSome) true df cd.2 = true) :
    (ev.column n df.lookup cd.2.formula).isSome := by
  refine column_isSome ev n _ _ fun i hi => hdef _ fun x hx => ?_
  unfold isReady at hr
  simp only [Bool.and_eq_true, List.all_eq_true, Bool.or_eq_true, Bool.not_eq_true'] at hr
  rcases hr.2 with h | h
  · cases h
  · obtain ⟨col, hcol, hall⟩ := (Option.any_eq_true _ _).1 (h x hx)
    rw [hcol, Option.bind_some]
    have hlen := hdf.1 x col hcol
    have hlt : i < col.length := by omega
    rw [List.getElem?_eq_getElem hlt]
    have := List.all_eq_true.1 hall _ (List.getElem_mem hlt)
    simpa using this

/-- The first frame is good. -/
theorem goodFrame_start (p : Processed) (fp : List CharRow) :
    p.GoodFrame fp.length ⟨p.stateColumns.zipIdx.map fun x => (x.1, fp.map fun row =>
        ((row[x.2]?).join).map fun (v : Nat) => (v : ℝ)),
      [("identifier".toList, (List.range fp.length).map fun (i : Nat) => some (i : ℝ)),
       ("period".toList, List.replicate fp.length (some 0))]⟩ := by
  refine ⟨fun k col hk => ?_, fun k col hk hs => ?_, rfl⟩
  · unfold Frame.lookup at hk
    dsimp only at hk
    rcases Option.or_eq_some_iff.1 hk with hk | ⟨_, hk⟩
    · obtain ⟨x, _, hx⟩ := List.mem_map.1 (Dict.mem_of_get? _ _ _ hk)
      cases hx
      simp
    · have := Dict.mem_of_get? _ _ _ hk
      simp only [List.mem_cons, List.not_mem_nil, or_false, Prod.mk.injEq] at this
      rcases this with ⟨_, rfl⟩ | ⟨_, rfl⟩ <;> simp
  · dsimp only at hk
    obtain ⟨x, hx, he⟩ := List.mem_map.1 (Dict.mem_of_get? _ _ _ hk)
    cases he
    exact absurd (List.mem_of_getElem? (List.mem_zipIdx_iff_getElem?.1 hx)) hs

/-- Variables which can be computed are known. -/
theorem sampleFrame_grounded (hnd : p.stateColumns.Nodup) (hdef : p.FormulasDefined ev) (fp : List CharRow)
    (hwidth : ∀ row ∈ fp, row.length = p.stateColumns.length) (known : Str → Prop)
    (hknown : ∀ x, known x → x = "period".toList ∨ (x ∈ p.stateColumns ∧ KnownColumns [p.stateColumns.idxOf x] fp))
    (hperiod : "period".toList ∉ Dict.keys p.groups.all ++ p.stateColumns) :
    ∃ df, p.sampleFrame ev fp = some df ∧ ∀ x, p.Grounded known x → ∃ col, df.lookup x = some col ∧
      col.length = fp.length ∧ (∀ v ∈ col, v.isSome) ∧ (x ≠ "period".toList →
        ∀ i < fp.length, (frameValue df i x).isSome) := by
  set start : Frame (List (Option ℝ)) := ⟨p.stateColumns.zipIdx.map fun x => (x.1, fp.map fun row =>
        ((row[x.2]?).join).map fun (v : Nat) => (v : ℝ)),
      [("identifier".toList, (List.range fp.length).map fun (i : Nat) => some (i : ℝ)),
       ("period".toList, List.replicate fp.length (some 0))]⟩ with hstart
  obtain ⟨df, left, h1, h2, h3⟩ := computeLoop_ready (ev.column fp.length) (fun c => c.all Option.isSome) true
    (p.GoodFrame fp.length) (fun df c d v h hv _ => goodFrame_insert fp.length df c d v h hv)
    (p.groups.all.length + 1) p.groups.all start (Nat.lt_succ_self _) (goodFrame_start p fp)
    (fun cd hcd df hdf hr => ready_evaluates fp.length df cd (hdef cd hcd) hdf hr)
  obtain ⟨g1, g2, g3, g4⟩ := computeLoop_columns _ _ _ _ _ _ _ _ h1
  have hval : ∀ x col, Dict.get? df.columns x = some col → col.length = fp.length → (∀ v ∈ col, v.isSome) →
      ∀ i < fp.length, (frameValue df i x).isSome := by
    intro x col hc hl ha i hi
    unfold frameValue
    rw [hc, Option.bind_some]
    have hlt : i < col.length := by omega
    rw [List.getElem?_eq_getElem hlt]
    simpa using ha _ (List.getElem_mem hlt)
  refine ⟨df, ?_, fun x hx => ?_⟩
  · unfold Processed.sampleFrame computeCovariates
    dsimp only
    rw [← hstart, h1]
    simp [Except.toOption]
  · induction hx with
    | known x hx =>
      rcases hknown x hx with rfl | ⟨hs, hk⟩
      · have hn : Dict.get? df.columns "period".toList = none := by
          rw [Dict.get?_eq_none_iff]
          intro hk
          rcases g2 _ hk with h | h
          · apply hperiod
            refine List.mem_append_right _ ?_
            simpa [hstart, Dict.keys, List.map_map, Function.comp_def] using h
          · exact hperiod (List.mem_append_left _ h)
        have hlk : df.lookup "period".toList = some (List.replicate fp.length (some 0)) := by
          unfold Frame.lookup
          rw [hn, Option.none_or]
          exact h2.2.2
        refine ⟨_, hlk, by simp, ?_, ?_⟩
        · intro v hv
          rw [(List.mem_replicate.1 hv).2]; rfl
        · intro h
          exact absurd rfl h
      · have hj := List.idxOf_lt_length_iff.2 hs
        have hget : Dict.get? start.columns x = some (fp.map fun row =>
            ((row[p.stateColumns.idxOf x]?).join).map fun (v : Nat) => (v : ℝ)) := by
          rw [hstart]
          apply Dict.get?_of_mem
          · have : Dict.keys (p.stateColumns.zipIdx.map fun x => (x.1, fp.map fun row =>
              ((row[x.2]?).join).map fun (v : Nat) => (v : ℝ))) = p.stateColumns := by
              simp [Dict.keys, List.map_map, Function.comp_def]
            rw [this]; exact hnd
          · refine List.mem_map.2 ⟨(x, p.stateColumns.idxOf x), List.mem_zipIdx_iff_getElem?.2 ?_, rfl⟩
            rw [List.getElem?_eq_getElem hj, List.getElem_idxOf]
        have hcol := g1 x _ hget
        have hall : ∀ v ∈ fp.map fun row => ((row[p.stateColumns.idxOf x]?).join).map fun (v : Nat) => (v : ℝ),
            v.isSome := by
          intro v hv
          obtain ⟨row, hrow, rfl⟩ := List.mem_map.1 hv
          have h5 := hk (p.stateColumns.idxOf x) (by simp) row hrow
          have hlt : p.stateColumns.idxOf x < row.length := by rw [hwidth row hrow]; exact hj
          rw [List.getElem?_eq_getElem hlt] at h5 ⊢
          cases hc : row[p.stateColumns.idxOf x] with
          | none => rw [hc] at h5; exact absurd rfl h5
          | some w => rfl
        refine ⟨_, by unfold Frame.lookup; rw [hcol]; rfl, by simp, hall, fun _ => ?_⟩
        exact hval x _ hcol (by simp) hall
    | covariate c d hcd hs _ ih =>
      have hready : isReady (fun c : List (Option ℝ) => c.all Option.isSome) true df d = true := by
        unfold isReady
        simp only [Bool.and_eq_true, List.all_eq_true, Bool.or_eq_true]
        refine ⟨fun x hx => ?_, Or.inr fun x hx => ?_⟩
        · obtain ⟨col, hcol, _⟩ := ih x hx
          rw [hcol]; rfl
        · obtain ⟨col, hcol, _, ha, _⟩ := ih x hx
          rw [hcol]
          exact List.all_eq_true.2 ha
      have hmem : c ∈ Dict.keys df.columns := by
        rcases g4 (c, d) hcd with h | h
        · have := h3 _ h
          dsimp only at this
          rw [hready] at this; cases this
        · exact h
      obtain ⟨col, hcol⟩ := (get?_isSome_iff df.columns c).2 hmem
      have hlk : df.lookup c = some col := by unfold Frame.lookup; rw [hcol]; rfl
      have ha := h2.2.1 c col hcol hs
      exact ⟨col, hlk, h2.1 c col hlk, ha, fun _ => hval c col hcol (h2.1 c col hlk) ha⟩

end

end Respy
