import Verif.Lemmas.CovariateOrder
import Verif.Model.ProcessSimulate
import Verif.Spec.ProcessSimulate

/-! Helper lemmas: covariates of first periods do not depend on the order of definitions and dependencies. -/

namespace Respy

section
variable {V : Type _} {eval eval' : (Str → Option V) → Str → Option V} {notna : V → Bool} {checkNans : Bool}
  {P : V → Prop}

/-- All values of a frame have a property. -/
def Frame.Holds (P : V → Prop) (df : Frame V) : Prop := ∀ k v, df.lookup k = some v → P v

theorem Frame.Holds.insert {df : Frame V} (h : df.Holds P) (k : Str) (v : V) (hv : P v) :
    Frame.Holds P ⟨df.columns.insert k v, df.index⟩ := by
  intro k' v' hk
  unfold Frame.lookup at hk
  dsimp only at hk
  rw [Dict.get?_insert] at hk
  split at hk
  · rw [Option.some_or] at hk
    exact Option.some.inj hk ▸ hv
  · exact h k' v' hk

/-- Two evaluations agree on a definition whose dependencies are ready. -/
def AgreeOn (eval eval' : (Str → Option V) → Str → Option V) (notna : V → Bool) (checkNans : Bool) (P : V → Prop)
    (d : CovariateDef) : Prop :=
  ∀ df : Frame V, df.Holds P → isReady notna checkNans df d = true →
    eval df.lookup d.formula = eval' df.lookup d.formula ∧ ∀ v, eval df.lookup d.formula = some v → P v

theorem computePass_agree : ∀ (defs : List (Str × CovariateDef)) (df : Frame V),
    (∀ c d, (c, d) ∈ defs → AgreeOn eval eval' notna checkNans P d) → df.Holds P →
    computePass eval notna checkNans df defs = computePass eval' notna checkNans df defs ∧
    ∀ df' left, computePass eval notna checkNans df defs = .ok (df', left) →
      df'.Holds P ∧ ∀ x ∈ left, x ∈ defs := by
  intro defs
  induction defs with
  | nil =>
    intro df _ h
    refine ⟨rfl, fun df' left he => ?_⟩
    simp only [computePass, Except.ok.injEq, Prod.mk.injEq] at he
    obtain ⟨rfl, rfl⟩ := he
    exact ⟨h, fun _ hx => hx⟩
  | cons cd defs ih =>
    intro df ha h
    obtain ⟨c, d⟩ := cd
    have ha' : ∀ c d, (c, d) ∈ defs → AgreeOn eval eval' notna checkNans P d :=
      fun c d hm => ha c d (List.mem_cons_of_mem _ hm)
    have weak : ∀ {df : Frame V}, (∀ df' left, computePass eval notna checkNans df defs = .ok (df', left) →
        df'.Holds P ∧ ∀ x ∈ left, x ∈ defs) → ∀ df' left, computePass eval notna checkNans df defs = .ok (df', left) →
        df'.Holds P ∧ ∀ x ∈ left, x ∈ (c, d) :: defs :=
      fun hh df' left he => ⟨(hh df' left he).1, fun x hx => List.mem_cons_of_mem _ ((hh df' left he).2 x hx)⟩
    by_cases hk : c ∈ df.columns.keys
    · simp only [computePass, if_pos hk]
      exact ⟨(ih df ha' h).1, weak (ih df ha' h).2⟩
    · by_cases hr : isReady notna checkNans df d = true
      · obtain ⟨h1, h2⟩ := ha c d List.mem_cons_self df h hr
        simp only [computePass, if_neg hk, if_pos hr]
        rw [← h1]
        cases hv : eval df.lookup d.formula with
        | none => exact ⟨rfl, fun _ _ he => by cases he⟩
        | some v =>
          dsimp only
          have := ih _ ha' (h.insert c v (h2 v hv))
          exact ⟨this.1, weak this.2⟩
      · obtain ⟨h1, h2⟩ := ih df ha' h
        simp only [computePass, if_neg hk, if_neg hr]
        rw [← h1]
        refine ⟨rfl, fun df' left he => ?_⟩
        cases hp : computePass eval notna checkNans df defs with
        | error e => rw [hp] at he; cases he
        | ok x =>
          obtain ⟨df₁, left₁⟩ := x
          rw [hp] at he
          simp only [Except.ok.injEq, Prod.mk.injEq] at he
          obtain ⟨rfl, rfl⟩ := he
          obtain ⟨h3, h4⟩ := h2 _ _ hp
          refine ⟨h3, fun x hx => ?_⟩
          rcases List.mem_cons.1 hx with rfl | hx
          · exact List.mem_cons_self
          · exact List.mem_cons_of_mem _ (h4 x hx)

theorem computeLoop_agree : ∀ (fuel : Nat) (defs : List (Str × CovariateDef)) (df : Frame V),
    (∀ c d, (c, d) ∈ defs → AgreeOn eval eval' notna checkNans P d) → df.Holds P →
    computeLoop eval notna checkNans fuel df defs = computeLoop eval' notna checkNans fuel df defs := by
  intro fuel
  induction fuel with
  | zero => intros; rfl
  | succ fuel ih =>
    intro defs df ha h
    obtain ⟨h1, h2⟩ := computePass_agree defs df ha h
    simp only [computeLoop]
    rw [← h1]
    cases hp : computePass eval notna checkNans df defs with
    | error e => rfl
    | ok x =>
      obtain ⟨df', left⟩ := x
      obtain ⟨h3, h4⟩ := h2 _ _ hp
      dsimp only
      split
      · exact ih _ _ (fun c d hm => ha c d (h4 _ hm)) h3
      · rfl

theorem computeCovariates_agree {raise : Bool} {df : Frame V} {D : Dict Str CovariateDef}
    (ha : ∀ c d, (c, d) ∈ D → AgreeOn eval eval' notna checkNans P d) (h : df.Holds P) :
    computeCovariates eval notna checkNans raise df D = computeCovariates eval' notna checkNans raise df D := by
  unfold computeCovariates
  rw [computeLoop_agree _ _ _ ha h]

end

/-! ### Columns -/

/-- `ev.column` with a result in any case. -/
def FormulaEval.columnOr (ev : FormulaEval) (n : Nat) (lookup : Str → Option (List (Option ℝ))) (formula : Str) :
    Option (List (Option ℝ)) := (ev.column n lookup formula).or (some [])

theorem FormulaEval.column_same {ev : FormulaEval} {d : CovariateDef} (ha : Accurate ev.value d) (n : Nat)
    (env env' : Str → Option (List (Option ℝ))) (h : ∀ x ∈ d.dependsOn, env x = env' x) :
    ev.column n env d.formula = ev.column n env' d.formula := by
  unfold FormulaEval.column
  congr 1
  funext i
  rw [ha.same _ (fun x => (env' x).bind fun c => (c[i]?).join) fun x hx => by rw [h x hx]]

theorem FormulaEval.columnOr_accurate {ev : FormulaEval} {d : CovariateDef} (ha : Accurate ev.value d) (n : Nat) :
    Accurate (ev.columnOr n) d := by
  refine ⟨fun env _ => ?_, fun env env' h => ?_⟩
  · unfold columnOr
    cases ev.column n env d.formula <;> rfl
  · unfold columnOr
    rw [column_same ha n env env' h]

theorem mapM_isSome_of {α β : Type _} (f : α → Option β) : ∀ l : List α, (∀ a ∈ l, (f a).isSome) →
    ∃ out, l.mapM f = some out ∧ out.length = l.length := by
  intro l
  induction l with
  | nil => intro _; exact ⟨[], rfl, rfl⟩
  | cons a l ih =>
    intro h
    obtain ⟨b, hb⟩ := Option.isSome_iff_exists.1 (h a List.mem_cons_self)
    obtain ⟨out, h1, h2⟩ := ih fun x hx => h x (List.mem_cons_of_mem _ hx)
    refine ⟨b :: out, ?_, by simp [h2]⟩
    rw [List.mapM_cons, hb, h1]
    rfl

theorem FormulaEval.column_agree {ev : FormulaEval} {d : CovariateDef} (ha : Accurate ev.value d) (n : Nat) :
    AgreeOn (ev.column n) (ev.columnOr n) (fun c => c.all Option.isSome) true (fun c => c.length = n) d := by
  intro df hdf hr
  unfold isReady at hr
  rw [Bool.and_eq_true] at hr
  obtain ⟨h1, h2⟩ := hr
  simp only [Bool.not_true, Bool.false_or, List.all_eq_true] at h2
  obtain ⟨out, h3, h4⟩ := mapM_isSome_of
    (fun i => (ev.value (fun x => (df.lookup x).bind fun c => (c[i]?).join) d.formula).map some) (List.range n) (by
      intro i hi
      rw [Option.isSome_map]
      refine ha.defined _ fun x hx => ?_
      have h5 := h2 x hx
      obtain ⟨c, hc, h6⟩ : ∃ c, df.lookup x = some c ∧ c.all Option.isSome = true := by
        cases hc : df.lookup x with
        | none => rw [hc] at h5; cases h5
        | some c => rw [hc] at h5; exact ⟨c, rfl, h5⟩
      rw [hc, Option.bind_some]
      have hl : i < c.length := by rw [hdf x c hc]; exact List.mem_range.1 hi
      rw [List.getElem?_eq_getElem hl, Option.join_some]
      exact List.all_eq_true.1 h6 _ (List.getElem_mem hl))
  have h5 : ev.column n df.lookup d.formula = some out := h3
  refine ⟨?_, fun v hv => ?_⟩
  · unfold columnOr
    rw [h5]
    rfl
  · rw [h5] at hv
    cases hv
    rw [h4, List.length_range]

section
variable {p q : Processed} {ev : FormulaEval}

theorem SameModel.stateColumns (h : SameModel p q) : p.stateColumns = q.stateColumns := by
  unfold Processed.stateColumns
  rw [h.choices, h.lags, h.denseSpec]

theorem SameModel.sampledVariables (h : SameModel p q) : p.sampledVariables = q.sampledVariables := by
  unfold Processed.sampledVariables
  rw [h.observables, h.choices, h.experience, h.lags, h.nTypes, h.typeProb]

theorem SameGroups.sampleFrame (h : SameGroups p q) (hf : p.FormulasSound ev)
    (hid : "identifier".toList ∉ Dict.keys p.groups.all) (fp : List CharRow) :
    Option.Rel SameFrame (p.sampleFrame ev fp) (q.sampleFrame ev fp) := by
  have hf' := SameModel.formulasSound h hf
  unfold Processed.sampleFrame
  dsimp only
  rw [← h.same.stateColumns]
  set df : Frame (List (Option ℝ)) := ⟨p.stateColumns.zipIdx.map fun x =>
      (x.1, fp.map fun row => ((row[x.2]?).join).map fun (v : Nat) => (v : ℝ)),
    [("identifier".toList, (List.range fp.length).map fun (i : Nat) => some (i : ℝ)),
     ("period".toList, List.replicate fp.length (some 0))]⟩ with hdf
  have hP : df.Holds fun c => c.length = fp.length := by
    intro k v hk
    unfold Frame.lookup at hk
    rcases Option.or_eq_some_iff.1 hk with h1 | ⟨_, h1⟩
    · have := Dict.mem_of_get? _ _ _ h1
      obtain ⟨x, _, hx⟩ := List.mem_map.1 this
      simp only [Prod.mk.injEq] at hx
      rw [← hx.2, List.length_map]
    · have := Dict.mem_of_get? _ _ _ h1
      simp only [hdf, List.mem_cons, Prod.mk.injEq, List.not_mem_nil, or_false] at this
      rcases this with ⟨_, rfl⟩ | ⟨_, rfl⟩
      · rw [List.length_map, List.length_range]
      · exact List.length_replicate
  rw [computeCovariates_agree (fun c d hcd => FormulaEval.column_agree (hf.accurate c d hcd) _) hP,
    computeCovariates_agree (fun c d hcd => FormulaEval.column_agree (hf'.accurate c d hcd) _) hP]
  refine computeCovariates_same false (SameFrame.refl _) h.sub.all h.sup.all h.facts.nodup h.facts'.nodup
    (fun c hc => ?_) fun c d hcd => FormulaEval.columnOr_accurate (hf.accurate c d hcd) _
  rw [Dict.get?_eq_none_iff]
  intro hk
  simp only [hdf, Dict.keys, List.map_cons, List.map_nil, List.mem_cons, List.not_mem_nil, or_false] at hk
  rcases hk with rfl | rfl
  · exact hid hc
  · exact hf.names _ (List.mem_append_left _ (by simp [coreColumns])) hc

theorem SameGroups.characteristic (h : SameGroups p q) (hf : p.FormulasSound ev)
    (hid : "identifier".toList ∉ Dict.keys p.groups.all) : p.characteristic ev = q.characteristic ev := by
  have : p.levelProbabilities ev = q.levelProbabilities ev := by
    funext betas fp
    unfold Processed.levelProbabilities
    have := h.sampleFrame hf hid fp
    generalize p.sampleFrame ev fp = a at this
    generalize q.sampleFrame ev fp = b at this
    cases this with
    | none => rfl
    | @some df df' h =>
      have hv : frameValue df = frameValue df' := by
        funext i x
        unfold frameValue
        rw [h.columns]
      simp only [Option.bind_eq_bind, Option.bind_some, hv]
  funext v
  unfold Processed.characteristic
  rw [h.same.stateColumns, this]

/-- **Simulation.** The simulation does not depend on orders. -/
theorem SameGroups.simulation {G : Type} (h : SameGroups p q) (hf : p.FormulasSound ev)
    (hid : "identifier".toList ∉ Dict.keys p.groups.all) (senv : SolveEnv) (e : SimulateEnv G)
    (sp : Option (SimSpace ℝ)) : q.simulation ev senv e sp = p.simulation ev senv e sp := by
  unfold Processed.simulation Processed.rewardParams
  rw [← h.characteristic hf hid, h.same.sampledVariables, h.same.nPeriods, h.same.choices, h.same.lags,
    h.same.cholesky, h.same.measurement, h.same.discount]

end

end Respy
