import Verif.Model.MomentFunctions
import Verif.Props.ParameterFunctions
import Verif.Props.MomentInputs
import Verif.Props.MomentLabels

/-!
# C90 The function of moment errors at any parameters, C91 Data for plots of moments
-/

set_option linter.unusedSectionVars false

namespace Respy

/-! ### Parts of the result -/

section
variable {K : Type _} [Field K] {D : Type _}

theorem flattenIndex_isSome_iff (d : Dict Str (Moments K)) : (flattenIndex d).isSome ↔ d ≠ [] := by
  unfold flattenIndex
  split <;> simp_all

theorem createTidyData_isSome_iff (d : Dict Str (Moments K)) : (createTidyData d).isSome ↔ d ≠ [] := by
  unfold createTidyData
  split <;> simp_all

/-- **C90** The scalar which is returned by default is the value in the dictionary which is returned with
`return_scalar=False`, and the additional parts of the dictionary never raise an exception. The other parts are the errors,
the root contributions, the data for plots (see C91) with empirical and simulated moments, and the simulated moments. -/
theorem C90_scalar_and_dictionary (sqrt : K → K) (funcs : Dict Str (D → Option (Moments K)))
    (replaceNans : Dict Str (Moments K → Option (Moments K))) (empirical : Dict Str (Moments K))
    (w : List (List K)) (isDict : Bool) (df : D) :
    (momentResult sqrt funcs replaceNans empirical w isDict df).map MomentResult.value =
      criterion funcs replaceNans empirical w df ∧
    ∀ r, momentResult sqrt funcs replaceNans empirical w isDict df = some r →
      momentErrors funcs replaceNans empirical df = some r.errors ∧
      rootContributions sqrt (r.errors.map Prod.snd) w = some r.rootContributions ∧
      ∃ sim, simulatedMoments funcs replaceNans empirical df = some sim ∧
        comparisonPlotDataMsm empirical sim = some r.plotData ∧ r.simulated = returnedMoments isDict sim := by
  unfold momentResult criterion momentErrors
  simp only [Option.bind_eq_bind, Option.pure_def]
  cases hs : simulatedMoments funcs replaceNans empirical df with
  | none => simp
  | some sim =>
    simp only [Option.bind_some]
    cases hfe : flattenIndex empirical with
    | none => simp
    | some fe =>
      simp only [Option.bind_some]
      cases hfs : flattenIndex sim with
      | none => simp
      | some fs =>
        simp only [Option.bind_some]
        cases hsub : subSeries fe fs with
        | none => simp
        | some errors =>
          simp only [Option.bind_some]
          cases hv : criterionValue (errors.map Prod.snd) w with
          | none => simp
          | some v =>
            have hshape : fitsShape (errors.map Prod.snd).length w := by
              unfold criterionValue at hv
              split at hv
              · assumption
              · cases hv
            obtain ⟨roots, hroots⟩ : ∃ roots, rootContributions sqrt (errors.map Prod.snd) w = some roots := by
              unfold rootContributions
              rw [if_pos hshape]
              exact ⟨_, rfl⟩
            obtain ⟨te, hte⟩ := Option.isSome_iff_exists.1 ((createTidyData_isSome_iff empirical).2
              ((flattenIndex_isSome_iff _).1 (by rw [hfe]; rfl)))
            obtain ⟨ts, hts⟩ := Option.isSome_iff_exists.1 ((createTidyData_isSome_iff sim).2
              ((flattenIndex_isSome_iff _).1 (by rw [hfs]; rfl)))
            simp only [hroots, comparisonPlotDataMsm, hte, hts, Option.bind_eq_bind, Option.pure_def,
              Option.bind_some, Option.map_some, Option.some.injEq, true_and]
            rintro r rfl
            exact ⟨rfl, hroots, sim, rfl, by simp only [hts, Option.bind_some], rfl⟩

end

/-! ### Moments of the own sample -/

section
variable {K : Type _} [Field K] {D : Type _}

/-- There is a value for each column and row, and none is missing. -/
def Moments.Complete (m : Moments K) : Prop := m.Full ∧ ∀ col ∈ m.values, ∀ x ∈ col, x.isSome

theorem reindexAxis_self (own : List Str) : reindexAxis own own = some ((List.range own.length).map some) := by
  unfold reindexAxis
  rw [if_pos rfl]

theorem reindexLike_self (m : Moments K) (h : m.Full) : reindexLike m m = some m := by
  unfold reindexLike
  rw [if_pos rfl, reindexAxis_self, reindexAxis_self]
  simp only [Option.bind_eq_bind, Option.bind_some, Option.pure_def, Option.some.injEq]
  obtain ⟨index, columns, values⟩ := m
  congr 1
  obtain ⟨h1, h2⟩ := h
  dsimp only at h1 h2 ⊢
  refine List.ext_getElem (by simp [h1]) fun i hi hi' => ?_
  simp only [List.getElem_map, List.getElem_range]
  refine List.ext_getElem (by simp [h2 _ (List.getElem_mem hi')]) fun j hj hj' => ?_
  simp only [List.map_map, List.getElem_map, List.getElem_range, Function.comp_apply, Moments.at, Option.bind_some]
  rw [List.getElem?_eq_getElem hi', Option.bind_some, List.getElem?_eq_getElem hj', Option.join_some]

/-- Two inputs of the same form whose items are related; dictionaries have the same keys, none of them twice. -/
inductive Input.Related {α β : Type _} (R : α → β → Prop) : Input α → Input β → Prop
  | single {x y} : R x y → Input.Related R (.single x) (.single y)
  | list {xs ys} : List.Forall₂ R xs ys → Input.Related R (.list xs) (.list ys)
  | dict {d d'} : (Dict.keys d').Nodup → List.Forall₂ (fun a b => a.1 = b.1 ∧ R a.2 b.2) d d' →
      Input.Related R (.dict d) (.dict d')

theorem forall₂_zip {α β : Type _} {R : α → β → Prop} {xs : List α} {ys : List β} (h : List.Forall₂ R xs ys)
    (names : List Str) : List.Forall₂ (fun a b => a.1 = b.1 ∧ R a.2 b.2) (names.zip xs) (names.zip ys) := by
  induction h generalizing names with
  | nil => simp
  | cons hab _ ih =>
    cases names with
    | nil => simp
    | cons n names => exact .cons ⟨rfl, hab⟩ (ih names)

theorem Input.Related.harmonized {α β : Type _} {R : α → β → Prop} {x : Input α} {y : Input β}
    (h : Input.Related R x y) :
    List.Forall₂ (fun a b => a.1 = b.1 ∧ R a.2 b.2) (harmonizeInput x) (harmonizeInput y) ∧
      (Dict.keys (harmonizeInput y)).Nodup := by
  cases h with
  | single h => exact ⟨.cons ⟨rfl, h⟩ .nil, List.nodup_singleton _⟩
  | list h =>
    rw [harmonizeInput_list, harmonizeInput_list, h.length_eq]
    refine ⟨forall₂_zip h _, ?_⟩
    rw [keys_eq_map, List.map_fst_zip (by simp [listNames])]
    exact listNames_nodup _
  | dict hn h => exact ⟨h, hn⟩

theorem simulatedMoments_own (funcs : Dict Str (D → Option (Moments K)))
    (replaceNans : Dict Str (Moments K → Option (Moments K))) (empirical : Dict Str (Moments K)) (df : D)
    (hrel : List.Forall₂ (fun a b => a.1 = b.1 ∧ a.2 df = some b.2) funcs empirical)
    (hnd : (Dict.keys empirical).Nodup) (hfull : ∀ e ∈ empirical, e.2.Complete)
    (hrep : ∀ k ∈ Dict.keys empirical, ∃ f, Dict.get? replaceNans k = some f ∧
      ∀ m : Moments K, m.Complete → f m = some m) :
    simulatedMoments funcs replaceNans empirical df = some empirical := by
  unfold simulatedMoments
  have hget : ∀ e ∈ empirical, Dict.get? empirical e.1 = some e.2 := fun e he =>
    Dict.get?_of_mem empirical hnd e.1 e.2 he
  have hkey : ∀ e ∈ empirical, e.1 ∈ Dict.keys empirical := fun e he => List.mem_map_of_mem he
  generalize hE : empirical = E at hget hrep hkey ⊢
  have : ∀ (fs : Dict Str (D → Option (Moments K))) (es : Dict Str (Moments K)),
      List.Forall₂ (fun a b => a.1 = b.1 ∧ a.2 df = some b.2) fs es → (∀ e ∈ es, e ∈ E) →
      (List.mapM (fun nf : Str × (D → Option (Moments K)) => do
        let m ← nf.2 df
        let other ← Dict.get? E nf.1
        let m ← reindexLike m other
        let f ← Dict.get? replaceNans nf.1
        let m ← f m
        pure (nf.1, m)) fs) = some es := by
    intro fs es h hes
    induction h with
    | nil => rfl
    | @cons a b fs es hab _ ih =>
      have hb := hes b (by simp)
      obtain ⟨f, hf, hfid⟩ := hrep b.1 (hkey b hb)
      have hc := hfull b (hE ▸ hb)
      rw [List.mapM_cons, ih fun e he => hes e (by simp [he])]
      simp only [hab.2, hab.1, hget b hb, reindexLike_self b.2 hc.1, hf, hfid b.2 hc, Option.bind_eq_bind,
        Option.bind_some, Option.pure_def]
  exact this funcs E (hE ▸ hrel) fun e he => he

theorem subSeries_self (a : Series K) (h : ∀ x ∈ a, x.2.isSome) :
    subSeries a a = some (a.map fun x => (x.1, some 0)) := by
  unfold subSeries
  rw [if_pos rfl, List.zipWith_self]
  congr 1
  refine List.map_congr_left fun x hx => ?_
  obtain ⟨v, hv⟩ := Option.isSome_iff_exists.1 (h x hx)
  rw [hv]
  simp [subNan]

theorem vecMat_zero (n : Nat) (w : List (List K)) : vecMat (List.replicate n 0) w = List.replicate n 0 := by
  unfold vecMat
  refine List.ext_getElem (by simp) fun i h1 h2 => ?_
  simp only [List.getElem_map, List.getElem_replicate]
  refine List.sum_eq_zero fun x hx => ?_
  obtain ⟨j, hj, rfl⟩ := List.mem_map.1 hx
  have hj : j < n := by simpa using hj
  simp [hj]

theorem flatten_complete (d : Dict Str (Moments K)) (h : ∀ e ∈ d, e.2.Complete) (flat : Series K)
    (hflat : flattenIndex d = some flat) : ∀ x ∈ flat, x.2.isSome := by
  intro x hx
  obtain ⟨name, m, column, row, hm, ⟨p, q, col, -, -, h3, h4⟩, -⟩ := (C63_flat_labels d flat hflat x.1 x.2).1 hx
  exact (h (name, m) hm).2 col (List.mem_of_getElem? h3) x.2 (List.mem_of_getElem? h4)

/-- If the moments of the sample are the empirical moments, all errors are zero. -/
theorem momentResult_own (sqrt : K → K) (funcs : Dict Str (D → Option (Moments K)))
    (replaceNans : Dict Str (Moments K → Option (Moments K))) (empirical : Dict Str (Moments K))
    (w : List (List K)) (isDict : Bool) (df : D)
    (hrel : List.Forall₂ (fun a b => a.1 = b.1 ∧ a.2 df = some b.2) funcs empirical)
    (hnd : (Dict.keys empirical).Nodup) (hfull : ∀ e ∈ empirical, e.2.Complete)
    (hrep : ∀ k ∈ Dict.keys empirical, ∃ f, Dict.get? replaceNans k = some f ∧
      ∀ m : Moments K, m.Complete → f m = some m)
    (flat : Series K) (hflat : flattenIndex empirical = some flat) (hw : fitsShape flat.length w) :
    ∃ r, momentResult sqrt funcs replaceNans empirical w isDict df = some r ∧ r.value = some 0 ∧
      r.errors = flat.map (fun x => (x.1, some 0)) ∧
      r.rootContributions = some (List.replicate flat.length 0) ∧
      r.simulated = returnedMoments isDict empirical := by
  have hsim := simulatedMoments_own funcs replaceNans empirical df hrel hnd hfull hrep
  have hsub := subSeries_self flat (flatten_complete empirical hfull flat hflat)
  obtain ⟨te, hte⟩ := Option.isSome_iff_exists.1 ((createTidyData_isSome_iff empirical).2
    ((flattenIndex_isSome_iff _).1 (by rw [hflat]; rfl)))
  have hx : (flat.map fun x => (x.1, some (0 : K))).map Prod.snd = (List.replicate flat.length (0 : K)).map some := by
    rw [List.map_map, List.map_replicate]
    exact List.map_const
  have hval : criterionValue ((flat.map fun x => (x.1, some (0 : K))).map Prod.snd) w = some (some 0) := by
    rw [hx]
    refine (criterionValue_eq_some_iff _ _ _).2 ⟨List.replicate flat.length 0, rfl, by simpa using hw, ?_⟩
    rw [vecMat_zero]
    simp [vecDot]
  have hroot : rootContributions sqrt ((flat.map fun x => (x.1, some (0 : K))).map Prod.snd) w =
      some (some (List.replicate flat.length 0)) := by
    rw [hx]
    unfold rootContributions
    rw [if_pos (by simpa using hw), (mapM_id_eq_some_iff _ _).2 rfl]
    simp only [Option.map_some]
    rw [vecMat_zero]
  unfold momentResult
  simp only [hsim, hflat, hsub, hval, hroot, comparisonPlotDataMsm, hte, Option.bind_eq_bind, Option.bind_some,
    Option.pure_def]
  exact ⟨_, rfl, rfl, rfl, rfl, rfl⟩

end

/-! ### Any parameters -/

section
variable {env : ProcessEnv} {m : UserModel} {p q : Processed} {ev : FormulaEval}

theorem observables_ne_of_exogenous {maxFloat : ℝ} {params : List ((Str × Str) × ℝ)} {exogenous obs : Dict Str LevelDict}
    (h : parseObservables maxFloat params exogenous = some obs) (ho : obs = []) : exogenous = [] := by
  unfold parseObservables at h
  obtain ⟨names, -, h⟩ := Option.bind_eq_some_iff.1 h
  obtain ⟨parsed, -, h⟩ := Option.bind_eq_some_iff.1 h
  obtain ⟨d0, -, h⟩ := Option.bind_eq_some_iff.1 h
  obtain ⟨all, hall, h⟩ := Option.bind_eq_some_iff.1 h
  by_contra hne
  have step : ∀ (l d : Dict Str LevelDict) (r : Dict Str LevelDict), (l ≠ [] ∨ d ≠ []) →
      l.foldlM (fun d kv => (initialLevels kv.2 (Dict.get? d kv.1)).map (Dict.insert d kv.1)) d = some r →
      r ≠ [] := by
    intro l
    induction l with
    | nil =>
      intro d r hd hr
      cases hr
      exact hd.resolve_left fun h => h rfl
    | cons kv l ih =>
      intro d r _ hr
      rw [List.foldlM_cons] at hr
      obtain ⟨d', hd', hr⟩ := Option.bind_eq_some_iff.1 hr
      obtain ⟨v, -, rfl⟩ := Option.map_eq_some_iff.1 hd'
      refine ih _ r (Or.inr ?_) hr
      cases d with
      | nil => simp [Dict.insert]
      | cons a d =>
        rw [Dict.insert]
        split <;> simp
  have hall' := step exogenous d0 all (Or.inl hne) hall
  obtain ⟨a, ha⟩ := List.exists_mem_of_ne_nil _ hall'
  have hkey : a.1 ∈ sortedSet (Dict.keys all) := (mem_sortedSet _ _).2 (List.mem_map_of_mem ha)
  have hlen := mapM_eq_some_length _ _ _ h
  rw [ho] at hlen
  rw [List.length_eq_zero_iff.1 hlen.symm] at hkey
  simp at hkey

theorem solveWith_nExog {r : SolveRoutines} {sp : SimSpace ℝ} (h : p.solveWith q ev r = some sp) :
    sp.nExog = p.exogenous.length := by
  unfold Processed.solveWith at h
  dsimp only at h
  obtain ⟨bt, -, h⟩ := Option.bind_eq_some_iff.1 h
  unfold SolveInput.solveModel at h
  obtain ⟨bt', -, h⟩ := Option.bind_eq_some_iff.1 h
  obtain ⟨tr, -, h⟩ := Option.bind_eq_some_iff.1 h
  obtain ⟨par, -, h⟩ := Option.bind_eq_some_iff.1 h
  dsimp only at h
  split at h
  · cases h
    simp [Built.simSpace, Processed.buildSpec]
  · cases h

/-- **C90** Samples of an accepted model do not depend on the state of the global random number generator. -/
theorem C90_reproducible {G : Type} (hq : processModel env m = some q) (r : SolveRoutines) (e : SimulateEnv G)
    (g g' : G) :
    ((q.simulation ev r.senv e (q.solveWith q ev r)).run () g).1 =
      ((q.simulation ev r.senv e (q.solveWith q ev r)).run () g').1 := by
  refine C30_reproducible _ _ (fun hc sp hsp => ?_) g g'
  rw [solveWith_nExog hsp]
  obtain ⟨covs, hqf⟩ := processModel_from env m q hq
  have hv : q.sampledVariables = [] := List.map_eq_nil_iff.1 hc
  unfold Processed.sampledVariables at hv
  simp only [List.append_eq_nil_iff, List.map_eq_nil_iff] at hv
  rw [observables_ne_of_exogenous hqf.observables hv.1.1.1]
  rfl

/-- The numbers of functions fit to the number of sets of moments, and there are moments if there are no weights. -/
def MomentArguments.Fits (a : MomentArguments) : Prop :=
  (a.weights = none → harmonizeInput a.empirical ≠ []) ∧
    lengthsFit (harmonizeInput a.empirical).length (harmonizeInput a.calcMoments).length
      (harmonizeReplaceNans some (harmonizeInput a.empirical) a.replaceNans).length = true

theorem chosenWeights_isSome (d : Dict Str (Moments ℝ)) (w : Option (List (List ℝ))) :
    (chosenWeights d w).isSome ↔ (w = none → d ≠ []) := by
  cases w with
  | some w => simp [chosenWeights]
  | none =>
    simp only [chosenWeights, Option.isSome_map, true_implies]
    exact flattenIndex_isSome_iff d

/-- **C90 (partial).** The function of moment errors can be created if the numbers of functions fit and the state space
can be created. For all parameters with the same index and the same maximum experiences, it compares the moments of the
sample which is simulated from the model with these parameters, as a function does which is created at these parameters.
Missing: options whose formulas mention names inside of labels, and other maximum experiences (C85). -/
theorem C90_any_parameters_partial {G : Type} (hp : processModel env m = some p) (hr : m.Reprocessable p)
    (hev : ev.Contract) (hf : p.FormulasSound ev) (hid : "identifier".toList ∉ Dict.keys p.groups.all)
    (r : SolveRoutines) (e : SimulateEnv G) (a : MomentArguments) :
    ((getMomentErrorsFunc env ev r m e a).isSome ↔ a.Fits ∧ (buildSpace (p.buildSpec ev)).isSome) ∧
    ∀ f, getMomentErrorsFunc env ev r m e a = some f → ∀ θ, m.SameIndex θ →
      ∃ q f' w, processModel env { m with params := θ } = some q ∧
        getMomentErrorsFunc env ev r { m with params := θ } e a = some f' ∧ f θ = f' θ ∧
        chosenWeights (harmonizeInput a.empirical) a.weights = some w ∧
        ∀ g, (f θ g).1 = ((q.simulation ev r.senv e (q.solveWith q ev r)).run () g).1.bind
          (momentResult Real.sqrt (harmonizeInput a.calcMoments)
            (harmonizeReplaceNans some (harmonizeInput a.empirical) a.replaceNans) (harmonizeInput a.empirical) w
            a.empirical.isDict) := by
  obtain ⟨k1, k2⟩ := C87_simulate_function_partial hp hr hev hf hid r e
  constructor
  · unfold getMomentErrorsFunc MomentArguments.Fits
    rw [← k1, ← chosenWeights_isSome]
    cases chosenWeights (harmonizeInput a.empirical) a.weights with
    | none => simp
    | some w =>
      cases getSimulateFunc env ev r m e with
      | none => simp
      | some s =>
        simp only [Option.bind_eq_bind, Option.bind_some, Option.isSome_some, and_true, true_and]
        split <;> simp_all
  · intro f hfun θ hθ
    unfold getMomentErrorsFunc at hfun
    obtain ⟨w, hw, hfun⟩ := Option.bind_eq_some_iff.1 hfun
    obtain ⟨s, hs, hfun⟩ := Option.bind_eq_some_iff.1 hfun
    dsimp only at hfun
    split at hfun
    · rename_i hfit
      obtain ⟨q, s', hq, hs', heq, hrun⟩ := k2 s hs θ hθ
      simp only [Option.pure_def, Option.some.injEq] at hfun
      refine ⟨q, fun params g => ((s' params g).1.bind (momentResult Real.sqrt (harmonizeInput a.calcMoments)
            (harmonizeReplaceNans some (harmonizeInput a.empirical) a.replaceNans) (harmonizeInput a.empirical) w
            a.empirical.isDict), (s' params g).2), w, hq, ?_, ?_, hw, ?_⟩
      · unfold getMomentErrorsFunc
        simp only [hw, hs', Option.bind_eq_bind, Option.bind_some, if_pos hfit, Option.pure_def]
      · rw [← hfun]
        funext g
        simp only [heq]
      · intro g
        rw [← hfun]
        simp only [hrun]
    · cases hfun

/-- A function which only replaces missing values. -/
def KeepsComplete (f : Moments ℝ → Option (Moments ℝ)) : Prop := ∀ m : Moments ℝ, m.Complete → f m = some m

/-- Functions which only replace missing values: none, one for all, or one for each set of moments. -/
inductive ReplacesMissing (empirical : Input (Moments ℝ)) : Option (Input (Moments ℝ → Option (Moments ℝ))) → Prop
  | none : ReplacesMissing empirical none
  | single {f} : KeepsComplete f → ReplacesMissing empirical (some (.single f))
  | each {x} : Input.Related (fun f _ => KeepsComplete f) x empirical → ReplacesMissing empirical (some x)

theorem get?_const {β : Type _} (ks : List Str) (f : β) (k : Str) (h : k ∈ ks) :
    Dict.get? (ks.map fun k => (k, f)) k = some f := by
  induction ks with
  | nil => simp at h
  | cons x ks ih =>
    rw [List.map_cons, Dict.get?]
    split
    · rfl
    · rename_i hx
      rcases List.mem_cons.1 h with rfl | h
      · exact absurd rfl hx
      · exact ih h

theorem ReplacesMissing.get {empirical : Input (Moments ℝ)} {x : Option (Input (Moments ℝ → Option (Moments ℝ)))}
    (h : ReplacesMissing empirical x) (k : Str) (hk : k ∈ Dict.keys (harmonizeInput empirical)) :
    ∃ f, Dict.get? (harmonizeReplaceNans some (harmonizeInput empirical) x) k = some f ∧ KeepsComplete f := by
  have one : ∀ f, KeepsComplete f →
      ∃ f', Dict.get? ((Dict.keys (harmonizeInput empirical)).map fun k => (k, f)) k = some f' ∧ KeepsComplete f' :=
    fun f hf => ⟨f, get?_const _ f k hk, hf⟩
  cases h with
  | none => exact one some fun m _ => rfl
  | single hf => exact one _ hf
  | @each x h =>
    obtain ⟨hrel, hnd⟩ := h.harmonized
    have hsame : ∀ d, harmonizeReplaceNans (K := ℝ) some (harmonizeInput empirical) (some x) = d →
        d = harmonizeInput x ∨ ∃ f, KeepsComplete f ∧
          d = (Dict.keys (harmonizeInput empirical)).map fun k => (k, f) := by
      rintro d rfl
      cases x with
      | single f =>
        cases h with
        | single hf => exact Or.inr ⟨f, hf, rfl⟩
      | list xs => exact Or.inl rfl
      | dict d => exact Or.inl rfl
    rcases hsame _ rfl with hd | ⟨f, hf, hd⟩
    · rw [hd]
      generalize harmonizeInput x = xs at hrel
      generalize harmonizeInput empirical = es at hrel hk
      clear hnd hd hsame one h
      induction hrel with
      | nil => simp [Dict.keys] at hk
      | @cons a b xs es hab _ ih =>
        rw [Dict.get?]
        split
        · exact ⟨_, rfl, hab.2⟩
        · rename_i hne
          refine ih ?_
          rcases List.mem_cons.1 hk with h | h
          · exact absurd (hab.1.trans h.symm) hne
          · exact h
    · rw [hd]
      exact one f hf

/-- **C90 (partial).** The criterion is zero at the parameters which generated the moments: if the empirical moments are
those of a sample of the model at `θ`, computed with the same functions and without missing values, then the function of
moment errors, created at any parameters with the same index, finds no error at `θ`, whatever was drawn before and
whatever the weights are. Missing: see `C90_any_parameters_partial`. -/
theorem C90_own_moments_partial {G : Type} (hp : processModel env m = some p) (hr : m.Reprocessable p)
    (hev : ev.Contract) (hf : p.FormulasSound ev) (hid : "identifier".toList ∉ Dict.keys p.groups.all)
    (r : SolveRoutines) (e : SimulateEnv G) (a : MomentArguments)
    (f : Dict (Str × Str) ℝ → G → Option (MomentResult ℝ) × G)
    (hfun : getMomentErrorsFunc env ev r m e a = some f) (θ : Dict (Str × Str) ℝ) (hθ : m.SameIndex θ) (q : Processed)
    (hq : processModel env { m with params := θ } = some q) (g₀ : G) (df : List (SimRow ℝ))
    (hdf : ((q.simulation ev r.senv e (q.solveWith q ev r)).run () g₀).1 = some df)
    (hmom : Input.Related (fun func moments => func df = some moments ∧ moments.Complete) a.calcMoments a.empirical)
    (hrep : ReplacesMissing a.empirical a.replaceNans) (flat : Series ℝ)
    (hflat : getFlatMoments a.empirical = some flat)
    (hw : ∀ w, a.weights = some w → w.length = flat.length ∧ ∀ row ∈ w, row.length = flat.length) :
    ∀ g, ∃ res, (f θ g).1 = some res ∧ res.value = some 0 ∧ res.errors = flat.map (fun x => (x.1, some 0)) ∧
      res.rootContributions = some (List.replicate flat.length 0) ∧
      (∀ x, a.empirical = .single x → res.simulated = .single x) ∧
      (∀ xs, a.empirical = .list xs → xs.length ≠ 1 → res.simulated = .list xs) ∧
      ∀ d, a.empirical = .dict d → res.simulated = .dict d := by
  intro g
  unfold getFlatMoments at hflat
  obtain ⟨q', f', w, hq', -, -, hcw, hrun⟩ := (C90_any_parameters_partial hp hr hev hf hid r e a).2 f hfun θ hθ
  rw [hq] at hq'
  cases hq'
  have hshape : fitsShape flat.length w := by
    cases haw : a.weights with
    | some w' =>
      rw [haw] at hcw
      cases hcw
      exact hw w haw
    | none =>
      rw [haw] at hcw
      simp only [chosenWeights, hflat, Option.map_some, Option.some.injEq] at hcw
      rw [← hcw]
      exact (fitsShape_diag_iff _ _).2 (by simp)
  obtain ⟨hrel, hnd⟩ := hmom.harmonized
  have hcomplete : ∀ b ∈ harmonizeInput a.empirical, b.2.Complete := by
    intro b hb
    obtain ⟨i, hi, rfl⟩ := List.getElem_of_mem hb
    exact (List.forall₂_iff_get.1 hrel).2 i (by rw [hrel.length_eq]; exact hi) hi |>.2.2
  rw [hrun, C90_reproducible hq r e g g₀, hdf, Option.bind_some]
  obtain ⟨res, h1, h2, h3, h4, h5⟩ := momentResult_own Real.sqrt _ _ _ w a.empirical.isDict df
    (hrel.imp fun _ _ h => ⟨h.1, h.2.1⟩) hnd hcomplete (fun k hk => hrep.get k hk) flat hflat hshape
  refine ⟨res, h1, h2, h3, h4, fun x hx => ?_, fun xs hx hne => ?_, fun d hx => ?_⟩
  · rw [h5, hx]
    rfl
  · rw [h5, hx, harmonizeInput_list]
    simp only [Input.isDict, returnedMoments, Bool.false_eq_true, if_false]
    unfold reconstructInput
    rw [show Dict.values ((listNames xs.length).zip xs) = xs from List.map_snd_zip (by simp [listNames])]
    split
    · simp at hne
    · rfl
  · rw [h5, hx]
    rfl

end

end Respy
