import Verif.Props.AcceptedValues
import Verif.Props.DataAccepted
import Verif.Props.LikelihoodPlotsExample
import Verif.Model.ProcessEstimate

/-!
# C94: the order of the rows of the data

The criterion function does not depend on the order of rows. The checks of the data do: they compare each row with the row of
the individual before it in the data, not with the one of the period before.
-/

namespace Respy

/-! ### The criterion function -/

section
variable {P : Type}

/-- Sorted rows do not depend on the order of rows if there is one row for each individual and period. -/
theorem sorted_perm (data data' : List EstimationRow) (hperm : data'.Perm data)
    (hnd : (data.map fun r => (r.id, r.state.core.period)).Nodup) :
    data'.insertionSort EstimationRow.le = data.insertionSort EstimationRow.le := by
  have htotal : Std.Total EstimationRow.le := ⟨fun a b => by unfold EstimationRow.le; omega⟩
  have htrans : IsTrans EstimationRow EstimationRow.le := ⟨fun a b c => by unfold EstimationRow.le; omega⟩
  have hp' := List.perm_insertionSort EstimationRow.le data'
  have hp := List.perm_insertionSort EstimationRow.le data
  refine List.Perm.eq_of_pairwise ?_ (List.pairwise_insertionSort _ _) (List.pairwise_insertionSort _ _)
    (hp'.trans (hperm.trans hp.symm))
  intro a b ha hb h1 h2
  refine List.inj_on_of_nodup_map hnd (hperm.mem_iff.1 (hp'.mem_iff.1 ha)) (hp.mem_iff.1 hb) ?_
  unfold EstimationRow.le at h1 h2
  simp only [Prod.mk.injEq]
  omega

/-- **C94** If no observation is duplicated, neither the value of the criterion function nor contributions and data for plots
depend on the order of the rows of the data. -/
theorem C94_criterion_order (e : Estimation P) (data' : List EstimationRow) (hperm : data'.Perm e.data)
    (hnd : (e.data.map fun r => (r.id, r.state.core.period)).Nodup) (params : P) :
    ({ e with data := data' } : Estimation P).logLike params = e.logLike params ∧
    ∀ choices choicesWithWage, ({ e with data := data' } : Estimation P).logLikeResult choices choicesWithWage params =
      e.logLikeResult choices choicesWithWage params := by
  have hs : ({ e with data := data' } : Estimation P).sorted = e.sorted := sorted_perm e.data data' hperm hnd
  have hloc : ∀ sp, ({ e with data := data' } : Estimation P).located sp = e.located sp := by
    intro sp
    unfold Estimation.located Estimation.typedRows
    rw [hs]
  have hrows : ∀ p sp, ({ e with data := data' } : Estimation P).loglikeRows p sp = e.loglikeRows p sp := by
    intro p sp
    unfold Estimation.loglikeRows
    rw [hloc]
    rfl
  have hids : ({ e with data := data' } : Estimation P).identifiers = e.identifiers := by
    unfold Estimation.identifiers
    rw [hs]
  have hx : ∀ p, ({ e with data := data' } : Estimation P).xBetas p = e.xBetas p := by
    intro p
    funext id
    unfold Estimation.xBetas
    rw [hs]
  constructor
  · unfold Estimation.logLike
    simp only [hrows, hids, hx]
  · intro choices choicesWithWage
    unfold Estimation.logLikeResult
    simp only [hloc, hrows, hids, hx]

/-- **C94** Rows are in the order of types, individuals and periods when the `i`-th row of a dense key is assigned the
`i`-th of its draws. Apart from the type they are the rows of the data. -/
theorem C94_order_of_evaluation (e : Estimation P) :
    ∃ rows : List EstimationRow, rows.Perm e.data ∧
      (rows.Pairwise fun r r' => r.id < r'.id ∨ r.id = r'.id ∧ r.state.core.period ≤ r'.state.core.period) ∧
      e.typedRows = (List.range e.typeCount).flatMap fun t =>
        rows.map fun r => ({ r with state := e.stateOf r t }, t) := by
  have htotal : Std.Total EstimationRow.le := ⟨fun a b => by unfold EstimationRow.le; omega⟩
  have htrans : IsTrans EstimationRow EstimationRow.le := ⟨fun a b c => by unfold EstimationRow.le; omega⟩
  exact ⟨e.sorted, e.sorted_perm, List.pairwise_insertionSort EstimationRow.le e.data, e.typedRows_eq⟩

/-- **C94** The criterion function of an accepted model does not depend on the order of the rows of the data. -/
theorem C94_criterion_of_accepted_models (p : Processed) (ev : FormulaEval) (env : EstimateEnv) (sp : Option (SimSpace ℝ))
    (data' : List EstimationRow) (hperm : data'.Perm env.data)
    (hnd : (env.data.map fun r => (r.id, r.state.core.period)).Nodup) (params : Unit) :
    (p.estimation ev { env with data := data' } sp).logLike params = (p.estimation ev env sp).logLike params :=
  (C94_criterion_order (p.estimation ev env sp) data' hperm hnd params).1

/-- The hypotheses hold for reversed data of two individuals, the first of them with two observations. -/
example : ∃ e : Estimation Unit, e.data.reverse.Perm e.data ∧ e.data.reverse ≠ e.data ∧ e.data.length = 3 ∧
    (e.data.map fun r => (r.id, r.state.core.period)).Nodup := by
  obtain ⟨la, -, -⟩ := exists_linearAlgebra
  refine ⟨exampleEstimation la [] none, List.reverse_perm _, ?_, rfl, ?_⟩
  · intro h
    have h1 := congrArg (List.map fun r => (r.id, r.state.core.period)) h
    revert h1
    simp [exampleEstimation, exampleData]
  · simp [exampleEstimation, exampleData]

end

/-! ### The checks of the data -/

section
variable {K : Type _} [Field K] [LinearOrder K]

/-- The row of the same individual with the latest earlier period. -/
def IsPrevious (rows : List (DataRow K)) (r r' : DataRow K) : Prop :=
  r' ∈ rows ∧ r'.id = r.id ∧ r'.period < r.period ∧
    ∀ x ∈ rows, x.id = r.id → x.period < r.period → x.period ≤ r'.period

omit [Field K] [LinearOrder K] in
theorem IsPrevious.unique {rows : List (DataRow K)} (hnd : (rows.map fun r => (r.id, r.period)).Nodup)
    {r a b : DataRow K} (ha : IsPrevious rows r a) (hb : IsPrevious rows r b) : a = b := by
  refine List.inj_on_of_nodup_map hnd ha.1 hb.1 ?_
  have h1 := ha.2.2.2 b hb.1 hb.2.1 hb.2.2.1
  have h2 := hb.2.2.2 a ha.1 ha.2.1 ha.2.2.1
  simp only [Prod.mk.injEq]
  exact ⟨ha.2.1.trans hb.2.1.symm, by omega⟩

omit [Field K] [LinearOrder K] in
/-- No observation is duplicated if individuals are sorted by period. -/
theorem SortedByPeriod.nodup {s : Sample K} (hs : SortedByPeriod s) :
    (s.rows.map fun r => (r.id, r.period)).Nodup := by
  rw [List.Nodup, List.pairwise_map]
  refine hs.imp fun h hne => ?_
  simp only [Prod.mk.injEq] at hne
  have := h hne.1
  omega

/-- If individuals are sorted by period, the row before is the one with the latest earlier period. -/
theorem lastBefore_iff (s : Sample K) (hs : SortedByPeriod s) (p : Nat) (r r' : DataRow K)
    (hp : s.rows[p]? = some r) : lastBefore s.rows p r.id = some r' ↔ IsPrevious s.rows r r' := by
  have hlt : p < s.rows.length := (List.getElem?_eq_some_iff.1 hp).1
  have hord : ∀ (i j : Nat) a b, i < j → s.rows[i]? = some a → s.rows[j]? = some b → a.id = b.id →
      a.period < b.period := by
    intro i j a b hij ha hb hid
    obtain ⟨h1, rfl⟩ := List.getElem?_eq_some_iff.1 ha
    obtain ⟨h2, rfl⟩ := List.getElem?_eq_some_iff.1 hb
    exact List.pairwise_iff_getElem.1 hs i j h1 h2 hij hid
  have hfwd : ∀ r', lastBefore s.rows p r.id = some r' → IsPrevious s.rows r r' := by
    intro r' h
    obtain ⟨hid, q, hq, hqr, hbetween⟩ := lastBefore_some s.rows p r.id r' hlt.le h
    refine ⟨List.mem_of_getElem? hqr, hid, hord q p r' r hq hqr hp hid, ?_⟩
    intro x hx hxid hxp
    obtain ⟨i, hi⟩ := List.mem_iff_getElem?.1 hx
    rcases Nat.lt_trichotomy i q with h1 | h1 | h1
    · exact (hord i q x r' h1 hi hqr (hxid.trans hid.symm)).le
    · subst h1
      rw [hi] at hqr
      cases hqr
      exact le_refl _
    · rcases Nat.lt_trichotomy i p with h2 | h2 | h2
      · exact absurd hxid (hbetween i h1 h2 x hi)
      · subst h2
        rw [hi] at hp
        cases hp
        omega
      · have := hord p i r x h2 hp hi hxid.symm
        omega
  refine ⟨hfwd r', fun h => ?_⟩
  cases hl : lastBefore s.rows p r.id with
  | none =>
    exfalso
    obtain ⟨i, hi⟩ := List.mem_iff_getElem?.1 h.1
    rcases Nat.lt_trichotomy i p with h2 | h2 | h2
    · exact lastBefore_none s.rows p r.id hlt.le hl i h2 r' hi h.2.1
    · subst h2
      rw [hi] at hp
      cases hp
      have := h.2.2.1
      omega
    · have := hord p i r r' h2 hp hi h.2.1.symm
      have := h.2.2.1
      omega
  | some b => rw [(hfwd b hl).unique hs.nodup h]

theorem lastBefore_perm (s s' : Sample K) (hperm : s'.rows.Perm s.rows) (hs : SortedByPeriod s) (hs' : SortedByPeriod s')
    (p p' : Nat) (r : DataRow K) (hp : s.rows[p]? = some r) (hp' : s'.rows[p']? = some r) :
    lastBefore s'.rows p' r.id = lastBefore s.rows p r.id := by
  apply Option.ext
  intro x
  rw [lastBefore_iff s hs p r x hp, lastBefore_iff s' hs' p' r x hp']
  unfold IsPrevious
  simp only [hperm.mem_iff]

/-- Two series with the numbers of the rows as index are equal if and only if they agree in each row. -/
theorem filterMap_tagged_eq {α β : Type _} [DecidableEq β] (l : List α) (n : Nat) (f g : α × Nat → Option β) :
    ((l.zipIdx n).filterMap fun x => (f x).map fun y => (x.2, y)) =
        ((l.zipIdx n).filterMap fun x => (g x).map fun y => (x.2, y)) ↔
      ∀ x ∈ l.zipIdx n, f x = g x := by
  constructor
  · intro h x hx
    apply Option.ext
    intro y
    have hmem : ∀ k : α × Nat → Option β, (x.2, y) ∈ ((l.zipIdx n).filterMap fun x => (k x).map fun y => (x.2, y)) ↔
        k x = some y := by
      intro k
      rw [List.mem_filterMap]
      constructor
      · rintro ⟨z, hz, hy⟩
        obtain ⟨w, hw, he⟩ := Option.map_eq_some_iff.1 hy
        simp only [Prod.mk.injEq] at he
        obtain ⟨he1, rfl⟩ := he
        have : z = x := by
          obtain ⟨a, i⟩ := z
          obtain ⟨b, j⟩ := x
          simp only at he1
          subst he1
          have h1 := List.mem_zipIdx hz
          have h2 := List.mem_zipIdx hx
          rw [h1.2.2, h2.2.2]
        rw [← this]
        exact hw
      · intro hk
        exact ⟨x, hx, by rw [hk]; rfl⟩
    rw [← hmem f, ← hmem g, h]
  · intro h
    exact List.filterMap_congr fun x hx => by rw [h x hx]

omit [Field K] [LinearOrder K] in
theorem checkLag_iff (s : Sample K) (i : Nat) : checkLag s i = true ↔
    ∀ (p : Nat) r, s.rows[p]? = some r →
      (if r.period ≤ (i : Int) then none else some (categoryCode (s.categories (i + 1)) (r.choiceVar (i + 1)))) =
        ((lastBefore s.rows p r.id).bind fun r' => r'.choiceVar i).map fun x =>
          categoryCode (s.categories i) (some x) := by
  have h1 := filterMap_tagged_eq s.rows 0
    (fun x => if x.1.period ≤ (i : Int) then none
      else some (categoryCode (s.categories (i + 1)) (x.1.choiceVar (i + 1))))
    (fun x => ((lastBefore s.rows x.2 x.1.id).bind fun r' => r'.choiceVar i).map fun x =>
          categoryCode (s.categories i) (some x))
  unfold checkLag shiftColumn
  rw [decide_eq_true_eq, List.map_filterMap]
  have e1 : (s.rows.zipIdx.filterMap fun rp => if rp.1.period ≤ (i : Int) then none
      else some (rp.2, categoryCode (s.categories (i + 1)) (rp.1.choiceVar (i + 1)))) =
      s.rows.zipIdx.filterMap fun x => (if x.1.period ≤ (i : Int) then none
        else some (categoryCode (s.categories (i + 1)) (x.1.choiceVar (i + 1)))).map fun y => (x.2, y) := by
    refine List.filterMap_congr fun x _ => ?_
    split <;> rfl
  have e2 : (s.rows.zipIdx.filterMap fun x => Option.map (fun x => (x.1, categoryCode (s.categories i) (some x.2)))
      (Option.map (fun y => (x.2, y)) ((lastBefore s.rows x.2 x.1.id).bind fun r => r.choiceVar i))) =
      s.rows.zipIdx.filterMap fun x => (((lastBefore s.rows x.2 x.1.id).bind fun r' => r'.choiceVar i).map fun x =>
          categoryCode (s.categories i) (some x)).map fun y => (x.2, y) := by
    refine List.filterMap_congr fun x _ => ?_
    rw [Option.map_map, Option.map_map]
    rfl
  rw [e1, e2, h1]
  constructor
  · intro h p r hp
    exact h (r, p) (List.mem_zipIdx_iff_getElem?.2 hp)
  · rintro h ⟨r, p⟩ hx
    exact h p r (List.mem_zipIdx_iff_getElem?.1 hx)

theorem checkExperience_iff (rows : List (DataRow K)) (choice : Str) (e : Nat) : checkExperience rows choice e = true ↔
    ∀ (p : Nat) r, rows[p]? = some r → ∀ r', lastBefore rows p r.id = some r' → ∀ x, r'.exps[e]? = some x →
      r.exps[e]? = some (x + (if r'.choice = some choice then 1 else 0)) := by
  unfold checkExperience
  rw [List.all_eq_true]
  constructor
  · intro h p r hp r' hr' x hx
    have := h (p, x + (if r'.choice = some choice then 1 else 0))
      ((mem_shiftColumn _ _ _ _).2 ⟨r, hp, r', hr', by rw [hx]; rfl⟩)
    rw [decide_eq_true_eq, hp, Option.bind_some] at this
    exact this
  · rintro h ⟨p, y⟩ hpy
    obtain ⟨r, hp, r', hr', hy⟩ := (mem_shiftColumn _ _ _ _).1 hpy
    obtain ⟨x, hx, rfl⟩ := Option.map_eq_some_iff.1 hy
    rw [decide_eq_true_eq, hp, Option.bind_some]
    exact h p r hp r' hr' x hx

omit [Field K] [LinearOrder K] in
theorem forall_rows_perm (rows rows' : List (DataRow K)) (hperm : rows'.Perm rows) (P P' : Nat → DataRow K → Prop)
    (h : ∀ p p' r, rows[p]? = some r → rows'[p']? = some r → (P p r ↔ P' p' r)) :
    (∀ p r, rows[p]? = some r → P p r) ↔ ∀ p r, rows'[p]? = some r → P' p r := by
  constructor
  · intro g p' r hp'
    obtain ⟨p, hp⟩ := List.mem_iff_getElem?.1 (hperm.mem_iff.1 (List.mem_of_getElem? hp'))
    exact (h p p' r hp hp').1 (g p r hp)
  · intro g p r hp
    obtain ⟨p', hp'⟩ := List.mem_iff_getElem?.1 (hperm.mem_iff.2 (List.mem_of_getElem? hp))
    exact (h p p' r hp hp').2 (g p' r hp')

/-- Identifiers appear in increasing order. -/
def IdentifiersInOrder (s : Sample K) : Prop := (s.rows.map (·.id)).eraseDups.Pairwise (· < ·)

theorem eraseDups_perm {α : Type _} [BEq α] [LawfulBEq α] (l l' : List α) (h : l'.Perm l) : l'.eraseDups.Perm l.eraseDups :=
  (List.perm_ext_iff_of_nodup (nodup_eraseDups _) (nodup_eraseDups _)).2 fun a => by
    rw [mem_eraseDups_iff, mem_eraseDups_iff, h.mem_iff]

/-- **C94** Whether data are accepted does not depend on the order of rows, as long as identifiers appear in increasing order
and the rows of each individual are in the order of periods. Missing: other orders, see `C94_rejected_false`. -/
theorem C94_check_partial (m : CheckParas) (s s' : Sample K) (hperm : s'.rows.Perm s.rows)
    (hcat : s'.categories = s.categories) (hs : SortedByPeriod s) (hs' : SortedByPeriod s')
    (hi : IdentifiersInOrder s) (hi' : IdentifiersInOrder s') :
    checkEstimationData m s' = checkEstimationData m s := by
  have hall : ∀ f : DataRow K → Bool, s'.rows.all f = s.rows.all f := by
    intro f
    rw [Bool.eq_iff_iff, List.all_eq_true, List.all_eq_true]
    simp only [hperm.mem_iff]
  have c1 : checkColumns m s'.rows = checkColumns m s.rows := hall _
  have hids : (s'.rows.map (·.id)).eraseDups = (s.rows.map (·.id)).eraseDups := by
    refine List.Perm.eq_of_pairwise ?_ hi' hi (eraseDups_perm _ _ (hperm.map _))
    intro a b _ _ h1 h2
    omega
  have c2 : checkIdentifier s'.rows = checkIdentifier s.rows := by
    unfold checkIdentifier
    rw [hids]
  have c3 : checkValues m s'.rows = checkValues m s.rows := hall _
  have clag : ∀ i, checkLag s' i = checkLag s i := by
    intro i
    rw [Bool.eq_iff_iff, checkLag_iff, checkLag_iff]
    symm
    refine forall_rows_perm _ _ hperm _ _ fun p p' r hp hp' => ?_
    rw [lastBefore_perm s s' hperm hs hs' p p' r hp hp', hcat]
  have c4 : checkLags m s' = checkLags m s := by
    unfold checkLags
    rw [show checkLag s' = checkLag s from funext clag]
  have c5 : checkObservables m s'.rows = checkObservables m s.rows := by
    unfold checkObservables
    congr 1
    funext ni
    congr 2
    rw [(eraseDups_perm _ _ (hperm.filterMap _)).length_eq]
  have c6 : checkMissing s'.rows = checkMissing s.rows := hall _
  have c7 : ∀ c e, checkExperience s'.rows c e = checkExperience s.rows c e := by
    intro c e
    rw [Bool.eq_iff_iff, checkExperience_iff, checkExperience_iff]
    symm
    refine forall_rows_perm _ _ hperm _ _ fun p p' r hp hp' => ?_
    rw [lastBefore_perm s s' hperm hs hs' p p' r hp hp']
  have c8 : checkDuplicates s'.rows = checkDuplicates s.rows := by
    unfold checkDuplicates
    rw [decide_eq_decide]
    exact (hperm.map _).nodup_iff
  have c9 : checkSequence s'.rows = checkSequence s.rows := by
    unfold checkSequence
    have hmax : ∀ a b : List Int, a.Perm b → a.max? = b.max? := by
      intro a b hab
      apply Option.ext
      intro x
      rw [List.max?_eq_some_iff, List.max?_eq_some_iff]
      simp only [hab.mem_iff]
    rw [Bool.eq_iff_iff, List.all_eq_true, List.all_eq_true]
    simp only [(hperm.map fun r : DataRow K => r.id).mem_iff]
    refine forall_congr' fun id => forall_congr' fun _ => ?_
    have hp := ((hperm.filter fun r => decide (r.id = id)).map fun r : DataRow K => r.period)
    rw [hmax _ _ hp, hp.length_eq]
  unfold checkEstimationData
  rw [c1, c2, c3, c4, c5, c6, c8, c9]
  simp only [c7]

/-- Two observations of an individual which chooses `a` in the first period. -/
def twoRows : Sample ℚ where
  rows := [⟨0, 0, some "a".toList, some 5, [0], [], []⟩, ⟨0, 1, some "h".toList, none, [1], [], []⟩]
  categories := fun _ => ["a".toList, "h".toList]

/-- **C94 (negated)** Accepted data are rejected if their rows are in another order. -/
theorem C94_rejected_false : ∃ (m : CheckParas) (s s' : Sample ℚ), s'.rows.Perm s.rows ∧ s'.categories = s.categories ∧
    checkEstimationData m s = true ∧ checkEstimationData m s' = false := by
  refine ⟨{ exampleParas with nLags := 0, levels := [] }, twoRows, ⟨twoRows.rows.reverse, twoRows.categories⟩,
    List.reverse_perm _, rfl, by decide +kernel, by decide +kernel⟩

/-- **C94 (negated)** Data whose rows are not in the order of periods are accepted although experience falls
from one period to the next. -/
theorem C94_inconsistent_accepted_false : ∃ (m : CheckParas) (s : Sample ℚ) (r₀ r : DataRow ℚ), checkEstimationData m s = true ∧
    (∀ r ∈ s.rows, 0 ≤ r.period) ∧ r₀ ∈ s.rows ∧ r ∈ s.rows ∧ r.id = r₀.id ∧ r₀.period = 0 ∧ r.period = 1 ∧
    m.choicesExp = ["a".toList] ∧ r₀.exps = [1] ∧ r.exps = [0] := by
  refine ⟨{ exampleParas with nLags := 0, levels := [] },
    ⟨[⟨0, 1, some "a".toList, some 5, [0], [], []⟩, ⟨0, 0, some "h".toList, none, [1], [], []⟩],
      fun _ => ["a".toList, "h".toList]⟩,
    ⟨0, 0, some "h".toList, none, [1], [], []⟩, ⟨0, 1, some "a".toList, some 5, [0], [], []⟩, by decide +kernel,
    by decide +kernel, by simp, by simp, rfl, rfl, rfl, rfl, rfl, rfl⟩

/-- The hypotheses of `C94_check_partial` hold for the example data and the same rows with individuals interleaved. -/
example : ∃ s' : Sample ℚ, s'.rows.Perm exampleSample.rows ∧ s'.rows ≠ exampleSample.rows ∧
    s'.categories = exampleSample.categories ∧ SortedByPeriod exampleSample ∧ SortedByPeriod s' ∧
    IdentifiersInOrder exampleSample ∧ IdentifiersInOrder s' := by
  refine ⟨⟨[⟨0, 0, some "a".toList, some 5, [0], [some "h".toList, some "h".toList], [some "x".toList]⟩,
    ⟨1, 0, some "a".toList, some 2, [3], [some "a".toList, some "h".toList], [some "y".toList]⟩,
    ⟨0, 1, some "h".toList, none, [1], [some "a".toList, some "h".toList], [some "x".toList]⟩],
    exampleSample.categories⟩, ?_, by decide +kernel, rfl, ?_, ?_, ?_, ?_⟩
  · exact List.Perm.cons _ (List.Perm.swap _ _ _)
  · unfold SortedByPeriod; decide +kernel
  · unfold SortedByPeriod; decide +kernel
  · unfold IdentifiersInOrder; decide +kernel
  · unfold IdentifiersInOrder; decide +kernel

end

end Respy
