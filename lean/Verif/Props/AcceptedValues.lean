import Verif.Props.DataChecking

/-!
# Values and experiences of accepted samples (C72)
-/

set_option linter.unusedSectionVars false

namespace Respy

variable {K : Type _} [Field K] [LinearOrder K]

/-! ### C72 Accepted estimation data have admissible values and consistent experiences -/

/-- In an accepted sample every choice and every lagged choice is one of the model, periods do not exceed
the horizon, observed wages are positive, all columns of the model are available and nothing but wages is
missing. -/
theorem C72_accepted_values (m : CheckParas) (s : Sample K) (h : checkEstimationData m s = true)
    (r : DataRow K) (hr : r ∈ s.rows) :
    r.period < m.nPeriods ∧ (∃ c ∈ m.choices, r.choice = some c) ∧
    (r.lags.length = m.nLags ∧ ∀ l ∈ r.lags, ∃ c ∈ m.choices, l = some c) ∧
    (∀ w, r.wage = some w → 0 < w) ∧ r.exps.length = m.choicesExp.length ∧
    (r.observables.length = m.levels.length ∧ ∀ o ∈ r.observables, o ≠ none) := by
  obtain ⟨hcol, -, hval, -, -, hmis, -, -, -⟩ := checkEstimationData_parts m s h
  have h1 := List.all_eq_true.1 hval r hr
  have h2 := List.all_eq_true.1 hcol r hr
  have h3 := List.all_eq_true.1 hmis r hr
  simp only [Bool.and_eq_true, decide_eq_true_eq, List.all_eq_true] at h1 h2 h3
  have hch : ∀ y : Option Str, isChoice m y = true → ∃ x ∈ m.choices, y = some x := by
    intro y hy
    cases y with
    | none => simp [isChoice] at hy
    | some x => exact ⟨x, by simpa [isChoice] using hy, rfl⟩
  refine ⟨by omega, hch _ h1.1.1.2, ⟨h2.2.1, fun l hl => hch l (h1.2 l hl)⟩, fun w hw => ?_, h2.1,
    h2.2.2, fun o ho hn => ?_⟩
  · have := h1.1.2
    rw [hw] at this
    exact this
  · have := h3.2 o ho
    rw [hn] at this
    cases this

/-- An observable has at most as many different values as levels in the parameters. -/
theorem C72_accepted_observables (m : CheckParas) (s : Sample K) (h : checkEstimationData m s = true)
    (i n : Nat) (hn : m.levels[i]? = some n) (values : List Str) (hnd : values.Nodup)
    (hv : ∀ v ∈ values, ∃ r ∈ s.rows, r.observables[i]? = some (some v)) : values.length ≤ n := by
  obtain ⟨-, -, -, -, hobs, -, -, -, -⟩ := checkEstimationData_parts m s h
  have h1 := List.all_eq_true.1 hobs (n, i) (by
    rw [List.mem_iff_getElem?]
    exact ⟨i, by rw [List.getElem?_zipIdx, hn]; simp⟩)
  simp only [decide_eq_true_eq] at h1
  refine le_trans ?_ h1
  apply List.Subperm.length_le
  apply List.subperm_of_subset hnd
  intro v hv'
  obtain ⟨r, hr, he⟩ := hv v hv'
  rw [mem_eraseDups_iff, List.mem_filterMap]
  exact ⟨r, hr, by rw [he]; rfl⟩

/-- The experience of one row in terms of the row before. -/
theorem experience_step (m : CheckParas) (s : Sample K) (h : checkEstimationData m s = true)
    (e : Nat) (c : Str) (hc : m.choicesExp[e]? = some c) (p : Nat) (r r' : DataRow K)
    (hp : s.rows[p]? = some r) (hl : lastBefore s.rows p r.id = some r') (x : Int)
    (hx : r'.exps[e]? = some x) :
    r.exps[e]? = some (x + if r'.choice = some c then 1 else 0) := by
  obtain ⟨-, -, -, -, -, -, hexp, -, -⟩ := checkEstimationData_parts m s h
  have h1 := List.all_eq_true.1 hexp (c, e) (by
    rw [List.mem_iff_getElem?]
    exact ⟨e, by rw [List.getElem?_zipIdx, hc]; simp⟩)
  simp only [checkExperience] at h1
  have h2 := List.all_eq_true.1 h1 (p, x + if r'.choice = some c then 1 else 0) (by
    unfold shiftColumn
    rw [List.mem_filterMap]
    refine ⟨(r, p), ?_, ?_⟩
    · rw [List.mem_iff_getElem?]
      exact ⟨p, by rw [List.getElem?_zipIdx, hp]; simp⟩
    · simp only [hl, Option.bind_some, hx, Option.map_some])
  simpa only [decide_eq_true_eq, hp, Option.bind_some] using h2

/-- The number of observations of the individual `id` before the period `t` with the choice `c`. -/
def timesChosen (s : Sample K) (id t : Int) (c : Str) : Nat :=
  s.rows.countP fun r => decide (r.id = id ∧ r.period < t ∧ r.choice = some c)

theorem timesChosen_succ (s : Sample K) (hnd : (s.rows.map fun r => (r.id, r.period)).Nodup)
    (r : DataRow K) (hr : r ∈ s.rows) (c : Str) :
    timesChosen s r.id (r.period + 1) c =
      timesChosen s r.id r.period c + if r.choice = some c then 1 else 0 := by
  unfold timesChosen
  have key : ∀ rows : List (DataRow K), (rows.map fun r => (r.id, r.period)).Nodup →
      (rows.countP fun q => decide (q.id = r.id ∧ q.period < r.period + 1 ∧ q.choice = some c)) =
      (rows.countP fun q => decide (q.id = r.id ∧ q.period < r.period ∧ q.choice = some c)) +
        rows.countP fun q => decide (q.id = r.id ∧ q.period = r.period ∧ q.choice = some c) := by
    intro rows _
    induction rows with
    | nil => rfl
    | cons q rows ih =>
      rename_i hnd'
      simp only [List.map_cons, List.nodup_cons] at hnd'
      rw [List.countP_cons, List.countP_cons, List.countP_cons, ih hnd'.2]
      by_cases h1 : q.id = r.id ∧ q.choice = some c
      · rcases lt_trichotomy q.period r.period with h2 | h2 | h2
        · have h3 : q.period < r.period + 1 := by omega
          simp [h1.1, h1.2, h2, h2.ne, h3]; omega
        · simp [h1.1, h1.2, h2]; omega
        · have h3 : ¬q.period < r.period + 1 := by omega
          simp [h1.1, h1.2, h2.ne', not_lt.2 h2.le, h3]
      · have e : ∀ P : Prop, ¬(q.id = r.id ∧ P ∧ q.choice = some c) := fun P hP => h1 ⟨hP.1, hP.2.2⟩
        simp [e]
  rw [key _ hnd]
  congr 1
  have huniq : ∀ q ∈ s.rows, q.id = r.id → q.period = r.period → q = r := by
    intro q hq h1 h2
    refine List.inj_on_of_nodup_map hnd hq hr ?_
    simp only [h1, h2]
  by_cases hcc : r.choice = some c
  · rw [if_pos hcc]
    have : (s.rows.countP fun q => decide (q.id = r.id ∧ q.period = r.period ∧ q.choice = some c)) =
        (s.rows.map fun r => (r.id, r.period)).countP (fun k => decide (k = (r.id, r.period))) := by
      rw [List.countP_map]
      apply List.countP_congr
      intro q hq
      simp only [Function.comp, decide_eq_true_eq, Prod.mk.injEq]
      constructor
      · exact fun h => ⟨h.1, h.2.1⟩
      · exact fun h => ⟨h.1, h.2, by rw [huniq q hq h.1 h.2]; exact hcc⟩
    rw [this]
    have := List.count_eq_one_of_mem hnd (List.mem_map.2 ⟨r, hr, rfl⟩)
    rw [List.count_eq_countP] at this
    rw [← this]
    apply List.countP_congr
    intro k _
    simp
  · rw [if_neg hcc, List.countP_eq_zero]
    intro q hq
    simp only [decide_eq_true_eq]
    rintro ⟨h1, h2, h3⟩
    rw [huniq q hq h1 h2] at h3
    exact hcc h3

/-- In an accepted sample without negative periods and sorted by period, the experience of an individual
is the experience in the first period plus the number of earlier periods with this choice. -/
theorem C72_accepted_experience (m : CheckParas) (s : Sample K) (h : checkEstimationData m s = true)
    (h0 : ∀ r ∈ s.rows, 0 ≤ r.period) (hs : SortedByPeriod s) (e : Nat) (c : Str)
    (hc : m.choicesExp[e]? = some c) (r₀ r : DataRow K) (hr₀ : r₀ ∈ s.rows) (hfirst : r₀.period = 0)
    (hr : r ∈ s.rows) (hid : r.id = r₀.id) (x : Int) (hx : r₀.exps[e]? = some x) :
    r.exps[e]? = some (x + timesChosen s r.id r.period c) := by
  obtain ⟨-, -, -, -, -, -, -, hdup, -⟩ := checkEstimationData_parts m s h
  have hnd : (s.rows.map fun r => (r.id, r.period)).Nodup := by simpa [checkDuplicates] using hdup
  have main : ∀ (t : Nat) (r : DataRow K), r ∈ s.rows → r.id = r₀.id → r.period = t →
      r.exps[e]? = some (x + timesChosen s r.id r.period c) := by
    intro t
    induction t with
    | zero =>
      intro r hr hid ht
      have : r = r₀ := by
        refine List.inj_on_of_nodup_map hnd hr hr₀ ?_
        simp only [hid, ht, hfirst]
        rfl
      subst this
      have : timesChosen s r.id r.period c = 0 := by
        unfold timesChosen
        rw [List.countP_eq_zero]
        intro q hq
        simp only [decide_eq_true_eq]
        rintro ⟨_, h2, _⟩
        have := h0 q hq
        omega
      rw [this, hx]
      simp
    | succ t ih =>
      intro r hr hid ht
      obtain ⟨p, hp⟩ := List.getElem?_of_mem hr
      obtain ⟨r', hl, hr', hid', hper⟩ := previous_row m s h h0 hs p r hp (by omega)
      have e1 := ih r' hr' (hid'.trans hid) (by omega)
      rw [experience_step m s h e c hc p r r' hp hl _ e1, ← hid', ← hper,
        timesChosen_succ s hnd r' hr' c]
      split <;> simp [add_assoc]
  have := h0 r hr
  exact main r.period.toNat r hr hid (by omega)

/-- The hypotheses are met by the example: the first individual has chosen `a` once before period one. -/
example : checkEstimationData exampleParas exampleSample = true ∧
    (∀ r ∈ exampleSample.rows, 0 ≤ r.period) ∧ SortedByPeriod exampleSample ∧
    timesChosen exampleSample 0 1 "a".toList = 1 := by
  refine ⟨by decide +kernel, by decide +kernel, ?_, by decide +kernel⟩
  unfold SortedByPeriod
  decide +kernel

end Respy
