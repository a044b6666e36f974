import Verif.Model.ShippedFilters
import Verif.Props.Robinson
import Verif.Spec.Formula

/-!
# C105: the filters of the shipped models

The texts of the filters are expanded to formulas with codes, whose values are those of the filters in C105 if `df.eval`
evaluates these formulas.
-/

namespace Respy

/-! ### Formulas -/

theorem Reads_false_iff {ev : FormulaEval} {f : Formula} (hr : ev.Reads f) (row : Str → Option ℝ)
    (hcols : ∀ c ∈ f, ∀ x ∈ c.left.columns ++ c.right.columns, (row x).isSome) :
    ev.holds row (formulaOf f) = false ↔ ¬ ∀ c ∈ f, c.Holds row := by
  obtain ⟨h1, h2⟩ := hr row hcols
  unfold FormulaEval.holds
  by_cases h : ∀ c ∈ f, c.Holds row
  · rw [h1 h]
    simpa using h
  · rw [h2 h]
    simp [h]

theorem Comparison.holds_iff {row : Str → Option ℝ} (left right : Term) (rel : Relation) {x y : ℝ}
    (hx : left.value row = some x) (hy : right.value row = some y) :
    Comparison.Holds row ⟨left, rel, right⟩ ↔ rel.Holds x y := by
  unfold Comparison.Holds
  dsimp only
  rw [hx, hy]
  constructor
  · rintro ⟨_, _, h1, h2, h3⟩
    cases h1; cases h2
    exact h3
  · intro h
    exact ⟨x, y, rfl, rfl, h⟩

/-- `period > 0 and exp_c == period and lagged_choice_1 != code`. -/
def onlyFormula (per exp lag : Str) (code : Nat) : Formula :=
  [⟨.column per, .gt, .number 0⟩, ⟨.column exp, .eq, .column per⟩, ⟨.column lag, .ne, .number code⟩]

/-- `period > 0 and exp_a + … == period and lagged_choice_1 == code`. -/
def alwaysFormula (per : Str) (exps : Term) (lag : Str) (code : Nat) : Formula :=
  [⟨.column per, .gt, .number 0⟩, ⟨exps, .eq, .column per⟩, ⟨.column lag, .eq, .number code⟩]

/-- `period > 0 and lagged_choice_1 == code and exp_c == 0`. -/
def laterFormula (per lag exp : Str) (code : Nat) : Formula :=
  [⟨.column per, .gt, .number 0⟩, ⟨.column lag, .eq, .number code⟩, ⟨.column exp, .eq, .number 0⟩]

/-- `lagged_choice_1 == code and exp_c == 0`. -/
def neverFormula (lag exp : Str) (code : Nat) : Formula :=
  [⟨.column lag, .eq, .number code⟩, ⟨.column exp, .eq, .number 0⟩]

/-- `period == 0 and lagged_choice_1 == code`. -/
def firstFormula (per lag : Str) (code : Nat) : Formula :=
  [⟨.column per, .eq, .number 0⟩, ⟨.column lag, .eq, .number code⟩]

section
variable {ev : FormulaEval} {row : Str → Option ℝ} {per exp lag : Str} {t e l : Nat} {code : Nat}

theorem onlyFormula_iff (hr : ev.Reads (onlyFormula per exp lag code)) (h1 : row per = some (t : ℝ))
    (h2 : row exp = some (e : ℝ)) (h3 : row lag = some (l : ℝ)) :
    ev.holds row (formulaOf (onlyFormula per exp lag code)) = false ↔ ¬ (0 < t ∧ e = t ∧ l ≠ code) := by
  rw [Reads_false_iff hr row (by simp [onlyFormula, Term.columns, h1, h2, h3])]
  simp only [onlyFormula, List.forall_mem_cons, List.not_mem_nil, false_imp_iff, implies_true, and_true]
  rw [Comparison.holds_iff (.column per) (.number 0) _ h1 rfl, Comparison.holds_iff (.column exp) (.column per) _ h2 h1,
    Comparison.holds_iff (.column lag) (.number code) _ h3 rfl]
  simp only [Relation.Holds, gt_iff_lt, Nat.cast_lt, Nat.cast_inj, ne_eq]

theorem alwaysFormula_iff {exps : Term} (hr : ev.Reads (alwaysFormula per exps lag code)) (h1 : row per = some (t : ℝ))
    (hc : ∀ x ∈ exps.columns, (row x).isSome) (h2 : exps.value row = some (e : ℝ)) (h3 : row lag = some (l : ℝ)) :
    ev.holds row (formulaOf (alwaysFormula per exps lag code)) = false ↔ ¬ (0 < t ∧ e = t ∧ l = code) := by
  rw [Reads_false_iff hr row (by
    unfold alwaysFormula
    simp only [List.forall_mem_cons, List.not_mem_nil, false_imp_iff, implies_true, and_true]
    refine ⟨fun x hx => ?_, fun x hx => ?_, fun x hx => ?_⟩
    · rw [List.mem_singleton.1 hx, h1]; rfl
    · rcases List.mem_append.1 hx with hx | hx
      · exact hc x hx
      · rw [List.mem_singleton.1 hx, h1]; rfl
    · rw [List.mem_singleton.1 hx, h3]; rfl)]
  simp only [alwaysFormula, List.forall_mem_cons, List.not_mem_nil, false_imp_iff, implies_true, and_true]
  rw [Comparison.holds_iff (.column per) (.number 0) _ h1 rfl, Comparison.holds_iff exps (.column per) _ h2 h1,
    Comparison.holds_iff (.column lag) (.number code) _ h3 rfl]
  simp only [Relation.Holds, gt_iff_lt, Nat.cast_lt, Nat.cast_inj]

theorem laterFormula_iff (hr : ev.Reads (laterFormula per lag exp code)) (h1 : row per = some (t : ℝ))
    (h2 : row exp = some (e : ℝ)) (h3 : row lag = some (l : ℝ)) :
    ev.holds row (formulaOf (laterFormula per lag exp code)) = false ↔ ¬ (0 < t ∧ l = code ∧ e = 0) := by
  rw [Reads_false_iff hr row (by simp [laterFormula, Term.columns, h1, h2, h3])]
  simp only [laterFormula, List.forall_mem_cons, List.not_mem_nil, false_imp_iff, implies_true, and_true]
  rw [Comparison.holds_iff (.column per) (.number 0) _ h1 rfl, Comparison.holds_iff (.column exp) (.number 0) _ h2 rfl,
    Comparison.holds_iff (.column lag) (.number code) _ h3 rfl]
  simp only [Relation.Holds, gt_iff_lt, Nat.cast_lt, Nat.cast_inj]

theorem neverFormula_iff (hr : ev.Reads (neverFormula lag exp code))
    (h2 : row exp = some (e : ℝ)) (h3 : row lag = some (l : ℝ)) :
    ev.holds row (formulaOf (neverFormula lag exp code)) = false ↔ ¬ (l = code ∧ e = 0) := by
  rw [Reads_false_iff hr row (by simp [neverFormula, Term.columns, h2, h3])]
  simp only [neverFormula, List.forall_mem_cons, List.not_mem_nil, false_imp_iff, implies_true, and_true]
  rw [Comparison.holds_iff (.column exp) (.number 0) _ h2 rfl, Comparison.holds_iff (.column lag) (.number code) _ h3 rfl]
  simp only [Relation.Holds, Nat.cast_inj]

theorem firstFormula_iff (hr : ev.Reads (firstFormula per lag code)) (h1 : row per = some (t : ℝ))
    (h3 : row lag = some (l : ℝ)) :
    ev.holds row (formulaOf (firstFormula per lag code)) = false ↔ ¬ (t = 0 ∧ l = code) := by
  rw [Reads_false_iff hr row (by simp [firstFormula, Term.columns, h1, h3])]
  simp only [firstFormula, List.forall_mem_cons, List.not_mem_nil, false_imp_iff, implies_true, and_true]
  rw [Comparison.holds_iff (.column per) (.number 0) _ h1 rfl, Comparison.holds_iff (.column lag) (.number code) _ h3 rfl]
  simp only [Relation.Holds, Nat.cast_inj]

end

/-! ### Keane and Wolpin (1994) -/

/-- The choices of Keane and Wolpin (1994). -/
def kw94Choices : Choices where
  wWage := ["a".toList, "b".toList]
  wExp := ["a".toList, "b".toList, "edu".toList]
  woExp := ["home".toList]
  choices := ["a".toList, "b".toList, "edu".toList, "home".toList]

/-- The formulas which are evaluated for the filters of Keane and Wolpin (1994), for any names of columns. -/
def kw94FormulasOf (per lag a b edu : Str) : List Formula :=
  [onlyFormula per a lag 0, onlyFormula per b lag 1, onlyFormula per edu lag 2,
    alwaysFormula per (.plus (.plus (.column a) (.column b)) (.column edu)) lag 3,
    laterFormula per lag edu 2, neverFormula lag a 0, neverFormula lag b 1,
    firstFormula per lag 0, firstFormula per lag 1]

variable {env : ProcessEnv} {m : UserModel} {p : Processed} {ev : FormulaEval}

theorem kw94FormulasOf_iff {row : Str → Option ℝ} {per lag ca cb cedu : Str} {t a b edu l : Nat}
    (hread : ∀ f ∈ kw94FormulasOf per lag ca cb cedu, ev.Reads f) (v1 : row per = some (t : ℝ))
    (v2 : row ca = some (a : ℝ)) (v3 : row cb = some (b : ℝ)) (v4 : row cedu = some (edu : ℝ))
    (v5 : row lag = some (l : ℝ)) (hl : l < 4) :
    (∀ f ∈ kw94FormulasOf per lag ca cb cedu, ev.holds row (formulaOf f) = false) ↔
      KeptState 2 3 t [a, b, edu] l := by
  unfold kw94FormulasOf at hread ⊢
  simp only [List.forall_mem_cons, List.not_mem_nil, false_imp_iff, implies_true, and_true] at hread ⊢
  obtain ⟨r1, r2, r3, r4, r5, r6, r7, r8, r9⟩ := hread
  rw [onlyFormula_iff r1 v1 v2 v5, onlyFormula_iff r2 v1 v3 v5, onlyFormula_iff r3 v1 v4 v5,
    alwaysFormula_iff (e := a + b + edu) r4 v1 ?_ ?_ v5, laterFormula_iff r5 v1 v4 v5, neverFormula_iff r6 v2 v5,
    neverFormula_iff r7 v3 v5, firstFormula_iff r8 v1 v5, firstFormula_iff r9 v1 v5]
  · clear r1 r2 r3 r4 r5 r6 r7 r8 r9 v1 v2 v3 v4 v5
    have hcases : l = 0 ∨ l = 1 ∨ l = 2 ∨ l = 3 := by omega
    constructor
    · intro h
      refine ⟨fun ht => by omega, fun ht i hi he => ?_, fun ht hlag => ?_, fun ht hlag h0 => ?_⟩
      · have : i = 0 ∨ i = 1 ∨ i = 2 := by omega
        rcases this with rfl | rfl | rfl <;> simp at he <;> omega
      · simp only [List.sum_cons, List.sum_nil]; omega
      · rcases hcases with rfl | rfl | rfl | rfl <;> simp at h0 <;> omega
    · intro h
      have e0 : ∀ ht : 0 < t, a = t → l = 0 := fun ht e => h.only ht 0 (by omega) (by simp [e])
      have e1 : ∀ ht : 0 < t, b = t → l = 1 := fun ht e => h.only ht 1 (by omega) (by simp [e])
      have e2 : ∀ ht : 0 < t, edu = t → l = 2 := fun ht e => h.only ht 2 (by omega) (by simp [e])
      have e3 : ∀ ht : 0 < t, l = 3 → a + b + edu ≠ t := fun ht e => by
        have := h.without ht (by omega)
        simp only [List.sum_cons, List.sum_nil] at this
        omega
      have e4 := h.gained
      have e5 : ∀ ht : 0 < t, (l = 0 → a ≠ 0) ∧ (l = 1 → b ≠ 0) ∧ (l = 2 → edu ≠ 0) := by
        intro ht
        refine ⟨?_, ?_, ?_⟩ <;> rintro rfl h' <;> subst h' <;> simp [ht] at e4
      have e6 := h.first
      omega
  · simp only [Term.columns, List.mem_append, List.mem_singleton]
    rintro x ((rfl | rfl) | rfl)
    · rw [v2]; rfl
    · rw [v3]; rfl
    · rw [v4]; rfl
  · simp only [Term.value, v2, v3, v4, Option.bind_eq_bind, Option.bind_some, Option.pure_def, Nat.cast_add]

/-- The formulas which are evaluated for the filters of Keane and Wolpin (1994). -/
def kw94Formulas : List Formula :=
  kw94FormulasOf "period".toList "lagged_choice_1".toList "exp_a".toList "exp_b".toList "exp_edu".toList

theorem kw94_converted : convertFilters kw94Choices.choices [] ⟨kw94Choices.wExp, kw94Choices.woExp, kw94Choices.wWage⟩
    kw94Filters = some (kw94Formulas.map formulaOf) := by decide +kernel

theorem coreRow_values_kw94 (hch : p.choices = kw94Choices) (t a b edu l : Nat) :
    let row := Dict.get? (p.coreRow ⟨t, [a, b, edu], [some l]⟩)
    row "period".toList = some (t : ℝ) ∧ row "exp_a".toList = some (a : ℝ) ∧ row "exp_b".toList = some (b : ℝ) ∧
      row "exp_edu".toList = some (edu : ℝ) ∧ row "lagged_choice_1".toList = some (l : ℝ) := by
  have hcode : codeText (0 + 1) = ['1'] := by decide +kernel
  unfold Processed.coreRow
  rw [hch]
  simp only [List.zipIdx_cons, List.zipIdx_nil, List.filterMap_cons, List.filterMap_nil, hcode]
  exact ⟨rfl, rfl, rfl, rfl, rfl⟩

/-- **C105.** An accepted model with the choices and the filters which are shipped with Keane and Wolpin (1994), for any
parameters, starting values, maxima, observables and number of periods: its filters exclude the states which the filters
of C105 exclude, provided that `df.eval` evaluates the nine formulas into which the texts are expanded. -/
theorem C105_shipped_filters_kw94 (hp : processModel env m = some p) (hf : m.filters = kw94Filters)
    (hch : p.choices = kw94Choices) (hobs : textLevels p.observables = []) (hl : p.lags.length = 1)
    (hread : ∀ f ∈ kw94Formulas, ev.Reads f) : (p.buildSpec ev).core.KeaneWolpin 2 := by
  obtain ⟨covs, h⟩ := processModel_from env m p hp
  have hlen : (p.buildSpec ev).core.starts.length = 3 := by
    show (p.experience.map _).length = 3
    rw [List.length_map, h.experience_length, hch]; rfl
  have hnc : (p.buildSpec ev).core.nChoices = 4 := by
    show p.choices.choices.length = 4
    rw [hch]; rfl
  have hfil : p.filters = kw94Formulas.map formulaOf := by
    have := h.filters
    rw [hobs, hf, hch, kw94_converted] at this
    exact (Option.some.inj this).symm
  refine ⟨hl, by rw [hlen]; omega, by rw [hlen, hnc]; omega, fun t extra lag he hlag => ?_⟩
  rw [hlen] at he ⊢
  rw [hnc] at hlag ⊢
  rw [keaneWolpinFilters_iff 2 3 4 t extra lag (by omega) hlag]
  match extra, he with
  | [a, b, edu], _ =>
    show (∀ f ∈ p.filters.map _, _) ↔ _
    rw [hfil, List.map_map, List.forall_mem_map]
    obtain ⟨v1, v2, v3, v4, v5⟩ := coreRow_values_kw94 hch t a b edu lag
    exact kw94FormulasOf_iff hread v1 v2 v3 v4 v5 hlag

/-! ### Keane and Wolpin (1997) -/

/-- The choices of the extended model of Keane and Wolpin (1997). -/
def kw97Choices : Choices where
  wWage := ["blue_collar".toList, "military".toList, "white_collar".toList]
  wExp := ["blue_collar".toList, "military".toList, "white_collar".toList, "school".toList]
  woExp := ["home".toList]
  choices := ["blue_collar".toList, "military".toList, "white_collar".toList, "school".toList, "home".toList]

/-- The formulas which are evaluated for the filters of Keane and Wolpin (1997), for any names of columns. -/
def kw97FormulasOf (per lag blue mil white school : Str) : List Formula :=
  [onlyFormula per blue lag 0, onlyFormula per mil lag 1, onlyFormula per white lag 2, onlyFormula per school lag 3,
    alwaysFormula per (.plus (.plus (.plus (.column white) (.column blue)) (.column mil)) (.column school)) lag 4,
    laterFormula per lag school 3, neverFormula lag blue 0, neverFormula lag mil 1, neverFormula lag white 2,
    firstFormula per lag 0, firstFormula per lag 1, firstFormula per lag 2]

theorem kw97FormulasOf_iff {row : Str → Option ℝ} {per lag blue mil white school : Str} {t a b c d l : Nat}
    (hread : ∀ f ∈ kw97FormulasOf per lag blue mil white school, ev.Reads f) (v1 : row per = some (t : ℝ))
    (v2 : row blue = some (a : ℝ)) (v3 : row mil = some (b : ℝ)) (v4 : row white = some (c : ℝ))
    (v5 : row school = some (d : ℝ)) (v6 : row lag = some (l : ℝ)) (hl : l < 5) :
    (∀ f ∈ kw97FormulasOf per lag blue mil white school, ev.holds row (formulaOf f) = false) ↔
      KeptState 3 4 t [a, b, c, d] l := by
  unfold kw97FormulasOf at hread ⊢
  simp only [List.forall_mem_cons, List.not_mem_nil, false_imp_iff, implies_true, and_true] at hread ⊢
  obtain ⟨r1, r2, r3, r4, r5, r6, r7, r8, r9, r10, r11, r12⟩ := hread
  rw [onlyFormula_iff r1 v1 v2 v6, onlyFormula_iff r2 v1 v3 v6, onlyFormula_iff r3 v1 v4 v6,
    onlyFormula_iff r4 v1 v5 v6, alwaysFormula_iff (e := c + a + b + d) r5 v1 ?_ ?_ v6, laterFormula_iff r6 v1 v5 v6,
    neverFormula_iff r7 v2 v6, neverFormula_iff r8 v3 v6, neverFormula_iff r9 v4 v6, firstFormula_iff r10 v1 v6,
    firstFormula_iff r11 v1 v6, firstFormula_iff r12 v1 v6]
  · clear r1 r2 r3 r4 r5 r6 r7 r8 r9 r10 r11 r12 v1 v2 v3 v4 v5 v6
    have hsum : c + a + b + d = [a, b, c, d].sum := by simp only [List.sum_cons, List.sum_nil]; ring
    have hcases : l = 0 ∨ l = 1 ∨ l = 2 ∨ l = 3 ∨ l = 4 := by omega
    constructor
    · rintro ⟨q1, q2, q3, q4, q5, q6, q7, q8, q9, q10, q11, q12⟩
      refine ⟨fun ht => ?_, fun ht i hi he => ?_, fun ht hlag hs => ?_, fun ht hlag h0 => ?_⟩
      · rcases hcases with rfl | rfl | rfl | rfl | rfl
        · exact absurd ⟨ht, rfl⟩ q10
        · exact absurd ⟨ht, rfl⟩ q11
        · exact absurd ⟨ht, rfl⟩ q12
        · exact Nat.le_refl 3
        · exact Nat.le_succ 3
      · match i, hi, he with
        | 0, _, he => exact by_contra fun hne => q1 ⟨ht, Option.some.inj he, hne⟩
        | 1, _, he => exact by_contra fun hne => q2 ⟨ht, Option.some.inj he, hne⟩
        | 2, _, he => exact by_contra fun hne => q3 ⟨ht, Option.some.inj he, hne⟩
        | 3, _, he => exact by_contra fun hne => q4 ⟨ht, Option.some.inj he, hne⟩
      · exact q5 ⟨ht, hsum.trans hs, by clear q1 q2 q3 q4 q5 q6 q7 q8 q9 q10 q11 q12; omega⟩
      · rcases hcases with rfl | rfl | rfl | rfl | rfl
        · exact q7 ⟨rfl, Option.some.inj h0⟩
        · exact q8 ⟨rfl, Option.some.inj h0⟩
        · exact q9 ⟨rfl, Option.some.inj h0⟩
        · exact q6 ⟨ht, rfl, Option.some.inj h0⟩
        · exact absurd hlag (Nat.lt_irrefl 4)
    · intro h
      have hpos : l < 3 → 0 < t := fun hl3 => Nat.pos_of_ne_zero fun h0 => absurd (h.first h0) (Nat.not_le_of_lt hl3)
      refine ⟨fun q => q.2.2 (h.only q.1 0 (by decide) (congrArg some q.2.1)),
        fun q => q.2.2 (h.only q.1 1 (by decide) (congrArg some q.2.1)),
        fun q => q.2.2 (h.only q.1 2 (by decide) (congrArg some q.2.1)),
        fun q => q.2.2 (h.only q.1 3 (by decide) (congrArg some q.2.1)),
        fun q => h.without q.1 (le_of_eq q.2.2.symm) (hsum.symm.trans q.2.1), ?_, ?_, ?_, ?_,
        fun q => absurd (h.first q.1) (by rw [q.2]; decide), fun q => absurd (h.first q.1) (by rw [q.2]; decide),
        fun q => absurd (h.first q.1) (by rw [q.2]; decide)⟩
      · rintro ⟨q1, rfl, q2⟩
        exact h.gained q1 (by decide) (congrArg some q2)
      · rintro ⟨rfl, q2⟩
        exact h.gained (hpos (by decide)) (by decide) (congrArg some q2)
      · rintro ⟨rfl, q2⟩
        exact h.gained (hpos (by decide)) (by decide) (congrArg some q2)
      · rintro ⟨rfl, q2⟩
        exact h.gained (hpos (by decide)) (by decide) (congrArg some q2)
  · simp only [Term.columns, List.mem_append, List.mem_singleton]
    rintro x (((rfl | rfl) | rfl) | rfl)
    · rw [v4]; rfl
    · rw [v2]; rfl
    · rw [v3]; rfl
    · rw [v5]; rfl
  · simp only [Term.value, v2, v3, v4, v5, Option.bind_eq_bind, Option.bind_some, Option.pure_def, Nat.cast_add]

/-- The formulas which are evaluated for the filters of Keane and Wolpin (1997). -/
def kw97Formulas : List Formula :=
  kw97FormulasOf "period".toList "lagged_choice_1".toList "exp_blue_collar".toList "exp_military".toList
    "exp_white_collar".toList "exp_school".toList

theorem kw97_converted : convertFilters kw97Choices.choices [] ⟨kw97Choices.wExp, kw97Choices.woExp, kw97Choices.wWage⟩
    kw97Filters = some (kw97Formulas.map formulaOf) := by decide +kernel

theorem coreRow_values_kw97 (hch : p.choices = kw97Choices) (t blue mil white school l : Nat) :
    let row := Dict.get? (p.coreRow ⟨t, [blue, mil, white, school], [some l]⟩)
    row "period".toList = some (t : ℝ) ∧ row "exp_blue_collar".toList = some (blue : ℝ) ∧
      row "exp_military".toList = some (mil : ℝ) ∧ row "exp_white_collar".toList = some (white : ℝ) ∧
      row "exp_school".toList = some (school : ℝ) ∧ row "lagged_choice_1".toList = some (l : ℝ) := by
  have hcode : codeText (0 + 1) = ['1'] := by decide +kernel
  unfold Processed.coreRow
  rw [hch]
  simp only [List.zipIdx_cons, List.zipIdx_nil, List.filterMap_cons, List.filterMap_nil, hcode]
  exact ⟨rfl, rfl, rfl, rfl, rfl, rfl⟩

/-- **C105.** The same for the filters which are shipped with the extended model of Keane and Wolpin (1997). -/
theorem C105_shipped_filters_kw97 (hp : processModel env m = some p) (hf : m.filters = kw97Filters)
    (hch : p.choices = kw97Choices) (hobs : textLevels p.observables = []) (hl : p.lags.length = 1)
    (hread : ∀ f ∈ kw97Formulas, ev.Reads f) : (p.buildSpec ev).core.KeaneWolpin 3 := by
  obtain ⟨covs, h⟩ := processModel_from env m p hp
  have hlen : (p.buildSpec ev).core.starts.length = 4 := by
    show (p.experience.map _).length = 4
    rw [List.length_map, h.experience_length, hch]; rfl
  have hnc : (p.buildSpec ev).core.nChoices = 5 := by
    show p.choices.choices.length = 5
    rw [hch]; rfl
  have hfil : p.filters = kw97Formulas.map formulaOf := by
    have := h.filters
    rw [hobs, hf, hch, kw97_converted] at this
    exact (Option.some.inj this).symm
  refine ⟨hl, by rw [hlen]; omega, by rw [hlen, hnc]; omega, fun t extra lag he hlag => ?_⟩
  rw [hlen] at he ⊢
  rw [hnc] at hlag ⊢
  rw [keaneWolpinFilters_iff 3 4 5 t extra lag (by omega) hlag]
  match extra, he with
  | [a, b, c, d], _ =>
    show (∀ f ∈ p.filters.map _, _) ↔ _
    rw [hfil, List.map_map, List.forall_mem_map]
    obtain ⟨v1, v2, v3, v4, v5, v6⟩ := coreRow_values_kw97 hch t a b c d lag
    exact kw97FormulasOf_iff hread v1 v2 v3 v4 v5 v6 hlag

/-! ### Robinson Crusoe -/

/-- The choices of the extended model of Robinson Crusoe. -/
def robinsonChoices : Choices where
  wWage := ["fishing".toList]
  wExp := ["fishing".toList, "friday".toList]
  woExp := ["hammock".toList]
  choices := ["fishing".toList, "friday".toList, "hammock".toList]

/-- The formulas which are evaluated for the filters of Robinson Crusoe, for any names of columns. -/
def robinsonFormulasOf (per lag fish friday : Str) : List Formula :=
  [[⟨.column per, .gt, .number 0⟩, ⟨.plus (.column fish) (.column friday), .eq, .column per⟩,
      ⟨.column lag, .eq, .number 2⟩],
    [⟨.column per, .le, .number 2⟩, ⟨.column friday, .ne, .number 0⟩],
    [⟨.column per, .ge, .number 3⟩, ⟨.minus (.column per) (.column friday), .lt, .number 2⟩],
    [⟨.column friday, .gt, .number 0⟩, ⟨.column fish, .eq, .number 0⟩],
    [⟨.column friday, .gt, .number 0⟩, ⟨.column fish, .eq, .number 1⟩, ⟨.column lag, .eq, .number 0⟩],
    [⟨.minus (.column per) (.column friday), .eq, .number 2⟩, ⟨.column lag, .ne, .number 1⟩,
      ⟨.column per, .gt, .number 2⟩],
    [⟨.column fish, .eq, .number 0⟩, ⟨.column lag, .eq, .number 0⟩],
    [⟨.column friday, .eq, .number 0⟩, ⟨.column lag, .eq, .number 1⟩]]

theorem robinsonFormulasOf_iff {row : Str → Option ℝ} {per lag fish friday : Str} {t a b l : Nat}
    (hread : ∀ f ∈ robinsonFormulasOf per lag fish friday, ev.Reads f) (v1 : row per = some (t : ℝ))
    (v2 : row fish = some (a : ℝ)) (v3 : row friday = some (b : ℝ)) (v4 : row lag = some (l : ℝ)) :
    (∀ f ∈ robinsonFormulasOf per lag fish friday, ev.holds row (formulaOf f) = false) ↔ KeptCrusoe t a b l := by
  have hiff : ∀ f ∈ robinsonFormulasOf per lag fish friday,
      (ev.holds row (formulaOf f) = false ↔ ¬ ∀ c ∈ f, c.Holds row) := by
    intro f hf
    refine Reads_false_iff (hread f hf) row ?_
    clear hread
    revert f
    have w1 : (row per).isSome := by rw [v1]; rfl
    have w2 : (row fish).isSome := by rw [v2]; rfl
    have w3 : (row friday).isSome := by rw [v3]; rfl
    have w4 : (row lag).isSome := by rw [v4]; rfl
    simp [robinsonFormulasOf, Term.columns, w1, w4, or_imp, forall_and, w2, w3]
  rw [forall₂_congr hiff]
  clear hiff hread
  have hsub : ∀ k : Nat, ((t : ℝ) - b = k ↔ t = b + k) ∧ ((t : ℝ) - b < k ↔ t < b + k) := by
    intro k
    constructor
    · rw [sub_eq_iff_eq_add]
      constructor
      · intro h
        have : (t : ℝ) = ((k + b : Nat) : ℝ) := by push_cast; exact h
        have := Nat.cast_injective this
        omega
      · rintro rfl
        push_cast
        ring
    · rw [sub_lt_iff_lt_add]
      constructor
      · intro h
        have : (t : ℝ) < ((k + b : Nat) : ℝ) := by push_cast; exact h
        have := Nat.cast_lt.1 this
        omega
      · intro h
        have : (t : ℝ) < ((k + b : Nat) : ℝ) := Nat.cast_lt.2 (by omega)
        push_cast at this
        exact this
  simp only [robinsonFormulasOf, List.forall_mem_cons, List.not_mem_nil, false_imp_iff, implies_true, and_true,
    Comparison.Holds, Term.value, v1, v2, v3, v4, Option.bind_eq_bind, Option.bind_some, Option.pure_def,
    Option.some.injEq, exists_and_left, exists_eq_left', Relation.Holds, gt_iff_lt, ge_iff_le, Nat.cast_lt, Nat.cast_le,
    Nat.cast_inj, ← Nat.cast_add, hsub, ne_eq]
  constructor
  · intro h
    constructor <;> omega
  · rintro ⟨h1, h2, h3, h4, h5, h6, h7, h8⟩
    omega

/-- The formulas which are evaluated for the filters of Robinson Crusoe. -/
def robinsonFormulas : List Formula :=
  robinsonFormulasOf "period".toList "lagged_choice_1".toList "exp_fishing".toList "exp_friday".toList

theorem robinson_converted : convertFilters robinsonChoices.choices []
    ⟨robinsonChoices.wExp, robinsonChoices.woExp, robinsonChoices.wWage⟩ robinsonTexts =
      some (robinsonFormulas.map formulaOf) := by decide +kernel

theorem coreRow_values_robinson (hch : p.choices = robinsonChoices) (t fish friday l : Nat) :
    let row := Dict.get? (p.coreRow ⟨t, [fish, friday], [some l]⟩)
    row "period".toList = some (t : ℝ) ∧ row "exp_fishing".toList = some (fish : ℝ) ∧
      row "exp_friday".toList = some (friday : ℝ) ∧ row "lagged_choice_1".toList = some (l : ℝ) := by
  have hcode : codeText (0 + 1) = ['1'] := by decide +kernel
  unfold Processed.coreRow
  rw [hch]
  simp only [List.zipIdx_cons, List.zipIdx_nil, List.filterMap_cons, List.filterMap_nil, hcode]
  exact ⟨rfl, rfl, rfl, rfl⟩

/-- **C105.** The same for the filters which are shipped with the extended model of Robinson Crusoe, if no starting values
and maxima are given. -/
theorem C105_shipped_filters_robinson (hp : processModel env m = some p) (hf : m.filters = robinsonTexts)
    (hch : p.choices = robinsonChoices) (hobs : textLevels p.observables = []) (hl : p.lags.length = 1)
    (hexp : (p.experience.map fun e => (Dict.keys e.1, e.2)) = [([0], p.nPeriods - 1), ([0], p.nPeriods - 1)])
    (hread : ∀ f ∈ robinsonFormulas, ev.Reads f) : (p.buildSpec ev).core.Robinson := by
  obtain ⟨covs, h⟩ := processModel_from env m p hp
  have hfil : p.filters = robinsonFormulas.map formulaOf := by
    have := h.filters
    rw [hobs, hf, hch, robinson_converted] at this
    exact (Option.some.inj this).symm
  have h1 := congrArg (List.map Prod.fst) hexp
  have h2 := congrArg (List.map Prod.snd) hexp
  simp only [List.map_map, Function.comp_def, List.map_cons, List.map_nil] at h1 h2
  refine ⟨by show p.choices.choices.length = 3; rw [hch]; rfl, h1, h2, hl, fun t a b lag hlag => ?_⟩
  rw [robinsonFilters_iff]
  show (∀ f ∈ p.filters.map _, _) ↔ _
  rw [hfil, List.map_map, List.forall_mem_map]
  obtain ⟨v1, v2, v3, v4⟩ := coreRow_values_robinson hch t a b lag
  exact robinsonFormulasOf_iff hread v1 v2 v3 v4

end Respy
