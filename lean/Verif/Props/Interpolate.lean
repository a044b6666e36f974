import Verif.Lemmas.Interpolate
import Verif.Props.Solve

/-!
# Properties of the interpolation: C21, C22
-/

set_option linter.unusedSectionVars false

namespace Respy

variable {K : Type _} [Field K] [LinearOrder K]

theorem nStates_of_keys (ss : SolveSpace) (hwf : ss.WF) (t : Nat) :
    ∃ ns, ((ss.keysOfPeriod t).mapM fun k => ss.nStates[k]?) = some ns ∧
      ns = (ss.keysOfPeriod t).map fun k => (ss.nStates[k]?).getD 0 := by
  have hall : ∀ k ∈ ss.keysOfPeriod t, ss.nStates[k]? = some ((ss.nStates[k]?).getD 0) := by
    intro k hk
    obtain ⟨c, hc, _⟩ := (mem_keysOfPeriod _ _ _).1 hk
    have : k < ss.nStates.length := by rw [hwf.shape]; exact (List.getElem?_eq_some_iff.1 hc).1
    simp [this]
  refine ⟨_, ?_, rfl⟩
  generalize ss.keysOfPeriod t = keys at hall
  rw [mapM_eq_some_iff, List.forall₂_map_right_iff]
  exact List.forall₂_same.2 hall

/-- **C21 (partial).** If the solution decides to interpolate in period `t` and there are more than two
points for each dense key, then the points are split without an error whatever is drawn, each dense
key receives at least `min 2 n` and at most `n` points where `n` is the number of its states, at most
`interpolation_points` are used, and as many states as points are selected. Missing: exactly two
points per dense key, see `C21_two_points_per_key_false`. -/
theorem C21_split_feasible_partial (rng : InterpolationRandom) (hrng : rng.Contract)
    (ss : SolveSpace) (hwf : ss.WF) (t : Nat) (h : ss.anyInterpolated t = true)
    (hne : ss.interpolationPoints ≠ 2 * (ss.keysOfPeriod t).length) (seed : Nat) :
    ∃ ns points, ((ss.keysOfPeriod t).mapM fun k => ss.nStates[k]?) = some ns ∧
      splitPoints rng ns ss.interpolationPoints seed = some (points, seed + 1) ∧
      points.sum ≤ ss.interpolationPoints ∧
      ∀ (j k n s : Nat), (ss.keysOfPeriod t)[j]? = some k → ss.nStates[k]? = some n →
        ∃ q mask, points[j]? = some q ∧ min 2 n ≤ q ∧ q ≤ n ∧
          notInterpolated rng q n s = some mask ∧ mask.length = n ∧ mask.count true = q := by
  obtain ⟨ns, hns, rfl⟩ := nStates_of_keys ss hwf t
  simp only [SolveSpace.anyInterpolated, Bool.and_eq_true, decide_eq_true_eq] at h
  obtain ⟨out, h1, h2, h3, h4⟩ := splitPoints_spec rng hrng
    ((ss.keysOfPeriod t).map fun k => (ss.nStates[k]?).getD 0) ss.interpolationPoints seed
    (by simp only [List.length_map]; omega) (by omega)
  refine ⟨_, out, hns, h1, h3, ?_⟩
  intro j k n s hj hk
  obtain ⟨q, e1, e2, e3⟩ := h4 j n (by simp [hj, hk])
  obtain ⟨mask, m1, m2, m3⟩ := notInterpolated_spec rng hrng q n s e3
  exact ⟨q, mask, e1, e2, e3, m1, m2, m3⟩

/-- **C21**, the boundary: with exactly two points for each dense key the solution decides to
interpolate and the split raises an exception in every model. -/
theorem C21_two_points_per_key_raises (ss : SolveSpace) (t : Nat)
    (h : ss.anyInterpolated t = true)
    (htwo : ss.interpolationPoints = 2 * (ss.keysOfPeriod t).length)
    (rng : InterpolationRandom) (sqrt : K → K) (ols : List K → List (List K) → List K)
    (shocks : List K) (par : ParamObjects K) (cvs : Dict Nat (List (List K))) (seed : Nat) :
    kw94 ss rng sqrt ols shocks par cvs t seed = none := by
  simp only [SolveSpace.anyInterpolated, Bool.and_eq_true, decide_eq_true_eq] at h
  refine Option.eq_none_iff_forall_ne_some.2 fun r hr => ?_
  unfold kw94 at hr
  obtain ⟨ns, hns, hr⟩ := Option.bind_eq_some_iff.1 hr
  obtain ⟨sp, hsp, _⟩ := Option.bind_eq_some_iff.1 hr
  have hlen := mapM_eq_some_length _ _ _ hns
  unfold splitPoints at hsp
  have : ns.isEmpty = false := by
    cases ns with
    | nil =>
      have : ss.keysOfPeriod t = [] := List.eq_nil_of_length_eq_zero (by simpa using hlen.symm)
      rw [this] at h; simp at h
    | cons _ _ => rfl
  simp [htwo, hlen, this] at hsp

/-- One period, two dense keys with five and three states. -/
def interpolationSpace (points : Nat) : SolveSpace where
  nPeriods := 1
  complexes := [⟨0, [true, true], none⟩, ⟨0, [false, true], none⟩]
  nStates := [5, 3]
  childIndices := []
  lookup := []
  transit := none
  interpolationPoints := points

theorem interpolationSpace_wf (points : Nat) : (interpolationSpace points).WF :=
  ⟨rfl, by simp [interpolationSpace]⟩

/-- **C21** is false in full: a model for which the solution interpolates and always raises. -/
theorem C21_two_points_per_key_false : ∃ ss : SolveSpace, ss.WF ∧ ss.anyInterpolated 0 = true ∧
    ∀ (rng : InterpolationRandom) (sqrt : ℚ → ℚ) (ols : List ℚ → List (List ℚ) → List ℚ)
      (shocks : List ℚ) (par : ParamObjects ℚ) (cvs : Dict Nat (List (List ℚ))) (seed : Nat),
      kw94 ss rng sqrt ols shocks par cvs 0 seed = none :=
  ⟨interpolationSpace 4, interpolationSpace_wf 4, by decide +kernel, fun _ _ _ _ _ _ _ =>
    C21_two_points_per_key_raises _ _ (by decide +kernel) (by decide +kernel) _ _ _ _ _ _ _⟩

/-- A random number generator which fulfils the contract: it draws the first key with positive
probability and samples the first elements. -/
def firstRandom : InterpolationRandom where
  choice := fun _ _ pool => pool.findIdx (0 < ·)
  sample := fun _ _ size => List.range size

theorem firstRandom_contract : firstRandom.Contract where
  choice := by
    intro _ _ pool hs
    have hex : ∃ x ∈ pool, decide (0 < x) = true := by
      by_contra hc
      push Not at hc
      have : pool.sum = 0 := List.sum_eq_zero fun x hx => by simpa using hc x hx
      omega
    have hlt : pool.findIdx (0 < ·) < pool.length := List.findIdx_lt_length_of_exists hex
    have h := List.findIdx_getElem (w := hlt)
    simp only [decide_eq_true_eq] at h
    refine ⟨pool[pool.findIdx (0 < ·)] - 1, ?_⟩
    simp only [firstRandom]
    rw [List.getElem?_eq_getElem hlt]
    congr 1; omega
  sample := by
    intro _ n size h
    exact ⟨List.nodup_range, by simp [firstRandom], fun x hx => by
      simp only [firstRandom, List.mem_range] at hx; omega⟩

example : (interpolationSpace 7).anyInterpolated 0 = true ∧
    (interpolationSpace 7).interpolationPoints ≠ 2 * ((interpolationSpace 7).keysOfPeriod 0).length ∧
    splitPoints firstRandom [5, 3] 7 10 = some ([5, 2], 11) := by
  decide +kernel

/-! ## C22 -/

/-- Specification: the expected shock of alternative `a`, the mean of a log-normal variable with the
variance given by the rows of the Cholesky factor for the first `nWages` alternatives, else zero. The
exponent is bounded by `maxLog`. -/
def IsExpectedShock (exp : K → K) (maxLog : K) (nWages : Nat) (cholesky : List (List K)) (a : Nat)
    (e : K) : Prop :=
  ∃ row, cholesky[a]? = some row ∧
    (a < nWages → e = exp (min (row.map (· ^ 2)).sum maxLog / 2)) ∧ (nWages ≤ a → e = 0)

theorem expShocks_spec [IsStrictOrderedRing K] (exp : K → K) (maxLog : K) (nWages : Nat)
    (cholesky : List (List K)) (a : Nat) (e : K)
    (h : (expShocks exp maxLog nWages cholesky)[a]? = some e) :
    IsExpectedShock exp maxLog nWages cholesky a e := by
  unfold expShocks at h
  rw [List.getElem?_mapIdx] at h
  cases hrow : cholesky[a]? with
  | none => rw [hrow] at h; simp at h
  | some row =>
    rw [hrow, Option.map_some, Option.some.injEq] at h
    refine ⟨row, hrow, fun ha => ?_, fun ha => ?_⟩
    · rw [if_pos ha] at h
      have hdot : dotList row row = (row.map (· ^ 2)).sum := by
        unfold dotList
        congr 1
        clear h hrow
        induction row with
        | nil => rfl
        | cons x row ih => simp [sq]
      rw [← h, hdot, max_eq_left]
      exact List.sum_nonneg fun x hx => by
        obtain ⟨y, _, rfl⟩ := List.mem_map.1 hx
        exact sq_nonneg y
    · rw [if_neg (by omega)] at h; exact h.symm

theorem boolIndex_positionIn {α : Type _} (mask : List Bool) (xs ys : List α)
    (h : boolIndex mask xs = some ys) (a : Nat) (ha : mask[a]? = some true) :
    ys[positionIn mask a]? = xs[a]? := by
  unfold boolIndex at h
  split at h
  · rename_i hl
    simp only [Option.some.injEq] at h
    subst h
    induction mask generalizing xs a with
    | nil => simp at ha
    | cons b mask ih =>
      cases xs with
      | nil => simp at hl
      | cons x xs =>
        have hl' : mask.length = xs.length := by simpa using hl
        cases a with
        | zero =>
          simp only [List.getElem?_cons_zero, Option.some.injEq] at ha
          subst ha; simp [positionIn]
        | succ a =>
          have := ih xs a (by simpa using ha) hl'
          cases b <;> simpa [positionIn] using this
  · cases h

/-- The states of a dense key which are simulated in an interpolated period, if the next seed is `seed`. -/
def pointsOfKey (ss : SolveSpace) (rng : InterpolationRandom) (t seed k : Nat) : Option (List Bool) := do
  let ns ← (ss.keysOfPeriod t).mapM fun k => ss.nStates[k]?
  let points ← splitPoints rng ns ss.interpolationPoints (seed + (ss.keysOfPeriod t).length)
  let n ← ns[(ss.keysOfPeriod t).idxOf k]?
  let q ← points.1[(ss.keysOfPeriod t).idxOf k]?
  notInterpolated rng q n (seed + (ss.keysOfPeriod t).idxOf k)

/-- The number of simulated states and the values of one dense key. -/
theorem kw94_key (ss : SolveSpace) (rng : InterpolationRandom) (sqrt : K → K)
    (ols : List K → List (List K) → List K) (shocks : List K) (par : ParamObjects K)
    (cvs : Dict Nat (List (List K))) (t seed : Nat) (values : Dict Nat (List K)) (seed' : Nat)
    (h : kw94 ss rng sqrt ols shocks par cvs t seed = some (values, seed')) :
    Dict.keys values = ss.keysOfPeriod t ∧
    ∀ k ∈ ss.keysOfPeriod t, ∃ n q s mask c sh wages nonpecs cv draws v,
      ss.nStates[k]? = some n ∧ notInterpolated rng q n s = some mask ∧
      (∃ (ns points : List Nat) (j : Nat), ((ss.keysOfPeriod t).mapM fun k => ss.nStates[k]?) = some ns ∧
        splitPoints rng ns ss.interpolationPoints (seed + (ss.keysOfPeriod t).length) =
          some (points, seed') ∧ ns[j]? = some n ∧ points[j]? = some q) ∧
      pointsOfKey ss rng t seed k = some mask ∧
      ss.complexes[k]? = some c ∧ boolIndex c.choiceSet shocks = some sh ∧
      Dict.get? par.wages k = some wages ∧ Dict.get? par.nonpecs k = some nonpecs ∧
      Dict.get? cvs k = some cv ∧ Dict.get? par.draws k = some draws ∧
      interpolateKey sqrt ols par.delta mask sh wages nonpecs cv draws = some v ∧
      Dict.get? values k = some v := by
  unfold kw94 at h
  obtain ⟨ns, hns, h⟩ := Option.bind_eq_some_iff.1 h
  obtain ⟨⟨points, s'⟩, hsp, h⟩ := Option.bind_eq_some_iff.1 h
  obtain ⟨vals, hvals, h⟩ := Option.bind_eq_some_iff.1 h
  simp only [Option.pure_def, Option.some.injEq, Prod.mk.injEq] at h
  obtain ⟨rfl, rfl⟩ := h
  have hlen : vals.length = (ss.keysOfPeriod t).length := by
    rw [mapM_eq_some_length _ _ _ hvals]; simp
  have hentry : ∀ (p : Nat) (hp : p < (ss.keysOfPeriod t).length),
      ∃ n q mask c sh wages nonpecs cv draws v, ns[p]? = some n ∧ points[p]? = some q ∧
      notInterpolated rng q n (seed + p) = some mask ∧
      ss.complexes[(ss.keysOfPeriod t)[p]]? = some c ∧ boolIndex c.choiceSet shocks = some sh ∧
      Dict.get? par.wages (ss.keysOfPeriod t)[p] = some wages ∧
      Dict.get? par.nonpecs (ss.keysOfPeriod t)[p] = some nonpecs ∧
      Dict.get? cvs (ss.keysOfPeriod t)[p] = some cv ∧
      Dict.get? par.draws (ss.keysOfPeriod t)[p] = some draws ∧
      interpolateKey sqrt ols par.delta mask sh wages nonpecs cv draws = some v ∧
      vals[p]? = some ((ss.keysOfPeriod t)[p], v) := by
    intro p hp
    have hrow := mapM_range_getElem? _ _ _ hvals p hp
    rw [List.getElem?_eq_getElem (show p < vals.length by omega)] at hrow
    obtain ⟨k, hk, hrow⟩ := Option.bind_eq_some_iff.1 hrow.symm
    rw [List.getElem?_eq_getElem hp, Option.some.injEq] at hk
    subst hk
    obtain ⟨n, h1, hrow⟩ := Option.bind_eq_some_iff.1 hrow
    obtain ⟨q, h2, hrow⟩ := Option.bind_eq_some_iff.1 hrow
    obtain ⟨mask, h3, hrow⟩ := Option.bind_eq_some_iff.1 hrow
    obtain ⟨c, h4, hrow⟩ := Option.bind_eq_some_iff.1 hrow
    obtain ⟨sh, h5, hrow⟩ := Option.bind_eq_some_iff.1 hrow
    obtain ⟨wages, h6, hrow⟩ := Option.bind_eq_some_iff.1 hrow
    obtain ⟨nonpecs, h7, hrow⟩ := Option.bind_eq_some_iff.1 hrow
    obtain ⟨cv, h8, hrow⟩ := Option.bind_eq_some_iff.1 hrow
    obtain ⟨draws, h9, hrow⟩ := Option.bind_eq_some_iff.1 hrow
    obtain ⟨v, h10, hrow⟩ := Option.bind_eq_some_iff.1 hrow
    refine ⟨n, q, mask, c, sh, wages, nonpecs, cv, draws, v, h1, h2, h3, h4, h5, h6, h7, h8, h9, h10, ?_⟩
    rw [List.getElem?_eq_getElem (show p < vals.length by omega)]
    simpa using hrow.symm
  have hkeys : Dict.keys vals = ss.keysOfPeriod t := by
    unfold Dict.keys
    apply List.ext_getElem (by simpa using hlen)
    intro p h1 h2
    obtain ⟨_, _, _, _, _, _, _, _, _, v, _, _, _, _, _, _, _, _, _, _, hv⟩ := hentry p h2
    rw [List.getElem_map]
    have h1' : p < vals.length := by simpa using h1
    rw [List.getElem?_eq_getElem h1', Option.some.injEq] at hv
    rw [hv]
  refine ⟨hkeys, fun k hk => ?_⟩
  obtain ⟨p, hp, rfl⟩ := List.getElem_of_mem hk
  obtain ⟨n, q, mask, c, sh, wages, nonpecs, cv, draws, v, h1, h2, h3, h4, h5, h6, h7, h8, h9, h10,
    hv⟩ := hentry p hp
  have hn : ss.nStates[(ss.keysOfPeriod t)[p]]? = some n := by
    have := mapM_getElem? _ _ _ hns p _ (List.getElem?_eq_getElem hp)
    rw [← this, h1]
  refine ⟨n, q, _, mask, c, sh, wages, nonpecs, cv, draws, v, hn, h3,
    ⟨ns, points, p, hns, hsp, h1, h2⟩, ?_, h4, h5, h6, h7, h8, h9, h10, ?_⟩
  · unfold pointsOfKey
    have hidx : (ss.keysOfPeriod t).idxOf (ss.keysOfPeriod t)[p] = p :=
      (nodup_keysOfPeriod ss t).idxOf_getElem p hp
    simp only [hns, hsp, Option.bind_eq_bind, Option.bind_some, hidx, h1, h2, h3]
  refine Dict.get?_of_mem _ ?_ _ _ (List.mem_of_getElem? hv)
  rw [hkeys]; exact nodup_keysOfPeriod _ _

/-- The interpolation returns values for exactly the dense keys of the period. -/
theorem kw94_interpolationKeys (ss : SolveSpace) (rng : InterpolationRandom) (sqrt : K → K)
    (ols : List K → List (List K) → List K) (shocks : List K) :
    InterpolationKeys ss (kw94 ss rng sqrt ols shocks) := fun par cvs t seed values seed' h =>
  (kw94_key ss rng sqrt ols shocks par cvs t seed values seed' h).1

/-- **C22.** In an interpolated period, for any square root, regression coefficients and selection of
points: each dense key has at least `min 2 n` states marked as simulated. The value of a simulated
state is the Monte Carlo Bellman operator at the rewards and continuation values of this state. The
value of any other state is at least the value of every alternative at its expected shock. -/
theorem C22_simulated_exact_interpolated_bounded [IsStrictOrderedRing K] (ss : SolveSpace)
    (hwf : ss.WF) (rng : InterpolationRandom) (hrng : rng.Contract) (exp sqrt : K → K) (maxLog : K)
    (nWages : Nat) (cholesky : List (List K)) (ols : List K → List (List K) → List K)
    (par : ParamObjects K) (cvs : Dict Nat (List (List K))) (t seed : Nat)
    (values : Dict Nat (List K)) (seed' : Nat) (hany : ss.anyInterpolated t = true)
    (h : kw94 ss rng sqrt ols (expShocks exp maxLog nWages cholesky) par cvs t seed =
      some (values, seed')) (k : Nat) (c : Complex) (hc : ss.complexes[k]? = some c)
    (hct : c.period = t) :
    ∃ (n : Nat) (vs : List K) (simulated : List Bool) (draws : List (List K)), ss.nStates[k]? = some n ∧ Dict.get? values k = some vs ∧
      vs.length = n ∧ simulated.length = n ∧ min 2 n ≤ simulated.count true ∧
      Dict.get? par.draws k = some draws ∧
      ∀ i < n, ∃ w m cv v, IsRow par.wages k i w ∧ IsRow par.nonpecs k i m ∧ IsRow cvs k i cv ∧
        m.length = w.length ∧ cv.length = w.length ∧
        vs[i]? = some v ∧
        (simulated[i]? = some true → (∀ d ∈ draws, d.length = w.length) ∧
          IsMeanMax par.delta w m cv draws v) ∧
        (simulated[i]? = some false → ∀ (a : Nat) (wa ma ca : K), c.choiceSet[a]? = some true →
          w[positionIn c.choiceSet a]? = some wa → m[positionIn c.choiceSet a]? = some ma →
          cv[positionIn c.choiceSet a]? = some ca →
          ∃ e, IsExpectedShock exp maxLog nWages cholesky a e ∧
            wa * e + ma + par.delta * ca ≤ v) := by
  have hk : k ∈ ss.keysOfPeriod t := (mem_keysOfPeriod _ _ _).2 ⟨c, hc, hct⟩
  obtain ⟨n, q, s, mask, c', sh, wages, nonpecs, cv, draws, vs, hn, hmask, ⟨ns, points, j, hns, hsp,
    hj, hq⟩, -, hc', hsh, hw, hm, hcv, hd, hi, hv⟩ := (kw94_key ss rng sqrt ols _ par cvs t seed values
      seed' h).2 k hk
  rw [hc] at hc'; cases hc'
  have hne : ss.interpolationPoints ≠ 2 * (ss.keysOfPeriod t).length := by
    intro heq
    rw [C21_two_points_per_key_raises ss t hany heq] at h
    cases h
  simp only [SolveSpace.anyInterpolated, Bool.and_eq_true, decide_eq_true_eq] at hany
  obtain ⟨ns', hns', hnseq⟩ := nStates_of_keys ss hwf t
  rw [hns] at hns'; cases hns'
  have hnl := mapM_eq_some_length _ _ _ hns
  obtain ⟨out, o1, _, _, o4⟩ := splitPoints_spec rng hrng ns ss.interpolationPoints
    (seed + (ss.keysOfPeriod t).length) (by omega) (by rw [hnseq]; omega)
  rw [hsp] at o1; cases o1
  obtain ⟨q', e1, e2, e3⟩ := o4 j n hj
  rw [hq] at e1; cases e1
  obtain ⟨mask', m1, m2, m3⟩ := notInterpolated_spec rng hrng q n s e3
  rw [hmask] at m1; cases m1
  obtain ⟨l1, l2⟩ := interpolateKey_spec sqrt ols par.delta mask sh wages nonpecs cv draws vs hi
  refine ⟨n, vs, mask, draws, hn, hv, by omega, m2, by omega, hd, fun i hi => ?_⟩
  obtain ⟨w, m, cr, v, r1, r2, r3, r4, r5, r6, r7, r8, r9⟩ := l2 i (by omega)
  refine ⟨w, m, cr, v, ⟨wages, hw, r1⟩, ⟨nonpecs, hm, r2⟩, ⟨cv, hcv, r3⟩, r5, r6, r4, fun hs => ?_,
    fun hs => ?_⟩
  · obtain ⟨hdl, rfl⟩ := r8 hs
    exact ⟨hdl, emax_isMeanMax ..⟩
  · intro a wa ma ca ha hwa hma hca
    obtain ⟨mx, _, hmx, hle⟩ := r9 hs
    have hpos := (List.getElem?_eq_some_iff.1 hwa).1
    have hse : sh[positionIn c.choiceSet a]? = some (sh[positionIn c.choiceSet a]'(by omega)) :=
      List.getElem?_eq_getElem _
    have hexp := boolIndex_positionIn _ _ _ hsh a ha
    rw [hse] at hexp
    refine ⟨_, expShocks_spec exp maxLog nWages cholesky a _ hexp.symm, le_trans (hmx _ ?_) hle⟩
    exact (mem_valueFunctions ..).2 ⟨_, wa, ma, ca, _, hwa, hma, hca, hse, rfl⟩

/-- **C22** for a whole solution: after a successful run of the backward induction with interpolation
the stored values of every interpolated period have the properties of
`C22_simulated_exact_interpolated_bounded`, with the continuation values of the final solution. -/
theorem C22_solution [IsStrictOrderedRing K] (ss : SolveSpace)
    (hwf : ss.WF) (rng : InterpolationRandom) (hrng : rng.Contract) (exp sqrt : K → K) (maxLog : K)
    (nWages : Nat) (cholesky : List (List K)) (ols : List K → List (List K) → List K)
    (par : ParamObjects K) (hdelta : par.delta ≠ 0) (seed : Nat) (ev0 : Dict Nat (List K))
    (hs : SameShape (initialValues ss) ev0)
    (hok : (solveBackward ss (kw94 ss rng sqrt ols (expShocks exp maxLog nWages cholesky)) par seed
      ev0).2 = true)
    (k : Nat) (c : Complex) (hc : ss.complexes[k]? = some c)
    (hany : ss.anyInterpolated c.period = true) :
    let ev := (solveBackward ss (kw94 ss rng sqrt ols (expShocks exp maxLog nWages cholesky)) par seed
      ev0).1
    ∃ cvs n vs, ∃ (simulated : List Bool), ∃ draws, continuationValues ss par.transition ev c.period = some cvs ∧
      ss.nStates[k]? = some n ∧ Dict.get? ev k = some vs ∧
      vs.length = n ∧ simulated.length = n ∧ min 2 n ≤ simulated.count true ∧
      Dict.get? par.draws k = some draws ∧
      ∀ i < n, ∃ w m cv v, IsRow par.wages k i w ∧ IsRow par.nonpecs k i m ∧ IsRow cvs k i cv ∧
        m.length = w.length ∧ cv.length = w.length ∧
        vs[i]? = some v ∧
        (simulated[i]? = some true → (∀ d ∈ draws, d.length = w.length) ∧
          IsMeanMax par.delta w m cv draws v) ∧
        (simulated[i]? = some false → ∀ (a : Nat) (wa ma ca : K), c.choiceSet[a]? = some true →
          w[positionIn c.choiceSet a]? = some wa → m[positionIn c.choiceSet a]? = some ma →
          cv[positionIn c.choiceSet a]? = some ca →
          ∃ e, IsExpectedShock exp maxLog nWages cholesky a e ∧
            wa * e + ma + par.delta * ca ≤ v) := by
  intro ev
  obtain ⟨_, h2⟩ := backwardLoop_spec ss _
    (kw94_interpolationKeys ss rng sqrt ols (expShocks exp maxLog nWages cholesky)) par ss.nPeriods
    ev0 seed hok
  obtain ⟨s1, vals, s2, hp, hall⟩ := h2 c.period (hwf.periods c (List.mem_of_getElem? hc))
  unfold periodValues at hp
  rw [if_neg hdelta, if_pos hany] at hp
  obtain ⟨cvs, hcvs, hp⟩ := Option.bind_eq_some_iff.1 hp
  obtain ⟨⟨values, s3⟩, hkw, hp⟩ := Option.bind_eq_some_iff.1 hp
  simp only [Option.pure_def, Option.some.injEq, Prod.mk.injEq] at hp
  obtain ⟨n, vs, simulated, draws, h1, hvs, h3, h4, h5, h6, h7⟩ :=
    C22_simulated_exact_interpolated_bounded ss hwf rng hrng exp sqrt maxLog nWages cholesky ols par
      cvs c.period s1 values s3 hany hkw k c hc rfl
  have hmem := Dict.mem_of_get? _ _ _ hvs
  obtain ⟨old, new, ho, ha, hg⟩ := hall k (.array vs) (by
    rw [← hp.1]; exact List.mem_map.2 ⟨_, hmem, rfl⟩)
  obtain ⟨old', ho', hl'⟩ := sameShape_initial_length ss ev0 hs k _ h1
  rw [ho] at ho'; cases ho'
  have hnew : new = vs := by
    simp only [assignInPlace, h3, hl', if_true] at ha
    exact (Option.some.inj ha).symm
  subst hnew
  exact ⟨cvs, n, new, simulated, draws, hcvs, h1, hg, h3, h4, h5, h6, h7⟩

/-- A model with one period and two dense keys; there are seven points for eight states. -/
def interpolationObjects : ParamObjects ℚ where
  wages := [(0, [[1, 1], [2, 1], [3, 1], [4, 1], [5, 1]]), (1, [[1], [1], [1]])]
  nonpecs := [(0, [[0, 1], [0, 1], [0, 1], [0, 1], [0, 1]]), (1, [[1], [2], [3]])]
  draws := [(0, [[1, 0], [2, 1]]), (1, [[1], [0]])]
  delta := 1 / 2
  transition := []

/-- The last state of the second dense key is interpolated, all others are simulated. -/
example : (interpolationSpace 7).anyInterpolated 0 = true ∧
    (solveBackward (interpolationSpace 7) (kw94 (interpolationSpace 7) firstRandom id
      (fun _ _ => [1, 1, 1]) (expShocks (1 + ·) 460 1 [[1, 0], [0, 1]])) interpolationObjects 3
      (initialValues (interpolationSpace 7))) =
    ([(0, [3 / 2, 3, 9 / 2, 6, 15 / 2]), (1, [3 / 2, 5 / 2, 4])], true) := by
  decide +kernel

end Respy
