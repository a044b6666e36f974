import Verif.Props.Regression
import Verif.Lemmas.SolveTotal

/-! Helper lemmas: the interpolation succeeds. -/

set_option linter.unusedSectionVars false

namespace Respy

variable {K : Type _} [Field K] [LinearOrder K]

theorem assignMask_total {α : Type _} (mask : List Bool) (xs vs : List α) (h1 : xs.length = mask.length)
    (h2 : vs.length = mask.count true) : ∃ out, assignMask mask xs vs = some out := by
  induction mask generalizing xs vs with
  | nil =>
    have : xs = [] := List.eq_nil_of_length_eq_zero (by simpa using h1)
    have h' : vs = [] := List.eq_nil_of_length_eq_zero (by simpa using h2)
    subst this; subst h'
    exact ⟨[], rfl⟩
  | cons b mask ih =>
    cases xs with
    | nil => simp at h1
    | cons x xs =>
      simp only [List.length_cons, Nat.add_right_cancel_iff] at h1
      cases b with
      | false =>
        obtain ⟨out, ho⟩ := ih xs vs h1 (by simpa using h2)
        exact ⟨x :: out, by simp [assignMask, ho]⟩
      | true =>
        cases vs with
        | nil => simp at h2
        | cons v vs =>
          obtain ⟨out, ho⟩ := ih xs vs h1 (by simpa using h2)
          exact ⟨v :: out, by simp [assignMask, ho]⟩

theorem rhsRow_total (sqrt : K → K) (delta : K) (shocks w m c : List K) (h1 : m.length = w.length)
    (h2 : c.length = w.length) (h3 : shocks.length = w.length) (h4 : w ≠ []) :
    ∃ r, rhsRow sqrt delta shocks w m c = some r := by
  unfold rhsRow
  rw [if_pos ⟨h1, h2, h3⟩]
  have hne : valueFunctions delta w m c shocks ≠ [] := by
    intro h
    have := length_valueFunctions_eq delta w m c shocks h1 h2 h3
    rw [h] at this
    exact h4 (List.eq_nil_of_length_eq_zero (by simpa using this.symm))
  obtain ⟨mx, hmx⟩ : ∃ mx, (valueFunctions delta w m c shocks).max? = some mx := by
    cases h : (valueFunctions delta w m c shocks).max? with
    | none => exact absurd (List.max?_eq_none_iff.1 h) hne
    | some mx => exact ⟨mx, rfl⟩
  simp only [hmx, Option.bind_eq_bind, Option.bind_some]
  exact ⟨_, rfl⟩

theorem interpolateKey_total (sqrt : K → K) (ols : List K → List (List K) → List K) (delta : K)
    (mask : List Bool) (shocks : List K) (wages nonpecs cv draws : List (List K)) (n : Nat) (hn : n ≠ 0)
    (hsh : shocks.length = n) (hd : ∀ e ∈ draws, e.length = n)
    (hrow : ∀ i < mask.length, ∃ w m c, wages[i]? = some w ∧ nonpecs[i]? = some m ∧ cv[i]? = some c ∧
      w.length = n ∧ m.length = n ∧ c.length = n) :
    ∃ out, interpolateKey sqrt ols delta mask shocks wages nonpecs cv draws = some out ∧
      out.length = mask.length := by
  obtain ⟨rhs, hrhs, hrl, hrg⟩ := mapM_option_exists (List.range mask.length)
    (fun i => do
      let w ← wages[i]?
      let m ← nonpecs[i]?
      let c ← cv[i]?
      rhsRow sqrt delta shocks w m c) (fun i hi => by
        obtain ⟨w, m, c, h1, h2, h3, l1, l2, l3⟩ := hrow i (List.mem_range.1 hi)
        obtain ⟨r, hr⟩ := rhsRow_total sqrt delta shocks w m c (by omega) (by omega) (by omega)
          (by rintro rfl; simp at l1; omega)
        exact ⟨r, by simp only [h1, h2, h3, Option.bind_eq_bind, Option.bind_some, hr]⟩)
  rw [List.length_range] at hrl
  have hget : ∀ i ∈ validChoices mask, i < mask.length := by
    intro i hi
    exact (List.getElem?_eq_some_iff.1 ((mem_validChoices mask i).1 hi)).1
  obtain ⟨endo, hendo, hel, _⟩ := mapM_option_exists (validChoices mask)
    (fun i => do
      let w ← wages[i]?
      let m ← nonpecs[i]?
      let c ← cv[i]?
      let e ← emax? w m c draws delta
      let r ← rhs[i]?
      pure (e - r.2)) (fun i hi => by
        have hi := hget i hi
        obtain ⟨w, m, c, h1, h2, h3, l1, l2, l3⟩ := hrow i hi
        refine ⟨emax w m c draws delta - (rhs[i]'(by omega)).2, ?_⟩
        simp only [h1, h2, h3, Option.bind_eq_bind, Option.bind_some, emax?,
          List.getElem?_eq_getElem (show i < rhs.length by omega)]
        rw [if_pos ⟨by omega, by omega, fun e he => by rw [hd e he, l1]⟩]
        rfl)
  obtain ⟨x, hx, _, _⟩ := mapM_option_exists (validChoices mask) (fun i => (rhs[i]?).map Prod.fst)
    (fun i hi => ⟨_, by rw [List.getElem?_eq_getElem (show i < rhs.length by
      rw [hrl]; exact hget i hi)]; rfl⟩)
  obtain ⟨own, hown, hol, _⟩ := mapM_option_exists ((validChoices mask).zip endo)
    (fun ie => (rhs[ie.1]?).map fun r => ie.2 + r.2) (fun ie hie => by
      have hi := hget ie.1 (List.of_mem_zip hie).1
      exact ⟨_, by rw [List.getElem?_eq_getElem (show ie.1 < rhs.length by omega)]; rfl⟩)
  obtain ⟨out, hout⟩ := assignMask_total mask
    (rhs.map fun r => max (dotList r.1 (ols endo x)) 0 + r.2) own (by simpa using hrl)
    (by rw [hol, List.length_zip, hel, length_validChoices, min_self])
  refine ⟨out, ?_, (assignMask_spec _ _ _ _ hout).1⟩
  unfold interpolateKey
  simp only [Option.bind_eq_bind] at hrhs hendo
  simp only [hrhs, Option.bind_eq_bind, Option.bind_some, hendo, hx, hown]
  exact hout

theorem boolIndex_count {α : Type _} (mask : List Bool) (xs : List α) (h : mask.length = xs.length) :
    ∃ ys, boolIndex mask xs = some ys ∧ ys.length = mask.count true := by
  unfold boolIndex
  rw [if_pos h]
  refine ⟨_, rfl, ?_⟩
  induction mask generalizing xs with
  | nil => simp
  | cons b mask ih =>
    cases xs with
    | nil => simp at h
    | cons x xs =>
      have := ih xs (by simpa using h)
      cases b <;> simpa using this

/-- The interpolation succeeds if there are more than two points for each dense key of an interpolated
period and every choice set of the period has an alternative. -/
theorem kw94_total (ss : SolveSpace) (hwf : ss.WF) (rng : InterpolationRandom) (hrng : rng.Contract)
    (sqrt : K → K) (ols : List K → List (List K) → List K) (shocks : List K) (par : ParamObjects K)
    (hsh : ParamsShape ss par)
    (hcs : ∀ (k : Nat) c, ss.complexes[k]? = some c → c.choiceSet.length = shocks.length ∧
      c.choiceSet.count true ≠ 0)
    (hne : ∀ t < ss.nPeriods, ss.anyInterpolated t = true →
      ss.interpolationPoints ≠ 2 * (ss.keysOfPeriod t).length) :
    InterpolationTotal ss par (kw94 ss rng sqrt ols shocks) := by
  intro t ht hany cvs hcv seed
  obtain ⟨ns, points, hns, hsplit, _, hpts⟩ := C21_split_feasible_partial rng hrng ss hwf t hany
    (hne t ht hany) (seed + (ss.keysOfPeriod t).length)
  have hentry : ∀ p ∈ List.range (ss.keysOfPeriod t).length, ∃ kv, (do
      let k ← (ss.keysOfPeriod t)[p]?
      let n ← ns[p]?
      let q ← points[p]?
      let mask ← notInterpolated rng q n (seed + p)
      let complex ← ss.complexes[k]?
      let sh ← boolIndex complex.choiceSet shocks
      let wages ← par.wages.get? k
      let nonpecs ← par.nonpecs.get? k
      let cv ← cvs.get? k
      let draws ← par.draws.get? k
      let v ← interpolateKey sqrt ols par.delta mask sh wages nonpecs cv draws
      pure (k, v)) = some kv ∧ ∃ n, ss.nStates[kv.1]? = some n ∧ kv.2.length = n := by
    intro p hp
    have hp := List.mem_range.1 hp
    have hk : (ss.keysOfPeriod t)[p]? = some (ss.keysOfPeriod t)[p] := List.getElem?_eq_getElem hp
    obtain ⟨c, hc, hct⟩ := (mem_keysOfPeriod _ _ _).1 (List.mem_of_getElem? hk)
    have hkl : (ss.keysOfPeriod t)[p] < ss.nStates.length := by
      rw [hwf.shape]; exact (List.getElem?_eq_some_iff.1 hc).1
    have hn := List.getElem?_eq_getElem hkl
    obtain ⟨q, mask, hq, _, _, hm, hml, _⟩ := hpts p _ _ (seed + p) hk hn
    have hnp : ns[p]? = some ss.nStates[(ss.keysOfPeriod t)[p]] := by
      rw [mapM_getElem? _ _ _ hns p _ hk, hn]
    obtain ⟨sh, hsh', hshl⟩ := boolIndex_count c.choiceSet shocks (hcs _ c hc).1
    obtain ⟨ws, hws, hwr⟩ := hsh.wages _ c _ hc hn
    obtain ⟨ms, hms, hmr⟩ := hsh.nonpecs _ c _ hc hn
    obtain ⟨ds, hds, hdr⟩ := hsh.draws _ c hc
    obtain ⟨a, ha, har⟩ := hcv _ c _ hc hct hn
    obtain ⟨out, hout, hol⟩ := interpolateKey_total sqrt ols par.delta mask sh ws ms a ds
      (c.choiceSet.count true) (hcs _ c hc).2 hshl hdr (by
        intro i hi
        rw [hml] at hi
        obtain ⟨w, hw, hwl⟩ := hwr i hi
        obtain ⟨m, hm, hml⟩ := hmr i hi
        obtain ⟨cv, hcv, hcl⟩ := har i hi
        exact ⟨w, m, cv, hw, hm, hcv, hwl, hml, hcl⟩)
    refine ⟨((ss.keysOfPeriod t)[p], out), ?_, _, hn, by rw [hol, hml]⟩
    simp only [hk, hnp, hq, hm, hc, hsh', hws, hms, ha, hds, hout, Option.bind_eq_bind, Option.bind_some]
    rfl
  obtain ⟨values, hvals, hvl, hvg⟩ := mapM_option_exists (List.range (ss.keysOfPeriod t).length) _
    (fun p hp => (hentry p hp).imp fun _ h => h.1)
  refine ⟨values, seed + (ss.keysOfPeriod t).length + 1, ?_, ?_⟩
  · unfold kw94
    simp only [hns, hsplit, Option.bind_eq_bind, Option.bind_some]
    simp only [Option.bind_eq_bind] at hvals
    rw [hvals]
    rfl
  · intro kv hkv
    obtain ⟨i, hi⟩ := List.mem_iff_getElem?.1 hkv
    have hil : i < (ss.keysOfPeriod t).length := by
      rw [List.length_range] at hvl
      rw [← hvl]; exact (List.getElem?_eq_some_iff.1 hi).1
    obtain ⟨kv', h1, h2⟩ := hvg i i (by simp [hil])
    rw [hi] at h1; cases h1
    obtain ⟨kv'', h3, h4⟩ := hentry i (by simpa using hil)
    rw [h2] at h3; cases h3
    exact h4

end Respy
