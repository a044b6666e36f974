import Verif.Props.Interpolate
import Mathlib.Tactic.IntervalCases

/-!
# C22: the regression of the interpolation
-/

set_option linter.unusedSectionVars false

namespace Respy

variable {K : Type _} [Field K] [LinearOrder K]

/-- Specification: the value of an alternative at position `a` for the rewards, continuation values and
shocks of one state. -/
def IsAlternativeValue (delta : K) (w m c shocks : List K) (a : Nat) (v : K) : Prop :=
  ∃ wa ma ca ea, w[a]? = some wa ∧ m[a]? = some ma ∧ c[a]? = some ca ∧ shocks[a]? = some ea ∧
    v = wa * ea + ma + delta * ca

/-- Specification: `mx` is the largest value of the alternatives and the regressors `x` are the distances
of the values to `mx`, their square roots and a constant. -/
structure IsRegressors (sqrt : K → K) (delta : K) (shocks w m c x : List K) (mx : K) : Prop where
  greatest : IsGreatest {v | ∃ a, IsAlternativeValue delta w m c shocks a v} mx
  length : x.length = 2 * w.length + 1
  distance : ∀ a v, IsAlternativeValue delta w m c shocks a v →
    x[a]? = some (mx - v) ∧ x[w.length + a]? = some (sqrt (mx - v))
  constant : x[2 * w.length]? = some 1

theorem length_valueFunctions_eq (delta : K) (w m c e : List K) (h1 : m.length = w.length)
    (h2 : c.length = w.length) (h3 : e.length = w.length) :
    (valueFunctions delta w m c e).length = w.length := by
  induction w generalizing m c e with
  | nil => simp [valueFunctions]
  | cons w0 w ih =>
    match m, c, e with
    | m0 :: m, c0 :: c, e0 :: e =>
      simp only [List.length_cons, Nat.add_right_cancel_iff] at h1 h2 h3
      simp [valueFunctions, ih m c e h1 h2 h3]

theorem valueFunctions_entry? (delta : K) (w m c e : List K) (a : Nat) (v : K)
    (h : IsAlternativeValue delta w m c e a v) : (valueFunctions delta w m c e)[a]? = some v := by
  induction w generalizing m c e a with
  | nil => obtain ⟨_, _, _, _, h, _⟩ := h; simp at h
  | cons w0 w ih =>
    obtain ⟨wa, ma, ca, ea, h1, h2, h3, h4, rfl⟩ := h
    match m, c, e with
    | [], _, _ => simp at h2
    | _ :: _, [], _ => simp at h3
    | _ :: _, _ :: _, [] => simp at h4
    | m0 :: m, c0 :: c, e0 :: e =>
      cases a with
      | zero =>
        simp only [List.getElem?_cons_zero, Option.some.injEq] at h1 h2 h3 h4
        subst h1; subst h2; subst h3; subst h4
        simp [valueFunctions, kwUtility]
      | succ a =>
        simp only [List.getElem?_cons_succ] at h1 h2 h3 h4
        simp only [valueFunctions, List.getElem?_cons_succ]
        exact ih m c e a ⟨wa, ma, ca, ea, h1, h2, h3, h4, rfl⟩

theorem rhsRow_isRegressors (sqrt : K → K) (delta : K) (shocks w m c : List K) (r : List K × K)
    (h : rhsRow sqrt delta shocks w m c = some r) : IsRegressors sqrt delta shocks w m c r.1 r.2 := by
  unfold rhsRow at h
  split at h
  · rename_i hl
    obtain ⟨hl1, hl2, hl3⟩ := hl
    obtain ⟨mx, hm, h⟩ := Option.bind_eq_some_iff.1 h
    simp only [Option.pure_def, Option.some.injEq] at h
    subst h
    obtain ⟨h1, h2⟩ := List.max?_eq_some_iff.1 hm
    have hlen := length_valueFunctions_eq delta w m c shocks hl1 hl2 hl3
    refine ⟨⟨?_, ?_⟩, ?_, ?_, ?_⟩
    · obtain ⟨j, wj, mj, cj, ej, g⟩ := (mem_valueFunctions ..).1 h1
      exact ⟨j, wj, mj, cj, ej, g⟩
    · rintro v ⟨a, g⟩
      exact h2 v (List.mem_of_getElem? (valueFunctions_entry? _ _ _ _ _ _ _ g))
    · simp only [List.length_append, List.length_map, hlen, List.length_singleton]
      omega
    · intro a v hv
      have hg := valueFunctions_entry? _ _ _ _ _ _ _ hv
      have hlt := (List.getElem?_eq_some_iff.1 hg).1
      constructor
      · rw [List.append_assoc, List.getElem?_append_left (by simpa using hlt), List.getElem?_map, hg]
        rfl
      · rw [List.append_assoc, List.getElem?_append_right (by simp [hlen]), List.length_map, hlen,
          Nat.add_sub_cancel_left, List.getElem?_append_left (by simpa using hlt), List.getElem?_map,
          List.getElem?_map, hg]
        rfl
    · rw [List.getElem?_append_right (by simp [hlen]; omega)]
      simp [hlen, Nat.two_mul]
  · cases h

/-- **C22.** The regression of a dense key: the regressors of every state are those of the specification;
the coefficients are estimated from the simulated states of the same dense key, where the dependent
variable is the simulated value minus the largest value at expected shocks; the value of a state which is
not simulated is the largest value at expected shocks plus the fitted value, or plus zero if the fitted
value is negative. -/
theorem C22_regression [IsStrictOrderedRing K] (sqrt : K → K)
    (ols : List K → List (List K) → List K) (delta : K) (simulated : List Bool) (shocks : List K)
    (wages nonpecs cv draws : List (List K)) (out : List K)
    (h : interpolateKey sqrt ols delta simulated shocks wages nonpecs cv draws = some out) :
    ∃ (x : Nat → List K) (mx : Nat → K),
      (∀ i < simulated.length, ∃ w m c, wages[i]? = some w ∧ nonpecs[i]? = some m ∧ cv[i]? = some c ∧
        IsRegressors sqrt delta shocks w m c (x i) (mx i)) ∧
      ∀ i, simulated[i]? = some false →
        out[i]? = some (mx i + max 0 (List.zipWith (· * ·) (x i) (ols
          (((List.range simulated.length).filter fun j => simulated[j]? = some true).map fun j =>
            (out[j]?).getD 0 - mx j)
          (((List.range simulated.length).filter fun j => simulated[j]? = some true).map x))).sum) := by
  have hfull := h
  unfold interpolateKey at h
  obtain ⟨rhs, hrhs, h⟩ := Option.bind_eq_some_iff.1 h
  obtain ⟨endo, hendo, h⟩ := Option.bind_eq_some_iff.1 h
  obtain ⟨xs, hx, h⟩ := Option.bind_eq_some_iff.1 h
  obtain ⟨own, hown, h⟩ := Option.bind_eq_some_iff.1 h
  obtain ⟨a1, a2, a3, a4⟩ := assignMask_spec _ _ _ _ h
  have hrl : rhs.length = simulated.length := by
    rw [mapM_eq_some_length _ _ _ hrhs]; simp
  have hrow : ∀ i (hi : i < simulated.length), ∃ w m c, wages[i]? = some w ∧ nonpecs[i]? = some m ∧
      cv[i]? = some c ∧ rhsRow sqrt delta shocks w m c = rhs[i]? := by
    intro i hi
    have hrow := mapM_range_getElem? _ _ _ hrhs i hi
    have hri : rhs[i]? = some rhs[i] := List.getElem?_eq_getElem (by omega)
    rw [hri] at hrow
    obtain ⟨w, hw, hrow⟩ := Option.bind_eq_some_iff.1 hrow.symm
    obtain ⟨m, hm, hrow⟩ := Option.bind_eq_some_iff.1 hrow
    obtain ⟨c, hc, hrow⟩ := Option.bind_eq_some_iff.1 hrow
    exact ⟨w, m, c, hw, hm, hc, by rw [hrow, hri]⟩
  refine ⟨fun i => ((rhs[i]?).map Prod.fst).getD [], fun i => ((rhs[i]?).map Prod.snd).getD 0, ?_, ?_⟩
  · intro i hi
    obtain ⟨w, m, c, h1, h2, h3, h4⟩ := hrow i hi
    have hri : rhs[i]? = some rhs[i] := List.getElem?_eq_getElem (by omega)
    rw [hri] at h4
    refine ⟨w, m, c, h1, h2, h3, ?_⟩
    simp only [hri]
    exact rhsRow_isRegressors _ _ _ _ _ _ _ h4
  · intro i hi
    have hlt := (List.getElem?_eq_some_iff.1 hi).1
    obtain ⟨r, hri⟩ : ∃ r, rhs[i]? = some r := ⟨rhs[i], List.getElem?_eq_getElem (by omega)⟩
    have hendo' : endo = (validChoices simulated).map fun j =>
        (out[j]?).getD 0 - ((rhs[j]?).map Prod.snd).getD 0 := by
      apply List.ext_getElem?
      intro p
      cases hp : (validChoices simulated)[p]? with
      | none =>
        rw [List.getElem?_map, hp, Option.map_none, List.getElem?_eq_none_iff,
          mapM_eq_some_length _ _ _ hendo]
        exact List.getElem?_eq_none_iff.1 hp
      | some j =>
        have hj : simulated[j]? = some true := (mem_validChoices _ _).1 (List.mem_of_getElem? hp)
        have hjlt := (List.getElem?_eq_some_iff.1 hj).1
        have hrj : rhs[j]? = some rhs[j] := List.getElem?_eq_getElem (by omega)
        have hplt := (List.getElem?_eq_some_iff.1 hp).1
        have hel : endo.length = (validChoices simulated).length := mapM_eq_some_length _ _ _ hendo
        have hep : endo[p]? = some endo[p] := List.getElem?_eq_getElem (by omega)
        have hop := mapM_getElem? _ _ _ hown p (j, endo[p]) (List.getElem?_zip_eq_some.2 ⟨hp, hep⟩)
        have hpos : positionIn simulated j = p := by
          have h1 := validChoices_positionIn simulated j hj
          exact (List.getElem?_inj (List.getElem?_eq_some_iff.1 h1).1 (validChoices_nodup simulated)).1
            (h1.trans hp.symm)
        have hout := (a4 j).1 hj
        rw [hpos] at hout
        simp only [hrj, Option.map_some] at hop
        rw [hop] at hout
        rw [List.getElem?_map, hp, Option.map_some, hep, hout, hrj]
        simp
    have hxs : xs = (validChoices simulated).map fun j => ((rhs[j]?).map Prod.fst).getD [] := by
      apply List.ext_getElem?
      intro p
      cases hp : (validChoices simulated)[p]? with
      | none =>
        rw [List.getElem?_map, hp, Option.map_none, List.getElem?_eq_none_iff,
          mapM_eq_some_length _ _ _ hx]
        exact List.getElem?_eq_none_iff.1 hp
      | some j =>
        have hj : simulated[j]? = some true := (mem_validChoices _ _).1 (List.mem_of_getElem? hp)
        have hjlt := (List.getElem?_eq_some_iff.1 hj).1
        have hrj : rhs[j]? = some rhs[j] := List.getElem?_eq_getElem (by omega)
        rw [mapM_getElem? _ _ _ hx p j hp, List.getElem?_map, hp, Option.map_some, hrj]
        rfl
    have hout := (a4 i).2 hi
    rw [List.getElem?_map, hri] at hout
    have hols : ols endo xs = ols
        (((List.range simulated.length).filter fun j => simulated[j]? = some true).map fun j =>
          (out[j]?).getD 0 - ((rhs[j]?).map Prod.snd).getD 0)
        (((List.range simulated.length).filter fun j => simulated[j]? = some true).map fun j =>
          ((rhs[j]?).map Prod.fst).getD []) := by rw [hendo', hxs]; rfl
    rw [hout]
    simp only [Option.map_some, hri, Option.getD_some, dotList]
    rw [hols, add_comm, max_comm]

/-- Contract of ordinary least squares, `(X'X)⁺ X'y` in the code: an exact linear relation is fitted
without an error, also if the regressors are linearly dependent. -/
def OLSContract (ols : List K → List (List K) → List K) : Prop :=
  ∀ (x : List (List K)) (beta : List K), ∀ r ∈ x,
    (List.zipWith (· * ·) r (ols (x.map fun r => (List.zipWith (· * ·) r beta).sum) x)).sum =
      (List.zipWith (· * ·) r beta).sum

/-- **C22.** If the difference between the simulated value and the largest value at expected shocks is in
all states of a dense key the same linear function of the regressors, which is not negative, and if
coefficients which agree on the simulated states agree on all states, then interpolation makes no error:
every state has the value which would have been simulated. -/
theorem C22_exact_for_linear_models [IsStrictOrderedRing K] (sqrt : K → K)
    (ols : List K → List (List K) → List K) (hols : OLSContract ols) (delta : K)
    (simulated : List Bool) (shocks : List K)
    (wages nonpecs cv draws : List (List K)) (out : List K)
    (h : interpolateKey sqrt ols delta simulated shocks wages nonpecs cv draws = some out)
    (beta : List K)
    (hlin : ∀ (i : Nat) w m c x mx v, i < simulated.length → wages[i]? = some w → nonpecs[i]? = some m →
      cv[i]? = some c → IsRegressors sqrt delta shocks w m c x mx → IsMeanMax delta w m c draws v →
      v - mx = (List.zipWith (· * ·) x beta).sum ∧ mx ≤ v)
    (hid : ∀ (x : Nat → List K) (mx : Nat → K) (beta' : List K),
      (∀ (i : Nat) w m c, i < simulated.length → wages[i]? = some w → nonpecs[i]? = some m →
        cv[i]? = some c → IsRegressors sqrt delta shocks w m c (x i) (mx i)) →
      (∀ i, simulated[i]? = some true → (List.zipWith (· * ·) (x i) beta').sum =
        (List.zipWith (· * ·) (x i) beta).sum) → ∀ i < simulated.length,
        (List.zipWith (· * ·) (x i) beta').sum = (List.zipWith (· * ·) (x i) beta).sum)
    (i : Nat) (w m c : List K) (v : K) (hi : i < simulated.length) (hw : wages[i]? = some w)
    (hm : nonpecs[i]? = some m) (hc : cv[i]? = some c) (hv : IsMeanMax delta w m c draws v) :
    out[i]? = some v := by
  obtain ⟨x, mx, h1, h2⟩ := C22_regression sqrt ols delta simulated shocks wages nonpecs cv draws out h
  obtain ⟨_, hsim⟩ := interpolateKey_spec sqrt ols delta simulated shocks wages nonpecs cv draws out h
  have hexact : ∀ j : Nat, simulated[j]? = some true → ∀ w m c v, wages[j]? = some w → nonpecs[j]? = some m →
      cv[j]? = some c → IsMeanMax delta w m c draws v → out[j]? = some v := by
    intro j hj w m c v hw hm hc hv
    obtain ⟨w', m', c', v', g1, g2, g3, g4, _, _, _, g5, _⟩ :=
      hsim j (List.getElem?_eq_some_iff.1 hj).1
    rw [hw] at g1; cases g1
    rw [hm] at g2; cases g2
    rw [hc] at g3; cases g3
    obtain ⟨_, g5⟩ := g5 hj
    rw [g4, g5, isMeanMax_unique delta w m c draws v _ hv (emax_isMeanMax ..)]
  cases hs : simulated[i]? with
  | none => rw [List.getElem?_eq_none_iff] at hs; omega
  | some s =>
    cases s with
    | true => exact hexact i hs w m c v hw hm hc hv
    | false =>
      rw [h2 i hs]
      set sims := (List.range simulated.length).filter fun j => simulated[j]? = some true with hsims
      have hsm : ∀ j ∈ sims, simulated[j]? = some true := by
        intro j hj
        rw [hsims, List.mem_filter] at hj
        simpa using hj.2
      have hy : (sims.map fun j => (out[j]?).getD 0 - mx j) =
          (sims.map x).map fun r => (List.zipWith (· * ·) r beta).sum := by
        rw [List.map_map]
        apply List.map_congr_left
        intro j hj
        have hj' := hsm j hj
        have hlt := (List.getElem?_eq_some_iff.1 hj').1
        obtain ⟨w', m', c', g1, g2, g3, g4⟩ := h1 j hlt
        have hmm := emax_isMeanMax delta w' m' c' draws
        have := hexact j hj' w' m' c' _ g1 g2 g3 hmm
        rw [this]
        exact (hlin j w' m' c' _ _ _ hlt g1 g2 g3 g4 hmm).1
      rw [hy]
      have hfit := hid x mx (ols ((sims.map x).map fun r => (List.zipWith (· * ·) r beta).sum)
        (sims.map x)) (by
          intro j w m c hj hw hm hc
          obtain ⟨w', m', c', g1, g2, g3, g4⟩ := h1 j hj
          rw [hw] at g1; cases g1
          rw [hm] at g2; cases g2
          rw [hc] at g3; cases g3
          exact g4) (by
          intro j hj
          apply hols
          refine List.mem_map.2 ⟨j, ?_, rfl⟩
          rw [hsims, List.mem_filter, List.mem_range]
          exact ⟨(List.getElem?_eq_some_iff.1 hj).1, by simpa using hj⟩) i hi
      obtain ⟨w', m', c', g1, g2, g3, g4⟩ := h1 i hi
      rw [hw] at g1; cases g1
      rw [hm] at g2; cases g2
      rw [hc] at g3; cases g3
      obtain ⟨e1, e2⟩ := hlin i w m c _ _ v hi hw hm hc g4 hv
      rw [hfit, ← e1, max_eq_right (by linarith)]
      simp

/-- The contract can be met. -/
theorem exists_olsContract : ∃ ols : List K → List (List K) → List K, OLSContract ols := by
  classical
  let sol : List K → List (List K) → List K → Prop := fun y x beta =>
    (x.map fun r => (List.zipWith (· * ·) r beta).sum) = y
  refine ⟨fun y x => if h : ∃ beta, sol y x beta then h.choose else [], ?_⟩
  intro x beta
  have hex : ∃ b, sol (x.map fun r => (List.zipWith (· * ·) r beta).sum) x b := ⟨beta, rfl⟩
  simp only [hex, dif_pos]
  exact List.map_inj_left.1 hex.choose_spec

/-- A case in which the hypotheses are met: one alternative, all states have the same distance between the
simulated value and the value at the expected shock, the third state is not simulated. -/
example (ols : List ℚ → List (List ℚ) → List ℚ) (hols : OLSContract ols) (v : ℚ)
    (hv : IsMeanMax (1 / 2) [1] [3] [0] [[1], [2]] v) (out : List ℚ)
    (h : interpolateKey id ols (1 / 2) [true, true, false] [1] [[1], [1], [1]] [[1], [2], [3]]
      [[0], [0], [0]] [[1], [2]] = some out) : out[2]? = some v := by
  have hreg : ∀ (w m c x : List ℚ) (mx : ℚ), w = [1] → c = [0] → (∃ n, m = [n]) →
      IsRegressors id (1 / 2) [1] w m c x mx → x = [0, 0, 1] ∧ ∀ n, m = [n] → mx = 1 + n := by
    rintro w m c x mx rfl rfl ⟨n, rfl⟩ hr
    have hval : IsAlternativeValue (1 / 2) [1] [n] [0] [1] 0 (1 + n) :=
      ⟨1, n, 0, 1, rfl, rfl, rfl, rfl, by ring⟩
    have hmx : mx = 1 + n := by
      obtain ⟨a, wa, ma, ca, ea, h1, h2, h3, h4, rfl⟩ := hr.greatest.1
      cases a with
      | zero => simp at h1 h2 h3 h4; subst h1; subst h2; subst h3; subst h4; ring
      | succ a => simp at h1
    obtain ⟨d1, d2⟩ := hr.distance 0 _ hval
    have hc := hr.constant
    have hl := hr.length
    subst hmx
    simp only [sub_self, id] at d1 d2
    refine ⟨?_, by rintro n' h; cases h; rfl⟩
    match x, hl with
    | [a, b, c], _ =>
      simp at d1 d2 hc
      rw [d1, d2, hc]
  refine C22_exact_for_linear_models id ols hols (1 / 2) [true, true, false] [1] _ _ _ [[1], [2]] out h
    [0, 0, 1 / 2] ?_ ?_ 2 [1] [3] [0] v (by decide) rfl rfl rfl hv
  · intro i w m c x mx v' hi hw hm hc hr hv'
    have hw' : w = [1] ∧ c = [0] ∧ ∃ n : ℚ, 0 ≤ n ∧ m = [n] := by
      simp only [List.length_cons, List.length_nil] at hi
      interval_cases i <;> simp at hw hm hc <;> subst hw <;> subst hm <;> subst hc <;>
        exact ⟨rfl, rfl, _, by norm_num, rfl⟩
    obtain ⟨rfl, rfl, n, hn, rfl⟩ := hw'
    obtain ⟨rfl, hmx⟩ := hreg _ _ _ _ _ rfl rfl ⟨n, rfl⟩ hr
    have hmx := hmx n rfl
    have : v' = 3 / 2 + n := by
      refine isMeanMax_unique _ _ _ _ _ _ _ hv' ?_
      refine ⟨fun d => (d[0]?).getD 0 + n, ?_, ?_⟩
      · intro d hd
        simp only [List.mem_cons, List.not_mem_nil, or_false] at hd
        refine ⟨Or.inr ⟨0, 1, n, 0, (d[0]?).getD 0, rfl, rfl, rfl, ?_, by ring⟩, ?_⟩
        · rcases hd with rfl | rfl <;> rfl
        · rintro y (rfl | ⟨j, wj, mj, cj, ej, h1, h2, h3, h4, rfl⟩)
          · rcases hd with rfl | rfl <;> simp <;> linarith
          · cases j with
            | zero => simp at h1 h2 h3; subst h1; subst h2; subst h3; show _ ≤ (d[0]?).getD 0 + n; rw [h4]; simp
            | succ j => simp at h1
      · simp; ring
    subst this; subst hmx
    constructor
    · simp; ring
    · linarith
  · intro x mx beta' hx hb i hi
    have hxi : ∀ i < 3, x i = [0, 0, 1] := by
      intro i hi
      have hw : ∃ n : ℚ, ([[1], [1], [1]] : List (List ℚ))[i]? = some [1] ∧
          ([[1], [2], [3]] : List (List ℚ))[i]? = some [n] ∧
          ([[0], [0], [0]] : List (List ℚ))[i]? = some [0] := by
        interval_cases i <;> exact ⟨_, rfl, rfl, rfl⟩
      obtain ⟨n, h1, h2, h3⟩ := hw
      exact (hreg _ _ _ _ _ rfl rfl ⟨n, rfl⟩ (hx i _ _ _ hi h1 h2 h3)).1
    have h0 := hb 0 rfl
    rw [hxi 0 (by decide)] at h0
    rw [hxi i hi]
    exact h0

end Respy
