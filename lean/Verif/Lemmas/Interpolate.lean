import Verif.Model.Interpolate
import Verif.Lemmas.Solve4
import Mathlib.Algebra.Order.BigOperators.Group.List
import Mathlib.Tactic.Ring

/-! Helper lemmas on the interpolation. -/

set_option linter.unusedSectionVars false

namespace Respy

/-- The contract of `np.random.choice`: a key with probability zero is never drawn; a sample without
replacement consists of distinct elements of the population. -/
structure InterpolationRandom.Contract (rng : InterpolationRandom) : Prop where
  choice : ∀ (seed i : Nat) (pool : List Nat), 0 < pool.sum →
    ∃ p, pool[rng.choice seed i pool]? = some (p + 1)
  sample : ∀ seed n size, size ≤ n → (rng.sample seed n size).Nodup ∧
    (rng.sample seed n size).length = size ∧ ∀ x ∈ rng.sample seed n size, x < n

theorem sum_set_pred (pool : List Nat) (pos p : Nat) (h : pool[pos]? = some (p + 1)) :
    (pool.set pos p).sum + 1 = pool.sum := by
  induction pool generalizing pos with
  | nil => simp at h
  | cons x pool ih =>
    cases pos with
    | zero =>
      simp only [List.getElem?_cons_zero, Option.some.injEq] at h
      subst h; simp; omega
    | succ pos =>
      simp only [List.getElem?_cons_succ] at h
      have := ih pos h
      simp only [List.set_cons_succ, List.sum_cons]; omega

theorem sum_modify_succ (points : List Nat) (pos : Nat) (h : pos < points.length) :
    (points.modify pos (· + 1)).sum = points.sum + 1 := by
  induction points generalizing pos with
  | nil => simp at h
  | cons x points ih =>
    cases pos with
    | zero => simp; omega
    | succ pos =>
      have := ih pos (by simpa using h)
      simp only [List.modify_succ_cons, List.sum_cons]; omega

theorem distributePoints_spec (rng : InterpolationRandom) (hrng : rng.Contract) (seed : Nat)
    (ns lower : List Nat) (r i : Nat) (points pool : List Nat) (hpl : pool.length = points.length)
    (hr : r ≤ pool.sum)
    (hinv : ∀ (j : Nat) (n : Nat), ns[j]? = some n → ∃ q p, points[j]? = some q ∧
      pool[j]? = some p ∧ q + p = n)
    (hlow : ∀ (j : Nat) (l : Nat), lower[j]? = some l → ∃ q, points[j]? = some q ∧ l ≤ q) :
    ∃ out, distributePoints rng seed r i points pool = some out ∧ out.length = points.length ∧
      out.sum = points.sum + r ∧
      (∀ (j : Nat) (n : Nat), ns[j]? = some n → ∃ q, out[j]? = some q ∧ q ≤ n) ∧
      ∀ (j : Nat) (l : Nat), lower[j]? = some l → ∃ q, out[j]? = some q ∧ l ≤ q := by
  induction r generalizing i points pool with
  | zero =>
    refine ⟨points, rfl, rfl, rfl, fun j n hj => ?_, hlow⟩
    obtain ⟨q, p, h1, _, h3⟩ := hinv j n hj
    exact ⟨q, h1, by omega⟩
  | succ r ih =>
    have hpos : pool.sum ≠ 0 := by omega
    obtain ⟨p, hp⟩ := hrng.choice seed i pool (by omega)
    have hlt : rng.choice seed i pool < pool.length := (List.getElem?_eq_some_iff.1 hp).1
    unfold distributePoints
    simp only [if_neg hpos, hp]
    have hsum := sum_set_pred pool _ p hp
    obtain ⟨out, h1, h2, h3, h4, h5⟩ := ih (i + 1) (points.modify (rng.choice seed i pool) (· + 1))
      (pool.set (rng.choice seed i pool) p) (by simp [hpl]) (by omega)
      (by
        intro j n hj
        obtain ⟨q, p', e1, e2, e3⟩ := hinv j n hj
        by_cases hjc : rng.choice seed i pool = j
        · subst hjc
          rw [hp] at e2; cases e2
          exact ⟨q + 1, p, by simp [e1], by simp [hlt], by omega⟩
        · exact ⟨q, p', by simp [hjc, e1], by rw [List.getElem?_set_ne hjc]; exact e2, e3⟩)
      (by
        intro j l hj
        obtain ⟨q, e1, e2⟩ := hlow j l hj
        by_cases hjc : rng.choice seed i pool = j
        · subst hjc
          exact ⟨q + 1, by simp [e1], by omega⟩
        · exact ⟨q, by simp [hjc, e1], e2⟩)
    refine ⟨out, h1, by simpa using h2, ?_, h4, h5⟩
    rw [h3, sum_modify_succ _ _ (by omega)]; omega

theorem sum_base_add_pool (ns : List Nat) :
    (ns.map fun n => if n > 2 then 2 else n).sum + (ns.map (· - 2)).sum = ns.sum := by
  induction ns with
  | nil => rfl
  | cons n ns ih =>
    simp only [List.map_cons, List.sum_cons]
    split <;> omega

theorem sum_base_le (ns : List Nat) :
    (ns.map fun n => if n > 2 then 2 else n).sum ≤ 2 * ns.length := by
  induction ns with
  | nil => simp
  | cons n ns ih =>
    simp only [List.map_cons, List.sum_cons, List.length_cons]
    split <;> omega

theorem splitPoints_spec (rng : InterpolationRandom) (hrng : rng.Contract) (ns : List Nat)
    (points seed : Nat) (h1 : 2 * ns.length < points) (h2 : points ≤ ns.sum) :
    ∃ out, splitPoints rng ns points seed = some (out, seed + 1) ∧ out.length = ns.length ∧
      out.sum ≤ points ∧
      ∀ (j : Nat) (n : Nat), ns[j]? = some n → ∃ q, out[j]? = some q ∧ min 2 n ≤ q ∧ q ≤ n := by
  have hsum := sum_base_add_pool ns
  have hle := sum_base_le ns
  obtain ⟨out, e1, e2, e3, e4, e5⟩ := distributePoints_spec rng hrng seed ns
    (ns.map fun n => if n > 2 then 2 else n) (points - 2 * ns.length) 0
    (ns.map fun n => if n > 2 then 2 else n) (ns.map (· - 2)) (by simp) (by omega)
    (by
      intro j n hj
      refine ⟨if n > 2 then 2 else n, n - 2, by simp [hj], by simp [hj], ?_⟩
      split <;> omega)
    (fun j l hj => ⟨l, hj, Nat.le_refl _⟩)
  refine ⟨out, ?_, by simpa using e2, by omega, ?_⟩
  · unfold splitPoints
    simp only [if_pos (show 0 < points - 2 * ns.length by omega), e1]
    rfl
  · intro j n hj
    obtain ⟨q, f1, f2⟩ := e4 j n hj
    obtain ⟨q', f3, f4⟩ := e5 j (if n > 2 then 2 else n) (by simp [hj])
    rw [f1] at f3; cases f3
    refine ⟨q, f1, ?_, f2⟩
    split at f4 <;> omega

theorem count_true_map (f : Nat → Bool) (l : List Nat) :
    (l.map f).count true = (l.filter f).length := by
  induction l with
  | nil => rfl
  | cons x l ih =>
    cases h : f x <;> simp [h, ih]

theorem notInterpolated_spec (rng : InterpolationRandom) (hrng : rng.Contract) (q n seed : Nat)
    (h : q ≤ n) :
    ∃ mask, notInterpolated rng q n seed = some mask ∧ mask.length = n ∧ mask.count true = q := by
  obtain ⟨h1, h2, h3⟩ := hrng.sample seed n q h
  refine ⟨(List.range n).map fun i => (rng.sample seed n q).contains i,
    by simp only [notInterpolated, if_pos h], by simp, ?_⟩
  rw [count_true_map]
  conv_rhs => rw [← h2]
  apply List.Perm.length_eq
  rw [List.perm_ext_iff_of_nodup (List.nodup_range.filter _) h1]
  intro x
  simp only [List.mem_filter, List.mem_range, List.contains_iff_mem]
  exact ⟨fun h => h.2, fun h => ⟨h3 x h, h⟩⟩

theorem assignMask_spec {α : Type _} (mask : List Bool) (xs vs out : List α)
    (h : assignMask mask xs vs = some out) :
    out.length = mask.length ∧ xs.length = mask.length ∧ vs.length = mask.count true ∧
    ∀ (i : Nat), (mask[i]? = some true → out[i]? = vs[positionIn mask i]?) ∧
      (mask[i]? = some false → out[i]? = xs[i]?) := by
  induction mask generalizing xs vs out with
  | nil =>
    cases xs with
    | nil =>
      cases vs with
      | nil => simp only [assignMask, Option.some.injEq] at h; subst h; simp
      | cons _ _ => simp [assignMask] at h
    | cons _ _ => simp [assignMask] at h
  | cons b mask ih =>
    cases xs with
    | nil => cases b <;> simp [assignMask] at h
    | cons x xs =>
      cases b with
      | false =>
        simp only [assignMask, Option.bind_eq_bind] at h
        obtain ⟨rest, hr, h⟩ := Option.bind_eq_some_iff.1 h
        simp only [Option.pure_def, Option.some.injEq] at h
        subst h
        obtain ⟨i1, i2, i3, i4⟩ := ih xs vs rest hr
        refine ⟨by simp [i1], by simp [i2], by simp [i3], fun i => ?_⟩
        cases i with
        | zero => simp
        | succ i => simpa [positionIn] using i4 i
      | true =>
        cases vs with
        | nil => simp [assignMask] at h
        | cons v vs =>
          simp only [assignMask, Option.bind_eq_bind] at h
          obtain ⟨rest, hr, h⟩ := Option.bind_eq_some_iff.1 h
          simp only [Option.pure_def, Option.some.injEq] at h
          subst h
          obtain ⟨i1, i2, i3, i4⟩ := ih xs vs rest hr
          refine ⟨by simp [i1], by simp [i2], by simp [i3], fun i => ?_⟩
          cases i with
          | zero => simp [positionIn]
          | succ i => simpa [positionIn] using i4 i

variable {K : Type _} [Field K] [LinearOrder K]

theorem rhsRow_spec (sqrt : K → K) (delta : K) (shocks w m c : List K) (r : List K × K)
    (h : rhsRow sqrt delta shocks w m c = some r) :
    m.length = w.length ∧ c.length = w.length ∧ shocks.length = w.length ∧
    r.2 ∈ valueFunctions delta w m c shocks ∧ ∀ v ∈ valueFunctions delta w m c shocks, v ≤ r.2 := by
  unfold rhsRow at h
  split at h
  · rename_i hl
    obtain ⟨mx, hm, h⟩ := Option.bind_eq_some_iff.1 h
    simp only [Option.pure_def, Option.some.injEq] at h
    subst h
    obtain ⟨h1, h2⟩ := List.max?_eq_some_iff.1 hm
    exact ⟨hl.1, hl.2.1, hl.2.2, h1, h2⟩
  · cases h

theorem interpolateKey_spec [IsStrictOrderedRing K] (sqrt : K → K)
    (ols : List K → List (List K) → List K) (delta : K) (mask : List Bool) (shocks : List K)
    (wages nonpecs cv draws : List (List K)) (out : List K)
    (h : interpolateKey sqrt ols delta mask shocks wages nonpecs cv draws = some out) :
    out.length = mask.length ∧ ∀ i < mask.length, ∃ w m c v, wages[i]? = some w ∧
      nonpecs[i]? = some m ∧ cv[i]? = some c ∧ out[i]? = some v ∧
      m.length = w.length ∧ c.length = w.length ∧ shocks.length = w.length ∧
      (mask[i]? = some true → (∀ d ∈ draws, d.length = w.length) ∧ v = emax w m c draws delta) ∧
      (mask[i]? = some false → ∃ mx ∈ valueFunctions delta w m c shocks,
        (∀ x ∈ valueFunctions delta w m c shocks, x ≤ mx) ∧ mx ≤ v) := by
  unfold interpolateKey at h
  obtain ⟨rhs, hrhs, h⟩ := Option.bind_eq_some_iff.1 h
  obtain ⟨endo, hendo, h⟩ := Option.bind_eq_some_iff.1 h
  obtain ⟨x, hx, h⟩ := Option.bind_eq_some_iff.1 h
  obtain ⟨own, hown, h⟩ := Option.bind_eq_some_iff.1 h
  obtain ⟨a1, a2, a3, a4⟩ := assignMask_spec _ _ _ _ h
  refine ⟨a1, fun i hi => ?_⟩
  have hrl : rhs.length = mask.length := by
    rw [mapM_eq_some_length _ _ _ hrhs]; simp
  have hrow := mapM_range_getElem? _ _ _ hrhs i hi
  have hri : rhs[i]? = some rhs[i] := List.getElem?_eq_getElem (by omega)
  rw [hri] at hrow
  obtain ⟨w, hw, hrow⟩ := Option.bind_eq_some_iff.1 hrow.symm
  obtain ⟨m, hm, hrow⟩ := Option.bind_eq_some_iff.1 hrow
  obtain ⟨c, hc, hrow⟩ := Option.bind_eq_some_iff.1 hrow
  obtain ⟨l1, l2, l3, l4, l5⟩ := rhsRow_spec _ _ _ _ _ _ _ hrow
  obtain ⟨v, hv⟩ : ∃ v, out[i]? = some v := ⟨out[i], List.getElem?_eq_getElem (by omega)⟩
  refine ⟨w, m, c, v, hw, hm, hc, hv, l1, l2, l3, ?_, ?_⟩
  · intro hmask
    have h1 := (a4 i).1 hmask
    rw [hv] at h1
    have hpos := validChoices_positionIn mask i hmask
    have hep := mapM_getElem? _ _ _ hendo (positionIn mask i) i hpos
    have hplt := positionIn_lt mask i hmask
    have hel : endo.length = mask.count true := by
      rw [mapM_eq_some_length _ _ _ hendo, length_validChoices]
    have hei : endo[positionIn mask i]? = some endo[positionIn mask i] :=
      List.getElem?_eq_getElem (by omega)
    rw [hei] at hep
    have hop := mapM_getElem? _ _ _ hown (positionIn mask i) (i, endo[positionIn mask i])
      (List.getElem?_zip_eq_some.2 ⟨hpos, hei⟩)
    simp only [hri, Option.map_some] at hop
    rw [← h1] at hop
    simp only [hw, hm, hc, hri, Option.bind_eq_bind, Option.bind_some] at hep
    obtain ⟨e, he, hep⟩ := Option.bind_eq_some_iff.1 hep.symm
    simp only [Option.pure_def, Option.some.injEq] at hep
    unfold emax? at he
    split at he
    · rename_i hsh
      refine ⟨hsh.2.2, ?_⟩
      simp only [Option.some.injEq] at hop he
      rw [hop, ← hep, ← he]
      ring
    · cases he
  · intro hmask
    have h1 := (a4 i).2 hmask
    rw [hv, List.getElem?_map, hri, Option.map_some, Option.some.injEq] at h1
    refine ⟨_, l4, l5, ?_⟩
    rw [h1]
    exact le_add_of_nonneg_left (le_max_right _ _)

end Respy
