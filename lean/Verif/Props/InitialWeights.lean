import Verif.Model.Names
import Verif.Model.SimulateSpace
import Verif.Lemmas.Transition

/-!
# C73, C75: the weights with which initial characteristics are sampled

`C73_logit_probabilities` states which probabilities the levels of a characteristic have, and
`C75_equal_initial_weights` what happens to the levels of an exogenous process whose initial distribution
is not given by parameters.
-/

namespace Respy

/-- The probabilities of a multinomial logit model with the linear indices `z`: they are proportional to
`exp z` and sum up to one. -/
structure IsLogit (z probs : List ℝ) : Prop where
  length : probs.length = z.length
  sum : probs.sum = 1
  odds : ∀ (j k : Nat) (zj zk pj pk : ℝ), z[j]? = some zj → z[k]? = some zk → probs[j]? = some pj →
    probs[k]? = some pk → pj * Real.exp zk = pk * Real.exp zj

/-- The linear index `z` of a list of coefficients, where `value` are the values of the covariates. -/
inductive IsLinearIndex (value : Str → Option ℝ) : List (Str × ℝ) → ℝ → Prop
  | nil : IsLinearIndex value [] 0
  | cons {name : Str} {beta x z : ℝ} {rest : List (Str × ℝ)} : value name = some x →
      IsLinearIndex value rest z → IsLinearIndex value ((name, beta) :: rest) (z + x * beta)

theorem linearIndex_eq {value : Str → Option ℝ} {beta : List (Str × ℝ)} {z : ℝ}
    (h : IsLinearIndex value beta z) : (beta.map fun item => item.2 * (value item.1).getD 0).sum = z := by
  induction h with
  | nil => simp
  | cons hx _ ih =>
    simp only [List.map_cons, List.sum_cons, hx, Option.getD_some, ih]
    ring

theorem softmax_isLogit (z : List ℝ) (hz : z ≠ []) : IsLogit z (softmax z) where
  length := by simp [softmax]
  sum := softmax_sum z hz
  odds := by
    intro j k zj zk pj pk hj hk hpj hpk
    simp only [softmax, List.getElem?_map, hj, hk, Option.map_some, Option.some.injEq] at hpj hpk
    rw [← hpj, ← hpk]
    ring

/-- **C73.** The levels of a characteristic are sampled with multinomial logit probabilities: if `z` lists
for an individual the linear indices of the coefficients of the levels and the individual's covariates, the
weights of the individual are the logit probabilities of `z`. -/
theorem C73_logit_probabilities (column : Nat) (levels : List Nat) (betas : List (List (Str × ℝ)))
    (hne : betas ≠ []) (covariates : CharRow → StateRow ℝ) (fp : List CharRow) (i : Nat) (row : CharRow)
    (hi : fp[i]? = some row) (z : List ℝ) (hz : List.Forall₂ (IsLinearIndex (covariates row)) betas z) :
    ∃ probs, ((logitCharacteristic column levels betas covariates).probs fp)[i]? = some probs ∧
      IsLogit z probs := by
  have hlist : (betas.map fun beta => (beta.map fun item => item.2 * (covariates row item.1).getD 0).sum) =
      z := by
    clear hne
    induction hz with
    | nil => rfl
    | cons h _ ih => rw [List.map_cons, linearIndex_eq h, ih]
  refine ⟨softmax z, ?_, softmax_isLogit z ?_⟩
  · simp only [logitCharacteristic, List.getElem?_map, hi, Option.map_some, hlist]
  · rintro rfl
    cases hz
    exact hne rfl

/-- **C75.** If no parameters define the initial distribution of an exogenous process, all its levels stay,
in their order, and every individual draws each of the `n` levels with probability `1 / n`, whatever the
coefficients of the process and the covariates are. -/
theorem C75_equal_initial_weights (process : Dict Level (List (Str × ℝ))) :
    ∃ d, initialLevels process none = some d ∧ d.map Prod.fst = process.map Prod.fst ∧
      ∀ (column : Nat) (levels : List Nat) (covariates : CharRow → StateRow ℝ) (fp : List CharRow),
        ∀ probs ∈ (logitCharacteristic column levels (d.map Prod.snd) covariates).probs fp,
          probs = List.replicate process.length (1 / (process.length : ℝ)) := by
  refine ⟨_, rfl, by simp [List.map_map, Function.comp_def], ?_⟩
  intro column levels covariates fp probs hprobs
  simp only [logitCharacteristic, List.mem_map] at hprobs
  obtain ⟨row, _, rfl⟩ := hprobs
  simp only [List.map_map, Function.comp_def, softmax, List.map_cons, List.map_nil, zero_mul,
    List.sum_cons, List.sum_nil, add_zero, Real.exp_zero, List.map_const', List.sum_replicate,
    nsmul_eq_mul, mul_one, List.map_replicate]

/-! ## Concrete cases -/

/-- Two levels with the linear indices `1` and `2 + 3 * 1 / 2`. -/
example : List.Forall₂ (IsLinearIndex fun name => if name = "exp_a".toList then some (3 : ℝ) else some 1)
    [[("constant".toList, (1 : ℝ))], [("exp_a".toList, 1 / 2), ("constant".toList, 2)]]
    [0 + 1 * 1, 0 + 1 * 2 + 3 * (1 / 2)] := by
  refine .cons (.cons (if_neg (by decide)) .nil) (.cons (.cons (if_pos rfl) (.cons (if_neg (by decide)) .nil))
    .nil)

/-- A process with two levels, whose individuals draw each level with probability one half. -/
example : ∃ d, initialLevels [(Sum.inrₗ "sick".toList, [("constant".toList, (5 : ℝ))]),
      (Sum.inrₗ "well".toList, [("constant".toList, 7)])] none = some d ∧
    ∀ (covariates : CharRow → StateRow ℝ) (fp : List CharRow),
      ∀ probs ∈ (logitCharacteristic 0 [0, 1] (d.map Prod.snd) covariates).probs fp,
        probs = [1 / 2, 1 / 2] := by
  obtain ⟨d, hd, _, h⟩ := C75_equal_initial_weights [(Sum.inrₗ "sick".toList, [("constant".toList, (5 : ℝ))]),
    (Sum.inrₗ "well".toList, [("constant".toList, 7)])]
  refine ⟨d, hd, fun covariates fp probs hp => ?_⟩
  rw [h 0 [0, 1] covariates fp probs hp]
  norm_num [List.replicate]

end Respy
