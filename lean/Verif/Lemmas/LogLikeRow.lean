import Verif.Model.LogLike
import Verif.Spec.LogLike
import Verif.Lemmas.ConditionalDraws2
import Verif.Lemmas.LogNormal
import Verif.Lemmas.Likelihood2
import Verif.Lemmas.Shocks
import Verif.Lemmas.Rewards
import Verif.Lemmas.SimulateTotal

/-! Helper lemmas: the log likelihood of one row of the data. -/

open Matrix

namespace Respy

noncomputable section

/-! ### Positions and alternatives -/

/-- The alternative at a position. -/
def alternativeAt (cs : List Bool) (i : Nat) : Nat := (validChoices cs).getD i 0

variable {cs : List Bool} {n : Nat}

theorem alternativeAt_get (hn : cs.count true = n) (i : Fin n) :
    (validChoices cs)[(i : Nat)]? = some (alternativeAt cs i) := by
  have hi : (i : Nat) < (validChoices cs).length := by rw [length_validChoices, hn]; exact i.2
  unfold alternativeAt
  rw [List.getD_eq_getElem?_getD, List.getElem?_eq_getElem hi]; rfl

theorem alternativeAt_available (hn : cs.count true = n) (i : Fin n) :
    cs[alternativeAt cs i]? = some true :=
  (mem_validChoices cs _).1 (List.mem_of_getElem? (alternativeAt_get hn i))

theorem positionIn_alternativeAt (hn : cs.count true = n) (i : Fin n) :
    positionIn cs (alternativeAt cs i) = i := by
  have h1 := validChoices_positionIn cs _ (alternativeAt_available hn i)
  have h2 := alternativeAt_get hn i
  have hi : (i : Nat) < (validChoices cs).length := by rw [length_validChoices, hn]; exact i.2
  exact ((List.getElem?_inj hi (validChoices_nodup cs)).1 (h2.trans h1.symm)).symm

theorem alternativeAt_positionIn (a : Nat) (ha : cs[a]? = some true) :
    alternativeAt cs (positionIn cs a) = a := by
  unfold alternativeAt
  rw [List.getD_eq_getElem?_getD, validChoices_positionIn cs a ha]; rfl

theorem validChoices_eq_ofFn (hn : cs.count true = n) :
    validChoices cs = List.ofFn fun i : Fin n => alternativeAt cs i := by
  apply List.ext_getElem?
  intro i
  by_cases hi : i < n
  · rw [alternativeAt_get hn ⟨i, hi⟩]
    simp [hi]
  · rw [List.getElem?_eq_none (by rw [length_validChoices]; omega)]
    simp [hi]

theorem overAvailable_eq (cs : List Bool) (f : Nat → ℝ) :
    overAvailable cs f = ((validChoices cs).map f).sum := by
  unfold overAvailable validChoices
  induction List.range cs.length with
  | nil => rfl
  | cons j l ih =>
    rw [List.map_cons, List.sum_cons, ih]
    by_cases hj : cs[j]? = some true
    · rw [if_pos hj, List.filter_cons_of_pos (by simpa using hj), List.map_cons, List.sum_cons]
    · rw [if_neg hj, List.filter_cons_of_neg (by simpa using hj), zero_add]

theorem overAvailable_sum (hn : cs.count true = n) (f : Nat → ℝ) :
    overAvailable cs f = ∑ i : Fin n, f (alternativeAt cs i) := by
  rw [overAvailable_eq, validChoices_eq_ofFn hn, List.map_ofFn, List.sum_ofFn]
  rfl

/-- The restricted Cholesky factor. -/
theorem factor_entry (L factor : List (List ℝ)) (h : subsetCholesky L cs = some factor)
    (hn : cs.count true = n) (i j : Fin n) :
    (factor.getD i []).getD j 0 = entry L (alternativeAt cs i) (alternativeAt cs j) := by
  obtain ⟨_, h2⟩ := subsetCholesky_spec L cs factor h
  obtain ⟨row, frow, h3, h4, _, h5⟩ := h2 _ (alternativeAt_available hn i)
  obtain ⟨x, h6, h7⟩ := h5 _ (alternativeAt_available hn j)
  rw [positionIn_alternativeAt hn] at h4 h6
  unfold entry
  have hf : factor.getD (i : Nat) [] = frow := by rw [List.getD_eq_getElem?_getD, h4]; rfl
  rw [h3, Option.bind_some, h7, hf, List.getD_eq_getElem?_getD, h6]

/-- The restricted Cholesky factor as a matrix. -/
def factorMatrix (L : List (List ℝ)) (cs : List Bool) (n : Nat) : Matrix (Fin n) (Fin n) ℝ :=
  fun i j => entry L (alternativeAt cs i) (alternativeAt cs j)

theorem shocksCov_factorMatrix (L : List (List ℝ)) (hn : cs.count true = n) (i j : Fin n) :
    shocksCov (factorMatrix L cs n) i j = shockCov L cs (alternativeAt cs i) (alternativeAt cs j) := by
  rw [shocksCov_apply]
  unfold shockCov
  rw [overAvailable_sum hn]
  rfl

theorem alternativeAt_lt (hn : cs.count true = n) (i j : Fin n) (h : i < j) :
    alternativeAt cs i < alternativeAt cs j := by
  by_contra hcon
  have := positionIn_mono cs _ _ (not_lt.1 hcon)
  rw [positionIn_alternativeAt hn, positionIn_alternativeAt hn] at this
  exact absurd h (not_lt.2 this)

theorem factorMatrix_lower (L : List (List ℝ)) (hL : ∀ i j, i < j → entry L i j = 0)
    (hn : cs.count true = n) : IsLower (factorMatrix L cs n) :=
  fun i j hij => hL _ _ (alternativeAt_lt hn i j hij)

/-- A matrix over positions as a function of alternatives. -/
def onAlternatives (cs : List Bool) (C : Matrix (Fin n) (Fin n) ℝ) (a b : Nat) : ℝ :=
  if h : positionIn cs a < n ∧ positionIn cs b < n then C ⟨positionIn cs a, h.1⟩ ⟨positionIn cs b, h.2⟩
  else 0

theorem onAlternatives_at (hn : cs.count true = n) (C : Matrix (Fin n) (Fin n) ℝ) (i j : Fin n) :
    onAlternatives cs C (alternativeAt cs i) (alternativeAt cs j) = C i j := by
  unfold onAlternatives
  rw [dif_pos (by rw [positionIn_alternativeAt hn, positionIn_alternativeAt hn]; exact ⟨i.2, j.2⟩)]
  congr 1 <;> exact Fin.ext (positionIn_alternativeAt hn _)

theorem onAlternatives_gram (hn : cs.count true = n) (C : Matrix (Fin n) (Fin n) ℝ) (i k : Fin n) :
    overAvailable cs (fun j => onAlternatives cs C (alternativeAt cs i) j *
      onAlternatives cs C (alternativeAt cs k) j) = (C * Cᵀ) i k := by
  rw [overAvailable_sum hn, mul_apply]
  refine Finset.sum_congr rfl fun j _ => ?_
  rw [onAlternatives_at hn, onAlternatives_at hn]; rfl

/-! ### The density -/

theorem log_wageDensity (v w x : ℝ) (hv : 0 < v) (hx : 0 < x) :
    -Real.log (2 * Real.pi) / 2 - Real.log x - Real.log √v -
      (Real.log x - Real.log w) ^ 2 / (2 * v) = Real.log (wageDensity v w x) := by
  have hpi := Real.pi_pos
  unfold wageDensity
  rw [Real.log_div (Real.exp_pos _).ne' (by positivity), Real.log_exp,
    Real.log_mul hx.ne' (by positivity), Real.log_sqrt hv.le, Real.log_sqrt (by positivity),
    Real.log_mul (by positivity) hv.ne']
  ring

theorem wageDensity_pos (v w x : ℝ) (hv : 0 < v) (hx : 0 < x) : 0 < wageDensity v w x := by
  have hpi := Real.pi_pos
  unfold wageDensity
  positivity

/-! ### One row -/

variable {P : Type}

/-- The factor which is used for an observation. -/
theorem relevantChol_spec (la : LinearAlgebra n) (hqr : QRContract la.qr)
    (hch : CholeskyContract la.cholesky) (hn : cs.count true = n + 1) (hi : ℝ) (hasMeasError : Bool)
    (L : List (List ℝ)) (hL : ∀ i j, i < j → entry L i j = 0) (measError : List ℝ) (nWages : Nat)
    (w : Nat → ℝ) (a : Nat) (ha : cs[a]? = some true) (wage : Option ℝ) (q : Fin (n + 1))
    (hq : (q : Nat) = positionIn cs a)
    (hobs : ∀ x, wage = some x → ObservationWF hi hasMeasError nWages L cs measError w a x) :
    ∃ C, relevantChol la hasMeasError (factorMatrix L cs (n + 1)) (likelihoodMeasSds measError cs)
        (nWagesIn nWages cs) (logWage hi wage) q = some C ∧ IsLower C ∧
      IsFactorGiven (shockCov L cs) cs
        (observation L cs (fun a => measError.getD a 0) w a wage) (onAlternatives cs C) := by
  have hqa : alternativeAt cs q = a := by rw [hq]; exact alternativeAt_positionIn a ha
  have hlow := factorMatrix_lower L hL hn
  have hgram : ∀ (C : Matrix (Fin (n + 1)) (Fin (n + 1)) ℝ) (obs : Option WageObservation),
      (∀ i j, (C * Cᵀ) i j = shockCovGiven (shockCov L cs) obs (alternativeAt cs i)
        (alternativeAt cs j)) → IsFactorGiven (shockCov L cs) cs obs (onAlternatives cs C) := by
    intro C obs h b hb b' hb'
    have hlt : positionIn cs b < n + 1 := by rw [← hn]; exact positionIn_lt cs b hb
    have hlt' : positionIn cs b' < n + 1 := by rw [← hn]; exact positionIn_lt cs b' hb'
    have h1 := h ⟨_, hlt⟩ ⟨_, hlt'⟩
    have h2 := onAlternatives_gram hn C ⟨_, hlt⟩ ⟨_, hlt'⟩
    simp only [alternativeAt_positionIn b hb, alternativeAt_positionIn b' hb'] at h1 h2
    rw [h2, h1]
  cases wage with
  | none =>
    refine ⟨factorMatrix L cs (n + 1), by simp [relevantChol, logWage], hlow, hgram _ _ fun i j => ?_⟩
    exact shocksCov_factorMatrix L hn i j
  | some x =>
    have h := hobs x rfl
    have hc : (q : Nat) < nWagesIn nWages cs := by
      rw [hq]; exact (positionIn_lt_nWagesIn nWages cs a ha).2 h.hasWage
    have hsd : likelihoodMeasSds measError cs q = measError.getD a 0 := by
      unfold likelihoodMeasSds
      rw [hq, h.own]
    have hrel : relevantChol la hasMeasError (factorMatrix L cs (n + 1)) (likelihoodMeasSds measError cs)
        (nWagesIn nWages cs) (logWage hi (some x)) q = some (if hasMeasError then
          updatedCholWithMeasError la.qr (factorMatrix L cs (n + 1)) (likelihoodMeasSds measError cs) q
        else updatedCholNoMeasError la.cholesky (factorMatrix L cs (n + 1)) q) := by
      simp only [relevantChol, logWage, Option.map_some, Option.isSome_some, if_true, hc]
    have hcovq := fun j => shocksCov_factorMatrix L hn q j
    simp only [hqa] at hcovq
    cases hasMeasError with
    | true =>
      obtain ⟨h1, h2⟩ := h.error rfl
      have hσ : sigmaSquared (shocksCov (factorMatrix L cs (n + 1))) q
          (likelihoodMeasSds measError cs q) ≠ 0 := by
        unfold sigmaSquared
        have := shocksCov_diag_nonneg (factorMatrix L cs (n + 1)) q
        rw [hsd]
        positivity
      refine ⟨_, hrel, ?_, hgram _ _ fun i j => ?_⟩
      · rw [if_pos rfl]
        exact updatedCholWithMeasError_lower _ hqr _ q
      · rw [if_pos rfl, updatedCholWithMeasError_gram _ hqr _ q hσ fun k =>
          qr_diag_ne_zero _ hqr _ (by rw [hsd]; exact h1) hlow
            (fun k => h2 _ (alternativeAt_available hn k)) q k.succ]
        unfold sigmaSquared
        rw [hsd, hcovq, hcovq, hcovq, shocksCov_factorMatrix L hn, hqa]
        rfl
    | false =>
      obtain ⟨h1, h2⟩ := h.noError rfl
      have hσ : shocksCov (factorMatrix L cs (n + 1)) q q ≠ 0 := by
        rw [hcovq, hqa]; exact h2
      refine ⟨_, hrel, ?_, hgram _ _ fun i j => ?_⟩
      · simp only [Bool.false_eq_true, if_false]
        exact updatedCholNoMeasError_lower hch _ q
      · simp only [Bool.false_eq_true, if_false]
        rw [updatedCholNoMeasError_gram hch _ q hσ, hcovq, hcovq, hcovq, shocksCov_factorMatrix L hn, hqa]
        simp only [shockCovGiven, observation, Option.map_some, h1]
        norm_num

/-- Draws and log probability of the wage of a row. -/
theorem wageLogProb_spec (la : LinearAlgebra n) (hqr : QRContract la.qr)
    (hch : CholeskyContract la.cholesky) (hn : cs.count true = n + 1) (hi maxLog : ℝ) (hhi : 0 < hi)
    (hasMeasError : Bool) (L : List (List ℝ)) (hL : ∀ i j, i < j → entry L i j = 0)
    (measError : List ℝ) (nWages : Nat) (hnw : nWages ≤ cs.length) (w : Nat → ℝ) (a : Nat)
    (ha : cs[a]? = some true) (wage : Option ℝ)
    (hobs : ∀ x, wage = some x → ObservationWF hi hasMeasError nWages L cs measError w a x) :
    ∃ r C, wageLogProb la hi maxLog hasMeasError measError nWages cs a (logWage hi wage)
        (fun i => w (alternativeAt cs i)) (factorMatrix L cs (n + 1)) = some r ∧
      IsFactorGiven (shockCov L cs) cs (observation L cs (fun a => measError.getD a 0) w a wage) C ∧
      (∀ z : List ℝ, r.draw (fun j => z.getD j 0) = fun i : Fin (n + 1) => rewardShockGiven maxLog nWages cs
        (shockMean (shockCov L cs) (observation L cs (fun a => measError.getD a 0) w a wage)) C
        (shocksOf cs z) (alternativeAt cs i)) ∧
      r.logProbWage = Real.log (densityOf L cs (fun a => measError.getD a 0) w a wage) ∧
      0 < densityOf L cs (fun a => measError.getD a 0) w a wage := by
  have hlt : positionIn cs a < n + 1 := by rw [← hn]; exact positionIn_lt cs a ha
  obtain ⟨C, h1, h2, h3⟩ := relevantChol_spec la hqr hch hn hi hasMeasError L hL measError nWages w a ha
    wage ⟨_, hlt⟩ rfl hobs
  unfold wageLogProb
  simp only [mapChoiceCode_valid cs a ha, Option.bind_eq_bind, Option.bind_some, hlt, dif_pos,
    selectValidChoices_range_length _ _ hnw, createDrawsAndLogProbWages, h1, Option.pure_def]
  refine ⟨_, onAlternatives cs C, rfl, h3, ?_, ?_⟩
  · intro z
    funext i
    simp only [conditionalDraw_eq]
    have hw : ((i : Nat) < nWagesIn nWages cs) ↔ alternativeAt cs i < nWages := by
      rw [← positionIn_lt_nWagesIn nWages cs _ (alternativeAt_available hn i),
        positionIn_alternativeAt hn]
    have hx : latentDraw (fun j : Fin (n + 1) => z.getD j 0) (updateMeanAndLoglike (logWage hi wage)
        (Real.log (min (max (w (alternativeAt cs (positionIn cs a))) (1 / hi)) hi))
        (shocksCov (factorMatrix L cs (n + 1))) ⟨positionIn cs a, hlt⟩
        (likelihoodMeasSds measError cs)).1 C i =
        shockMean (shockCov L cs) (observation L cs (fun a => measError.getD a 0) w a wage)
          (alternativeAt cs i) + overAvailable cs fun j => onAlternatives cs C (alternativeAt cs i) j *
            shocksOf cs z j := by
      rw [latentDraw_lower _ _ h2, overAvailable_sum hn]
      congr 1
      · cases wage with
        | none => rfl
        | some x =>
          have h := hobs x rfl
          simp only [updateMeanAndLoglike, logWage, Option.map_some, shockMean, observation, sigmaSquared,
            shocksCov_factorMatrix L hn, alternativeAt_positionIn a ha, max_eq_left h.observed.1,
            min_eq_left h.observed.2, max_eq_left h.systematic.1, min_eq_left h.systematic.2,
            likelihoodMeasSds, h.own]
      · refine Finset.sum_congr rfl fun j _ => ?_
        rw [onAlternatives_at hn, shocksOf, positionIn_alternativeAt hn]
    unfold rewardShock rewardShockGiven
    simp only [hx, hw]
  · cases wage with
    | none => simp [updateMeanAndLoglike, logWage, densityOf]
    | some x =>
      have h := hobs x rfl
      have hx : 0 < x := lt_of_lt_of_le (by positivity) h.observed.1
      have hv : 0 < shockCov L cs a a + measError.getD a 0 ^ 2 := by
        have hnn : 0 ≤ shockCov L cs a a := by
          have := shocksCov_diag_nonneg (factorMatrix L cs (n + 1)) ⟨positionIn cs a, hlt⟩
          rw [shocksCov_factorMatrix L hn] at this
          simpa only [alternativeAt_positionIn a ha] using this
        cases hm : hasMeasError with
        | true => have := (h.error hm).1; positivity
        | false =>
          have h5 := (h.noError hm).2
          have : 0 < shockCov L cs a a := lt_of_le_of_ne hnn (Ne.symm h5)
          positivity
      refine ⟨?_, wageDensity_pos _ _ _ hv hx⟩
      simp only [densityOf, ← log_wageDensity _ _ _ hv hx, updateMeanAndLoglike, logWage, Option.map_some,
        sigmaSquared, shocksCov_factorMatrix L hn, alternativeAt_positionIn a ha,
        max_eq_left h.observed.1, min_eq_left h.observed.2, max_eq_left h.systematic.1,
        min_eq_left h.systematic.2, likelihoodMeasSds, h.own]

theorem overAvailable_pos (hn : cs.count true = n + 1) (f : Nat → ℝ) (hf : ∀ j, 0 < f j) :
    0 < overAvailable cs f := by
  rw [overAvailable_sum hn]
  exact Finset.sum_pos (fun j _ => hf _) ⟨0, Finset.mem_univ _⟩

/-- The contributions of a choice and wage, with the same factor for all draws. -/
theorem observationLoglike_spec (e : Estimation P) (p : LikelihoodParams)
    (hqr : ∀ n, QRContract (e.la n).qr) (hch : ∀ n, CholeskyContract (e.la n).cholesky) (hhi : 0 < e.hi)
    (cs : List Bool) (n : Nat) (hn : cs.count true = n + 1) (a : Nat) (wage : Option ℝ) (w m c : Nat → ℝ)
    (ha : cs[a]? = some true) (hrows : cs.length ≤ p.cholesky.length)
    (hcols : ∀ row ∈ p.cholesky, cs.length ≤ row.length)
    (hlow : ∀ i j, i < j → entry p.cholesky i j = 0) (hnw : p.nWagesRaw ≤ cs.length)
    (hobs : ∀ y, wage = some y → ObservationWF e.hi p.hasMeasError p.nWagesRaw p.cholesky
      cs p.measError w a y) :
    ∃ C, IsFactorGiven (shockCov p.cholesky cs) cs
        (observation p.cholesky cs (fun a => p.measError.getD a 0) w a wage) C ∧
      0 < densityOf p.cholesky cs (fun a => p.measError.getD a 0) w a wage ∧
      ∀ draws : List (List ℝ), draws ≠ [] → ∀ prob, prob = ((draws.map (shocksOf cs)).map fun z =>
          logitOf e.tau cs (fun b => w b * rewardShockGiven e.maxLog p.nWagesRaw cs
            (shockMean (shockCov p.cholesky cs) (observation p.cholesky cs (fun a => p.measError.getD a 0) w a wage))
              C z b + m b + p.betaDelta * c b) a).sum / (draws.map (shocksOf cs)).length →
        0 < prob ∧ e.observationLoglike p n cs ((validChoices cs).map w) ((validChoices cs).map m)
          ((validChoices cs).map c) a wage draws = some (clip e.lo e.hi (Real.log prob),
            clip e.lo e.hi (Real.log (densityOf p.cholesky cs (fun a => p.measError.getD a 0) w a wage))) := by
  obtain ⟨factor, hfac⟩ := subsetCholesky_total p.cholesky cs hrows hcols
  obtain ⟨r, C, h1, h2, h3, h4, h5⟩ := wageLogProb_spec (e.la n) (hqr n) (hch n) hn e.hi e.maxLog hhi
    p.hasMeasError p.cholesky hlow p.measError p.nWagesRaw hnw w a ha wage hobs
  refine ⟨C, h2, h5, fun draws hdraws prob hprob => ?_⟩
  set mean := shockMean (shockCov p.cholesky cs) (observation p.cholesky cs
    (fun a => p.measError.getD a 0) w a wage) with hmean
  let v : (Nat → ℝ) → Nat → ℝ := fun z b => w b * rewardShockGiven e.maxLog p.nWagesRaw cs mean C z b +
    m b + p.betaDelta * c b
  have hlpos : ∀ z, 0 < logitOf e.tau cs (v z) a := fun z =>
    div_pos (Real.exp_pos _) (overAvailable_pos hn _ fun j => Real.exp_pos _)
  have hlen : 0 < draws.length := List.length_pos_iff.2 hdraws
  have hppos : 0 < prob := by
    rw [hprob]
    refine div_pos ?_ (by rw [List.length_map]; exact_mod_cast hlen)
    refine List.sum_pos _ ?_ (by simpa using hdraws)
    intro y hy
    obtain ⟨z, _, rfl⟩ := List.mem_map.1 hy
    exact hlpos z
  refine ⟨hppos, ?_⟩
  have hpos : positionIn cs a < n + 1 := by rw [← hn]; exact positionIn_lt cs _ ha
  have hlist : ∀ f : Nat → ℝ, (validChoices cs).map f =
      List.ofFn fun i : Fin (n + 1) => f (alternativeAt cs i) := by
    intro f
    rw [validChoices_eq_ofFn hn, List.map_ofFn]; rfl
  have hwget : (fun j : Fin (n + 1) => ((validChoices cs).map w).getD (j : Nat) 0) =
      fun j : Fin (n + 1) => w (alternativeAt cs j) := by
    funext j
    rw [List.getD_eq_getElem?_getD, List.getElem?_map, alternativeAt_get hn j]; rfl
  have hfmat : (fun i j : Fin (n + 1) => (factor.getD (i : Nat) []).getD (j : Nat) 0) =
      factorMatrix p.cholesky cs (n + 1) := by
    funext i j
    exact factor_entry _ _ hfac hn i j
  have hsim : simulatedLogProb p.betaDelta e.tau ((validChoices cs).map w) ((validChoices cs).map m)
      ((validChoices cs).map c) (draws.map fun z => List.ofFn (r.draw fun j => z.getD j 0))
      (positionIn cs a) = some (Real.log prob) := by
    have hd : (draws.map fun z => List.ofFn (r.draw fun j => z.getD j 0)) =
        List.ofFn fun d : Fin draws.length => List.ofFn fun i : Fin (n + 1) =>
          rewardShockGiven e.maxLog p.nWagesRaw cs mean C (shocksOf cs draws[d]) (alternativeAt cs i) := by
      apply List.ext_getElem
      · simp
      · intro k hk1 hk2
        simp only [List.getElem_map, List.getElem_ofFn, h3]
        rfl
    rw [hd, hlist, hlist, hlist]
    have := simulatedLogProb_ofFn p.betaDelta e.tau hlen (fun i : Fin (n + 1) => w (alternativeAt cs i))
      (fun i => m (alternativeAt cs i)) (fun i => c (alternativeAt cs i))
      (fun d i => rewardShockGiven e.maxLog p.nWagesRaw cs mean C (shocksOf cs draws[d])
        (alternativeAt cs i)) ⟨positionIn cs a, hpos⟩
    rw [this]
    simp only [alternativeAt_positionIn _ ha]
    congr 2
    have hsum : ((draws.map (shocksOf cs)).map fun z => logitOf e.tau cs (v z) a) =
        List.ofFn fun d : Fin draws.length => logitOf e.tau cs (v (shocksOf cs draws[d])) a := by
      apply List.ext_getElem
      · simp
      · intro k hk1 hk2
        simp
    rw [hprob]
    show _ = ((draws.map (shocksOf cs)).map fun z => logitOf e.tau cs (v z) a).sum / _
    rw [hsum, List.sum_ofFn, List.length_map]
    congr 1
    refine Finset.sum_congr rfl fun d _ => ?_
    unfold logitOf
    rw [overAvailable_sum hn]
  unfold Estimation.observationLoglike
  simp only [mapChoiceCode_valid cs _ ha, hfac, Option.bind_eq_bind, Option.bind_some, hwget, hfmat, h1,
    hsim, h4, Option.pure_def]

/-- The choice probability simulated with the factor `C` of the shocks and given draws. -/
def Estimation.simulatedProb (e : Estimation P) (p : LikelihoodParams) (cs : List Bool) (a : Nat) (wage : Option ℝ)
    (w m c : Nat → ℝ) (C : Nat → Nat → ℝ) (draws : List (Nat → ℝ)) : ℝ :=
  (draws.map fun z => logitOf e.tau cs (fun b => w b * rewardShockGiven e.maxLog p.nWagesRaw cs
    (shockMean (shockCov p.cholesky cs) (observation p.cholesky cs (fun a => p.measError.getD a 0) w a wage))
      C z b + m b + p.betaDelta * c b) a).sum / draws.length

/-- A factor of the shocks given the wage with which the contributions are computed for all draws. -/
def Estimation.FactorUsed (e : Estimation P) (p : LikelihoodParams) (cs : List Bool) (a : Nat) (wage : Option ℝ)
    (w m c : Nat → ℝ) (C : Nat → Nat → ℝ) : Prop :=
  IsFactorGiven (shockCov p.cholesky cs) cs (observation p.cholesky cs (fun a => p.measError.getD a 0) w a wage) C ∧
    ∀ draws : List (List ℝ), draws ≠ [] → ∀ prob,
      prob = e.simulatedProb p cs a wage w m c C (draws.map (shocksOf cs)) →
      0 < prob ∧ e.observationLoglike p (cs.count true - 1) cs ((validChoices cs).map w) ((validChoices cs).map m)
        ((validChoices cs).map c) a wage draws = some (clip e.lo e.hi (Real.log prob),
          clip e.lo e.hi (Real.log (densityOf p.cholesky cs (fun a => p.measError.getD a 0) w a wage)))

/-- One of these factors; it does not depend on the draws. -/
def Estimation.factorUsed (e : Estimation P) (p : LikelihoodParams) (cs : List Bool) (a : Nat) (wage : Option ℝ)
    (w m c : Nat → ℝ) : Nat → Nat → ℝ := Classical.epsilon (e.FactorUsed p cs a wage w m c)

/-- The log likelihood of a row. -/
theorem rowLoglike_spec (e : Estimation P) (p : LikelihoodParams) (sp : SimSpace ℝ)
    (hqr : ∀ n, QRContract (e.la n).qr) (hch : ∀ n, CholeskyContract (e.la n).cholesky) (hhi : 0 < e.hi)
    (cvs : Dict Nat (List (List ℝ))) (x : LocatedRow) (draws : List (List ℝ)) (hdraws : draws ≠ [])
    (complex : Complex) (hcomplex : sp.complexes[x.key]? = some complex)
    (wages nonpecs cv : List (List ℝ)) (hwages : Dict.get? sp.wages x.key = some wages)
    (hnonpecs : Dict.get? sp.nonpecs x.key = some nonpecs) (hcv : Dict.get? cvs x.key = some cv)
    (w m c : Nat → ℝ) (hw : wages[x.index]? = some ((validChoices complex.choiceSet).map w))
    (hm : nonpecs[x.index]? = some ((validChoices complex.choiceSet).map m))
    (hc : cv[x.index]? = some ((validChoices complex.choiceSet).map c))
    (ha : complex.choiceSet[x.row.choice]? = some true)
    (hrows : complex.choiceSet.length ≤ p.cholesky.length)
    (hcols : ∀ row ∈ p.cholesky, complex.choiceSet.length ≤ row.length)
    (hlow : ∀ i j, i < j → entry p.cholesky i j = 0) (hnw : p.nWagesRaw ≤ complex.choiceSet.length)
    (hobs : ∀ y, x.row.wage = some y → ObservationWF e.hi p.hasMeasError p.nWagesRaw p.cholesky
      complex.choiceSet p.measError w x.row.choice y) :
    ∃ prob, 0 < prob ∧
      0 < densityOf p.cholesky complex.choiceSet (fun a => p.measError.getD a 0) w x.row.choice x.row.wage ∧
      IsChoiceProbability e.maxLog e.tau p.betaDelta p.nWagesRaw p.cholesky complex.choiceSet
        (fun a => p.measError.getD a 0) w m c x.row.choice x.row.wage
        (draws.map (shocksOf complex.choiceSet)) prob ∧
      (e.FactorUsed p complex.choiceSet x.row.choice x.row.wage w m c
          (e.factorUsed p complex.choiceSet x.row.choice x.row.wage w m c) ∧
        prob = e.simulatedProb p complex.choiceSet x.row.choice x.row.wage w m c
          (e.factorUsed p complex.choiceSet x.row.choice x.row.wage w m c)
          (draws.map (shocksOf complex.choiceSet))) ∧
      e.rowLoglike p sp cvs x draws = some ⟨x.row.id, x.row.state.core.period, x.type,
        clip e.lo e.hi (Real.log prob), clip e.lo e.hi (Real.log (densityOf p.cholesky complex.choiceSet
          (fun a => p.measError.getD a 0) w x.row.choice x.row.wage))⟩ := by
  set cs := complex.choiceSet with hcs
  obtain ⟨n, hn⟩ : ∃ n, cs.count true = n + 1 := by
    have := positionIn_lt cs _ ha
    exact ⟨cs.count true - 1, by omega⟩
  have hn' : cs.count true - 1 = n := by omega
  obtain ⟨C', h1', h2, h3'⟩ := observationLoglike_spec e p hqr hch hhi cs n hn x.row.choice x.row.wage w m c ha hrows
    hcols hlow hnw hobs
  have hused : e.FactorUsed p cs x.row.choice x.row.wage w m c (e.factorUsed p cs x.row.choice x.row.wage w m c) :=
    Classical.epsilon_spec (p := e.FactorUsed p cs x.row.choice x.row.wage w m c)
      ⟨C', h1', fun draws hd prob hp => by rw [hn']; exact h3' draws hd prob hp⟩
  obtain ⟨h1, h3⟩ := id hused
  obtain ⟨h4, h5⟩ := h3 draws hdraws _ rfl
  rw [hn'] at h5
  refine ⟨_, h4, h2, ⟨_, h1, rfl⟩, ⟨hused, rfl⟩, ?_⟩
  unfold Estimation.rowLoglike
  simp only [hcomplex, hwages, hnonpecs, hcv, hw, hm, hc, Option.bind_eq_bind, Option.bind_some]
  rw [← hcs, hn', h5]
  rfl

end

end Respy
