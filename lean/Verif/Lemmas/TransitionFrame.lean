import Verif.Model.TransitionFrame
import Verif.Lemmas.EndToEndExogenous
import Verif.Spec.Transition

/-! Helper lemmas: transition frames. -/

namespace Respy

theorem exogenousIndices_eq (ep : ExogenousParams) (row : StateRow ℝ)
    (h : ∀ levels ∈ ep, ∀ beta ∈ levels, ∀ item ∈ beta, (row item.1).isSome) :
    exogenousIndices ep row = some (ep.map fun levels => levels.map (linearIndex row)) := by
  apply mapM_some_map
  intro levels hl
  apply mapM_some_map
  intro beta hb
  exact pandasDot_eq row beta (h levels hl beta hb)

theorem selectedProduct_softmax (xbetas : List (List ℝ)) (e : List Nat) :
    selectedProduct (xbetas.map softmax) e = (List.zipWith logitProbability xbetas e).prod := by
  unfold selectedProduct
  congr 1
  rw [List.zipWith_map_left]
  congr 1
  funext xs v
  unfold softmax logitProbability
  rw [List.getElem?_map]
  cases xs[v]? <;> rfl

theorem transitionEntry_eq (ep : ExogenousParams) (row : StateRow ℝ) (static e : List Nat)
    (h : ∀ levels ∈ ep, ∀ beta ∈ levels, ∀ item ∈ beta, (row item.1).isSome)
    (he : e ∈ exogenousGrid (ep.map List.length)) :
    transitionEntry ep (static ++ e) row = some (levelProbability ep row e) := by
  unfold transitionEntry
  rw [exogenousIndices_eq ep row h, Option.bind_eq_bind, Option.bind_some]
  rw [mem_exogenousGrid] at he
  have hlen : e.length = ep.length := by rw [he.length_eq]; simp
  rw [exogenousPart_append ep.length static e hlen]
  rw [pointProbability_eq, selectedProduct_softmax]
  · rfl
  · have : ((ep.map fun levels => levels.map (linearIndex row)).map softmax).map
        (fun ps => List.range ps.length) = (ep.map List.length).map List.range := by
      simp [softmax, Function.comp_def]
    rw [this]; exact he

/-- The transition frames of a well-formed model exist and belong to the state space. -/
theorem SolveInput.transitions_fit (inp : SolveInput ℝ) (ep : ExogenousParams) (b : BuildSpec)
    (core : List CoreState) (wf : b.WF core) (static : List (List Nat)) (hx : b.ExogWF static)
    (hep : ep.map List.length = b.exogLevels)
    (hcov : ∀ levels ∈ ep, ∀ beta ∈ levels, ∀ item ∈ beta, ∀ d ∈ b.denseIndices, ∀ s ∈ core,
      (inp.covariates d s item.1).isSome)
    (bt : Built) (reps : Dict Nat (List Bool)) (hsnd : bt.Sound b core (some reps))
    (hdpc : b.densePeriodCores core (corePeriodChoice b.restrCore core) = some bt.dpc) :
    ∃ transition, inp.transitions ep b bt = some transition ∧
      TransitionFit b bt transition fun d s e => levelProbability ep (inp.covariates d s) e := by
  obtain ⟨grid, hg⟩ : ∃ grid, b.grid = some grid := ⟨_, hx.grid⟩
  obtain ⟨transit, _, _, htk⟩ := transitKeysOf_all b core wf.grouped static hx grid hg bt.dpc hdpc
  have hlen : ep.length = b.exogLevels.length := by rw [← hep]; simp
  have hone : ∀ (k : Nat) c ck sts, bt.dpc[k]? = some (c, ck) → bt.states[k]? = some sts →
      ∃ cols, inp.transitionsOfKey ep b bt grid (((c, ck), k), sts) = some (k, cols) ∧
        List.Forall₂ (fun e col =>
          bt.space.lookup.get? (ck, (b.successor c.dense e).getD 0) = some col.1 ∧
          col.2 = sts.map fun s => levelProbability ep (inp.covariates c.dense s) e)
          (exogenousGrid b.exogLevels) cols := by
    intro k c ck sts hk hsts
    obtain ⟨ck', sts', a1, a2, hd, _, _, hall, _⟩ := hsnd.item k c
      (by rw [hsnd.complexes, List.getElem?_map, hk]; rfl)
    rw [hsts] at a2; cases a2
    obtain ⟨d, hcd, hlt⟩ := (mem_denseIndices hg _).1 hd
    obtain ⟨keys, hkeys, hf⟩ := transitKeysOf_one b core wf.grouped static hx grid hg bt.dpc hdpc k c ck hk
    have hpt := List.getElem?_eq_getElem hlt
    -- the future covariates
    have hcovs : List.Forall₂ (fun e f => e ∈ exogenousGrid b.exogLevels ∧
        bt.space.lookup.get? (ck, (b.successor c.dense e).getD 0) = some f ∧
        bt.covariatesOf grid f = some (staticPart b.exogLevels.length grid[d] ++ e))
        (exogenousGrid b.exogLevels) keys := by
      refine (forall₂_and_left hf (P := fun e => e ∈ exogenousGrid b.exogLevels)
        (fun e he => he)).imp ?_
      rintro e f ⟨⟨d', h1, h2, c', h3, h4, _⟩, he⟩
      refine ⟨he, by rw [h1, hsnd.lookup]; exact h2, ?_⟩
      obtain ⟨d'', g1, _, _, g4⟩ := hx.successor_spec hg d _ hpt e he
      rw [hcd, g1] at h1; cases h1
      simp only [Built.covariatesOf, h3, Option.bind_eq_bind, Option.bind_some, h4, g4]
    have hnd : keys.Nodup := by
      apply nodup_of_getElem?
      intro i j f hi hj
      obtain ⟨e1, h1, _, _, h2⟩ := forall₂_getElem? hcovs.flip i f hi
      obtain ⟨e2, h3, _, _, h4⟩ := forall₂_getElem? hcovs.flip j f hj
      rw [h2, Option.some.injEq, List.append_cancel_left_eq] at h4
      subst h4
      have hgn : (exogenousGrid b.exogLevels).Nodup := by
        apply product_nodup
        intro l hl
        obtain ⟨n, _, rfl⟩ := List.mem_map.1 hl
        exact List.nodup_range
      exact (List.getElem?_inj (List.getElem?_eq_some_iff.1 h1).1 hgn).1 (h1.trans h3.symm)
    have herase : keys.eraseDups = keys := eraseDups_of_nodup keys hnd
    obtain ⟨cols, hcols, _, hcg⟩ := mapM_option_exists keys (fun f => (do
        let covariates ← bt.covariatesOf grid f
        let column ← (sts.map (inp.covariates c.dense)).mapM (transitionEntry ep covariates)
        pure (f, column))) (fun f hf' => by
          obtain ⟨j, hj⟩ := List.mem_iff_getElem?.1 hf'
          obtain ⟨e, _, he, _, h2⟩ := forall₂_getElem? hcovs.flip j f hj
          refine ⟨(f, (sts.map (inp.covariates c.dense)).map fun row => levelProbability ep row e), ?_⟩
          rw [h2]
          simp only [Option.bind_eq_bind, Option.bind_some]
          rw [mapM_some_map _ _ (fun row => levelProbability ep row e)]
          · rfl
          · intro row hr
            obtain ⟨s, hs, rfl⟩ := List.mem_map.1 hr
            apply transitionEntry_eq
            · intro levels hl beta hb item hi
              exact hcov levels hl beta hb item hi c.dense hd s (hall s hs).1
            · rw [hep]; exact he)
    refine ⟨cols, ?_, ?_⟩
    · simp only [SolveInput.transitionsOfKey, hkeys, Option.bind_eq_bind, Option.bind_some,
        transitionFrame, herase]
      rw [show (keys.mapM fun k => (bt.covariatesOf grid k).bind fun covariates =>
        (List.mapM (transitionEntry ep covariates) (List.map (inp.covariates c.dense) sts)).bind
          fun column => pure (k, column)) = some cols from hcols]
      rfl
    · rw [List.forall₂_iff_get]
      refine ⟨by rw [hcovs.length_eq, ((mapM_eq_some_iff _ _ _).1 hcols).length_eq], ?_⟩
      intro i h1 h2
      have hik : i < keys.length := by rw [← hcovs.length_eq]; exact h1
      obtain ⟨f, hf1, he, hl, hc⟩ := forall₂_getElem? hcovs i _ (List.getElem?_eq_getElem h1)
      obtain ⟨col, hc1, hc2⟩ := hcg i f hf1
      have hcol : cols[i] = col := by
        rw [List.getElem?_eq_getElem h2] at hc1; exact Option.some.inj hc1
      simp only [List.get_eq_getElem, hcol]
      rw [hc] at hc2
      simp only [Option.bind_eq_bind, Option.bind_some] at hc2
      rw [mapM_some_map _ _ (fun row => levelProbability ep row (exogenousGrid b.exogLevels)[i])] at hc2
      · simp only [Option.bind_some, Option.pure_def, Option.some.injEq] at hc2
        subst hc2
        exact ⟨hl, by simp⟩
      · intro row hr
        obtain ⟨s, hs, rfl⟩ := List.mem_map.1 hr
        apply transitionEntry_eq
        · intro levels hl beta hb item hi
          exact hcov levels hl beta hb item hi c.dense hd s (hall s hs).1
        · rw [hep]; exact he
  obtain ⟨transition, htr, _, hget⟩ := mapM_option_exists (bt.dpc.zipIdx.zip bt.states)
    (inp.transitionsOfKey ep b bt grid) (by
      rintro ⟨⟨⟨c, ck⟩, k⟩, sts⟩ hm
      obtain ⟨i, hi⟩ := List.mem_iff_getElem?.1 hm
      rw [List.getElem?_zip_eq_some, List.getElem?_zipIdx, Option.map_eq_some_iff] at hi
      obtain ⟨⟨kv, h1, h2⟩, h3⟩ := hi
      simp only [Nat.zero_add, Prod.mk.injEq] at h2
      obtain ⟨rfl, rfl⟩ := h2
      obtain ⟨cols, hc, _⟩ := hone i c ck sts h1 h3
      exact ⟨_, hc⟩)
  refine ⟨transition, by rw [SolveInput.transitions, hg]; exact htr, ?_⟩
  intro k c ck sts hk hsts
  obtain ⟨cols, hc, hf⟩ := hone k c ck sts hk hsts
  refine ⟨cols, ?_, hf⟩
  obtain ⟨y, h1, h2⟩ := hget k (((c, ck), k), sts) (by
    rw [List.getElem?_zip_eq_some, List.getElem?_zipIdx, hk]
    exact ⟨by simp, hsts⟩)
  rw [hc] at h2; cases h2
  rw [get?_of_positions transition _ k (k, cols) h1]
  intro i kv hi
  have hlt := (List.getElem?_eq_some_iff.1 hi).1
  have hl := ((mapM_eq_some_iff _ _ _).1 htr).length_eq
  rw [← hl] at hlt
  obtain ⟨y, h3, h4⟩ := hget i _ (List.getElem?_eq_getElem hlt)
  rw [hi] at h3; cases h3
  obtain ⟨keys, _, h4⟩ := Option.bind_eq_some_iff.1 h4
  obtain ⟨frame, _, h4⟩ := Option.bind_eq_some_iff.1 h4
  simp only [Option.pure_def, Option.some.injEq] at h4
  subst h4
  simp

end Respy
