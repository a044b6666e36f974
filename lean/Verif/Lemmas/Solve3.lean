import Verif.Lemmas.Solve2
import Verif.Lemmas.Exogenous
import Verif.Lemmas.Emax

/-! Helper lemmas: continuation values with exogenous processes, monotonicity. -/

set_option linter.unusedSectionVars false

namespace Respy

variable {K : Type _} [Field K] [LinearOrder K]

theorem continuationValues_exogenous (ss : SolveSpace) (tr : Dict Nat (List (Nat × List K)))
    (ev : Dict Nat (List K)) (t : Nat) (ht : t + 1 ≠ ss.nPeriods) (reps : Dict Nat (List Bool))
    (hexo : ss.transit = some reps)
    (cvs : Dict Nat (List (List K))) (h : continuationValues ss tr ev t = some cvs)
    (k : Nat) (hk : k ∈ ss.keysOfPeriod t) :
    ∃ raw c n cols a, (∀ f ∈ ss.keysOfPeriod t, Dict.get? raw f =
        continuationArray ss (ss.attributeOfPeriod ev (t + 1)) f) ∧
      Dict.keys raw = ss.keysOfPeriod t ∧
      ss.complexes[k]? = some c ∧ ss.nStates[k]? = some n ∧ Dict.get? tr k = some cols ∧
      weightContinuationValues c.choiceSet reps raw cols n = some a ∧ Dict.get? cvs k = some a := by
  unfold continuationValues at h
  rw [if_neg ht] at h
  obtain ⟨raw, h1, h2⟩ := Option.bind_eq_some_iff.1 h
  simp only [hexo] at h2
  obtain ⟨hkeys1, hget1⟩ := mapM_keyed _ (fun k =>
    continuationArray ss (ss.attributeOfPeriod ev (t + 1)) k) _ h1
  have h2' : ((ss.keysOfPeriod t).mapM fun k => do
      let a ← (do
        let c ← ss.complexes[k]?
        let n ← ss.nStates[k]?
        let tr ← tr.get? k
        weightContinuationValues c.choiceSet reps raw tr n)
      pure (k, a)) = some cvs := by
    rw [← h2]
    apply mapM_congr
    intro k _
    cases ss.complexes[k]? <;> cases ss.nStates[k]? <;> cases Dict.get? tr k <;> rfl
  obtain ⟨hkeys2, hget2⟩ := mapM_keyed _ (fun k => (do
        let c ← ss.complexes[k]?
        let n ← ss.nStates[k]?
        let tr ← tr.get? k
        weightContinuationValues c.choiceSet reps raw tr n)) _ h2'
  have hs : (Dict.get? cvs k).isSome = true := by
    rw [Dict.isSome_get?_iff, hkeys2]; exact hk
  obtain ⟨a, ha⟩ := Option.isSome_iff_exists.1 hs
  have := hget2 k hk
  rw [ha] at this
  obtain ⟨c, hc, this⟩ := Option.bind_eq_some_iff.1 this.symm
  obtain ⟨n, hn, this⟩ := Option.bind_eq_some_iff.1 this
  obtain ⟨cols, hcols, this⟩ := Option.bind_eq_some_iff.1 this
  exact ⟨raw, c, n, cols, a, hget1, hkeys1, hc, hn, hcols, this, ha⟩

section mono
variable [IsStrictOrderedRing K]

theorem forall₂_boolIndex (mask : List Bool) (xs ys a b : List K)
    (h : List.Forall₂ (· ≤ ·) xs ys) (ha : boolIndex mask xs = some a)
    (hb : boolIndex mask ys = some b) : List.Forall₂ (· ≤ ·) a b := by
  unfold boolIndex at ha hb
  split at ha
  · rename_i hl
    rw [if_pos (by rw [hl, h.length_eq])] at hb
    cases ha; cases hb
    clear hl
    induction h generalizing mask with
    | nil => simp
    | cons hxy _ ih =>
      cases mask with
      | nil => simp
      | cons m mask => cases m <;> simp [ih mask, hxy]
  · cases ha

theorem forall₂_zipWith_add (xs ys xs' ys' : List K) (h : List.Forall₂ (· ≤ ·) xs ys)
    (h' : List.Forall₂ (· ≤ ·) xs' ys') :
    List.Forall₂ (· ≤ ·) (List.zipWith (· + ·) xs xs') (List.zipWith (· + ·) ys ys') := by
  induction h generalizing xs' ys' with
  | nil => simp
  | cons hxy _ ih =>
    cases h' with
    | nil => simp
    | cons h1 h2 => exact List.Forall₂.cons (add_le_add hxy h1) (ih _ _ h2)

theorem forall₂_reduceAdd (as bs : List (List K)) (a b : List K)
    (h : List.Forall₂ (List.Forall₂ (· ≤ ·)) as bs) (ha : reduceAdd as = some a)
    (hb : reduceAdd bs = some b) : List.Forall₂ (· ≤ ·) a b := by
  cases h with
  | nil => simp [reduceAdd] at ha
  | cons h0 hrest =>
    simp only [reduceAdd] at ha hb
    split at ha
    · split at hb
      · cases ha; cases hb
        clear * - h0 hrest
        rename_i x y as bs
        induction hrest generalizing x y with
        | nil => exact h0
        | cons h1 _ ih => exact ih (forall₂_zipWith_add _ _ _ _ h0 h1)
      · cases hb
    · cases ha

theorem forall₂_mapM {α β : Type _} (R : β → β → Prop) (l : List α) (f g : α → Option β)
    (a b : List β) (h : ∀ x ∈ l, ∀ y z, f x = some y → g x = some z → R y z)
    (ha : l.mapM f = some a) (hb : l.mapM g = some b) : List.Forall₂ R a b := by
  rw [mapM_eq_some_iff] at ha hb
  induction ha generalizing b with
  | nil => cases hb; exact List.Forall₂.nil
  | cons h1 _ ih =>
    cases hb with
    | cons h2 h3 =>
      exact List.Forall₂.cons (h _ (by simp) _ _ h1 h2)
        (ih _ (fun x hx => h x (List.mem_cons_of_mem _ hx)) h3)

theorem forall₂_map_mul (p : K) (hp : 0 ≤ p) (xs ys : List K) (h : List.Forall₂ (· ≤ ·) xs ys) :
    List.Forall₂ (· ≤ ·) (xs.map (p * ·)) (ys.map (p * ·)) := by
  induction h with
  | nil => exact List.Forall₂.nil
  | cons h _ ih => exact List.Forall₂.cons (mul_le_mul_of_nonneg_left h hp) ih

/-- Pointwise order of matrices. -/
def MatLe (a b : List (List K)) : Prop := List.Forall₂ (List.Forall₂ (· ≤ ·)) a b

theorem weight_mono (cs : List Bool) (reps : Dict Nat (List Bool)) (raw raw' : Dict Nat (List (List K)))
    (cols : List (Nat × List K)) (n : Nat) (a a' : List (List K))
    (hp : ∀ col ∈ cols, ∀ p ∈ col.2, 0 ≤ p)
    (hraw : ∀ f x y, Dict.get? raw f = some x → Dict.get? raw' f = some y → MatLe x y)
    (ha : weightContinuationValues cs reps raw cols n = some a)
    (hb : weightContinuationValues cs reps raw' cols n = some a') : MatLe a a' := by
  refine forall₂_mapM _ _ _ _ _ _ ?_ ha hb
  intro i _ y z hy hz
  obtain ⟨ya, hya, hy⟩ := Option.bind_eq_some_iff.1 hy
  obtain ⟨za, hza, hz⟩ := Option.bind_eq_some_iff.1 hz
  refine forall₂_reduceAdd ya za y z ?_ hy hz
  refine forall₂_mapM _ _ _ _ _ _ ?_ hya hza
  intro col hcol u v hu hv
  obtain ⟨rep, hrep, hu⟩ := Option.bind_eq_some_iff.1 hu
  obtain ⟨mask, hmask, hu⟩ := Option.bind_eq_some_iff.1 hu
  obtain ⟨cv, hcv, hu⟩ := Option.bind_eq_some_iff.1 hu
  obtain ⟨row, hrow, hu⟩ := Option.bind_eq_some_iff.1 hu
  obtain ⟨adj, hadj, hu⟩ := Option.bind_eq_some_iff.1 hu
  obtain ⟨p, hpi, hu⟩ := Option.bind_eq_some_iff.1 hu
  obtain ⟨rep', hrep', hv⟩ := Option.bind_eq_some_iff.1 hv
  rw [hrep] at hrep'; cases hrep'
  obtain ⟨mask', hmask', hv⟩ := Option.bind_eq_some_iff.1 hv
  rw [hmask] at hmask'; cases hmask'
  obtain ⟨cv', hcv', hv⟩ := Option.bind_eq_some_iff.1 hv
  obtain ⟨row', hrow', hv⟩ := Option.bind_eq_some_iff.1 hv
  obtain ⟨adj', hadj', hv⟩ := Option.bind_eq_some_iff.1 hv
  obtain ⟨p', hpi', hv⟩ := Option.bind_eq_some_iff.1 hv
  rw [hpi] at hpi'; cases hpi'
  simp only [Option.pure_def, Option.some.injEq] at hu hv
  subst hu; subst hv
  apply forall₂_map_mul p (hp col hcol p (List.mem_of_getElem? hpi))
  refine forall₂_boolIndex mask row row' adj adj' ?_ hadj hadj'
  obtain ⟨r2, hr2, hle⟩ := forall₂_getElem? (hraw _ _ _ hcv hcv') i row hrow
  rw [hrow'] at hr2; cases hr2
  exact hle

theorem continuationArray_mono (ss : SolveSpace) (ev ev' : Dict Nat (List K)) (k : Nat)
    (a a' : List (List K))
    (h : ∀ f x y, Dict.get? ev f = some x → Dict.get? ev' f = some y → List.Forall₂ (· ≤ ·) x y)
    (ha : continuationArray ss ev k = some a) (hb : continuationArray ss ev' k = some a') :
    MatLe a a' := by
  unfold continuationArray at ha hb
  obtain ⟨c, hc, ha⟩ := Option.bind_eq_some_iff.1 ha
  obtain ⟨cs, hcs, ha⟩ := Option.bind_eq_some_iff.1 ha
  obtain ⟨n, hn, ha⟩ := Option.bind_eq_some_iff.1 ha
  obtain ⟨ch, hch, ha⟩ := Option.bind_eq_some_iff.1 ha
  simp only [hc, hcs, hn, hch, Option.bind_eq_bind, Option.bind_some] at hb
  refine forall₂_mapM _ _ _ _ _ _ ?_ ha hb
  intro i _ y z hy hz
  refine forall₂_mapM _ _ _ _ _ _ ?_ hy hz
  intro j _ u v hu hv
  obtain ⟨cr, hcr, hu⟩ := Option.bind_eq_some_iff.1 hu
  obtain ⟨child, hchild, hu⟩ := Option.bind_eq_some_iff.1 hu
  obtain ⟨dk, hdk, hu⟩ := Option.bind_eq_some_iff.1 hu
  obtain ⟨vals, hvals, hu⟩ := Option.bind_eq_some_iff.1 hu
  simp only [hcr, hchild, hdk, Option.bind_some] at hv
  obtain ⟨vals', hvals', hv⟩ := Option.bind_eq_some_iff.1 hv
  obtain ⟨v2, hv2, hle⟩ := forall₂_getElem? (h dk _ _ hvals hvals') child.2 u hu
  rw [hv] at hv2; cases hv2
  exact hle

/-- Continuation values are monotone in the expected value functions of the next period. -/
theorem continuationValues_mono (ss : SolveSpace) (tr : Dict Nat (List (Nat × List K)))
    (hp : ∀ k cols, Dict.get? tr k = some cols → ∀ col ∈ cols, ∀ p ∈ col.2, 0 ≤ p)
    (ev ev' : Dict Nat (List K)) (t : Nat) (cvs cvs' : Dict Nat (List (List K)))
    (hev : ∀ k ∈ ss.keysOfPeriod (t + 1), ∀ x y, Dict.get? ev k = some x →
      Dict.get? ev' k = some y → List.Forall₂ (· ≤ ·) x y)
    (h : continuationValues ss tr ev t = some cvs) (h' : continuationValues ss tr ev' t = some cvs')
    (k : Nat) (hk : k ∈ ss.keysOfPeriod t) (a a' : List (List K))
    (ha : Dict.get? cvs k = some a) (ha' : Dict.get? cvs' k = some a') : MatLe a a' := by
  have hnext : ∀ f x y, Dict.get? (ss.attributeOfPeriod ev (t + 1)) f = some x →
      Dict.get? (ss.attributeOfPeriod ev' (t + 1)) f = some y → List.Forall₂ (· ≤ ·) x y := by
    intro f x y hx hy
    rw [get?_attributeOfPeriod] at hx hy
    split at hx
    · rename_i hf
      rw [if_pos hf] at hy
      exact hev f hf x y hx hy
    · cases hx
  by_cases ht : t + 1 = ss.nPeriods
  · obtain ⟨c, hc, hct⟩ := (mem_keysOfPeriod _ _ _).1 hk
    obtain ⟨n, hn, hg⟩ := continuationValues_last ss tr ev t ht cvs h k c hc hct
    obtain ⟨n', hn', hg'⟩ := continuationValues_last ss tr ev' t ht cvs' h' k c hc hct
    rw [hn] at hn'; cases hn'
    rw [ha] at hg; rw [ha'] at hg'
    cases hg; cases hg'
    unfold MatLe
    rw [List.forall₂_same]
    intro x _
    rw [List.forall₂_same]
    exact fun _ _ => le_rfl
  · cases hexo : ss.transit with
    | none =>
      obtain ⟨b, hb, hg⟩ := continuationValues_inner ss tr ev t ht hexo cvs h k hk
      obtain ⟨b', hb', hg'⟩ := continuationValues_inner ss tr ev' t ht hexo cvs' h' k hk
      rw [ha] at hg; rw [ha'] at hg'
      cases hg; cases hg'
      exact continuationArray_mono ss _ _ k a a' hnext hb hb'
    | some reps =>
      obtain ⟨raw, c, n, cols, b, hraw, hrk, hc, hn, hcols, hb, hg⟩ :=
        continuationValues_exogenous ss tr ev t ht reps hexo cvs h k hk
      obtain ⟨raw', c', n', cols', b', hraw', hrk', hc', hn', hcols', hb', hg'⟩ :=
        continuationValues_exogenous ss tr ev' t ht reps hexo cvs' h' k hk
      rw [hc] at hc'; cases hc'
      rw [hn] at hn'; cases hn'
      rw [hcols] at hcols'; cases hcols'
      rw [ha] at hg; rw [ha'] at hg'
      cases hg; cases hg'
      refine weight_mono c.choiceSet reps raw raw' cols n a a' (hp k cols hcols) ?_ hb hb'
      intro f x y hx hy
      have hf : f ∈ ss.keysOfPeriod t := by
        rw [← hrk, ← Dict.isSome_get?_iff, hx]; rfl
      rw [hraw f hf] at hx
      rw [hraw' f hf] at hy
      exact continuationArray_mono ss _ _ f x y hnext hx hy

theorem valueFunctions_mono (delta : K) (hd : 0 ≤ delta) (w m m' c c' d : List K)
    (hm : List.Forall₂ (· ≤ ·) m m') (hc : List.Forall₂ (· ≤ ·) c c') (j : Nat) (v : K)
    (hv : (valueFunctions delta w m c d)[j]? = some v) :
    ∃ v', (valueFunctions delta w m' c' d)[j]? = some v' ∧ v ≤ v' + 0 := by
  induction w generalizing m m' c c' d j with
  | nil => simp [valueFunctions] at hv
  | cons w0 w ih =>
    cases hm with
    | nil => simp [valueFunctions] at hv
    | cons h1 h2 =>
      cases hc with
      | nil => simp [valueFunctions] at hv
      | cons h3 h4 =>
        cases d with
        | nil => simp [valueFunctions] at hv
        | cons d0 d =>
          simp only [valueFunctions] at hv ⊢
          cases j with
          | zero =>
            simp only [List.getElem?_cons_zero, Option.some.injEq] at hv
            refine ⟨_, by rw [List.getElem?_cons_zero], ?_⟩
            rw [← hv]
            simp only [kwUtility, add_zero]
            have := mul_le_mul_of_nonneg_left h3 hd
            linarith
          | succ j =>
            simp only [List.getElem?_cons_succ] at hv ⊢
            exact ih _ _ _ _ _ h2 h4 j hv

theorem emax_mono (delta : K) (hd : 0 ≤ delta) (w m m' c c' : List K) (draws : List (List K))
    (hm : List.Forall₂ (· ≤ ·) m m') (hc : List.Forall₂ (· ≤ ·) c c') :
    emax w m c draws delta ≤ emax w m' c' draws delta := by
  have := emax_le_emax_add w m c m' c' draws delta 0 le_rfl
    fun d _ j v hv => valueFunctions_mono delta hd w m m' c c' d hm hc j v hv
  simpa using this

theorem fullSolution_mono (ss : SolveSpace) (par par' : ParamObjects K)
    (hw : par'.wages = par.wages) (hdr : par'.draws = par.draws) (hde : par'.delta = par.delta)
    (hdelta : 0 ≤ par.delta) (cvs cvs' : Dict Nat (List (List K))) (k n : Nat)
    (hn : ss.nStates[k]? = some n) (vs vs' : List K)
    (hcv : ∀ a a', Dict.get? cvs k = some a → Dict.get? cvs' k = some a' → MatLe a a')
    (hnp : ∀ a b, Dict.get? par.nonpecs k = some a → Dict.get? par'.nonpecs k = some b → MatLe a b)
    (h : fullSolution ss par cvs k = some vs) (h' : fullSolution ss par' cvs' k = some vs') :
    List.Forall₂ (· ≤ ·) vs vs' := by
  unfold fullSolution at h h'
  simp only [hn, hw, hdr, hde, Option.bind_eq_bind, Option.bind_some] at h h'
  obtain ⟨wages, e1, h⟩ := Option.bind_eq_some_iff.1 h
  obtain ⟨nonpecs, e2, h⟩ := Option.bind_eq_some_iff.1 h
  obtain ⟨cv, e3, h⟩ := Option.bind_eq_some_iff.1 h
  obtain ⟨draws, e4, h⟩ := Option.bind_eq_some_iff.1 h
  obtain ⟨wages', e1', h'⟩ := Option.bind_eq_some_iff.1 h'
  obtain ⟨nonpecs', e2', h'⟩ := Option.bind_eq_some_iff.1 h'
  obtain ⟨cv', e3', h'⟩ := Option.bind_eq_some_iff.1 h'
  obtain ⟨draws', e4', h'⟩ := Option.bind_eq_some_iff.1 h'
  rw [e1] at e1'; cases e1'
  rw [e4] at e4'; cases e4'
  refine forall₂_mapM _ _ _ _ _ _ ?_ h h'
  intro i _ y z hy hz
  obtain ⟨w, f1, hy⟩ := Option.bind_eq_some_iff.1 hy
  obtain ⟨m, f2, hy⟩ := Option.bind_eq_some_iff.1 hy
  obtain ⟨c, f3, hy⟩ := Option.bind_eq_some_iff.1 hy
  obtain ⟨w', f1', hz⟩ := Option.bind_eq_some_iff.1 hz
  obtain ⟨m', f2', hz⟩ := Option.bind_eq_some_iff.1 hz
  obtain ⟨c', f3', hz⟩ := Option.bind_eq_some_iff.1 hz
  rw [f1] at f1'; cases f1'
  obtain ⟨m2, hm2, hmm⟩ := forall₂_getElem? (hnp _ _ e2 e2') i m f2
  obtain ⟨c2, hc2, hcc⟩ := forall₂_getElem? (hcv _ _ e3 e3') i c f3
  rw [f2'] at hm2; cases hm2
  rw [f3'] at hc2; cases hc2
  unfold emax? at hy hz
  split at hy
  · split at hz
    · cases hy; cases hz
      exact emax_mono par.delta hdelta w m m' c c' draws hmm hcc
    · cases hz
  · cases hy

end mono
end Respy
