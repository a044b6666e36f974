import Verif.Lemmas.MapM
import Verif.Props.Core
import Verif.Model.FormerCode
import Verif.Spec.Reachable

/-!
# C105: state spaces with the filters of Keane and Wolpin are the reachable states
-/

namespace Respy

/-! ### Sums of experiences -/

theorem sum_updateExp (l : List Nat) (c : Nat) : (updateExp l c).sum = l.sum + if c < l.length then 1 else 0 := by
  induction l generalizing c with
  | nil => simp [updateExp]
  | cons a l ih =>
    cases c with
    | zero => rw [updateExp_cons_zero]; simp; omega
    | succ c => rw [updateExp_cons_succ]; simp [ih c]; omega

theorem getElem_le_sum (l : List Nat) (c x : Nat) (h : l[c]? = some x) : x ≤ l.sum :=
  le_sum_of_mem l x (List.mem_of_getElem? h)

theorem two_le_sum (l : List Nat) (c d x y : Nat) (hcd : c ≠ d) (hc : l[c]? = some x) (hd : l[d]? = some y) :
    x + y ≤ l.sum := by
  induction l generalizing c d with
  | nil => simp at hc
  | cons a l ih =>
    cases c with
    | zero =>
      cases d with
      | zero => exact absurd rfl hcd
      | succ d =>
        have := getElem_le_sum l d y (by simpa using hd)
        have : a = x := by simpa using hc
        simp; omega
    | succ c =>
      cases d with
      | zero =>
        have := getElem_le_sum l c x (by simpa using hc)
        have : a = y := by simpa using hd
        simp; omega
      | succ d =>
        have := ih c d (by omega) (by simpa using hc) (by simpa using hd)
        simp; omega

theorem exists_pos_of_sum (l : List Nat) (h : 0 < l.sum) : ∃ c x : Nat, l[c]? = some x ∧ 0 < x := by
  induction l with
  | nil => simp at h
  | cons a l ih =>
    by_cases ha : 0 < a
    · exact ⟨0, a, rfl, ha⟩
    · obtain ⟨c, x, h1, h2⟩ := ih (by simp at h; omega)
      exact ⟨c + 1, x, h1, h2⟩

/-- Experiences before the choice `c`. -/
def removeYear (l : List Nat) (c : Nat) : List Nat := l.mapIdx fun i e => e - if c = i then 1 else 0

theorem removeYear_getElem? (l : List Nat) (c i : Nat) :
    (removeYear l c)[i]? = l[i]?.map (· - if c = i then 1 else 0) := by
  simp [removeYear, List.getElem?_mapIdx]

theorem updateExp_removeYear (l : List Nat) (c : Nat) (h : l[c]? ≠ some 0) : updateExp (removeYear l c) c = l := by
  apply List.ext_getElem?
  intro i
  rw [updateExp_getElem?, removeYear_getElem?]
  cases hi : l[i]? with
  | none => rfl
  | some x =>
    by_cases hci : c = i
    · subst hci
      have : x ≠ 0 := fun h0 => h (by rw [hi, h0])
      simp; omega
    · simp [hci]

theorem zipWith_updateExp (init extra : List Nat) (c : Nat) :
    updateExp (List.zipWith (· + ·) init extra) c = List.zipWith (· + ·) init (updateExp extra c) := by
  apply List.ext_getElem?
  intro i
  rw [updateExp_getElem?, List.getElem?_zipWith, List.getElem?_zipWith, updateExp_getElem?]
  cases hi : init[i]? with
  | none => rfl
  | some x =>
    cases he : extra[i]? with
    | none => rfl
    | some y => simp [Nat.add_assoc]

theorem updateExp_eq (l : List Nat) (c : Nat) :
    (l.mapIdx fun i e => if i = c then e + 1 else e) = updateExp l c := by
  apply List.ext_getElem?
  intro i
  rw [updateExp_getElem?, List.getElem?_mapIdx]
  by_cases h : i = c
  · subst h; simp
  · simp [h, Ne.symm h]

/-! ### The filters -/

/-- What the filters leave: in the first period nobody has worked; afterwards the previous choice has given experience if
it is a choice with experience, and otherwise not all years have given experience. -/
structure KeptState (nWage nExp t : Nat) (extra : List Nat) (lag : Nat) : Prop where
  first : t = 0 → nWage ≤ lag
  only : 0 < t → ∀ c < nExp, extra[c]? = some t → lag = c
  without : 0 < t → nExp ≤ lag → extra.sum ≠ t
  gained : 0 < t → lag < nExp → extra[lag]? ≠ some 0

theorem keaneWolpinFilters_iff (nWage nExp nChoices t : Nat) (extra : List Nat) (lag : Nat) (hw : nWage ≤ nExp)
    (hl : lag < nChoices) :
    (∀ f ∈ keaneWolpinFilters nWage nExp nChoices, f ⟨t, extra, [some lag]⟩ = false) ↔
      KeptState nWage nExp t extra lag := by
  unfold keaneWolpinFilters
  simp only [List.forall_mem_append, List.forall_mem_map, List.mem_range, List.mem_range'_1, CoreState.lagIs,
    List.getElem?_cons_zero, Option.some.injEq, Bool.and_eq_false_iff, decide_eq_false_iff_not, Bool.not_eq_false',
    decide_eq_true_eq]
  constructor
  · rintro ⟨⟨⟨⟨h1, h2⟩, h3⟩, h4⟩, h5⟩
    refine ⟨fun h => ?_, fun h c hc he => ?_, fun h hlag he => ?_, fun h hlag he => ?_⟩
    · by_contra hlt
      rcases h5 lag (by omega) with h | h <;> omega
    · rcases h1 c hc with (h' | h') | h'
      · omega
      · exact absurd he h'
      · exact h'
    · rcases h2 lag ⟨hlag, by omega⟩ with (h' | h') | h'
      · omega
      · exact h' he
      · exact h' rfl
    · by_cases hlw : lag < nWage
      · rcases h4 lag hlw with h' | h'
        · exact h' rfl
        · exact h' he
      · rcases h3 lag ⟨by omega, by omega⟩ with (h' | h') | h'
        · omega
        · exact h' rfl
        · exact h' he
  · rintro ⟨h1, h2, h3, h4⟩
    by_cases ht : 0 < t
    · refine ⟨⟨⟨⟨fun c hc => ?_, fun c hc => ?_⟩, fun c hc => ?_⟩, fun c hc => ?_⟩, fun c hc => Or.inl (by omega)⟩
      · by_cases he : extra[c]? = some t
        · exact Or.inr (h2 ht c hc he)
        · exact Or.inl (Or.inr he)
      · by_cases he : lag = c
        · subst he; exact Or.inl (Or.inr (h3 ht hc.1))
        · exact Or.inr he
      · by_cases he : lag = c
        · subst he; exact Or.inr (h4 ht (by omega))
        · exact Or.inl (Or.inr he)
      · by_cases he : lag = c
        · subst he; exact Or.inr (h4 ht (by omega))
        · exact Or.inl he
    · have := h1 (by omega)
      refine ⟨⟨⟨⟨fun c hc => Or.inl (Or.inl ht), fun c hc => Or.inl (Or.inl ht)⟩, fun c hc => Or.inl (Or.inl ht)⟩,
        fun c hc => Or.inl ?_⟩, fun c hc => Or.inr ?_⟩ <;> omega

/-! ### Reachable states -/

/-- With one lag and the filters of Keane and Wolpin. -/
theorem mem_filtered_core (spec : CoreSpec) (wf : spec.WF) (nWage : Nat) (kw : spec.KeaneWolpin nWage)
    (core : List CoreState) (hc : createCore spec = some core) (s : CoreState) :
    s ∈ core ↔ s.period < spec.nPeriods ∧ List.Forall₂ (· ≤ ·) s.exp spec.maxExp ∧
      ∃ lag < spec.nChoices, s.lags = [some lag] ∧ ∃ init extra : List Nat,
        List.Forall₂ (· ∈ ·) init spec.starts ∧ extra.length = spec.starts.length ∧
        s.exp = List.zipWith (· + ·) init extra ∧ extra.sum ≤ s.period ∧
        KeptState nWage spec.starts.length s.period extra lag := by
  have hl := kw.lags
  have hw := kw.wage
  rw [C05_core_mem_iff spec wf (by omega) core hc, hl]
  constructor
  · rintro ⟨h1, ⟨init, extra, h2, h3, h4, h5, h6⟩, h7, h8, h9⟩
    obtain ⟨l, hls⟩ := List.length_eq_one_iff.1 h8
    obtain ⟨lag, hlag, rfl⟩ := h9 l (by rw [hls]; exact List.mem_singleton.2 rfl)
    refine ⟨h1, h7, lag, hlag, hls, init, extra, h2, h3, h4, h5, ?_⟩
    refine (keaneWolpinFilters_iff nWage _ spec.nChoices s.period extra lag hw hlag).1
      ((kw.filters _ _ _ h3 hlag).1 fun f hfm => ?_)
    have := h6 f hfm
    rwa [hls] at this
  · rintro ⟨h1, h7, lag, hlag, hls, init, extra, h2, h3, h4, h5, h6⟩
    refine ⟨h1, ⟨init, extra, h2, h3, h4, h5, fun f hfm => ?_⟩, h7, by rw [hls]; rfl, ?_⟩
    · rw [hls]
      exact (kw.filters _ _ _ h3 hlag).2
        ((keaneWolpinFilters_iff nWage _ spec.nChoices s.period extra lag hw hlag).2 h6) f hfm
    · rw [hls]
      intro l hl'
      exact ⟨lag, hlag, List.mem_singleton.1 hl'⟩

theorem zipWith_add_zero (init extra : List Nat) (h : extra.length = init.length) (hs : extra.sum = 0) :
    List.zipWith (· + ·) init extra = init := by
  induction init generalizing extra with
  | nil => simp
  | cons x xs ih =>
    match extra, h with
    | y :: ys, h =>
      simp only [List.sum_cons, Nat.add_eq_zero_iff] at hs
      simp only [List.zipWith_cons_cons, hs.1, Nat.add_zero, ih ys (by simpa using h) hs.2]

theorem forall₂_le_updateExp (e m : List Nat) (h : List.Forall₂ (· ≤ ·) e m) (c : Nat)
    (hc : ∀ x y, e[c]? = some x → m[c]? = some y → x < y) : List.Forall₂ (· ≤ ·) (updateExp e c) m := by
  rw [List.forall₂_iff_get] at h ⊢
  refine ⟨by rw [length_updateExp, h.1], fun i h1 h2 => ?_⟩
  have h1' : i < e.length := by rwa [length_updateExp] at h1
  have hle := h.2 i h1' h2
  have hget : (updateExp e c)[i]? = some (e[i] + if c = i then 1 else 0) := by
    rw [updateExp_getElem?, List.getElem?_eq_getElem h1']; rfl
  have : (updateExp e c).get ⟨i, h1⟩ = e[i] + if c = i then 1 else 0 :=
    Option.some.inj ((List.getElem?_eq_getElem h1).symm.trans hget)
  rw [this]
  simp only [List.get_eq_getElem] at hle ⊢
  by_cases hci : c = i
  · subst hci
    have := hc _ _ (List.getElem?_eq_getElem h1') (List.getElem?_eq_getElem h2)
    simp; omega
  · simp [hci]; exact hle

theorem forall₂_le_of_updateExp {e m : List Nat} {c : Nat} (h : List.Forall₂ (· ≤ ·) (updateExp e c) m) :
    List.Forall₂ (· ≤ ·) e m := by
  rw [List.forall₂_iff_get] at h ⊢
  refine ⟨by rw [← h.1, length_updateExp], fun i i1 i2 => ?_⟩
  have i1' : i < (updateExp e c).length := by rwa [length_updateExp]
  have hle := h.2 i i1' i2
  have hget := List.getElem?_eq_getElem i1'
  rw [updateExp_getElem?, List.getElem?_eq_getElem i1] at hget
  have hval := Option.some.inj hget
  simp only [List.get_eq_getElem] at hle ⊢
  exact (Nat.le_add_right _ _).trans (hval.trans_le hle)

/-- The state after a choice is kept. -/
theorem KeptState.step {nWage nExp t : Nat} {extra : List Nat} (hlen : extra.length = nExp) (hsum : extra.sum ≤ t)
    (c : Nat) : KeptState nWage nExp (t + 1) (updateExp extra c) c := by
  refine ⟨fun h => by omega, fun _ i hi hx => ?_, fun _ hc hs => ?_, fun _ hc h0 => ?_⟩
  · by_contra hci
    rw [updateExp_getElem?] at hx
    obtain ⟨x, hx1, hx2⟩ := Option.map_eq_some_iff.1 hx
    have := getElem_le_sum _ _ _ hx1
    simp [hci] at hx2
    omega
  · rw [sum_updateExp, if_neg (by omega)] at hs
    omega
  · rw [updateExp_getElem?] at h0
    obtain ⟨x, _, hx2⟩ := Option.map_eq_some_iff.1 h0
    simp at hx2

/-- Each state but the first ones has a predecessor. -/
theorem KeptState.pred {nWage nExp nChoices t : Nat} {extra : List Nat} {c : Nat} (hlen : extra.length = nExp)
    (hw : nWage ≤ nExp) (hn : nExp < nChoices) (hsum : extra.sum ≤ t + 1)
    (h : KeptState nWage nExp (t + 1) extra c) :
    ∃ (extra' : List Nat) (lag : Nat), lag < nChoices ∧ extra'.length = nExp ∧ updateExp extra' c = extra ∧
      extra'.sum ≤ t ∧ KeptState nWage nExp t extra' lag := by
  obtain ⟨extra', h1, h2, h3⟩ : ∃ extra' : List Nat, extra'.length = nExp ∧ updateExp extra' c = extra ∧
      extra'.sum ≤ t := by
    by_cases hc : c < nExp
    · refine ⟨removeYear extra c, by simp [removeYear, hlen], updateExp_removeYear _ _ (h.gained (by omega) hc), ?_⟩
      have := sum_updateExp (removeYear extra c) c
      rw [updateExp_removeYear _ _ (h.gained (by omega) hc), if_pos (by simp [removeYear]; omega)] at this
      omega
    · refine ⟨extra, hlen, ?_, ?_⟩
      · apply List.ext_getElem?
        intro i
        rw [updateExp_getElem?]
        cases hi : extra[i]? with
        | none => rfl
        | some x =>
          have := (List.getElem?_eq_some_iff.1 hi).1
          have : c ≠ i := by omega
          simp [this]
      · have := h.without (by omega) (by omega)
        omega
  by_cases ht : t = 0
  · exact ⟨extra', nExp, hn, h1, h2, h3, fun _ => hw, fun h => by omega, fun h => by omega, fun h => by omega⟩
  · by_cases hs : extra'.sum < t
    · refine ⟨extra', nExp, hn, h1, h2, h3, fun h => by omega, fun _ i _ hi => ?_, fun _ _ => by omega,
        fun _ h => by omega⟩
      have := getElem_le_sum _ _ _ hi
      omega
    · obtain ⟨d, x, hd, hx⟩ := exists_pos_of_sum extra' (by omega)
      have hdl := (List.getElem?_eq_some_iff.1 hd).1
      refine ⟨extra', d, by omega, h1, h2, h3, fun h => by omega, fun _ i hi he => ?_, fun _ h => by omega,
        fun _ _ h0 => ?_⟩
      · by_contra hne
        have := two_le_sum extra' d i x t hne hd he
        omega
      · rw [hd] at h0
        have := Option.some.inj h0
        omega

/-- **C105.** For any number of periods, choices, starting values and maxima: with one lagged choice, the filters of Keane
and Wolpin and a choice without experience, the core state space consists exactly of the states which can be reached.
In the first period the previous choice is one without a wage. -/
theorem C105_filtered_states_reachable (spec : CoreSpec) (wf : spec.WF) (nWage : Nat) (kw : spec.KeaneWolpin nWage)
    (core : List CoreState) (hc : createCore spec = some core) (s : CoreState) :
    s ∈ core ↔ ReachableState spec (NotWorked nWage spec.nChoices) AllAllowed s := by
  have hw := kw.wage
  have hn := kw.home
  rw [mem_filtered_core spec wf nWage kw core hc]
  constructor
  · rintro ⟨h1, h2, lag, h3, h4, init, extra, h5, h6, h7, h8, h9⟩
    obtain ⟨t, e, l⟩ := s
    dsimp only at h1 h2 h4 h7 h8 h9
    subst h4
    subst h7
    induction t generalizing extra lag with
    | zero =>
      have h0 := zipWith_add_zero init extra (by rw [h6, h5.length_eq]) (by omega)
      rw [h0] at h2 ⊢
      exact .start init _ h1 h5 h2 ⟨lag, h9.first rfl, h3, rfl⟩
    | succ t ih =>
      obtain ⟨extra', lag', g1, g2, g3, g4, g5⟩ := h9.pred h6 hw hn h8
      have hupd : updateExp (List.zipWith (· + ·) init extra') lag = List.zipWith (· + ·) init extra := by
        rw [zipWith_updateExp, g3]
      have hle : List.Forall₂ (· ≤ ·) (List.zipWith (· + ·) init extra') spec.maxExp := by
        rw [← hupd] at h2
        exact forall₂_le_of_updateExp h2
      have hprev := ih lag' g1 extra' g2 (by omega) g4 g5 hle
      have hstep := ReachableState.step _ lag hprev (by exact h1) h3 trivial (by
        intro x m hx hm
        have hx' : (List.zipWith (· + ·) init extra)[lag]? = some (x + 1) := by
          rw [← hupd, updateExp_getElem?, hx]; simp
        obtain ⟨y, hy, hle'⟩ := forall₂_getElem? h2 lag _ hx'
        rw [hm] at hy
        cases hy
        omega)
      dsimp only at hstep
      rw [updateExp_eq, hupd] at hstep
      exact hstep
  · intro hr
    induction hr with
    | start init lags h1 h2 h3 h4 =>
      obtain ⟨c, c1, c2, rfl⟩ := h4
      refine ⟨h1, h3, c, c2, rfl, init, List.replicate spec.starts.length 0, h2, by simp, ?_, by simp,
        fun _ => c1, fun h => absurd h (Nat.lt_irrefl 0), fun h => absurd h (Nat.lt_irrefl 0),
        fun h => absurd h (Nat.lt_irrefl 0)⟩
      rw [zipWith_add_zero _ _ (by simp [h2.length_eq]) (by simp)]
    | step s c _ h1 h2 _ h3 ih =>
      obtain ⟨_, g2, lag, _, g4, init, extra, g5, g6, g7, g8, g9⟩ := ih
      rw [updateExp_eq]
      refine ⟨h1, forall₂_le_updateExp _ _ g2 c h3, c, h2, by rw [g4]; rfl, init, updateExp extra c, g5,
        by rw [length_updateExp, g6], ?_, ?_, KeptState.step g6 g8 c⟩
      · dsimp only
        rw [g7, zipWith_updateExp]
      · have := sum_updateExp_le extra c
        dsimp only
        omega

/-- **C105.** Without lagged choices and filters all states of the core state space can be reached if there is a choice
without experience. -/
theorem C105_states_without_lags_reachable (spec : CoreSpec) (wf : spec.WF) (hl : spec.nLags = 0)
    (hn : spec.starts.length < spec.nChoices) (hf : spec.filters = []) (core : List CoreState)
    (hc : createCore spec = some core) (s : CoreState) :
    s ∈ core ↔ ReachableState spec (fun lags => lags = []) AllAllowed s := by
  rw [C05_core_mem_iff spec wf (by omega) core hc, hl, hf]
  constructor
  · rintro ⟨h1, ⟨init, extra, h5, h6, h7, h8, hd1⟩, h2, h4, hd2⟩
    clear hd1 hd2
    obtain ⟨t, e, l⟩ := s
    dsimp only at h1 h2 h4 h7 h8
    cases List.length_eq_zero_iff.1 h4
    subst h7
    induction t generalizing extra with
    | zero =>
      have h0 := zipWith_add_zero init extra (by rw [h6, h5.length_eq]) (by omega)
      rw [h0] at h2 ⊢
      exact .start init _ h1 h5 h2 rfl
    | succ t ih =>
      by_cases hs : extra.sum ≤ t
      · have hprev := ih extra h6 (by omega) hs h2
        have hlen : (List.zipWith (· + ·) init extra).length = spec.starts.length := by
          rw [List.length_zipWith, h6, h5.length_eq, Nat.min_self]
        have hstep := ReachableState.step _ spec.starts.length hprev (by exact h1) hn trivial (by
          intro x m hx
          rw [List.getElem?_eq_none (by rw [hlen])] at hx
          exact absurd hx (by simp))
        dsimp only at hstep
        rw [updateExp_eq] at hstep
        have hsame : updateExp (List.zipWith (· + ·) init extra) spec.starts.length =
            List.zipWith (· + ·) init extra := by
          apply List.ext_getElem?
          intro i
          rw [updateExp_getElem?]
          cases hi : (List.zipWith (· + ·) init extra)[i]? with
          | none => rfl
          | some x =>
            have := (List.getElem?_eq_some_iff.1 hi).1
            have : spec.starts.length ≠ i := by omega
            simp [this]
        rw [hsame] at hstep
        exact hstep
      · obtain ⟨c, x, hx, hpos⟩ := exists_pos_of_sum extra (by omega)
        have hx0 : extra[c]? ≠ some 0 := by rw [hx]; intro h; have := Option.some.inj h; omega
        have hcl := (List.getElem?_eq_some_iff.1 hx).1
        have hsum : (removeYear extra c).sum ≤ t := by
          have := sum_updateExp (removeYear extra c) c
          rw [updateExp_removeYear _ _ hx0, if_pos (by simp [removeYear]; omega)] at this
          omega
        have hupd : updateExp (List.zipWith (· + ·) init (removeYear extra c)) c =
            List.zipWith (· + ·) init extra := by
          rw [zipWith_updateExp, updateExp_removeYear _ _ hx0]
        have hle : List.Forall₂ (· ≤ ·) (List.zipWith (· + ·) init (removeYear extra c)) spec.maxExp := by
          rw [← hupd] at h2
          exact forall₂_le_of_updateExp h2
        have hprev := ih (removeYear extra c) (by simp [removeYear, h6]) (by omega) hsum hle
        have hstep := ReachableState.step _ c hprev (by exact h1) (by omega) trivial (by
          intro y m hy hm
          have hy' : (List.zipWith (· + ·) init extra)[c]? = some (y + 1) := by
            rw [← hupd, updateExp_getElem?, hy]; simp
          obtain ⟨z, hz, hle'⟩ := forall₂_getElem? h2 c _ hy'
          rw [hm] at hz
          cases hz
          omega)
        dsimp only at hstep
        rw [updateExp_eq, hupd] at hstep
        exact hstep
  · intro hr
    induction hr with
    | start init lags h1 h2 h3 h4 =>
      subst h4
      refine ⟨h1, ⟨init, List.replicate spec.starts.length 0, h2, by simp, ?_, by simp, by simp⟩, h3, rfl, by simp⟩
      rw [zipWith_add_zero _ _ (by simp [h2.length_eq]) (by simp)]
    | step s c _ h1 h2 _ h3 ih =>
      obtain ⟨_, ⟨init, extra, g5, g6, g7, g8, _⟩, g2, g3, _⟩ := ih
      rw [updateExp_eq]
      have hnil := List.length_eq_zero_iff.1 g3
      refine ⟨h1, ⟨init, updateExp extra c, g5, by rw [length_updateExp, g6], ?_, ?_, by simp⟩,
        forall₂_le_updateExp _ _ g2 c h3, by rw [hnil]; rfl, by rw [hnil]; simp⟩
      · dsimp only
        rw [g7, zipWith_updateExp]
      · have := sum_updateExp_le extra c
        dsimp only
        omega

/-! ### State spaces with states which cannot be reached -/

/-- Two periods, two choices which give experience, no lagged choice. -/
def onlyExperienceSpec : CoreSpec where
  nPeriods := 2
  nChoices := 2
  starts := [[0], [0]]
  maxExp := [1, 1]
  nLags := 0
  filters := []

/-- Two periods, two choices of which the first one gives experience, one lagged choice. -/
def noFilterSpec : CoreSpec where
  nPeriods := 2
  nChoices := 2
  starts := [[0]]
  maxExp := [1]
  nLags := 1
  filters := []

/-- **C105 (negated).** If all choices give experience, the state space has a state of the second period without any
experience. -/
theorem C105_only_experience_false :
    (∃ core, createCore onlyExperienceSpec = some core ∧ ⟨1, [0, 0], []⟩ ∈ core) ∧
      ∀ initial allowed, ¬ ReachableState onlyExperienceSpec initial allowed ⟨1, [0, 0], []⟩ := by
  refine ⟨⟨_, rfl, by decide +kernel⟩, fun initial allowed h => ?_⟩
  generalize hs : (⟨1, [0, 0], []⟩ : CoreState) = s at h
  cases h with
  | start init lags => exact absurd (congrArg CoreState.period hs) (by simp)
  | step s c hr _ hc _ _ =>
    have hp : s.period = 0 := by have := congrArg CoreState.period hs; simp at this; omega
    have he := congrArg CoreState.exp hs
    cases hr with
    | start init lags _ hi =>
      simp only [onlyExperienceSpec] at hi hc
      match init, hi with
      | [x, y], _ =>
        have : c = 0 ∨ c = 1 := by omega
        rcases this with rfl | rfl <;> simp at he
    | step => simp at hp

/-- **C105 (negated).** Without filters the state space has a state in which the previous choice has not given
experience. -/
theorem C105_without_filters_false :
    (∃ core, createCore noFilterSpec = some core ∧ ⟨1, [0], [some 0]⟩ ∈ core) ∧
      ∀ initial allowed, ¬ ReachableState noFilterSpec initial allowed ⟨1, [0], [some 0]⟩ := by
  refine ⟨⟨_, rfl, by decide +kernel⟩, fun initial allowed h => ?_⟩
  generalize hs : (⟨1, [0], [some 0]⟩ : CoreState) = s at h
  cases h with
  | start init lags => exact absurd (congrArg CoreState.period hs) (by simp)
  | step s c hr _ hc _ _ =>
    have hp : s.period = 0 := by have := congrArg CoreState.period hs; simp at this; omega
    have he := congrArg CoreState.exp hs
    have hl := congrArg CoreState.lags hs
    cases hr with
    | start init lags _ hi =>
      simp only [noFilterSpec] at hi hc
      have hc0 : c = 0 := by
        have h0 := congrArg (fun l : List (Option Nat) => l[0]?) hl
        simp only [List.getElem?_cons_zero, List.getElem?_mapIdx] at h0
        obtain ⟨_, _, h0⟩ := Option.map_eq_some_iff.1 h0.symm
        simpa using h0
      subst hc0
      match init, hi with
      | [x], _ => simp at he
    | step => simp at hp

end Respy
