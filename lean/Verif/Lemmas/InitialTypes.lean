import Verif.Lemmas.InitialLaw
import Verif.Spec.InitialHistories

/-! Helper lemmas: covariates of individuals when types are sampled and covariates of states. -/

namespace Respy

section
variable {V : Type _} {eval : (Str → Option V) → Str → Option V} {notna : V → Bool} {checkNans : Bool}
  {df df' : Frame V} {definitions : Dict Str CovariateDef}

/-- Variables have the same values if this is true of the variables in the data. -/
theorem ColumnValue.agree (hn : definitions.keys.Nodup) (ha : ∀ c d, (c, d) ∈ definitions → Accurate eval d)
    (hdef : ∀ cd ∈ definitions, df'.lookup cd.1 = none)
    (hgiven : ∀ k v w, df.lookup k = some v → ColumnValue eval notna checkNans df' definitions k w → v = w)
    {k : Str} {v w : V} (h : ColumnValue eval notna checkNans df definitions k v)
    (h' : ColumnValue eval notna checkNans df' definitions k w) : v = w := by
  induction h generalizing w with
  | given k v hk => exact hgiven k v w hk h'
  | computed c d env v _ hm hex _ hv ih =>
    cases h' with
    | given _ _ hk => rw [hdef _ hm] at hk; cases hk
    | computed _ d' env' _ _ hm' hex' hval' hv' =>
      have hd : d = d' := by
        have h1 := Dict.get?_of_mem _ hn _ _ hm
        rw [Dict.get?_of_mem _ hn _ _ hm'] at h1
        cases h1; rfl
      subst hd
      have := (ha c d hm).same env env' fun x hx => by
        obtain ⟨a, h1, _⟩ := hex x hx
        obtain ⟨a', h2, _⟩ := hex' x hx
        rw [h1, h2, ih x hx a h1 (hval' x hx a' h2)]
      rw [hv, hv'] at this
      exact Option.some.inj this

end

noncomputable section
variable {env : ProcessEnv} {m : UserModel} {p : Processed} {ev : FormulaEval} {covariates : Dict Str Str}

theorem laggedRow (l : List (Option Nat)) (hl : ∀ x ∈ l, x.isSome) (k : Nat) :
    ((l.zipIdx k).filterMap fun li => li.1.map fun l =>
      ("lagged_choice_".toList ++ codeText (li.2 + 1), (l : ℝ))) =
      ((List.range' k l.length).map fun i => "lagged_choice_".toList ++ codeText (i + 1)).zip
        (l.map fun x => ((x.getD 0 : Nat) : ℝ)) := by
  induction l generalizing k with
  | nil => rfl
  | cons x l ih =>
    obtain ⟨n, hn⟩ := Option.isSome_iff_exists.1 (hl x List.mem_cons_self)
    subst hn
    rw [List.zipIdx_cons, List.filterMap_cons, ih (fun y hy => hl y (List.mem_cons_of_mem _ hy)), List.length_cons,
      List.range'_succ]
    rfl

/-- The variables of a state are the period and the characteristics. -/
theorem stateVariables_eq {s : CoreState} (hsh : p.Shaped s) {grid : List (List Nat)} {i : Nat} {point : List Nat}
    (hgrid : denseGrid p.denseSpec = some grid) (hi : grid[i]? = some point) :
    p.stateVariables (some i) s = ("period".toList, (s.period : ℝ)) ::
      p.stateColumns.zip ((rowOfState s point).map fun x => ((x.getD 0 : Nat) : ℝ)) := by
  unfold Processed.stateVariables Processed.coreRow Processed.stateColumns rowOfState
  dsimp only
  rw [hgrid, Option.bind_some, hi, Option.getD_some, laggedRow s.lags hsh.lagged 0, ← List.range_eq_range', hsh.lags,
    List.map_append, List.map_append, List.zip_append, List.zip_append, List.cons_append, List.cons_append]
  · congr 2
    · congr 1
      rw [List.map_map, List.zip_map]
      rfl
    · rw [List.map_map]
      rfl
  · simp [hsh.exp]
  · simp [hsh.exp, hsh.lags]

theorem rowOfState_snoc (s : CoreState) (obs : List Nat) (t : Nat) :
    rowOfState s (obs ++ [t]) = rowOfState s obs ++ [some t] := by
  unfold rowOfState
  rw [List.map_append, ← List.append_assoc]
  rfl

theorem rowOfState_some {s : CoreState} (hsh : p.Shaped s) (obs : List Nat) {k : Nat} {y : Option Nat}
    (hy : (rowOfState s obs)[k]? = some y) : ∃ n, y = some n := by
  have := List.mem_of_getElem? hy
  unfold rowOfState at this
  rw [List.mem_append, List.mem_append] at this
  rcases this with (h | h) | h
  · obtain ⟨n, _, rfl⟩ := List.mem_map.1 h
    exact ⟨n, rfl⟩
  · exact Option.isSome_iff_exists.1 (hsh.lagged _ h)
  · obtain ⟨n, _, rfl⟩ := List.mem_map.1 h
    exact ⟨n, rfl⟩

/-- The covariates of an individual whose type is not sampled yet are the ones of the state with any type. -/
theorem initialFrame_agree (hf : p.FormulasSound ev) (facts : GroupFacts p)
    (hid : "identifier".toList ∉ Dict.keys p.groups.all) (hnames : p.stateColumns.Nodup)
    (hper : "period".toList ∉ p.stateColumns) {s : CoreState} (hsh : p.Shaped s) (hs0 : s.period = 0)
    {grid : List (List Nat)} {i t : Nat} {obs : List Nat} (hgrid : denseGrid p.denseSpec = some grid)
    (hi : grid[i]? = some (obs ++ [t])) (htype : p.stateColumns[(rowOfState s obs).length]? = some "type".toList)
    (hlast : p.stateColumns.length = (rowOfState s obs).length + 1)
    {j : Nat} {x : Str} {v w : ℝ}
    (h : ColumnValue ev.value (fun _ => true) false (p.initialFrame j (rowOfState s obs ++ [none])) p.groups.all x v)
    (h' : ColumnValue ev.value (fun _ => true) false ⟨p.stateVariables (some i) s, []⟩ p.groups.all x w) : v = w := by
  have hsv := stateVariables_eq hsh hgrid hi
  have hnd : (Dict.keys (p.stateVariables (some i) s)).Nodup := by
    rw [hsv]
    show ("period".toList :: (p.stateColumns.zip _).map Prod.fst).Nodup
    have hsub := zip_keys_sublist p.stateColumns ((rowOfState s (obs ++ [t])).map fun x => ((x.getD 0 : Nat) : ℝ))
    exact List.nodup_cons.2 ⟨fun hx => hper (hsub.subset hx), hsub.nodup hnames⟩
  have hcol : ∀ (k : Nat) (c : Str) (n : Nat), p.stateColumns[k]? = some c → (rowOfState s obs)[k]? = some (some n) →
      Dict.get? (p.stateVariables (some i) s) c = some (n : ℝ) := by
    intro k c n hc hn
    refine Dict.get?_of_mem _ hnd _ _ ?_
    rw [hsv]
    refine List.mem_cons_of_mem _ (List.mem_iff_getElem?.2 ⟨k, ?_⟩)
    rw [List.getElem?_zip_eq_some]
    refine ⟨hc, ?_⟩
    rw [rowOfState_snoc, List.getElem?_map, List.getElem?_append_left (List.getElem?_eq_some_iff.1 hn).1, hn]
    rfl
  refine ColumnValue.agree facts.nodup hf.accurate (fun cd hcd => ?_) ?_ h h'
  · rw [lookup_noIndex]
    exact stateVariables_covariate hf _ s hsh cd.1 (List.mem_map.2 ⟨_, hcd, rfl⟩)
  · intro k v w hk hw
    have huse : ∀ u, Dict.get? (p.stateVariables (some i) s) k = some u → u = w := by
      intro u hu
      cases hw with
      | given _ _ hk' =>
        rw [lookup_noIndex, hu] at hk'
        exact Option.some.inj hk'
      | computed _ _ _ _ hn => rw [hu] at hn; cases hn
    unfold Frame.lookup at hk
    by_cases hks : k ∈ p.stateColumns
    · obtain ⟨a, ha⟩ := List.mem_iff_getElem?.1 hks
      by_cases hal : a = (rowOfState s obs).length
      · subst hal
        rw [htype] at ha
        cases ha
        exfalso
        have h0 : Dict.get? (p.initialFrame j (rowOfState s obs ++ [none])).columns "type".toList = none := by
          rw [Dict.get?_eq_none_iff]
          intro hmem
          obtain ⟨kv, hkv, he⟩ := List.mem_map.1 hmem
          obtain ⟨y, hy, h2⟩ := List.mem_filterMap.1 hkv
          obtain ⟨n, h3, rfl⟩ := Option.map_eq_some_iff.1 h2
          have hy' := List.mem_zipIdx_iff_getElem?.1 hy
          have : y.2 = (rowOfState s obs).length := by
            have e1 := List.getElem?_eq_some_iff.1 hy'
            have e2 := List.getElem?_eq_some_iff.1 htype
            exact (List.Nodup.getElem_inj_iff hnames).1 (by rw [e1.2, e2.2]; exact he)
          rw [this] at h3
          simp at h3
        rw [h0] at hk
        have hk : Dict.get? [("identifier".toList, (j : ℝ)), ("period".toList, 0)] "type".toList = some v := hk
        rw [Dict.get?, if_neg (by decide), Dict.get?, if_neg (by decide)] at hk
        cases hk
      · by_cases hlt : a < (rowOfState s obs).length
        · obtain ⟨n, hn⟩ := rowOfState_some hsh obs (List.getElem?_eq_getElem hlt)
          have hn' : (rowOfState s obs)[a]? = some (some n) := by rw [List.getElem?_eq_getElem hlt, hn]
          have h1 : Dict.get? (p.initialFrame j (rowOfState s obs ++ [none])).columns k = some (n : ℝ) :=
            initialFrame_some hnames ha (by rw [List.getElem?_append_left hlt, hn']; rfl)
          rw [h1] at hk
          cases hk
          exact huse _ (hcol a k n ha hn')
        · have := (List.getElem?_eq_some_iff.1 ha).1
          omega
    · rw [initialFrame_none hks, Option.none_or] at hk
      have hk : Dict.get? [("identifier".toList, (j : ℝ)), ("period".toList, 0)] k = some v := hk
      by_cases e1 : "identifier".toList = k
      · subst e1
        exfalso
        cases hw with
        | given _ _ hk' =>
          rw [lookup_noIndex, hsv, Dict.get?, if_neg (by decide)] at hk'
          have := (Dict.get?_eq_none_iff (p.stateColumns.zip
            ((rowOfState s (obs ++ [t])).map fun x => ((x.getD 0 : Nat) : ℝ))) "identifier".toList).2 fun hx =>
              hks ((zip_keys_sublist _ _).subset hx)
          rw [this] at hk'
          cases hk'
        | computed _ d _ _ _ hm => exact hid (List.mem_map.2 ⟨_, hm, rfl⟩)
      · rw [Dict.get?, if_neg e1] at hk
        by_cases e2 : "period".toList = k
        · rw [Dict.get?, if_pos e2] at hk
          cases hk
          refine huse _ ?_
          rw [hsv, Dict.get?, if_pos e2, hs0]
          simp
        · rw [Dict.get?, if_neg e2] at hk
          cases hk

end

end Respy
