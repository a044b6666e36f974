import Verif.Lemmas.ProcessModel

/-!
# Models which differ in the values of parameters

The structure of an accepted model, e.g. its choices, levels and covariates, depends on the index of the parameters
and on the options.
-/

namespace Respy

/-! ### Options and relations -/

theorem optionRel_bind {α β γ δ : Type _} {R : α → β → Prop} {S : γ → δ → Prop} {x : Option α} {y : Option β}
    {f : α → Option γ} {g : β → Option δ} (h : Option.Rel R x y)
    (hfg : ∀ a b, R a b → Option.Rel S (f a) (g b)) : Option.Rel S (x >>= f) (y >>= g) := by
  cases h with
  | some h => exact hfg _ _ h
  | none => exact .none

theorem optionRel_of_eq {α γ : Type _} {f : α → γ} {x y : Option α} (h : x.map f = y.map f) :
    Option.Rel (fun a b => f a = f b) x y := by
  cases x with
  | none => cases y with
    | none => exact .none
    | some b => cases h
  | some a => cases y with
    | none => cases h
    | some b => exact .some (by simpa using h)

theorem optionRel_eq {α γ : Type _} {f : α → γ} {x y : Option α} (h : Option.Rel (fun a b => f a = f b) x y) :
    x.map f = y.map f := by
  cases h with
  | some h => simp [h]
  | none => rfl

theorem optionRel_refl {α : Type _} (x : Option α) : Option.Rel (fun a b => a = b) x x := by
  cases x with
  | none => exact .none
  | some a => exact .some rfl

theorem optionRel_mono {α β : Type _} {R S : α → β → Prop} {x : Option α} {y : Option β} (h : Option.Rel R x y)
    (hRS : ∀ a b, R a b → S a b) : Option.Rel S x y := by
  cases h with
  | some h => exact .some (hRS _ _ h)
  | none => exact .none

theorem optionRel_map {α β γ δ : Type _} {R : α → β → Prop} {S : γ → δ → Prop} {x : Option α} {y : Option β}
    {f : α → γ} {g : β → δ} (h : Option.Rel R x y) (hfg : ∀ a b, R a b → S (f a) (g b)) :
    Option.Rel S (x.map f) (y.map g) := by
  cases h with
  | some h => exact .some (hfg _ _ h)
  | none => exact .none

theorem optionRel_mapM {α β γ δ : Type _} {f : α → Option β} {g : γ → Option β} {k : β → δ} {xs : List α}
    {ys : List γ} (h : List.Forall₂ (fun a c => Option.Rel (fun x y => k x = k y) (f a) (g c)) xs ys) :
    Option.Rel (fun x y => x.map k = y.map k) (xs.mapM f) (ys.mapM g) := by
  induction h with
  | nil => exact .some rfl
  | cons hd _ ih =>
    rw [List.mapM_cons, List.mapM_cons]
    refine optionRel_bind hd fun a b hab => optionRel_bind ih fun as bs habs => .some ?_
    simp [hab, habs]

theorem forall₂_same {α : Type _} {R : α → α → Prop} {xs : List α} (h : ∀ a ∈ xs, R a a) :
    List.Forall₂ R xs xs := List.forall₂_same.2 h

theorem optionRel_toOption {ε α γ : Type _} {f : α → γ} {x y : Except ε α} (h : x.map f = y.map f) :
    Option.Rel (fun a b => f a = f b) x.toOption y.toOption := by
  cases x with
  | error e => cases y with
    | error e' => exact .none
    | ok b => cases h
  | ok a => cases y with
    | error e' => cases h
    | ok b => exact .some (by simpa [Except.map] using h)

/-! ### Dictionaries -/

section

variable {κ ν μ : Type _} [DecidableEq κ]

theorem dict_get?_mapSnd (f : ν → μ) (d : Dict κ ν) (k : κ) :
    Dict.get? (d.map fun kv => (kv.1, f kv.2)) k = (Dict.get? d k).map f := by
  induction d with
  | nil => rfl
  | cons a as ih =>
    obtain ⟨ka, va⟩ := a
    by_cases hk : ka = k
    · rw [List.map_cons, Dict.get?, Dict.get?, if_pos hk, if_pos hk]; rfl
    · rw [List.map_cons, Dict.get?, Dict.get?, if_neg hk, if_neg hk]; exact ih

theorem dict_insert_mapSnd (f : ν → μ) (d : Dict κ ν) (k : κ) (v : ν) :
    (Dict.insert d k v).map (fun kv => (kv.1, f kv.2)) = Dict.insert (d.map fun kv => (kv.1, f kv.2)) k (f v) := by
  induction d with
  | nil => rfl
  | cons a as ih =>
    obtain ⟨ka, va⟩ := a
    by_cases hk : ka = k
    · rw [List.map_cons, Dict.insert, Dict.insert, if_pos hk, if_pos hk]; rfl
    · rw [List.map_cons, Dict.insert, Dict.insert, if_neg hk, if_neg hk, List.map_cons, ih]

theorem dict_update_mapSnd (f : ν → μ) (d e : Dict κ ν) :
    (Dict.update d e).map (fun kv => (kv.1, f kv.2)) =
      Dict.update (d.map fun kv => (kv.1, f kv.2)) (e.map fun kv => (kv.1, f kv.2)) := by
  unfold Dict.update
  induction e generalizing d with
  | nil => rfl
  | cons a as ih =>
    rw [List.foldl_cons, ih, dict_insert_mapSnd, List.map_cons, List.foldl_cons]

end

/-! ### Groups -/

/-- The levels of a group and the names of their coefficients. -/
def groupShape {L : Type _} (d : Dict L (List (Str × ℝ))) : List (L × List Str) :=
  d.map fun kv => (kv.1, kv.2.map Prod.fst)

/-- The levels and names of the parameters of a group. -/
def rowShape {L : Type _} (rows : List (GroupParam L)) : List (L × Str) :=
  rows.map fun r => (r.level, r.name)

theorem rowShape_levels {L : Type _} (rows : List (GroupParam L)) :
    rows.map GroupParam.level = (rowShape rows).map Prod.fst := by simp [rowShape]

theorem groupShape_keys {L : Type _} {d d' : Dict L (List (Str × ℝ))} (h : groupShape d = groupShape d') :
    Dict.keys d = Dict.keys d' := by
  have := congrArg (List.map Prod.fst) h
  simp only [groupShape, List.map_map] at this
  exact this

theorem groupShape_container {L : Type _} [DecidableEq L] (levels : List L) (rows : List (GroupParam L)) :
    groupShape (levels.map fun l => (l, (rows.filter fun r => r.level = l).map fun r => (r.name, r.value))) =
      levels.map fun l => (l, ((rowShape rows).filter fun r => r.1 = l).map Prod.snd) := by
  simp only [groupShape, List.map_map]
  refine List.map_congr_left fun l _ => ?_
  simp only [Function.comp, Prod.mk.injEq, true_and, rowShape, List.filter_map, List.map_map]
  rfl

theorem rowShape_zipWith {L : Type _} (rows : List (GroupParam L)) (bs : List ℝ) (h : bs.length = rows.length)
    (name : Str) :
    rowShape (List.zipWith (fun (r : GroupParam L) b => (⟨r.level, name, b⟩ : GroupParam L)) rows bs) =
      (rowShape rows).map fun r => (r.1, name) := by
  induction rows generalizing bs with
  | nil => rfl
  | cons r rows ih =>
    cases bs with
    | nil => simp at h
    | cons b bs =>
      have := ih bs (by simpa using h)
      simp only [rowShape, List.zipWith_cons_cons, List.map_cons] at this ⊢
      rw [this]

theorem parseGroup_shape {L : Type _} [LinearOrder L] (maxFloat : ℝ) {rows rows' : List (GroupParam L)}
    (h : rowShape rows = rowShape rows') :
    (parseGroup maxFloat rows).map (Option.map groupShape) =
      (parseGroup maxFloat rows').map (Option.map groupShape) := by
  have hlen : rows.length = rows'.length := by simpa [rowShape] using congrArg List.length h
  have hlev : rows.map GroupParam.level = rows'.map GroupParam.level := by
    rw [rowShape_levels, rowShape_levels, h]
  have hcount : (rows.countP fun r => r.name = "probability".toList) =
      rows'.countP fun r => r.name = "probability".toList := by
    have e : ∀ rs : List (GroupParam L), (rs.countP fun r => r.name = "probability".toList) =
        (rowShape rs).countP fun r => r.2 = "probability".toList := by
      intro rs
      simp only [rowShape, List.countP_map]
      rfl
    rw [e, e, h]
  have hnorm : ∀ rs : List (GroupParam L), rs.length ≠ 0 →
      ((if (rs.map GroupParam.value).sum ≠ 1 then normalizeProbabilities (rs.map GroupParam.value)
        else rs.map GroupParam.value).map fun p => Real.log (max p (1 / maxFloat))).length = rs.length := by
    intro rs h0
    split
    · simp only [List.length_map, normalizeProbabilities, List.length_append, List.length_dropLast, List.length_singleton]
      omega
    · simp
  unfold parseGroup
  simp only [hlen, hlev, hcount]
  split
  · rfl
  · next h0 =>
    split
    · simp only [Except.map, Option.map_some]
      rw [groupShape_container, groupShape_container, rowShape_zipWith _ _ (hnorm rows (hlen ▸ h0)),
        rowShape_zipWith _ _ (hnorm rows' h0), h]
    · split
      · rfl
      · simp only [Except.map, Option.map_some]
        rw [groupShape_container, groupShape_container, h]

theorem rowShape_filterMap {L : Type _} (f : Str × Str → Option L) (params : List ((Str × Str) × ℝ)) :
    rowShape (params.filterMap fun p => (f p.1).map fun l => (⟨l, p.1.2, p.2⟩ : GroupParam L)) =
      (params.map Prod.fst).filterMap fun k => (f k).map fun l => (l, k.2) := by
  induction params with
  | nil => rfl
  | cons p ps ih =>
    simp only [List.filterMap_cons, List.map_cons]
    cases hp : f p.1 with
    | none => simpa using ih
    | some l =>
      simp only [Option.map_some]
      simp only [rowShape, List.map_cons] at ih ⊢
      rw [ih]

theorem rowShape_levelParams (keyword name : Str) (params : List ((Str × Str) × ℝ)) :
    rowShape (levelParams keyword name params) =
      let rows := (params.map Prod.fst).filterMap fun k =>
        (extract (keyword ++ ['_'] ++ name ++ ['_']) isLevelChar k.1).map fun t => (t, k)
      List.zipWith (fun l (r : Str × (Str × Str)) => (l, r.2.2)) (toLevels (rows.map Prod.fst)) rows := by
  have e : ((params.map Prod.fst).filterMap fun k =>
        (extract (keyword ++ ['_'] ++ name ++ ['_']) isLevelChar k.1).map fun t => (t, k)) =
      (params.filterMap fun p =>
        (extract (keyword ++ ['_'] ++ name ++ ['_']) isLevelChar p.1.1).map fun t => (t, p)).map
          fun r => (r.1, r.2.1) := by
    induction params with
    | nil => rfl
    | cons p ps ih =>
      simp only [List.filterMap_cons, List.map_cons]
      cases extract (keyword ++ ['_'] ++ name ++ ['_']) isLevelChar p.1.1 with
      | none => simpa using ih
      | some t =>
        simp only [Option.map_some, List.map_cons]
        rw [ih]
  simp only [e, levelParams, rowShape, List.map_map, List.map_zipWith, List.zipWith_map_right]
  rfl

/-! ### Parsers -/

section Parsers

variable {params params' : Dict (Str × Str) ℝ}

theorem sameKeys_get? (h : params.map Prod.fst = params'.map Prod.fst) (k : Str × Str) :
    Option.Rel (fun _ _ => True) (Dict.get? params k) (Dict.get? params' k) := by
  have e : ∀ ps : Dict (Str × Str) ℝ, (Dict.get? ps k).map (fun _ => ()) =
      Dict.get? ((ps.map Prod.fst).map fun k => (k, ())) k := by
    intro ps
    rw [← dict_get?_mapSnd fun _ => ()]
    simp [Function.comp_def]
  have : (Dict.get? params k).map (fun _ => ()) = (Dict.get? params' k).map (fun _ => ()) := by
    rw [e, e, h]
  exact optionRel_mono (optionRel_of_eq this) fun _ _ _ => trivial

theorem sameKeys_categories (h : params.map Prod.fst = params'.map Prod.fst) :
    (params.map fun p => p.1.1) = params'.map fun p => p.1.1 := by
  simpa [Function.comp_def] using congrArg (List.map Prod.fst) h

theorem sameKeys_names (h : params.map Prod.fst = params'.map Prod.fst) :
    (params.map fun p => p.1.2) = params'.map fun p => p.1.2 := by
  simpa [Function.comp_def] using congrArg (List.map Prod.snd) h

theorem sameKeys_any (h : params.map Prod.fst = params'.map Prod.fst) (f : Str × Str → Bool) :
    (params.any fun p => f p.1) = params'.any fun p => f p.1 := by
  simpa [Function.comp_def] using congrArg (List.any · f) h

theorem sameKeys_filter (h : params.map Prod.fst = params'.map Prod.fst) (f : Str × Str → Bool) :
    (params.filter fun p => f p.1).map Prod.fst = (params'.filter fun p => f p.1).map Prod.fst := by
  have e : ∀ ps : Dict (Str × Str) ℝ, (ps.filter fun p => f p.1).map Prod.fst = (ps.map Prod.fst).filter f := by
    intro ps
    simp only [List.filter_map]
    rfl
  rw [e, e, h]

theorem sameKeys_hasCategory (h : params.map Prod.fst = params'.map Prod.fst) (c : String) :
    hasCategory params c = hasCategory params' c := sameKeys_any h fun k => k.1 = c.toList

theorem parseDiscount_rel (h : params.map Prod.fst = params'.map Prod.fst) :
    Option.Rel (fun _ _ => True) (parseDiscount params) (parseDiscount params') :=
  optionRel_bind (sameKeys_get? h ("delta".toList, "delta".toList)) fun _ _ _ => .some trivial

/-- Levels and names of coefficients of several groups. -/
def groupsShape (d : Dict Str LevelDict) : List (Str × List (Level × List Str)) :=
  d.map fun kv => (kv.1, groupShape kv.2)

theorem groupsShape_get? {d d' : Dict Str LevelDict} (h : groupsShape d = groupsShape d') (k : Str) :
    Option.Rel (fun a b => groupShape a = groupShape b) (Dict.get? d k) (Dict.get? d' k) :=
  optionRel_of_eq (by rw [← dict_get?_mapSnd, ← dict_get?_mapSnd]; exact congrArg (Dict.get? · k) h)

theorem groupsShape_insert {d d' : Dict Str LevelDict} (h : groupsShape d = groupsShape d') (k : Str)
    {v v' : LevelDict} (hv : groupShape v = groupShape v') :
    groupsShape (Dict.insert d k v) = groupsShape (Dict.insert d' k v') := by
  unfold groupsShape at h ⊢
  rw [dict_insert_mapSnd groupShape, dict_insert_mapSnd groupShape, h, hv]

theorem groupsShape_keys {d d' : Dict Str LevelDict} (h : groupsShape d = groupsShape d') :
    Dict.keys d = Dict.keys d' := by
  have := congrArg (List.map Prod.fst) h
  simp only [groupsShape, List.map_map] at this
  exact this

theorem parseLevels_shape (maxFloat : ℝ) (keyword : Str) (h : params.map Prod.fst = params'.map Prod.fst)
    (names : List Str) :
    (parseLevels maxFloat keyword params names).map (List.map fun kv => (kv.1, kv.2.map groupShape)) =
      (parseLevels maxFloat keyword params' names).map (List.map fun kv => (kv.1, kv.2.map groupShape)) := by
  unfold parseLevels
  induction names with
  | nil => rfl
  | cons name names ih =>
    have hg := parseGroup_shape maxFloat (L := Level) (rows := levelParams keyword name params)
      (rows' := levelParams keyword name params') (by rw [rowShape_levelParams, rowShape_levelParams, h])
    rw [List.mapM_cons, List.mapM_cons]
    cases h1 : parseGroup maxFloat (levelParams keyword name params) with
    | error e =>
      cases h2 : parseGroup maxFloat (levelParams keyword name params') with
      | error e' =>
        rw [h1, h2] at hg
        simp only [Except.map, Except.error.injEq] at hg
        subst hg
        rfl
      | ok b => rw [h1, h2] at hg; cases hg
    | ok a =>
      cases h2 : parseGroup maxFloat (levelParams keyword name params') with
      | error e' => rw [h1, h2] at hg; cases hg
      | ok b =>
        rw [h1, h2] at hg
        simp only [Except.map, Except.ok.injEq] at hg
        revert ih
        generalize (names.mapM fun name => do
          let parsed ← parseGroup maxFloat (levelParams keyword name params)
          pure (name, parsed) : Except ParseError _) = x
        generalize (names.mapM fun name => do
          let parsed ← parseGroup maxFloat (levelParams keyword name params')
          pure (name, parsed) : Except ParseError _) = y
        intro ih
        cases x with
        | error e =>
          cases y with
          | error e' => exact ih
          | ok b => cases ih
        | ok as =>
          cases y with
          | error e' => cases ih
          | ok bs =>
            simp only [Except.map, Except.ok.injEq] at ih
            change Except.ok _ = Except.ok _
            simp [hg, ih]

theorem parseSome_rel {d d' : Dict Str (Option LevelDict)}
    (h : (d.map fun kv => (kv.1, kv.2.map groupShape)) = d'.map fun kv => (kv.1, kv.2.map groupShape)) :
    Option.Rel (fun a b => groupsShape a = groupsShape b)
      (d.mapM fun kv => kv.2.map fun l => (kv.1, l)) (d'.mapM fun kv => kv.2.map fun l => (kv.1, l)) := by
  refine optionRel_mapM ?_
  induction d generalizing d' with
  | nil =>
    cases d' with
    | nil => exact .nil
    | cons b bs => simp at h
  | cons a as ih =>
    cases d' with
    | nil => simp at h
    | cons b bs =>
      simp only [List.map_cons, List.cons.injEq, Prod.mk.injEq] at h
      refine .cons ?_ (ih h.2)
      obtain ⟨⟨h1, h2⟩, -⟩ := h
      exact optionRel_map (optionRel_of_eq h2) fun x y hxy => by simp [h1, hxy]

theorem parseExogenous_rel (maxFloat : ℝ) (h : params.map Prod.fst = params'.map Prod.fst) :
    Option.Rel (fun a b => groupsShape a = groupsShape b) (parseExogenous maxFloat params)
      (parseExogenous maxFloat params') := by
  unfold parseExogenous
  rw [sameKeys_categories h]
  refine optionRel_bind (optionRel_refl _) ?_
  rintro names _ rfl
  exact optionRel_bind (optionRel_toOption (parseLevels_shape maxFloat _ h names)) fun a b hab => parseSome_rel hab

theorem initialLevels_rel {v v' : LevelDict} (hv : groupShape v = groupShape v') {o o' : Option LevelDict}
    (ho : Option.Rel (fun a b => groupShape a = groupShape b) o o') :
    Option.Rel (fun a b => groupShape a = groupShape b) (initialLevels v o) (initialLevels v' o') := by
  have hk := groupShape_keys hv
  cases ho with
  | none =>
    refine .some ?_
    have := congrArg (List.map fun l => (l, ["constant".toList])) hk
    simpa [groupShape, Dict.keys, Function.comp_def] using this
  | some ho =>
    rename_i a b
    unfold initialLevels
    have e : ∀ (w o : LevelDict), (w.all fun kv => o.any fun ko => decide (ko.1 = kv.1)) =
        (Dict.keys w).all fun k => (Dict.keys o).any fun k' => decide (k' = k) := by
      intro w o
      simp [Dict.keys, Function.comp_def]
    simp only [e, hk, groupShape_keys ho]
    split
    · exact .some ho
    · exact .none

theorem parseObservables_rel (maxFloat : ℝ) (h : params.map Prod.fst = params'.map Prod.fst)
    {ex ex' : Dict Str LevelDict} (hex : groupsShape ex = groupsShape ex') :
    Option.Rel (fun a b => groupsShape a = groupsShape b) (parseObservables maxFloat params ex)
      (parseObservables maxFloat params' ex') := by
  unfold parseObservables
  rw [sameKeys_categories h]
  refine optionRel_bind (optionRel_refl _) ?_
  rintro names _ rfl
  refine optionRel_bind (optionRel_toOption (parseLevels_shape maxFloat _ h names)) fun a b hab => ?_
  refine optionRel_bind (parseSome_rel hab) fun obs obs' hobs => ?_
  refine optionRel_bind (R := fun a b => groupsShape a = groupsShape b) ?_ fun all all' hall => ?_
  · clear hab a b
    induction ex generalizing ex' obs obs' with
    | nil =>
      cases ex' with
      | nil => exact .some hobs
      | cons b bs => simp [groupsShape] at hex
    | cons a as ih =>
      cases ex' with
      | nil => simp [groupsShape] at hex
      | cons b bs =>
        obtain ⟨ka, va⟩ := a
        obtain ⟨kb, vb⟩ := b
        simp only [groupsShape, List.map_cons, List.cons.injEq, Prod.mk.injEq] at hex
        obtain ⟨⟨rfl, hva⟩, hex⟩ := hex
        rw [List.foldlM_cons, List.foldlM_cons]
        refine optionRel_bind (R := fun a b => groupsShape a = groupsShape b) ?_
          fun o o' ho => ih hex o o' ho
        exact optionRel_map (initialLevels_rel hva (groupsShape_get? hobs ka)) fun x y hxy => groupsShape_insert hobs ka hxy
  · rw [groupsShape_keys hall]
    refine optionRel_mapM (forall₂_same fun name _ => ?_)
    exact optionRel_map (groupsShape_get? hall name) fun x y hxy => by simp [hxy]

theorem parseExperience_rel (maxFloat : ℝ) (nPeriods : Nat) (h : params.map Prod.fst = params'.map Prod.fst)
    (choice : Str)
    (hmax : (Dict.get? params ("maximum_exp".toList, choice)).map Nat.floor =
      (Dict.get? params' ("maximum_exp".toList, choice)).map Nat.floor) :
    Option.Rel (fun a b => (groupShape a.1, a.2) = (groupShape b.1, b.2))
      (parseExperience maxFloat nPeriods params choice) (parseExperience maxFloat nPeriods params' choice) := by
  unfold parseExperience
  have hg := parseGroup_shape maxFloat (L := Nat) (rows := experienceParams choice params)
    (rows' := experienceParams choice params') (by
      unfold experienceParams
      have e := rowShape_filterMap (fun k : Str × Str =>
        (extract ("initial_exp_".toList ++ choice ++ ['_']) Char.isDigit k.1).map digitsValue)
      simp only [Option.map_map] at e
      exact (e params).trans ((congrArg _ h).trans (e params').symm))
  refine optionRel_bind (optionRel_toOption hg) fun a b hab => ?_
  have hst : groupShape (a.getD [(0, [("constant".toList, 0)])]) =
      groupShape (b.getD [(0, [("constant".toList, 0)])]) := by
    cases optionRel_of_eq hab with
    | none => rfl
    | some h => exact h
  simp only [groupShape_keys hst, hmax]
  refine optionRel_bind (optionRel_refl _) ?_
  rintro mx _ rfl
  exact .some (by rw [hst])

theorem parseTypes_rel (maxFloat : ℝ) (h : params.map Prod.fst = params'.map Prod.fst) :
    Option.Rel (fun a b => (a.1, groupShape a.2) = (b.1, groupShape b.2)) (parseTypes maxFloat params).toOption
      (parseTypes maxFloat params').toOption := by
  have h0 : (params.any fun p => decide (p.1.1 = "type_0".toList)) =
      params'.any fun p => decide (p.1.1 = "type_0".toList) := sameKeys_any h fun k => decide (k.1 = "type_0".toList)
  have h1 : (params.any fun p => decide (p.1.2 = "type_0".toList)) =
      params'.any fun p => decide (p.1.2 = "type_0".toList) := sameKeys_any h fun k => decide (k.2 = "type_0".toList)
  have hg := parseGroup_shape maxFloat (L := Nat)
    (rows := params.filterMap fun p => (typeIndex p.1.1).map fun i => ⟨i, p.1.2, p.2⟩)
    (rows' := params'.filterMap fun p => (typeIndex p.1.1).map fun i => ⟨i, p.1.2, p.2⟩) (by
      have e := rowShape_filterMap fun k : Str × Str => typeIndex k.1
      rw [e params, e params', h])
  unfold parseTypes
  rw [h0, h1, h]
  split
  · exact .none
  · simp only
    split
    · revert hg
      generalize parseGroup maxFloat (params.filterMap fun p => (typeIndex p.1.1).map fun i =>
        (⟨i, p.1.2, p.2⟩ : GroupParam Nat)) = x
      generalize parseGroup maxFloat (params'.filterMap fun p => (typeIndex p.1.1).map fun i =>
        (⟨i, p.1.2, p.2⟩ : GroupParam Nat)) = y
      intro hg
      match x, y with
      | .error _, .error _ => exact .none
      | .error _, .ok _ => cases hg
      | .ok _, .error _ => cases hg
      | .ok none, .ok none => exact .none
      | .ok none, .ok (some _) => cases hg
      | .ok (some _), .ok none => cases hg
      | .ok (some a), .ok (some b) =>
        simp only [Except.map, Option.map_some, Except.ok.injEq, Option.some.injEq] at hg
        refine .some ?_
        unfold groupShape at hg ⊢
        simp only [Prod.mk.injEq, true_and]
        rw [dict_update_mapSnd (List.map Prod.fst), dict_update_mapSnd (List.map Prod.fst), hg]
    · exact .some rfl

theorem lagDistribution_shape (maxFloat minFloat : ℝ) (choices : List Str) (lag : Nat)
    (h : params.map Prod.fst = params'.map Prod.fst) :
    (lagDistribution maxFloat minFloat choices lag params).map groupShape =
      (lagDistribution maxFloat minFloat choices lag params').map groupShape := by
  have hg := parseGroup_shape maxFloat (rows := lagParams lag params) (rows' := lagParams lag params') (by
      have e := rowShape_filterMap fun k : Str × Str =>
        (findAllPlain ("lagged_choice_".toList ++ Nat.toDigits 10 lag ++ ['_']) isNameChar k.1).head?
      unfold lagParams
      rw [e params, e params', h])
  unfold lagDistribution
  revert hg
  generalize parseGroup maxFloat (lagParams lag params) = x
  generalize parseGroup maxFloat (lagParams lag params') = y
  intro hg
  match x, y with
  | .error _, .error _ => exact congrArg Except.error (by simpa [Except.map] using hg)
  | .error _, .ok _ => cases hg
  | .ok _, .error _ => cases hg
  | .ok none, .ok none => rfl
  | .ok none, .ok (some _) => cases hg
  | .ok (some _), .ok none => cases hg
  | .ok (some a), .ok (some b) =>
    simp only [Except.map, Option.map_some, Except.ok.injEq, Option.some.injEq] at hg
    refine congrArg Except.ok ?_
    unfold groupShape at hg ⊢
    rw [dict_update_mapSnd (List.map Prod.fst), dict_update_mapSnd (List.map Prod.fst), hg]

theorem exceptMapM_shape {ε α β γ : Type _} {f g : α → Except ε β} {k : β → γ} (xs : List α)
    (h : ∀ a ∈ xs, (f a).map k = (g a).map k) :
    (xs.mapM f).map (List.map k) = (xs.mapM g).map (List.map k) := by
  induction xs with
  | nil => rfl
  | cons a as ih =>
    have h1 := h a List.mem_cons_self
    have h2 := ih fun b hb => h b (List.mem_cons_of_mem _ hb)
    rw [List.mapM_cons, List.mapM_cons]
    revert h1 h2
    generalize f a = x
    generalize g a = y
    generalize as.mapM f = xs
    generalize as.mapM g = ys
    intro h1 h2
    match x, y with
    | .error _, .error _ => exact congrArg Except.error (by simpa [Except.map] using h1)
    | .error _, .ok _ => cases h1
    | .ok _, .error _ => cases h1
    | .ok a, .ok b =>
      match xs, ys with
      | .error _, .error _ => exact congrArg Except.error (by simpa [Except.map] using h2)
      | .error _, .ok _ => cases h2
      | .ok _, .error _ => cases h2
      | .ok as, .ok bs =>
        simp only [Except.map, Except.ok.injEq] at h1 h2
        exact congrArg Except.ok (by simp [h1, h2])

theorem parseLaggedChoices_rel (maxFloat minFloat : ℝ) (choices : List Str) (covariates : Dict Str Str)
    (h : params.map Prod.fst = params'.map Prod.fst) :
    Option.Rel (fun a b => a.map groupShape = b.map groupShape)
      (parseLaggedChoices maxFloat minFloat choices covariates params).toOption
      (parseLaggedChoices maxFloat minFloat choices covariates params').toOption :=
  optionRel_toOption (exceptMapM_shape _ fun i _ => lagDistribution_shape maxFloat minFloat choices (i + 1) h)

theorem parseMeasurement_rel (choices wWage : List Str) (h : params.map Prod.fst = params'.map Prod.fst) :
    Option.Rel (fun a b => a.1 = b.1 ∧ a.2.length = b.2.length) (parseMeasurementErrors choices wWage params)
      (parseMeasurementErrors choices wWage params') := by
  unfold parseMeasurementErrors
  rw [sameKeys_hasCategory h]
  split
  · refine optionRel_bind (R := fun a b => a.length = b.length) ?_ fun a b hab => ?_
    · refine optionRel_mono (optionRel_mapM (k := fun _ : ℝ => ()) (forall₂_same fun l _ => ?_))
        fun a b hab => by simpa using congrArg List.length hab
      exact optionRel_mono (sameKeys_get? h _) fun _ _ _ => rfl
    · split
      · exact .some ⟨rfl, by simp [hab]⟩
      · exact .none
  · exact .some ⟨rfl, rfl⟩

theorem ofCategory_names (h : params.map Prod.fst = params'.map Prod.fst) (c : String) :
    (ofCategory params c).map Prod.fst = (ofCategory params' c).map Prod.fst := by
  have := congrArg (List.map Prod.snd) (sameKeys_filter h fun k => decide (k.1 = c.toList))
  simpa [ofCategory, Function.comp_def] using this

theorem parseShocks_rel (h : params.map Prod.fst = params'.map Prod.fst) :
    Option.Rel (fun a b => a.kind = b.kind ∧ a.dim = b.dim) (parseShocks params).toOption
      (parseShocks params').toOption := by
  have hl : ∀ c : String, ((ofCategory params c).map Prod.snd).length = ((ofCategory params' c).map Prod.snd).length := by
    intro c
    simpa using congrArg List.length (ofCategory_names h c)
  have hc : ∀ vs ws : List ℝ, vs.length = ws.length →
      (cholParamsToMatrix vs).map Prod.fst = (cholParamsToMatrix ws).map Prod.fst := by
    intro vs ws e
    unfold cholParamsToMatrix
    simp only [e]
    split <;> rfl
  unfold parseShocks
  simp only [sameKeys_hasCategory h]
  by_cases c0 : 2 ≤ (["shocks_sdcorr", "shocks_cov", "shocks_chol"].countP fun c => hasCategory params' c)
  · rw [if_pos c0, if_pos c0]; exact .none
  rw [if_neg c0, if_neg c0]
  by_cases c1 : hasCategory params' "shocks_sdcorr" = true
  · rw [if_pos c1, if_pos c1]
    have e : (sdcorrParamsToMatrix ((ofCategory params "shocks_sdcorr").map Prod.snd)).map Prod.fst =
        (sdcorrParamsToMatrix ((ofCategory params' "shocks_sdcorr").map Prod.snd)).map Prod.fst := by
      unfold sdcorrParamsToMatrix
      have := hl "shocks_sdcorr"
      simp only [this, List.length_drop]
      split <;> rfl
    revert e
    generalize sdcorrParamsToMatrix ((ofCategory params "shocks_sdcorr").map Prod.snd) = x
    generalize sdcorrParamsToMatrix ((ofCategory params' "shocks_sdcorr").map Prod.snd) = y
    intro e
    cases optionRel_of_eq e with
    | none => exact .none
    | some h => exact .some ⟨rfl, h⟩
  rw [if_neg c1, if_neg c1]
  by_cases c2 : hasCategory params' "shocks_cov" = true
  · rw [if_pos c2, if_pos c2]
    unfold covParamsToMatrix
    have e := hc _ _ (hl "shocks_cov")
    revert e
    generalize cholParamsToMatrix ((ofCategory params "shocks_cov").map Prod.snd) = x
    generalize cholParamsToMatrix ((ofCategory params' "shocks_cov").map Prod.snd) = y
    intro e
    cases optionRel_of_eq e with
    | none => exact .none
    | some h => exact .some ⟨rfl, h⟩
  rw [if_neg c2, if_neg c2]
  by_cases c3 : hasCategory params' "shocks_chol" = true
  · rw [if_pos c3, if_pos c3]
    have e := hc _ _ (hl "shocks_chol")
    revert e
    generalize cholParamsToMatrix ((ofCategory params "shocks_chol").map Prod.snd) = x
    generalize cholParamsToMatrix ((ofCategory params' "shocks_chol").map Prod.snd) = y
    intro e
    cases optionRel_of_eq e with
    | none => exact .none
    | some h => exact .some ⟨rfl, h⟩
  rw [if_neg c3, if_neg c3]
  exact .none

theorem validateShocks_sameKeys (h : params.map Prod.fst = params'.map Prod.fst) (choices : List Str) :
    validateShocks params choices = validateShocks params' choices := by
  have e : ((params.filter fun p => mentionsShocks p.1).map fun p => p.1.2) =
      (params'.filter fun p => mentionsShocks p.1).map fun p => p.1.2 := by
    have := congrArg (List.map Prod.snd) (sameKeys_filter h mentionsShocks)
    simpa [Function.comp_def] using this
  unfold validateShocks shockNames
  simp only [e, sameKeys_hasCategory h]

theorem choiceParameters_names (h : params.map Prod.fst = params'.map Prod.fst) (category : Str) :
    (choiceParameters params category).map (List.map Prod.fst) =
      (choiceParameters params' category).map (List.map Prod.fst) := by
  unfold choiceParameters
  rw [sameKeys_any h fun k => decide (k.1 = category)]
  have := congrArg (List.map Prod.snd) (sameKeys_filter h fun k => decide (k.1 = category))
  split
  · simpa [Function.comp_def] using this
  · rfl

end Parsers

/-! ### Models -/

/-- Two processed models differ at most in numbers. -/
structure SameStructure (p p' : Processed) : Prop where
  nPeriods : p.nPeriods = p'.nPeriods
  points : p.points = p'.points
  choices : p.choices = p'.choices
  exogenous : groupsShape p.exogenous = groupsShape p'.exogenous
  observables : groupsShape p.observables = groupsShape p'.observables
  experience : (p.experience.map fun e => (groupShape e.1, e.2)) = p'.experience.map fun e => (groupShape e.1, e.2)
  measurement : p.measurement.1 = p'.measurement.1 ∧ p.measurement.2.length = p'.measurement.2.length
  nTypes : p.nTypes = p'.nTypes
  typeProb : groupShape p.typeProb = groupShape p'.typeProb
  lags : p.lags.map groupShape = p'.lags.map groupShape
  negativeChoiceSet : p.negativeChoiceSet = p'.negativeChoiceSet
  filters : p.filters = p'.filters
  groups : p.groups = p'.groups
  wage : ∀ c, (p.wage c).map (List.map Prod.fst) = (p'.wage c).map (List.map Prod.fst)
  nonpec : ∀ c, (p.nonpec c).map (List.map Prod.fst) = (p'.nonpec c).map (List.map Prod.fst)

theorem textLevels_shape {d d' : Dict Str LevelDict} (h : groupsShape d = groupsShape d') :
    textLevels d = textLevels d' := by
  have e : ∀ d : Dict Str LevelDict, textLevels d = (groupsShape d).map fun o =>
      (o.1, o.2.map fun l => (ofLex l.1).elim (fun _ => none) some) := by
    intro d
    simp only [textLevels, groupsShape, groupShape, List.map_map]
    refine List.map_congr_left fun o _ => ?_
    simp only [Function.comp, Prod.mk.injEq, true_and, List.map_map]
    refine List.map_congr_left fun l _ => ?_
    simp only [Function.comp]
    cases ofLex l.1 <;> rfl
  rw [e, e, h]

theorem defaultText_shape (nPeriods : Nat) (wExp : List Str) {e e' : List (Dict Nat (List (Str × ℝ)) × Nat)}
    (h : (e.map fun x => (groupShape x.1, x.2)) = e'.map fun x => (groupShape x.1, x.2)) :
    defaultText nPeriods (wExp.zip e) = defaultText nPeriods (wExp.zip e') := by
  funext c
  have hr : Option.Rel (fun a b => (groupShape a.1, a.2) = (groupShape b.1, b.2)) (Dict.get? (wExp.zip e) c)
      (Dict.get? (wExp.zip e') c) := by
    refine optionRel_of_eq ?_
    rw [← dict_get?_mapSnd fun x : Dict Nat (List (Str × ℝ)) × Nat => (groupShape x.1, x.2),
      ← dict_get?_mapSnd fun x : Dict Nat (List (Str × ℝ)) × Nat => (groupShape x.1, x.2)]
    have ez : ∀ l : List (Dict Nat (List (Str × ℝ)) × Nat), ((wExp.zip l).map fun kv =>
        (kv.1, (groupShape kv.2.1, kv.2.2))) = wExp.zip (l.map fun x => (groupShape x.1, x.2)) := by
      intro l
      rw [List.zip_map_right]
      rfl
    rw [ez, ez, h]
  unfold defaultText
  revert hr
  generalize Dict.get? (wExp.zip e) c = x
  generalize Dict.get? (wExp.zip e') c = y
  intro hr
  cases hr with
  | none => rfl
  | some hr =>
    rename_i a b
    obtain ⟨a1, a2⟩ := a
    obtain ⟨b1, b2⟩ := b
    simp only [Prod.mk.injEq] at hr
    obtain ⟨hr, rfl⟩ := hr
    simp only [groupShape_keys hr]

/-- Whether a model is accepted and which structure it has depends on the options, the index of the parameters and
the maximum experiences. -/
theorem processModel_sameIndex (env : ProcessEnv) (m : UserModel) (params' : Dict (Str × Str) ℝ)
    (h : m.params.map Prod.fst = params'.map Prod.fst)
    (hmax : ∀ c, (Dict.get? m.params ("maximum_exp".toList, c)).map Nat.floor =
      (Dict.get? params' ("maximum_exp".toList, c)).map Nat.floor) :
    Option.Rel SameStructure (processModel env m) (processModel env { m with params := params' }) := by
  unfold processModel
  simp only [sameKeys_names h]
  refine optionRel_bind (optionRel_refl _) ?_
  rintro covs _ rfl
  refine optionRel_bind (parseDiscount_rel h) fun _ _ _ => ?_
  refine optionRel_bind (parseExogenous_rel env.maxFloat h) fun ex ex' hex => ?_
  refine optionRel_bind (parseObservables_rel env.maxFloat h hex) fun ob ob' hob => ?_
  rw [h]
  refine optionRel_bind (optionRel_mapM (forall₂_same fun c _ =>
    parseExperience_rel env.maxFloat m.nPeriods h c (hmax c))) fun exper exper' hexper => ?_
  refine optionRel_bind (parseShocks_rel h) fun _ _ _ => ?_
  refine optionRel_bind (parseMeasurement_rel _ _ h) fun me me' hme => ?_
  refine optionRel_bind (parseTypes_rel env.maxFloat h) fun ty ty' hty => ?_
  refine optionRel_bind (parseLaggedChoices_rel env.maxFloat env.minFloat _ _ h) fun la la' hla => ?_
  simp only [Prod.mk.injEq] at hty
  have hlen : la.length = la'.length := by simpa using congrArg List.length hla
  simp only [textLevels_shape hob, defaultText_shape _ _ hexper, hty.1, hlen, groupsShape_keys hob,
    validateShocks_sameKeys h]
  refine optionRel_bind (optionRel_refl _) ?_
  rintro fi _ rfl
  refine optionRel_bind (optionRel_refl _) ?_
  rintro gr _ rfl
  split
  · exact .some ⟨rfl, rfl, rfl, hex, hob, hexper, hme, rfl, hty.2, hla, rfl, rfl, rfl,
      fun c => choiceParameters_names h _, fun c => choiceParameters_names h _⟩
  · exact .none

end Respy
