import Verif.Spec.Individuals
import Verif.Lemmas.Simulate2

/-!
# Lemmas: individuals of a simulation without exogenous processes
-/

namespace Respy

variable {K : Type _} [Field K] [LinearOrder K] {G : Type _}

/-- The continuation values of all simulated periods exist. -/
theorem simulateLoop_cvs (rs : RandomSource K G) (p : RewardParams K) (sp : SimSpace K)
    (draws drawsWage : List (List K)) (r period : Nat) (agents : List (Nat × SimState)) (g g' : G)
    (data : List (List (SimRow K)))
    (h : simulateLoop rs p sp draws drawsWage r period agents g = some (data, g')) (t : Nat) (ht : t < r) :
    ∃ cvs, sp.cvs (period + t) = some cvs := by
  induction r generalizing period agents g g' data t with
  | zero => omega
  | succ r ih =>
    unfold simulateLoop at h
    dsimp only at h
    split at h
    · obtain ⟨cvs, hcvs, h⟩ := Option.bind_eq_some_iff.1 h
      obtain ⟨rows, _, h⟩ := Option.bind_eq_some_iff.1 h
      obtain ⟨⟨next, g1⟩, _, h⟩ := Option.bind_eq_some_iff.1 h
      cases t with
      | zero => exact ⟨cvs, hcvs⟩
      | succ t =>
        split at h
        · omega
        · obtain ⟨agents', _, h⟩ := Option.bind_eq_some_iff.1 h
          obtain ⟨⟨rest, g2⟩, h2, _⟩ := Option.bind_eq_some_iff.1 h
          obtain ⟨c, hc⟩ := ih (period + 1) agents' g1 g2 rest h2 t (by omega)
          exact ⟨c, by rw [← hc]; congr 1; omega⟩
    · simp at h

/-- The conditions under which the loop returns given rows. -/
structure LoopRows (p : RewardParams K) (sp : SimSpace K) (draws drawsWage : List (List K))
    (r period : Nat) (agents : List (Nat × SimState)) (data : List (List (SimRow K))) : Prop where
  length : data.length = r
  individuals : r ≠ 0 → agents ≠ []
  start : ∀ rows, data[0]? = some rows → rows.map (fun x => (x.id, x.state)) = agents
  ids : ∀ (t : Nat) rows, data[t]? = some rows → rows.map (·.id) = agents.map Prod.fst
  cvs : ∀ t < r, ∃ cvs, sp.cvs (period + t) = some cvs
  row : ∀ (t : Nat) rows, data[t]? = some rows → ∀ (i : Nat) row, rows[i]? = some row →
    row.state.core.period = period + t ∧
    draws[agents.length * (period + t) + i]? = some row.base ∧
    drawsWage[agents.length * (period + t) + i]? = some row.baseWage ∧
    ∃ cvs, sp.cvs (period + t) = some cvs ∧
      simulateRow p sp (period + t) cvs row.id row.state row.base row.baseWage = some row
  step : ∀ (t : Nat) rows rows', data[t]? = some rows → data[t + 1]? = some rows' →
    ∀ (i : Nat) row row', rows[i]? = some row → rows'[i]? = some row' → IsStep sp row row'.state

/-- A simulation of some periods has individuals. -/
theorem simulateLoop_individuals (rs : RandomSource K G) (p : RewardParams K) (sp : SimSpace K)
    (draws drawsWage : List (List K)) (r period : Nat) (agents : List (Nat × SimState)) (g g' : G)
    (data : List (List (SimRow K)))
    (h : simulateLoop rs p sp draws drawsWage r period agents g = some (data, g')) (hr : r ≠ 0) : agents ≠ [] := by
  cases r with
  | zero => exact absurd rfl hr
  | succ r =>
    rintro rfl
    unfold simulateLoop at h
    dsimp only at h
    split at h
    · rename_i hl
      exact hl.2.2 rfl
    · simp at h

theorem simulateLoop_loopRows (rs : RandomSource K G) (hrs : rs.Contract) (p : RewardParams K)
    (sp : SimSpace K) (draws drawsWage : List (List K)) (r period : Nat)
    (agents : List (Nat × SimState)) (g g' : G) (data : List (List (SimRow K)))
    (hper : ∀ a ∈ agents, a.2.core.period = period)
    (h : simulateLoop rs p sp draws drawsWage r period agents g = some (data, g')) :
    LoopRows p sp draws drawsWage r period agents data := by
  obtain ⟨h1, h2, h3, h4⟩ := simulateLoop_spec rs hrs p sp draws drawsWage r period agents g g' data hper h
  exact ⟨h1, simulateLoop_individuals rs p sp draws drawsWage r period agents g g' data h, h2,
    fun t rows ht => (h3 t rows ht).1,
    simulateLoop_cvs rs p sp draws drawsWage r period agents g g' data h,
    fun t rows ht => (h3 t rows ht).2, h4⟩

theorem drop_take_getElem? {α : Type _} (l : List α) (n k i : Nat) (hi : i < n) :
    ((l.drop k).take n)[i]? = l[k + i]? := by
  rw [List.getElem?_take, if_pos hi, List.getElem?_drop]

theorem drop_take_length {α : Type _} (l : List α) (n k : Nat)
    (h : ∀ i < n, ∃ a, l[k + i]? = some a) : ((l.drop k).take n).length = n := by
  rw [List.length_take, List.length_drop]
  cases n with
  | zero => simp
  | succ n =>
    obtain ⟨a, ha⟩ := h n (by omega)
    have := (List.getElem?_eq_some_iff.1 ha).1
    omega

/-- Without exogenous processes the loop returns the rows which fulfill the conditions. -/
theorem LoopRows.loop {p : RewardParams K} {sp : SimSpace K} (hx : sp.nExog = 0)
    {draws drawsWage : List (List K)} {r period : Nat} {agents : List (Nat × SimState)}
    {data : List (List (SimRow K))} (rs : RandomSource K G) (g : G)
    (hper : ∀ a ∈ agents, a.2.core.period = period)
    (h : LoopRows p sp draws drawsWage r period agents data) :
    simulateLoop rs p sp draws drawsWage r period agents g = some (data, g) := by
  induction r generalizing period agents data with
  | zero =>
    have : data = [] := List.length_eq_zero_iff.1 h.length
    subst this; rfl
  | succ r ih =>
    cases data with
    | nil => have := h.length; simp at this
    | cons rows rest =>
      have hmap := h.start rows rfl
      have hrlen : rows.length = agents.length := by rw [← hmap, List.length_map]
      obtain ⟨cvs, hcvs⟩ := h.cvs 0 (by omega)
      have hrow := h.row 0 rows rfl
      have hgetr : ∀ i < agents.length, ∃ row, rows[i]? = some row := fun i hi =>
        ⟨rows[i], List.getElem?_eq_getElem (by omega)⟩
      have hl1 : ((draws.drop (agents.length * period)).take agents.length).length = agents.length := by
        refine drop_take_length _ _ _ fun i hi => ?_
        obtain ⟨row, hr⟩ := hgetr i hi
        exact ⟨_, (hrow i row hr).2.1⟩
      have hl2 : ((drawsWage.drop (agents.length * period)).take agents.length).length =
          agents.length := by
        refine drop_take_length _ _ _ fun i hi => ?_
        obtain ⟨row, hr⟩ := hgetr i hi
        exact ⟨_, (hrow i row hr).2.2.1⟩
      have hcur : (agents.filter fun a => decide (a.2.core.period = period)) = agents :=
        List.filter_eq_self.2 fun a ha => by simpa using hper a ha
      have hm : (agents.zip (((draws.drop (agents.length * period)).take agents.length).zip
          ((drawsWage.drop (agents.length * period)).take agents.length))).mapM
          (fun x => simulateRow p sp period cvs x.1.1 x.1.2 x.2.1 x.2.2) = some rows := by
        rw [mapM_eq_some_iff, List.forall₂_iff_get]
        refine ⟨by simp [hl1, hl2, hrlen], fun i h1 h2 => ?_⟩
        have hi : i < agents.length := by omega
        have hr : rows[i]? = some rows[i] := List.getElem?_eq_getElem h2
        obtain ⟨_, e2, e3, cvs', hc', hs⟩ := hrow i rows[i] hr
        rw [hcvs] at hc'
        cases hc'
        have ha : agents[i] = (rows[i].id, rows[i].state) := by
          have : (rows.map (fun x => (x.id, x.state)))[i]? = agents[i]? := by rw [hmap]
          rw [List.getElem?_map, hr, List.getElem?_eq_getElem hi] at this
          exact (Option.some.inj this).symm
        have hb : ((draws.drop (agents.length * period)).take agents.length)[i]'(by omega) =
            rows[i].base := by
          have := drop_take_getElem? draws agents.length (agents.length * period) i hi
          rw [List.getElem?_eq_getElem (by omega)] at this
          exact Option.some.inj (this.trans e2)
        have hbw : ((drawsWage.drop (agents.length * period)).take agents.length)[i]'(by omega) =
            rows[i].baseWage := by
          have := drop_take_getElem? drawsWage agents.length (agents.length * period) i hi
          rw [List.getElem?_eq_getElem (by omega)] at this
          exact Option.some.inj (this.trans e3)
        simp only [List.get_eq_getElem, List.getElem_zip, ha, hb, hbw]
        exact hs
      unfold simulateLoop
      simp only [hcur]
      rw [if_pos ⟨hl1, hl2, h.individuals (by omega)⟩]
      simp only [Nat.add_zero] at hcvs
      simp only [hcvs, hm, nextDenseKeys, hx, if_true, Option.bind_eq_bind, Option.bind_some]
      split
      · rename_i hr0
        have : rest = [] := by
          have := h.length; subst hr0; simpa using this
        subst this; rfl
      · rename_i hr0
        have hlen : rest.length = r := by have := h.length; simpa using this
        obtain ⟨rows', hrows'⟩ : ∃ rows', rest[0]? = some rows' :=
          ⟨rest[0]'(by omega), List.getElem?_eq_getElem (by omega)⟩
        have hids' := h.ids 1 rows' (by simpa using hrows')
        have hids := h.ids 0 rows rfl
        have hrlen' : rows'.length = agents.length := by
          rw [← List.length_map (f := (·.id)), hids', List.length_map]
        have hag : (rows.zipIdx.mapM fun x => do
            let s ← nextState sp x.1 (Dict.get? [] x.2)
            pure (x.1.id, s)) = some (rows'.map fun x => (x.id, x.state)) := by
          rw [mapM_eq_some_iff, List.forall₂_iff_get]
          refine ⟨by simp [hrlen, hrlen'], fun i h1 h2 => ?_⟩
          simp only [List.length_zipIdx] at h1
          simp only [List.length_map] at h2
          obtain ⟨hc, hd, _⟩ := h.step 0 rows rows' rfl (by simpa using hrows') i rows[i] rows'[i]
            (List.getElem?_eq_getElem h1) (List.getElem?_eq_getElem h2)
          have hid : rows[i].id = rows'[i].id := by
            have e : (rows.map (·.id))[i]? = (rows'.map (·.id))[i]? := by rw [hids, hids']
            rw [List.getElem?_map, List.getElem?_map, List.getElem?_eq_getElem h1,
              List.getElem?_eq_getElem h2] at e
            exact Option.some.inj e
          simp only [List.get_eq_getElem, List.getElem_zipIdx, List.getElem_map, nextState, hx, if_true,
            Option.bind_eq_bind, Option.bind_some, Option.pure_def, Option.some.injEq, Prod.mk.injEq]
          refine ⟨hid, ?_⟩
          rw [← hc, ← hd hx]
        simp only [Option.bind_eq_bind] at hag
        rw [hag]
        simp only [Option.bind_some]
        have hlen2 : (rows'.map fun x => (x.id, x.state)).length = agents.length := by
          rw [List.length_map, hrlen']
        have := ih (period := period + 1) (agents := rows'.map fun x => (x.id, x.state)) (data := rest)
          (by
            intro a ha
            obtain ⟨x, hx', rfl⟩ := List.mem_map.1 ha
            obtain ⟨i, hi⟩ := List.getElem?_of_mem hx'
            exact (h.row 1 rows' (by simpa using hrows') i x hi).1)
          { length := hlen
            individuals := fun _ => by
              rw [← List.length_pos_iff, hlen2]
              exact List.length_pos_iff.2 (h.individuals (by omega))
            start := fun rows'' h'' => by rw [hrows'] at h''; cases h''; rfl
            ids := fun t rows'' h'' => by
              rw [h.ids (t + 1) rows'' (by simpa using h''), ← hids', List.map_map]; rfl
            cvs := fun t ht => by
              obtain ⟨c, hc⟩ := h.cvs (t + 1) (by omega)
              exact ⟨c, by rw [← hc]; congr 1; omega⟩
            row := fun t rows'' h'' i row hi => by
              rw [hlen2, show period + 1 + t = period + (t + 1) by omega]
              exact h.row (t + 1) rows'' (by simpa using h'') i row hi
            step := fun t a b ha hb => h.step (t + 1) a b (by simpa using ha) (by simpa using hb) }
        rw [this]
        rfl

end Respy
