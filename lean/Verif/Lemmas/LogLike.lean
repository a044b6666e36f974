import Verif.Spec.LogLikeModel
import Verif.Lemmas.LogLikeRow
import Verif.Lemmas.SimulateSolved
import Verif.Lemmas.DictUpdate

/-! Helper lemmas: the log likelihood of all rows of the data. -/

namespace Respy

noncomputable section

variable {P : Type}

/-! ### Continuation values of all periods -/

theorem mapM_keys {β : Type _} (f : Nat → Option (Nat × β)) (h : ∀ k y, f k = some y → y.1 = k)
    (l : List Nat) (d : Dict Nat β) (hd : l.mapM f = some d) : Dict.keys d = l := by
  have := map_eq_of_forall₂ (fun k : Nat => k) (fun y : Nat × β => y.1)
    (((mapM_eq_some_iff f l d).1 hd).imp fun a b hab => h a b hab)
  simpa [Dict.keys] using this

theorem continuationValues_keys {K : Type} [Field K] [LinearOrder K] (ss : SolveSpace)
    (tr : Dict Nat (List (Nat × List K))) (ev : Dict Nat (List K)) (t : Nat)
    (cvs : Dict Nat (List (List K))) (h : continuationValues ss tr ev t = some cvs) :
    Dict.keys cvs = ss.keysOfPeriod t := by
  unfold continuationValues at h
  split at h
  · refine mapM_keys _ ?_ _ _ h
    intro k y hy
    simp only [Option.bind_eq_bind, Option.bind_eq_some_iff, Option.pure_def, Option.some.injEq] at hy
    obtain ⟨_, _, _, _, rfl⟩ := hy
    rfl
  · obtain ⟨c, hc, h⟩ := Option.bind_eq_some_iff.1 h
    cases htr : ss.transit with
    | none =>
      rw [htr] at h
      cases h
      refine mapM_keys _ ?_ _ _ hc
      intro k y hy
      simp only [Option.bind_eq_bind, Option.bind_eq_some_iff, Option.pure_def, Option.some.injEq] at hy
      obtain ⟨_, _, rfl⟩ := hy
      rfl
    | some reps =>
      rw [htr] at h
      refine mapM_keys _ ?_ _ _ h
      intro k y hy
      simp only [Option.bind_eq_bind, Option.bind_eq_some_iff, Option.pure_def, Option.some.injEq] at hy
      obtain ⟨_, _, _, _, _, _, _, _, rfl⟩ := hy
      rfl

theorem keysOfPeriod_nodup' (ss : SolveSpace) (t : Nat) : (ss.keysOfPeriod t).Nodup :=
  List.nodup_range.filter _

/-- The union over periods contains the continuation values of the period of each dense key. -/
theorem Estimation.continuations_spec (e : Estimation P) (ss : SolveSpace)
    (tr : Dict Nat (List (Nat × List ℝ))) (ev : Dict Nat (List ℝ)) (sp : SimSpace ℝ)
    (hsp : sp.cvs = continuationValues ss tr ev)
    (h : ∀ t < e.nPeriods, ∃ cvs, continuationValues ss tr ev t = some cvs) :
    ∃ d, e.continuations sp = some d ∧ ∀ (k : Nat) c, ss.complexes[k]? = some c → c.period < e.nPeriods →
      ∃ cvs, continuationValues ss tr ev c.period = some cvs ∧ Dict.get? d k = Dict.get? cvs k := by
  unfold Estimation.continuations
  generalize e.nPeriods = n at h ⊢
  induction n with
  | zero => exact ⟨[], rfl, fun _ _ _ h => absurd h (by omega)⟩
  | succ n ih =>
    obtain ⟨d, hd, hk⟩ := ih fun t ht => h t (by omega)
    obtain ⟨cvs, hcvs⟩ := h n (by omega)
    have hkeys := continuationValues_keys _ _ _ _ _ hcvs
    have hnd : (Dict.keys cvs).Nodup := by rw [hkeys]; exact keysOfPeriod_nodup' _ _
    refine ⟨Dict.update d cvs, ?_, ?_⟩
    · rw [List.range_succ, List.foldlM_append, hd]
      simp [hsp, hcvs]
    · intro k c hc hlt
      by_cases hp : c.period = n
      · refine ⟨cvs, by rw [hp]; exact hcvs, ?_⟩
        have hmem : k ∈ Dict.keys cvs := by rw [hkeys]; exact (mem_keysOfPeriod _ _ _).2 ⟨c, hc, hp⟩
        obtain ⟨⟨k', v⟩, hkv, hk'⟩ := List.mem_map.1 hmem
        simp only at hk'; subst hk'
        rw [get?_update_of_mem d cvs hnd _ v hkv, Dict.get?_of_mem cvs hnd _ v hkv]
      · obtain ⟨cvs', h1, h2⟩ := hk k c hc (by omega)
        refine ⟨cvs', h1, ?_⟩
        rw [get?_update_of_not_mem, h2]
        rw [hkeys, mem_keysOfPeriod]
        rintro ⟨c', hc', hp'⟩
        rw [hc] at hc'; cases hc'
        exact hp hp'

/-! ### Rows of the data and types -/

theorem EstimationRow.withType_fields (n t : Nat) (r : EstimationRow) :
    (r.withType n t).id = r.id ∧ (r.withType n t).state.core = r.state.core ∧
      (r.withType n t).choice = r.choice ∧ (r.withType n t).wage = r.wage := ⟨rfl, rfl, rfl, rfl⟩

/-- The row for type `t`. -/
def Estimation.typed (e : Estimation P) (r : EstimationRow) (t : Nat) : EstimationRow :=
  { r with state := e.stateOf r t }

theorem Estimation.typedRows_eq (e : Estimation P) :
    e.typedRows = (List.range e.typeCount).flatMap fun t => e.sorted.map fun r => (e.typed r t, t) := by
  unfold Estimation.typedRows Estimation.typeCount Estimation.typed Estimation.stateOf
  split
  · rfl
  · simp

theorem Estimation.sorted_perm (e : Estimation P) : e.sorted.Perm e.data :=
  List.perm_insertionSort _ _

theorem Estimation.mem_typedRows (e : Estimation P) (rt : EstimationRow × Nat) :
    rt ∈ e.typedRows ↔ ∃ r ∈ e.data, ∃ t < e.typeCount, rt = (e.typed r t, t) := by
  rw [e.typedRows_eq]
  simp only [List.mem_flatMap, List.mem_range, List.mem_map, e.sorted_perm.mem_iff]
  constructor
  · rintro ⟨t, ht, r, hr, rfl⟩; exact ⟨r, hr, t, ht, rfl⟩
  · rintro ⟨r, hr, t, ht, rfl⟩; exact ⟨t, ht, r, hr, rfl⟩

/-- Individual, period and type of a row. -/
def labelOf (rt : EstimationRow × Nat) : Nat × Nat × Nat := (rt.1.id, rt.1.state.core.period, rt.2)

theorem Estimation.stateOf_core (e : Estimation P) (r : EstimationRow) (t : Nat) :
    (e.stateOf r t).core = r.state.core := by
  unfold Estimation.stateOf; split <;> rfl

theorem Estimation.labelOf_typed (e : Estimation P) (r : EstimationRow) (t : Nat) :
    labelOf (e.typed r t, t) = (r.id, r.state.core.period, t) := by
  show (r.id, (e.stateOf r t).core.period, t) = _
  rw [e.stateOf_core]

theorem Estimation.labels_nodup (e : Estimation P)
    (h : (e.data.map fun r => (r.id, r.state.core.period)).Nodup) :
    (e.typedRows.map labelOf).Nodup := by
  have hs : (e.sorted.map fun r => (r.id, r.state.core.period)).Nodup :=
    (e.sorted_perm.map _).nodup_iff.2 h
  rw [e.typedRows_eq, List.map_flatMap, List.nodup_flatMap]
  constructor
  · intro t _
    rw [List.map_map]
    have : (labelOf ∘ fun r => (e.typed r t, t)) =
        (fun o : Nat × Nat => (o.1, o.2, t)) ∘ fun r : EstimationRow => (r.id, r.state.core.period) := by
      funext r; exact e.labelOf_typed r t
    rw [this, ← List.map_map]
    exact hs.map fun a b hab => by
      simp only [Prod.mk.injEq, and_true] at hab
      exact Prod.ext hab.1 hab.2
  · refine List.Pairwise.imp ?_ List.nodup_range
    intro t t' htt
    rw [Function.onFun, List.disjoint_left]
    intro l hl hl'
    simp only [List.map_map, List.mem_map, Function.comp, e.labelOf_typed] at hl hl'
    obtain ⟨r, _, rfl⟩ := hl
    obtain ⟨r', _, heq⟩ := hl'
    simp only [Prod.mk.injEq] at heq
    exact htt heq.2.2.symm

/-! ### Values at the rows as functions of their labels -/

theorem exists_fun_of_nodup {α β κ : Type _} [Inhabited β] (l : List α) (key : α → κ)
    (hnd : (l.map key).Nodup) (Q : Nat → α → β → Prop)
    (h : ∀ (i : Nat) a, l[i]? = some a → ∃ y, Q i a y) :
    ∃ f : κ → β, ∀ (i : Nat) a, l[i]? = some a → Q i a (f (key a)) := by
  have hex : ∀ k, ∃ y, ∀ (i : Nat) a, l[i]? = some a → key a = k → Q i a y := by
    intro k
    by_cases h' : ∃ (i : Nat) (a : α), l[i]? = some a ∧ key a = k
    · obtain ⟨i, a, hi, rfl⟩ := h'
      obtain ⟨y, hy⟩ := h i a hi
      refine ⟨y, fun j a' hj hk => ?_⟩
      have hij : j = i := by
        have hlt : j < (l.map key).length := by
          rw [List.length_map]; exact (List.getElem?_eq_some_iff.1 hj).1
        refine (List.getElem?_inj hlt hnd).1 ?_
        rw [List.getElem?_map, List.getElem?_map, hj, hi, Option.map_some, Option.map_some, hk]
      subst hij
      rw [hi] at hj; cases hj
      exact hy
    · exact ⟨default, fun i a hi hk => absurd ⟨i, a, hi, hk⟩ h'⟩
  choose f hf using hex
  exact ⟨f, fun i a hi => hf _ i a hi rfl⟩

/-! ### Base draws -/

theorem countP_take_lt {α : Type _} (p : α → Bool) (l : List α) (n : Nat) (a : α) (hn : l[n]? = some a)
    (ha : p a = true) : (l.take n).countP p < l.countP p := by
  obtain ⟨hlt, hget⟩ := List.getElem?_eq_some_iff.1 hn
  conv_rhs => rw [← List.take_append_drop n l, List.countP_append, List.drop_eq_getElem_cons hlt]
  rw [List.countP_cons, hget, ha]
  simp

theorem countP_take_mono {α : Type _} (p : α → Bool) (l : List α) (n n' : Nat) (h : n < n') (a : α)
    (hn : l[n]? = some a) (ha : p a = true) : (l.take n).countP p < (l.take n').countP p := by
  have h1 := countP_take_lt p (l.take n') n a (by rw [List.getElem?_take, if_pos h, hn]) ha
  rwa [List.take_take, Nat.min_eq_left h.le] at h1

/-- The dense keys in the order in which base draws are created. -/
def drawKeys (rows : List LocatedRow) : List Nat := (rows.map (·.key)).dedup.insertionSort (· ≤ ·)

theorem drawKeys_nodup (rows : List LocatedRow) : (drawKeys rows).Nodup :=
  (List.perm_insertionSort _ _).nodup_iff.2 (List.nodup_dedup _)

theorem mem_drawKeys (rows : List LocatedRow) (k : Nat) : k ∈ drawKeys rows ↔ ∃ r ∈ rows, r.key = k := by
  unfold drawKeys
  rw [(List.perm_insertionSort _ _).mem_iff, List.mem_dedup, List.mem_map]

theorem Estimation.baseDraws_spec (e : Estimation P) (sp : SimSpace ℝ) (rows : List LocatedRow)
    (h : ∀ r ∈ rows, ∃ c, sp.complexes[r.key]? = some c) :
    ∃ base, e.baseDraws sp rows = some base ∧ ∀ r ∈ rows, ∀ c, sp.complexes[r.key]? = some c →
      Dict.get? base r.key = some (e.base (rows.countP fun x => x.key = r.key) (c.choiceSet.count true)
        (e.seed + (drawKeys rows).idxOf r.key)) := by
  classical
  let g : Nat → Nat := fun k => ((sp.complexes[k]?).map fun c => c.choiceSet.count true).getD 0
  have hm : e.baseDraws sp rows = some ((drawKeys rows).zipIdx.map fun kj =>
      (kj.1, e.base (rows.countP fun r => r.key = kj.1) (g kj.1) (e.seed + kj.2))) := by
    unfold Estimation.baseDraws
    refine mapM_some_map _ _ _ ?_
    rintro ⟨k, j⟩ hk
    have hk' : k ∈ drawKeys rows := List.fst_mem_of_mem_zipIdx hk
    obtain ⟨r, hr, rfl⟩ := (mem_drawKeys _ _).1 hk'
    obtain ⟨c, hc⟩ := h r hr
    simp [hc, g]
  refine ⟨_, hm, ?_⟩
  intro r hr c hc
  have hk : r.key ∈ drawKeys rows := (mem_drawKeys _ _).2 ⟨r, hr, rfl⟩
  have hlt := List.idxOf_lt_length_of_mem hk
  have hkeys : Dict.keys ((drawKeys rows).zipIdx.map fun kj =>
      (kj.1, e.base (rows.countP fun r => r.key = kj.1) (g kj.1) (e.seed + kj.2))) = drawKeys rows := by
    simp only [Dict.keys, List.map_map, Function.comp_def]
    exact List.zipIdx_map_fst _ _
  apply Dict.get?_of_mem _ (by rw [hkeys]; exact drawKeys_nodup rows)
  refine List.mem_map.2 ⟨(r.key, (drawKeys rows).idxOf r.key), ?_, ?_⟩
  · rw [List.mem_zipIdx_iff_getElem?]
    simp only
    rw [List.getElem?_eq_getElem hlt, List.getElem_idxOf]
  · simp only [g, hc, Option.map_some, Option.getD_some]

/-! ### All rows -/

instance : Inhabited LikelihoodTerm := ⟨⟨0, 0, []⟩⟩

/-- Individual, period and type of a located row. -/
def LocatedRow.label (x : LocatedRow) : Nat × Nat × Nat := (x.row.id, x.row.state.core.period, x.type)

/-- Seed and row of the base draws. -/
def Estimation.sourceOf (e : Estimation P) (rows : List LocatedRow) (i q t : Nat) : Nat × Nat :=
  match rows.findIdx? (fun x => decide (x.label = (i, q, t))) with
  | none => (0, 0)
  | some n => match rows[n]? with
    | none => (0, 0)
    | some x => (e.seed + (drawKeys rows).idxOf x.key, (rows.take n).countP fun r => decide (r.key = x.key))

/-- Shape of the array of base draws with a seed. -/
def Estimation.sizeOf (e : Estimation P) (complexes : List Complex) (rows : List LocatedRow) (s : Nat) : Nat × Nat :=
  let k := (drawKeys rows).getD (s - e.seed) 0
  (rows.countP fun x => x.key = k, ((complexes[k]?).map fun c => c.choiceSet.count true).getD 0)

theorem Estimation.sourceOf_spec (e : Estimation P) (rows : List LocatedRow)
    (hnd : (rows.map LocatedRow.label).Nodup) (n : Nat) (x : LocatedRow) (hx : rows[n]? = some x) :
    e.sourceOf rows x.label.1 x.label.2.1 x.label.2.2 = (e.seed + (drawKeys rows).idxOf x.key,
      (rows.take n).countP fun r => decide (r.key = x.key)) := by
  have hf : rows.findIdx? (fun y => decide (y.label = (x.label.1, x.label.2.1, x.label.2.2))) = some n := by
    rw [List.findIdx?_eq_some_iff_getElem]
    obtain ⟨hlt, hget⟩ := List.getElem?_eq_some_iff.1 hx
    refine ⟨hlt, by simp [hget], ?_⟩
    intro j hj
    simp only [Prod.mk.eta, Bool.not_eq_true, decide_eq_false_iff_not]
    intro heq
    have hj' : j < (rows.map LocatedRow.label).length := by rw [List.length_map]; omega
    have : j = n := by
      refine (List.getElem?_inj hj' hnd).1 ?_
      rw [List.getElem?_map, List.getElem?_map, hx, List.getElem?_eq_getElem (by omega), Option.map_some,
        Option.map_some, heq]
    omega
  unfold Estimation.sourceOf
  rw [hf]
  simp only [hx]

/-- What is known about a row after locating it. -/
theorem Built.Solved.located_row {b : BuildSpec} {core : List CoreState} {bt : Built}
    {par : ParamObjects ℝ} {w m : Option Nat → CoreState → Nat → ℝ}
    {future : Option Nat → CoreState → List (Option Nat × ℝ)}
    (hs : bt.Solved b core par w m future) {ev : Dict Nat (List ℝ)}
    (hev : SameShape (initialValues bt.space) ev) {V : Option Nat → CoreState → ℝ}
    (hV : ∀ d ∈ b.denseIndices, ∀ s ∈ core, bt.ValueAt ev d s (V d s)) (vc ko : List Nat → List Nat)
    (s : SimState) (hsc : s.core ∈ core) (d : Option Nat) (hd : b.HasIndex s.dense d)
    (cvs : Dict Nat (List (List ℝ)))
    (hcvs : ∀ (k : Nat) c, bt.space.complexes[k]? = some c → c.period < b.core.nPeriods →
      ∃ cv, continuationValues bt.space par.transition ev c.period = some cv ∧
        Dict.get? cvs k = Dict.get? cv k) :
    ∃ dk pos wages nonpecs cv, (bt.simSpace b par ev vc ko).locate s = some (dk, pos) ∧
      bt.space.complexes[dk]? = some ⟨s.core.period, b.choiceSetAt d s.core, d⟩ ∧
      Dict.get? par.wages dk = some wages ∧ Dict.get? par.nonpecs dk = some nonpecs ∧
      Dict.get? cvs dk = some cv ∧
      wages[pos]? = some ((validChoices (b.choiceSetAt d s.core)).map (w d s.core)) ∧
      nonpecs[pos]? = some ((validChoices (b.choiceSetAt d s.core)).map (m d s.core)) ∧
      cv[pos]? = some ((validChoices (b.choiceSetAt d s.core)).map (continuationOf b future V d s.core)) := by
  obtain ⟨tr, hsnd⟩ := hs.sound
  obtain ⟨draws, hfit⟩ := hs.fit
  obtain ⟨ck, pos, dk, sts, hloc, h3, h4, h5, h6⟩ := hsnd.simSpace_locate hs.dpc hs.nodup par ev vc ko s hsc d hd
  have hlt := createCore_period _ _ hs.wf.created s.core hsc
  obtain ⟨cvs', q1, q2⟩ := hs.cont ev hev s.core.period (by rw [hsnd.nPeriods]; exact hlt)
  obtain ⟨cv, r1, r2⟩ := hcvs dk _ h3 hlt
  rw [q1] at r1; cases r1
  obtain ⟨arr, q3, q4⟩ := q2 dk _ sts h3 rfl h5
  obtain ⟨c, q5, q6, q7⟩ := q4 pos s.core h6
  refine ⟨dk, pos, _, _, arr, hloc, h3, hfit.wages dk _ sts h3 h5, hfit.nonpecs dk _ sts h3 h5, by rw [r2, q3],
    by rw [List.getElem?_map, h6]; rfl, by rw [List.getElem?_map, h6]; rfl, ?_⟩
  rw [q5]
  congr 1
  apply List.ext_getElem?
  intro j
  rw [List.getElem?_map]
  cases hj : (validChoices (b.choiceSetAt d s.core))[j]? with
  | none =>
    rw [Option.map_none, List.getElem?_eq_none_iff, q6]
    rw [List.getElem?_eq_none_iff, length_validChoices] at hj
    exact hj
  | some a =>
    obtain ⟨x, x1, x2, x3⟩ := q7 j a hj
    have ha : (b.choiceSetAt d s.core)[a]? = some true := (mem_validChoices _ _).1 (List.mem_of_getElem? hj)
    rw [hsnd.nPeriods] at x2 x3
    rw [x1, Option.map_some]
    congr 1
    unfold continuationOf
    by_cases hl : s.core.period + 1 = b.core.nPeriods
    · rw [if_pos hl, x2 hl]
    · rw [if_neg hl]
      apply x3 hl (fun d' => V d' (lawOfMotion s.core a))
      intro fp hfp
      exact hV _ (hs.future_mem d hd.mem s.core hsc fp hfp) _
        (hs.wf.closed s.core hsc (by omega) d hd.mem a ha)

/-- The choice probability of a term is simulated with the factor which does not depend on the draws. -/
def TermUses (b : BuildSpec) (w m : Option Nat → CoreState → Nat → ℝ)
    (future : Option Nat → CoreState → List (Option Nat × ℝ)) (V : Option Nat → CoreState → ℝ)
    (e : Estimation P) (p : LikelihoodParams) (r : EstimationRow) (t : Nat) (x : LikelihoodTerm) : Prop :=
  ∃ d, b.HasIndex (e.stateOf r t).dense d ∧ b.Admissible d r.state.core r.choice ∧
    e.FactorUsed p (b.choiceSetAt d r.state.core) r.choice r.wage (w d r.state.core) (m d r.state.core)
      (continuationOf b future V d r.state.core) (e.factorUsed p (b.choiceSetAt d r.state.core) r.choice r.wage
        (w d r.state.core) (m d r.state.core) (continuationOf b future V d r.state.core)) ∧
    x.prob = e.simulatedProb p (b.choiceSetAt d r.state.core) r.choice r.wage (w d r.state.core) (m d r.state.core)
      (continuationOf b future V d r.state.core) (e.factorUsed p (b.choiceSetAt d r.state.core) r.choice r.wage
        (w d r.state.core) (m d r.state.core) (continuationOf b future V d r.state.core))
      (x.draws.map (shocksOf (b.choiceSetAt d r.state.core)))

theorem Built.Solved.loglikeRows {b : BuildSpec} {core : List CoreState} {bt : Built}
    {par : ParamObjects ℝ} {w m : Option Nat → CoreState → Nat → ℝ}
    {future : Option Nat → CoreState → List (Option Nat × ℝ)}
    (hs : bt.Solved b core par w m future) {ev : Dict Nat (List ℝ)}
    (hev : SameShape (initialValues bt.space) ev) {V : Option Nat → CoreState → ℝ}
    (hV : ∀ d ∈ b.denseIndices, ∀ s ∈ core, bt.ValueAt ev d s (V d s)) (vc ko : List Nat → List Nat)
    (e : Estimation P) (params : P) (hfits : e.Fits b core w params) :
    ∃ (rows : List LocatedRow) (term : Nat × Nat × Nat → LikelihoodTerm),
      e.located (bt.simSpace b par ev vc ko) = some rows ∧
      (∀ r ∈ e.data, ∀ t < e.typeCount, TermFollows b w m future V e (e.params params)
        (e.sizeOf bt.space.complexes rows) (e.sourceOf rows r.id r.state.core.period t) r t
        (term (r.id, r.state.core.period, t)) ∧
        TermUses b w m future V e (e.params params) r t (term (r.id, r.state.core.period, t))) ∧
      (∀ r ∈ e.data, ∀ t < e.typeCount, ∀ r' ∈ e.data, ∀ t' < e.typeCount,
        e.sourceOf rows r.id r.state.core.period t = e.sourceOf rows r'.id r'.state.core.period t' →
        r = r' ∧ t = t') ∧
      e.loglikeRows (e.params params) (bt.simSpace b par ev vc ko) = some (e.typedRows.map fun rt =>
        ⟨rt.1.id, rt.1.state.core.period, rt.2, clip e.lo e.hi (Real.log (term (labelOf rt)).prob),
          clip e.lo e.hi (Real.log (term (labelOf rt)).density)⟩) := by
  classical
  set sp := bt.simSpace b par ev vc ko with hsp
  set p := e.params params with hp
  obtain ⟨tr, hsnd⟩ := hs.sound
  obtain ⟨cvs, hcvs, hcv⟩ := e.continuations_spec bt.space par.transition ev sp rfl (by
    intro t ht
    obtain ⟨c, hc, _⟩ := hs.cont ev hev t (by rw [hsnd.nPeriods, ← hfits.periods]; exact ht)
    exact ⟨c, hc⟩)
  rw [hfits.periods] at hcv
  -- the rows are found
  have hrow : ∀ rt ∈ e.typedRows, ∃ r ∈ e.data, ∃ t < e.typeCount, rt = (e.typed r t, t) ∧ ∃ d dk pos wages nonpecs cv,
      b.HasIndex (e.stateOf r t).dense d ∧ b.Admissible d r.state.core r.choice ∧
      (∀ y, r.wage = some y → ObservationWF e.hi p.hasMeasError p.nWagesRaw p.cholesky
        (b.choiceSetAt d r.state.core) p.measError (w d r.state.core) r.choice y) ∧
      r.state.core ∈ core ∧
      sp.locate rt.1.state = some (dk, pos) ∧
      bt.space.complexes[dk]? = some ⟨r.state.core.period, b.choiceSetAt d r.state.core, d⟩ ∧
      Dict.get? par.wages dk = some wages ∧ Dict.get? par.nonpecs dk = some nonpecs ∧
      Dict.get? cvs dk = some cv ∧
      wages[pos]? = some ((validChoices (b.choiceSetAt d r.state.core)).map (w d r.state.core)) ∧
      nonpecs[pos]? = some ((validChoices (b.choiceSetAt d r.state.core)).map (m d r.state.core)) ∧
      cv[pos]? = some ((validChoices (b.choiceSetAt d r.state.core)).map
        (continuationOf b future V d r.state.core)) := by
    intro rt hrt
    obtain ⟨r, hr, t, ht, rfl⟩ := (e.mem_typedRows rt).1 hrt
    obtain ⟨hc, hst⟩ := hfits.states r hr
    obtain ⟨d, hd, hadm, hwage⟩ := hst t ht
    obtain ⟨dk, pos, wages, nonpecs, cv, g1, g2, g3, g4, g5, g6, g7, g8⟩ := hs.located_row hev hV vc ko (e.stateOf r t)
      (by rw [e.stateOf_core]; exact hc) d hd cvs hcv
    rw [e.stateOf_core] at g2 g6 g7 g8
    exact ⟨r, hr, t, ht, rfl, d, dk, pos, wages, nonpecs, cv, hd, hadm, hwage, hc, g1, g2, g3, g4, g5, g6, g7, g8⟩
  obtain ⟨rows, hrows, hlen, hget⟩ := mapM_option_exists e.typedRows (fun rt => (do
      let (k, i) ← sp.locate rt.1.state
      pure ⟨rt.1, rt.2, k, i⟩ : Option LocatedRow)) (by
    intro rt hrt
    obtain ⟨r, hr, t, ht, _, d, dk, pos, wages, nonpecs, cv, _, _, _, _, g1, _⟩ := hrow rt hrt
    exact ⟨_, by rw [g1]; rfl⟩)
  have hloc : e.located sp = some rows := hrows
  have hget' : ∀ (n : Nat) rt, e.typedRows[n]? = some rt → ∃ x, rows[n]? = some x ∧ x.row = rt.1 ∧
      x.type = rt.2 ∧ sp.locate rt.1.state = some (x.key, x.index) := by
    intro n rt hn
    obtain ⟨x, hx, hf⟩ := hget n rt hn
    obtain ⟨ki, h1, h2⟩ := Option.bind_eq_some_iff.1 hf
    obtain ⟨k, i⟩ := ki
    cases h2
    exact ⟨_, hx, rfl, rfl, h1⟩
  have hback : ∀ (n : Nat) x, rows[n]? = some x → ∃ rt, e.typedRows[n]? = some rt ∧ x.row = rt.1 ∧
      x.type = rt.2 ∧ sp.locate rt.1.state = some (x.key, x.index) := by
    intro n x hx
    have hn : n < e.typedRows.length := by
      rw [← hlen]; exact (List.getElem?_eq_some_iff.1 hx).1
    obtain ⟨x', h1, h2⟩ := hget' n _ (List.getElem?_eq_getElem hn)
    rw [hx] at h1; cases h1
    exact ⟨_, List.getElem?_eq_getElem hn, h2⟩
  obtain ⟨base, hbase, hb⟩ := e.baseDraws_spec sp rows (by
    intro x hx
    obtain ⟨n, hn⟩ := List.mem_iff_getElem?.1 hx
    obtain ⟨rt, hrt, _, _, hl⟩ := hback n x hn
    obtain ⟨r, hr, t, ht, _, d, dk, pos, _, _, _, _, _, _, _, g1, g2, _⟩ := hrow rt (List.mem_of_getElem? hrt)
    rw [hl] at g1; cases g1
    exact ⟨_, g2⟩)
  have hlabels : rows.map LocatedRow.label = e.typedRows.map labelOf := by
    apply List.ext_getElem?
    intro n
    rw [List.getElem?_map, List.getElem?_map]
    cases hn : e.typedRows[n]? with
    | none =>
      rw [List.getElem?_eq_none_iff] at hn
      rw [List.getElem?_eq_none (by omega)]; rfl
    | some rt =>
      obtain ⟨x, hx, h1, h2, _⟩ := hget' n rt hn
      rw [hx, Option.map_some, Option.map_some]
      simp only [LocatedRow.label, labelOf, h1, h2]
  have hlabnd : (rows.map LocatedRow.label).Nodup := by rw [hlabels]; exact e.labels_nodup hfits.index
  let size : Nat → Nat × Nat := e.sizeOf bt.space.complexes rows
  let F : LocatedRow × Nat → Option LoglikeRow := fun xn => do
    let draws ← base.get? xn.1.key
    let own ← draws[(rows.take xn.2).countP fun r => r.key = xn.1.key]?
    e.rowLoglike p sp cvs xn.1 own
  have hQ : ∀ (n : Nat) rt, e.typedRows[n]? = some rt → ∃ y : LikelihoodTerm,
      (∃ r ∈ e.data, ∃ t < e.typeCount, rt = (e.typed r t, t) ∧ TermFollows b w m future V e p size
        (e.sourceOf rows r.id r.state.core.period t) r t y ∧ TermUses b w m future V e p r t y) ∧
      ∃ x, rows[n]? = some x ∧ F (x, n) = some ⟨rt.1.id, rt.1.state.core.period, rt.2, clip e.lo e.hi (Real.log y.prob),
          clip e.lo e.hi (Real.log y.density)⟩ := by
    intro n rt hn
    obtain ⟨x, hx, hxr, hxt, hl⟩ := hget' n rt hn
    obtain ⟨r, hr, t, ht, rfl, d, dk, pos, wages, nonpecs, cv, hd, hadm, hwage, hc, g1, g2, g3, g4, g5, g6, g7, g8⟩ :=
      hrow rt (List.mem_of_getElem? hn)
    rw [hl] at g1
    simp only [Option.some.injEq, Prod.mk.injEq] at g1
    obtain ⟨rfl, rfl⟩ := g1
    have hxm : x ∈ rows := List.mem_of_getElem? hx
    have hbx := hb x hxm _ g2
    have hpos : (rows.take n).countP (fun r => decide (r.key = x.key)) < (e.base
        (rows.countP fun y => y.key = x.key) ((b.choiceSetAt d r.state.core).count true)
        (e.seed + (drawKeys rows).idxOf x.key)).length := by
      rw [(hfits.base _ _ _).1]
      exact countP_take_lt _ rows n x hx (by simp)
    obtain ⟨own, hown⟩ : ∃ own, (e.base (rows.countP fun y => y.key = x.key)
        ((b.choiceSetAt d r.state.core).count true) (e.seed + (drawKeys rows).idxOf x.key))[
          (rows.take n).countP (fun r => decide (r.key = x.key))]? = some own :=
      ⟨_, List.getElem?_eq_getElem hpos⟩
    have hownne := ((hfits.base _ _ _).2 own (List.mem_of_getElem? hown)).1
    have hcl : (b.choiceSetAt d r.state.core).length = p.measError.length :=
      hfits.choices d hd.mem _ hc
    have hxrow : x.row.choice = r.choice ∧ x.row.wage = r.wage ∧ x.row.id = r.id ∧
        x.row.state.core = r.state.core := by
      rw [hxr]; exact ⟨rfl, rfl, rfl, e.stateOf_core r t⟩
    obtain ⟨prob, h1, h2, h3, h6, h4⟩ := rowLoglike_spec e p sp hfits.qr hfits.cholesky hfits.hi cvs x own hownne
      ⟨r.state.core.period, b.choiceSetAt d r.state.core, d⟩ g2 wages nonpecs cv g3 g4 g5 (w d r.state.core)
      (m d r.state.core) (continuationOf b future V d r.state.core) g6 g7 g8
      (by rw [hxrow.1]; exact hadm) (by simp only [hcl]; exact hfits.rows)
      (fun row hrow => by simp only [hcl]; exact hfits.cols row hrow) hfits.lower
      (by simp only [hcl]; exact hfits.wages)
      (by rw [hxrow.1, hxrow.2.1]; exact hwage)
    simp only [hxrow.1, hxrow.2.1, hxrow.2.2.1, hxrow.2.2.2] at h1 h2 h3 h4 h6
    have hkm : x.key ∈ drawKeys rows := (mem_drawKeys _ _).2 ⟨x, hxm, rfl⟩
    have hkget : (drawKeys rows).getD ((drawKeys rows).idxOf x.key) 0 = x.key := by
      have hlt := List.idxOf_lt_length_of_mem hkm
      rw [List.getD_eq_getElem?_getD, List.getElem?_eq_getElem hlt, List.getElem_idxOf]; rfl
    have hcx : sp.complexes[x.key]? = some ⟨r.state.core.period, b.choiceSetAt d r.state.core, d⟩ := g2
    have hsize : size (e.seed + (drawKeys rows).idxOf x.key) =
        (rows.countP fun y => y.key = x.key, (b.choiceSetAt d r.state.core).count true) := by
      simp only [size, Estimation.sizeOf, Nat.add_sub_cancel_left, hkget, g2, Option.map_some, Option.getD_some]
    have hsrc : e.sourceOf rows r.id r.state.core.period t = (e.seed + (drawKeys rows).idxOf x.key,
        (rows.take n).countP fun r => decide (r.key = x.key)) := by
      rw [← e.sourceOf_spec rows hlabnd n x hx]
      simp only [LocatedRow.label, hxrow.2.2.1, hxrow.2.2.2, hxt]
    refine ⟨⟨prob, densityOf p.cholesky (b.choiceSetAt d r.state.core) (fun a => p.measError.getD a 0)
      (w d r.state.core) r.choice r.wage, own⟩, ⟨r, hr, t, ht, rfl, ⟨d, hd, h3, h1, rfl, h2, ?_, ?_⟩,
      d, hd, hadm, h6⟩, x, hx, ?_⟩
    · simp only [hsrc, hsize]
    · simp only [hsrc, hsize]; exact hown
    · simp only [F, hbx, Option.bind_eq_bind, Option.bind_some, hown, h4]
      simp only [hxt, Estimation.typed, e.stateOf_core]
  obtain ⟨term, hterm⟩ := exists_fun_of_nodup e.typedRows labelOf (e.labels_nodup hfits.index) _ hQ
  have hinj : ∀ r ∈ e.data, ∀ r' ∈ e.data, r.id = r'.id → r.state.core.period = r'.state.core.period → r = r' := by
    intro r hr r' hr' h1 h2
    exact List.inj_on_of_nodup_map hfits.index hr hr' (by rw [h1, h2])
  refine ⟨rows, term, hloc, ?_, ?_, ?_⟩
  · intro r hr t ht
    obtain ⟨n, hn⟩ := List.mem_iff_getElem?.1 ((e.mem_typedRows _).2 ⟨r, hr, t, ht, rfl⟩)
    obtain ⟨⟨r', hr', t', ht', heq, hf⟩, _⟩ := hterm n _ hn
    have hl := congrArg labelOf heq
    rw [e.labelOf_typed, e.labelOf_typed, Prod.mk.injEq, Prod.mk.injEq] at hl
    obtain ⟨l1, l2, rfl⟩ := hl
    rw [hinj r hr r' hr' l1 l2]
    rw [e.labelOf_typed, hinj r hr r' hr' l1 l2] at hf
    exact hf
  · intro r hr t ht r' hr' t' ht' h
    obtain ⟨n, hn⟩ := List.mem_iff_getElem?.1 ((e.mem_typedRows _).2 ⟨r, hr, t, ht, rfl⟩)
    obtain ⟨n', hn'⟩ := List.mem_iff_getElem?.1 ((e.mem_typedRows _).2 ⟨r', hr', t', ht', rfl⟩)
    have hlabel : ∀ (k : Nat) (r : EstimationRow) (t : Nat), e.typedRows[k]? = some (e.typed r t, t) →
        ∃ x, rows[k]? = some x ∧ x.label = (r.id, r.state.core.period, t) := by
      intro k r t hk
      obtain ⟨x, hx, h1, h2, _⟩ := hget' k _ hk
      refine ⟨x, hx, ?_⟩
      rw [← e.labelOf_typed]
      simp only [LocatedRow.label, labelOf, h1, h2]
    obtain ⟨x, hx, l1⟩ := hlabel n r t hn
    obtain ⟨x', hx', l2⟩ := hlabel n' r' t' hn'
    have hs1 := e.sourceOf_spec rows hlabnd n x hx
    have hs2 := e.sourceOf_spec rows hlabnd n' x' hx'
    rw [l1] at hs1
    rw [l2] at hs2
    simp only at hs1 hs2
    rw [hs1, hs2, Prod.mk.injEq] at h
    obtain ⟨h1, h2⟩ := h
    have hk : x.key = x'.key := by
      have hm := (mem_drawKeys rows x.key).2 ⟨x, List.mem_of_getElem? hx, rfl⟩
      exact (List.idxOf_inj hm).1 (by omega)
    rw [← hk] at h2
    have hnn : n = n' := by
      rcases Nat.lt_trichotomy n n' with h | h | h
      · have := countP_take_mono (fun r => decide (r.key = x.key)) rows n n' h x hx (by simp)
        omega
      · exact h
      · have := countP_take_mono (fun r => decide (r.key = x.key)) rows n' n h x' hx' (by simp [hk])
        omega
    subst hnn
    rw [hn] at hn'
    have hl := congrArg labelOf (Option.some.inj hn')
    rw [e.labelOf_typed, e.labelOf_typed, Prod.mk.injEq, Prod.mk.injEq] at hl
    exact ⟨hinj r hr r' hr' hl.1 hl.2.1, hl.2.2⟩
  · unfold Estimation.loglikeRows
    rw [hloc, Option.bind_eq_bind, Option.bind_some, hbase, Option.bind_eq_bind, Option.bind_some, hcvs,
      Option.bind_eq_bind, Option.bind_some]
    show rows.zipIdx.mapM F = _
    rw [mapM_eq_some_iff, List.forall₂_iff_get]
    refine ⟨by simp [hlen], ?_⟩
    intro n h1 h2
    have hn : n < e.typedRows.length := by simpa using h2
    obtain ⟨_, x, hx, hF⟩ := hterm n _ (List.getElem?_eq_getElem hn)
    have hx' : rows.zipIdx.get ⟨n, h1⟩ = (x, n) := by
      rw [List.get_eq_getElem, List.getElem_zipIdx]
      have := (List.getElem?_eq_some_iff.1 hx).2
      rw [this]; simp
    rw [hx', hF]
    simp

end

end Respy
