import Verif.Props.ReachableModels

/-!
# C105: the state space of Robinson Crusoe is the set of reachable states
-/

namespace Respy

/-- The state space of the extended model of Robinson Crusoe. No starting values and maxima are given. -/
def robinsonSpec (nPeriods : Nat) : CoreSpec where
  nPeriods := nPeriods
  nChoices := 3
  starts := [[0], [0]]
  maxExp := [nPeriods - 1, nPeriods - 1]
  nLags := 1
  filters := robinsonFilters

theorem robinsonSpec_robinson (nPeriods : Nat) : (robinsonSpec nPeriods).Robinson :=
  ⟨rfl, rfl, rfl, rfl, fun _ _ _ _ _ => Iff.rfl⟩

theorem CoreSpec.Robinson.wf {spec : CoreSpec} (rc : spec.Robinson) (hp : spec.nPeriods ≤ 256) : spec.WF := by
  refine ⟨by simp [rc.starts], by simp [rc.starts, rc.maxima], ?_, ?_, ?_, by simp [rc.choices]⟩
  · intro l hl
    simp only [rc.starts, List.mem_cons, List.not_mem_nil, or_false, or_self] at hl
    simp [hl]
  · intro l hl x hx
    simp only [rc.starts, List.mem_cons, List.not_mem_nil, or_false, or_self] at hl
    rw [hl] at hx
    simp at hx
    omega
  · intro m hm
    simp only [rc.maxima, List.mem_cons, List.not_mem_nil, or_false, or_self] at hm
    omega

/-- What the filters leave. -/
structure KeptCrusoe (t fish friday lag : Nat) : Prop where
  home : 0 < t → fish + friday = t → lag ≠ 2
  early : t ≤ 2 → friday = 0
  late : 3 ≤ t → friday + 2 ≤ t
  before : 0 < friday → fish ≠ 0
  again : 0 < friday → fish = 1 → lag ≠ 0
  always : t = friday + 2 → 2 < t → lag = 1
  fished : fish = 0 → lag ≠ 0
  talked : friday = 0 → lag ≠ 1

theorem robinsonFilters_iff (t fish friday lag : Nat) :
    (∀ f ∈ robinsonFilters, f ⟨t, [fish, friday], [some lag]⟩ = false) ↔ KeptCrusoe t fish friday lag := by
  unfold robinsonFilters
  simp only [List.forall_mem_cons, CoreState.lagIs, List.getElem?_cons_zero, Option.some.injEq, Bool.and_eq_false_iff,
    decide_eq_false_iff_not, Bool.not_eq_false', decide_eq_true_eq, List.getD_cons_zero, List.getD_cons_succ,
    List.not_mem_nil, false_imp_iff, implies_true, and_true]
  constructor
  · intro h
    constructor <;> omega
  · rintro ⟨h1, h2, h3, h4, h5, h6, h7, h8⟩
    omega

theorem robinsonMay_iff (t fish friday : Nat) (lags : List (Option Nat)) (choice : Nat) :
    RobinsonMay ⟨t, [fish, friday], lags⟩ choice ↔ robinsonForbidden ⟨t, [fish, friday], lags⟩ choice = false := by
  simp only [RobinsonMay, robinsonForbidden, List.getElem?_cons_zero, Option.some.injEq, ne_eq, List.getD_cons_zero,
    Bool.and_eq_false_iff, Bool.or_eq_false_iff, decide_eq_false_iff_not]
  omega

section
variable (spec : CoreSpec) (rc : spec.Robinson) (hp : spec.nPeriods ≤ 256)
include rc hp

theorem mem_robinson_core (core : List CoreState) (hc : createCore spec = some core) (s : CoreState) :
    s ∈ core ↔ ∃ fish friday lag : Nat, s = ⟨s.period, [fish, friday], [some lag]⟩ ∧ s.period < spec.nPeriods ∧ lag < 3 ∧
      fish + friday ≤ s.period ∧ KeptCrusoe s.period fish friday lag := by
  rw [C05_core_mem_iff _ (rc.wf hp) (by rw [rc.lags]) core hc, rc.lags, rc.starts, rc.maxima, rc.choices]
  constructor
  · rintro ⟨h1, ⟨init, extra, h5, h6, h7, h8, h9⟩, h2, h3, h4⟩
    match init, h5, extra, h6 with
    | [x, y], h5, [a, b], _ =>
      simp only [List.forall₂_cons, List.mem_singleton, List.forall₂_nil_right_iff, and_true] at h5
      obtain ⟨rfl, rfl⟩ := h5
      obtain ⟨l, hl⟩ := List.length_eq_one_iff.1 h3
      obtain ⟨lag, hlag, rfl⟩ := h4 l (by rw [hl]; exact List.mem_singleton.2 rfl)
      obtain ⟨p, e, ls⟩ := s
      dsimp only at hl h7 h9
      subst hl; subst h7
      refine ⟨a, b, lag, by simp, h1, hlag, by simpa using h8, (robinsonFilters_iff _ _ _ _).1 ((rc.filters _ _ _ _ hlag).1 h9)⟩
  · rintro ⟨a, b, lag, hs, h1, h2, h3, h4⟩
    obtain ⟨t, e, ls⟩ := s
    dsimp only at h1 h3 h4
    simp only [CoreState.mk.injEq, true_and] at hs
    obtain ⟨rfl, rfl⟩ := hs
    refine ⟨h1, ⟨[0, 0], [a, b], ?_, rfl, by simp, ?_, (rc.filters _ _ _ _ h2).2 ((robinsonFilters_iff _ _ _ _).2 h4)⟩, ?_, rfl, ?_⟩
    · simp
    · show [a, b].sum ≤ t
      simp only [List.sum_cons, List.sum_nil]
      omega
    · simp only [List.forall₂_cons, List.forall₂_nil_right_iff, and_true]
      omega
    · intro l hl
      exact ⟨lag, h2, List.mem_singleton.1 hl⟩

/-- **C105.** For any number of periods the state space of the extended model of Robinson Crusoe consists exactly of the
states which can be reached. -/
theorem C105_robinson_reachable (core : List CoreState) (hc : createCore spec = some core) (s : CoreState) :
    s ∈ core ↔ ReachableState spec (fun lags => lags = [some 2]) RobinsonMay s := by
  rw [mem_robinson_core spec rc hp core hc]
  constructor
  · rintro ⟨fish, friday, lag, hs, h1, h2, h3, h4⟩
    obtain ⟨t, e, ls⟩ := s
    simp only [CoreState.mk.injEq, true_and] at hs
    obtain ⟨rfl, rfl⟩ := hs
    dsimp only at h1 h3 h4
    induction t generalizing fish friday lag with
    | zero =>
      have hlag : lag = 2 := by
        have := h4.fished (by omega)
        have := h4.talked (by omega)
        omega
      have hf : fish = 0 := by omega
      have hr : friday = 0 := by omega
      subst hlag; subst hf; subst hr
      exact .start _ _ h1 (by simp [rc.starts]) (by simp [rc.maxima]) rfl
    | succ t ih =>
      obtain ⟨a1, a2, a3, a4, a5, a6, a7, a8⟩ := h4
      -- the state before
      obtain ⟨fish', friday', lag', g1, g2, g3, g4, g5⟩ : ∃ fish' friday' lag', lag' < 3 ∧ fish' + friday' ≤ t ∧
          KeptCrusoe t fish' friday' lag' ∧ (lag = 1 → 2 ≤ t ∧ fish' ≠ 0) ∧
          [fish, friday] = [fish' + if lag = 0 then 1 else 0, friday' + if lag = 1 then 1 else 0] := by
        have hlag : lag = 0 ∨ lag = 1 ∨ lag = 2 := by omega
        obtain ⟨fish', friday', b1, b2, b3, b4, b5, b6, b7, b8⟩ : ∃ fish' friday', fish' + friday' ≤ t ∧
            (t ≤ 2 → friday' = 0) ∧ (3 ≤ t → friday' + 2 ≤ t) ∧ (0 < friday' → fish' ≠ 0) ∧
            (lag = 1 → 2 ≤ t ∧ fish' ≠ 0) ∧ (fish = fish' + if lag = 0 then 1 else 0) ∧
            (friday = friday' + if lag = 1 then 1 else 0) ∧ True := by
          rcases hlag with rfl | rfl | rfl
          · exact ⟨fish - 1, friday, by omega, by omega, by omega, by omega, by omega, by simp; omega, by simp,
              trivial⟩
          · exact ⟨fish, friday - 1, by omega, by omega, by omega, by omega, by omega, by simp, by simp; omega,
              trivial⟩
          · exact ⟨fish, friday, by omega, by omega, by omega, by omega, by omega, by simp, by simp, trivial⟩
        by_cases hr : friday' = 0
        · by_cases hf : fish' = 0
          · exact ⟨fish', friday', 2, by omega, b1, by constructor <;> omega, b5, by rw [b6, b7]⟩
          · exact ⟨fish', friday', 0, by omega, b1, by constructor <;> omega, b5, by rw [b6, b7]⟩
        · exact ⟨fish', friday', 1, by omega, b1, by constructor <;> omega, b5, by rw [b6, b7]⟩
      have hprev := ih fish' friday' lag' g1 (by omega) g2 g3
      have hstep := ReachableState.step _ lag hprev (by exact h1) (by rw [rc.choices]; exact h2) (by
          intro h
          obtain ⟨c1, c2⟩ := g4 h
          exact ⟨c1, by simpa using c2⟩) (by
        intro x m hx hm
        have hlt : t + 1 < spec.nPeriods := h1
        have hl : lag = 0 ∨ lag = 1 ∨ lag = 2 := by omega
        rw [rc.maxima] at hm
        rcases hl with rfl | rfl | rfl <;> simp at hx hm <;> omega)
      rw [g5]
      have hexp : ([fish', friday'].mapIdx fun i e => if i = lag then e + 1 else e) =
          [fish' + if lag = 0 then 1 else 0, friday' + if lag = 1 then 1 else 0] := by
        have hl : lag = 0 ∨ lag = 1 ∨ lag = 2 := by omega
        rcases hl with rfl | rfl | rfl <;> rfl
      dsimp only at hstep
      rw [hexp] at hstep
      exact hstep
  · intro hr
    induction hr with
    | start init lags h1 h2 h3 h4 =>
      subst h4
      rw [rc.starts] at h2
      match init, h2 with
      | [x, y], h2 =>
        simp only [List.forall₂_cons, List.mem_singleton, List.forall₂_nil_right_iff, and_true] at h2
        obtain ⟨rfl, rfl⟩ := h2
        exact ⟨0, 0, 2, rfl, h1, by omega, by simp, by constructor <;> simp⟩
    | step s c _ h1 h2 h3 _ ih =>
      obtain ⟨fish, friday, lag, hs, g1, g2, g3, g4⟩ := ih
      obtain ⟨t, e, ls⟩ := s
      simp only [CoreState.mk.injEq, true_and] at hs
      obtain ⟨rfl, rfl⟩ := hs
      dsimp only at g1 g3 g4 h1 h3
      obtain ⟨a1, a2, a3, a4, a5, a6, a7, a8⟩ := g4
      have hc : c = 0 ∨ c = 1 ∨ c = 2 := by rw [rc.choices] at h2; omega
      simp only [RobinsonMay, List.getElem?_cons_zero, Option.some.injEq, ne_eq] at h3
      refine ⟨fish + if c = 0 then 1 else 0, friday + if c = 1 then 1 else 0, c, ?_, h1, by omega, ?_, ?_⟩
      · rcases hc with rfl | rfl | rfl <;> rfl
      · rcases hc with rfl | rfl | rfl <;> simp <;> omega
      · rcases hc with rfl | rfl | rfl <;> constructor <;> simp <;> omega

/-- **C105.** Choices which the model of Robinson Crusoe does not forbid do not lead out of its state space. -/
theorem C105_robinson_closed (core : List CoreState) (hc : createCore spec = some core) (s : CoreState) (hs : s ∈ core)
    (ht : s.period + 1 < spec.nPeriods) (code : Nat) (hcode : code < 3) (hok : robinsonForbidden s code = false) :
    lawOfMotion s code ∈ core := by
  obtain ⟨fish, friday, lag, he, h1, h2, h3, h4⟩ := (mem_robinson_core spec rc hp core hc s).1 hs
  have hr := (C105_robinson_reachable spec rc hp core hc s).1 hs
  refine (C105_robinson_reachable spec rc hp core hc _).2 ?_
  have hmay : RobinsonMay s code := by
    rw [he] at hok ⊢
    exact (robinsonMay_iff _ _ _ _ _).2 hok
  have hstep := ReachableState.step s code hr ht (by rw [rc.choices]; exact hcode) hmay (by
    intro x m hx hm
    have hl : code = 0 ∨ code = 1 ∨ code = 2 := by omega
    rw [he] at hx
    rw [rc.maxima] at hm
    rcases hl with rfl | rfl | rfl <;> simp at hx hm <;> omega)
  rw [updateExp_eq] at hstep
  have : lawOfMotion s code = ⟨s.period + 1, updateExp s.exp code,
      s.lags.mapIdx fun i l => if i = 0 then some code else l⟩ := by
    rw [he]
    rfl
  rw [this]
  exact hstep

end

end Respy
